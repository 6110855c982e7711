{"id": "C01", "title": "binary.Write then binary.Read is the identity", "statement": "For every slice type supported by package binary, writing a slice into a large enough byte slice with binary.Write and a stride that is zero or at least the element size, and then reading the same bytes with binary.Read into a slice of the same type and length, returns no error and yields exactly the original elements, bit for bit.", "quantifier": "all 44 supported slice types, all contents, all lengths, all strides (0 or >= element size), all destination buffers that are long enough", "why_tests_cant": "The domain is unbounded in length, stride and contents; tests fix a handful of small slices and almost only stride 0.", "anchors": ["binary/encode.go:Read", "binary/encode.go:Write", "binary/binary.go", "binary/unsafe.go"]}
{"id": "C02", "title": "binary.Write uses the glTF memory layout", "statement": "After binary.Write succeeds, component (row r, column c) of element i sits, in little-endian order, at byte stride*i + c*columnStride + r*componentSize, where columnStride is the column length rounded up to four bytes for matrices.", "quantifier": "all supported slice types, all lengths and contents, all strides that are 0 or >= element size, every element, row and column", "why_tests_cant": "A test can only look at the bytes of the few slices it chose; layout must hold at every index and stride.", "anchors": ["binary/encode.go:Write", "binary/binary.go", "gltf.go:SizeOfElement"]}
{"id": "C03", "title": "binary.Write touches nothing outside the components it writes", "statement": "binary.Write leaves every byte of the destination that is not part of a written component unchanged (padding inside elements, gaps between strided elements, the tail of the buffer) and never changes the length of the destination.", "quantifier": "all supported slice types, contents, lengths, strides 0 or >= element size, and destination buffers", "why_tests_cant": "Requires comparing every untouched byte for all buffers and strides.", "anchors": ["binary/encode.go:Write", "binary/binary.go"]}
{"id": "C04", "title": "binary.Read and binary.Write report short buffers exactly, and do not panic", "statement": "For a non-negative stride, binary.Read and binary.Write return io.ErrShortBuffer exactly when the byte slice is shorter than stride*(n-1)+elementSize (n>0 elements), leave the data untouched in that case, and otherwise succeed without panicking.", "quantifier": "all supported slice types, all lengths, all buffers, all strides that do not overflow", "why_tests_cant": "Boundary conditions must hold for every length/stride pair; tests hit few boundaries.", "anchors": ["binary/encode.go:Read", "binary/encode.go:Write"]}
{"id": "C05", "title": "SizeOfElement agrees with the glTF alignment rules", "statement": "gltf.SizeOfElement(c,t) equals the number of columns times the column size rounded up to four bytes for matrices, the vector size rounded up to four bytes for vectors, and the component size for scalars; it is never smaller than ByteSize*Components and is a multiple of four for every non-scalar type.", "quantifier": "all component types and accessor types (all 42 valid pairs), plus arbitrary out of range enum values", "why_tests_cant": "It is a finite table, but tests list expected numbers by hand instead of relating them to the rule and to the bytes that binary.Write really touches.", "anchors": ["gltf.go:SizeOfElement", "const.go:ComponentType.ByteSize", "const.go:AccessorType.Components"]}
{"id": "C06", "title": "MakeSlice and Type are inverse", "statement": "For a valid component type, accessor type and non-negative count, binary.MakeSlice returns a zeroed slice for which binary.Type reports the same component type, accessor type and count; for an invalid pair it returns an error and never panics.", "quantifier": "all enum values (valid or not) and all counts the allocator accepts", "why_tests_cant": "count is unbounded and enum values range over the whole underlying integer type.", "anchors": ["binary/slice.go:MakeSlice", "binary/slice.go:Type", "binary/slice.go:checkAccessorType"]}
{"id": "C07", "title": "MakeSliceBuffer returns the right type and length for any scratch buffer", "statement": "binary.MakeSliceBuffer(c,t,count,buffer) with a valid pair and non-negative count returns a slice whose Type is (c,t,count) whatever the length and content of buffer.", "quantifier": "all valid enum pairs, all counts, all buffers", "why_tests_cant": "Depends on the relation between buffer size and count, unbounded; some type pairs are only reachable with non-empty buffers.", "anchors": ["binary/slice.go:MakeSliceBuffer", "binary/slice.go:castSlice", "binary/slice.go:reslice"]}
{"id": "C08", "title": "ReadAccessor does not depend on the scratch buffer", "statement": "modeler.ReadAccessor returns the same error or the same data whatever scratch buffer (length, contents) the caller passes, including nil.", "quantifier": "all documents, all accessors, all pairs of scratch buffers", "why_tests_cant": "Stale contents of a recycled buffer is a history dependence: a test would have to try every previous content.", "anchors": ["modeler/read.go:ReadAccessor", "binary/slice.go:MakeSliceBuffer"]}
{"id": "C09", "title": "A written accessor reads back", "statement": "After modeler.WriteAccessor(doc, target, data) returns index i, modeler.ReadAccessor(doc, doc.Accessors[i], nil) returns exactly data, with the same element type (color.RGBA and color.RGBA64 come back as [4]uint8 and [4]uint16 with the same components).", "quantifier": "all documents whose last buffer is non-nil, all targets, all supported slice types and contents", "why_tests_cant": "Depends on the offset arithmetic for every prior buffer length and data size.", "anchors": ["modeler/write.go:WriteAccessor", "modeler/read.go:ReadAccessor"]}
{"id": "C10", "title": "Later writes never disturb earlier accessors", "statement": "Take any document and any sequence of later modeler writes (accessors, interleaved accessors, buffer views, images, typed helpers, failed interleaved writes): whatever ReadAccessor or ReadBufferView successfully returned for an existing accessor or buffer view before the sequence it still returns after it.", "quantifier": "all documents, all finite histories of modeler write calls, every pre-existing accessor and buffer view", "why_tests_cant": "Quantifies over every history of writes.", "anchors": ["modeler/write.go:writeBufferViews", "modeler/write.go:ensurePadding"]}
{"id": "C11", "title": "Documents built with the modeler stay well formed", "statement": "Starting from NewDocument, after any history of modeler writes every buffer has ByteLength equal to its data length, every buffer view lies inside its buffer, and every accessor refers to an existing buffer view that is long enough for its count, type and stride.", "quantifier": "all histories of modeler write calls with arbitrary data", "why_tests_cant": "Reachability invariant over unbounded histories.", "anchors": ["modeler/write.go", "gltf.go:NewDocument"]}
{"id": "C12", "title": "Accessor data is four byte aligned", "statement": "The data of every accessor created by WriteAccessor starts at an offset of the buffer that is a multiple of four, and so does the buffer view of every interleaved write, whatever unaligned data (images, bytes) was written before; at most three padding bytes are inserted and they are zero.", "quantifier": "all documents and histories of writes", "why_tests_cant": "Alignment must hold after every possible previous length.", "anchors": ["modeler/write.go:ensurePadding", "modeler/write.go:getPadding"]}
{"id": "C13", "title": "Interleaved accessors read back", "statement": "After modeler.WriteAccessorsInterleaved(doc, d1..dk) succeeds with indices i1..ik, ReadAccessor on doc.Accessors[ij] returns exactly dj for every j.", "quantifier": "all documents, all k, all slice types and contents of equal length", "why_tests_cant": "Unbounded number and combination of element types; interactions between strides and neighbours.", "anchors": ["modeler/write.go:WriteAccessorsInterleaved", "modeler/write.go:writeBufferViews", "modeler/read.go:ReadAccessor"]}
{"id": "C14", "title": "Interleaved writes with different lengths are rejected cleanly", "statement": "WriteAccessorsInterleaved and WriteBufferViewInterleaved return an error exactly when two of the slices have different lengths; on error no accessor and no buffer view is added and existing buffer bytes are kept (only alignment padding may have been appended).", "quantifier": "all documents and all lists of slices", "why_tests_cant": "Needs all combinations of lengths, and the frame over the whole document.", "anchors": ["modeler/write.go:writeBufferViews", "modeler/write.go:WriteAccessorsInterleaved"]}
{"id": "C15", "title": "Interleaved writes accept empty slices", "statement": "WriteBufferViewInterleaved and WriteAccessorsInterleaved never panic for slices of supported types of equal length, including length zero.", "quantifier": "all documents, all lists of slices of equal length", "why_tests_cant": "The empty case interacts with the number of slices and the current buffer length.", "anchors": ["modeler/write.go:writeBufferViews"]}
{"id": "C16", "title": "WritePrimitiveAttributes maps names to the accessors of their data", "statement": "When WritePrimitiveAttributes succeeds, each returned name is the name of a non-empty attribute, and its index designates an accessor that reads back the data of the last attribute with that name, has Normalized set exactly for integer texture coordinates, weights and colors, and, for POSITION, has Min/Max set.", "quantifier": "all documents and all attribute lists (any names, any types)", "why_tests_cant": "Unbounded lists, duplicate names, empty attributes mixed in.", "anchors": ["modeler/write.go:WritePrimitiveAttributes", "modeler/write.go:checkTextureCoord", "modeler/write.go:checkWeights", "modeler/write.go:checkJoints", "modeler/write.go:checkColor"]}
{"id": "C17", "title": "WritePrimitiveAttributes rejects wrong types without touching the document", "statement": "If a non-empty attribute has a slice type that is not allowed for its well-known name, WritePrimitiveAttributes returns an error and the document is exactly as before.", "quantifier": "all documents and all attribute lists", "why_tests_cant": "The bad attribute can be anywhere in a list of any length.", "anchors": ["modeler/write.go:WritePrimitiveAttributes"]}
{"id": "C18", "title": "Position bounds are exact", "statement": "For finite positions, the Min/Max stored by WritePosition bound every vertex component wise, and for a non-empty slice each bound is attained by some vertex.", "quantifier": "all slices of positions without NaN or infinities", "why_tests_cant": "All lengths and values.", "anchors": ["modeler/write.go:minMaxFloat32", "modeler/write.go:WritePosition"]}
{"id": "C19", "title": "Writes return the index of what they appended", "statement": "Every modeler write appends at the end: the returned index is the previous length of the corresponding list, and all previous accessors, buffer views and images are unchanged.", "quantifier": "all documents and all write calls", "why_tests_cant": "Frame property over arbitrary documents.", "anchors": ["modeler/write.go"]}
{"id": "C20", "title": "ReadBufferView returns the exact bytes", "statement": "When it succeeds, ReadBufferView returns bytes [ByteOffset, ByteOffset+ByteLength) of the designated buffer; it fails when the buffer index or the range is past the end.", "quantifier": "all documents and buffer views", "why_tests_cant": "All offsets and lengths, including ones where the sum overflows.", "anchors": ["modeler/read.go:ReadBufferView"]}
{"id": "C21", "title": "ReadAccessor and ReadBufferView never panic on malformed documents", "statement": "As documented, ReadAccessor and ReadBufferView return an error instead of panicking for every document and accessor, however malformed.", "quantifier": "all documents, accessors, buffer views and scratch buffers", "why_tests_cant": "The set of malformed documents is infinite; tests only try the ones the author thought of.", "anchors": ["modeler/read.go:ReadAccessor", "modeler/read.go:ReadBufferView"]}
{"id": "C22", "title": "Sparse accessors", "statement": "For a sparse accessor, a successful ReadAccessor returns the dense data (zeros without a buffer view) with the elements at the sparse indices replaced by the sparse values, later duplicates winning, and all others unchanged.", "quantifier": "all documents, sparse accessors of all types, all index and value contents", "why_tests_cant": "All index patterns, including duplicates.", "anchors": ["modeler/read.go:ReadAccessor"]}
{"id": "C23", "title": "Typed readers return Count elements whatever buffer they recycle", "statement": "ReadIndices, ReadNormal, ReadTangent, ReadTextureCoord, ReadWeights, ReadJoints, ReadPosition, ReadColor, ReadColor64 and ReadInverseBindMatrices return a slice of exactly acr.Count elements that depends on the document and accessor only, not on the buffer passed for reuse.", "quantifier": "all documents, accessors and reuse buffers", "why_tests_cant": "Reuse buffers of every length and content.", "anchors": ["modeler/read.go:makeBufferOf", "modeler/read.go:ReadIndices"]}
{"id": "C24", "title": "Typed readers check the accessor type", "statement": "Each typed reader returns an error, without reading anything, exactly for the accessor and component types that it does not document as accepted, and every accessor produced by the matching typed writer is accepted.", "quantifier": "all accessors, all readers, all enum values", "why_tests_cant": "Cross product of readers, writers and types.", "anchors": ["modeler/read.go", "modeler/write.go"]}
{"id": "C25", "title": "Indices and joints are widened without loss", "statement": "ReadIndices and ReadJoints return the numbers stored in the buffer, independently of whether they are stored as 8, 16 or 32 bit unsigned integers; in particular WriteIndices then ReadIndices gives back the same indices.", "quantifier": "all index and joint slices", "why_tests_cant": "All lengths and values.", "anchors": ["modeler/read.go:ReadIndices", "modeler/read.go:ReadJoints", "modeler/write.go:WriteIndices"]}
{"id": "C26", "title": "Color reads keep the normalized value", "statement": "ReadColor and ReadColor64 convert between 8 and 16 bit integer colors so that the normalized value is kept up to the resolution of the result (v/255 = w/65535 when widening, the nearest or truncated value when narrowing), with opaque alpha when there is none.", "quantifier": "all 8 and 16 bit color values, all lengths", "why_tests_cant": "The value domain is large and tests check selected values.", "anchors": ["modeler/read.go:ReadColor", "modeler/read.go:ReadColor64"]}
{"id": "C27", "title": "Concurrent typed reads do not interfere", "statement": "Any number of goroutines running typed readers concurrently on the same document obtain the same results as if each ran alone, whatever the interleaving and whatever the shared pools contain.", "quantifier": "all interleavings of the pool operations and buffer accesses of any number of readers", "why_tests_cant": "Interleavings cannot be enumerated by tests.", "anchors": ["modeler/read.go:bufPool", "modeler/read.go:uint32Pool", "modeler/read.go:ReadIndices"]}
{"id": "C28", "title": "Normalized integers survive denormalization", "statement": "NormalizeUbyte(DenormalizeUbyte(v)) = v and NormalizeUshort(DenormalizeUshort(v)) = v for every v; for the signed variants the result is v except for the minimum value, which maps to minimum+1.", "quantifier": "all 8 and 16 bit integers", "why_tests_cant": "Floating point rounding at every value; tests check a few values.", "anchors": ["math.go:NormalizeByte", "math.go:DenormalizeByte", "math.go:NormalizeUshort", "math.go:DenormalizeUshort", "math.go:NormalizeShort", "math.go:DenormalizeShort"]}
{"id": "C29", "title": "Denormalization is monotone and in range", "statement": "Denormalize functions map into [0,1] (unsigned) or [-1,1] (signed), map the extreme values to the ends of the range, and are monotone.", "quantifier": "all 8 and 16 bit integers", "why_tests_cant": "Order relations over all pairs of values under rounding.", "anchors": ["math.go:DenormalizeByte", "math.go:DenormalizeUbyte", "math.go:DenormalizeShort", "math.go:DenormalizeUshort"]}
{"id": "C30", "title": "GLB output is a well formed container", "statement": "A successful binary Encode whose first buffer (if it has no URI) holds ByteLength bytes writes a GLB: 12 byte header with magic, version 2 and the exact total length, a JSON chunk padded with spaces to four bytes and, if the first buffer has no URI, a BIN chunk padded with zeros to four bytes, and nothing else.", "quantifier": "all documents whose encoding is below 4 GiB", "why_tests_cant": "Padding and length arithmetic for every JSON and buffer length modulo four.", "anchors": ["encode.go:Encoder.encodeBinary", "const.go:glbHeader"]}
{"id": "C31", "title": "GLB round trip", "statement": "Decoding the output of a binary Encode gives back the JSON document and the bytes of the first buffer, for every JSON length and buffer length modulo four.", "quantifier": "all encodable documents with a consistent non-empty first buffer", "why_tests_cant": "Padding arithmetic and stream positions for all sizes.", "anchors": ["encode.go:Encoder.encodeBinary", "decoder.go:Decoder.decodeDocument", "decoder.go:Decoder.decodeBinaryBuffer"]}
{"id": "C32", "title": "Decode does not depend on how the reader splits the stream", "statement": "The result of Decode depends on the bytes of the stream only, not on how many bytes each Read call of the underlying io.Reader returns.", "quantifier": "all byte streams and all sequences of read sizes", "why_tests_cant": "The read schedule is chosen by the environment (network, pipes).", "anchors": ["decoder.go:Decoder.decodeDocument", "decoder.go:Decoder.readGLBHeader"]}
{"id": "C33", "title": "Invalid GLB headers are rejected", "statement": "Decode fails on a GLB whose first chunk is not JSON or whose JSON chunk does not fit the declared total length.", "quantifier": "all header field values", "why_tests_cant": "32 bit arithmetic: all values including those where the sum wraps.", "anchors": ["decoder.go:Decoder.validateGLBHeader"]}
{"id": "C34", "title": "A nil error from Encode means everything was written", "statement": "If Encode returns nil then the writer accepted every byte of the encoding without error.", "quantifier": "all documents and all failure points of the writer", "why_tests_cant": "Every possible failing write call / crash point.", "anchors": ["encode.go:Encoder.Encode", "encode.go:Encoder.encodeBinary"]}
{"id": "C35", "title": "Embedded buffers round trip", "statement": "Buffer.EmbeddedResource followed by decoding the data URI yields the same bytes, for every content; IsEmbeddedResource holds afterwards; a data URI with invalid base64 is rejected.", "quantifier": "all byte strings", "why_tests_cant": "All lengths modulo three and all byte values.", "anchors": ["gltf.go:Buffer.EmbeddedResource", "gltf.go:Buffer.marshalData", "gltf.go:Image.MarshalData"]}
{"id": "C36", "title": "Decode opens only local paths", "statement": "Every path without a URI scheme that Decode asks the file system to open is local: it is relative, non-empty and does not climb out of the root, whatever percent-encoding, backslashes or dot segments the document contains.", "quantifier": "all documents and URIs", "why_tests_cant": "Security property over all attacker chosen strings.", "anchors": ["decoder.go:Decoder.decodeBuffer", "decoder.go:validateBufferURI", "decoder.go:sanitizeURI"]}
{"id": "C37", "title": "Encode creates files only below the target directory", "statement": "Every file Encode or Save creates for an external buffer is named by a local path: relative and not climbing out of the directory.", "quantifier": "all documents and URIs", "why_tests_cant": "Security property over all attacker chosen strings.", "anchors": ["encode.go:Encoder.encodeBuffer", "encode.go:dirFS.Create"]}
{"id": "C38", "title": "Only relative URIs reach the file system", "statement": "As documented, only buffers with relative URIs are read from and written to Fsys: buffers with an absolute URI (with a scheme) and embedded buffers cause no file system access.", "quantifier": "all documents and URIs", "why_tests_cant": "All URI strings.", "anchors": ["decoder.go:Decoder", "encode.go:Encoder", "decoder.go:validateBufferURI"]}
{"id": "C39", "title": "Document round trip", "statement": "Decoding the JSON text produced by Encode yields the same document up to the documented defaults: every field of every object (accessors, animations, asset, buffers, buffer views, cameras, images, materials, meshes, nodes, samplers, scenes, skins, textures, extensions and extras) is preserved.", "quantifier": "all documents with valid UTF-8 strings, finite numbers and valid enum values", "why_tests_cant": "Combinatorially many field combinations; each must be independently preserved.", "anchors": ["gltf.go", "encode.go", "const.go"]}
{"id": "C40", "title": "Defaults are stable under round trip", "statement": "For every node, material, texture info and PBR block, the value reported by each ...OrDefault method is the same before encoding and after decoding, and after decoding the optional pointers with defaults are non-nil.", "quantifier": "all nodes, materials, normal/occlusion textures, PBR blocks and punctual lights", "why_tests_cant": "All combinations of set, unset and default-valued fields.", "anchors": ["gltf.go:Node.MatrixOrDefault", "gltf.go:Material.AlphaCutoffOrDefault", "encode.go:Node.MarshalJSON", "encode.go:Material.MarshalJSON"]}
{"id": "C41", "title": "Enumerations round trip", "statement": "Every named constant of every enumeration is encoded as the value given by the glTF specification, different constants are encoded differently, and decoding gives the constant back.", "quantifier": "all constants of all enumerations", "why_tests_cant": "Finite, but tests sample; injectivity and exhaustiveness are not testable claims about the specification table.", "anchors": ["const.go"]}
{"id": "C42", "title": "Decoding enumerations is total", "statement": "Decoding any JSON number or string into an enumeration gives either an error or one of the named constants; only the accessor type rejects unknown names, the others fall back to the zero constant.", "quantifier": "all JSON numbers and strings", "why_tests_cant": "Unbounded input domain.", "anchors": ["const.go"]}
{"id": "C43", "title": "Enum String methods", "statement": "String returns the glTF name for every named constant and the type name with the number in parentheses for every other value; it never panics.", "quantifier": "all values of the underlying integer types", "why_tests_cant": "Whole integer domain; slicing tables could be off by one anywhere.", "anchors": ["const_strings.go"]}
{"id": "C44", "title": "Unknown extensions are preserved", "statement": "An extension without registered decoder, or whose decoder fails, is kept as raw JSON and written back with the same JSON value; a registered extension is decoded with the most recently registered function for its name.", "quantifier": "all extension names and payloads, all histories of registrations", "why_tests_cant": "Arbitrary payloads and registration orders.", "anchors": ["encode.go:Extensions.UnmarshalJSON", "gltf.go:RegisterExtension", "gltf.go:queryExtension"]}
{"id": "C45", "title": "Texture transform extension round trip", "statement": "MarshalJSON of a texture transform always produces valid JSON in which default offset and scale are omitted, and unmarshalling it gives the same offset, rotation, scale (zero scale becoming one) and texCoord.", "quantifier": "all texture transforms with finite numbers", "why_tests_cant": "The implementation edits JSON text with search and replace; all combinations of fields matter.", "anchors": ["ext/texturetransform/transform.go:TextureTranform.MarshalJSON", "ext/texturetransform/transform.go:removeProperty", "ext/texturetransform/transform.go:sanitizeJSON"]}
{"id": "C46", "title": "Specular glossiness extension round trip", "statement": "MarshalJSON of a PBRSpecularGlossiness always produces valid JSON and unmarshalling it gives back the same values, including the extras and extensions of its textures.", "quantifier": "all values with finite numbers and arbitrary extras", "why_tests_cant": "The implementation edits JSON text with search and replace; arbitrary user strings can contain the searched patterns.", "anchors": ["ext/specular/specular.go:PBRSpecularGlossiness.MarshalJSON", "ext/specular/specular.go:removeProperty", "ext/specular/specular.go:sanitizeJSON"]}
{"id": "C47", "title": "Punctual lights extension round trip", "statement": "A document with KHR_lights_punctual that was decoded can be encoded again, and decoding the result yields the same lights and light indices.", "quantifier": "all light lists and light indices", "why_tests_cant": "All combinations of optional fields.", "anchors": ["ext/lightspunctual/lightspunctual.go"]}
{"id": "C48", "title": "External buffers round trip through the file system", "statement": "Encoding a document whose external buffers have distinct local URIs and decoding it with the same file system gives back the bytes of every external buffer.", "quantifier": "all documents and file systems", "why_tests_cant": "All combinations of external, embedded and chunk buffers; aliasing of names.", "anchors": ["encode.go:Encoder.Encode", "encode.go:Encoder.encodeBuffer", "decoder.go:Decoder.decodeBuffer"]}
{"id": "C49", "title": "Data written to an opened document survives saving", "statement": "If a document is decoded, extended with modeler writes, encoded and decoded again, the accessors written in between read back.", "quantifier": "all documents and histories of writes", "why_tests_cant": "Depends on where the buffer of the opened document came from (chunk, embedded, external).", "anchors": ["encode.go:Encoder.marshalJSONDoc", "modeler/write.go:lastBuffer"]}
{"id": "C50", "title": "Decode never panics", "statement": "Decode returns an error or succeeds, without panicking, for every byte stream and file system.", "quantifier": "all byte streams, all file systems", "why_tests_cant": "Robustness over all inputs.", "anchors": ["decoder.go:Decoder.Decode", "decoder.go:Decoder.decodeBinaryBuffer", "decoder.go:Decoder.decodeBuffer"]}
{"id": "C51", "title": "Decoded buffers have the declared size", "statement": "After a successful Decode every buffer with data has exactly ByteLength bytes.", "quantifier": "all byte streams and file systems", "why_tests_cant": "All combinations of declared and actual sizes.", "anchors": ["decoder.go:Decoder.decodeBuffer", "decoder.go:Decoder.decodeBinaryBuffer"]}
{"id": "C52", "title": "A Decoder can read successive documents", "statement": "As documented ('Decode reads the next JSON-encoded value from its input'), calling Decode repeatedly on one Decoder reads the successive documents of the stream.", "quantifier": "all streams of concatenated documents and all read schedules", "why_tests_cant": "Depends on internal read-ahead for every length and schedule.", "anchors": ["decoder.go:Decoder.Decode", "decoder.go:Decoder.decodeDocument"]}
{"id": "C53", "title": "Indentation does not change the document", "statement": "Encoding with SetJSONIndent using white space for prefix and indent decodes to the same document as encoding without it.", "quantifier": "all documents, all white space prefixes and indents", "why_tests_cant": "All documents and all indentation strings.", "anchors": ["encode.go:Encoder.SetJSONIndent", "encode.go:Encoder.marshalJSONDoc"]}
{"id": "C54", "title": "Re-encoding a decoded document is stable", "statement": "Encoding, decoding and encoding again gives exactly the same bytes as the first encoding.", "quantifier": "all documents of the round trip property", "why_tests_cant": "Fixpoint over all documents.", "anchors": ["encode.go", "gltf.go"]}
{"id": "C55", "title": "Encoders and decoders agree on which buffer is in the BIN chunk", "statement": "In a GLB only the first buffer can live in the BIN chunk, exactly when it has no URI; every other buffer without URI and with data is embedded as a data URI and none of their data is lost.", "quantifier": "all lists of buffers", "why_tests_cant": "All combinations of buffers with and without URI, data, and position.", "anchors": ["encode.go:Encoder.marshalJSONDoc", "encode.go:Encoder.Encode", "decoder.go:Decoder.Decode"]}
{"id": "C56", "title": "Cameras without projection are rejected", "statement": "Encode fails if some camera has neither a perspective nor an orthographic projection, and otherwise the type written agrees with the projection that is present (perspective winning).", "quantifier": "all documents", "why_tests_cant": "All documents containing such a camera at any position.", "anchors": ["encode.go:Camera.MarshalJSON"]}
{"id": "C57", "title": "A failed Save does not destroy the existing file", "statement": "If Save or SaveBinary returns an error because the document cannot be encoded, a file that existed under that name keeps its content.", "quantifier": "all documents and file contents", "why_tests_cant": "All documents that cannot be encoded.", "anchors": ["encode.go:save"]}
{"id": "C58", "title": "Image data URIs", "statement": "Image.MarshalData decodes exactly what follows the PNG or JPEG data URI prefix and returns an empty slice for images that are not embedded.", "quantifier": "all image URIs", "why_tests_cant": "All URIs and payloads.", "anchors": ["gltf.go:Image.MarshalData", "gltf.go:Image.IsEmbeddedResource"]}
{"id": "C59", "title": "Read decodes every component at its place", "statement": "When binary.Read succeeds, component (row, column) of element i is the little-endian value of the bytes at stride*i plus the component offset given by the glTF layout (columns of matrices padded to 4 bytes).", "quantifier": "all slice types, buffers, strides and lengths", "why_tests_cant": "Strides, lengths and contents are unbounded; a matched pair of wrong encoder and decoder passes round trip tests.", "anchors": ["binary/encode.go:Read", "binary/encoder.go"]}
{"id": "C60", "title": "Saved documents open again", "statement": "After Save or SaveBinary returned nil, Open of the same name gives the same document with the same data in every buffer, and no files other than the named one and those of the external buffers were changed.", "quantifier": "all documents, names and contents of the directory", "why_tests_cant": "All documents, all sets of names of external buffers, all previous contents of the directory.", "anchors": ["encode.go:Save", "encode.go:SaveBinary", "encode.go:save", "decoder.go:Open"]}
{"id": "C61", "title": "Unlit extension keeps its members", "statement": "Decoding a KHR_materials_unlit object keeps, for every key, the last value of that key and nothing else; encoding writes these members and decoding them again changes nothing. A null payload counts as an empty object and any other payload stays raw JSON.", "quantifier": "all JSON payloads", "why_tests_cant": "Payloads may contain arbitrary members, including duplicates.", "anchors": ["ext/unlit/unlit.go:Unmarshal", "ext/unlit/unlit.go:Unlit.UnmarshalJSON"]}
{"id": "C62", "title": "What was decoded can be encoded and decoded again", "statement": "Every document that Decode returns can be encoded, as text and as GLB, and decoding what was written gives the same document with the same data in its buffers. In particular all strings of a decoded document are UTF-8, all its numbers are finite, and its maps have distinct keys.", "quantifier": "all streams on which Decode succeeds", "why_tests_cant": "All inputs that the decoder accepts, also those that no encoder writes (unknown members, duplicate keys, odd escapes, missing members).", "anchors": ["decoder.go:Decoder.Decode", "encode.go:Encoder.Encode"]}
{"id": "C63", "title": "New accessors and buffer views describe the data written", "statement": "After a successful WriteAccessor, WriteIndices, WritePosition, WriteNormal, WriteTangent, WriteTextureCoord, WriteWeights, WriteJoints, WriteColor or WriteInverseBindMatrices the document has exactly one more accessor and one more buffer view: the accessor has the component type, the type and the number of elements of the data, refers to the new buffer view at offset zero, and has Normalized set exactly for integer texture coordinates, weights and colors; the buffer view has the byte length of the data, the element-array target for indices and the array target for the others (the given one for WriteAccessor and WriteBufferView, none for WriteImage), and a byte stride exactly when it holds vertex attributes whose elements are padded. With several slices WriteAccessorsInterleaved gives its buffer view the sum of the element sizes as stride and places each accessor after the elements of the slices before it.", "quantifier": "all documents, targets and data of all element types", "why_tests_cant": "Every combination of component type, shape, target and previous document; a wrong target or stride still reads back with this library.", "anchors": ["modeler/write.go:WriteAccessor", "modeler/write.go:WriteAccessorsInterleaved", "modeler/write.go:writeBufferViews", "modeler/write.go:WriteIndices", "modeler/write.go:WriteImage"]}
{"id": "C64", "title": "The typed writers take exactly their element types", "statement": "WriteIndices, WriteJoints, WriteWeights, WriteTextureCoord and WriteColor succeed for every slice of the element types documented for them, and for a slice of any other element type they panic before touching the document.", "quantifier": "all documents whose last buffer is not nil and has room, and data of all element types", "why_tests_cant": "All element types and all documents; a type accepted by mistake produces a document that other tools reject.", "anchors": ["modeler/write.go:WriteIndices", "modeler/write.go:checkJoints", "modeler/write.go:checkWeights", "modeler/write.go:checkTextureCoord", "modeler/write.go:checkColor"]}
{"id": "C65", "title": "The JSON that is written follows the glTF schema", "statement": "If Encode succeeds for a document whose required slices, maps and pointers are not nil and whose enumerations have defined values, then the JSON it writes, as text or in the JSON chunk of a GLB, follows the glTF 2.0 schema: every object has exactly the members the schema names for the fields of its Go struct, each with the value of that field in the form the schema asks for (integers, numbers, the enumerated codes and names, arrays of fixed length, nested objects), all required members are present, optional members are absent only if the field has the default of the schema, no member occurs twice, and a camera has the type of its projection. Buffers differ from the document only in that data without a URI may be put into a data URI.", "quantifier": "all documents with their required members, all encoder options", "why_tests_cant": "Every combination of fields of all objects; a misspelt or swapped member name is read back by this library without complaint, so round-trip tests do not see it.", "anchors": ["gltf.go:Document", "encode.go:Camera.MarshalJSON", "const.go", "encode.go:Encoder.Encode"]}
{"id": "C66", "title": "JSON that follows the glTF schema is read as what it stands for", "statement": "If the JSON of a stream follows the glTF 2.0 schema, possibly with further members that the schema does not know, then Decode does not refuse it because of its JSON, and the document it returns is one that the JSON stands for: every field has the value of the member the schema names for it, and fields without member have the default. Buffers and images differ only in the data of the buffers and the escapes of their URIs. Without buffers and images Decode always succeeds.", "quantifier": "all streams whose JSON follows the schema (integers in decimal notation within the range of int)", "why_tests_cant": "All documents of all other glTF writers, in any order of members and with any unknown members.", "anchors": ["gltf.go:Document", "encode.go:Camera.MarshalJSON", "const.go", "decoder.go:Decoder.Decode"]}
{"id": "C67", "title": "A nil error means that the files were written and closed", "statement": "If Encode returns nil with a file system to create files in, then for every buffer that has data, a URI that is not a data URI and is not the one of the binary chunk, a file was created under the name to which the URI decodes, its whole data was written to that file without error, and the file was closed without error. If Save or SaveBinary returns nil then in addition the named file itself was created and closed without error. An error of creating, writing or closing any of these files is returned.", "quantifier": "all documents, URIs, and places where the file system fails", "why_tests_cant": "Failure injection at every file and operation, for every document.", "anchors": ["encode.go:Encoder.encodeBuffer", "encode.go:Encoder.Encode", "encode.go:save"]}
{"id": "C68", "title": "Colours survive denormalization", "statement": "NormalizeRGB, NormalizeRGBA, NormalizeRGB64 and NormalizeRGBA64 invert DenormalizeRGB, DenormalizeRGBA, DenormalizeRGB64 and DenormalizeRGBA64: every 8 or 16 bit colour comes back as it was, with any math.Pow that is accurate to about twelve digits.", "quantifier": "all 2^24, 2^32, 2^48 and 2^64 colours and all accurate implementations of math.Pow", "why_tests_cant": "The colour space is too large for tests, and math.Pow differs between platforms.", "anchors": ["math.go:NormalizeRGB", "math.go:DenormalizeRGB", "math.go:NormalizeRGBA64", "math.go:linearize", "math.go:deliniarize"]}
{"id": "C69", "title": "Denormalized colours keep their order and range", "statement": "DenormalizeRGB, DenormalizeRGBA and their 16 bit forms give finite components in [0, 1]; each component is a strictly increasing function of its channel, so that different colours stay different; channel 0 gives 0 and the largest channel value gives 1.", "quantifier": "all colours and all accurate implementations of math.Pow", "why_tests_cant": "The order has to hold between all pairs of colours, across the two pieces of the curve.", "anchors": ["math.go:DenormalizeRGB", "math.go:DenormalizeRGBA", "math.go:DenormalizeRGB64", "math.go:DenormalizeRGBA64", "math.go:linearize"]}
{"id": "C70", "title": "Normalization gives the nearest integer", "statement": "NormalizeUbyte, NormalizeUshort, NormalizeByte and NormalizeShort give, for every float32 in [0, 1] respectively [-1, 1], the integer of the type that is nearest to the number times the largest value of the type.", "quantifier": "all float32 values in range", "why_tests_cant": "More than 10^9 floats per function.", "anchors": ["math.go:NormalizeByte", "math.go:NormalizeUbyte", "math.go:NormalizeShort", "math.go:NormalizeUshort"]}
{"id": "C71", "title": "The spelling of the JSON does not matter", "statement": "If two text files start with JSON texts (RFC 8259) of the same object, nested at most 10000 deep, Decode gives the same result for both and opens the same files: white space, the choice of escapes (including surrogate pairs and escaped slashes), bytes after the value and the way in which the reader splits the bytes make no difference. The same holds for two GLB files with the same binary chunk.", "quantifier": "all JSON values, all spellings, all readers", "why_tests_cant": "There are infinitely many spellings of every value, and tests use the output of a few exporters.", "anchors": ["decoder.go:Decoder.Decode", "decoder.go:Decoder.decodeDocument"]}
{"id": "C72", "title": "Only JSON is accepted", "statement": "If Decode succeeds, the file, or the first chunk of a GLB file, starts with white space and a JSON text (RFC 8259) of an object that is nested at most 10000 deep, or of null; the only deviations are in strings, where halves of surrogate pairs and bytes that are not UTF-8 are accepted and read as U+FFFD.", "quantifier": "all byte streams and readers", "why_tests_cant": "The set of malformed inputs is infinite; fuzzing finds crashes but not wrongly accepted input.", "anchors": ["decoder.go:Decoder.Decode", "decoder.go:Decoder.decodeDocument"]}
{"id": "C73", "title": "Normalised integers are read as the nearest floats", "statement": "DenormalizeUbyte, DenormalizeUshort, DenormalizeByte and DenormalizeShort give the float32 that is nearest to the integer divided by the largest value of its type (for signed types not below -1). Whenever ReadTextureCoord or ReadWeights succeeds on an accessor with elements, the result has the elements that ReadAccessor finds, in order, and every component is the nearest float32 to the fraction, or the float32 itself, of the component at the same place.", "quantifier": "all integers; all documents, accessors and scratch buffers", "why_tests_cant": "The signed functions round twice; that this never differs from rounding once is a statement about every value, and the place of the components about every document.", "anchors": ["math.go:DenormalizeByte", "math.go:DenormalizeShort", "math.go:DenormalizeUbyte", "math.go:DenormalizeUshort", "modeler/read.go:ReadTextureCoord", "modeler/read.go:ReadWeights"]}
{"id": "C74", "title": "The modeler only appends", "statement": "After any sequence of calls of the writing functions of the modeler, including calls that return an error, the accessors, buffer views and images of the document are those from before followed by new ones; all buffers but the last one are the same; of the last one only the data and the length have changed, and the data only by growing at the end; a buffer is added only to a document without buffers; every other field of the document is unchanged.", "quantifier": "all documents and all finite sequences of calls", "why_tests_cant": "Tests compare what they expect to change; a frame condition is about everything else, in all documents.", "anchors": ["modeler/write.go"]}
{"id": "C75", "title": "Extension packages handle their own extensions", "statement": "Whichever of the packages lightspunctual, specular, texturetransform and unlit are imported, and in whichever order they are initialised, an extension is decoded by the package that implements its Khronos name if that package is imported, and kept as raw JSON otherwise or if the package rejects it. In particular a texture transform, or a specular-glossiness material (with the textures of C46), that was written is decoded to the same value.", "quantifier": "all subsets and orders of packages, all names and payloads", "why_tests_cant": "Unbounded names and payloads; tests import one package at a time.", "anchors": ["gltf.go:RegisterExtension", "ext/lightspunctual/lightspunctual.go", "ext/specular/specular.go", "ext/texturetransform/transform.go", "ext/unlit/unlit.go"]}
{"id": "C76", "title": "New documents have a default scene", "statement": "After NewDocument and any sequence of calls of the writing functions of the modeler, the asset version is 2.0 without minimum version, the default scene of the document refers to its only scene, which has no nodes, and the document has at most one buffer.", "quantifier": "all finite sequences of calls", "why_tests_cant": "Unbounded sequences of calls.", "anchors": ["gltf.go:NewDocument", "modeler/write.go"]}
{"id": "C77", "title": "Invalid enumeration values are replaced when written", "statement": "A value of an enumeration that is not one of its constants is written as 0, respectively as the empty string. It is read back as the zero constant of the enumeration, except that a primitive mode is read as points and that the type of an accessor is rejected.", "quantifier": "all values of all enumerations", "why_tests_cant": "Tests use the constants.", "anchors": ["const.go"]}
{"id": "C78", "title": "Float colours are encoded in sRGB", "statement": "For finite components in [0, 1], NormalizeRGB, NormalizeRGBA and their 16 bit forms give for every channel the sRGB encoding (IEC 61966-2-1) of the component in units of 1/255 or 1/65535 with the fraction dropped, where the encoding is exact to 2^-21, and alpha in the same way without the encoding. ReadColor and ReadColor64 of an accessor of floats return such colours in the order of the accessor; colours without alpha are opaque.", "quantifier": "all floats in [0, 1], all accessors of floats, all math.Pow accurate to 2^-40", "why_tests_cant": "About 2^30 floats per channel, and a claim about a real function.", "anchors": ["math.go:NormalizeRGB", "math.go:NormalizeRGBA", "math.go:NormalizeRGB64", "math.go:NormalizeRGBA64", "math.go:deliniarize", "modeler/read.go:ReadColor", "modeler/read.go:ReadColor64"]}
{"id": "C79", "title": "Integer colours are decoded from sRGB", "statement": "DenormalizeRGB, DenormalizeRGBA and their 16 bit forms give for every channel a finite float within 2^-20 of the linear light that the channel stands for in sRGB (IEC 61966-2-1), and for alpha the float nearest to its fraction of the largest value.", "quantifier": "all colours, all math.Pow accurate to 2^-40", "why_tests_cant": "A claim about a real function, for every accurate math.Pow.", "anchors": ["math.go:DenormalizeRGB", "math.go:DenormalizeRGBA", "math.go:DenormalizeRGB64", "math.go:DenormalizeRGBA64", "math.go:linearize"]}
{"id": "C80", "title": "A colour is read the same from bytes and from floats", "statement": "ReadColor returns the same colour, up to one unit per channel, for an accessor of normalized bytes and for an accessor of the floats that the bytes stand for.", "quantifier": "all colours and accessors", "why_tests_cant": "All colours; tests compare each component type with its own table.", "anchors": ["modeler/read.go:ReadColor", "math.go:NormalizeRGBA"]}
{"id": "C81", "title": "Files whose data is there are accepted", "statement": "If the JSON of a file follows the glTF 2.0 schema, every buffer has a positive length, and the data of every buffer is there (in a data URI with correct base64, possibly with line breaks; in a file that a relative path stands for and that is read without error; or, for the first buffer of a GLB without URI, in a binary chunk that is at least as long as the buffer), then Decode returns no error, and the document is what the JSON stands for with exactly this data: of files and of the chunk the declared number of bytes, or all if a file is shorter. For a GLB with a binary chunk, the JSON fills its chunk or the reader returns multiples of four bytes (see C32).", "quantifier": "all files, JSON values, file systems and readers", "why_tests_cant": "Tests load a few files of the kind that the exporters at hand write; acceptance of every valid file is a claim about all spellings, sizes and combinations of buffers.", "anchors": ["decoder.go:Decoder.Decode", "decoder.go:Decoder.decodeBuffer", "decoder.go:Decoder.decodeBinaryBuffer"]}
{"id": "C82", "title": "Decode does not depend on the old content of the document", "statement": "Decode gives the same result for a document that has been used before as for a new document.", "quantifier": "all files and documents", "why_tests_cant": "Tests decode into new documents; the claim is about all pairs of old and new content.", "anchors": ["decoder.go:Decoder.Decode", "decoder.go:Decoder.decodeDocument"]}
{"id": "C83", "title": "A slice made from a scratch buffer shows its memory", "statement": "With a scratch buffer of non-zero capacity, binary.MakeSliceBuffer (for every valid pair except 3x3 matrices of uint32, where it panics, see C07) returns count elements that are the memory of the buffer: component [row][col] of element i is what the bytes of the buffer at i times the element size plus (row times columns plus col) times the component size stand for, in little-endian order and without the padding of the format; elements that do not fit the capacity are zero. ReadAccessor returns exactly this for an accessor without buffer view and sparse data.", "quantifier": "all component types, shapes, counts and buffer contents", "why_tests_cant": "The result is a reinterpretation of memory, for every type and buffer length; tests use buffers of zeros or compare only types and lengths.", "anchors": ["binary/slice.go:MakeSliceBuffer", "binary/slice.go:castSlice", "binary/slice.go:reslice", "modeler/read.go:ReadAccessor"]}
{"id": "C84", "title": "Files that were cut short are rejected", "statement": "Decode returns an error and opens no other file if its input is a proper prefix of a file that it accepts: of a text file with a JSON object, or of a GLB file that ends anywhere in the header, in the JSON chunk or in the binary chunk of its first buffer.", "quantifier": "all files, all lengths of the prefix, all ways in which a reader returns the bytes", "why_tests_cant": "Every length of every file must fail; for text the parser must not take a part of an object for a whole value, for GLB the padding between the chunks may be mistaken for a chunk.", "anchors": ["decoder.go:Decode", "decoder.go:readGLBHeader", "decoder.go:decodeBinaryBuffer"]}
{"id": "C85", "title": "Opening and saving keeps the other files", "statement": "If a document is opened and then saved in the same directory, under the same or another name, and Save returns nil, then every file other than the one saved has the content that it had before, and no other files are created inside or outside of the directory.", "quantifier": "all directories, all documents in them that Open accepts, all names, both formats", "why_tests_cant": "The names of the data files are rewritten by Open and by Save, and the data is cut by Open; whether writing it back is harmless depends on all names and all lengths.", "anchors": ["decoder.go:Open", "decoder.go:decodeBuffer", "decoder.go:sanitizeURI", "encode.go:Save", "encode.go:encodeBuffer"]}
{"id": "C86", "title": "Accessor data is where the glTF specification puts it", "statement": "After a successful modeler write of an accessor, and for what ReadAccessor returns for an accessor without sparse data, component (row, column) of element i is at byte ByteOffset of the buffer view + ByteOffset of the accessor + i*stride + the offset of the component in its element, where the stride is the ByteStride of the buffer view or, if that is zero, the size of a tightly packed element (components one after the other; columns of matrices padded to four bytes), so that other glTF programs find the same values.", "quantifier": "all element types, data, targets, documents, accessors and buffer views", "why_tests_cant": "Writing and reading back with the same package agrees even when both disagree with the specification; the agreement with an independent layout has to hold for every type, target, stride and index.", "anchors": ["modeler/write.go:WriteAccessor", "modeler/write.go:writeBufferViews", "modeler/write.go:WriteAccessorsInterleaved", "modeler/read.go:ReadAccessor", "gltf.go:SizeOfElement"]}
{"id": "C87", "title": "Strides and offsets follow the alignment rules of glTF", "statement": "After a successful modeler write, the accessor's ByteOffset and its sum with the ByteOffset of the buffer view are multiples of the component size, the ByteStride is zero or a multiple of four between 4 and 252, and for vertex attributes the ByteOffset and the distance between elements are multiples of four.", "quantifier": "all documents, targets, element types and data, alone and interleaved", "why_tests_cant": "The rules combine the lengths of everything written before with sums over any number of slices of any types.", "anchors": ["modeler/write.go:WriteAccessor", "modeler/write.go:writeBufferViews", "modeler/write.go:WriteAccessorsInterleaved", "modeler/write.go:ensurePadding"]}
{"id": "C88", "title": "Relative references are resolved to file names", "statement": "If the URI of a buffer is a relative reference without scheme, query and fragment that ends in a name and stays in the directory, then Decode reads the buffer from, and Encode writes it to, the file that the reference resolves to by RFC 3986: dot segments removed and percent escapes decoded.", "quantifier": "all references of names, dots, double dots and percent escapes, all files and file systems", "why_tests_cant": "Tests use a few URIs; the removal of dot segments by replacing text is wrong only for particular sequences of segments.", "anchors": ["decoder.go:sanitizeURI", "decoder.go:Decoder.decodeBuffer", "encode.go:Encoder.encodeBuffer"]}
{"id": "C89", "title": "Numbers are read as the nearest float64 and written with the fewest digits", "statement": "In a float64 field of a document, Decode reads every JSON number as the nearest float64 (of two equally near ones the even one, with the sign kept for zero) and refuses numbers from 2^1024-2^970 on. Encode writes every finite number as a JSON number that reads back, with at most 17 significant digits; no number with fewer digits reads back, and none with as many is nearer. There is an exponent only below about 10^-6 and from 10^21 on, and fractions do not end in zero. NaN and infinities are refused.", "quantifier": "all JSON numbers of any length, all 2^64 float64 values", "why_tests_cant": "There are 2^64 values and infinitely many literals; rounding goes wrong only near ties, and digits are wasted only for particular values, such as powers of two.", "anchors": ["encode.go:Encoder.Encode", "decoder.go:Decoder.decodeDocument", "gltf.go:Node", "gltf.go:Accessor"]}
{"id": "C90", "title": "Values of the wrong kind are refused, others are not", "statement": "Decode returns an error for every file in which a member of the glTF schema has a value of another JSON kind than the schema asks for (and not null): a string for a number, a fraction for an index, a number that no float64 is near to, an accessor type that does not exist, at any depth. If all values are of the right kinds and nothing has to be loaded, Decode succeeds.", "quantifier": "all JSON texts and GLB files, with any members at any depth, and all ways in which the bytes arrive", "why_tests_cant": "There are hundreds of members and infinitely many wrong values; tests try a few of them in a few places.", "anchors": ["decoder.go:Decoder.Decode", "gltf.go:Document", "const.go:AccessorType.UnmarshalJSON", "encode.go:Node.UnmarshalJSON"]}
{"id": "C91", "title": "Members that are not in the schema are ignored", "statement": "Decode gives the same document, and opens the same files, if members whose names are not in the glTF schema are added, changed or removed, in any object of the file.", "quantifier": "all JSON texts and GLB files, with any further members with any values at any depth", "why_tests_cant": "The names and values of unknown members, and the places where they can be, are unlimited.", "anchors": ["decoder.go:Decoder.Decode", "gltf.go:Document"]}
{"id": "C92", "title": "An extension is decoded by its package exactly when its values are of the right kinds", "statement": "With any of the four extension packages imported (lights, specular and glossiness, texture transform, unlit), an extension with the name of such a package is decoded to the type of the package if and only if each of its members in the schema of the extension has a value of the JSON kind that the schema asks for, or null; otherwise the document keeps its JSON as it is. Members that are not in the schema of the extension have no effect on the decoded value.", "quantifier": "all subsets and orders of the imported packages, all JSON values of the extension", "why_tests_cant": "There are infinitely many values with a wrong member at some depth; tests try the empty object and one malformed text.", "anchors": ["ext/lightspunctual/lightspunctual.go:Unmarshal", "ext/specular/specular.go:Unmarshal", "ext/texturetransform/transform.go:Unmarshal", "ext/unlit/unlit.go:Unmarshal", "encode.go:Extensions.UnmarshalJSON"]}
{"id": "C93", "title": "Extensions can be registered while documents are decoded", "statement": "Goroutines may call RegisterExtension and decode documents at the same time. They never access the registry in a way that is a data race, they do not block each other for good, each extension is decoded by the function that was registered last before it was looked up, and a goroutine decodes extensions as it would alone if none of their names is registered meanwhile. A registered function may itself register extensions.", "quantifier": "all executions of any number of goroutines with any calls, any registered functions", "why_tests_cant": "The interleavings of goroutines are not under the control of a test, and the race detector sees only those that happened.", "anchors": ["gltf.go:RegisterExtension", "gltf.go:queryExtension", "encode.go:Extensions.UnmarshalJSON"]}
{"id": "C94", "title": "ReadAccessor accepts exactly the accessors that fit in their buffer views", "statement": "ReadAccessor returns data and no error if and only if the types of the accessor are those of glTF, its count is not negative, its buffer view (if there is one) lies in its buffer, its elements lie in the buffer view from the offset of the accessor on, and, if there is sparse data, its values lie in their buffer view, its indices can be read, and each index is less than the count.", "quantifier": "all documents, accessors and buffers to be reused", "why_tests_cant": "Whether an accessor fits depends on the offset, stride, count and types together with the length of the view and of the buffer; tests check a few combinations, mostly in the middle of the range.", "anchors": ["modeler/read.go:ReadAccessor", "modeler/read.go:ReadBufferView", "modeler/read.go:ReadIndices", "binary/slice.go:MakeSliceBuffer"]}
{"id": "C95", "title": "Slices that were read stay as they are while more data is written", "statement": "ReadBufferView returns a slice that shares memory with the buffer. If no buffer of the document lies in the spare capacity of the last one, then such a slice shows the same bytes after any calls of the writing functions of package modeler, whether they extend the last buffer in place or reallocate it; the same is true of all other slices outside that spare capacity, and the document develops as if slices were values.", "quantifier": "all documents in memory, all buffer views, all sequences of calls of the writing functions, all choices of capacities by the runtime", "why_tests_cant": "Whether append writes in place depends on capacities that the runtime chooses and that tests do not control; effects on memory that is shared show only later and elsewhere.", "anchors": ["modeler/read.go:ReadBufferView", "modeler/write.go:writeBufferViews", "modeler/write.go:ensurePadding", "modeler/write.go:lastBuffer"]}
{"id": "C96", "title": "Encode does not change the document and can run in several goroutines", "statement": "Calls of Encode, as many as there are, may run at the same time on documents that share buffers and descriptions of materials. In every order of their accesses of the memory: nothing that was in memory before is changed, accesses of the same object by different goroutines are all reads, no goroutine waits for another one, all of them finish, and each call has the result, the output and the files that the same call has alone.", "quantifier": "all documents (with shared and nil pointers), all numbers of goroutines, all settings, writers and file systems, all interleavings", "why_tests_cant": "Interleavings are chosen by the scheduler; a change of the document that is undone or that happens only for default values of a material or for buffers without URI shows in few runs.", "anchors": ["encode.go:Encode", "encode.go:marshalJSONDoc", "encode.go:PBRMetallicRoughness.MarshalJSON", "gltf.go:Buffer.EmbeddedResource"]}
{"id": "C97", "title": "Encode refuses exactly the documents without JSON form", "statement": "If every number in a document, its extras included, is finite, every value in its extensions can be marshalled and every camera has a projection, then Encode succeeds with any writer that does not fail, provided the buffers need no other files and have sensible lengths. If one of these conditions fails anywhere in the document, Encode returns an error and has written nothing, to the writer or to the file system. If a buffer is a nil pointer, Encode panics and has written nothing.", "quantifier": "all documents, all settings (text and binary, all layouts), all writers and file systems", "why_tests_cant": "Numbers stand in some thirty places of a document, at any depth of the extras, and next to defaults that are omitted; tests try few of the combinations.", "anchors": ["encode.go:Encode", "encode.go:marshalJSONDoc", "encode.go:Camera.MarshalJSON", "encode.go:Node.MarshalJSON"]}
{"id": "C98", "title": "Bounds of positions that are not all finite", "statement": "The bounds that WritePosition stores are, in each component: the infinity of the right sign if it occurs; otherwise NaN if NaN occurs; otherwise the smallest and largest of the finite values, or the number of largest magnitude and opposite sign when no value is finite. The bounds are finite if all positions are; if some position is not, Encode of the document fails and writes nothing, although WritePosition accepted the data.", "quantifier": "all lists of positions with any float32 bit patterns, all documents", "why_tests_cant": "The result depends on the order of NaN, infinities and finite values, and on each of the bit patterns; tests use finite positions.", "anchors": ["modeler/write.go:WritePosition", "modeler/write.go:minMaxFloat32", "encode.go:Encode"]}
{"id": "C99", "title": "The data of decoded buffers is what the file and its neighbours contain", "statement": "If Decode succeeds, no buffer is nil and the data of each comes from the place that the buffer names: without a URI it is the first buffer of a GLB file and has the bytes after the header of a BIN chunk, as many as declared; with a data URI it has the bytes that the base64 text stands for; otherwise it has the beginning of the file with the name that is now its URI, at most as many bytes as declared, and none if there is no file system. The files that were opened are exactly those of the buffers, once for each, in their order. If the JSON text fills its chunk or is read in multiples of four bytes, the BIN chunk is the one of the container.", "quantifier": "all files, all readers, all file systems, all successful calls of Decode", "why_tests_cant": "Tests look at a few files in which all buffers are of one kind; a mixture, malformed files that are accepted nevertheless, and the place from which the chunk is read are not covered.", "anchors": ["decoder.go:Decode", "decoder.go:decodeBuffer", "decoder.go:decodeBinaryBuffer", "gltf.go:Buffer.marshalData"]}
{"id": "C100", "title": "Documents built with the writing functions can be stored and are read back", "statement": "Take NewDocument and any sequence of calls of the writing functions of the modeler, failing ones included, in which positions are finite numbers and the names of images are UTF-8, and after which the buffer, if there is one, holds at least one byte and less than 4 GiB. Then Encode succeeds in both formats, whatever the file system, without creating a file, and if the output is shorter than 4 GiB, Decode of the output succeeds (for GLB: from a reader that returns multiples of four bytes) and gives the same document up to explicit defaults; the accessors and buffer views are equal, and ReadAccessor and ReadBufferView return the same from it as from the document that was built.", "quantifier": "all sequences of calls of the writing functions, all data, both formats, all indentations, all file systems, all readers", "why_tests_cant": "Tests build a handful of documents with two or three calls and compare them after one round trip; the property is about all sequences of calls.", "anchors": ["gltf.go:NewDocument", "modeler/write.go:WriteAccessor", "modeler/write.go:WriteAccessorsInterleaved", "modeler/write.go:WritePosition", "modeler/write.go:WriteImage", "encode.go:Encode", "decoder.go:Decode", "modeler/read.go:ReadAccessor"]}
{"id": "C101", "title": "What the writing functions wrote can be read", "statement": "Take NewDocument and any sequence of calls of the writing functions of the modeler, failing ones included, in which no stride exceeds 16384. Then ReadAccessor succeeds for every accessor of the document and returns as many elements as the accessor counts, whatever buffer is passed (for 3 by 3 matrices of unsigned integers: no buffer), with exactly one exception: an accessor of signed scalar bytes that are followed by other bytes in their buffer view, as after an interleaved write, is never read.", "quantifier": "all sequences of calls of the writing functions, all data, all accessors, all buffers and pools of the reader", "why_tests_cant": "Tests read back single accessors of selected types; the property is about every accessor after every sequence of calls, and says precisely for which ones reading fails.", "anchors": ["modeler/write.go:WriteAccessor", "modeler/write.go:WriteAccessorsInterleaved", "modeler/write.go:WriteBufferView", "modeler/read.go:ReadAccessor", "binary/encode.go:Read", "binary/slice.go:MakeSliceBuffer"]}
{"id": "C102", "title": "A mesh that was written is read from the file", "statement": "Starting from NewDocument, indices are written with WriteIndices and positions with WritePosition, with any other calls of the writing functions before, between and after; then meshes, nodes, materials and everything else that is not data are filled in freely, as long as the document has a JSON form. If the buffer has data and the sizes fit in 32 bits, Encode succeeds as text and as GLB, Decode of what was written succeeds, the meshes are the same, and ReadIndices and ReadPosition return for the returned accessor numbers the same numbers and bit by bit the same floats. No typed reader returns something else after later calls.", "quantifier": "all index and position slices, all other calls and documents around them, both formats, all indentations", "why_tests_cant": "Tests save and load fixed documents; the property is about every sequence of calls and every document around the data.", "anchors": ["modeler/write.go:WriteIndices", "modeler/write.go:WritePosition", "modeler/read.go:ReadIndices", "modeler/read.go:ReadPosition", "encode.go:Encoder.Encode", "decode.go:Decoder.Decode"]}
{"id": "C103", "title": "Data added to a file that was opened does not disturb what was in it", "statement": "A file is decoded whose buffers have no URI (a GLB file with its data in the binary chunk, or a file without buffers), whose JSON is nested at most 9993 deep, whose cameras have projections and whose image URIs are UTF-8. Then the writing functions of the modeler are called any number of times with data that JSON can record. If the buffer then has data and the sizes fit in 32 bits, Encode succeeds as text and as GLB, and Decode of the result succeeds. The document that is returned has every accessor of the first file under the same number, and ReadAccessor returns for it what it returned for the first file; for the new accessors it returns what it returned before saving.", "quantifier": "all such files, all registered extensions that read back what they write, all calls, both formats, all indentations", "why_tests_cant": "Tests load, extend and save a few sample files; the property is about every file and every sequence of calls.", "anchors": ["decode.go:Decoder.Decode", "encode.go:Encoder.Encode", "modeler/write.go:WriteAccessor", "modeler/write.go:WritePrimitiveAttributes", "modeler/read.go:ReadAccessor"]}
{"id": "C104", "title": "Appending to bytes that were read does not change the document", "statement": "ReadBufferView returns the bytes of a buffer view of a document whose buffers do not lie in the spare capacity of the last one. If the caller appends bytes to the slice that was returned, with the built-in function append, the document is as before: all buffers have the data they had.", "quantifier": "all documents in memory, all buffer views, all bytes, all choices of the runtime for capacities", "why_tests_cant": "Tests compare the bytes that are returned; they do not append to them, and whether an append works in place depends on capacities.", "anchors": ["modeler/read.go:ReadBufferView"]}
{"id": "C105", "title": "The typed readers change only the part of the recycled buffer that they need", "statement": "ReadIndices, ReadNormal, ReadPosition, ReadTangent, ReadTextureCoord, ReadWeights, ReadJoints, ReadColor, ReadColor64 and ReadInverseBindMatrices get a slice to be recycled. If the call succeeds and the capacity of the slice is at least Count, the result is in its memory, and of the memory of the caller nothing changes but the first Count elements from the start of the slice on (also beyond its length). If the capacity is less, nothing of the memory of the caller changes. What is returned does not depend on how memory is shared. So the results of two calls that recycle slices of different arrays do not disturb each other.", "quantifier": "all documents, accessors, slices and arrays of the caller, all choices of the runtime for capacities", "why_tests_cant": "Tests compare the returned elements; they do not look at the memory around the slice for all lengths and capacities.", "anchors": ["modeler/read.go:makeBufferOf", "modeler/read.go:ReadIndices", "modeler/read.go:ReadNormal", "modeler/read.go:ReadPosition", "modeler/read.go:ReadTangent", "modeler/read.go:ReadTextureCoord", "modeler/read.go:ReadWeights", "modeler/read.go:ReadJoints", "modeler/read.go:ReadColor", "modeler/read.go:ReadColor64", "modeler/read.go:ReadInverseBindMatrices"]}
{"id": "C106", "title": "Decode returns the error of the reader", "statement": "If the io.Reader of a Decoder fails before the end of what Decode needs of a valid file (the JSON object; in a GLB file also the headers and the data of the first buffer), Decode returns the error of the reader. If the reader ends regularly there, Decode returns io.EOF or io.ErrUnexpectedEOF; within the JSON it is io.EOF exactly if nothing but white space of the JSON was read.", "quantifier": "all valid files, all places where the reader fails, all errors, all ways to split the data before", "why_tests_cant": "Tests use files that are complete or that are cut at a few places; they cannot fail at every byte of every file.", "anchors": ["decoder.go:Decode", "decoder.go:decodeDocument", "decoder.go:readGLBHeader", "decoder.go:chunkHeader", "decoder.go:decodeBinaryBuffer"]}
{"id": "C107", "title": "Errors of the file system are returned at once", "statement": "If a file that Decode opens for a buffer cannot be read, Decode returns the error of the file system, and opens no other file after it. If a file that Encode creates for a buffer cannot be created, written or closed, Encode returns this error, and creates no other file after it.", "quantifier": "all documents and readers, all file systems and errors, all encoder options", "why_tests_cant": "Tests use a few file systems that fail at one place.", "anchors": ["decoder.go:Decode", "decoder.go:decodeBuffer", "encode.go:Encode", "encode.go:encodeBuffer"]}
{"id": "C108", "title": "The last of several members with one name counts", "statement": "If the JSON object of a file has several members with one name and Decode accepts it, Decode gives the same document for the file without all but the last of them, and opens the same files.", "quantifier": "all JSON objects, all places and values of the members, text and GLB files, all readers", "why_tests_cant": "Tests have no files with repeated members; the values that may be mixed are unbounded.", "anchors": ["decoder.go:Decode", "decoder.go:decodeDocument", "encode.go:UnmarshalJSON", "gltf.go:Document"]}
{"id": "C109", "title": "The order of the members does not matter", "statement": "If the JSON objects of two files differ only in the order of members with different names, at any depth outside the values of single extensions, Decode gives the same document for both or refuses both, and opens the same files when it succeeds. Within the value of an extension that no function is registered for, the order is part of the document.", "quantifier": "all JSON objects, all reorderings at all depths, all registries, text and GLB files, all readers", "why_tests_cant": "The files and their reorderings are unbounded, and the order in which other tools write members is not known.", "anchors": ["decoder.go:Decode", "decoder.go:decodeDocument", "encode.go:UnmarshalJSON", "gltf.go:Document"]}
{"id": "C110", "title": "A GLB file without binary data is read like its JSON", "statement": "If a text file and the first chunk of a GLB file have the same JSON object, then everything that Decode accepts as text it accepts as GLB, whatever the binary chunk is, with the same document and the same files opened. Conversely a GLB file that is accepted gives the same document and opens the same files as text, if none of its buffers is in the binary chunk; otherwise the text is refused.", "quantifier": "all JSON objects, all spellings of them, all binary chunks, paddings, file systems and readers", "why_tests_cant": "The documents, the paddings and the ways to split the stream are unbounded.", "anchors": ["decoder.go:Decode", "decoder.go:decodeDocument", "decoder.go:decodeBuffer", "decoder.go:decodeBinaryBuffer"]}
