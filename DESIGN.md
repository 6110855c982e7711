# Formal model of qmuntal/gltf

The model is written in Lean 4 under `lean/Verif`. It follows the Go code of `/repo` function by
function; every definition cites the file and lines that it mirrors, and says where it simplifies.
`lake build` in `lean` checks everything. `MANIFEST.json` maps properties to theorems.

## 1. Trusted base

* Lean's kernel with the standard axioms `propext`, `Classical.choice` and `Quot.sound`. No other
  axiom is used, there is no `sorry`, no `native_decide` and no `bv_decide`. Section 8 lists the
  axioms of every theorem of the manifest.
* The hand translation from Go to Lean. Nothing is extracted from the Go sources and the Go code was
  not run.
* Our reading of the Go language and of the functions of its standard library that are called
  (`encoding/json`, `encoding/base64`, `encoding/binary`, `bufio`, `io`, `net/url`, `path/filepath`,
  `strconv`, `math`, `sync`). Their sources are not available in the sandbox. They are modelled too,
  and the comments of their definitions say what is assumed.
* The specifications in `lean/Verif/Spec`, and that the theorem statements say what the properties
  say. The specifications do not use the functions of the model, with the exceptions in section 6.

## 2. Conventions

* `Res α` is the outcome of a Go function: `ok`, `err` (a non-nil `error`) or `panic`.
* Go `int` is `Int`; arithmetic that can overflow is wrapped explicitly (`wrap64`). `uint32`
  arithmetic is modulo 2^32. `make` panics on negative sizes and on sizes beyond memory (2^48).
* Byte slices are `List UInt8`. Where a slice aliases another (sub-slices of `Buffer.Data`, scratch
  buffers) the model passes the bytes and returns the updated bytes. `Model/Heap` has the functions of modeler/write.go once more with
  slices that share memory; C95 proves that the results are the same. `Model/HeapRead` does so for the typed readers (C105).
* `float32` and `float64` are bit patterns. Arithmetic is exact on rationals followed by rounding to
  nearest, ties to even.
* The dynamic type of the `any` arguments of `binary.Read`, `binary.Write` and of the modeler is an
  inductive type with the 44 supported slice types and the unsupported ones.
* `encoding/json` has two layers: the mapping between Go values and JSON values (`JsonCodec`,
  `JsonDoc`), and between JSON values and bytes (`JsonText`). Numbers are formatted and parsed by
  parameters with laws (`FloatLaws`); `go_laws` proves the laws for the model of `strconv`.
* Readers return their data in pieces of any size and end with any error. Writers fail at any write
  as a plan says. File systems are maps from names to contents, with errors on creation, write and
  close.
* Goroutines that read accessors, and those that use the registry of extensions, are programs of atomic steps that are interleaved arbitrarily.

## 3. Layout

* `Verif/Go`: results, integers, bytes.
* `Verif/Model`: the model of the Go code.
* `Verif/Spec`: specifications that are independent of the model.
* `Verif/Lemmas`: helper lemmas.
* `Verif/Props`: the property theorems, with examples that meet their hypotheses.

A theorem with the suffix `_partial` proves less than the property; its comment says what is missing.
If the property is false of the code, `CNN_full_fails` proves its negation with a concrete witness.

## 4. What is modelled

| source | model | left out |
|--------|-------|----------|
| binary/binary.go, unsafe.go | Component | the `unsafe` casts are modelled by their effect on a little-endian machine |
| binary/encode.go, slice.go | Binary, Elem, Const | reflection: slices of other types are one case |
| const.go, const_strings.go | Const, Strings, JsonDoc | the compile-time checks `func _()` |
| gltf.go | Doc, Defaults, Base64, JsonDoc, JsonCodec, RegConc, Write (`NewDocument`) | `Index`, `Float` (pointers to a copy) |
| encode.go | Encode, JsonDoc, Save | `dirFS`: the directory is a map from names to files |
| decoder.go | Decode, Uri, Stream, Save | errors are told apart only where the code does |
| math.go | Math, Color, ColorRead | `math.Pow` is a parameter with an accuracy bound; fused multiply-add |
| modeler/read.go | Read, Pool | garbage collection; memory is unbounded up to 2^48 bytes |
| modeler/write.go | Write, Heap | text of the error messages |
| ext/texturetransform, specular, lightspunctual, unlit | Ext | `init` (the registrations are arguments of the theorems) |

Models of the standard library: `Stream` (bufio, io, the buffer of json.Decoder), `JsonText` (scanner,
string quoting, indentation), `JsonCodec` (struct members, omitempty, case folding of names, maps,
interfaces), `JsonFloat` and `GoFloat` (strconv), `Base64`, `Uri` (net/url, filepath.IsLocal), `Pool`
(sync.Pool). Simplifications:

* A reader returns nothing without an error at most 99 times in a row (bufio gives up after 100), and data together
  with an error only if the error is `io.EOF`.
* json.Unmarshal stops at the first type error; Go goes on and reports the first error at the end.
* The authority part of URLs and the text form of URLs with a scheme are parameters.
* Names of members are folded by ASCII case and the two Unicode letters that fold to ASCII.
* The registry of extensions is a list of (name, function); the functions are arbitrary, with laws
  where a theorem needs them (`LawfulRegistry`), proved for the extensions of this repository.

Not modelled: timing, allocation, the host file system beyond maps from names to contents (the check of names by io/fs is
modelled, different names of one file are not), symbolic links, `http.FileSystem`,
data races other than those on the scratch buffers of the readers and on the registry of extensions.

## 5. Properties

110 properties: 59 proved in full, 51 proved in part (for these, almost always, the negation of the full statement is proved as well). The
column "proof" says how and what is missing.

| id | property | modelled | status | proof | theorems |
|----|----------|----------|--------|-------|----------|
| C01 | binary.Write then binary.Read is the identity | `binary.Read`, `binary.Write`, every get/put function | partial | `get ∘ put = id` for each element type, then one induction over the element loop. All 44 slice types; false for []int8 when the buffer is longer than the slice or strided (negation proved). | `C01_write_read_partial`, `C01_full_fails`, `C01_iff` |
| C02 | binary.Write uses the glTF memory layout | same | partial | specification `Spec/Layout` (column-major, rows padded to 4); the loop writes each component at its offset. All types except strided []uint8, where it is false (negation proved). | `C02_layout_partial`, `C02_full_fails`, `C02_bytes` |
| C03 | binary.Write touches nothing outside the components it writes | same | partial | frame lemma of each put function, induction over the loop. All types except strided []uint8, where it is false (negation proved). C03_bytes_iff: exactly when it holds for []uint8. | `C03_frame_partial`, `C03_full_fails`, `C03_bytes_iff` |
| C04 | binary.Read and binary.Write report short buffers exactly, and do not panic | size checks of Read and Write | partial | decision logic on the checks. Write: complete. Read: false for []int8 with longer buffers and for empty slices with a stride below the element size. | `C04_write_short`, `C04_read_short_partial`, `C04_read_full_fails`, `C04_read_empty_fails`, `C04_read_iff` |
| C05 | SizeOfElement agrees with the glTF alignment rules | `SizeOfElement`, `ByteSize`, `Components` | proved | case analysis over the enumerations against the rule of the glTF text.  | `C05_size_of_element`, `C05_pairs`, `C05_bounds` |
| C06 | MakeSlice and Type are inverse | `MakeSlice`, `Type` | proved | case analysis, count symbolic.  | `C06_make_slice`, `C06_make_slice_invalid`, `C06_type_then_make` |
| C07 | MakeSliceBuffer returns the right type and length for any scratch buffer | `MakeSliceBuffer`, `castSlice`, `reslice` | partial | case analysis, count and buffer symbolic. False for (Uint, Mat3) with a non-empty buffer (negation proved). | `C07_make_slice_buffer_partial`, `C07_full_fails`, `C07_panic_iff`, `C07_invalid` |
| C08 | ReadAccessor does not depend on the scratch buffer | `ReadAccessor` with its buffer argument | partial | two scratch buffers give the same result, by cases on the accessor. C08_iff: exact for accessors without sparse data. False for accessors without buffer view, whose elements are the contents of the scratch buffer (negation proved). | `C08_scratch_partial`, `C08_full_fails`, `C08_iff` |
| C09 | A written accessor reads back | `WriteAccessor`, `ReadAccessor` | proved | C01 plus offset arithmetic.  | `C09_written_reads_back`, `C09_write_succeeds` |
| C10 | Later writes never disturb earlier accessors | all modeler writes as an operation datatype (`Spec/History`) | proved | extension preorder on documents, preserved by every operation; induction over histories.  | `C10_later_writes_keep` |
| C11 | Documents built with the modeler stay well formed | same | proved | invariant (`Spec/Document`) by induction over histories.  | `C11_stays_well_formed`, `C11_new_document` |
| C12 | Accessor data is four byte aligned | `ensurePadding`, `getPadding` | proved | modular arithmetic, then histories.  | `C12_accessor_aligned`, `C12_interleaved_aligned`, `C12_history_aligned` |
| C13 | Interleaved accessors read back | `WriteAccessorsInterleaved` | partial | strided writes to disjoint regions: frame plus round trip. All types except scalar int8/uint8 (false there, negation proved).  C13_two_bytes: what two slices of bytes are read as, for all slices and documents; C13_two_bytes_iff: when the first reads back. | `C13_interleaved_reads_back_partial`, `C13_full_fails`, `C13_two_bytes`, `C13_two_bytes_iff` |
| C14 | Interleaved writes with different lengths are rejected cleanly | `writeBufferViews` | proved | decision logic, exact condition for the error. The last buffer may still grow by padding; accessors and buffer views are unchanged. | `C14_buffer_view`, `C14_accessors_error_iff`, `C14_accessors_unchanged` |
| C15 | Interleaved writes accept empty slices | `writeBufferViews` | partial | exact panicking cases. False for two or more empty slices (negation proved); C15_panic_iff: these are exactly the slices of equal length that panic. | `C15_interleaved_succeeds_partial`, `C15_panic_iff`, `C15_full_fails` |
| C16 | WritePrimitiveAttributes maps names to the accessors of their data | `WritePrimitiveAttributes` | partial | induction over the attribute list; specification `Spec/Attributes`. False for custom attributes that are slices of bytes: they are interleaved without their stride (see C13). C16_two_bytes: what two such attributes are read as, for all data, names and documents. | `C16_attributes_partial`, `C16_full_fails`, `C16_two_bytes` |
| C17 | WritePrimitiveAttributes rejects wrong types without touching the document | same | proved | exact condition for the error; the document is unchanged.  | `C17_wrong_type_rejected`, `C17_error_iff` |
| C18 | Position bounds are exact | `minMaxFloat32` | proved | floats compared by value; induction over the slice. Values compared exactly; finite positions. | `C18_position_bounds`, `C18_attribute_bounds` |
| C19 | Writes return the index of what they appended | all writes | proved | by computation.  | `C19_accessor_index`, `C19_interleaved_index`, `C19_buffer_view_index`, `C19_image_index` |
| C20 | ReadBufferView returns the exact bytes | `ReadBufferView` | partial | arithmetic on the checks. Success gives exactly the designated bytes; a range whose end overflows panics instead of failing (negation proved). | `C20_exact_bytes`, `C20_rejects_partial`, `C20_full_fails` |
| C21 | ReadAccessor and ReadBufferView never panic on malformed documents | `ReadAccessor`, `ReadBufferView` | partial | a condition on the fields that excludes every panic of the code. Proved for documents with sane fields; false otherwise, nine witnesses. C21_buffer_view_iff: exactly which buffer views are read, and exactly which panic. C21_accessor_iff: exactly which accessors without sparse data panic. C21_sparse_iff: exactly when an accessor with sparse data panics. | `C21_no_panic_partial`, `C21_buffer_view_partial`, `C21_buffer_view_iff`, `C21_full_fails`, `C21_other_panics`, `C21_accessor_iff`, `C21_sparse_iff` |
| C22 | Sparse accessors | sparse branch of `ReadAccessor` | partial | fold specification: the last duplicate wins. Patching is proved in full; the zeros of accessors without buffer view only without scratch buffer (false otherwise). | `C22_sparse`, `C22_zeros_partial`, `C22_zeros_fails` |
| C23 | Typed readers return Count elements whatever buffer they recycle | typed readers, `makeBufferOf` | partial | case analysis per reader. False for empty accessors read with a non-empty buffer and for accessors without buffer view (negations proved). | `C23_typed_readers_partial`, `C23_full_fails_empty`, `C23_full_fails_no_view`, `C23_empty` |
| C24 | Typed readers check the accessor type | type checks of the typed readers and writers | proved | case analysis.  | `C24_type_checks`, `C24_float_round_trip`, `C24_written_accepted` |
| C25 | Indices and joints are widened without loss | conversions of indices and joints | proved | induction over the slice.  | `C25_indices`, `C25_indices_round_trip`, `C25_joints`, `C25_joints_round_trip` |
| C26 | Color reads keep the normalized value | conversions of colours | partial | induction over the slice, arithmetic per value. ReadColor of 16 bit colours keeps the low byte instead of the high byte (negation proved). | `C26_color_partial`, `C26_color64`, `C26_full_fails`, `C26_low_bytes` |
| C27 | Concurrent typed reads do not interfere | pools as multisets of arrays, goroutines as programs of atomic steps (`Model/Pool`) | partial | ownership invariant by induction over all schedules; the sequential result by simulation. For every execution of any number of readers: results as if alone (for some scratch contents), no two goroutines access one scratch array, no goroutine is stuck. The result is definite when a lone call does not depend on the scratch contents; for other accessors the claim is false: an accessor without buffer view shows data that another goroutine left in the pool (C27_full_fails; see also C08 and C23). | `C27_as_if_alone`, `C27_same_result_partial`, `C27_no_race`, `C27_progress`, `C27_full_fails` |
| C28 | Normalized integers survive denormalization | math.go with float32 rounding | proved | relative error of rounding, then linear arithmetic.  | `C28_unsigned`, `C28_signed` |
| C29 | Denormalization is monotone and in range | same | proved | monotonicity of rounding.  | `C29_unsigned`, `C29_signed` |
| C30 | GLB output is a well formed container | `encodeBinary` | proved | container grammar `Spec/Glb`. Writers without errors; outputs below 4 GiB. | `C30_container` |
| C31 | GLB round trip | `Encode`, `Decode` of GLB, with JSON text and readers | proved | printer/parser round trip, document codec round trip, chunk arithmetic. Reads of multiples of four bytes (see C32 for others); URIs of images up to percent-decoding. | `C31_glb_round_trip`, `C31_encodes` |
| C32 | Decode does not depend on how the reader splits the stream | bufio.Reader, LimitedReader, json.Decoder buffering over any schedule of reads | partial | the state after the JSON depends on the bytes only; JSON by the grammar of RFC 8259. Proved for JSON text, for GLB files that do not use the binary chunk, and for GLB files whose JSON has no padding or whose reads are multiples of four bytes. False otherwise: the padding is not skipped if a read ends inside it (negation proved). All other splits give the same result or an error, never another document (C32_same_or_error). | `C32_text_partial`, `C32_no_chunk_partial`, `C32_glb_partial`, `C32_full_fails`, `C32_same_or_error` |
| C33 | Invalid GLB headers are rejected | `readGLBHeader`, `validateGLBHeader` | partial | arithmetic on the header fields. False for JSON lengths within 20 of 2^32, where the sum overflows (negation proved). | `C33_header_partial`, `C33_full_fails`, `C33_mod` |
| C34 | A nil error from Encode means everything was written | writers with a failure schedule | partial | induction over the writes. False for GLB: errors of the writes between the header and the last padding are ignored. Proved for text with any failures, and for GLB with a binary chunk when the writer goes on failing. C34_only_two: for all documents and writers only the errors of the first and the sixth call of Write are looked at; C34_header_only: without binary chunk a writer that takes only the header gives no error. | `C34_text_partial`, `C34_binary_partial`, `C34_full_fails`, `C34_text_iff`, `C34_binary_iff`, `C34_only_two`, `C34_header_only` |
| C35 | Embedded buffers round trip | base64, `EmbeddedResource`, `marshalData` | proved | arithmetic on groups of three bytes; specification `Spec/Base64`.  | `C35_roundtrip`, `C35_decode`, `C35_total` |
| C36 | Decode opens only local paths | `sanitizeURI`, `validateBufferURI`, url.Parse, filepath.IsLocal | proved | every opened name is local by an independent definition (`Spec/Path`).  | `C36_opened_local` |
| C37 | Encode creates files only below the target directory | `encodeBuffer` | partial | same. False: percent-encoded dots, backslashes and a leading ./ escape (negation proved). C37_any_name: for every name that is not empty there is a URI that makes Encode create the file of this name. | `C37_created_local_partial`, `C37_full_fails`, `C37_any_name` |
| C38 | Only relative URIs reach the file system | `encodeBuffer`, `decodeBuffer` | partial | same. URIs with a scheme do reach the file system (negation proved). C38_scheme_opened: whenever Decode with a file system succeeds, every buffer with a scheme that is not embedded was opened as a file under its whole URI. C38_scheme_created: whenever Encode with a file system succeeds, every buffer with data whose URI has a scheme and an opaque rest was created as a file, also if it climbs. | `C38_access_partial`, `C38_full_fails`, `C38_scheme_opened`, `C38_scheme_created` |
| C39 | Document round trip | every struct with its (Un)MarshalJSON, printer, parser | partial | generic record codec with one round trip theorem, instantiated for every struct. URIs are percent-decoded on reading only (negation proved). The theorem says exactly how: relative paths are replaced by what they stand for. | `C39_round_trip_partial`, `C39_full_fails` |
| C40 | Defaults are stable under round trip | defaults of nodes, materials, textures, PBR, lights | proved | from the codec laws. Nodes, materials, textures and PBR blocks of any document; lights as JSON values of their own (documents do not give them back, see C47). | `C40_defaults`, `C40_lights` |
| C41 | Enumerations round trip | const.go (un)marshalling of nine enumerations | proved | case analysis.  | `C41_componentType`, `C41_accessorType`, `C41_primitiveMode`, `C41_alphaMode`, `C41_magFilter`, `C41_minFilter`, `C41_wrappingMode`, `C41_interpolation`, `C41_trsProperty` |
| C42 | Decoding enumerations is total | same | proved | case analysis on the JSON value.  | `C42_componentType`, `C42_accessorType`, `C42_primitiveMode`, `C42_alphaMode`, `C42_magFilter`, `C42_minFilter`, `C42_wrappingMode`, `C42_interpolation`, `C42_trsProperty` |
| C43 | Enum String methods | const_strings.go with its index tables | proved | case analysis.  | `C43_componentType`, `C43_accessorType`, `C43_primitiveMode`, `C43_alphaMode`, `C43_magFilter`, `C43_minFilter`, `C43_wrappingMode`, `C43_interpolation`, `C43_trsProperty`, `C43_target` |
| C44 | Unknown extensions are preserved | extension registry, `Extensions.UnmarshalJSON` | proved | induction over the registration history.  | `C44_decoded`, `C44_written` |
| C45 | Texture transform extension round trip | texturetransform, with the text surgery on printed JSON | proved | byte level: where the removed pieces are in the printed text. Texture transforms with finite numbers: the edited text is one JSON object without default offset and scale and it reads back; and what was decoded is stable. | `C45_round_trip`, `C45_decoded` |
| C46 | Specular glossiness extension round trip | specular, with the text surgery | partial | same. Proved if the JSON text of the textures does not contain the patterns that the implementation searches for, in particular for textures without extras and extensions. False otherwise: with extras {"glossinessFactor":1} in the diffuse texture they are lost, with 1.5 the text is not JSON (C46_full_fails). | `C46_round_trip_partial`, `C46_bare_textures_partial`, `C46_texts`, `C46_full_fails` |
| C47 | Punctual lights extension round trip | lightspunctual | partial | codec laws; witnesses. The lights and indices are written and read faithfully as values, but the object around them is not written: decoding the result keeps raw JSON instead of lights (C47_full_fails for indices, C47_lists_fail for lists), and lights that were read without a range cannot be written at all, because the default range is infinite (C47_range_fails). | `C47_lights_partial`, `C47_index_partial`, `C47_full_fails`, `C47_lists_fail`, `C47_range_fails` |
| C48 | External buffers round trip through the file system | `Encode`, `Decode` with a file system map | partial | composition of C31/C39 with the map. False for names with a percent sign that is not an escape, which are skipped without an error, and for paths like a//b.bin, which are written but rejected when reading. Proved for relative paths, possibly with percent escapes, of names that io/fs accepts. C48_shared_lost: of two buffers with one file the data of the first is lost without an error. | `C48_external_partial`, `C48_full_fails`, `C48_shared_lost` |
| C49 | Data written to an opened document survives saving | same, with modeler writes between | partial | history lemmas plus round trip. Proved for documents whose last buffer has no URI or that of a file, for any plain history of writes around the write. False for embedded buffers: the new data is lost without an error, in the witness of C49_full_fails and for all documents, data and calls (C49_embedded_lost). | `C49_written_survives_partial`, `C49_reads_same`, `C49_full_fails`, `C49_embedded_lost` |
| C50 | Decode never panics | `Decode` | partial | case analysis on every panic of the code. Proved for JSON without null buffers and images and with lengths between 0 and 2^48; false otherwise (four witnesses). C50_panics_only lists all the reasons for a panic; null buffers and images always panic, negative lengths of buffers in other files do if the buffers before can be read. | `C50_no_panic_partial`, `C50_panics_only`, `C50_null_panics`, `C50_negative_panics`, `C50_full_fails` |
| C51 | Decoded buffers have the declared size | `decodeBuffers`, `decodeBinaryBuffer` | partial | arithmetic. Exact for the binary chunk; embedded and external data may differ in length (negations proved). C51_exact: exactly which decoded buffers have the declared size, and what the others contain. | `C51_sizes_partial`, `C51_full_fails`, `C51_exact` |
| C52 | A Decoder can read successive documents | two successive `Decode` calls on one decoder | partial | state of the reader after the first document. Proved for GLB files without padding of the binary chunk and reads of multiples of four bytes; false for JSON texts and padded chunks (negation proved). C52_text_lost: documents after a text of at most 512 bytes that is read at once are lost. C52_padding_fails: after a padded binary chunk the second call always fails. | `C52_successive_partial`, `C52_full_fails`, `C52_text_lost`, `C52_padding_fails` |
| C53 | Indentation does not change the document | JSON printer with indentation | proved | the parser ignores white space. Also for documents that cannot be read back: the results are the same. | `C53_indent` |
| C54 | Re-encoding a decoded document is stable | encode ∘ decode ∘ encode | partial | encoding is a function of the normal form. False for documents without version and for URIs with percent escapes (negation proved). C54_decoded_partial: the same for documents that were decoded from any stream. C54_settles_partial: whatever the version, from the second encoding on the bytes stay the same. | `C54_stable_partial`, `C54_full_fails`, `C54_decoded_partial`, `C54_settles_partial` |
| C55 | Encoders and decoders agree on which buffer is in the BIN chunk | `encodeBinary`, `decodeFirst` | proved | the rule for the first buffer on both sides.  | `C55_chunk`, `C55_none_lost` |
| C56 | Cameras without projection are rejected | `Camera.MarshalJSON` | proved | case analysis.  | `C56_rejected`, `C56_type` |
| C57 | A failed Save does not destroy the existing file | `save` | partial | steps of `save`. False: the file is truncated before the document is encoded, for every document that cannot be encoded. Proved: nothing changes if the file cannot be created, and no other file changes. | `C57_failed_partial`, `C57_truncated`, `C57_full_fails` |
| C58 | Image data URIs | `Image.MarshalData` | proved | base64 lemmas.  | `C58_image_data` |
| C59 | Read decodes every component at its place | `binary.Read` | partial | the loop reads each component at its offset. All types except strided []uint8, where it is false (negation proved). | `C59_read_layout_partial`, `C59_full_fails`, `C59_bytes` |
| C60 | Saved documents open again | `save`, `Open` | partial | C31/C39/C48 plus the file system map. False if an external buffer has the name of the file, and for paths like a//b.bin, which Save accepts and Open rejects. Proved for distinct files whose URIs are relative paths, possibly with percent escapes, of names that io/fs accepts. C60_replaced: for all documents, a buffer with the name of the file replaces the document. | `C60_save_open_partial`, `C60_full_fails`, `C60_replaced` |
| C61 | Unlit extension keeps its members | ext/unlit | proved | by computation.  | `C61_unlit_members`, `C61_unlit_others` |
| C62 | What was decoded can be encoded and decoded again | `Decode`, then `Encode`, then `Decode` | partial | everything that the decoder yields is valid (parser and codec soundness), then C31/C39. Proved for every stream whose JSON is nested at most 9993 deep, if the cameras have projections, the buffers positive lengths and the URIs are UTF-8 and, for buffers, data URIs or plain paths. False otherwise: cameras without projection cannot be encoded, a zero scale becomes one, and URIs that are percent-decoded to other bytes are replaced (C62_full_fails). Registered extensions are arbitrary functions; the theorem assumes that they are stable (LawfulRegistry), which is proved for texture transforms and unlit materials. | `C62_decoded_valid`, `C62_depth`, `C62_round_trip_partial`, `C62_finite`, `C62_lawful`, `C62_full_fails` |
| C63 | New accessors and buffer views describe the data written | all modeler writers | proved | independent description of accessors and views (`Spec/Describe`). all writers; found by mutation testing: targets and strides were in no property | `C63_accessor_described`, `C63_view_described`, `C63_interleaved_described` |
| C64 | The typed writers take exactly their element types | typed writers | proved | case analysis over the 44 slice types. for documents whose last buffer is not nil and has room for the data | `C64_writers_accept` |
| C65 | The JSON that is written follows the glTF schema | every struct | proved | the glTF 2.0 schema as tables (`Spec/Schema`); generic theorem per table. The schema is written as tables in Spec/Schema.lean. C65_written is about the bytes written, for documents with valid contents (UTF-8, finite numbers, nesting); C65_nil_list shows that the required members are needed: nil lists are written as null. | `C65_follows_schema`, `C65_written`, `C65_nil_list` |
| C66 | JSON that follows the glTF schema is read as what it stands for | every struct | proved | same tables, other direction, from the text of the file. JSON-schema integers in other notations (24.0, 1e3) are not covered: the library rejects them. C66_uris: how the URIs of buffers are read, and which files are opened for them. C66_image_uris: the same for images. | `C66_reads`, `C66_accepts`, `C66_uris`, `C66_image_uris` |
| C67 | A nil error means that the files were written and closed | `encodeBuffers`, `save` | partial | every write and close of the plan is checked. Proved for buffers whose URI is a relative path, possibly with percent escapes. False for URIs with invalid escapes: nothing is written and no error is returned (negation proved). C67_last: if buffers share a file it has the data of the last one.  C67_skipped: for all documents whose external buffers have invalid escapes no file is created, and the result is that without a file system. C67_invalid: nor are files written for URIs with a control character or a colon in the first segment that does not end a scheme. | `C67_encode_partial`, `C67_save_partial`, `C67_full_fails`, `C67_last`, `C67_skipped`, `C67_invalid` |
| C68 | Colours survive denormalization | colour functions of math.go | partial | error analysis of the curve with rationals; any math.Pow with relative error 2^-40. False: truncation instead of rounding loses one for many colours, for instance 255 becomes 254 (negation proved). Proved for every math.Pow with relative error 2^-40: each colour channel comes back as it was or one less, alpha comes back exactly. C68_dark: dark colours, for which math.Pow is not used, are affected too. | `C68_rgb_partial`, `C68_rgb64_partial`, `C68_rgba_partial`, `C68_rgba64_partial`, `C68_full_fails`, `C68_dark` |
| C69 | Denormalized colours keep their order and range | same | partial | monotonicity of the pieces with explicit gaps. Range, strict order and zero are proved for all accurate math.Pow; false only for the largest value: DenormalizeRGB of 255 is 1 - 2^-23 (negation proved). | `C69_rgb_partial`, `C69_rgba_partial`, `C69_injective`, `C69_full_fails` |
| C70 | Normalization gives the nearest integer | Normalize functions | proved | rounding of float32 products, ties away from zero.  | `C70_unsigned`, `C70_signed` |
| C71 | The spelling of the JSON does not matter | `Decode` from bytes | partial | the parser is complete for the grammar `Spec/JsonText` (RFC 8259). Text files: proved in full. GLB files: if the JSON text fills its chunk or the reads are multiples of four bytes; false otherwise for the reason given with C32 (C71_full_fails): then the result is the same or an error (C71_same_or_error). | `C71_text`, `C71_glb_partial`, `C71_same_or_error`, `C71_full_fails` |
| C72 | Only JSON is accepted | `Decode` from bytes | proved | the parser is sound for the same grammar.  | `C72_json_only` |
| C73 | Normalised integers are read as the nearest floats | `Denormalize*`, `ReadTextureCoord`, `ReadWeights` | proved | rational arithmetic: rounding to `float64` and then to `float32` is rounding once, as fractions with these denominators are not near the middle of two floats.  | `C73_denormalize`, `C73_readers` |
| C74 | The modeler only appends | all writing functions | proved | induction over the calls.  | `C74_only_appends` |
| C75 | Extension packages handle their own extensions | `RegisterExtension` and the four packages | proved | the registry finds the only function for a name.  | `C75_by_name`, `C75_all_packages`, `C75_texture_transform`, `C75_specular` |
| C76 | New documents have a default scene | `NewDocument`, all writing functions | proved | from C74.  | `C76_new_document`, `C76_asset` |
| C77 | Invalid enumeration values are replaced when written | the nine enumerations | proved | computation.  | `C77_numbers`, `C77_strings` |
| C78 | Float colours are encoded in sRGB | colour functions of math.go, ReadColor and ReadColor64 with them | proved | rational error bounds carried over to the real power function of Mathlib; rounding does not pass a float. math.Pow is a parameter assumed accurate to 2^-40 on the bases that occur | `C78_rgb`, `C78_rgba`, `C78_readColor`, `C78_readColor64` |
| C79 | Integer colours are decoded from sRGB | colour functions of math.go | proved | as C78, with the error of the base of the power. math.Pow as in C78 | `C79_rgb`, `C79_rgba` |
| C80 | A colour is read the same from bytes and from floats | ReadColor | partial | C78 and the exact round trip of alpha; false for the other channels. False of the code: floats are encoded in sRGB, bytes are returned as they are; alpha is the same. C80_iff: the other channels are the same, up to one unit, exactly for bytes that are 0 or at least 252. | `C80_alpha_partial`, `C80_full_fails`, `C80_iff` |
| C81 | Files whose data is there are accepted | `Decode`, file systems, GLB | proved | the acceptance of the schema (C66) and of each place of data; JSON determines length and URI of buffers. file URIs are relative paths of names (possibly escaped), as in the other properties about files | `C81_text`, `C81_glb` |
| C82 | Decode does not depend on the old content of the document | `Decode` into any document | partial | every field is read from the members with its name, from its value before. False: lists are mixed with what was there, old buffers are loaded again. False: elements of lists are mixed with the old ones, and old buffers are loaded again. Proved: fields that are not in the JSON keep their values; asset, extras, nodes, materials and scene are replaced. C82_names_partial: the names of extensions are replaced too, unless they are null (C82_null_kept). | `C82_kept_partial`, `C82_replaced_partial`, `C82_full_fails`, `C82_names_partial`, `C82_null_kept` |
| C83 | A slice made from a scratch buffer shows its memory | `MakeSliceBuffer`, `ReadAccessor` without data | proved | components of elements read from memory, compared byte by byte. little-endian host | `C83_scratch`, `C83_read_no_view` |
| C84 | Files that were cut short are rejected | `Decode` of parts of files | partial | the brackets of a JSON text: no text of a value is a proper prefix of that of an object (independent of the parser); then the reader after the JSON. Text and the JSON of GLB files: complete. Data: the bytes that pad the last chunk may be missing, because the lengths in the headers are not compared with that of the file (negation proved). C84_after_data: conversely whatever follows the data of the first buffer makes no difference. | `C84_text`, `C84_json`, `C84_chunk_partial`, `C84_full_fails`, `C84_after_data` |
| C85 | Opening and saving keeps the other files | `Open`, then `save`, with a file system map | partial | where the data of the buffers is from, and where `Encode` puts it. False: a data file that is longer than its buffer is cut to the length of the buffer, and URIs with escaped percent signs or backslashes are decoded twice and lead to new files, also outside of the directory (negation proved). C85_prefix: without such URIs nothing else can happen. C85_kept_partial: nothing changes if also no file is longer than its buffers. C85_any_name: for every name there is a text file that, once opened, makes saving it create the file of this name. | `C85_prefix`, `C85_kept_partial`, `C85_full_fails`, `C85_any_name` |
| C86 | Accessor data is where the glTF specification puts it | `writeAccessor`, `writeAccessorsInterleaved`, the helpers and `readAccessor` | partial | bytes written by disjoint patches; C59 for reading. True of WriteIndices, WritePosition, WriteNormal, WriteTangent, WriteTextureCoord, WriteWeights, WriteJoints, WriteColor and WriteInverseBindMatrices (C86_helpers). False: vectors of two or three bytes or of three 16 bit numbers are written by WriteAccessor four or eight bytes apart without a stride unless the target is ARRAY_BUFFER (C86_write_odd), are looked for there by ReadAccessor, and tightly packed ones are rejected (C86_read_rejects); and []uint8 ignores strides (negations proved). The partial theorems cover everything else. | `C86_helpers`, `C86_write_partial`, `C86_write_odd`, `C86_interleaved_partial`, `C86_read_partial`, `C86_read_rejects`, `C86_write_full_fails`, `C86_interleaved_full_fails`, `C86_read_full_fails`, `C86_attributes_partial`, `C86_attributes_full_fails` |
| C87 | Strides and offsets follow the alignment rules of glTF | the same | partial | C12 and C63, then arithmetic. True of the typed writing functions (C87_helpers). False: numbers of one or two bytes as vertex attributes are not aligned, alone or interleaved, nor are the slices after them, and nothing limits the stride of interleaved data (negations proved). The partial theorems cover everything else. C87_write_iff and C87_interleaved_iff: exactly which writes follow the rules. | `C87_helpers`, `C87_write_partial`, `C87_interleaved_partial`, `C87_write_full_fails`, `C87_interleaved_full_fails`, `C87_stride_unlimited`, `C87_attributes_partial`, `C87_write_iff`, `C87_interleaved_iff` |
| C88 | Relative references are resolved to file names | `sanitizeURI`, `validateBufferURI`, `decodeSource`, `encode` | partial | the two replacements act on the segments one by one; then C81 and C67. True of references whose only dot segments are single dots, no two of them next to each other. False of the others (negations proved): a/../b.bin is opened and created under this name, which is not a valid name of io/fs, and of two dots next to each other one stays. C88_up_kept: the first for all references with segments that lead up and all documents. C88_up_opened: the same for Decode of all files. | `C88_resolved_partial`, `C88_full_fails`, `C88_repeated_dots`, `C88_up_kept`, `C88_up_opened` |
| C89 | Numbers are read as the nearest float64 and written with the fewest digits | `JC.float`, `goFmt`, `parseFloat` | proved | rounding is monotonic and exact on float64; a decimal with fewer digits lies outside of the two neighbours that are tried; 17 digits are nearer than half the gap. About the model of strconv and of the float encoder of encoding/json (standard library), which all float64 fields of documents use. | `C89_read`, `C89_write`, `C89_not_finite`, `C89_form` |
| C90 | Values of the wrong kind are refused, others are not | `documentC` and all codecs, `decodeSource` | proved | a table of kinds (`Spec/JKind`); each combinator accepts exactly the values of its kind, then the tables row by row. Exact: the JSON stage succeeds if and only if every member that is read has a value of the right kind or null. Numbers are read as by strconv (C89). | `C90_refused`, `C90_only`, `C90_accepted` |
| C91 | Members that are not in the schema are ignored | `documentC` and all codecs, `decodeSource` | partial | decoding does not tell apart values that are alike for the table of kinds, by induction over the likeness. True of members whose names differ from those of the schema by more than case. False of the others (negation proved): encoding/json takes SCENE for scene. In GLB files the JSON text fills its chunk, or reads return multiples of four bytes (C32). | `C91_text_partial`, `C91_glb_partial`, `C91_full_fails` |
| C92 | An extension is decoded by its package exactly when its values are of the right kinds | `lightsExt`, `specularExt`, `transformExt`, `unlitExt`, `Registry.decode` | proved | the tables of kinds of the extensions (`Spec/ExtKind`), by the lemmas of C90 and C91, and C75. Names are compared as encoding/json does, whatever their case (C91). | `C92_packages`, `C92_ignored` |
| C93 | Extensions can be registered while documents are decoded | `RegisterExtension`, `queryExtension` and `Extensions.UnmarshalJSON` as programs of atomic steps (`Model/RegConc`) | proved | invariant of the lock by induction over executions; the log of the accesses is the sequential order. For every interleaving of the steps of any number of goroutines. The lock is modelled by its state, as in sync.RWMutex: readers wait for a writer that waits. | `C93_no_race`, `C93_progress`, `C93_order`, `C93_decode` |
| C94 | ReadAccessor accepts exactly the accessors that fit in their buffer views | `readAccessor`, `readIndices`, `readBufferViewIndex`, `makeSliceBuffer`, `read` | partial | composition of the exact characterisations C04, C20 and C22; the indices of sparse data by the last occurrence of each. An accessor that does not fit is never accepted. The converse is false for two sorts of accessors (negation proved): signed scalar bytes with further bytes behind them, and empty accessors near the end of a view with a stride; for all others it is proved, so that the theorems are exact. Strides up to 2^14, slices that can be allocated, and not MAT3 of unsigned ints (C07). | `C94_dense_partial`, `C94_sparse_partial`, `C94_indices_partial`, `C94_rejects`, `C94_full_fails` |
| C95 | Slices that were read stay as they are while more data is written | all writing functions once more, with slices in memory (`Model/Heap`) | proved | simulation of the model with values, function by function; an invariant about the spare capacity of the last buffer. In memory with arrays, offsets, lengths and capacities; the runtime chooses the capacities. C95_shared_fails: the hypothesis is needed. C95_values also justifies the other theorems, which take slices for values. | `C95_stays`, `C95_others`, `C95_values`, `C95_every_document`, `C95_shared_fails` |
| C96 | Encode does not change the document and can run in several goroutines | Encode once more, with pointers to buffers and descriptions of materials, as a program of loads, stores and allocations, and goroutines that run such programs in any order (`Model/Shared`) | proved | an invariant with the objects that each goroutine owns, weakest preconditions of the program, and well-founded descent of the programs. Buffers and descriptions of materials are objects in memory, the only ones that the code copies or assigns to while it encodes; each load, store and allocation is a step. Each call has its own writer and file system. The MarshalJSON methods of extensions and extras are those of the caller and are taken to change nothing. | `Shared.C96_unchanged`, `Shared.C96_no_race`, `Shared.C96_result`, `Shared.C96_value`, `Shared.C96_terminates`, `Shared.C96_progress`, `Shared.C96_finish` |
| C97 | Encode refuses exactly the documents without JSON form | Encode with all marshalling functions | proved | a separate predicate over the fields of the document (`Spec/Encodable`); one equivalence for each codec, put together for the document. Which values of extensions can be marshalled is given by the caller's MarshalJSON, which the model takes as a result stored with the value. | `C97_refused`, `C97_accepted`, `C97_nil` |
| C98 | Bounds of positions that are not all finite | WritePosition, minMaxFloat32, math.Min, math.Max; Encode | proved | induction over the fold for each of the cases infinity, NaN, finite; C97 for the refusal. math.Min and math.Max with all their special cases; NaN keeps no payload. | `C98_position_bounds`, `C98_attribute_bounds`, `C98_refused`, `C98_finite` |
| C99 | The data of decoded buffers is what the file and its neighbours contain | Decode with the loops over the buffers, decodeBuffer, decodeBinaryBuffer, Buffer.marshalData | proved | inversion of each step; the place of the chunk from the lemmas on buffered readers (C32). For buffers of 4 GiB and more the declared length of the BIN chunk is compared modulo 2^32, so it does not bound the data. | `C99_data`, `C99_chunk` |
| C100 | Documents built with the writing functions can be stored and are read back | NewDocument, all writing functions of modeler/write.go, Encode, Decode, ReadAccessor, ReadBufferView | proved | histories of calls keep the documents that can be stored (C49) and add no URI; then the round trips C31 and C39. An example beside the theorems shows why the buffer has to hold a byte: after writing only empty slices the document is encoded and cannot be decoded. | `C100_encodes`, `C100_built` |
| C101 | What the writing functions wrote can be read | all writing functions of modeler/write.go, ReadAccessor, ReadBufferView, binary.Read, MakeSliceBuffer | proved | an invariant of the histories of calls (accessors lie in their views, strides are zero or at least the size of an element), then the equivalence C94. An equivalence: the exception is real. Which values are returned is the subject of C09, C10 and C13. | `C101_readable` |
| C102 | A mesh that was written is read from the file | all writing functions of modeler/write.go, the typed readers, Encode and Decode | proved | composition of C25, C24, C10, C31 and C39; the buffer of a built document is alone and has no URI. For GLB from readers that fill whole words (C32); meshes and the rest are any document of Spec.DocumentOk. | `C102_later`, `C102_file`, `C102_mesh` |
| C103 | Data added to a file that was opened does not disturb what was in it | Decode, all writing functions of modeler/write.go, Encode and ReadAccessor | proved | composition of C62, C99, C49, C31 and C39; a decoded buffer without URI is alone and full. For GLB from readers that fill whole words (C32). Files with buffers outside of the binary chunk: C49 and C62. | `C103_edit` |
| C104 | Appending to bytes that were read does not change the document | `ReadBufferView` with slices in memory (`Model/Heap`); `append` of the caller is in the specification | partial | the place of the slice in the array of its buffer, and what a store there does to the buffers. False of the code: the slice has the capacity of the rest of the buffer, and what is appended overwrites the data that follows (C104_append_overwrites, for all documents). Proved for slices that cannot grow in place and for the end of the last buffer. | `C104_append_partial`, `C104_append_end`, `C104_append_overwrites`, `C104_full_fails` |
| C105 | The typed readers change only the part of the recycled buffer that they need | the typed readers once more, with the recycled slice in memory (`Model/HeapRead`) | proved | effect of `makeBufferOf` and of the conversion loop on arrays; the loops replace exactly the first `Count` elements. In memory with arrays, offsets, lengths and capacities. The elements are stored at once instead of one after the other; the arrays of the caller are not those of the document. | `C105_elsewhere`, `C105_recycled`, `C105_values`, `C105_results` |
| C106 | Decode returns the error of the reader | `Decode` on a reader with arbitrary errors (`Model/Stream`) | partial | the parser asks for more on every proper prefix of a text (monotonicity); the error at the end of the stream reaches the result. False of the code: if the reader fails within the first 20 bytes of a GLB file its error is lost and Decode reports a wrong character (C106_header, for all files). Proved for text, for the JSON of GLB files, and for their data if the JSON needs no padding (with padding the header of the chunk may be read from the padding, see C32). C106_chunk_any: with any padding and reads the error is that of the reader or that of a wrong header of the chunk. | `C106_text`, `C106_json_partial`, `C106_chunk_partial`, `C106_header`, `C106_full_fails`, `C106_chunk_any` |
| C107 | Errors of the file system are returned at once | the loops over the buffers in `Decode` and `Encode` with the names they open and create | partial | induction on the buffers. Proved for Encode. False for Decode with negative lengths: it panics although the file could not be read (C50); proved whenever Decode does not panic. | `C107_decode_partial`, `C107_encode`, `C107_full_fails` |
| C108 | The last of several members with one name counts | the struct decoder with members in the order of the text | partial | a field whose decoding ignores the old value is overwritten, and the other members commute with it. False of the code: the lists of accessors, meshes etc. are decoded into the elements of the earlier list, and members that are missing in the last list are taken from it (C108_full_fails). Proved for the asset, extra data, nodes, materials and the scene, which are decoded into fresh values; for GLB files if the JSON fills its chunk or the reads are aligned (C32). C108_names_partial: also for the names of extensions, if the last ones are strings. | `C108_last_partial`, `C108_glb_partial`, `C108_full_fails`, `C108_names_partial` |
| C109 | The order of the members does not matter | the struct, map and list decoders with members in the order of the text | partial | members with different names commute in every decoder; induction over the reordering. Text files: proved in full. GLB files: if the JSON fills its chunk or the reads are aligned; false otherwise for the reason given with C32 (C109_full_fails): then the result is the same or an error (C109_same_or_error). Neighbouring members whose names differ in case only are not exchanged, as they name one field. Within the values of three of the extension packages the order does not matter either (C109_packages). | `C109_text`, `C109_glb_partial`, `C109_same_or_error`, `C109_full_fails`, `C109_extension_order`, `C109_packages` |
| C110 | A GLB file without binary data is read like its JSON | Decode on text and GLB files, with the place of the reader after the JSON | proved | both run the same decoder on the same value; the rest differs only if the first buffer has no URI. For every reader, also one whose reads end within the padding: only a buffer in the binary chunk depends on that (C32). C110_same_or_refused also covers files that are refused or panic. | `C110_wrapped`, `C110_same_or_refused` |

## 6. How the statements are kept independent of the model

* Memory layout, GLB containers, base64, paths, percent escapes, JSON text (RFC 8259), the glTF schema, sRGB
  curves, nearest integers, sparse patches and the descriptions of accessors are defined in `Spec` by their
  standards, not by the functions of the model.
* The data types (`Document`, `Buffer`, `JVal`, ...) and the entry points (`encode`, `decodeSource`, ...) are
  those of the model: theorems are about them.
* `SameDocument` (Spec/RoundTrip, Spec/DocNorm) lists every field in which a decoded document may differ from
  the encoded one.
* A few statements mention the codec of a value as entry point, for example `specularDec` and `transformDec`,
  which model exported functions (`Unmarshal`).

## 7. Findings

Disagreements between the properties and the code, each with a proof of the negation unless said otherwise.

Binary package and modeler:

1. `binary.Read` and `Write` handle `[]int8` and `[]uint8` without stride: strided data is wrong, and `Read` into
   `[]int8` panics if the buffer is longer than the slice (C01–C04, C13, C59).
2. `MakeSliceBuffer` panics for (Uint, Mat3) with a non-empty buffer (C07).
3. Accessors without buffer view return whatever is in the scratch buffer instead of zeros (C08, C22, C23).
4. `WriteAccessorsInterleaved` fails for two or more empty slices (C15).
5. Byte sized attributes with custom names (`[]uint8`) written together with `WriteAttributesInterleaved` are read back
   wrongly: [1, 2] comes back as [1, 3] (C16).
6. `ReadBufferView` and `ReadAccessor` panic on documents with overflowing offsets, negative lengths, nil
   entries and indices out of range (C20, C21).
7. Typed readers return the elements of the recycled buffer for an empty accessor (C23).
8. `ReadColor` keeps the low byte of 16 bit colours (C26).
9. Inverse bind matrices get the target ARRAY_BUFFER; vertex data with elements of one or two bytes is not padded
   to four (C63 describes what is written; no theorem says that this is wrong).

Containers and files:

10. `validateGLBHeader` overflows for JSON lengths near 4 GiB (C33).
11. Decoding a padded GLB fails or not depending on how the reader splits the data (C32).
12. A second `Decode` on the same reader loses what was read ahead (C52).
13. Errors of the writes of a GLB body are ignored (C34).
14. `Save` truncates the existing file before it encodes (C57).
15. An external buffer with the name of the document overwrites it; of two buffers with the same name the last
    wins (C60).
16. A buffer URI with an invalid percent escape, such as `100%.bin`, is not written, without an error (C48, C67).
17. Percent-encoded dots, backslashes and a leading `./` escape the target directory when encoding; URIs with
    a scheme reach the file system (C37, C38).
18. URIs are percent-decoded when reading but not encoded when writing (C39, C54).
19. Data written to an embedded buffer after `Open` is lost by `Save` (C49).
20. Decode panics on null buffers and images and on negative lengths; the length of embedded data is not checked (C50,
    C51).

JSON:

21. Cameras without projection can be decoded but not encoded (C62).
22. Unknown numbers of enumerations are read as the zero constant, which is TRIANGLES for the mode of a primitive, and
    `"mode": null` is read as POINTS (C42 describes it).
23. Punctual lights are written without the object around them; a light without range cannot be written (C47).
24. The specular extension removes text by pattern, which damages extras (C46).
25. Nil lists of required members are written as `null` (C65).
26. Documents without version do not encode to the same bytes after decoding (C54).
27. Integers such as `24.0` and `1e3`, which JSON schema allows, are refused (C66).
28. JSON nested more than 10000 deep cannot be read back (C39 has the bound as a hypothesis).

Colours:

29. `Normalize*` of `Denormalize*` of a colour is one less for many colours (37 of 256 values for 8 bits), for
    instance 254 for 255 (C68).
30. `DenormalizeRGB` of 255 is 1 - 2^-23 (C69).
31. A typed read of an accessor without buffer view can return data that another goroutine read (C27): the scratch
    arrays in the pool are not cleared.
32. A document with an accessor whose type is not a constant is written without an error but cannot be read (C77);
    other invalid values are replaced silently.
33. `ReadColor` and `ReadColor64` encode float colours in sRGB but return integer colours as they are, although both
    hold linear values in glTF: a grey of 128/255 is read as 128 from bytes and as more than 183 from floats (C80).
34. Paths such as `a//b.bin` and `a/../b.bin` are local for the check of URIs, so `Encode` and `Save` write their files.
    They are not valid paths of io/fs, so `os.DirFS` and with it `Open` reject them (C48, C60).
35. `Decode` mixes the file with what is in the document: elements of lists are decoded into the elements that are there, so a
    mesh without name gets the name of the old one; a document with a buffer from a binary chunk cannot be used again for a
    file without buffers, because the old buffer is loaded again, and it has no URI (C82).
36. The lengths in the headers of a GLB are not compared with that of the file: a file without the bytes that pad its last
    chunk is accepted (C84).
37. `Open` then `Save` cuts a data file that is longer than its buffer to the length of the buffer, without an error (C85).
38. URIs are percent-decoded by `Decode`, stored decoded, and decoded again by `Encode`: a file with the URI `%252e%252e/x` is read
    from `%2e%2e/x` below the directory, and saving the document creates `../x`, outside of it (C85).
39. Vectors of two or three bytes or of three 16 bit numbers in a buffer view without stride: glTF says that they are tightly packed.
    `ReadAccessor` looks for them four or eight bytes apart, and rejects tightly packed ones that end with the buffer view; so it
    cannot read the values of conforming sparse accessors of these types. `WriteAccessor` with a target other than ARRAY_BUFFER
    writes them four or eight bytes apart without setting the stride, so that other programs read other values (C86).
40. `WriteAccessorsInterleaved` with a slice of one or two byte numbers gives misaligned offsets and strides, and with long rows a stride
    above 252, which glTF does not allow (C87).
41. `sanitizeURI` does not remove `..` segments, nor all of several `.` segments next to each other: for `a/../b.bin` and `a/././b.bin` the
    file system is asked for `a/../b.bin` and `a/./b.bin`, which are not valid names of io/fs, so that such buffers cannot be read (C88).
42. Names of members are recognized whatever their case (`SCENE` is read as `scene`), because encoding/json does so; in JSON they are different
    names, and an extra member that differs in case overwrites the real one (C91).
43. The writing functions append in place to the slice that the caller stored in the last buffer. If other data lies in its spare capacity, for
    instance because the buffers are parts of one array in another order, that data is overwritten (C95).
44. WritePosition accepts positions with NaN or infinities and stores bounds that have no JSON form, so that the document can no longer be
    encoded; the error appears only there. A component that is minus infinity in all positions gets the maximum -MaxFloat64 (C98).
45. The slice that `ReadBufferView` returns has the capacity of the rest of the buffer (`buf[lo:high]`, not `buf[lo:high:high]`). The comment of
    the function forbids changes of the bytes; but a caller who only appends to the slice overwrites the data that follows it (C104).
46. An error of the reader within the first 20 bytes of a GLB file is lost: `readGLBHeader` ignores the error of `Peek`, and Decode reports a
    wrong character of JSON instead, e.g. for a connection that breaks (C106).
47. Repeated members of the JSON object are mixed: `"meshes":[{"name":"old",…}],"meshes":[{…}]` gives a mesh named `old`, because
    encoding/json decodes into the elements that are there; nodes and materials are not mixed, as they are decoded into fresh values (C108).

## 8. Axioms by theorem

* no axioms (1): C68_dark.
* `propext` (45): C01_full_fails, C02_full_fails, C04_read_full_fails, C04_read_empty_fails, C05_size_of_element, C06_make_slice_invalid, C07_full_fails, C08_full_fails, C13_full_fails, C15_full_fails, C20_full_fails, C21_full_fails, C21_other_panics, C22_zeros_fails, C23_full_fails_empty, C23_full_fails_no_view, C26_full_fails, C27_progress, C34_full_fails, C35_total, C41_accessorType, C41_alphaMode, C41_interpolation, C41_trsProperty, C42_accessorType, C42_alphaMode, C42_interpolation, C42_trsProperty, C46_texts, C47_lists_fail, C57_failed_partial, C57_full_fails, C59_full_fails, C61_unlit_others, C67_full_fails, C77_numbers, C77_strings, C57_truncated, C07_invalid, C87_interleaved_full_fails, C89_not_finite, C93_order, C95_shared_fails, Shared.C96_terminates, Shared.C96_progress.
* `propext`, `Quot.sound` (84): C03_full_fails, C05_pairs, C05_bounds, C06_make_slice, C06_type_then_make, C07_make_slice_buffer_partial, C12_accessor_aligned, C16_full_fails, C17_wrong_type_rejected, C20_rejects_partial, C22_zeros_partial, C30_container, C32_full_fails, C33_full_fails, C34_text_partial, C34_binary_partial, C38_full_fails, C39_full_fails, C40_lights, C41_componentType, C41_primitiveMode, C41_magFilter, C41_minFilter, C41_wrappingMode, C42_componentType, C42_primitiveMode, C42_magFilter, C42_minFilter, C42_wrappingMode, C43_componentType, C43_accessorType, C43_primitiveMode, C43_alphaMode, C43_magFilter, C43_minFilter, C43_wrappingMode, C43_interpolation, C43_trsProperty, C43_target, C44_written, C47_index_partial, C47_full_fails, C47_range_fails, C49_reads_same, C49_full_fails, C50_full_fails, C51_full_fails, C52_full_fails, C54_full_fails, C56_rejected, C56_type, C60_full_fails, C62_finite, C62_full_fails, C63_accessor_described, C63_view_described, C65_nil_list, C27_full_fails, C82_full_fails, C07_panic_iff, C84_full_fails, C85_full_fails, C71_full_fails, C86_write_full_fails, C86_interleaved_full_fails, C86_read_full_fails, C87_write_full_fails, C86_attributes_full_fails, C93_decode, Shared.C96_unchanged, Shared.C96_result, Shared.C96_value, C97_nil, C104_append_partial, C107_decode_partial, C107_encode, C107_full_fails, C108_full_fails, C109_full_fails, C109_extension_order, C34_only_two, C34_header_only, C82_null_kept, C38_scheme_created.
* `propext`, `Classical.choice`, `Quot.sound` (258): C01_write_read_partial, C02_layout_partial, C03_frame_partial, C04_write_short, C04_read_short_partial, C08_scratch_partial, C09_written_reads_back, C09_write_succeeds, C10_later_writes_keep, C11_stays_well_formed, C11_new_document, C12_interleaved_aligned, C12_history_aligned, C13_interleaved_reads_back_partial, C14_buffer_view, C14_accessors_error_iff, C14_accessors_unchanged, C15_interleaved_succeeds_partial, C16_attributes_partial, C17_error_iff, C18_position_bounds, C18_attribute_bounds, C19_accessor_index, C19_interleaved_index, C19_buffer_view_index, C19_image_index, C20_exact_bytes, C21_no_panic_partial, C21_buffer_view_partial, C22_sparse, C23_typed_readers_partial, C24_type_checks, C24_float_round_trip, C24_written_accepted, C25_indices, C25_indices_round_trip, C25_joints, C25_joints_round_trip, C26_color_partial, C26_color64, C27_as_if_alone, C27_same_result_partial, C27_no_race, C28_unsigned, C28_signed, C29_unsigned, C29_signed, C31_glb_round_trip, C31_encodes, C32_text_partial, C32_no_chunk_partial, C32_glb_partial, C33_header_partial, C35_roundtrip, C35_decode, C36_opened_local, C37_created_local_partial, C37_full_fails, C38_access_partial, C39_round_trip_partial, C40_defaults, C44_decoded, C45_round_trip, C45_decoded, C46_round_trip_partial, C46_bare_textures_partial, C46_full_fails, C47_lights_partial, C48_external_partial, C48_full_fails, C49_written_survives_partial, C50_no_panic_partial, C51_sizes_partial, C52_successive_partial, C53_indent, C54_stable_partial, C55_chunk, C55_none_lost, C58_image_data, C59_read_layout_partial, C60_save_open_partial, C61_unlit_members, C62_decoded_valid, C62_depth, C62_round_trip_partial, C62_lawful, C63_interleaved_described, C64_writers_accept, C65_follows_schema, C65_written, C66_reads, C66_accepts, C67_encode_partial, C67_save_partial, C68_rgb_partial, C68_rgb64_partial, C68_rgba_partial, C68_rgba64_partial, C68_full_fails, C69_rgb_partial, C69_rgba_partial, C69_injective, C69_full_fails, C70_unsigned, C70_signed, C71_text, C71_glb_partial, C72_json_only, C73_denormalize, C73_readers, C74_only_appends, C75_by_name, C75_all_packages, C75_texture_transform, C75_specular, C76_new_document, C78_rgb, C78_rgba, C78_readColor, C78_readColor64, C79_rgb, C79_rgba, C80_alpha_partial, C80_full_fails, C15_panic_iff, C21_buffer_view_iff, C81_text, C81_glb, C82_kept_partial, C82_replaced_partial, C83_scratch, C83_read_no_view, C01_iff, C02_bytes, C04_read_iff, C26_low_bytes, C34_text_iff, C34_binary_iff, C59_bytes, C84_text, C84_json, C84_chunk_partial, C32_same_or_error, C33_mod, C85_prefix, C85_kept_partial, C23_empty, C71_same_or_error, C86_helpers, C86_write_partial, C86_write_odd, C86_interleaved_partial, C86_read_partial, C86_read_rejects, C87_helpers, C87_write_partial, C87_interleaved_partial, C87_stride_unlimited, C86_attributes_partial, C87_attributes_partial, C88_resolved_partial, C88_full_fails, C88_repeated_dots, C89_read, C89_write, C89_form, C90_refused, C90_only, C90_accepted, C91_text_partial, C91_glb_partial, C91_full_fails, C92_packages, C92_ignored, C93_no_race, C93_progress, C94_dense_partial, C94_sparse_partial, C94_indices_partial, C94_rejects, C94_full_fails, C95_stays, C95_others, C95_values, C95_every_document, Shared.C96_no_race, Shared.C96_finish, C97_refused, C97_accepted, C98_position_bounds, C98_refused, C98_finite, C98_attribute_bounds, C76_asset, C99_data, C99_chunk, C100_encodes, C100_built, C101_readable, C102_later, C102_file, C102_mesh, C50_panics_only, C50_null_panics, C50_negative_panics, C103_edit, C49_embedded_lost, C08_iff, C104_append_end, C104_append_overwrites, C104_full_fails, C105_elsewhere, C105_recycled, C105_values, C105_results, C80_iff, C106_text, C106_json_partial, C106_chunk_partial, C106_header, C106_full_fails, C52_text_lost, C52_padding_fails, C48_shared_lost, C60_replaced, C67_last, C21_accessor_iff, C21_sparse_iff, C37_any_name, C85_any_name, C108_last_partial, C108_glb_partial, C13_two_bytes, C13_two_bytes_iff, C67_skipped, C109_text, C109_glb_partial, C109_same_or_error, C109_packages, C87_write_iff, C87_interleaved_iff, C38_scheme_opened, C84_after_data, C54_decoded_partial, C16_two_bytes, C88_up_kept, C03_bytes_iff, C51_exact, C54_settles_partial, C66_uris, C88_up_opened, C66_image_uris, C106_chunk_any, C82_names_partial, C108_names_partial, C110_wrapped, C110_same_or_refused, C67_invalid.

## 9. Mutation tests

`seeded/LOG.jsonl` has one line for every change of a definition that was tried in a copy: the definition,
the edit, the claim that it breaks, the theorems that failed and those that were tightened because nothing failed.
Changes that nothing noticed led to new properties (C59, C63–C65, C67, C71, C72) and to exact forms of others.
