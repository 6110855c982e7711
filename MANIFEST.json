{
 "claims": [
  {
   "property": "C01",
   "status": "partial",
   "theorems": [
    "Gltf.C01_write_read_partial",
    "Gltf.C01_full_fails",
    "Gltf.C01_iff"
   ],
   "note": "All 44 slice types; false for []int8 when the buffer is longer than the slice or strided (negation proved)."
  },
  {
   "property": "C02",
   "status": "partial",
   "theorems": [
    "Gltf.C02_layout_partial",
    "Gltf.C02_full_fails",
    "Gltf.C02_bytes"
   ],
   "note": "All types except strided []uint8, where it is false (negation proved)."
  },
  {
   "property": "C03",
   "status": "partial",
   "theorems": [
    "Gltf.C03_frame_partial",
    "Gltf.C03_full_fails",
    "Gltf.C03_bytes_iff"
   ],
   "note": "All types except strided []uint8, where it is false (negation proved). C03_bytes_iff: exactly when it holds for []uint8."
  },
  {
   "property": "C04",
   "status": "partial",
   "theorems": [
    "Gltf.C04_write_short",
    "Gltf.C04_read_short_partial",
    "Gltf.C04_read_full_fails",
    "Gltf.C04_read_empty_fails",
    "Gltf.C04_read_iff"
   ],
   "note": "Write: complete. Read: false for []int8 with longer buffers and for empty slices with a stride below the element size."
  },
  {
   "property": "C05",
   "status": "proved",
   "theorems": [
    "Gltf.C05_size_of_element",
    "Gltf.C05_pairs",
    "Gltf.C05_bounds"
   ],
   "note": ""
  },
  {
   "property": "C06",
   "status": "proved",
   "theorems": [
    "Gltf.C06_make_slice",
    "Gltf.C06_make_slice_invalid",
    "Gltf.C06_type_then_make"
   ],
   "note": ""
  },
  {
   "property": "C07",
   "status": "partial",
   "theorems": [
    "Gltf.C07_make_slice_buffer_partial",
    "Gltf.C07_full_fails",
    "Gltf.C07_panic_iff",
    "Gltf.C07_invalid"
   ],
   "note": "False for (Uint, Mat3) with a non-empty buffer (negation proved)."
  },
  {
   "property": "C08",
   "status": "partial",
   "theorems": [
    "Gltf.C08_scratch_partial",
    "Gltf.C08_full_fails",
    "Gltf.C08_iff"
   ],
   "note": "C08_iff: exact for accessors without sparse data. False for accessors without buffer view, whose elements are the contents of the scratch buffer (negation proved)."
  },
  {
   "property": "C09",
   "status": "proved",
   "theorems": [
    "Gltf.C09_written_reads_back",
    "Gltf.C09_write_succeeds"
   ],
   "note": ""
  },
  {
   "property": "C10",
   "status": "proved",
   "theorems": [
    "Gltf.C10_later_writes_keep"
   ],
   "note": ""
  },
  {
   "property": "C11",
   "status": "proved",
   "theorems": [
    "Gltf.C11_stays_well_formed",
    "Gltf.C11_new_document"
   ],
   "note": ""
  },
  {
   "property": "C12",
   "status": "proved",
   "theorems": [
    "Gltf.C12_accessor_aligned",
    "Gltf.C12_interleaved_aligned",
    "Gltf.C12_history_aligned"
   ],
   "note": ""
  },
  {
   "property": "C13",
   "status": "partial",
   "theorems": [
    "Gltf.C13_interleaved_reads_back_partial",
    "Gltf.C13_full_fails",
    "Gltf.C13_two_bytes",
    "Gltf.C13_two_bytes_iff"
   ],
   "note": "All types except scalar int8/uint8 (false there, negation proved).  C13_two_bytes: what two slices of bytes are read as, for all slices and documents; C13_two_bytes_iff: when the first reads back."
  },
  {
   "property": "C14",
   "status": "proved",
   "theorems": [
    "Gltf.C14_buffer_view",
    "Gltf.C14_accessors_error_iff",
    "Gltf.C14_accessors_unchanged"
   ],
   "note": "The last buffer may still grow by padding; accessors and buffer views are unchanged."
  },
  {
   "property": "C15",
   "status": "partial",
   "theorems": [
    "Gltf.C15_interleaved_succeeds_partial",
    "Gltf.C15_panic_iff",
    "Gltf.C15_full_fails"
   ],
   "note": "False for two or more empty slices (negation proved); C15_panic_iff: these are exactly the slices of equal length that panic."
  },
  {
   "property": "C16",
   "status": "partial",
   "theorems": [
    "Gltf.C16_attributes_partial",
    "Gltf.C16_full_fails",
    "Gltf.C16_two_bytes"
   ],
   "note": "False for custom attributes that are slices of bytes: they are interleaved without their stride (see C13). C16_two_bytes: what two such attributes are read as, for all data, names and documents."
  },
  {
   "property": "C17",
   "status": "proved",
   "theorems": [
    "Gltf.C17_wrong_type_rejected",
    "Gltf.C17_error_iff"
   ],
   "note": ""
  },
  {
   "property": "C18",
   "status": "proved",
   "theorems": [
    "Gltf.C18_position_bounds",
    "Gltf.C18_attribute_bounds"
   ],
   "note": "Values compared exactly; finite positions."
  },
  {
   "property": "C19",
   "status": "proved",
   "theorems": [
    "Gltf.C19_accessor_index",
    "Gltf.C19_interleaved_index",
    "Gltf.C19_buffer_view_index",
    "Gltf.C19_image_index"
   ],
   "note": ""
  },
  {
   "property": "C20",
   "status": "partial",
   "theorems": [
    "Gltf.C20_exact_bytes",
    "Gltf.C20_rejects_partial",
    "Gltf.C20_full_fails"
   ],
   "note": "Success gives exactly the designated bytes; a range whose end overflows panics instead of failing (negation proved)."
  },
  {
   "property": "C21",
   "status": "partial",
   "theorems": [
    "Gltf.C21_no_panic_partial",
    "Gltf.C21_buffer_view_partial",
    "Gltf.C21_buffer_view_iff",
    "Gltf.C21_full_fails",
    "Gltf.C21_other_panics",
    "Gltf.C21_accessor_iff",
    "Gltf.C21_sparse_iff"
   ],
   "note": "Proved for documents with sane fields; false otherwise, nine witnesses. C21_buffer_view_iff: exactly which buffer views are read, and exactly which panic. C21_accessor_iff: exactly which accessors without sparse data panic. C21_sparse_iff: exactly when an accessor with sparse data panics."
  },
  {
   "property": "C22",
   "status": "partial",
   "theorems": [
    "Gltf.C22_sparse",
    "Gltf.C22_zeros_partial",
    "Gltf.C22_zeros_fails"
   ],
   "note": "Patching is proved in full; the zeros of accessors without buffer view only without scratch buffer (false otherwise)."
  },
  {
   "property": "C23",
   "status": "partial",
   "theorems": [
    "Gltf.C23_typed_readers_partial",
    "Gltf.C23_full_fails_empty",
    "Gltf.C23_full_fails_no_view",
    "Gltf.C23_empty"
   ],
   "note": "False for empty accessors read with a non-empty buffer and for accessors without buffer view (negations proved)."
  },
  {
   "property": "C24",
   "status": "proved",
   "theorems": [
    "Gltf.C24_type_checks",
    "Gltf.C24_float_round_trip",
    "Gltf.C24_written_accepted"
   ],
   "note": ""
  },
  {
   "property": "C25",
   "status": "proved",
   "theorems": [
    "Gltf.C25_indices",
    "Gltf.C25_indices_round_trip",
    "Gltf.C25_joints",
    "Gltf.C25_joints_round_trip"
   ],
   "note": ""
  },
  {
   "property": "C26",
   "status": "partial",
   "theorems": [
    "Gltf.C26_color_partial",
    "Gltf.C26_color64",
    "Gltf.C26_full_fails",
    "Gltf.C26_low_bytes"
   ],
   "note": "ReadColor of 16 bit colours keeps the low byte instead of the high byte (negation proved)."
  },
  {
   "property": "C27",
   "status": "partial",
   "theorems": [
    "Gltf.C27_as_if_alone",
    "Gltf.C27_same_result_partial",
    "Gltf.C27_no_race",
    "Gltf.C27_progress",
    "Gltf.C27_full_fails"
   ],
   "note": "For every execution of any number of readers: results as if alone (for some scratch contents), no two goroutines access one scratch array, no goroutine is stuck. The result is definite when a lone call does not depend on the scratch contents; for other accessors the claim is false: an accessor without buffer view shows data that another goroutine left in the pool (C27_full_fails; see also C08 and C23)."
  },
  {
   "property": "C28",
   "status": "proved",
   "theorems": [
    "Gltf.C28_unsigned",
    "Gltf.C28_signed"
   ],
   "note": ""
  },
  {
   "property": "C29",
   "status": "proved",
   "theorems": [
    "Gltf.C29_unsigned",
    "Gltf.C29_signed"
   ],
   "note": ""
  },
  {
   "property": "C30",
   "status": "proved",
   "theorems": [
    "Gltf.C30_container"
   ],
   "note": "Writers without errors; outputs below 4 GiB."
  },
  {
   "property": "C31",
   "status": "proved",
   "theorems": [
    "Gltf.C31_glb_round_trip",
    "Gltf.C31_encodes"
   ],
   "note": "Reads of multiples of four bytes (see C32 for others); URIs of images up to percent-decoding."
  },
  {
   "property": "C32",
   "status": "partial",
   "theorems": [
    "Gltf.C32_text_partial",
    "Gltf.C32_no_chunk_partial",
    "Gltf.C32_glb_partial",
    "Gltf.C32_full_fails",
    "Gltf.C32_same_or_error"
   ],
   "note": "Proved for JSON text, for GLB files that do not use the binary chunk, and for GLB files whose JSON has no padding or whose reads are multiples of four bytes. False otherwise: the padding is not skipped if a read ends inside it (negation proved). All other splits give the same result or an error, never another document (C32_same_or_error)."
  },
  {
   "property": "C33",
   "status": "partial",
   "theorems": [
    "Gltf.C33_header_partial",
    "Gltf.C33_full_fails",
    "Gltf.C33_mod"
   ],
   "note": "False for JSON lengths within 20 of 2^32, where the sum overflows (negation proved)."
  },
  {
   "property": "C34",
   "status": "partial",
   "theorems": [
    "Gltf.C34_text_partial",
    "Gltf.C34_binary_partial",
    "Gltf.C34_full_fails",
    "Gltf.C34_text_iff",
    "Gltf.C34_binary_iff",
    "Gltf.C34_only_two",
    "Gltf.C34_header_only"
   ],
   "note": "False for GLB: errors of the writes between the header and the last padding are ignored. Proved for text with any failures, and for GLB with a binary chunk when the writer goes on failing. C34_only_two: for all documents and writers only the errors of the first and the sixth call of Write are looked at; C34_header_only: without binary chunk a writer that takes only the header gives no error."
  },
  {
   "property": "C35",
   "status": "proved",
   "theorems": [
    "Gltf.C35_roundtrip",
    "Gltf.C35_decode",
    "Gltf.C35_total"
   ],
   "note": ""
  },
  {
   "property": "C36",
   "status": "proved",
   "theorems": [
    "Gltf.C36_opened_local"
   ],
   "note": ""
  },
  {
   "property": "C37",
   "status": "partial",
   "theorems": [
    "Gltf.C37_created_local_partial",
    "Gltf.C37_full_fails",
    "Gltf.C37_any_name"
   ],
   "note": "False: percent-encoded dots, backslashes and a leading ./ escape (negation proved). C37_any_name: for every name that is not empty there is a URI that makes Encode create the file of this name."
  },
  {
   "property": "C38",
   "status": "partial",
   "theorems": [
    "Gltf.C38_access_partial",
    "Gltf.C38_full_fails",
    "Gltf.C38_scheme_opened",
    "Gltf.C38_scheme_created"
   ],
   "note": "URIs with a scheme do reach the file system (negation proved). C38_scheme_opened: whenever Decode with a file system succeeds, every buffer with a scheme that is not embedded was opened as a file under its whole URI. C38_scheme_created: whenever Encode with a file system succeeds, every buffer with data whose URI has a scheme and an opaque rest was created as a file, also if it climbs."
  },
  {
   "property": "C39",
   "status": "partial",
   "theorems": [
    "Gltf.C39_round_trip_partial",
    "Gltf.C39_full_fails"
   ],
   "note": "URIs are percent-decoded on reading only (negation proved). The theorem says exactly how: relative paths are replaced by what they stand for."
  },
  {
   "property": "C40",
   "status": "proved",
   "theorems": [
    "Gltf.C40_defaults",
    "Gltf.C40_lights"
   ],
   "note": "Nodes, materials, textures and PBR blocks of any document; lights as JSON values of their own (documents do not give them back, see C47)."
  },
  {
   "property": "C41",
   "status": "proved",
   "theorems": [
    "Gltf.C41_componentType",
    "Gltf.C41_accessorType",
    "Gltf.C41_primitiveMode",
    "Gltf.C41_alphaMode",
    "Gltf.C41_magFilter",
    "Gltf.C41_minFilter",
    "Gltf.C41_wrappingMode",
    "Gltf.C41_interpolation",
    "Gltf.C41_trsProperty"
   ],
   "note": ""
  },
  {
   "property": "C42",
   "status": "proved",
   "theorems": [
    "Gltf.C42_componentType",
    "Gltf.C42_accessorType",
    "Gltf.C42_primitiveMode",
    "Gltf.C42_alphaMode",
    "Gltf.C42_magFilter",
    "Gltf.C42_minFilter",
    "Gltf.C42_wrappingMode",
    "Gltf.C42_interpolation",
    "Gltf.C42_trsProperty"
   ],
   "note": ""
  },
  {
   "property": "C43",
   "status": "proved",
   "theorems": [
    "Gltf.C43_componentType",
    "Gltf.C43_accessorType",
    "Gltf.C43_primitiveMode",
    "Gltf.C43_alphaMode",
    "Gltf.C43_magFilter",
    "Gltf.C43_minFilter",
    "Gltf.C43_wrappingMode",
    "Gltf.C43_interpolation",
    "Gltf.C43_trsProperty",
    "Gltf.C43_target"
   ],
   "note": ""
  },
  {
   "property": "C44",
   "status": "proved",
   "theorems": [
    "Gltf.C44_decoded",
    "Gltf.C44_written"
   ],
   "note": ""
  },
  {
   "property": "C45",
   "status": "proved",
   "theorems": [
    "Gltf.C45_round_trip",
    "Gltf.C45_decoded"
   ],
   "note": "Texture transforms with finite numbers: the edited text is one JSON object without default offset and scale and it reads back; and what was decoded is stable."
  },
  {
   "property": "C46",
   "status": "partial",
   "theorems": [
    "Gltf.C46_round_trip_partial",
    "Gltf.C46_bare_textures_partial",
    "Gltf.C46_texts",
    "Gltf.C46_full_fails"
   ],
   "note": "Proved if the JSON text of the textures does not contain the patterns that the implementation searches for, in particular for textures without extras and extensions. False otherwise: with extras {\"glossinessFactor\":1} in the diffuse texture they are lost, with 1.5 the text is not JSON (C46_full_fails)."
  },
  {
   "property": "C47",
   "status": "partial",
   "theorems": [
    "Gltf.C47_lights_partial",
    "Gltf.C47_index_partial",
    "Gltf.C47_full_fails",
    "Gltf.C47_lists_fail",
    "Gltf.C47_range_fails"
   ],
   "note": "The lights and indices are written and read faithfully as values, but the object around them is not written: decoding the result keeps raw JSON instead of lights (C47_full_fails for indices, C47_lists_fail for lists), and lights that were read without a range cannot be written at all, because the default range is infinite (C47_range_fails)."
  },
  {
   "property": "C48",
   "status": "partial",
   "theorems": [
    "Gltf.C48_external_partial",
    "Gltf.C48_full_fails",
    "Gltf.C48_shared_lost"
   ],
   "note": "False for names with a percent sign that is not an escape, which are skipped without an error, and for paths like a//b.bin, which are written but rejected when reading. Proved for relative paths, possibly with percent escapes, of names that io/fs accepts. C48_shared_lost: of two buffers with one file the data of the first is lost without an error."
  },
  {
   "property": "C49",
   "status": "partial",
   "theorems": [
    "Gltf.C49_written_survives_partial",
    "Gltf.C49_reads_same",
    "Gltf.C49_full_fails",
    "Gltf.C49_embedded_lost"
   ],
   "note": "Proved for documents whose last buffer has no URI or that of a file, for any plain history of writes around the write. False for embedded buffers: the new data is lost without an error, in the witness of C49_full_fails and for all documents, data and calls (C49_embedded_lost)."
  },
  {
   "property": "C50",
   "status": "partial",
   "theorems": [
    "Gltf.C50_no_panic_partial",
    "Gltf.C50_panics_only",
    "Gltf.C50_null_panics",
    "Gltf.C50_negative_panics",
    "Gltf.C50_full_fails"
   ],
   "note": "Proved for JSON without null buffers and images and with lengths between 0 and 2^48; false otherwise (four witnesses). C50_panics_only lists all the reasons for a panic; null buffers and images always panic, negative lengths of buffers in other files do if the buffers before can be read."
  },
  {
   "property": "C51",
   "status": "partial",
   "theorems": [
    "Gltf.C51_sizes_partial",
    "Gltf.C51_full_fails",
    "Gltf.C51_exact"
   ],
   "note": "Exact for the binary chunk; embedded and external data may differ in length (negations proved). C51_exact: exactly which decoded buffers have the declared size, and what the others contain."
  },
  {
   "property": "C52",
   "status": "partial",
   "theorems": [
    "Gltf.C52_successive_partial",
    "Gltf.C52_full_fails",
    "Gltf.C52_text_lost",
    "Gltf.C52_padding_fails"
   ],
   "note": "Proved for GLB files without padding of the binary chunk and reads of multiples of four bytes; false for JSON texts and padded chunks (negation proved). C52_text_lost: documents after a text of at most 512 bytes that is read at once are lost. C52_padding_fails: after a padded binary chunk the second call always fails."
  },
  {
   "property": "C53",
   "status": "proved",
   "theorems": [
    "Gltf.C53_indent"
   ],
   "note": "Also for documents that cannot be read back: the results are the same."
  },
  {
   "property": "C54",
   "status": "partial",
   "theorems": [
    "Gltf.C54_stable_partial",
    "Gltf.C54_full_fails",
    "Gltf.C54_decoded_partial",
    "Gltf.C54_settles_partial"
   ],
   "note": "False for documents without version and for URIs with percent escapes (negation proved). C54_decoded_partial: the same for documents that were decoded from any stream. C54_settles_partial: whatever the version, from the second encoding on the bytes stay the same."
  },
  {
   "property": "C55",
   "status": "proved",
   "theorems": [
    "Gltf.C55_chunk",
    "Gltf.C55_none_lost"
   ],
   "note": ""
  },
  {
   "property": "C56",
   "status": "proved",
   "theorems": [
    "Gltf.C56_rejected",
    "Gltf.C56_type"
   ],
   "note": ""
  },
  {
   "property": "C57",
   "status": "partial",
   "theorems": [
    "Gltf.C57_failed_partial",
    "Gltf.C57_truncated",
    "Gltf.C57_full_fails"
   ],
   "note": "False: the file is truncated before the document is encoded, for every document that cannot be encoded. Proved: nothing changes if the file cannot be created, and no other file changes."
  },
  {
   "property": "C58",
   "status": "proved",
   "theorems": [
    "Gltf.C58_image_data"
   ],
   "note": ""
  },
  {
   "property": "C59",
   "status": "partial",
   "theorems": [
    "Gltf.C59_read_layout_partial",
    "Gltf.C59_full_fails",
    "Gltf.C59_bytes"
   ],
   "note": "All types except strided []uint8, where it is false (negation proved)."
  },
  {
   "property": "C60",
   "status": "partial",
   "theorems": [
    "Gltf.C60_save_open_partial",
    "Gltf.C60_full_fails",
    "Gltf.C60_replaced"
   ],
   "note": "False if an external buffer has the name of the file, and for paths like a//b.bin, which Save accepts and Open rejects. Proved for distinct files whose URIs are relative paths, possibly with percent escapes, of names that io/fs accepts. C60_replaced: for all documents, a buffer with the name of the file replaces the document."
  },
  {
   "property": "C61",
   "status": "proved",
   "theorems": [
    "Gltf.C61_unlit_members",
    "Gltf.C61_unlit_others"
   ],
   "note": ""
  },
  {
   "property": "C62",
   "status": "partial",
   "theorems": [
    "Gltf.C62_decoded_valid",
    "Gltf.C62_depth",
    "Gltf.C62_round_trip_partial",
    "Gltf.C62_finite",
    "Gltf.C62_lawful",
    "Gltf.C62_full_fails"
   ],
   "note": "Proved for every stream whose JSON is nested at most 9993 deep, if the cameras have projections, the buffers positive lengths and the URIs are UTF-8 and, for buffers, data URIs or plain paths. False otherwise: cameras without projection cannot be encoded, a zero scale becomes one, and URIs that are percent-decoded to other bytes are replaced (C62_full_fails). Registered extensions are arbitrary functions; the theorem assumes that they are stable (LawfulRegistry), which is proved for texture transforms and unlit materials."
  },
  {
   "property": "C63",
   "status": "proved",
   "theorems": [
    "Gltf.C63_accessor_described",
    "Gltf.C63_view_described",
    "Gltf.C63_interleaved_described"
   ],
   "note": "all writers; found by mutation testing: targets and strides were in no property"
  },
  {
   "property": "C64",
   "status": "proved",
   "theorems": [
    "Gltf.C64_writers_accept"
   ],
   "note": "for documents whose last buffer is not nil and has room for the data"
  },
  {
   "property": "C65",
   "status": "proved",
   "theorems": [
    "Gltf.C65_follows_schema",
    "Gltf.C65_written",
    "Gltf.C65_nil_list"
   ],
   "note": "The schema is written as tables in Spec/Schema.lean. C65_written is about the bytes written, for documents with valid contents (UTF-8, finite numbers, nesting); C65_nil_list shows that the required members are needed: nil lists are written as null."
  },
  {
   "property": "C66",
   "status": "proved",
   "theorems": [
    "Gltf.C66_reads",
    "Gltf.C66_accepts",
    "Gltf.C66_uris",
    "Gltf.C66_image_uris"
   ],
   "note": "JSON-schema integers in other notations (24.0, 1e3) are not covered: the library rejects them. C66_uris: how the URIs of buffers are read, and which files are opened for them. C66_image_uris: the same for images."
  },
  {
   "property": "C67",
   "status": "partial",
   "theorems": [
    "Gltf.C67_encode_partial",
    "Gltf.C67_save_partial",
    "Gltf.C67_full_fails",
    "Gltf.C67_last",
    "Gltf.C67_skipped",
    "Gltf.C67_invalid"
   ],
   "note": "Proved for buffers whose URI is a relative path, possibly with percent escapes. False for URIs with invalid escapes: nothing is written and no error is returned (negation proved). C67_last: if buffers share a file it has the data of the last one.  C67_skipped: for all documents whose external buffers have invalid escapes no file is created, and the result is that without a file system. C67_invalid: nor are files written for URIs with a control character or a colon in the first segment that does not end a scheme."
  },
  {
   "property": "C68",
   "status": "partial",
   "theorems": [
    "Gltf.C68_rgb_partial",
    "Gltf.C68_rgb64_partial",
    "Gltf.C68_rgba_partial",
    "Gltf.C68_rgba64_partial",
    "Gltf.C68_full_fails",
    "Gltf.C68_dark"
   ],
   "note": "False: truncation instead of rounding loses one for many colours, for instance 255 becomes 254 (negation proved). Proved for every math.Pow with relative error 2^-40: each colour channel comes back as it was or one less, alpha comes back exactly. C68_dark: dark colours, for which math.Pow is not used, are affected too."
  },
  {
   "property": "C69",
   "status": "partial",
   "theorems": [
    "Gltf.C69_rgb_partial",
    "Gltf.C69_rgba_partial",
    "Gltf.C69_injective",
    "Gltf.C69_full_fails"
   ],
   "note": "Range, strict order and zero are proved for all accurate math.Pow; false only for the largest value: DenormalizeRGB of 255 is 1 - 2^-23 (negation proved)."
  },
  {
   "property": "C70",
   "status": "proved",
   "theorems": [
    "Gltf.C70_unsigned",
    "Gltf.C70_signed"
   ],
   "note": ""
  },
  {
   "property": "C71",
   "status": "partial",
   "theorems": [
    "Gltf.C71_text",
    "Gltf.C71_glb_partial",
    "Gltf.C71_same_or_error",
    "Gltf.C71_full_fails"
   ],
   "note": "Text files: proved in full. GLB files: if the JSON text fills its chunk or the reads are multiples of four bytes; false otherwise for the reason given with C32 (C71_full_fails): then the result is the same or an error (C71_same_or_error)."
  },
  {
   "property": "C72",
   "status": "proved",
   "theorems": [
    "Gltf.C72_json_only"
   ],
   "note": ""
  },
  {
   "property": "C73",
   "status": "proved",
   "theorems": [
    "Gltf.C73_denormalize",
    "Gltf.C73_readers"
   ],
   "note": ""
  },
  {
   "property": "C74",
   "status": "proved",
   "theorems": [
    "Gltf.C74_only_appends"
   ],
   "note": ""
  },
  {
   "property": "C75",
   "status": "proved",
   "theorems": [
    "Gltf.C75_by_name",
    "Gltf.C75_all_packages",
    "Gltf.C75_texture_transform",
    "Gltf.C75_specular"
   ],
   "note": ""
  },
  {
   "property": "C76",
   "status": "proved",
   "theorems": [
    "Gltf.C76_new_document",
    "Gltf.C76_asset"
   ],
   "note": ""
  },
  {
   "property": "C77",
   "status": "proved",
   "theorems": [
    "Gltf.C77_numbers",
    "Gltf.C77_strings"
   ],
   "note": ""
  },
  {
   "property": "C78",
   "status": "proved",
   "theorems": [
    "Gltf.C78_rgb",
    "Gltf.C78_rgba",
    "Gltf.C78_readColor",
    "Gltf.C78_readColor64"
   ],
   "note": "math.Pow is a parameter assumed accurate to 2^-40 on the bases that occur"
  },
  {
   "property": "C79",
   "status": "proved",
   "theorems": [
    "Gltf.C79_rgb",
    "Gltf.C79_rgba"
   ],
   "note": "math.Pow as in C78"
  },
  {
   "property": "C80",
   "status": "partial",
   "theorems": [
    "Gltf.C80_alpha_partial",
    "Gltf.C80_full_fails",
    "Gltf.C80_iff"
   ],
   "note": "False of the code: floats are encoded in sRGB, bytes are returned as they are; alpha is the same. C80_iff: the other channels are the same, up to one unit, exactly for bytes that are 0 or at least 252."
  },
  {
   "property": "C81",
   "status": "proved",
   "theorems": [
    "Gltf.C81_text",
    "Gltf.C81_glb"
   ],
   "note": "file URIs are relative paths of names (possibly escaped), as in the other properties about files"
  },
  {
   "property": "C82",
   "status": "partial",
   "theorems": [
    "Gltf.C82_kept_partial",
    "Gltf.C82_replaced_partial",
    "Gltf.C82_full_fails",
    "Gltf.C82_names_partial",
    "Gltf.C82_null_kept"
   ],
   "note": "False: elements of lists are mixed with the old ones, and old buffers are loaded again. Proved: fields that are not in the JSON keep their values; asset, extras, nodes, materials and scene are replaced. C82_names_partial: the names of extensions are replaced too, unless they are null (C82_null_kept)."
  },
  {
   "property": "C83",
   "status": "proved",
   "theorems": [
    "Gltf.C83_scratch",
    "Gltf.C83_read_no_view"
   ],
   "note": "little-endian host"
  },
  {
   "property": "C84",
   "status": "partial",
   "theorems": [
    "Gltf.C84_text",
    "Gltf.C84_json",
    "Gltf.C84_chunk_partial",
    "Gltf.C84_full_fails",
    "Gltf.C84_after_data"
   ],
   "note": "Text and the JSON of GLB files: complete. Data: the bytes that pad the last chunk may be missing, because the lengths in the headers are not compared with that of the file (negation proved). C84_after_data: conversely whatever follows the data of the first buffer makes no difference."
  },
  {
   "property": "C85",
   "status": "partial",
   "theorems": [
    "Gltf.C85_prefix",
    "Gltf.C85_kept_partial",
    "Gltf.C85_full_fails",
    "Gltf.C85_any_name"
   ],
   "note": "False: a data file that is longer than its buffer is cut to the length of the buffer, and URIs with escaped percent signs or backslashes are decoded twice and lead to new files, also outside of the directory (negation proved). C85_prefix: without such URIs nothing else can happen. C85_kept_partial: nothing changes if also no file is longer than its buffers. C85_any_name: for every name there is a text file that, once opened, makes saving it create the file of this name."
  },
  {
   "property": "C86",
   "status": "partial",
   "theorems": [
    "Gltf.C86_helpers",
    "Gltf.C86_write_partial",
    "Gltf.C86_write_odd",
    "Gltf.C86_interleaved_partial",
    "Gltf.C86_read_partial",
    "Gltf.C86_read_rejects",
    "Gltf.C86_write_full_fails",
    "Gltf.C86_interleaved_full_fails",
    "Gltf.C86_read_full_fails",
    "Gltf.C86_attributes_partial",
    "Gltf.C86_attributes_full_fails"
   ],
   "note": "True of WriteIndices, WritePosition, WriteNormal, WriteTangent, WriteTextureCoord, WriteWeights, WriteJoints, WriteColor and WriteInverseBindMatrices (C86_helpers). False: vectors of two or three bytes or of three 16 bit numbers are written by WriteAccessor four or eight bytes apart without a stride unless the target is ARRAY_BUFFER (C86_write_odd), are looked for there by ReadAccessor, and tightly packed ones are rejected (C86_read_rejects); and []uint8 ignores strides (negations proved). The partial theorems cover everything else."
  },
  {
   "property": "C87",
   "status": "partial",
   "theorems": [
    "Gltf.C87_helpers",
    "Gltf.C87_write_partial",
    "Gltf.C87_interleaved_partial",
    "Gltf.C87_write_full_fails",
    "Gltf.C87_interleaved_full_fails",
    "Gltf.C87_stride_unlimited",
    "Gltf.C87_attributes_partial",
    "Gltf.C87_write_iff",
    "Gltf.C87_interleaved_iff"
   ],
   "note": "True of the typed writing functions (C87_helpers). False: numbers of one or two bytes as vertex attributes are not aligned, alone or interleaved, nor are the slices after them, and nothing limits the stride of interleaved data (negations proved). The partial theorems cover everything else. C87_write_iff and C87_interleaved_iff: exactly which writes follow the rules."
  },
  {
   "property": "C88",
   "status": "partial",
   "theorems": [
    "Gltf.C88_resolved_partial",
    "Gltf.C88_full_fails",
    "Gltf.C88_repeated_dots",
    "Gltf.C88_up_kept",
    "Gltf.C88_up_opened"
   ],
   "note": "True of references whose only dot segments are single dots, no two of them next to each other. False of the others (negations proved): a/../b.bin is opened and created under this name, which is not a valid name of io/fs, and of two dots next to each other one stays. C88_up_kept: the first for all references with segments that lead up and all documents. C88_up_opened: the same for Decode of all files."
  },
  {
   "property": "C89",
   "status": "proved",
   "theorems": [
    "Gltf.C89_read",
    "Gltf.C89_write",
    "Gltf.C89_not_finite",
    "Gltf.C89_form"
   ],
   "note": "About the model of strconv and of the float encoder of encoding/json (standard library), which all float64 fields of documents use."
  },
  {
   "property": "C90",
   "status": "proved",
   "theorems": [
    "Gltf.C90_refused",
    "Gltf.C90_only",
    "Gltf.C90_accepted"
   ],
   "note": "Exact: the JSON stage succeeds if and only if every member that is read has a value of the right kind or null. Numbers are read as by strconv (C89)."
  },
  {
   "property": "C91",
   "status": "partial",
   "theorems": [
    "Gltf.C91_text_partial",
    "Gltf.C91_glb_partial",
    "Gltf.C91_full_fails"
   ],
   "note": "True of members whose names differ from those of the schema by more than case. False of the others (negation proved): encoding/json takes SCENE for scene. In GLB files the JSON text fills its chunk, or reads return multiples of four bytes (C32)."
  },
  {
   "property": "C92",
   "status": "proved",
   "theorems": [
    "Gltf.C92_packages",
    "Gltf.C92_ignored"
   ],
   "note": "Names are compared as encoding/json does, whatever their case (C91)."
  },
  {
   "property": "C93",
   "status": "proved",
   "theorems": [
    "Gltf.C93_no_race",
    "Gltf.C93_progress",
    "Gltf.C93_order",
    "Gltf.C93_decode"
   ],
   "note": "For every interleaving of the steps of any number of goroutines. The lock is modelled by its state, as in sync.RWMutex: readers wait for a writer that waits."
  },
  {
   "property": "C94",
   "status": "partial",
   "theorems": [
    "Gltf.C94_dense_partial",
    "Gltf.C94_sparse_partial",
    "Gltf.C94_indices_partial",
    "Gltf.C94_rejects",
    "Gltf.C94_full_fails"
   ],
   "note": "An accessor that does not fit is never accepted. The converse is false for two sorts of accessors (negation proved): signed scalar bytes with further bytes behind them, and empty accessors near the end of a view with a stride; for all others it is proved, so that the theorems are exact. Strides up to 2^14, slices that can be allocated, and not MAT3 of unsigned ints (C07)."
  },
  {
   "property": "C95",
   "status": "proved",
   "theorems": [
    "Gltf.C95_stays",
    "Gltf.C95_others",
    "Gltf.C95_values",
    "Gltf.C95_every_document",
    "Gltf.C95_shared_fails"
   ],
   "note": "In memory with arrays, offsets, lengths and capacities; the runtime chooses the capacities. C95_shared_fails: the hypothesis is needed. C95_values also justifies the other theorems, which take slices for values."
  },
  {
   "property": "C96",
   "status": "proved",
   "theorems": [
    "Gltf.Shared.C96_unchanged",
    "Gltf.Shared.C96_no_race",
    "Gltf.Shared.C96_result",
    "Gltf.Shared.C96_value",
    "Gltf.Shared.C96_terminates",
    "Gltf.Shared.C96_progress",
    "Gltf.Shared.C96_finish"
   ],
   "note": "Buffers and descriptions of materials are objects in memory, the only ones that the code copies or assigns to while it encodes; each load, store and allocation is a step. Each call has its own writer and file system. The MarshalJSON methods of extensions and extras are those of the caller and are taken to change nothing."
  },
  {
   "property": "C97",
   "status": "proved",
   "theorems": [
    "Gltf.C97_refused",
    "Gltf.C97_accepted",
    "Gltf.C97_nil"
   ],
   "note": "Which values of extensions can be marshalled is given by the caller's MarshalJSON, which the model takes as a result stored with the value."
  },
  {
   "property": "C98",
   "status": "proved",
   "theorems": [
    "Gltf.C98_position_bounds",
    "Gltf.C98_attribute_bounds",
    "Gltf.C98_refused",
    "Gltf.C98_finite"
   ],
   "note": "math.Min and math.Max with all their special cases; NaN keeps no payload."
  },
  {
   "property": "C99",
   "status": "proved",
   "theorems": [
    "Gltf.C99_data",
    "Gltf.C99_chunk"
   ],
   "note": "For buffers of 4 GiB and more the declared length of the BIN chunk is compared modulo 2^32, so it does not bound the data."
  },
  {
   "property": "C100",
   "status": "proved",
   "theorems": [
    "Gltf.C100_encodes",
    "Gltf.C100_built"
   ],
   "note": "An example beside the theorems shows why the buffer has to hold a byte: after writing only empty slices the document is encoded and cannot be decoded."
  },
  {
   "property": "C101",
   "status": "proved",
   "theorems": [
    "Gltf.C101_readable"
   ],
   "note": "An equivalence: the exception is real. Which values are returned is the subject of C09, C10 and C13."
  },
  {
   "property": "C102",
   "status": "proved",
   "theorems": [
    "Gltf.C102_later",
    "Gltf.C102_file",
    "Gltf.C102_mesh"
   ],
   "note": "For GLB from readers that fill whole words (C32); meshes and the rest are any document of Spec.DocumentOk."
  },
  {
   "property": "C103",
   "status": "proved",
   "theorems": [
    "Gltf.C103_edit"
   ],
   "note": "For GLB from readers that fill whole words (C32). Files with buffers outside of the binary chunk: C49 and C62."
  },
  {
   "property": "C104",
   "status": "partial",
   "theorems": [
    "Gltf.C104_append_partial",
    "Gltf.C104_append_end",
    "Gltf.C104_append_overwrites",
    "Gltf.C104_full_fails"
   ],
   "note": "False of the code: the slice has the capacity of the rest of the buffer, and what is appended overwrites the data that follows (C104_append_overwrites, for all documents). Proved for slices that cannot grow in place and for the end of the last buffer."
  },
  {
   "property": "C105",
   "status": "proved",
   "theorems": [
    "Gltf.C105_elsewhere",
    "Gltf.C105_recycled",
    "Gltf.C105_values",
    "Gltf.C105_results"
   ],
   "note": "In memory with arrays, offsets, lengths and capacities. The elements are stored at once instead of one after the other; the arrays of the caller are not those of the document."
  },
  {
   "property": "C106",
   "status": "partial",
   "theorems": [
    "Gltf.C106_text",
    "Gltf.C106_json_partial",
    "Gltf.C106_chunk_partial",
    "Gltf.C106_header",
    "Gltf.C106_full_fails",
    "Gltf.C106_chunk_any"
   ],
   "note": "False of the code: if the reader fails within the first 20 bytes of a GLB file its error is lost and Decode reports a wrong character (C106_header, for all files). Proved for text, for the JSON of GLB files, and for their data if the JSON needs no padding (with padding the header of the chunk may be read from the padding, see C32). C106_chunk_any: with any padding and reads the error is that of the reader or that of a wrong header of the chunk."
  },
  {
   "property": "C107",
   "status": "partial",
   "theorems": [
    "Gltf.C107_decode_partial",
    "Gltf.C107_encode",
    "Gltf.C107_full_fails"
   ],
   "note": "Proved for Encode. False for Decode with negative lengths: it panics although the file could not be read (C50); proved whenever Decode does not panic."
  },
  {
   "property": "C108",
   "status": "partial",
   "theorems": [
    "Gltf.C108_last_partial",
    "Gltf.C108_glb_partial",
    "Gltf.C108_full_fails",
    "Gltf.C108_names_partial"
   ],
   "note": "False of the code: the lists of accessors, meshes etc. are decoded into the elements of the earlier list, and members that are missing in the last list are taken from it (C108_full_fails). Proved for the asset, extra data, nodes, materials and the scene, which are decoded into fresh values; for GLB files if the JSON fills its chunk or the reads are aligned (C32). C108_names_partial: also for the names of extensions, if the last ones are strings."
  },
  {
   "property": "C109",
   "status": "partial",
   "theorems": [
    "Gltf.C109_text",
    "Gltf.C109_glb_partial",
    "Gltf.C109_same_or_error",
    "Gltf.C109_full_fails",
    "Gltf.C109_extension_order",
    "Gltf.C109_packages"
   ],
   "note": "Text files: proved in full. GLB files: if the JSON fills its chunk or the reads are aligned; false otherwise for the reason given with C32 (C109_full_fails): then the result is the same or an error (C109_same_or_error). Neighbouring members whose names differ in case only are not exchanged, as they name one field. Within the values of three of the extension packages the order does not matter either (C109_packages)."
  },
  {
   "property": "C110",
   "status": "proved",
   "theorems": [
    "Gltf.C110_wrapped",
    "Gltf.C110_same_or_refused"
   ],
   "note": "For every reader, also one whose reads end within the padding: only a buffer in the binary chunk depends on that (C32). C110_same_or_refused also covers files that are refused or panic."
  }
 ]
}