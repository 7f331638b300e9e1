{
 "claims": [
  {
   "property": "C01",
   "status": "proved",
   "theorems": [
    "PdfReader.C01_asciihex_decodes",
    "PdfReader.C01_asciihex_odd"
   ],
   "note": ""
  },
  {
   "property": "C02",
   "status": "proved",
   "theorems": [
    "PdfReader.C02_ascii85_decodes",
    "PdfReader.C02_ascii85_no_eod"
   ],
   "note": ""
  },
  {
   "property": "C03",
   "status": "proved",
   "theorems": [
    "PdfReader.C03_runlength_decodes",
    "PdfReader.C03_runlength_no_eod"
   ],
   "note": ""
  },
  {
   "property": "C04",
   "status": "partial",
   "theorems": [
    "PdfReader.C04_lzw_decodes_partial",
    "PdfReader.C04_lzw_eod_loses_everything",
    "PdfReader.C04_lzw_counterexample",
    "PdfReader.C04_lzw_kwkwk_counterexample"
   ],
   "note": "False as stated: a stream that ends with EOD decodes to nothing, and the KwKwK case is wrong. Proved for streams without EOD."
  },
  {
   "property": "C05",
   "status": "proved",
   "theorems": [
    "PdfReader.C05_filters_compose",
    "PdfReader.C05_filters_units",
    "PdfReader.C05_unknown_filter",
    "PdfReader.C05_abbreviations",
    "PdfReader.C05_pictures",
    "PdfReader.C05_two_filters"
   ],
   "note": ""
  },
  {
   "property": "C06",
   "status": "partial",
   "theorems": [
    "PdfReader.C06_png_rows_partial",
    "PdfReader.C06_png_rows_only_stripped",
    "PdfReader.C06_png_counterexample",
    "PdfReader.C06_other_predictors"
   ],
   "note": "False as stated for PNG row tags other than None (counterexample); proved for tag-0 rows and that rows are only stripped."
  },
  {
   "property": "C07",
   "status": "proved",
   "theorems": [
    "PdfReader.C07_buffer_forward",
    "PdfReader.C07_block_size_irrelevant"
   ],
   "note": ""
  },
  {
   "property": "C08",
   "status": "proved",
   "theorems": [
    "PdfReader.C08_buffer_backward",
    "PdfReader.C08_buffer_tail"
   ],
   "note": ""
  },
  {
   "property": "C09",
   "status": "partial",
   "theorems": [
    "PdfReader.C09_mixed_use_counterexample",
    "PdfReader.C09_phantom_bytes_counterexample",
    "PdfReader.C09_index_error_counterexample",
    "PdfReader.C09_transparent_partial"
   ],
   "note": "False as stated for mixed forward/backward use (counterexamples); proved for the histories the library uses."
  },
  {
   "property": "C10",
   "status": "proved",
   "theorems": [
    "PdfReader.C10_save_restore"
   ],
   "note": ""
  },
  {
   "property": "C11",
   "status": "proved",
   "theorems": [
    "PdfReader.C11_parse_serialisation",
    "PdfReader.C11_example_text"
   ],
   "note": "All three parsers (file, content, inline image), any nesting, separators and comments."
  },
  {
   "property": "C12",
   "status": "proved",
   "theorems": [
    "PdfReader.C12_terminates",
    "PdfReader.C12_proper_suffix"
   ],
   "note": ""
  },
  {
   "property": "C13",
   "status": "partial",
   "theorems": [
    "PdfReader.C13_truncated_counterexample",
    "PdfReader.C13_keyerror_counterexample",
    "PdfReader.C13_failures_partial"
   ],
   "note": "False as stated: truncated input raises TypeError, a dictionary without Length before a word in s raises KeyError. Proved: no other exception."
  },
  {
   "property": "C14",
   "status": "proved",
   "theorems": [
    "PdfReader.C14_string"
   ],
   "note": ""
  },
  {
   "property": "C15",
   "status": "proved",
   "theorems": [
    "PdfReader.C15_escape_roundtrip"
   ],
   "note": ""
  },
  {
   "property": "C16",
   "status": "proved",
   "theorems": [
    "PdfReader.C16_name",
    "PdfReader.C16_every_bytes_is_a_name",
    "PdfReader.C16_stops_at_delimiter"
   ],
   "note": ""
  },
  {
   "property": "C17",
   "status": "proved",
   "theorems": [
    "PdfReader.C17_hexstring"
   ],
   "note": ""
  },
  {
   "property": "C18",
   "status": "proved",
   "theorems": [
    "PdfReader.C18_integer",
    "PdfReader.C18_real",
    "PdfReader.C18_negative_real_counterexample"
   ],
   "note": "With the limit of 28 digits for negative reals; the counterexample shows the limit is sharp."
  },
  {
   "property": "C19",
   "status": "proved",
   "theorems": [
    "PdfReader.C19_reference",
    "PdfReader.C19_number_or_reference"
   ],
   "note": ""
  },
  {
   "property": "C20",
   "status": "proved",
   "theorems": [
    "PdfReader.C20_last_wins"
   ],
   "note": ""
  },
  {
   "property": "C21",
   "status": "proved",
   "theorems": [
    "PdfReader.C21_stream_verbatim",
    "PdfReader.C21_indirect_length"
   ],
   "note": ""
  },
  {
   "property": "C22",
   "status": "partial",
   "theorems": [
    "PdfReader.C22_wrong_length_partial",
    "PdfReader.C22_past_eof_counterexample"
   ],
   "note": "False when the wrong Length points past the end of the input (counterexample); proved otherwise."
  },
  {
   "property": "C23",
   "status": "proved",
   "theorems": [
    "PdfReader.C23_commands",
    "PdfReader.C23_trailing_operands",
    "PdfReader.C23_example_text",
    "PdfReader.C23_dict_operand_counterexample"
   ],
   "note": "With inline images; a dictionary operand directly before an operator in s is excluded (counterexample shows why)."
  },
  {
   "property": "C24",
   "status": "partial",
   "theorems": [
    "PdfReader.C24_inline_image_partial",
    "PdfReader.C24_counterexample",
    "PdfReader.C24_example_text"
   ],
   "note": "False for image data that contains an end mark (counterexample); proved for all other data."
  },
  {
   "property": "C25",
   "status": "proved",
   "theorems": [
    "PdfReader.C25_version",
    "PdfReader.C25_version_midline",
    "PdfReader.C25_sound",
    "PdfReader.C25_no_header",
    "PdfReader.C25_tiny_file",
    "PdfReader.C25_midline_counterexample"
   ],
   "note": "For headers at the start of a line; a header in mid-line is found only under extra conditions (counterexample)."
  },
  {
   "property": "C26",
   "status": "proved",
   "theorems": [
    "PdfReader.C26_last_startxref",
    "PdfReader.C26_sound",
    "PdfReader.C26_no_startxref",
    "PdfReader.C26_small_file_on_disk"
   ],
   "note": "With the side conditions of the statement; files on disk shorter than 1024 bytes fail, see C26_small_file_on_disk."
  },
  {
   "property": "C27",
   "status": "proved",
   "theorems": [
    "PdfReader.C27_table",
    "PdfReader.C27_numbering",
    "PdfReader.C27_example_text"
   ],
   "note": ""
  },
  {
   "property": "C28",
   "status": "partial",
   "theorems": [
    "PdfReader.C28_in_use_partial",
    "PdfReader.C28_compressed_counterexample",
    "PdfReader.C28_free_counterexample",
    "PdfReader.C28_default_type_counterexample",
    "PdfReader.C28_ranges_counterexample"
   ],
   "note": "False as stated (counterexamples): proved for in-use entries."
  },
  {
   "property": "C29",
   "status": "partial",
   "theorems": [
    "PdfReader.C29_sections_newest_first",
    "PdfReader.C29_newest_listed_partial",
    "PdfReader.C29_free_counterexample"
   ],
   "note": "False as stated: a section which marks the object as free (or compressed) is passed over (counterexample). Proved: the newest section listing it as in use with this generation counts."
  },
  {
   "property": "C30",
   "status": "partial",
   "theorems": [
    "PdfReader.C30_terminates_partial",
    "PdfReader.C30_diverges_iff",
    "PdfReader.C30_counterexample"
   ],
   "note": "False as stated: cyclic Prev does not terminate. Proved: terminates exactly when there is no cycle."
  },
  {
   "property": "C31",
   "status": "proved",
   "theorems": [
    "PdfReader.C31_resolved_again",
    "PdfReader.C31_never_another"
   ],
   "note": "Any history of resolutions and reads, including failing ones, any fuel."
  },
  {
   "property": "C32",
   "status": "partial",
   "theorems": [
    "PdfReader.C32_unique_definitions_partial",
    "PdfReader.C32_counterexample"
   ],
   "note": "False as stated for files with several definitions of an object (counterexample: an unknown reference resolved first makes the old revision win). Proved for files with one definition."
  },
  {
   "property": "C33",
   "status": "partial",
   "theorems": [
    "PdfReader.C33_unknown_is_null",
    "PdfReader.C33_counterexample"
   ],
   "note": "Proved: only null can be the result, and it stays null; C59 gives resolution itself for regular bodies. False as stated: on some files TypeError is raised (counterexample)."
  },
  {
   "property": "C34",
   "status": "proved",
   "theorems": [
    "PdfReader.C34_members"
   ],
   "note": "Direct objects as members."
  },
  {
   "property": "C35",
   "status": "proved",
   "theorems": [
    "PdfReader.C35_cmap",
    "PdfReader.C35_range"
   ],
   "note": "From the text of the CMap to the answers for every code; rows with upper case destinations of hexadecimal strings, numbers and arrays of hexadecimal strings."
  },
  {
   "property": "C36",
   "status": "proved",
   "theorems": [
    "PdfReader.C36_hexstring",
    "PdfReader.C36_string"
   ],
   "note": "Codes of two or four digits; a two-digit code that is a prefix of a used four-digit code is excluded."
  },
  {
   "property": "C37",
   "status": "proved",
   "theorems": [
    "PdfReader.C37_concat",
    "PdfReader.C37_bytewise"
   ],
   "note": ""
  },
  {
   "property": "C38",
   "status": "proved",
   "theorems": [
    "PdfReader.C38_winansi",
    "PdfReader.C38_standard",
    "PdfReader.C38_macroman",
    "PdfReader.C38_pdfdoc",
    "PdfReader.C38_exceptions"
   ],
   "note": "The ambiguous characters, for which C38_exceptions shows that they do not survive: currency sign, no-break space, degree sign, ring, bullet of StandardEncoding."
  },
  {
   "property": "C39",
   "status": "proved",
   "theorems": [
    "PdfReader.C39_differences",
    "PdfReader.C39_tables",
    "PdfReader.C39_noDifferences",
    "PdfReader.C39_nameFirst"
   ],
   "note": ""
  },
  {
   "property": "C40",
   "status": "partial",
   "theorems": [
    "PdfReader.C40_winansi_partial",
    "PdfReader.C40_dictionary_partial",
    "PdfReader.C40_otherNames",
    "PdfReader.C40_counterexample"
   ],
   "note": "False for names other than WinAnsiEncoding: C40_counterexample; C40_otherNames says what happens."
  },
  {
   "property": "C41",
   "status": "proved",
   "theorems": [
    "PdfReader.C41_user",
    "PdfReader.C41_owner"
   ],
   "note": "Revisions 2-4, IDs in hexadecimal syntax (C72 for the others); hash and AES are parameters."
  },
  {
   "property": "C42",
   "status": "proved",
   "theorems": [
    "PdfReader.C42_first32",
    "PdfReader.C42_first127"
   ],
   "note": ""
  },
  {
   "property": "C43",
   "status": "proved",
   "theorems": [
    "PdfReader.C43_rc4",
    "PdfReader.C43_standard",
    "PdfReader.C43_object"
   ],
   "note": ""
  },
  {
   "property": "C44",
   "status": "proved",
   "theorems": [
    "PdfReader.C44_cbc",
    "PdfReader.C44_object128",
    "PdfReader.C44_object256"
   ],
   "note": "Block cipher as a parameter."
  },
  {
   "property": "C45",
   "status": "partial",
   "theorems": [
    "PdfReader.C45_method",
    "PdfReader.C45_rc4_streams_partial",
    "PdfReader.C45_aes_streams_partial",
    "PdfReader.C45_string_counterexample",
    "PdfReader.C45_hex_counterexample",
    "PdfReader.C45_nested_counterexample"
   ],
   "note": "False as stated: strings are never delivered decrypted (three counterexamples). Proved for streams, from the bytes of the file."
  },
  {
   "property": "C46",
   "status": "proved",
   "theorems": [
    "PdfReader.C46_order",
    "PdfReader.C46_file"
   ],
   "note": "From the bytes of the file for pages listed in the cross-reference sections; page trees of any shape, Kids direct or indirect."
  },
  {
   "property": "C47",
   "status": "partial",
   "theorems": [
    "PdfReader.C47_coherent_partial",
    "PdfReader.C47_once",
    "PdfReader.C47_write_counterexample",
    "PdfReader.C47_delete_counterexample",
    "PdfReader.C47_delete_others",
    "PdfReader.C47_pop_counterexample"
   ],
   "note": "False for writes after a read, deletions and pop (three counterexamples). Proved for all histories of reads and of writes to unread keys; entries are built at most once."
  },
  {
   "property": "C48",
   "status": "proved",
   "theorems": [
    "PdfReader.C48_nearest",
    "PdfReader.C48_form",
    "PdfReader.C48_mixed_counterexample",
    "PdfReader.C48_mixed_array_counterexample"
   ],
   "note": "Categories of the same kind (dictionary or array) in all nodes; C48_mixed_counterexample shows what happens otherwise."
  },
  {
   "property": "C49",
   "status": "partial",
   "theorems": [
    "PdfReader.C49_reaches",
    "PdfReader.C49_opens",
    "PdfReader.C49_next",
    "PdfReader.C49_prev",
    "PdfReader.C49_missing_partial",
    "PdfReader.C49_below_counterexample",
    "PdfReader.C49_prev_counterexample",
    "PdfReader.C49_contents_counterexample"
   ],
   "note": "False for numbers below 1 (ValueError), for prev() on the first page and for pages without Contents (counterexamples). Proved for every history of calls otherwise."
  },
  {
   "property": "C50",
   "status": "partial",
   "theorems": [
    "PdfReader.C50_group_partial",
    "PdfReader.C50_below_partial",
    "PdfReader.C50_navigate_counterexample",
    "PdfReader.C50_excess"
   ],
   "note": "False for q on an empty stack and for content calling navigate (counterexample). Proved for every balanced group from every non-empty stack."
  },
  {
   "property": "C51",
   "status": "partial",
   "theorems": [
    "PdfReader.C51_form_partial",
    "PdfReader.C51_excess_counterexample",
    "PdfReader.C51_leak_counterexample"
   ],
   "note": "False for forms with more Q than q or with fewer (two counterexamples). Proved for balanced forms."
  },
  {
   "property": "C52",
   "status": "partial",
   "theorems": [
    "PdfReader.C52_alone_partial",
    "PdfReader.C52_succeeds_partial",
    "PdfReader.C52_again_partial",
    "PdfReader.C52_failed_counterexample",
    "PdfReader.C52_held",
    "PdfReader.C52_cached"
   ],
   "note": "False after a rendering which failed (counterexample). Proved for every history without failed renderings."
  },
  {
   "property": "C53",
   "status": "partial",
   "theorems": [
    "PdfReader.C53_strings_partial",
    "PdfReader.C53_form_partial",
    "PdfReader.C53_quotation_counterexample",
    "PdfReader.C53_nested_counterexample"
   ],
   "note": "False for the quotation mark operator and nested forms (counterexamples). Proved for all other content."
  },
  {
   "property": "C54",
   "status": "proved",
   "theorems": [
    "PdfReader.C54_recovers",
    "PdfReader.C54_pillow"
   ],
   "note": ""
  },
  {
   "property": "C55",
   "status": "partial",
   "theorems": [
    "PdfReader.C55_full_partial",
    "PdfReader.C55_short_counterexample",
    "PdfReader.C55_refuses"
   ],
   "note": "False for every form without all the fields and the final apostrophe (counterexample over all of them). Proved for the full form; dateutil is a parameter."
  },
  {
   "property": "C56",
   "status": "proved",
   "theorems": [
    "PdfReader.C56_width",
    "PdfReader.C56_size"
   ],
   "note": ""
  },
  {
   "property": "C57",
   "status": "partial",
   "theorems": [
    "PdfReader.C57_delivered_partial",
    "PdfReader.C57_regular_partial",
    "PdfReader.C57_raw_cr_counterexample",
    "PdfReader.C57_unknown_escape_counterexample",
    "PdfReader.C57_octal_overflow_counterexample"
   ],
   "note": "False of the code: three counterexamples. Proved for the full syntax of the standard: the string ends where it should, and its value differs from the standard's at these three forms only (C57_delivered_partial)."
  },
  {
   "property": "C58",
   "status": "proved",
   "theorems": [
    "PdfReader.C58_objects_terminates"
   ],
   "note": ""
  },
  {
   "property": "C59",
   "status": "proved",
   "theorems": [
    "PdfReader.C59_unlisted_found_by_scan"
   ],
   "note": "Bodies of direct objects and of streams with a direct Length."
  },
  {
   "property": "C60",
   "status": "proved",
   "theorems": [
    "PdfReader.C60_indirect_object"
   ],
   "note": ""
  },
  {
   "property": "C61",
   "status": "partial",
   "theorems": [
    "PdfReader.C61_surrogates_counterexample",
    "PdfReader.C61_range_counterexample",
    "PdfReader.C61_char_partial"
   ],
   "note": "False as stated: surrogate pairs and ranges with several characters (two counterexamples). Proved for char rows in the BMP; C35_range covers ranges of single characters."
  },
  {
   "property": "C62",
   "status": "partial",
   "theorems": [
    "PdfReader.C62_desync_counterexample",
    "PdfReader.C62_unmapped_partial"
   ],
   "note": "False as stated: desynchronisation (counterexample). Proved for a byte that forms no code with its neighbour."
  },
  {
   "property": "C63",
   "status": "proved",
   "theorems": [
    "PdfReader.C63_decoding_total"
   ],
   "note": ""
  },
  {
   "property": "C64",
   "status": "proved",
   "theorems": [
    "PdfReader.C64_history"
   ],
   "note": ""
  },
  {
   "property": "C65",
   "status": "partial",
   "theorems": [
    "PdfReader.C65_toUnicode",
    "PdfReader.C65_nothing",
    "PdfReader.C65_counterexample",
    "PdfReader.C65_standard14"
   ],
   "note": "proved for every font except Helvetica-Oblique, whose name is misspelled in the code (C65_counterexample), and for strings without byte A4, which decodes to nothing"
  },
  {
   "property": "C66",
   "status": "partial",
   "theorems": [
    "PdfReader.C66_winansi_partial",
    "PdfReader.C66_standard_partial",
    "PdfReader.C66_macroman_partial",
    "PdfReader.C66_pdfdoc_partial",
    "PdfReader.C66_counterexample"
   ],
   "note": "False for the currency sign and for the bullet of StandardEncoding: C66_counterexample."
  },
  {
   "property": "C67",
   "status": "proved",
   "theorems": [
    "PdfReader.C67_components",
    "PdfReader.C67_uni",
    "PdfReader.C67_u",
    "PdfReader.C67_list"
   ],
   "note": ""
  },
  {
   "property": "C68",
   "status": "partial",
   "theorems": [
    "PdfReader.C68_ascii_partial",
    "PdfReader.C68_counterexample"
   ],
   "note": "False as stated: UTF-8 is used (counterexample). Proved for ASCII passwords."
  },
  {
   "property": "C69",
   "status": "proved",
   "theorems": [
    "PdfReader.C69_sound",
    "PdfReader.C69_refused",
    "PdfReader.C69_version"
   ],
   "note": ""
  },
  {
   "property": "C70",
   "status": "proved",
   "theorems": [
    "PdfReader.C70_password_bytes",
    "PdfReader.C70_owner",
    "PdfReader.C70_user",
    "PdfReader.C70_refused"
   ],
   "note": "The user password must not happen to pass the owner check (a collision of SHA-256)."
  },
  {
   "property": "C71",
   "status": "partial",
   "theorems": [
    "PdfReader.C71_prefix_partial",
    "PdfReader.C71_counterexample"
   ],
   "note": "False as stated: the padding stays (counterexample). Proved: the data are a prefix of what is delivered."
  },
  {
   "property": "C72",
   "status": "partial",
   "theorems": [
    "PdfReader.C72_counterexample",
    "PdfReader.C72_hexadecimal_partial"
   ],
   "note": "False as stated: literal strings raise TypeError (counterexample). Proved for all spellings in the hexadecimal syntax (C72_hexadecimal_partial); C41 opens such documents."
  },
  {
   "property": "C73",
   "status": "partial",
   "theorems": [
    "PdfReader.C73_unencrypted",
    "PdfReader.C73_reference_partial",
    "PdfReader.C73_otherFilter",
    "PdfReader.C73_direct_counterexample"
   ],
   "note": "False for direct dictionaries (counterexample). Proved for references, for absence and for other filters."
  },
  {
   "property": "C74",
   "status": "proved",
   "theorems": [
    "PdfReader.C74_metadata",
    "PdfReader.C74_identity"
   ],
   "note": ""
  },
  {
   "property": "C75",
   "status": "proved",
   "theorems": [
    "PdfReader.C75_entries",
    "PdfReader.C75_transparent",
    "PdfReader.C75_missing"
   ],
   "note": ""
  },
  {
   "property": "C76",
   "status": "partial",
   "theorems": [
    "PdfReader.C76_dictionaries_partial",
    "PdfReader.C76_acyclic_arrays_partial",
    "PdfReader.C76_counterexample"
   ],
   "note": "False for arrays which contain themselves (counterexample). Proved for dictionaries and streams with any cycles, and for acyclic arrays."
  },
  {
   "property": "C77",
   "status": "partial",
   "theorems": [
    "PdfReader.C77_typed_partial",
    "PdfReader.C77_counterexample"
   ],
   "note": "False without Type (counterexample). Proved with Type."
  },
  {
   "property": "C78",
   "status": "partial",
   "theorems": [
    "PdfReader.C78_trees_partial",
    "PdfReader.C78_broken_tree",
    "PdfReader.C78_null_kid_counterexample",
    "PdfReader.C78_cycle_counterexample"
   ],
   "note": "False for null kids and cyclic Kids (two counterexamples). Proved for trees."
  },
  {
   "property": "C79",
   "status": "partial",
   "theorems": [
    "PdfReader.C79_direct_partial",
    "PdfReader.C79_indirect_filter_counterexample",
    "PdfReader.C79_parms_counterexample"
   ],
   "note": "False for indirect Filter, indirect or array DecodeParms (counterexamples). Proved for the other forms."
  },
  {
   "property": "C80",
   "status": "partial",
   "theorems": [
    "PdfReader.C80_painted_partial",
    "PdfReader.C80_empty_counterexample"
   ],
   "note": "False for XObjects with empty data (counterexample). Proved otherwise."
  },
  {
   "property": "C81",
   "status": "proved",
   "theorems": [
    "PdfReader.C81_iterates"
   ],
   "note": ""
  },
  {
   "property": "C82",
   "status": "proved",
   "theorems": [
    "PdfReader.C82_decodes",
    "PdfReader.C82_every_image"
   ],
   "note": "Uncompressed mode, an extension, is left out; every image has an encoding (C82_every_image)."
  },
  {
   "property": "C83",
   "status": "partial",
   "theorems": [
    "PdfReader.C83_columns_counterexample",
    "PdfReader.C83_group3_counterexample",
    "PdfReader.C83_group4_partial"
   ],
   "note": "False: counterexamples for Columns and for K other than -1. Proved for K = -1 with Columns given (C83_group4_partial)."
  },
  {
   "property": "C84",
   "status": "partial",
   "theorems": [
    "PdfReader.C84_unchanged_partial",
    "PdfReader.C84_encoded_partial",
    "PdfReader.C84_indexed_partial",
    "PdfReader.C84_gray_counterexample",
    "PdfReader.C84_bits_counterexample",
    "PdfReader.C84_icc_counterexample",
    "PdfReader.C84_chain_counterexample",
    "PdfReader.C84_inline_counterexample"
   ],
   "note": "False for DeviceGray, for components not of 8 bits, ICC profiles, filter chains and inline DCT images (counterexamples). Proved for the other device spaces."
  },
  {
   "property": "C85",
   "status": "partial",
   "theorems": [
    "PdfReader.C85_bilevel_partial",
    "PdfReader.C85_inverted_partial",
    "PdfReader.C85_mask_counterexample",
    "PdfReader.C85_document_counterexample"
   ],
   "note": "False for masks without BitsPerComponent (counterexample). Proved otherwise."
  },
  {
   "property": "C86",
   "status": "partial",
   "theorems": [
    "PdfReader.C86_samples_partial",
    "PdfReader.C86_bytes",
    "PdfReader.C86_rows_counterexample",
    "PdfReader.C86_decode_counterexample",
    "PdfReader.C86_no_bits"
   ],
   "note": "False for rows not ending at a byte and for Decode (counterexamples). Proved otherwise."
  },
  {
   "property": "C87",
   "status": "partial",
   "theorems": [
    "PdfReader.C87_entries_partial",
    "PdfReader.C87_missing",
    "PdfReader.C87_utf8",
    "PdfReader.C87_undecoded",
    "PdfReader.C87_utf16_counterexample",
    "PdfReader.C87_accent_counterexample",
    "PdfReader.C87_wrong_counterexample",
    "PdfReader.C87_hex_counterexample",
    "PdfReader.C87_reference_counterexample"
   ],
   "note": "False for UTF-16, accents, hexadecimal strings and references (counterexamples). Proved for ASCII texts and full dates."
  },
  {
   "property": "C88",
   "status": "proved",
   "theorems": [
    "PdfReader.C88_stable",
    "PdfReader.C88_total"
   ],
   "note": ""
  },
  {
   "property": "C89",
   "status": "proved",
   "theorems": [
    "PdfReader.C89_opens",
    "PdfReader.C89_other_object"
   ],
   "note": "Unencrypted files; sections as in Spec/File.lean."
  },
  {
   "property": "C90",
   "status": "proved",
   "theorems": [
    "PdfReader.C90_delivered"
   ],
   "note": "Objects are found through the tables, or, for objects inside object streams, by the scan of the whole body."
  },
  {
   "property": "C91",
   "status": "proved",
   "theorems": [
    "PdfReader.C91_pages"
   ],
   "note": ""
  },
  {
   "property": "C92",
   "status": "proved",
   "theorems": [
    "PdfReader.C92_resources"
   ],
   "note": ""
  },
  {
   "property": "C93",
   "status": "proved",
   "theorems": [
    "PdfReader.C93_read_back",
    "PdfReader.C93_pages_read_back"
   ],
   "note": "The writer is Spec/Write.lean."
  },
  {
   "property": "C94",
   "status": "proved",
   "theorems": [
    "PdfReader.C94_read_back",
    "PdfReader.C94_pages_read_back"
   ],
   "note": "One revision with one object stream; any encoder which the filters undo (no filter, FlateDecode with zlib as parameter, ASCIIHexDecode are instances)."
  },
  {
   "property": "C95",
   "status": "proved",
   "theorems": [
    "PdfReader.C95_strings",
    "PdfReader.C95_shows",
    "PdfReader.C95_written",
    "PdfReader.C95_compressed"
   ],
   "note": "Unencrypted files; what a font makes of a string is C36-C40, C65; contents and operators as in C50-C53."
  },
  {
   "property": "C96",
   "status": "proved",
   "theorems": [
    "PdfReader.C96_texts",
    "PdfReader.C96_compressed_texts"
   ],
   "note": "Bytes other than A4, the currency sign, which the code drops (C39)."
  },
  {
   "property": "C97",
   "status": "proved",
   "theorems": [
    "PdfReader.C97_delivered",
    "PdfReader.C97_shows",
    "PdfReader.C97_refused"
   ],
   "note": "Delivered is what the code makes of the objects: strings in dictionaries stay encrypted (C45), AES data keep their padding (C71). The encryption dictionary is an indirect object listed in the sections."
  },
  {
   "property": "C98",
   "status": "proved",
   "theorems": [
    "PdfReader.C98_read_back",
    "PdfReader.C98_exact",
    "PdfReader.C98_texts",
    "PdfReader.C98_refused"
   ],
   "note": "Every stream is encrypted; no indirect object is a string by itself (the code fails for these). With AES the data keep their padding (C71)."
  },
  {
   "property": "C99",
   "status": "proved",
   "theorems": [
    "PdfReader.C99_delivered",
    "PdfReader.C99_shows"
   ],
   "note": "The hypotheses say what the code needs: another endobj before the dictionary, no stray endobj in the objects after it, no other object with the same header after it."
  },
  {
   "property": "C100",
   "status": "partial",
   "theorems": [
    "PdfReader.C100_terminates_partial",
    "PdfReader.C100_direct_lengths_partial",
    "PdfReader.C100_self_length",
    "PdfReader.C100_counterexample",
    "PdfReader.C100_scan_counterexample"
   ],
   "note": "False of the code: a stream which is its own Length is looked up forever (C100_counterexample, C100_self_length), and so is a stream whose unlisted Length does not stand right after it (C100_scan_counterexample). Proved: on all bytes resolving ends when the references used as Lengths are listed where they stand (C100_terminates_partial), in particular when all Lengths are direct (C100_direct_lengths_partial). Files with unlisted Lengths right behind their streams are the matter of C101. Missing: nested object streams."
  },
  {
   "property": "C101",
   "status": "proved",
   "theorems": [
    "PdfReader.C101_delivered",
    "PdfReader.C101_serves"
   ],
   "note": "No object streams, nothing encrypted. endobj does not occur within a stream whose Length is unlisted. Where the parser stands when the search for a Length is given up is a parameter (seek), assumed to be within the stream; C101_serves takes its beginning."
  },
  {
   "property": "C102",
   "status": "partial",
   "theorems": [
    "PdfReader.C102_resolves_partial",
    "PdfReader.C102_handed_out_partial",
    "PdfReader.C102_endless",
    "PdfReader.C102_counterexample",
    "PdfReader.C102_opened_partial",
    "PdfReader.C102_pages_counterexample"
   ],
   "note": "False of the code: every page refers to its parent, whose Kids refer to the page, and building one returns nothing, whatever the bound on the depth (C102_counterexample, C102_endless; in an opened file C102_pages_counterexample): the entries of a dictionary are built without knowing which references are being built. Proved for objects which do not contain themselves (C102_resolves_partial, C102_handed_out_partial, C102_opened_partial)."
  },
  {
   "property": "C103",
   "status": "partial",
   "theorems": [
    "PdfReader.C103_text_content_partial",
    "PdfReader.C103_again_partial",
    "PdfReader.C103_strings_counterexample",
    "PdfReader.C103_names_counterexample",
    "PdfReader.C103_reals_counterexample",
    "PdfReader.C103_images_counterexample"
   ],
   "note": "False of the code: strings outside of text-showing operators are printed without parentheses (C103_strings_counterexample), names without escapes (C103_names_counterexample), small reals with an exponent (C103_reals_counterexample), inline images in the wrong alphabet (C103_images_counterexample). Proved for all contents without such operands, for every encoding which extends ASCII: the text parses to the same commands with decoded strings (C103_text_content_partial), and rendering it again without resources shows the same strings (C103_again_partial)."
  },
  {
   "property": "C104",
   "status": "partial",
   "theorems": [
    "PdfReader.C104_commands_partial",
    "PdfReader.C104_shows_partial",
    "PdfReader.C104_joined_counterexample",
    "PdfReader.C104_numbers_counterexample"
   ],
   "note": "False of the code: the streams are joined with nothing between them, so that an operator at the end of one and the start of the next become another operator (C104_joined_counterexample), and numbers another number (C104_numbers_counterexample). Proved for all divisions where each stream ends its last token with white space or a delimiter (C104_commands_partial, C104_shows_partial)."
  },
  {
   "property": "C105",
   "status": "partial",
   "theorems": [
    "PdfReader.C105_ignored_partial",
    "PdfReader.C105_standard",
    "PdfReader.C105_names_counterexample"
   ],
   "note": "False of the code: words like navigate, document_load, inline_image and apostrophe are taken for methods of the viewer (C105_names_counterexample). Proved for all other words, among them all operators of PDF (C105_standard), with any operands but references and images."
  },
  {
   "property": "C106",
   "status": "proved",
   "theorems": [
    "PdfReader.C106_images",
    "PdfReader.C106_pillow",
    "PdfReader.C106_encrypted",
    "PdfReader.C106_written"
   ],
   "note": "C106_images for the viewer (C106_encrypted for encrypted files), C106_pillow for single images, C106_written from pixels to pixels. DeviceGray, other numbers of bits and other colour spaces are left out (C84, C85), as are XObjects without data (C80)."
  },
  {
   "property": "C107",
   "status": "proved",
   "theorems": [
    "PdfReader.C107_walk"
   ],
   "note": "Names of attributes begin with a capital letter, as others may be attributes of Python's own. Indices of arrays only; keys of streams are C109."
  },
  {
   "property": "C108",
   "status": "partial",
   "theorems": [
    "PdfReader.C108_inherited_partial",
    "PdfReader.C108_counterexample"
   ],
   "note": "False of the code: page.MediaBox is None when the page inherits it (C108_counterexample). Proved for attributes of the page itself, and that climbing by Parent finds the inherited value first."
  },
  {
   "property": "C109",
   "status": "partial",
   "theorems": [
    "PdfReader.C109_dictionaries_partial",
    "PdfReader.C109_streams_counterexample"
   ],
   "note": "False of the code: a key of a stream gives its entry with references unresolved (C109_streams_counterexample). Proved for dictionaries."
  },
  {
   "property": "C110",
   "status": "partial",
   "theorems": [
    "PdfReader.C110_large_partial",
    "PdfReader.C110_small_counterexample"
   ],
   "note": "False of the code: files of less than 1024 bytes on disk fail with OSError (C110_small_counterexample). Proved for all others."
  },
  {
   "property": "C111",
   "status": "proved",
   "theorems": [
    "PdfReader.C111_kept",
    "PdfReader.C111_recovered"
   ],
   "note": "for content in which no command `navigate` follows the image (the word is that of an internal handler, see C105), and filters that are names"
  },
  {
   "property": "C112",
   "status": "partial",
   "theorems": [
    "PdfReader.C112_during_partial",
    "PdfReader.C112_parameters_partial",
    "PdfReader.C112_matrix_counterexample",
    "PdfReader.C112_flatness_counterexample",
    "PdfReader.C112_text_counterexample"
   ],
   "note": "proved for w, J, j, M, d, ri, Tf, gs, q, Q, Do and the first cm in force; false for a second cm (it replaces the matrix), for i (kept under the name FL, and FL of a dictionary is dropped) and for the operators of the text state Tc, Tw, Tz, TL, Tr, Ts (they set nothing): counterexamples; content without the word navigate"
  },
  {
   "property": "C113",
   "status": "partial",
   "theorems": [
    "PdfReader.C113_before_partial",
    "PdfReader.C113_contents_counterexample"
   ],
   "note": "proved for pages whose rendering fails; false for pages that cannot be reached (no Contents, unreadable stream): the viewer goes on to the next page before it returns the canvas, so the canvas of the page before is lost (counterexample)"
  },
  {
   "property": "C114",
   "status": "proved",
   "theorems": [
    "PdfReader.C114_alone",
    "PdfReader.C114_reads"
   ],
   "note": "Buffer operations with their calls to the file object (seek, read) as a program over a file object with a position; any interleaving of whole operations."
  },
  {
   "property": "C115",
   "status": "partial",
   "theorems": [
    "PdfReader.C115_threads_counterexample",
    "PdfReader.C115_locked_partial"
   ],
   "note": "False of the code: the position is set by one call and the bytes are read by the next, with no lock (C115_threads_counterexample). Proved for operations which are not interrupted (C115_locked_partial)."
  },
  {
   "property": "C116",
   "status": "proved",
   "theorems": [
    "PdfReader.C116_interleaved",
    "PdfReader.C116_file"
   ],
   "note": "The generator of PageTreeNode.pages as a stack of suspended calls, next() by next(); any schedule of next() on any iterators and of other uses."
  },
  {
   "property": "C117",
   "status": "partial",
   "theorems": [
    "PdfReader.C117_pages_partial",
    "PdfReader.C117_two_counterexample",
    "PdfReader.C117_lost_counterexample"
   ],
   "note": "False of the code: iterators share the current page of the viewer (C117_two_counterexample), and a page is lost when the next one has no Contents (C117_lost_counterexample). Proved: a single iterator with any renderings, failing ones too, in between (C117_pages_partial). That the iterator has no __iter__ (so that a for loop over it raises TypeError) is outside of the model."
  },
  {
   "property": "C118",
   "status": "partial",
   "theorems": [
    "PdfReader.C118_listed_partial",
    "PdfReader.C118_read_back_partial",
    "PdfReader.C118_pages_partial",
    "PdfReader.C118_order_counterexample",
    "PdfReader.C118_packed_counterexample"
   ],
   "note": "False of the code: the first definition in the file counts for objects in object streams (C118_packed_counterexample), and after one of them was asked for, old values shadow new ones (C118_order_counterexample). Proved: as long as only objects by themselves are asked for, any number of updates is read back (C118_read_back_partial, C118_pages_partial; for files in general C118_listed_partial)."
  },
  {
   "property": "C119",
   "status": "partial",
   "theorems": [
    "PdfReader.C119_stream_partial",
    "PdfReader.C119_pillow_partial",
    "PdfReader.C119_encrypted_partial",
    "PdfReader.C119_chain_counterexample",
    "PdfReader.C119_coding_counterexample",
    "PdfReader.C119_columns_counterexample",
    "PdfReader.C119_jpeg_counterexample"
   ],
   "note": "False of the code: with another filter before it the parameters are an array, and the stream fails (C119_chain_counterexample); K other than -1 gives the encoded data (C119_coding_counterexample); without Columns the stream fails (C119_columns_counterexample); decoded data of JPEG streams always fail (C119_jpeg_counterexample). Proved: Group 4 with Columns given, on the level of streams, documents and encrypted documents (C119_stream_partial, C119_pillow_partial, C119_encrypted_partial)."
  },
  {
   "property": "C120",
   "status": "partial",
   "theorems": [
    "PdfReader.C120_damaged_partial",
    "PdfReader.C120_empty_partial",
    "PdfReader.C120_lzw_partial",
    "PdfReader.C120_lzw_counterexample",
    "PdfReader.C120_fax_counterexample",
    "PdfReader.C120_tiff_counterexample"
   ],
   "note": "False of the code: undefined LZW codes (C120_lzw_counterexample), data which are no facsimile codes (C120_fax_counterexample) and TIFF prediction (C120_tiff_counterexample) raise. Proved: chains of the other filters never raise, with or without PNG predictors (C120_damaged_partial), what zlib refuses is empty (C120_empty_partial), LZWDecode raises at most TypeError (C120_lzw_partial)."
  },
  {
   "property": "C121",
   "status": "partial",
   "theorems": [
    "PdfReader.C121_canvas_partial",
    "PdfReader.C121_commands_partial",
    "PdfReader.C121_strings_partial",
    "PdfReader.C121_shown_partial",
    "PdfReader.C121_navigate_counterexample"
   ],
   "note": "False of the code: the word navigate in the content empties the canvas (C121_navigate_counterexample). Proved for all other contents: the commands at the beginning are read whatever comes after them (C121_commands_partial), what they paint stays on the canvas (C121_canvas_partial, C121_strings_partial), and is there after navigate and render (C121_shown_partial), whether an exception is raised or not."
  },
  {
   "property": "C122",
   "status": "proved",
   "theorems": [
    "PdfReader.C122_union",
    "PdfReader.C122_file"
   ],
   "note": "C122_union for any document, C122_file for files which are opened, whatever was resolved before."
  },
  {
   "property": "C123",
   "status": "proved",
   "theorems": [
    "PdfReader.C123_only_pages",
    "PdfReader.C123_file"
   ],
   "note": "C123_only_pages for any answers of the document, C123_file for files."
  },
  {
   "property": "C124",
   "status": "proved",
   "theorems": [
    "PdfReader.C124_root",
    "PdfReader.C124_missing"
   ],
   "note": "C124_root for every file which is opened, C124_missing for those without a Root."
  },
  {
   "property": "C125",
   "status": "partial",
   "theorems": [
    "PdfReader.C125_dict_counterexample",
    "PdfReader.C125_stream_counterexample",
    "PdfReader.C125_page_counterexample",
    "PdfReader.C125_direct_partial"
   ],
   "note": "False of the code: a reference as Type makes reading fail, of every dictionary (C125_dict_counterexample) and stream (C125_stream_counterexample), so that pages() ends (C125_page_counterexample). Proved for names (C125_direct_partial)."
  },
  {
   "property": "C126",
   "status": "partial",
   "theorems": [
    "PdfReader.C126_attribute_partial",
    "PdfReader.C126_missing",
    "PdfReader.C126_false_counterexample"
   ],
   "note": "False of the code for false values under the full name, which read as None (C126_false_counterexample); proved for all others (C126_attribute_partial, C126_missing)."
  },
  {
   "property": "C127",
   "status": "proved",
   "theorems": [
    "PdfReader.C127_as_stream",
    "PdfReader.C127_plain"
   ],
   "note": "C127_as_stream relates the two for all filters, parameters and data; C127_plain: without filters the data are returned as they are."
  },
  {
   "property": "C128",
   "status": "partial",
   "theorems": [
    "PdfReader.C128_pillow_partial",
    "PdfReader.C128_page_partial",
    "PdfReader.C128_photo_counterexample",
    "PdfReader.C128_dct_counterexample",
    "PdfReader.C128_indexed_counterexample",
    "PdfReader.C128_fax_counterexample",
    "PdfReader.C128_empty_counterexample"
   ],
   "note": "False of the code for photographs (C128_photo_counterexample, C128_dct_counterexample), the abbreviations of Indexed and CCITTFaxDecode (C128_indexed_counterexample, C128_fax_counterexample), images of size 0 (C128_empty_counterexample), DeviceGray (C84). Proved for device colour spaces, palettes, masks and facsimiles (C128_pillow_partial), also as they are on the canvas (C128_page_partial)."
  },
  {
   "property": "C129",
   "status": "partial",
   "theorems": [
    "PdfReader.C129_file_partial",
    "PdfReader.C129_direct_counterexample",
    "PdfReader.C129_null_counterexample",
    "PdfReader.C129_encrypted_counterexample"
   ],
   "note": "Proved for references to dictionaries with ASCII texts and complete dates (C129_file_partial). False of the code for direct dictionaries (C129_direct_counterexample), references to anything else (C129_null_counterexample: AttributeError) and encrypted strings (C129_encrypted_counterexample); other texts and dates see C87."
  },
  {
   "property": "C130",
   "status": "partial",
   "theorems": [
    "PdfReader.C130_flags_partial",
    "PdfReader.C130_unsigned_counterexample"
   ],
   "note": "Proved for every document which can be opened (C130_flags_partial, permission_unsigned); false for unsigned numbers of 2^31 and more and the versions 1 to 4, where opening fails with any password (C130_unsigned_counterexample)."
  },
  {
   "property": "C131",
   "status": "proved",
   "theorems": [
    "PdfReader.C131_documents",
    "PdfReader.C131_viewers",
    "PdfReader.C131_written"
   ],
   "note": "C131_documents and C131_viewers for any two files which serve the same objects (C90, C98); C131_written for a history of revisions with tables against an object stream. References to objects which are not defined are excluded: there the scan of C59 may find what was left of older revisions."
  },
  {
   "property": "C132",
   "status": "partial",
   "theorems": [
    "PdfReader.C132_codespace",
    "PdfReader.C132_range",
    "PdfReader.C132_mapping_partial",
    "PdfReader.C132_texts_counterexample"
   ],
   "note": "C132_codespace for codespaces and C132_mapping_partial for mappings whose destinations are numbers. False for mappings with bfchar rows or arrays of texts: BFChar has no int_begin, so as_list, as_dict and len raise AttributeError (C132_texts_counterexample, for all of them)."
  },
  {
   "property": "C133",
   "status": "proved",
   "theorems": [
    "PdfReader.C133_accepted",
    "PdfReader.C133_refused"
   ],
   "note": "C133_accepted, C133_refused."
  },
  {
   "property": "C134",
   "status": "proved",
   "theorems": [
    "PdfReader.C134_appended",
    "PdfReader.C134_raises",
    "PdfReader.C134_interrupted",
    "PdfReader.C134_embedded"
   ],
   "note": "C134_interrupted for written files and all crash points, C134_appended and C134_raises for any complete file and any bytes after it. C134_embedded shows why streams with %%EOF in their data are excluded."
  },
  {
   "property": "C135",
   "status": "partial",
   "theorems": [
    "PdfReader.C135_readable_partial",
    "PdfReader.C135_lost",
    "PdfReader.C135_counterexample"
   ],
   "note": "C135_readable_partial when at most 1018 bytes follow the last finished revision; with more than that opening always raises ParserException (C135_lost, C135_counterexample), since %%EOF is searched in the last 1023 bytes only."
  },
  {
   "property": "C136",
   "status": "proved",
   "theorems": [
    "PdfReader.C136_order"
   ],
   "note": "C136_order: any class of viewers as a table of handlers on its own state; the calls are observed by a subclass which notes them. Handlers give the changed object where Python changes it in place."
  },
  {
   "property": "C137",
   "status": "proved",
   "theorems": [
    "PdfReader.C137_unchanged",
    "PdfReader.C137_calls"
   ],
   "note": "C137_unchanged, C137_calls: SimplePDFViewer as a table of handlers is the renderer of C50-C53 (simple_render)."
  },
  {
   "property": "C138",
   "status": "proved",
   "theorems": [
    "PdfReader.C138_renders",
    "PdfReader.C138_alone",
    "PdfReader.C138_iterates",
    "PdfReader.C138_keeps",
    "PdfReader.C138_unrendered"
   ],
   "note": "C138_renders, C138_alone, C138_iterates, C138_keeps over histories with changes (Spec/Handed). C138_unrendered shows why the viewer's canvas must not be changed before rendering. Canvases of forms are shared by all copies of a canvas, so they are excluded."
  },
  {
   "property": "C139",
   "status": "partial",
   "theorems": [
    "PdfReader.C139_intact_partial",
    "PdfReader.C139_pages",
    "PdfReader.C139_asked"
   ],
   "note": "C139_intact_partial for histories which do not ask for overwritten objects, C139_pages. The rest is false: asking for an overwritten object registers what is found there, under the number written there, C139_asked."
  },
  {
   "property": "C140",
   "status": "proved",
   "theorems": [
    "PdfReader.C140_codes",
    "PdfReader.C140_texts",
    "PdfReader.C140_compressed_codes",
    "PdfReader.C140_compressed_texts"
   ],
   "note": "C140_codes, C140_texts for written files (Spec/UnicodeFile), C140_compressed_codes, C140_compressed_texts for documents with object streams (Spec/UnicodePacked), by C95_written, C95_compressed and the meaning of CMaps (C36). Characters outside of the Basic Multilingual Plane are wrong by C61."
  },
  {
   "property": "C141",
   "status": "partial",
   "theorems": [
    "PdfReader.C141_mixed_refused",
    "PdfReader.C141_one_kind_partial",
    "PdfReader.C141_counterexample"
   ],
   "note": "false of the code: the kind of the newest section decides how all are read. C141_mixed_refused: every file with sections of both kinds is refused (ParserException); C141_one_kind_partial: exactly the files with sections of one kind are opened; C141_counterexample: a table with an update by a stream."
  },
  {
   "property": "C142",
   "status": "partial",
   "theorems": [
    "PdfReader.C142_dictionaries_partial",
    "PdfReader.C142_arrays_partial",
    "PdfReader.C142_streams_partial",
    "PdfReader.C142_others",
    "PdfReader.C142_counterexample",
    "PdfReader.C142_type_reference_counterexample"
   ],
   "note": "false of the code for font descriptors and beads (misspelt in the table), object streams (C142_counterexample) and dictionaries whose Type is a reference (C142_type_reference_counterexample). C142_dictionaries_partial, C142_arrays_partial, C142_streams_partial, C142_others: everything else."
  },
  {
   "property": "C143",
   "status": "proved",
   "theorems": [
    "PdfReader.C143_annotations",
    "PdfReader.C143_list"
   ],
   "note": "C143_annotations for every well-formed file and every reachable viewer; C143_list: lists of annotation objects. The state of the document is that after listing the pages, followed by any requests."
  },
  {
   "property": "C144",
   "status": "partial",
   "theorems": [
    "PdfReader.C144_read_back_partial",
    "PdfReader.C144_pages_partial",
    "PdfReader.C144_viewers_partial",
    "PdfReader.C144_counterexample"
   ],
   "note": "XRefStm is ignored, so it is false of updates: C144_counterexample (the hidden object is null: the scan for it stops at the first table). Proved of files of one revision: C144_read_back_partial, C144_pages_partial, C144_viewers_partial."
  },
  {
   "property": "C145",
   "status": "partial",
   "theorems": [
    "PdfReader.C145_mode_partial",
    "PdfReader.C145_viewer_partial",
    "PdfReader.C145_navigated",
    "PdfReader.C145_counterexample"
   ],
   "note": "False of contents with the word navigate (C145_counterexample), which is taken for the navigation of the viewer; proved of all others: C145_mode_partial, C145_viewer_partial, C145_navigated."
  },
  {
   "property": "C146",
   "status": "partial",
   "theorems": [
    "PdfReader.C146_interrupted",
    "PdfReader.C146_readable_partial",
    "PdfReader.C146_lost",
    "PdfReader.C146_packed_partial",
    "PdfReader.C146_counterexample"
   ],
   "note": "C146_interrupted: every crash point. That it stays readable is false when more than 1018 bytes follow the last finished update (C146_counterexample, C146_lost), and proved otherwise (C146_readable_partial). Missing: objects in object streams once an update is finished (false, C118); before that they are covered (C146_packed_partial)."
  },
  {
   "property": "C147",
   "status": "partial",
   "theorems": [
    "PdfReader.C147_true_partial",
    "PdfReader.C147_outcome",
    "PdfReader.C147_total_partial",
    "PdfReader.C147_symmetric",
    "PdfReader.C147_transitive",
    "PdfReader.C147_reflexive",
    "PdfReader.C147_document_partial",
    "PdfReader.C147_kinds_counterexample",
    "PdfReader.C147_raises_counterexample"
   ],
   "note": "False: a name equals a hexadecimal string with the same characters, true equals 1, strings in hexadecimal digits differ from the same literal strings (C147_kinds_counterexample); references and streams compared with other kinds raise AttributeError (C147_raises_counterexample). Proved: exactly when the result is True (C147_true_partial, C147_document_partial), reflexive, symmetric, transitive, no other exceptions (C147_outcome), none without references and streams (C147_total_partial)."
  },
  {
   "property": "C148",
   "status": "proved",
   "theorems": [
    "PdfReader.C148_read_back",
    "PdfReader.C148_exact",
    "PdfReader.C148_shows",
    "PdfReader.C148_refused",
    "PdfReader.C148_texts",
    "PdfReader.C148_codes"
   ],
   "note": "Ciphers and hashes as parameters (C97). Strings in object streams are delivered as written, as they should be; objects which are strings by themselves are excluded (C45), and streams keep the padding of AES (C71), which the filters have to ignore. The encryption dictionary is written by itself, as it has to be. C148_codes: the same for texts in any script, by ToUnicode CMaps."
  },
  {
   "property": "C149",
   "status": "partial",
   "theorems": [
    "PdfReader.C149_one_partial",
    "PdfReader.C149_longer_partial",
    "PdfReader.C149_array_partial",
    "PdfReader.C149_deep_counterexample",
    "PdfReader.C149_deep_partial",
    "PdfReader.C149_files_partial",
    "PdfReader.C149_counterexample",
    "PdfReader.C149_elements_counterexample"
   ],
   "note": "False: one reference is followed and the next one is returned (C149_counterexample), two for elements of arrays which are reached by a reference (C149_elements_counterexample); deep_obj_by_ref tests for IndirectObject and returns references as they are (C149_deep_counterexample). Proved: single references (C149_one_partial), elements over two references (C149_array_partial), what is read for every longer chain (C149_longer_partial, C149_files_partial), deep_obj_by_ref of an IndirectObject (C149_deep_partial)."
  },
  {
   "property": "C150",
   "status": "partial",
   "theorems": [
    "PdfReader.C150_current_partial",
    "PdfReader.C150_raw",
    "PdfReader.C150_filtered_stays",
    "PdfReader.C150_data_counterexample",
    "PdfReader.C150_entry_counterexample",
    "PdfReader.C150_item_counterexample"
   ],
   "note": "False: new data are not decoded if the old ones were (C150_data_counterexample, C150_filtered_stays for all histories), an entry missing at its first reading stays missing as an attribute (C150_entry_counterexample), items and get() do not resolve references (C150_item_counterexample). Proved: histories in which nothing is changed after it was read successfully (C150_current_partial), and entries as written, encoded data and length after all histories (C150_raw)."
  },
  {
   "property": "C151",
   "status": "proved",
   "theorems": [
    "PdfReader.C151_bytes",
    "PdfReader.C151_same"
   ],
   "note": "C151_bytes, C151_same. Comments inside of hexadecimal strings, which the grammar does not know, are left out."
  },
  {
   "property": "C152",
   "status": "partial",
   "theorems": [
    "PdfReader.C152_defaults_partial",
    "PdfReader.C152_others",
    "PdfReader.C152_filters_counterexample",
    "PdfReader.C152_strings_counterexample"
   ],
   "note": "False for CF, StmF and StrF: without one of them no document of version 4 or 5 opens (C152_filters_counterexample for all dictionaries, C152_strings_counterexample for a document which opens when the default is written). Proved: V, Length and EncryptMetadata (C152_defaults_partial), order and other entries (C152_others)."
  }
 ]
}