STATUS = {
 "C01": ("proved", ""),
 "C02": ("proved", ""),
 "C03": ("proved", ""),
 "C04": ("partial", "False as stated: a stream that ends with EOD decodes to nothing, and the KwKwK case is wrong. Proved for streams without EOD."),
 "C05": ("proved", ""),
 "C06": ("partial", "False as stated for PNG row tags other than None (counterexample); proved for tag-0 rows and that rows are only stripped."),
 "C07": ("proved", ""),
 "C08": ("proved", ""),
 "C09": ("partial", "False as stated for mixed forward/backward use (counterexamples); proved for the histories the library uses."),
 "C10": ("proved", ""),
 "C11": ("proved", "All three parsers (file, content, inline image), any nesting, separators and comments."),
 "C12": ("proved", ""),
 "C13": ("partial", "False as stated: truncated input raises TypeError, a dictionary without Length before a word in s raises KeyError. Proved: no other exception."),
 "C14": ("proved", ""),
 "C15": ("proved", ""),
 "C16": ("proved", ""),
 "C17": ("proved", ""),
 "C18": ("proved", "With the limit of 28 digits for negative reals; the counterexample shows the limit is sharp."),
 "C19": ("proved", ""),
 "C20": ("proved", ""),
 "C21": ("proved", ""),
 "C22": ("partial", "False when the wrong Length points past the end of the input (counterexample); proved otherwise."),
 "C23": ("proved", "With inline images; a dictionary operand directly before an operator in s is excluded (counterexample shows why)."),
 "C24": ("partial", "False for image data that contains an end mark (counterexample); proved for all other data."),
 "C58": ("proved", ""),
 "C57": ("partial", "False of the code: three counterexamples. Proved for the full syntax of the standard: the string ends where it should, and its value differs from the standard's at these three forms only (C57_delivered_partial)."),
 "C25": ("proved", "For headers at the start of a line; a header in mid-line is found only under extra conditions (counterexample)."),
 "C26": ("proved", "With the side conditions of the statement; files on disk shorter than 1024 bytes fail, see C26_small_file_on_disk."),
 "C27": ("proved", ""),
 "C28": ("partial", "False as stated (counterexamples): proved for in-use entries."),
 "C29": ("partial", "False as stated: a section which marks the object as free (or compressed) is passed over (counterexample). Proved: the newest section listing it as in use with this generation counts."),
 "C31": ("proved", "Any history of resolutions and reads, including failing ones, any fuel."),
 "C32": ("partial", "False as stated for files with several definitions of an object (counterexample: an unknown reference resolved first makes the old revision win). Proved for files with one definition."),
 "C33": ("partial", "Proved: only null can be the result, and it stays null; C59 gives resolution itself for regular bodies. False as stated: on some files TypeError is raised (counterexample)."),
 "C34": ("proved", "Direct objects as members."),
 "C59": ("proved", "Bodies of direct objects and of streams with a direct Length."),
 "C60": ("proved", ""),
 "C30": ("partial", "False as stated: cyclic Prev does not terminate. Proved: terminates exactly when there is no cycle."),
 "C35": ("proved", "From the text of the CMap to the answers for every code; rows with upper case destinations of hexadecimal strings, numbers and arrays of hexadecimal strings."),
 "C36": ("proved", "Codes of two or four digits; a two-digit code that is a prefix of a used four-digit code is excluded."),
 "C61": ("partial", "False as stated: surrogate pairs and ranges with several characters (two counterexamples). Proved for char rows in the BMP; C35_range covers ranges of single characters."),
 "C62": ("partial", "False as stated: desynchronisation (counterexample). Proved for a byte that forms no code with its neighbour."),
 "C63": ("proved", ""),
 "C37": ("proved", ""),
 "C38": ("proved", "The ambiguous characters, for which C38_exceptions shows that they do not survive: currency sign, no-break space, degree sign, ring, bullet of StandardEncoding."),
 "C39": ("proved", ""),
 "C40": ("partial", "False for names other than WinAnsiEncoding: C40_counterexample; C40_otherNames says what happens."),
 "C64": ("proved", ""),
 "C65": ("partial", "proved for every font except Helvetica-Oblique, whose name is misspelled in the code (C65_counterexample), and for strings without byte A4, which decodes to nothing"),
 "C66": ("partial", "False for the currency sign and for the bullet of StandardEncoding: C66_counterexample."),
 "C67": ("proved", ""),
 "C41": ("proved", "Revisions 2-4, IDs in hexadecimal syntax (C72 for the others); hash and AES are parameters."),
 "C42": ("proved", ""),
 "C43": ("proved", ""),
 "C44": ("proved", "Block cipher as a parameter."),
 "C45": ("partial", "False as stated: strings are never delivered decrypted (three counterexamples). Proved for streams, from the bytes of the file."),
 "C68": ("partial", "False as stated: UTF-8 is used (counterexample). Proved for ASCII passwords."),
 "C69": ("proved", ""),
 "C70": ("proved", "The user password must not happen to pass the owner check (a collision of SHA-256)."),
 "C71": ("partial", "False as stated: the padding stays (counterexample). Proved: the data are a prefix of what is delivered."),
 "C72": ("partial", "False as stated: literal strings raise TypeError (counterexample). Proved for all spellings in the hexadecimal syntax (C72_hexadecimal_partial); C41 opens such documents."),
 "C73": ("partial", "False for direct dictionaries (counterexample). Proved for references, for absence and for other filters."),
 "C74": ("proved", ""),
 "C46": ("proved", "From the bytes of the file for pages listed in the cross-reference sections; page trees of any shape, Kids direct or indirect."),
 "C47": ("partial", "False for writes after a read, deletions and pop (three counterexamples). Proved for all histories of reads and of writes to unread keys; entries are built at most once."),
 "C48": ("proved", "Categories of the same kind (dictionary or array) in all nodes; C48_mixed_counterexample shows what happens otherwise."),
 "C75": ("proved", ""),
 "C76": ("partial", "False for arrays which contain themselves (counterexample). Proved for dictionaries and streams with any cycles, and for acyclic arrays."),
 "C77": ("partial", "False without Type (counterexample). Proved with Type."),
 "C78": ("partial", "False for null kids and cyclic Kids (two counterexamples). Proved for trees."),
 "C79": ("partial", "False for indirect Filter, indirect or array DecodeParms (counterexamples). Proved for the other forms."),
 "C49": ("partial", "False for numbers below 1 (ValueError), for prev() on the first page and for pages without Contents (counterexamples). Proved for every history of calls otherwise."),
 "C50": ("partial", "False for q on an empty stack and for content calling navigate (counterexample). Proved for every balanced group from every non-empty stack."),
 "C51": ("partial", "False for forms with more Q than q or with fewer (two counterexamples). Proved for balanced forms."),
 "C52": ("partial", "False after a rendering which failed (counterexample). Proved for every history without failed renderings."),
 "C53": ("partial", "False for the quotation mark operator and nested forms (counterexamples). Proved for all other content."),
 "C80": ("partial", "False for XObjects with empty data (counterexample). Proved otherwise."),
 "C81": ("proved", ""),
 "C54": ("proved", ""),
 "C56": ("proved", ""),
 "C82": ("proved", "Uncompressed mode, an extension, is left out; every image has an encoding (C82_every_image)."),
 "C83": ("partial", "False: counterexamples for Columns and for K other than -1. Proved for K = -1 with Columns given (C83_group4_partial)."),
 "C84": ("partial", "False for DeviceGray, for components not of 8 bits, ICC profiles, filter chains and inline DCT images (counterexamples). Proved for the other device spaces."),
 "C85": ("partial", "False for masks without BitsPerComponent (counterexample). Proved otherwise."),
 "C86": ("partial", "False for rows not ending at a byte and for Decode (counterexamples). Proved otherwise."),
 "C55": ("partial", "False for every form without all the fields and the final apostrophe (counterexample over all of them). Proved for the full form; dateutil is a parameter."),
 "C87": ("partial", "False for UTF-16, accents, hexadecimal strings and references (counterexamples). Proved for ASCII texts and full dates."),
 "C88": ("proved", ""),
 "C89": ("proved", "Unencrypted files; sections as in Spec/File.lean."),
 "C90": ("proved", "Objects are found through the tables, or, for objects inside object streams, by the scan of the whole body."),
 "C91": ("proved", ""),
 "C92": ("proved", ""),
 "C93": ("proved", "The writer is Spec/Write.lean."),
 "C94": ("proved", "One revision with one object stream; any encoder which the filters undo (no filter, FlateDecode with zlib as parameter, ASCIIHexDecode are instances)."),
 "C95": ("proved", "Unencrypted files; what a font makes of a string is C36-C40, C65; contents and operators as in C50-C53."),
 "C97": ("proved", "Delivered is what the code makes of the objects: strings in dictionaries stay encrypted (C45), AES data keep their padding (C71). The encryption dictionary is an indirect object listed in the sections."),
 "C98": ("proved", "Every stream is encrypted; no indirect object is a string by itself (the code fails for these). With AES the data keep their padding (C71)."),
 "C99": ("proved", "The hypotheses say what the code needs: another endobj before the dictionary, no stray endobj in the objects after it, no other object with the same header after it."),
 "C100": ("partial", "False of the code: a stream which is its own Length is looked up forever (C100_counterexample, C100_self_length), and so is a stream whose unlisted Length does not stand right after it (C100_scan_counterexample). Proved: on all bytes resolving ends when the references used as Lengths are listed where they stand (C100_terminates_partial), in particular when all Lengths are direct (C100_direct_lengths_partial). Files with unlisted Lengths right behind their streams are the matter of C101. Missing: nested object streams."),
 "C101": ("proved", "No object streams, nothing encrypted. endobj does not occur within a stream whose Length is unlisted. Where the parser stands when the search for a Length is given up is a parameter (seek), assumed to be within the stream; C101_serves takes its beginning."),
 "C102": ("partial", "False of the code: every page refers to its parent, whose Kids refer to the page, and building one returns nothing, whatever the bound on the depth (C102_counterexample, C102_endless; in an opened file C102_pages_counterexample): the entries of a dictionary are built without knowing which references are being built. Proved for objects which do not contain themselves (C102_resolves_partial, C102_handed_out_partial, C102_opened_partial)."),
 "C103": ("partial", "False of the code: strings outside of text-showing operators are printed without parentheses (C103_strings_counterexample), names without escapes (C103_names_counterexample), small reals with an exponent (C103_reals_counterexample), inline images in the wrong alphabet (C103_images_counterexample). Proved for all contents without such operands, for every encoding which extends ASCII: the text parses to the same commands with decoded strings (C103_text_content_partial), and rendering it again without resources shows the same strings (C103_again_partial)."),
 "C104": ("partial", "False of the code: the streams are joined with nothing between them, so that an operator at the end of one and the start of the next become another operator (C104_joined_counterexample), and numbers another number (C104_numbers_counterexample). Proved for all divisions where each stream ends its last token with white space or a delimiter (C104_commands_partial, C104_shows_partial)."),
 "C105": ("partial", "False of the code: words like navigate, document_load, inline_image and apostrophe are taken for methods of the viewer (C105_names_counterexample). Proved for all other words, among them all operators of PDF (C105_standard), with any operands but references and images."),
 "C106": ("proved", "C106_images for the viewer (C106_encrypted for encrypted files), C106_pillow for single images, C106_written from pixels to pixels. DeviceGray, other numbers of bits and other colour spaces are left out (C84, C85), as are XObjects without data (C80)."),
 "C107": ("proved", "Names of attributes begin with a capital letter, as others may be attributes of Python's own. Indices of arrays only; keys of streams are C109."),
 "C108": ("partial", "False of the code: page.MediaBox is None when the page inherits it (C108_counterexample). Proved for attributes of the page itself, and that climbing by Parent finds the inherited value first."),
 "C109": ("partial", "False of the code: a key of a stream gives its entry with references unresolved (C109_streams_counterexample). Proved for dictionaries."),
 "C110": ("partial", "False of the code: files of less than 1024 bytes on disk fail with OSError (C110_small_counterexample). Proved for all others."),
 "C111": ("proved", "for content in which no command `navigate` follows the image (the word is that of an internal handler, see C105), and filters that are names"),
 "C112": ("partial", "proved for w, J, j, M, d, ri, Tf, gs, q, Q, Do and the first cm in force; false for a second cm (it replaces the matrix), for i (kept under the name FL, and FL of a dictionary is dropped) and for the operators of the text state Tc, Tw, Tz, TL, Tr, Ts (they set nothing): counterexamples; content without the word navigate"),
 "C113": ("partial", "proved for pages whose rendering fails; false for pages that cannot be reached (no Contents, unreadable stream): the viewer goes on to the next page before it returns the canvas, so the canvas of the page before is lost (counterexample)"),
 "C114": ("proved", "Buffer operations with their calls to the file object (seek, read) as a program over a file object with a position; any interleaving of whole operations."),
 "C115": ("partial", "False of the code: the position is set by one call and the bytes are read by the next, with no lock (C115_threads_counterexample). Proved for operations which are not interrupted (C115_locked_partial)."),
 "C116": ("proved", "The generator of PageTreeNode.pages as a stack of suspended calls, next() by next(); any schedule of next() on any iterators and of other uses."),
 "C117": ("partial", "False of the code: iterators share the current page of the viewer (C117_two_counterexample), and a page is lost when the next one has no Contents (C117_lost_counterexample). Proved: a single iterator with any renderings, failing ones too, in between (C117_pages_partial). That the iterator has no __iter__ (so that a for loop over it raises TypeError) is outside of the model."),
 "C118": ("partial", "False of the code: the first definition in the file counts for objects in object streams (C118_packed_counterexample), and after one of them was asked for, old values shadow new ones (C118_order_counterexample). Proved: as long as only objects by themselves are asked for, any number of updates is read back (C118_read_back_partial, C118_pages_partial; for files in general C118_listed_partial)."),
 "C119": ("partial", "False of the code: with another filter before it the parameters are an array, and the stream fails (C119_chain_counterexample); K other than -1 gives the encoded data (C119_coding_counterexample); without Columns the stream fails (C119_columns_counterexample); decoded data of JPEG streams always fail (C119_jpeg_counterexample). Proved: Group 4 with Columns given, on the level of streams, documents and encrypted documents (C119_stream_partial, C119_pillow_partial, C119_encrypted_partial)."),
 "C120": ("partial", "False of the code: undefined LZW codes (C120_lzw_counterexample), data which are no facsimile codes (C120_fax_counterexample) and TIFF prediction (C120_tiff_counterexample) raise. Proved: chains of the other filters never raise, with or without PNG predictors (C120_damaged_partial), what zlib refuses is empty (C120_empty_partial), LZWDecode raises at most TypeError (C120_lzw_partial)."),
 "C121": ("partial", "False of the code: the word navigate in the content empties the canvas (C121_navigate_counterexample). Proved for all other contents: the commands at the beginning are read whatever comes after them (C121_commands_partial), what they paint stays on the canvas (C121_canvas_partial, C121_strings_partial), and is there after navigate and render (C121_shown_partial), whether an exception is raised or not."),
 "C122": ("proved", "C122_union for any document, C122_file for files which are opened, whatever was resolved before."),
 "C123": ("proved", "C123_only_pages for any answers of the document, C123_file for files."),
 "C124": ("proved", "C124_root for every file which is opened, C124_missing for those without a Root."),
 "C125": ("partial", "False of the code: a reference as Type makes reading fail, of every dictionary (C125_dict_counterexample) and stream (C125_stream_counterexample), so that pages() ends (C125_page_counterexample). Proved for names (C125_direct_partial)."),
 "C126": ("partial", "False of the code for false values under the full name, which read as None (C126_false_counterexample); proved for all others (C126_attribute_partial, C126_missing)."),
 "C127": ("proved", "C127_as_stream relates the two for all filters, parameters and data; C127_plain: without filters the data are returned as they are."),
 "C128": ("partial", "False of the code for photographs (C128_photo_counterexample, C128_dct_counterexample), the abbreviations of Indexed and CCITTFaxDecode (C128_indexed_counterexample, C128_fax_counterexample), images of size 0 (C128_empty_counterexample), DeviceGray (C84). Proved for device colour spaces, palettes, masks and facsimiles (C128_pillow_partial), also as they are on the canvas (C128_page_partial)."),
 "C129": ("partial", "Proved for references to dictionaries with ASCII texts and complete dates (C129_file_partial). False of the code for direct dictionaries (C129_direct_counterexample), references to anything else (C129_null_counterexample: AttributeError) and encrypted strings (C129_encrypted_counterexample); other texts and dates see C87."),
 "C130": ("partial", "Proved for every document which can be opened (C130_flags_partial, permission_unsigned); false for unsigned numbers of 2^31 and more and the versions 1 to 4, where opening fails with any password (C130_unsigned_counterexample)."),
 "C131": ("proved", "C131_documents and C131_viewers for any two files which serve the same objects (C90, C98); C131_written for a history of revisions with tables against an object stream. References to objects which are not defined are excluded: there the scan of C59 may find what was left of older revisions."),
 "C132": ("partial", "C132_codespace for codespaces and C132_mapping_partial for mappings whose destinations are numbers. False for mappings with bfchar rows or arrays of texts: BFChar has no int_begin, so as_list, as_dict and len raise AttributeError (C132_texts_counterexample, for all of them)."),
 "C133": ("proved", "C133_accepted, C133_refused."),
 "C134": ("proved", "C134_interrupted for written files and all crash points, C134_appended and C134_raises for any complete file and any bytes after it. C134_embedded shows why streams with %%EOF in their data are excluded."),
 "C135": ("partial", "C135_readable_partial when at most 1018 bytes follow the last finished revision; with more than that opening always raises ParserException (C135_lost, C135_counterexample), since %%EOF is searched in the last 1023 bytes only."),
 "C136": ("proved", "C136_order: any class of viewers as a table of handlers on its own state; the calls are observed by a subclass which notes them. Handlers give the changed object where Python changes it in place."),
 "C137": ("proved", "C137_unchanged, C137_calls: SimplePDFViewer as a table of handlers is the renderer of C50-C53 (simple_render)."),
 "C138": ("proved", "C138_renders, C138_alone, C138_iterates, C138_keeps over histories with changes (Spec/Handed). C138_unrendered shows why the viewer's canvas must not be changed before rendering. Canvases of forms are shared by all copies of a canvas, so they are excluded."),
 "C139": ("partial", "C139_intact_partial for histories which do not ask for overwritten objects, C139_pages. The rest is false: asking for an overwritten object registers what is found there, under the number written there, C139_asked."),
 "C140": ("proved", "C140_codes, C140_texts for written files (Spec/UnicodeFile), C140_compressed_codes, C140_compressed_texts for documents with object streams (Spec/UnicodePacked), by C95_written, C95_compressed and the meaning of CMaps (C36). Characters outside of the Basic Multilingual Plane are wrong by C61."),
 "C141": ("partial", "false of the code: the kind of the newest section decides how all are read. C141_mixed_refused: every file with sections of both kinds is refused (ParserException); C141_one_kind_partial: exactly the files with sections of one kind are opened; C141_counterexample: a table with an update by a stream."),
 "C142": ("partial", "false of the code for font descriptors and beads (misspelt in the table), object streams (C142_counterexample) and dictionaries whose Type is a reference (C142_type_reference_counterexample). C142_dictionaries_partial, C142_arrays_partial, C142_streams_partial, C142_others: everything else."),
 "C143": ("proved", "C143_annotations for every well-formed file and every reachable viewer; C143_list: lists of annotation objects. The state of the document is that after listing the pages, followed by any requests."),
 "C144": ("partial", "XRefStm is ignored, so it is false of updates: C144_counterexample (the hidden object is null: the scan for it stops at the first table). Proved of files of one revision: C144_read_back_partial, C144_pages_partial, C144_viewers_partial."),
 "C145": ("partial", "False of contents with the word navigate (C145_counterexample), which is taken for the navigation of the viewer; proved of all others: C145_mode_partial, C145_viewer_partial, C145_navigated."),
 "C146": ("partial", "C146_interrupted: every crash point. That it stays readable is false when more than 1018 bytes follow the last finished update (C146_counterexample, C146_lost), and proved otherwise (C146_readable_partial). Missing: objects in object streams once an update is finished (false, C118); before that they are covered (C146_packed_partial)."),
 "C147": ("partial", "False: a name equals a hexadecimal string with the same characters, true equals 1, strings in hexadecimal digits differ from the same literal strings (C147_kinds_counterexample); references and streams compared with other kinds raise AttributeError (C147_raises_counterexample). Proved: exactly when the result is True (C147_true_partial, C147_document_partial), reflexive, symmetric, transitive, no other exceptions (C147_outcome), none without references and streams (C147_total_partial)."),
 "C148": ("proved", "Ciphers and hashes as parameters (C97). Strings in object streams are delivered as written, as they should be; objects which are strings by themselves are excluded (C45), and streams keep the padding of AES (C71), which the filters have to ignore. The encryption dictionary is written by itself, as it has to be. C148_codes: the same for texts in any script, by ToUnicode CMaps."),
 "C149": ("partial", "False: one reference is followed and the next one is returned (C149_counterexample), two for elements of arrays which are reached by a reference (C149_elements_counterexample); deep_obj_by_ref tests for IndirectObject and returns references as they are (C149_deep_counterexample). Proved: single references (C149_one_partial), elements over two references (C149_array_partial), what is read for every longer chain (C149_longer_partial, C149_files_partial), deep_obj_by_ref of an IndirectObject (C149_deep_partial)."),
 "C150": ("partial", "False: new data are not decoded if the old ones were (C150_data_counterexample, C150_filtered_stays for all histories), an entry missing at its first reading stays missing as an attribute (C150_entry_counterexample), items and get() do not resolve references (C150_item_counterexample). Proved: histories in which nothing is changed after it was read successfully (C150_current_partial), and entries as written, encoded data and length after all histories (C150_raw)."),
 "C151": ("proved", "C151_bytes, C151_same. Comments inside of hexadecimal strings, which the grammar does not know, are left out."),
 "C152": ("partial", "False for CF, StmF and StrF: without one of them no document of version 4 or 5 opens (C152_filters_counterexample for all dictionaries, C152_strings_counterexample for a document which opens when the default is written). Proved: V, Length and EncryptMetadata (C152_defaults_partial), order and other entries (C152_others)."),
 "C96": ("proved", "Bytes other than A4, the currency sign, which the code drops (C39)."),
}
