{"id": "C01", "title": "ASCIIHexDecode inverts every legal hex encoding", "statement": "Decoding the two-digit hex form of a byte string, with either letter case chosen independently per digit, any ASCII white space between bytes and an ending '>', returns exactly that byte string; whatever follows '>' is ignored, and a missing final digit counts as 0 (with or without '>').", "quantifier": "every byte string, every per-digit case choice, every white-space placement between encoded bytes, every trailer", "why_tests_cant": "unbounded strings and layouts", "anchors": ["pdfreader/filters/asciihex.py:decode"]}
{"id": "C02", "title": "ASCII85Decode inverts the standard encoding", "statement": "Decoding the PDF ASCII base-85 form of a byte string (groups of five digits, 'z' for zero groups, short final group, ended by '~>') returns exactly that byte string, also when white space is interspersed anywhere; a stream without the '~>' marker decodes to the empty string.", "quantifier": "every byte string and every white-space placement", "why_tests_cant": "needs the base-85 arithmetic for all 2^32 group values and all lengths", "anchors": ["pdfreader/filters/ascii85.py:decode"]}
{"id": "C03", "title": "RunLengthDecode inverts every legal run-length encoding", "statement": "For every sequence of literal runs (1..128 bytes) and repeat runs (2..128 copies) ended by the EOD byte 128, decoding returns the concatenation of the runs, ignoring anything after EOD; without EOD the result is empty.", "quantifier": "every list of legal runs and every trailer", "why_tests_cant": "unbounded run lists and run contents", "anchors": ["pdfreader/filters/runlength.py:decode"]}
{"id": "C04", "title": "LZWDecode inverts LZW encoding", "statement": "For every byte string, decoding a legal LZW encoding of it (clear code, growing code widths, EOD) returns that byte string.", "quantifier": "every byte string", "why_tests_cant": "the code table and width schedule depend on the whole prefix of the stream", "anchors": ["pdfreader/filters/lzw.py:decode", "pdfreader/filters/lzw.py:ByteDecoder"]}
{"id": "C05", "title": "Filter pipelines are left folds in array order", "statement": "Applying a filter array to data equals applying its filters one after another in array order with the same parameters; splitting the array at any point and applying the two parts in sequence gives the same result, an empty filter list returns the raw data, and an unknown filter name raises NotImplementedError no matter where it stands unless an earlier filter already failed.", "quantifier": "every filter list, every split point, every data and parameter value", "why_tests_cant": "unbounded pipelines", "anchors": ["pdfreader/filters/__init__.py:apply_filter", "pdfreader/types/native.py:Stream.filtered"]}
{"id": "C06", "title": "PNG/TIFF predictors are undone", "statement": "When a stream declares a PNG predictor, the decoded data is the original unpredicted image rows.", "quantifier": "every column count, every row tag and every data", "why_tests_cant": "per-row tags select different reconstruction functions", "anchors": ["pdfreader/filters/predictors.py:_remove_predictors"]}
{"id": "C07", "title": "The block buffer is a transparent window on the file (forward use)", "statement": "After opening the reader at any offset inside the file, any interleaving of peek, advance, step back (not before the opening offset), save and restore returns exactly the bytes of the file at the tracked position, None at end of file, whatever the block size.", "quantifier": "every file, every block size >= 1, every opening offset, every finite operation sequence (adaptive clients included)", "why_tests_cant": "block boundaries and operation histories are unbounded", "anchors": ["pdfreader/buffer.py:Buffer"]}
{"id": "C08", "title": "The block buffer is a transparent window on the file (backward use)", "statement": "After opening at an offset and walking only backwards (with steps forward never beyond the first block), the bytes returned are the bytes of the file at the tracked position and end of file is reported exactly at offset 0.", "quantifier": "every file, block size, offset and operation sequence staying below offset+blocksize", "why_tests_cant": "unbounded histories", "anchors": ["pdfreader/buffer.py:Buffer"]}
{"id": "C09", "title": "Mixed-direction use of the block buffer is transparent", "statement": "For any operation sequence whatsoever the buffer agrees with direct indexing into the file.", "quantifier": "every file, block size, operation sequence", "why_tests_cant": "only particular histories (forward past a block, then back before the start) break it", "anchors": ["pdfreader/buffer.py:Buffer._read_forward", "pdfreader/buffer.py:Buffer._read_backward"]}
{"id": "C10", "title": "Saving and restoring the reader position is a complete snapshot", "statement": "Restoring a previously saved state makes every later observation equal to what it would have been right after the save, whatever operations were executed in between, including reset.", "quantifier": "every state, every intermediate operation sequence and every later operation sequence", "why_tests_cant": "unbounded histories", "anchors": ["pdfreader/buffer.py:Buffer.get_state", "pdfreader/buffer.py:Buffer.set_state"]}
{"id": "C11", "title": "Every legal serialisation of an object parses to that object", "statement": "For each PDF object built from null, booleans, integers, reals, names, literal strings, hex strings, arrays, dictionaries and references, every textual form allowed by the PDF grammar (any white space and comments between tokens, any choice of escapes) is parsed to exactly that object, leaving the input after it.", "quantifier": "every object of every nesting depth, every legal text of it, every following input", "why_tests_cant": "grammar with unbounded nesting and unbounded layout choices", "anchors": ["pdfreader/parsers/base.py:BasicTypesParser.object"]}
{"id": "C12", "title": "The parser terminates on every input and consumes a prefix", "statement": "On every byte sequence parsing one object terminates; when it succeeds the remaining input is a proper suffix of the input.", "quantifier": "every byte string", "why_tests_cant": "termination and progress on all inputs, malformed ones included", "anchors": ["pdfreader/parsers/base.py:BasicTypesParser"]}
{"id": "C13", "title": "Malformed input only raises ParserException", "statement": "Whatever bytes are given, a failed parse raises ParserException, so that the recovery code which catches only ParserException can work.", "quantifier": "every byte string", "why_tests_cant": "all truncation points of all inputs", "anchors": ["pdfreader/parsers/base.py:BasicTypesParser", "pdfreader/parsers/document.py:RegistryPDFParser.locate_object"]}
{"id": "C14", "title": "Literal strings: escapes and nested parentheses", "statement": "A literal string built from any sequence of ordinary bytes, escape sequences, octal codes (1-3 digits up to 377), line continuations and balanced parentheses parses to the bytes it denotes and consumes exactly up to its closing parenthesis.", "quantifier": "every string item sequence and every nesting depth", "why_tests_cant": "unbounded", "anchors": ["pdfreader/parsers/base.py:BasicTypesParser.string"]}
{"id": "C15", "title": "Escaping then parsing a string is the identity", "statement": "The string escaping used when writing content back (pdf_escape_string), wrapped in parentheses, parses back to the original string.", "quantifier": "every string", "why_tests_cant": "all contents, including unbalanced parentheses and backslashes", "anchors": ["pdfreader/utils.py:pdf_escape_string", "pdfreader/parsers/base.py:BasicTypesParser.string"]}
{"id": "C16", "title": "Names: #xx escapes decode to any byte", "statement": "Every byte string has a name encoding using regular characters and #xx escapes, and each such encoding parses back to it; parsing stops exactly at the first delimiter or white space.", "quantifier": "every byte string, every choice of which bytes are escaped and of hex digit case", "why_tests_cant": "unbounded", "anchors": ["pdfreader/parsers/base.py:BasicTypesParser.name"]}
{"id": "C17", "title": "Hex strings keep their digits", "statement": "A hexadecimal string with white space interspersed parses to its digits upper-cased, padded with 0 to even length.", "quantifier": "every digit string and white-space layout", "why_tests_cant": "unbounded", "anchors": ["pdfreader/parsers/base.py:BasicTypesParser.hexstring"]}
{"id": "C18", "title": "Numbers parse to their exact value", "statement": "Integers of any size and non-negative decimals of any length parse to their exact mathematical value; negative decimals are exact up to 28 significant digits.", "quantifier": "every sign/digit string", "why_tests_cant": "unbounded digit strings, rounding only shows beyond 28 digits", "anchors": ["pdfreader/parsers/base.py:BasicTypesParser.numeric"]}
{"id": "C19", "title": "Number/reference disambiguation never loses input", "statement": "'n g R' is read as a reference, and when no reference follows, the number alone is consumed and the input after it is left untouched, however long the lookahead was.", "quantifier": "every number and every following input", "why_tests_cant": "lookahead is unbounded (blanks and comments)", "anchors": ["pdfreader/parsers/base.py:BasicTypesParser.numeric_or_indirect_reference"]}
{"id": "C20", "title": "Duplicate dictionary keys: the last value wins, order of first occurrence kept", "statement": "Parsing a dictionary with repeated keys yields for each key its last value.", "quantifier": "every entry sequence", "why_tests_cant": "unbounded entry sequences", "anchors": ["pdfreader/parsers/base.py:BasicTypesParser.dictionary"]}
{"id": "C21", "title": "A stream with a correct Length is read verbatim", "statement": "When Length is right, the stream data is exactly the bytes between the keyword line and endstream, even if these bytes contain 'endstream', 'endobj' or line ends.", "quantifier": "every data and every dictionary with that Length", "why_tests_cant": "any binary content", "anchors": ["pdfreader/parsers/base.py:BasicTypesParser._stream"]}
{"id": "C22", "title": "A stream with a wrong Length is recovered", "statement": "When Length does not lead to endstream the data is everything up to the first endstream keyword minus trailing line ends.", "quantifier": "every data without 'endstream', every wrong Length", "why_tests_cant": "any binary content and any wrong length", "anchors": ["pdfreader/parsers/base.py:BasicTypesParser._stream"]}
{"id": "C23", "title": "Content streams are split into commands in order with their operands", "statement": "A content stream written as a sequence of operand lists and operators is parsed to exactly these commands, in order, whatever separators are used.", "quantifier": "every command sequence, operand nesting, separator layout", "why_tests_cant": "unbounded sequences", "anchors": ["pdfreader/parsers/content.py:ContentParser.objects"]}
{"id": "C24", "title": "Inline images carry their dictionary and data", "statement": "An inline image BI ... ID data EI yields the declared entries and exactly the data bytes.", "quantifier": "every dictionary and all image data", "why_tests_cant": "data is binary and may contain the terminator pattern", "anchors": ["pdfreader/parsers/inlineimage.py:InlineImageParser"]}
{"id": "C25", "title": "The header version is found when it starts in the first 1024 bytes", "statement": "For every leading junk (shorter than the scan window) ending in a line end, or none, the declared version is returned.", "quantifier": "every junk prefix and version", "why_tests_cant": "all prefix lengths against the 22-byte window / 1024-byte limit", "anchors": ["pdfreader/parsers/document.py:PDFParser.pdf_header"]}
{"id": "C26", "title": "The last startxref is used", "statement": "The cross-reference offset used is the number after the last startxref keyword, whatever precedes it.", "quantifier": "every file body", "why_tests_cant": "file content is arbitrary", "anchors": ["pdfreader/parsers/document.py:PDFParser.xref_offset"]}
{"id": "C27", "title": "Cross-reference tables number their entries consecutively", "statement": "Entry i of a subsection starting at n describes object n+i, with the offset, generation and status written, for any number of subsections and entries.", "quantifier": "every list of subsections and entries", "why_tests_cant": "unbounded tables", "anchors": ["pdfreader/parsers/document.py:PDFParser.direct_xref", "pdfreader/types/xref.py:XRef"]}
{"id": "C28", "title": "Cross-reference streams decode field by field", "statement": "Each row of a cross-reference stream yields the entry of its type with the big-endian field values, for every width vector.", "quantifier": "every widths W, Index array and row list", "why_tests_cant": "unbounded widths and rows", "anchors": ["pdfreader/types/xref.py:XRef.from_stream"]}
{"id": "C29", "title": "Revisions are searched newest first", "statement": "An object redefined by incremental updates resolves to the definition of the newest section which lists it.", "quantifier": "every chain of cross-reference sections, every object number", "why_tests_cant": "unbounded revision chains", "anchors": ["pdfreader/parsers/document.py:RegistryPDFParser.locate_object", "pdfreader/types/xref.py"]}
{"id": "C30", "title": "Opening a file terminates", "statement": "Following the Prev chain of trailers terminates for every file.", "quantifier": "every file", "why_tests_cant": "cyclic Prev chains", "anchors": ["pdfreader/parsers/document.py:PDFParser.pdf_trailer"]}
{"id": "C31", "title": "A resolved object never changes", "statement": "Once a reference was resolved, resolving it again at any later time gives the same object, whatever was resolved in between.", "quantifier": "every history of resolutions", "why_tests_cant": "unbounded histories", "anchors": ["pdfreader/registry.py:Registry", "pdfreader/parsers/document.py:RegistryPDFParser.locate_object"]}
{"id": "C32", "title": "Resolution is independent of access order", "statement": "The object a reference resolves to does not depend on which references were resolved before.", "quantifier": "every pair of resolution histories", "why_tests_cant": "order effects need particular histories (brute force / object streams)", "anchors": ["pdfreader/parsers/document.py:RegistryPDFParser.locate_object"]}
{"id": "C33", "title": "Unknown references resolve to null", "statement": "A reference to an object that no section and no body lists resolves to null, and keeps resolving to null.", "quantifier": "every file and every unknown reference", "why_tests_cant": "all files", "anchors": ["pdfreader/parsers/document.py:RegistryPDFParser.locate_object"]}
{"id": "C34", "title": "Object streams yield all their members", "statement": "An object stream listing N (number, offset) pairs yields exactly the N objects with these numbers, generation 0.", "quantifier": "every N, every member list", "why_tests_cant": "unbounded", "anchors": ["pdfreader/parsers/objstm.py:ObjStmParser.objects"]}
{"id": "C35", "title": "CMap ranges map exactly the codes between their bounds", "statement": "A bfrange <lo> <hi> <dst> maps each code lo+i to dst+i and no code outside [lo,hi]; the first defining range wins.", "quantifier": "every range list and every code", "why_tests_cant": "unbounded codes and range lists", "anchors": ["pdfreader/types/cmap.py"]}
{"id": "C36", "title": "ToUnicode decoding is segment-wise", "statement": "If every code of a hex string is mapped as a whole one- or two-byte code, the decoded text is the concatenation of the mapped texts in order.", "quantifier": "every sequence of mapped codes", "why_tests_cant": "unbounded strings; greedy matching can desynchronise", "anchors": ["pdfreader/codecs/decoder.py:CMAPDecoder.decode_hexstring"]}
{"id": "C37", "title": "Single-byte decoding is byte-wise", "statement": "Decoding a string with a simple encoding is the concatenation of the decodings of its bytes; concatenation of strings decodes to concatenation of texts.", "quantifier": "every string and encoding", "why_tests_cant": "unbounded strings", "anchors": ["pdfreader/codecs/decoder.py:EncodingDecoder", "pdfreader/codecs/codec.py"]}
{"id": "C38", "title": "Predefined encodings round-trip", "statement": "For the built-in encodings decoding the encoding of a text gives the text, for all characters except the listed ambiguous ones.", "quantifier": "every text over the encoding's repertoire", "why_tests_cant": "whole tables times unbounded strings", "anchors": ["pdfreader/codecs/codec.py", "pdfreader/codecs/winansi.py", "pdfreader/codecs/standard.py", "pdfreader/codecs/macroman.py", "pdfreader/codecs/pdfdoc.py"]}
{"id": "C39", "title": "Differences override exactly the listed codes", "statement": "A Differences array n name1 name2 ... m ... assigns consecutive codes, later assignments override earlier ones and codes not listed keep the base encoding.", "quantifier": "every differences array and every code", "why_tests_cant": "unbounded arrays", "anchors": ["pdfreader/codecs/differences.py"]}
{"id": "C40", "title": "The named base encoding is the one used", "statement": "A font that declares an encoding name is decoded with that encoding.", "quantifier": "every registered encoding name", "why_tests_cant": "depends on registration order of codec search functions", "anchors": ["pdfreader/codecs/__init__.py", "pdfreader/codecs/decoder.py"]}
{"id": "C41", "title": "The right user or owner password opens the file with the same key", "statement": "For O and U entries produced by the standard algorithms, both the user and the owner password authenticate and yield the same file key.", "quantifier": "every password pair, permissions, id, revision 2-4, every hash function", "why_tests_cant": "all passwords", "anchors": ["pdfreader/securityhandler.py"]}
{"id": "C42", "title": "Only the first 32 bytes of a password matter", "statement": "Two passwords which agree on their first 32 bytes behave alike for revisions 2-4.", "quantifier": "every pair of passwords", "why_tests_cant": "unbounded passwords", "anchors": ["pdfreader/securityhandler.py"]}
{"id": "C43", "title": "RC4 decryption inverts encryption", "statement": "Applying the stream cipher twice with the same key returns the data, and keeps its length.", "quantifier": "every key and data", "why_tests_cant": "unbounded data", "anchors": ["pdfreader/securityhandler.py"]}
{"id": "C44", "title": "AES-CBC decryption inverts encryption", "statement": "For any block cipher, decrypting IV || CBC ciphertext gives the plaintext blocks.", "quantifier": "every block permutation, IV and block sequence", "why_tests_cant": "unbounded", "anchors": ["pdfreader/securityhandler.py"]}
{"id": "C45", "title": "Encrypted strings are delivered decrypted", "statement": "String objects of an encrypted document are delivered decrypted wherever they occur.", "quantifier": "every object nesting", "why_tests_cant": "strings at any depth", "anchors": ["pdfreader/parsers/document.py:RegistryPDFParser", "pdfreader/securityhandler.py"]}
{"id": "C46", "title": "Pages are enumerated in document order", "statement": "Iterating the pages of a document yields the leaves of the page tree from left to right, each exactly once, and the n-th page is the n-th leaf.", "quantifier": "every finite page tree", "why_tests_cant": "unbounded trees", "anchors": ["pdfreader/types/objects.py:PageTreeNode.pages"]}
{"id": "C47", "title": "Lazy dictionary access is cached and coherent", "statement": "Reading a key of a document object always gives the same object, resolved at most once; writing or deleting a key is reflected by later reads.", "quantifier": "every operation sequence", "why_tests_cant": "unbounded operation histories", "anchors": ["pdfreader/types/objects.py:DictBasedObject"]}
{"id": "C48", "title": "Inherited page attributes: the nearest definition wins", "statement": "Resources looked up for a page are taken from the nearest ancestor that defines them.", "quantifier": "every ancestor chain", "why_tests_cant": "unbounded chains", "anchors": ["pdfreader/viewer/resources.py:Resources.from_page"]}
{"id": "C49", "title": "Navigation reaches exactly the requested page or changes nothing", "statement": "navigate(n) moves to page n if it exists and otherwise raises PageDoesNotExist and leaves the viewer unchanged.", "quantifier": "every history of navigation calls and every n", "why_tests_cant": "unbounded histories", "anchors": ["pdfreader/viewer/pdfviewer.py:PDFViewer"]}
{"id": "C50", "title": "Balanced q/Q restore the graphics state", "statement": "After any balanced sequence of operators the graphics state stack is the one before it.", "quantifier": "every balanced operator sequence from every stack", "why_tests_cant": "unbounded nesting", "anchors": ["pdfreader/viewer/graphicsstate.py:GraphicsStateStack"]}
{"id": "C51", "title": "Painting a form leaves the caller's graphics state alone", "statement": "Do on a form XObject restores the caller's graphics state, whatever the form contains.", "quantifier": "every form content", "why_tests_cant": "nested forms, unbalanced operators", "anchors": ["pdfreader/viewer/simple.py:SimplePDFViewer.on_Do"]}
{"id": "C52", "title": "Rendering is idempotent and pages are isolated", "statement": "Rendering twice gives the same canvas as rendering once; rendering one page does not change another's canvas.", "quantifier": "every page sequence and rendering order", "why_tests_cant": "unbounded histories", "anchors": ["pdfreader/viewer/pdfviewer.py", "pdfreader/viewer/simple.py"]}
{"id": "C53", "title": "Extracted strings appear in operator order", "statement": "The text strings of a page are exactly the decoded operands of the text-showing operators, in content order.", "quantifier": "every operator sequence", "why_tests_cant": "unbounded", "anchors": ["pdfreader/viewer/simple.py"]}
{"id": "C54", "title": "Image sample recovery gives the exact buffer size", "statement": "Recovering a short image yields exactly width*height*components samples, keeping the existing ones.", "quantifier": "every image geometry and data", "why_tests_cant": "unbounded", "anchors": ["pdfreader/pillow.py"]}
{"id": "C55", "title": "PDF dates round-trip", "statement": "A PDF date string, with or without its optional fields, parses to the date, time and UTC offset it denotes.", "quantifier": "every field combination", "why_tests_cant": "all field prefixes", "anchors": ["pdfreader/utils.py:from_pdf_datetime"]}
{"id": "C56", "title": "CCITT fax lines keep their width", "statement": "Every line produced by Group 4 decoding has exactly the declared number of columns.", "quantifier": "every bit stream and width", "why_tests_cant": "all code sequences", "anchors": ["pdfreader/filters/ccittfax.py"]}
{"id": "C57", "title": "Literal strings: raw line ends, unknown escapes and octal overflow", "statement": "As ISO 32000-1 7.3.4.2 prescribes, an unescaped CR or CR LF in a literal string reads as LF, the backslash of an unknown escape is ignored, and the high-order overflow of an octal code is dropped.", "quantifier": "every literal string", "why_tests_cant": "all byte contents", "anchors": ["pdfreader/parsers/base.py:BasicTypesParser.string"]}
{"id": "C58", "title": "Iterating over a content stream terminates", "statement": "Reading the commands of a content stream always ends, with at most one item per byte of the stream, whatever the bytes.", "quantifier": "every byte string", "why_tests_cant": "unbounded inputs; a bad input might loop without progress", "anchors": ["pdfreader/parsers/content.py:ContentParser.objects"]}
{"id": "C59", "title": "Objects missing from the cross-reference sections are found by scanning the body", "statement": "A reference which no cross-reference section lists as in use resolves to the first definition of that object in the file body, and to null if the body has none.", "quantifier": "every body (sequence of indirect objects with any separators) and reference", "why_tests_cant": "unbounded bodies", "anchors": ["pdfreader/parsers/document.py:RegistryPDFParser.locate_object", "pdfreader/parsers/document.py:RegistryPDFParser.brute_force"]}
{"id": "C60", "title": "Indirect objects parse with any layout", "statement": "The text n g obj value endobj, with any separators and comments between the tokens, is read as the object with this number, generation and value, and reading stops right after endobj.", "quantifier": "every number, generation, value and layout", "why_tests_cant": "unbounded", "anchors": ["pdfreader/parsers/document.py:PDFParser.indirect_object"]}
{"id": "C61", "title": "ToUnicode destinations are read as UTF-16BE", "statement": "The destination of a bfchar or bfrange row is a UTF-16BE text, and this text is what the code decodes to (in a range, with the last code unit counted up).", "quantifier": "every destination", "why_tests_cant": "all texts, also outside of the BMP", "anchors": ["pdfreader/types/cmap.py:BFChar", "pdfreader/types/cmap.py:MapRange"]}
{"id": "C62", "title": "An unmapped code does not disturb the decoding of others", "statement": "In a string decoded by a ToUnicode CMap, a code without mapping has no influence on the text of the codes before and after it.", "quantifier": "every CMap and string", "why_tests_cant": "all strings", "anchors": ["pdfreader/codecs/decoder.py:CMAPDecoder.decode_hexstring"]}
{"id": "C63", "title": "Decoding by a CMap always gives a text", "statement": "Decoding a literal string by a ToUnicode CMap ends with a text, whatever the bytes, if the fallback encoding decodes every byte.", "quantifier": "every CMap and string", "why_tests_cant": "the loop puts bytes back, so it might not end", "anchors": ["pdfreader/codecs/decoder.py:CMAPDecoder.decode_string"]}
{"id": "C64", "title": "Decoding does not depend on what was decoded before", "statement": "The process-wide cache of glyph texts never changes a result: whatever strings were decoded before, with whichever encodings, a string decodes to the same text.", "quantifier": "every history of decodings, every string", "why_tests_cant": "all histories", "anchors": ["pdfreader/codecs/codec.py:Codec.glyph_name_to_string"]}
{"id": "C65", "title": "ToUnicode takes precedence", "statement": "A font with a ToUnicode CMap decodes mapped codes by it, whatever its Encoding; without ToUnicode and Encoding bytes stand for the characters with the same codes, or WinAnsiEncoding for the standard 14 fonts.", "quantifier": "every font dictionary and string", "why_tests_cant": "all CMaps, encodings and strings", "anchors": ["pdfreader/codecs/decoder.py:Decoder", "pdfreader/codecs/decoder.py:_get_cmap_encoding"]}
{"id": "C66", "title": "The built-in encodings are those of the PDF standard", "statement": "Each byte decodes in WinAnsiEncoding, StandardEncoding, MacRomanEncoding and PDFDocEncoding to the character of ISO 32000-1, Annex D; bytes without a character to the character of the same code.", "quantifier": "every string", "why_tests_cant": "whole tables, unbounded strings", "anchors": ["pdfreader/codecs/winansi.py", "pdfreader/codecs/standard.py", "pdfreader/codecs/macroman.py", "pdfreader/codecs/pdfdoc.py", "pdfreader/codecs/agl.py"]}
{"id": "C67", "title": "Glyph names follow the Adobe rules", "statement": "A glyph name a_b.suffix stands for the text of a followed by that of b; uniXXXX... and uXXXX[X[X]] stand for the characters with these codes; names of the glyph list for the texts given there.", "quantifier": "every glyph name", "why_tests_cant": "unbounded names", "anchors": ["pdfreader/codecs/codec.py:Codec.glyph_name_to_string", "pdfreader/codecs/agl.py", "pdfreader/codecs/zapfdingbatsgl.py"]}
{"id": "C68", "title": "Passwords are taken in PDFDocEncoding", "statement": "For revisions 2-4 a password stands for its bytes in PDFDocEncoding, so that a document protected with an accented password opens with it.", "quantifier": "every password", "why_tests_cant": "unbounded passwords", "anchors": ["pdfreader/securityhandler.py:StandardSecurityHandler.init"]}
{"id": "C69", "title": "A wrong password or an unsupported version is refused", "statement": "If a document opens with a password, then this is the user password or the owner password of the document (up to collisions of the hash); otherwise, and for versions other than 1-5, ValueError is raised.", "quantifier": "every password, encryption dictionary and hash function", "why_tests_cant": "all wrong passwords, not samples", "anchors": ["pdfreader/securityhandler.py"]}
{"id": "C70", "title": "Documents of version 5 open with the user and the owner password", "statement": "For O, U, OE and UE produced by the algorithms for AES-256, the user and the owner password both open the document with the file key, and a password which passes neither check is refused with ValueError.", "quantifier": "every password, salts and file key, every hash function and block cipher", "why_tests_cant": "all passwords and salts", "anchors": ["pdfreader/securityhandler.py:SecurityHandlerV5"]}
{"id": "C71", "title": "AES padding is removed", "statement": "Data encrypted with AES, which are padded to whole blocks before, are delivered without the padding.", "quantifier": "every data", "why_tests_cant": "all lengths", "anchors": ["pdfreader/securityhandler.py:SecurityHandlerV4.decrypt_aes128", "pdfreader/securityhandler.py:SecurityHandlerV5.decrypt_aes256"]}
{"id": "C72", "title": "The file identifier may be written in either string syntax", "statement": "An encrypted document opens alike whether its ID is written as hexadecimal or as literal strings.", "quantifier": "every ID", "why_tests_cant": "all IDs", "anchors": ["pdfreader/securityhandler.py:StandardSecurityHandler.init_params"]}
{"id": "C73", "title": "The encryption dictionary may be direct or indirect", "statement": "A document whose trailer has no Encrypt opens without a password; one with the Standard filter opens by it, whether the dictionary is given directly or by reference; another filter is refused with ValueError.", "quantifier": "every trailer and password", "why_tests_cant": "all trailers", "anchors": ["pdfreader/document.py:PDFDocument.__init__", "pdfreader/document.py:PDFDocument.locate_encrypt_by_ref"]}
{"id": "C74", "title": "What is not encrypted is not decrypted", "statement": "With EncryptMetadata false the metadata stream is delivered as it stands, and so is every stream under the Identity filter.", "quantifier": "every stream and every handler of versions 4 and 5", "why_tests_cant": "all data", "anchors": ["pdfreader/securityhandler.py:SecurityHandlerV4.decrypt"]}
{"id": "C75", "title": "References are transparent", "statement": "Reading an entry of a dictionary object gives the same value whether the file holds the value itself or a reference to it, also inside arrays; a missing entry reads as None.", "quantifier": "every document, dictionary and entry, any nesting of arrays", "why_tests_cant": "unbounded nesting and chains of references", "anchors": ["pdfreader/types/objects.py:DictBasedObject", "pdfreader/document.py:PDFDocument.build"]}
{"id": "C76", "title": "Resolving references terminates", "statement": "Reading an entry of a document object ends, whatever cycles the references of the file form.", "quantifier": "every reference graph", "why_tests_cant": "unbounded cyclic graphs", "anchors": ["pdfreader/document.py:PDFDocument.build", "pdfreader/types/objects.py:ArrayBasedObject"]}
{"id": "C77", "title": "XObjects are recognised by their Subtype", "statement": "A stream XObject is delivered as an image or form according to its Subtype, whether or not it has the optional entry Type.", "quantifier": "every stream dictionary", "why_tests_cant": "all dictionaries", "anchors": ["pdfreader/types/objects.py:obj_factory"]}
{"id": "C78", "title": "Page enumeration terminates", "statement": "Iterating over the pages of a document ends, whatever the nodes of the page tree contain.", "quantifier": "every page tree, also malformed ones", "why_tests_cant": "cyclic graphs", "anchors": ["pdfreader/types/objects.py:PageTreeNode.pages"]}
{"id": "C79", "title": "Stream data are decoded by the filters of the dictionary", "statement": "The decoded data of a stream are its bytes decoded by the filters of its dictionary, one after the other and each with its own parameters, whether Filter and DecodeParms are given directly or by reference.", "quantifier": "every stream dictionary and data", "why_tests_cant": "all dictionaries and data", "anchors": ["pdfreader/types/native.py:Stream.filtered", "pdfreader/types/native.py:apply_filter_multi"]}
{"id": "C80", "title": "A canvas holds what its page paints", "statement": "After rendering a page, the images and forms of the canvas are exactly the image and form XObjects of the page's resources which its content paints with Do, by name.", "quantifier": "every content and resources", "why_tests_cant": "unbounded content", "anchors": ["pdfreader/viewer/simple.py:SimplePDFViewer", "pdfreader/viewer/pdfviewer.py:PDFViewer"]}
{"id": "C81", "title": "Iterating over a viewer visits every page once", "statement": "Iterating over a viewer yields one canvas for the current page and for each page after it, in order, each being the canvas of its page rendered alone, and then stops.", "quantifier": "every document and every current page", "why_tests_cant": "any number of pages", "anchors": ["pdfreader/viewer/pdfviewer.py:CanvasIterator"]}
{"id": "C82", "title": "Group 4 fax data decode to the pixels of the image", "statement": "Data encoded by CCITT Group 4 (K = -1) - in any choice of modes and codes the standard allows, with or without EncodedByteAlign and the end-of-block code - decode to the rows of pixels of the image, a one bit for a black pixel if BlackIs1 and a zero bit otherwise.", "quantifier": "every image of any width and height, every legal encoding of it", "why_tests_cant": "unbounded images, many encodings of each", "anchors": ["pdfreader/filters/ccittfax.py:CCITTG4Parser", "pdfreader/filters/ccittfax.py:ccittfaxdecode"]}
{"id": "C83", "title": "Fax parameters have their default values", "statement": "CCITT data decode by the standard whatever K is, and Columns, if missing, is 1728.", "quantifier": "every data and parameter dictionary", "why_tests_cant": "all data", "anchors": ["pdfreader/filters/ccittfax.py:ccittfaxdecode"]}
{"id": "C84", "title": "Complete images reach Pillow unchanged", "statement": "An image whose decoded data are complete is given to Pillow with exactly these data, its width and height, and the mode of its colour space; a DCT or JPX image is given as the encoded file.", "quantifier": "every image XObject and inline image", "why_tests_cant": "all sizes, data and colour spaces", "anchors": ["pdfreader/pillow.py:PILImageMixin"]}
{"id": "C85", "title": "Bilevel images keep their pixels", "statement": "A fax image or stencil mask becomes a bilevel picture whose pixels are the bits of its data, inverted if Decode is [1 0].", "quantifier": "every image mask and fax image", "why_tests_cant": "all sizes and data", "anchors": ["pdfreader/pillow.py:PILImageMixin"]}
{"id": "C86", "title": "Decoded values are the samples of the image", "statement": "The decoded values of an image are its samples, row by row, each of BitsPerComponent bits.", "quantifier": "every image, BitsPerComponent and Decode array", "why_tests_cant": "all sizes and data", "anchors": ["pdfreader/pillow.py:PILImageMixin"]}
{"id": "C87", "title": "Metadata deliver the texts and dates of the Info dictionary", "statement": "The metadata of a document are the entries of its Info dictionary, text strings as text and dates as points in time; without an Info dictionary there are none.", "quantifier": "every Info dictionary", "why_tests_cant": "all texts, dates and encodings", "anchors": ["pdfreader/document.py:PDFDocument.metadata", "pdfreader/utils.py:from_pdf_datetime"]}
{"id": "C88", "title": "Metadata are stable and total", "statement": "Asking for the metadata never fails on account of the entries of the Info dictionary, keeps all keys, and asking again gives the same answer.", "quantifier": "every Info dictionary", "why_tests_cant": "all histories of calls and all values", "anchors": ["pdfreader/document.py:PDFDocument.metadata"]}
{"id": "C89", "title": "A well-formed file opens", "statement": "Opening a file which has a header, cross-reference sections - tables or streams, linked by Prev - and a trailer succeeds, and the trailer of the document is that of the newest section.", "quantifier": "every well-formed unencrypted file, any number of revisions", "why_tests_cant": "unbounded files and chains of sections", "anchors": ["pdfreader/document.py:PDFDocument.__init__", "pdfreader/document.py:PDFParser", "pdfreader/registry.py:Registry"]}
{"id": "C90", "title": "An opened file delivers its current objects", "statement": "After a file is opened, asking for an object gives the value of its newest definition, whatever objects were asked for before.", "quantifier": "every well-formed file, every history of requests", "why_tests_cant": "unbounded histories, files and revisions", "anchors": ["pdfreader/document.py:PDFDocument.locate_object", "pdfreader/document.py:PDFParser"]}
{"id": "C91", "title": "The pages of a file are the leaves of its page tree", "statement": "Opening a file and listing its pages gives the leaves of the page tree which its newest trailer leads to, in order, each from the newest revision.", "quantifier": "every well-formed file and page tree", "why_tests_cant": "unbounded trees and revisions", "anchors": ["pdfreader/document.py:PDFDocument.pages", "pdfreader/types/objects.py:PageTreeNode.pages"]}
{"id": "C92", "title": "Inherited resources of the pages of a file", "statement": "A resource of a page of an opened file is that of the nearest node, from the page upwards, which has it.", "quantifier": "every well-formed file, page and category", "why_tests_cant": "unbounded trees", "anchors": ["pdfreader/types/objects.py:Page", "pdfreader/document.py:PDFDocument.pages"]}
{"id": "C93", "title": "What is written is read back", "statement": "A file written by the rules of the standard - any revisions, each with a body, a table and a trailer - opens, and every object asked for is the one written last under its number.", "quantifier": "every list of revisions, all objects and all histories of requests", "why_tests_cant": "all files a writer produces", "anchors": ["pdfreader/document.py:PDFDocument", "pdfreader/document.py:PDFParser"]}
{"id": "C94", "title": "What is written compressed is read back", "statement": "A file written with some of its objects in an object stream and with a cross-reference stream, both encoded by filters, opens; every object asked for, compressed or not, is the one written, and its pages are the leaves of its page tree.", "quantifier": "every set of objects, every split between object stream and body, every encoder the filters undo, all histories of requests", "why_tests_cant": "all files a writer produces", "anchors": ["pdfreader/document.py:PDFDocument", "pdfreader/document.py:PDFParser", "pdfreader/registry.py:Registry"]}
{"id": "C95", "title": "From the bytes of a file to the strings shown", "statement": "Opening a file in the viewer and iterating over its pages gives, in the order of the page tree, the strings which the content of each page shows, decoded by the fonts found among its own and inherited resources; going to a page by its number and rendering gives the strings of this page, after any calls which returned.", "quantifier": "every well-formed unencrypted file, its page tree, inherited resources, fonts, forms and content streams, and every history of viewer calls", "why_tests_cant": "unbounded files, trees, contents and histories", "anchors": ["pdfreader/viewer/pdfviewer.py:PDFViewer", "pdfreader/viewer/simple.py:SimplePDFViewer", "pdfreader/document.py:PDFDocument"]}
{"id": "C96", "title": "Texts written into a file are the texts shown", "statement": "Any texts, written as the lines of any number of pages - with a cross-reference table or with an object stream and a cross-reference stream, under any encoding of streams the filters undo - are exactly the strings which the viewer shows, page by page.", "quantifier": "all lists of pages of lines of bytes in WinAnsiEncoding, all encoders", "why_tests_cant": "all texts, all numbers of pages", "anchors": ["pdfreader/viewer/simple.py:SimplePDFViewer", "pdfreader/document.py:PDFDocument", "pdfreader/codecs/decoder.py:Decoder"]}
{"id": "C97", "title": "Encrypted documents open with their password, and only with it", "statement": "An encrypted file - RC4, AES-128, AES-256 or Identity for streams, versions 1 to 5 of the standard security handler - opens with its user or owner password; every object asked for is delivered, streams decrypted, whatever was asked for before; the pages come in order and the viewer shows their strings. With any other password ValueError is raised.", "quantifier": "all files whose sections and objects are laid out as specified, all encryption dictionaries, passwords, histories of requests", "why_tests_cant": "all files, all passwords, all histories", "anchors": ["pdfreader/document.py:PDFDocument", "pdfreader/parsers/document.py:RegistryPDFParser.decrypt_indirect_object_if_necessary", "pdfreader/securityhandler.py:StandardSecurityHandler"]}
{"id": "C98", "title": "What was written encrypted is read back with the password", "statement": "Any sequence of revisions, written with every stream encrypted, is read back with the user or the owner password: every object is the newest one written; texts written into the pages are the texts shown. Without the password nothing is read.", "quantifier": "all sequences of revisions, all texts, methods, keys, initialization vectors, passwords", "why_tests_cant": "all documents, all keys, all passwords", "anchors": ["pdfreader/document.py:PDFDocument", "pdfreader/securityhandler.py:StandardSecurityHandler", "pdfreader/viewer/simple.py:SimplePDFViewer"]}
{"id": "C99", "title": "An encryption dictionary which is not listed is found before the newest section", "statement": "A file whose encryption dictionary is listed by no cross-reference section (but written in the body before the newest section, after another object, its header spelled with single spaces) opens with its user or owner password like any other encrypted file: every object is delivered, streams decrypted, the pages come in order and the viewer shows their strings.", "quantifier": "all files laid out as specified with an unlisted encryption dictionary, any number of objects and sections between it and the newest section, all passwords, histories of requests", "why_tests_cant": "all files, positions of the dictionary and histories", "anchors": ["pdfreader/parsers/document.py:RegistryPDFParser.locate_backwards_from_trailer", "pdfreader/document.py:PDFDocument.locate_encrypt_by_ref"]}
{"id": "C100", "title": "Resolving any reference in any file terminates", "statement": "Whatever the bytes of an opened file and whatever was asked for before, asking for any object number and generation ends: it delivers an object (null if there is none) or raises an exception.", "quantifier": "all byte strings as files, all states of the registry and of the scan, all object numbers and generations", "why_tests_cant": "termination on every input: no finite number of runs shows it", "anchors": ["pdfreader/parsers/document.py:RegistryPDFParser.locate_object", "pdfreader/parsers/document.py:RegistryPDFParser.next_brute_force_object", "pdfreader/parsers/document.py:RegistryPDFParser._stream", "pdfreader/registry.py:Registry.register"]}
{"id": "C101", "title": "Objects which no section lists are found by scanning, also streams whose Length stands right behind them", "statement": "In a file whose body is a sequence of objects, each defined once, every reference resolves to the object which the body defines and to null if there is none, whether or not a section lists it and whatever was resolved before. The Length of a stream may be direct, an object which a section lists, or the object right behind the stream, listed or not.", "quantifier": "all files laid out as specified, all choices of which objects the sections list, all histories of requests", "why_tests_cant": "all files, all partial cross-reference sections, all orders of requests (the scan is left at another place by each)", "anchors": ["pdfreader/parsers/document.py:RegistryPDFParser.next_brute_force_object", "pdfreader/parsers/document.py:RegistryPDFParser.skip_until_next_indirect_object", "pdfreader/parsers/document.py:RegistryPDFParser.locate_object"]}
{"id": "C102", "title": "Building with lazy=False resolves every reference at any depth, and ends", "statement": "build(obj, lazy=False) ends and returns the object with every reference in it, at any depth - in arrays, dictionaries and the dictionaries of streams - replaced by the object it refers to; a reference back to an object which is being built is left as it is, so that objects which contain themselves do not make it run forever.", "quantifier": "all objects, all graphs of references between them, all states of the parser", "why_tests_cant": "all graphs of references, cyclic or not, of any depth", "anchors": ["pdfreader/document.py:PDFDocument.build", "pdfreader/types/objects.py:DictBasedObject.items", "pdfreader/types/objects.py:obj_factory"]}
{"id": "C103", "title": "text_content of a canvas is a content with the same commands", "statement": "After rendering, parsing the text_content of the canvas gives the same operators in the same order with the same operands, where the strings of text-showing operators are the decoded texts; rendering it again without fonts shows the same strings.", "quantifier": "all contents, all operands, all fonts and decoders, all encodings of the text in bytes which extend ASCII", "why_tests_cant": "The operands are of unbounded depth and number, and the decoded text may contain any character, in particular those which must be escaped.", "anchors": ["pdfreader/viewer/simple.py:object_to_string", "pdfreader/viewer/simple.py:TextOperatorsMixin", "pdfreader/utils.py:pdf_escape_string", "pdfreader/parsers/content.py:ContentParser"]}
{"id": "C104", "title": "The content of a page in several streams is that of all of them, whole tokens in each", "statement": "A page whose Contents is an array of streams, divided between tokens, is rendered as if the streams were one with white space between them: the commands of the first, then those of the next; operands at the end of one stream belong to the operator in the next.", "quantifier": "all numbers of streams, all divisions of a content between tokens, all histories of the viewer", "why_tests_cant": "all contents and all places to divide them", "anchors": ["pdfreader/viewer/pdfviewer.py:PDFViewer.after_navigate", "pdfreader/parsers/content.py:ContentParser"]}
{"id": "C105", "title": "Commands which the viewer does not interpret change nothing but text_content", "statement": "If two contents differ only in commands whose operators the viewer does not interpret - paths, colours, text positions, marked content points, words of no meaning - then rendering them has the same outcome, and strings, images, forms, inline images, graphics states and open brackets are the same.", "quantifier": "all contents, all places and numbers of such commands, all words as operators, all operands", "why_tests_cant": "operators are dispatched by constructing method names from words of the file: any word can clash", "anchors": ["pdfreader/viewer/pdfviewer.py:ContextualViewer.notify", "pdfreader/viewer/pdfviewer.py:ContextualViewer.get_handler_name", "pdfreader/viewer/simple.py:TextOperatorsMixin"]}
{"id": "C106", "title": "From the bytes of a file to the images painted", "statement": "Opening a well-formed file in the viewer and iterating over it gives for each page, in order, a canvas with the image XObjects (with data) which the content of the page paints, no others, under their names and as the nearest resources define them, its inline images, and a canvas with the strings of the form for each form painted. Whatever was asked before, to_Pillow() of such an image hands over width, height and data: the pixels of a complete 8-bit image in DeviceRGB or DeviceCMYK, a palette with the indices, a mask of one bit, or the encoded file of a DCT or JPX image, with indirect attributes resolved. In particular a document written with any images gives back their pixels.", "quantifier": "all files laid out as specified, all page trees, inherited resources and contents, all images and encoders the filters undo, all histories of requests", "why_tests_cant": "the composition of cross-references, page tree, resources, content and image attributes ranges over all files", "anchors": ["pdfreader/viewer/simple.py:SimplePDFViewer.on_Do", "pdfreader/pillow.py:PILImageMixin.to_Pillow", "pdfreader/types/objects.py:StreamBasedObject", "pdfreader/types/objects.py:Image"]}
{"id": "C107", "title": "Paths of accesses lead where the objects of the file say", "statement": "In an opened document a path of attribute accesses, keys and indices, such as doc.root.Pages.Kids[0].MediaBox[2], from the catalog or any object, leads to the value which the objects of the file have there, with references resolved on the way, also inside arrays; a missing attribute is None, an attribute of None or of a number is an AttributeError, a missing key a KeyError, an index out of range an IndexError. It does not matter what was accessed before.", "quantifier": "every well-formed file, every path of any length, every history of requests", "why_tests_cant": "unbounded paths through cyclic graphs of objects", "anchors": ["pdfreader/types/objects.py:DictBasedObject", "pdfreader/types/objects.py:ArrayBasedObject", "pdfreader/types/objects.py:StreamBasedObject", "pdfreader/document.py:PDFDocument.build"]}
{"id": "C108", "title": "Inheritable attributes of pages", "statement": "The attributes MediaBox, CropBox and Rotate of a page which has none of its own are those of the nearest of its ancestors which has them.", "quantifier": "every well-formed file, page and attribute, any depth of the tree", "why_tests_cant": "unbounded depth of the tree", "anchors": ["pdfreader/types/objects.py:Page", "pdfreader/types/objects.py:DictBasedObject"]}
{"id": "C109", "title": "Keys and attributes give the same", "statement": "obj[k] gives the same value as obj.k for every entry of a dictionary or stream of the document.", "quantifier": "every document, object, key and history of requests", "why_tests_cant": "ranges over all objects of all files", "anchors": ["pdfreader/types/objects.py:DictBasedObject.__getitem__", "pdfreader/types/native.py:Stream.__getitem__", "pdfreader/types/objects.py:StreamBasedObject.__getattr__"]}
{"id": "C110", "title": "A document is the same from disk as from memory", "statement": "Opening a file on disk gives the same document and viewer as opening the same bytes in memory.", "quantifier": "all files", "why_tests_cant": "ranges over all files", "anchors": ["pdfreader/parsers/document.py:PDFParser.seek_eof", "pdfreader/document.py:PDFDocument"]}
{"id": "C111", "title": "Data of inline images are kept in the text of a page", "statement": "After a page is rendered, the text of the canvas (text_content) has every inline image of the page's content, between the words BI, ID and EI, with its data: as they are when the first filter of the image is ASCIIHex or ASCII85, and otherwise spelled in base 85, five letters for four bytes, with the letters of RFC 1924 and the mark ~> behind; giving this spelling the letters of ASCII85 and decoding it gives the data back.", "quantifier": "every content with an inline image whose filters are names, every place of the image in it, every data of any length, every page that is rendered without an exception", "why_tests_cant": "data of every length (the last group has one to three bytes) and every place in the content; tests show a few images", "anchors": ["pdfreader/viewer/canvas.py", "pdfreader/utils.py", "pdfreader/viewer/simple.py", "pdfreader/types/content.py:InlineImage"]}
{"id": "C112", "title": "The graphics state has the parameters which the content has set", "statement": "At every moment of rendering a page, viewer.gss.state has for each parameter of the graphics state (CTM, line width, cap, join, miter limit, dash, intent, flatness, font, text state) the value given by the last command or graphics state dictionary in force: the operators w, J, j, M, d, ri, i, Tf, Tc, Tw, Tz, TL, Tr, Ts set theirs, cm concatenates its matrix, gs sets all that its dictionary has, q and Q save and restore, and everything else changes nothing.", "quantifier": "every content in which a Q has its q, every parameter, every nesting, every host of resources with balanced forms, every moment", "why_tests_cant": "histories of commands of any length and nesting; tests look at single commands", "anchors": ["pdfreader/viewer/pdfviewer.py:ContextualViewer", "pdfreader/viewer/graphicsstate.py:GraphicsState.update", "pdfreader/viewer/graphicsstate.py:GraphicsStateStack", "pdfreader/viewer/simple.py:TextOperatorsMixin.on_Tf"]}
{"id": "C113", "title": "A page that cannot be shown costs none of the pages before it", "statement": "Iterating over a viewer gives the canvas of every page before the first one that cannot be shown, whole and in order; then the exception of that page is raised to the caller, not swallowed; the viewer is on that page, and its canvas has what was painted until the failure.", "quantifier": "every document, every number of good pages before the bad one, every exception of a page, every history of calls before the iteration", "why_tests_cant": "all lengths and all places of a failure in any history", "anchors": ["pdfreader/viewer/pdfviewer.py:CanvasIterator.__next__", "pdfreader/viewer/pdfviewer.py:PDFViewer.navigate", "pdfreader/viewer/simple.py:SimplePDFViewer.render"]}
{"id": "C114", "title": "Documents on the same file object do not disturb each other", "statement": "Any number of documents and viewers may be open on one file object, and the application may seek in it and read from it between their calls: each document reads what it would read if it had the file object for itself.", "quantifier": "every file, every number of documents, every program using each of them (choosing its calls by what it has seen), every interleaving of their calls and of moves of the file position", "why_tests_cant": "all interleavings of all call sequences", "anchors": ["pdfreader/buffer.py:Buffer", "pdfreader/buffer.py:Buffer.reset", "pdfreader/buffer.py:Buffer.set_state", "pdfreader/document.py:PDFDocument.__init__"]}
{"id": "C115", "title": "Documents on the same file object may be used from several threads", "statement": "Two documents opened on the same file object can be used at the same time from two threads, and each reads what it would read alone.", "quantifier": "every file, every pair of operations, every interleaving of their calls to the file object", "why_tests_cant": "all interleavings of the calls inside of an operation", "anchors": ["pdfreader/buffer.py:Buffer._read_head", "pdfreader/buffer.py:Buffer._read_forward"]}
{"id": "C116", "title": "Iterators over the pages do not disturb each other", "statement": "doc.pages() may be called any number of times, the iterators may be advanced in any order, and objects of the document may be resolved in between: each iterator gives the pages of the tree in order, and then ends.", "quantifier": "every document whose page tree is well formed, every number of iterators, every interleaving of their steps and of other uses of the document", "why_tests_cant": "all interleavings", "anchors": ["pdfreader/document.py:PDFDocument.pages", "pdfreader/types/objects.py:PageTreeNode.pages"]}
{"id": "C117", "title": "viewer.iter_pages gives the pages in order", "statement": "next() on the iterator of viewer.iter_pages() gives the pages from the viewer's current page on, in order, each once, and then ends; whatever other iterators exist and whatever is done with the viewer in between.", "quantifier": "every document, every state a viewer can reach, every interleaving of iterators, renderings and moves", "why_tests_cant": "all histories and interleavings", "anchors": ["pdfreader/viewer/pdfviewer.py:PagesIterator.__next__", "pdfreader/viewer/pdfviewer.py:PDFViewer.iter_pages", "pdfreader/viewer/pdfviewer.py:PDFViewer.current_page"]}
{"id": "C118", "title": "The newest value of an object counts, also in files with cross-reference streams", "statement": "When a document with object streams and cross-reference streams was updated incrementally, every object asked for has the value of the newest update which defines it, wherever the old and the new value are written, and whatever was asked for before.", "quantifier": "every document, every number of updates, every history of requests", "why_tests_cant": "all documents, updates and histories", "anchors": ["pdfreader/parsers/document.py:RegistryPDFParser.locate_object", "pdfreader/parsers/document.py:RegistryPDFParser.locate_object_by_xref", "pdfreader/registry.py:Registry.register", "pdfreader/types/xref.py:XRef.from_stream"]}
{"id": "C119", "title": "Facsimile images of a document have their pixels", "statement": "The decoded data of a stream with the filter CCITTFaxDecode are the pixels which the data encode by the parameters in the dictionary; and to_Pillow() of such an image of a document, encrypted or not, gives Pillow its size and these pixels, whatever was asked for before.", "quantifier": "every document, every image size, every row pattern and encoding of it, both polarities and alignments, every history of requests", "why_tests_cant": "all documents, images, encodings and histories", "anchors": ["pdfreader/filters/ccittfax.py:ccittfaxdecode", "pdfreader/filters/__init__.py:apply_filter", "pdfreader/types/native.py:Stream.filtered", "pdfreader/pillow.py:PILImageMixin.to_Pillow"]}
{"id": "C120", "title": "Damaged data of a stream are not an error", "statement": "Decoding the data of a stream raises no exception because of the data: what cannot be decoded is skipped, and the stream is empty.", "quantifier": "every stream dictionary with supported filters, in any number and order, and all data", "why_tests_cant": "all filter chains and all data", "anchors": ["pdfreader/filters/flate.py:decode", "pdfreader/filters/lzw.py:decode", "pdfreader/filters/ascii85.py:decode", "pdfreader/filters/asciihex.py:decode", "pdfreader/filters/runlength.py:decode", "pdfreader/types/native.py:Stream.filtered"]}
{"id": "C121", "title": "What was shown before a failure in a page's content is kept", "statement": "If rendering a page raises an exception, the canvas of the viewer has the strings, inline images, images and forms of the commands before the one which failed.", "quantifier": "every content: any commands which can be painted, followed by any bytes", "why_tests_cant": "all bytes after the good commands, all histories of the viewer", "anchors": ["pdfreader/viewer/pdfviewer.py:ContextualViewer.render", "pdfreader/viewer/simple.py:SimplePDFViewer.render", "pdfreader/parsers/viewer.py:Parser.operators"]}
{"id": "C122", "title": "Procedure sets of a page include those of its ancestors", "statement": "The procedure sets of the resources of a page are the names in the ProcSet of the page and of all its ancestors, and the named resources are the nearest ones.", "quantifier": "every document, page and chain of ancestors in which a category is always an array or always a dictionary", "why_tests_cant": "unbounded depth of the page tree, all histories of the document", "anchors": ["pdfreader/viewer/resources.py:Resources.from_page"]}
{"id": "C123", "title": "Only pages are enumerated as pages", "statement": "Every object which pages() yields is a dictionary whose Type is Page, whatever the file contains, also if the iteration fails later.", "quantifier": "every file which can be opened, every page tree, well-formed or not", "why_tests_cant": "all files, also malformed ones", "anchors": ["pdfreader/types/objects.py:PageTreeNode.pages", "pdfreader/document.py:PDFDocument.pages", "pdfreader/types/objects.py:obj_factory"]}
{"id": "C124", "title": "The root of a document is what its trailer refers to", "statement": "A file is opened only if the Root of its trailer is a reference, and the root of the document is the object which is found there; otherwise opening raises KeyError or AttributeError.", "quantifier": "every file, encrypted or not", "why_tests_cant": "all files", "anchors": ["pdfreader/document.py:PDFDocument.__init__", "pdfreader/types/filestructure.py:Trailer.root"]}
{"id": "C125", "title": "The Type of an object may be in another object", "statement": "A dictionary or stream is read as an object of its Type whether the Type is given as a name or as a reference to one.", "quantifier": "every document and object", "why_tests_cant": "all objects and documents", "anchors": ["pdfreader/types/objects.py:obj_factory"]}
{"id": "C126", "title": "Abbreviated keys of inline images are read as the full ones", "statement": "An attribute of an inline image is the value which its dictionary has under the full name or the abbreviation, and None if it has neither.", "quantifier": "every dictionary of an inline image, every key which has an abbreviation, every value", "why_tests_cant": "all dictionaries and values", "anchors": ["pdfreader/types/content.py:InlineImage"]}
{"id": "C127", "title": "The data of an inline image are decoded as those of a stream", "statement": "The decoded data of an inline image, whatever keys and filter names are abbreviated, are those of a stream of the file with the same encoded data, the full names of the filters and the same parameters; both fail alike.", "quantifier": "every inline image, every chain of filters and parameters", "why_tests_cant": "unbounded chains of filters, all data", "anchors": ["pdfreader/types/content.py:InlineImage.filtered", "pdfreader/types/native.py:apply_filter_multi"]}
{"id": "C128", "title": "An inline image becomes the Pillow image of its samples", "statement": "to_Pillow of an inline image on the canvas gives an image of its size with its decoded samples, in the mode of its colour space.", "quantifier": "every document, page and content, every inline image in it, every history of the viewer without a failure", "why_tests_cant": "all images, contents and histories", "anchors": ["pdfreader/pillow.py:PILImageMixin.to_Pillow", "pdfreader/types/content.py:InlineImage", "pdfreader/viewer/canvas.py"]}
{"id": "C129", "title": "The metadata of a file are those of its Info dictionary", "statement": "In a document which was opened, metadata are the texts and dates of the dictionary which the trailer of the newest revision gives as Info, whatever objects were resolved before; without Info they are None.", "quantifier": "every file with any number of revisions, every Info dictionary, every history of resolved objects", "why_tests_cant": "all files, revisions and histories", "anchors": ["pdfreader/document.py:PDFDocument.metadata", "pdfreader/types/filestructure.py:Trailer.info", "pdfreader/parsers/document.py:RegistryPDFParser.locate_object"]}
{"id": "C130", "title": "The permissions of an encrypted document are the bits of P", "statement": "is_printable, is_modifiable and is_extractable tell the bits 3, 4 and 5 of P, which may be written as a signed or an unsigned number of 32 bits.", "quantifier": "every encryption dictionary and password, every value of P", "why_tests_cant": "all values of P, all passwords and hash functions", "anchors": ["pdfreader/securityhandler.py:StandardSecurityHandler.is_printable", "pdfreader/securityhandler.py:StandardSecurityHandler.init_params"]}
{"id": "C131", "title": "What a document gives does not depend on how the file is laid out", "statement": "Two files whose catalogs and objects are equal, and whose objects refer to each other only, cannot be told apart: any sequence of accesses, listings of pages and resources gives equal values and equal exceptions, and any sequence of calls of a viewer ends in the same way on the same page with the same canvas, however the objects are ordered, spread over revisions, compressed or encrypted.", "quantifier": "every two files with the same objects, every sequence of accesses and calls, well-formed or not", "why_tests_cant": "all pairs of files and all histories on both", "anchors": ["pdfreader/document.py:PDFDocument.build", "pdfreader/types/objects.py:obj_factory", "pdfreader/types/objects.py:PageTreeNode.pages", "pdfreader/viewer/resources.py:Resources.from_page", "pdfreader/viewer/pdfviewer.py:PDFViewer.navigate", "pdfreader/viewer/simple.py:SimplePDFViewer.render"]}
{"id": "C132", "title": "A character map lists exactly its codes", "statement": "The list of the codes of a CMap's codespace is increasing, has no repetitions and consists of the codes which lie in one of its ranges; membership agrees with the list and max is the largest upper bound. The list and the dictionary of a mapping contain exactly the codes which can be looked up, with what the lookup gives.", "quantifier": "every well-formed CMap, every kind of mapping, every code", "why_tests_cant": "codes, ranges and their overlaps are unbounded", "anchors": ["pdfreader/types/cmap.py:CodespaceRanges.as_list", "pdfreader/types/cmap.py:CodespaceRanges.max", "pdfreader/types/cmap.py:CodespaceRanges.__contains__", "pdfreader/types/cmap.py:MappedCodespaceRanges.as_dict", "pdfreader/types/cmap.py:Range.__iter__", "pdfreader/types/cmap.py:BFChar"]}
{"id": "C133", "title": "A character map is read whole or refused", "statement": "A CMap is read if and only if all its rows are proper (the bounds of a range have the same length and are in order, an array has a destination for each code of its range); otherwise reading raises AssertionError, ValueError or IndexError and never gives a map with some of the rows.", "quantifier": "every CMap text with blocks and rows of any number and kind", "why_tests_cant": "rows, their order and the place of the bad one are unbounded", "anchors": ["pdfreader/parsers/cmap.py:CMapParser.cmap", "pdfreader/parsers/cmap.py:CMapParser.mapped_codespacerange", "pdfreader/parsers/cmap.py:CMapParser.codespacerange", "pdfreader/types/cmap.py:Range"]}
{"id": "C134", "title": "An interrupted update is seen whole or not at all", "statement": "If writing a sequence of revisions is interrupted after any number of bytes (none of the streams written has %%EOF in its data), the file reads as after the last revision that was finished, trailer entries and values of all objects, whatever is asked for in between; or opening it raises ParserException, TypeError or OSError. It never reads as a mixture of revisions. More generally, bytes after a complete file which do not finish an update do not change what is read.", "quantifier": "every sequence of revisions, every crash point (number of bytes written), every history of reads; every complete file and every bytes after it", "why_tests_cant": "crash points and histories are unbounded", "anchors": ["pdfreader/parsers/document.py:PDFParser.seek_eof", "pdfreader/parsers/document.py:PDFParser.xref_offset", "pdfreader/parsers/document.py:RegistryPDFParser.locate_object", "pdfreader/parsers/document.py:PDFParser.pdf_header"]}
{"id": "C135", "title": "An interrupted update leaves the document readable", "statement": "When writing an update is interrupted at any byte, the document still opens and reads as before the update.", "quantifier": "every sequence of revisions and every crash point after the first of them", "why_tests_cant": "crash points and sizes of updates are unbounded", "anchors": ["pdfreader/parsers/document.py:PDFParser.seek_eof", "pdfreader/parsers/document.py:PDFParser.xref_offset"]}
{"id": "C136", "title": "Handlers of a viewer are called in the documented order", "statement": "Whatever the handlers of a viewer class do (as long as they do not rename operators), rendering calls, for each object of the content stream in order, before_handler, then those of before_<name>, on_<name>, after_<name> that the class has (name after applying operators_aliases; inline_image for inline images), then after_handler, and nothing else. If a handler raises, the objects before it were handled completely, its object up to this handler, later objects not at all, and render raises the exception.", "quantifier": "every viewer class with any handlers, every sequence of content objects, every state", "why_tests_cant": "handlers, their states and content streams are unbounded", "anchors": ["pdfreader/viewer/pdfviewer.py:ContextualViewer.notify", "pdfreader/viewer/pdfviewer.py:ContextualViewer.get_handler_name", "pdfreader/viewer/pdfviewer.py:ContextualViewer.render"]}
{"id": "C137", "title": "Subclassing SimplePDFViewer to watch its handlers does not change what is rendered", "statement": "A subclass of SimplePDFViewer whose handlers note that they were called and then call those of the superclass, with any further handlers that only take notes, renders every content stream to the same canvas and graphics state as SimplePDFViewer, raising the same exceptions; and its notes are the handlers of the objects of the stream in the documented order.", "quantifier": "every content stream, resources, fonts, state of the viewer, and set of further handlers", "why_tests_cant": "content streams and states are unbounded", "anchors": ["pdfreader/viewer/simple.py:SimplePDFViewer", "pdfreader/viewer/simple.py:TextOperatorsMixin", "pdfreader/viewer/pdfviewer.py:ContextualViewer.notify"]}
{"id": "C138", "title": "Changing canvases one has got does not change what is rendered later", "statement": "After any history of navigating, rendering, iterating, taking canvases from the viewer or its iterators and changing their strings, texts, images and set of forms in any way (only the viewer's own canvas is left alone between navigating to a page and rendering it; the canvases of forms inside a canvas are not changed), rendering a page and iterating give the canvases of the pages rendered alone. Conversely canvases which are not the viewer's own keep what the user put there.", "quantifier": "every document, every history of calls which returned and of changes of canvases", "why_tests_cant": "histories and contents are unbounded", "anchors": ["pdfreader/viewer/canvas.py:SimpleCanvas", "pdfreader/viewer/simple.py:SimplePDFViewer.render", "pdfreader/viewer/pdfviewer.py:CanvasIterator"]}
{"id": "C139", "title": "Damage to some objects does not affect the others", "statement": "If in a file written as a sequence of revisions some objects (and any of those which a later revision replaces) have been overwritten by other bytes, any but as many, the file still opens with the entries of its trailer, every object which was not overwritten is read back with its newest value whatever was read before, and if catalog, page tree and pages are not overwritten, its pages are those of the tree.", "quantifier": "every sequence of revisions, every set of overwritten objects, all bytes they are overwritten with, every history of reading", "why_tests_cant": "files, damages and histories are unbounded", "anchors": ["pdfreader/parsers/document.py:PDFParser", "pdfreader/document.py:PDFDocument.pages"]}
{"id": "C140", "title": "Texts in any script are the texts shown, by their ToUnicode maps", "statement": "For all tables of two-byte codes with their texts (one or more characters of the Basic Multilingual Plane each), all pages with lines of such codes and any encoding of streams which the filters undo: in the file written with these pages and a font with a ToUnicode CMap for the table, iterating over the viewer gives for each page, in order, the texts of its lines, and after any calls which returned going to a page and rendering it gives its texts. In particular every list of pages of lines of characters of the Basic Multilingual Plane can be written such that exactly these lines are shown.", "quantifier": "every table, all pages, lines and characters, every history of calls", "why_tests_cant": "tables, pages, lines and histories are unbounded", "anchors": ["pdfreader/codecs/decoder.py:CMapDecoder", "pdfreader/parsers/cmap.py:CMapParser", "pdfreader/viewer/simple.py:SimplePDFViewer", "pdfreader/types/cmap.py"]}
{"id": "C141", "title": "Cross-reference tables and streams may be mixed in a file", "statement": "A file whose chain of cross-reference sections (newest named by startxref, the others by Prev) consists of tables and cross-reference streams in any order is opened like one whose sections are of one kind.", "quantifier": "all files with a chain of any number of sections of either kind", "why_tests_cant": "the number of sections and their kinds, offsets and contents are unbounded", "anchors": ["pdfreader/parsers/document.py:PDFParser.pdf_trailer", "pdfreader/parsers/document.py:PDFParser.direct_xref", "pdfreader/parsers/document.py:PDFParser.indirect_xref"]}
{"id": "C142", "title": "Objects are of the class which their Type names", "statement": "A dictionary with a Type for which the package has a class (Catalog, Page, Font, FontDescriptor, Annot, ...) is delivered as an object of that class, whether it is an entry itself, is referred to, or is an element of an array; a dictionary with another Type or none is a plain dictionary object. Image, form, metadata, CMap and object streams are objects of their classes.", "quantifier": "every document, dictionary, entry and Type", "why_tests_cant": "documents and dictionaries are unbounded", "anchors": ["pdfreader/types/objects.py:obj_factory", "pdfreader/types/objects.py:DICT_OBJECTS", "pdfreader/types/objects.py:STREAM_BASED_OBJECTS", "pdfreader/types/objects.py:XOBJECTS", "pdfreader/document.py:PDFDocument.build"]}
{"id": "C143", "title": "viewer.annotations gives the annotations of the current page", "statement": "In a viewer on a file, after any calls, failing ones included, viewer.annotations is the value of Annots of the page with the viewer's current page number, with references resolved: a list of annotation objects in the order of the file, or None if the page has none.", "quantifier": "every well-formed file, every history of calls of the viewer and of requests for objects, any number of pages and annotations", "why_tests_cant": "histories and files are unbounded", "anchors": ["pdfreader/viewer/pdfviewer.py:PDFViewer.annotations", "pdfreader/viewer/pdfviewer.py:PDFViewer.current_page", "pdfreader/types/objects.py:DictBasedObject"]}
{"id": "C144", "title": "Hybrid-reference files are read completely", "statement": "A file which has a cross-reference table and, for the objects hidden in object streams, a cross-reference stream named by XRefStm in the trailer, gives all its objects, those hidden from old readers too, and a viewer shows the same as with the same document written with a cross-reference stream only.", "quantifier": "every document, every split of its objects between body and object stream, every encoding of the streams which the filters undo, every history of requests and of viewer calls", "why_tests_cant": "documents and histories are unbounded; hidden objects are only found by a scan of the whole body", "anchors": ["pdfreader/parsers/document.py:PDFParser.xref", "pdfreader/parsers/document.py:RegistryPDFParser.locate_object", "pdfreader/parsers/document.py:PDFParser.xref_parsing"]}
{"id": "C145", "title": "The mode of a viewer tells whether a text object is open", "statement": "While and after a page is rendered, viewer.mode is 'BT' if the last of the operators BT and ET seen so far was BT, and None otherwise, whatever other operators, forms and images there are and however BT and ET are nested; it is None after navigation.", "quantifier": "every content stream, every history of calls", "why_tests_cant": "contents and histories are unbounded", "anchors": ["pdfreader/viewer/simple.py:TextOperatorsMixin.mode", "pdfreader/viewer/simple.py:TextOperatorsMixin.on_BT", "pdfreader/viewer/simple.py:TextOperatorsMixin.on_ET", "pdfreader/viewer/simple.py:SimplePDFViewer.after_navigate"]}
{"id": "C146", "title": "Interrupted updates with cross-reference streams leave the document as it was", "statement": "A document with an object stream and a cross-reference stream is updated any number of times, each update appending objects and a cross-reference stream, and writing is interrupted after any number of bytes. Opening what is there gives the document as after the last finished update (trailer and objects, in whatever order they are read), or raises an exception; the document stays readable.", "quantifier": "every document of that form, every number and content of updates whose stream data do not contain %%EOF, every crash point, every history of reads", "why_tests_cant": "crash points, updates and histories are unbounded", "anchors": ["pdfreader/parsers/document.py:PDFParser.seek_eof", "pdfreader/parsers/document.py:PDFParser.xref_offset", "pdfreader/parsers/document.py:RegistryPDFParser.locate_object"]}
{"id": "C147", "title": "Comparing objects of a document", "statement": "Comparing two objects read from a document with == gives True exactly if they are the same PDF object: numbers with the same value, the same name, the same string however it is spelt, arrays with equal elements, dictionaries with equal entries in any order, streams with equal dictionaries and the same data, the same reference; otherwise False. It is an equivalence relation and raises nothing.", "quantifier": "every two (three) objects of any size and depth, and every two objects of every written document after every history of reads", "why_tests_cant": "objects and histories are unbounded", "anchors": ["pdfreader/types/native.py:Stream.__eq__", "pdfreader/types/native.py:IndirectReference.__eq__", "pdfreader/types/native.py:Stream.__getattr__"]}
{"id": "C148", "title": "What was written encrypted and compressed is read back with the password", "statement": "A document written with an object stream, which is encrypted, and a cross-reference stream, which is not, opens with its user or its owner password, and with no other; the user then gets the entries of its trailer, every object written, whether by itself or in the object stream, and the pages in order with the texts they show.", "quantifier": "every document which can be written so, with any objects by themselves and in the object stream, every encoding which the filters undo (also with the padding of AES behind), every method (RC4, AES-128, AES-256, Identity), every password, every history of requests, every fuel from some bound on", "why_tests_cant": "documents, passwords and histories are unbounded", "anchors": ["pdfreader/document.py:PDFDocument", "pdfreader/parsers/document.py:RegistryPDFParser", "pdfreader/parsers/document.py:RegistryPDFParser.indirect_object", "pdfreader/securityhandler.py:StandardSecurityHandler"]}
{"id": "C149", "title": "A chain of references leads to the object at its end", "statement": "If the value of an object is a reference to another object, and so on, then an entry or an element of an array which refers to the first of them reads as the object at the end of the chain; deep_obj_by_ref gives this object, or raises ValueError if the chain is longer than the depth given.", "quantifier": "every chain of any length, every dictionary and array, every depth, every written file after every history of reads", "why_tests_cant": "chains and histories are unbounded", "anchors": ["pdfreader/document.py:PDFDocument.deep_obj_by_ref", "pdfreader/document.py:PDFDocument.build", "pdfreader/document.py:PDFDocument.obj_by_ref"]}
{"id": "C150", "title": "Stream objects show their current entries and data", "statement": "An entry of a stream object read as an attribute is its current value, and the same as an item; filtered gives the decoding of the current data by the current filters; whatever was read, failed or was changed before.", "quantifier": "every stream, every history of reading attributes, items, raw and decoded data, and of changing entries and data", "why_tests_cant": "histories are unbounded", "anchors": ["pdfreader/types/native.py:Stream", "pdfreader/types/objects.py:StreamBasedObject", "pdfreader/utils.py:cached_property"]}
{"id": "C151", "title": "Hexadecimal strings stand for the bytes which they spell", "statement": "Every spelling of a byte string between < and > (digits in either case, blanks anywhere, a last digit 0 left out) is read as a HexString whose to_bytes() are these bytes, whose to_string() is their Latin-1 text and whose as_int is the number which they write to the base 256 (ValueError if there is none); two spellings are read as equal strings exactly if they spell the same bytes.", "quantifier": "every byte string, every spelling, every following text", "why_tests_cant": "strings and spellings are unbounded", "anchors": ["pdfreader/types/native.py:HexString", "pdfreader/parsers/base.py:BasicTypesParser.hexstring"]}
{"id": "C152", "title": "Optional entries of the encryption dictionary have their defaults", "statement": "Leaving out an optional entry of an encryption dictionary is the same as writing its default: V 0, Length 40, EncryptMetadata true, CF empty, StmF and StrF Identity; the order of entries and entries without a meaning for the standard security handler do not matter.", "quantifier": "every encryption dictionary, file identifier and password, whatever the ciphers are", "why_tests_cant": "dictionaries and passwords are unbounded", "anchors": ["pdfreader/securityhandler.py:security_handler_factory", "pdfreader/securityhandler.py:StandardSecurityHandler.init_params", "pdfreader/securityhandler.py:StandardSecurityHandlerV4.init_params"]}
