# Formal model of maxpmaxp/pdfreader in Lean 4 — design

## Layout

* `lean/Verif/Model/*` — the model, function by function; every definition cites the lines of `/repo/pdfreader` it models.
* `lean/Verif/Spec/*` — specifications, written from the PDF standard and independent of the model: grammars of objects, content,
  cross-reference sections, whole files (`File`), a writer (`Write`), encoders for filters, ciphers, fax lines, code maps, page trees …
* `lean/Verif/Lemmas/*` — proofs only.
* `lean/Verif/Props/*` — the theorems `Cnn_…` of `properties.jsonl`, and, beside each, concrete cases meeting its hypotheses.
* `tools/` — `mkprops.py`, `status.py`, `mkmanifest.py` write the lists; `gentables.py`, `genfax.py` translate the tables of the source
  (encodings, glyph lists, fax codes) into Lean text; `mutate.py` runs the wrong programs of `seeded/LOG.jsonl`.

## Trusted base

* Lean 4.33.0's kernel. Theorems depend on `propext`, `Classical.choice`, `Quot.sound` only (the gate prints the axioms of each
  theorem). No axioms of our own, no compiled-code tactics.
* The faithfulness of the hand-written model to the Python text in `/repo` (the code is never run here), and that of the generators
  of tables, which only copy.
* The stated behaviour of Python primitives used by the code (slicing, `dict` insertion order, `bytes.fromhex`, `base64.a85decode`,
  `Decimal`, `str`/`bytes` methods, `re`), modelled from the CPython documentation/source and said so at each definition.
* The specifications in `Verif/Spec`: they are the meaning given to the English statements.

Conventions: bytes are `UInt8`, byte strings `List UInt8`; Python exceptions are values of `Exc`; loops are structural or fuel
recursion, with theorems that some fuel is enough and that more fuel changes nothing, or, where the Python loop does not end, that
no fuel is enough; external calls are parameters over which theorems quantify.

When a property is false of the code, the theorem file proves the negation on a concrete witness (`…_counterexample`) and the
strongest true part we could state (`…_partial`).

## What is modelled

| code (`/repo/pdfreader`) | model | simplifications |
|---|---|---|
| `buffer.py` | `Buffer` | `offset`, `last_block_size`, `stack` are written only, and left out |
| `parsers/base.py`, `content.py`, `inlineimage.py` | `Parser`, `Content` | on the remaining input, justified by C07/C08; no recursion limit, no 4300-digit limit of `int()`, no limit of Decimal exponents |
| `parsers/document.py` (PDFParser), `types/xref.py` | `Document` | a negative Prev is a TypeError; the search for startxref is exact when the number ends before the end of the file (the buffer bug of C09 lies beyond) |
| `parsers/document.py` (RegistryPDFParser), `registry.py`, `parsers/objstm.py` | `Locate` | an object whose parsing needs another (Length) is parsed again when that is known, instead of in the middle; where the scan begins is a parameter |
| `document.py` `__init__`, `build`, `obj_by_ref`, `pages`, `root` | `Objects`, `Eager` (`lazy=False`), `Locate` (`openDoc`, `openDocument`) | `lazy=False` replaces the dictionary of a parsed stream in place: the model returns the new one; the security handler is a parameter of `openDocument` |
| `document.py` `__init__` with a password, `encrypt`, `locate_encrypt_by_ref` | `Secure` | `locate_backwards_from_trailer` is `backLocate`; a parameter where the dictionary is listed |
| `document.py` `metadata`, `utils.py` dates | `Metadata`, `DocInfo` | dateutil and Unicode digits are parameters; UTF-8 is concrete |
| `types/objects.py` | `Objects`, `Lazy`, `Walk`, `Iter`, `Viewer` (attributes) | classes without behaviour of their own only by name |
| `types/native.py` `Stream.filtered`, `apply_filter_multi` | `StreamData`, `Filters` | parameters which are not integers count as missing |
| `types/native.py` `__eq__` | `Equality` | inline images are not compared |
| `filters/*` | `Filters`, `Fax`, `FaxFilter` | zlib's inflate is a parameter; Columns is a natural number; `_accept`/`_state` merged; DCT, JPX, JBIG2 as the code treats them |
| `types/cmap.py`, `parsers/cmap.py`, `codecs/decoder.py` CMAPDecoder | `CMap` | `int(s, 16)` for hexadecimal digits only |
| `codecs/*` | `Codecs`, `Glyphs`, tables | codecs of Python itself are a parameter; names are ASCII |
| `securityhandler.py` | `Security`, `DocInfo` (permissions) | MD5, SHA-256, AES block are parameters; RC4 and CBC concrete; `struct.error` as ValueError; V is an integer; OE/UE literal |
| `viewer/resources.py` | `Objects` (`fromPage`) | — |
| `viewer/graphicsstate.py`, `canvas.py`, `pdfviewer.py`, `simple.py` | `Viewer`, `View`, `ViewPages`, `Custom` | handlers of subclasses give the changed object (in Python in place); no negative zero; for `View`, the document answers as in the state after listing pages (C90: answers do not depend on history) |
| `pillow.py`, `types/content.py` | `Image`, `ViewImage`, `InlineImage` | Pillow itself: the result says which of its functions is called with what; Decode has integers |
| `utils.py` `pdf_escape_string` | `Utils` | — |

## What is not modelled

Logging; Pillow; zlib's inflate algorithm; floating point; dateutil; hash functions and the AES block; `cached_property` (evaluated
when asked); `__repr__` of the classes; the deprecated `deep_obj_by_ref`; `get_pil_colorspace` for
colour spaces other than those listed in `Image`; the doctest suites; memory and recursion limits of the interpreter (recursion without
end is fuel exhaustion for every fuel).

## Plan per property

| id | model | proof |
|----|-------|-------|
| C01 | `asciihex.decode` loop as list recursion with 1-byte buffer | induction on the encoded bytes |
| C02 | CPython `a85decode` loop + whitespace filter | base-85 arithmetic + induction on groups |
| C03 | `runlength.decode` state machine | induction on runs |
| C04 | `lzw.py` bit reader and table | counterexample (EOD ⇒ empty) + `_partial` for streams without EOD |
| C05 | `apply_filter`/`apply_filter_multi` over a decoder map | fold lemmas |
| C06 | `_remove_predictors` | counterexample for tags ≠ 0 + `_partial` for tag-0 rows |
| C07–C10 | `Buffer` state machine against a file byte list | invariant + refinement to a cursor; free-monad client theorem; counterexample for mixed use |
| C11–C22, C57, C60 | parser functions on input suffixes; separate grammar relation as specification | mutual induction on the grammar derivation; fuel-monotonicity; counterexamples for truncated input and string corner cases |
| C23, C24, C58 | content parser, inline image parser | induction on command lists; decreasing input |
| C25–C30 | header scan, startxref, xref table/stream, trailer chain | induction on windows / entries / chain; pigeonhole for the cycle of Prev |
| C31–C34, C59 | registry + locate state machine over an arbitrary file; ObjStm parser; scan of the body | invariants over histories (`Keeps`, `Mono`, `Knows`); counterexample for order dependence; induction on the body |
| C35, C36, C61–C64 | `types/cmap.py`, `CMapParser`, `CMAPDecoder` with its cache | from the text of a CMap by the content grammar; induction on codes; invariant of the cache |
| C37–C40, C65–C67 | codec tables generated from the source text, decoder classes, glyph names | table facts by `decide +kernel` over all bytes (the whole domain), induction on strings |
| C41–C45, C68–C74 | security handlers with abstract hash/cipher, concrete RC4 and CBC | algebra of XOR/padding; induction; from the bytes of an encrypted file for streams |
| C46, C48, C75–C78 | document object layer over any `Locator` which delivers a store | structural induction on page trees, `Gives` (eventually constant in the fuel); cycles by a non-termination invariant |
| C47 | `DictBasedObject` with cache and dictionary | invariant over histories of reads and writes |
| C49–C53, C80, C81 | viewer state machine with heap of canvases, graphics state stack | invariants over histories of calls (`Reached`, `Clean`) and over content |
| C54, C84–C86 | `PILImageMixin`: what Pillow is called with | arithmetic of lengths; induction on rows and bits |
| C55, C87, C88 | `from_pdf_datetime` with its regular expression, `metadata` | evaluation of the matcher on symbolic digits; induction on entries |
| C56, C82, C83 | `ccittfax.py` Group 4 machine, tables generated | invariant of the line; refinement to T.6 by changing elements; every image has an encoding |
| C79 | `Stream.filtered` on the entries as parsed | case analysis |
| C89, C90 | `PDFDocument.__init__` on the bytes of a file, then any history of requests | specification `Spec/File.lean` of whole files (header, startxref, chain of tables and streams, bodies with object streams); invariant `Sound` of the registry; composition of C25–C29, C34, C59 |
| C91, C92 | the same with `pages` and resources | composition with C46, C48 |
| C93, C94 | a writer (`Spec/Write.lean`) of revisions with tables, and of a compressed file with object and cross-reference stream | what is written satisfies `Spec/File`, for all objects, texts and splits; then C90, C91 |
| C95 | the viewer on an opened document (`View`) | composition of C89–C94 with C49, C52, C53 |
| C96 | a writer of pages of lines (`Spec/TextFile.lean`) | what is written satisfies the hypotheses of C95, for all lines, by induction on pages and lines |
| C97 | the constructor for encrypted documents (`Secure`), encrypted files (`Spec/Sealed.lean`) | handler from C41, C42, C69, C70; decryption of each object from C43, C44; then as C90, C91, C95 |
| C98 | a writer of encrypted files (`Spec/Sealed.lean`) | what is written satisfies the hypotheses of C97, for all drafts, methods and keys |
| C99 | `locate_backwards_from_trailer` (`backLocate`), `Spec/Hidden.lean` | induction over the pieces between the dictionary and the section; last occurrences of `endobj` |
| C100 | `locate_object` with the scan, on arbitrary bytes (`Spec/Termination.lean`) | the limit of the fuelled functions exists: the scan moves forward (every element read consumes a byte), the Lengths asked for within one object are distinct and listed; counterexamples by induction on the fuel |
| C101 | the scan with `BruteForceRecursion` and `skip_until_next_indirect_object` (`Spec/Behind.lean`) | invariant: what is registered is right, and everything before the place of the scan is registered; induction on the length of the rest of the body; a Length is looked for at the stream which needs it, so the nested search ends in its first step |
| C102 | `build` with `lazy=False` (`Model/Eager.lean`); the resolved object as an inductive relation (`Spec/Eager.lean`) | induction on the relation: the references being built contain more than the object at hand, so the guard never leaves one; for cycles through dictionaries descent on the fuel shows that no value is returned |
| C103 | the printing of operands and commands while rendering (`printObj`, `printOp`, `escapeText` of `Model/Viewer.lean`); the commands retold with decoded strings as a relation (`Spec/Told.lean`) | induction over the content that handlers leave the text alone and each command appends a `ContentText` of itself (escaped strings are `StrText`, decimals `RealText`), then C23; counterexamples by evaluation |
| C104 | `after_navigate` (`contentsData`), the content parser; parts of a content with operands left over as a relation (`Spec/Parts.lean`) | induction on a part: joined with a content it is a `ContentText`; then C23, C49, C52, C53 for the viewer; counterexamples by evaluation |
| C105 | `notify`, `get_handler_name` and all handlers of SimplePDFViewer; contents with commands left out as a relation (`Spec/Ignored.lean`) | every handler is blind to `text_content` (compositional lemma), a command without a handler only adds to it; simulation by induction on the contents; counterexamples by evaluation |
| C106 | `Model/ViewImage.lean`: the attributes which `to_Pillow` reads, in the order in which it reads them, resolved by the document; pictures of pages and of images as relations on the objects of the file (`Spec/ImageFile.lean`); a writer of images | C53 and C80 composed with the object layer as in C95; each attribute by C75's resolution, then C84/C85; for the writer, the objects found in the draft |
| C107 | `Model/Walk.lean`: `obj.k`, `obj[k]`, `obj[i]` and paths of them; where a path leads as an inductive relation on the objects of the file (`Spec/Walk.lean`) | induction on the path, with C75 for each attribute and C90 for the file |
| C108 | inherited attributes as a relation (`Spec/Walk.lean`) | counterexample: a written document; partial: by C107, own attributes and climbing by Parent |
| C109 | as C107 | counterexample: a stream in a written document; partial: by C107 for dictionaries |
| C110 | `clamps` says whether seeking before the start of the file is clamped (BytesIO) or fails | the models agree from 1024 bytes on; counterexample: a written document of less |
| C111 | the printer of inline images (`printObj`, `imageTail`, `b85encode`) and the canvas text of `renderPage`; the spelling is related to ASCII85 of the PDF standard by a change of letters (Spec/InlineText) | C02 decodes it; later commands only add text |
| C112 | `onOperator`, `applyGs`, `updateState`, `saveState`, `restoreState` of Model/Viewer; the specification (Spec/State) follows one parameter through the stack of states, command by command | induction on the run, with counterexamples for cm, i and the text state |
| C113 | `canvasNext`, `canvasAll`, `navigate`, `render` of Model/Viewer | induction on the pages before the bad one, with the invariants of C81 (Lemmas/Navigate) |
| C114, C115 | `buffer.py` again, with the calls to the file object one by one (Model/Shared): each method is a program of seeks and reads on a file object with a position | each method gives what Model/Buffer gives on the bytes, wherever the position was; induction on the schedule; a schedule which interrupts a method as counterexample |
| C116 | `PageTreeNode.pages` as a suspended generator (Model/Iter): a stack of calls, advanced by `next` | what a generator owes is fixed by its stack (`Owes`); induction on the schedule |
| C117 | `PagesIterator.__next__` on the viewer model (Model/ViewPages), any number of iterators | induction on the schedule from any reached viewer; concrete schedules as counterexamples |
| C118 | opening and `locate` on files with several cross-reference streams; a writer of updates (Spec/Amend) | what is written satisfies `Spec/File` with an empty scanned body, by induction on the updates; then C90; concrete files as counterexamples |
| C119 | `Stream.filtered` with the facsimile decoder in its place, `to_Pillow` of the images of a document | the parameters reach the decoder, then C82; the image is one of those of C106; universal counterexamples for chains, other codings, defaults |
| C120 | `Stream.filtered` with all filters | by cases on the filter, by induction on the chain; concrete and universal counterexamples |
| C121 | `SimplePDFViewer.render` of contents with a failure | every handler only adds to the canvas, whether it fails or not; the beginning of a content is read before what comes after it |
| C122 | `Resources.from_page`, with procedure sets | the invariant of C48 extended by the names collected so far |
| C123 | `pages`, `build`, `obj_factory` | invariant of all values: the class is the one of the Type; no assumption on the document |
| C124 | `PDFDocument.__init__` | by cases on the opening |
| C125 | `obj_factory` | universal counterexamples; partial by C75 |
| C126 | `InlineImage` attributes | by cases on the two entries |
| C127 | `InlineImage.filtered` | induction on the chain of filters; a filter and its abbreviation are the same function |
| C128 | `to_Pillow` of `InlineImage` | reading of the attributes (C126), then C84/C85; canvas by C53 |
| C129 | `metadata` with `locate_object` | C87 over the locator of C90 |
| C130 | `is_printable` etc., `init_params`, `compute_encryption_key` | integer arithmetic; by cases on the handlers |
| C131 | the object layer, resources and viewer over two locators | relational invariant (same result, references stay in the common objects), by induction on fuel, content and calls |
| C132 | `Model/CMapList.lean`: iteration, `as_list`, `as_dict`, `max`, `in` of code ranges | induction on the ranges and on the insertion sort; C35 gives the rows of the text |
| C133 | `Model/CMap.lean` on rows which need not be proper (`Spec/CMapRows.lean`) | the loops of the parser as the sequence of the results of the rows (`Lemmas/CMapRows.lean`), induction on blocks |
| C134 | `openDoc`, `locate` on prefixes of written files (`Spec/Crash.lean`) | everything found in a file is found after adding bytes (`Lemmas/Append.lean`); where `%%EOF` occurs in written text (`Lemmas/Crash.lean`); then C90 |
| C135 | the same | the same; the window of `seek_eof` |
| C136 | `ViewerClass`: notify, flow, handler names (`Model/Custom.lean`) | simulation between a class and the class watched (`Noted`) |
| C137 | `simpleClass`, `renderPage` | C136 and equality of `simpleClass` with `notifyOp`/`notifyImage` |
| C138 | `Viewer` with its heap of canvases (`Spec/Handed.lean`) | invariant: cached canvases are never handed out |
| C139 | `openDoc`, `locate`, `docPages` on written files with overwritten objects (`Spec/Spoiled.lean`) | induction over revisions, then C90/C91 |
| C140 | writers with a ToUnicode CMap (`Spec/UnicodeFile.lean`, with object streams `Spec/UnicodePacked.lean`), viewed by `viewFile` | CMap text parses to its table, then C95 |
| C141 | `openDoc`, `chain`, `tableSection`, `streamSection` | induction on the chain of sections; concrete file with a table and an update by a stream |
| C142 | `dictClass`, `streamClass`, `factory`, `build`; lists of types from the standard in `Spec/Classes.lean` | C75 and comparison of the lists |
| C143 | `Viewer.annotations` (`Model/Annots.lean`) on `viewFile` | invariant of reachable viewers (current page is known), C46, C75, C142 |
| C144 | `writeHybrid` (`Spec/Write.lean`) | written files as in C94 with the table of C93: `holds_hybrid`; C131 for viewers; counterexample for updates |
| C145 | `Paint.mode`, `Viewer.mode` (`Model/Mode.lean`) | every handler other than BT and ET leaves the stack; induction over the content; C53 for viewers |
| C146 | `Compressed`, `Amend` written files cut at any byte (`Spec/Cut.lean`), `openDoc`, `locate` | the unfinished text has no `%%EOF` (induction over the writer), so the search finds the previous section: C134_appended; suffixes of updates by induction |
| C147 | `Model/Equality.lean`: `==` of native types; equality as an inductive relation (`Spec/Equality.lean`) | mutual induction on objects; pigeonhole on keys; C93 for documents |
| C148 | `Spec/SealedStream.lean`: the writer of compressed files with encryption; the reader as in C97; with a ToUnicode CMap `Spec/UnicodeSealed.lean` | the written file holds the objects as stored (`holds_sealed_compressed`), then C97 |
| C149 | `Model/Deep.lean`: deep_obj_by_ref; chains as an inductive relation (`Spec/Chain.lean`) | unfolding `build`, induction over the elements; C93 for files |
| C150 | `Model/StreamObject.lean`: StreamBasedObject with both caches | invariant over histories against a stream without caches (`Spec/StreamObject.lean`) |
| C151 | `Model/HexString.lean`: to_string; as_int and to_bytes from the models of CMaps and of the viewer | C17 for the parser, induction over the bytes for the methods |
| C152 | the handler of `Model/Security.lean`; table of defaults in `Spec/EncryptDefaults.lean` | the parameters depend on the entries listed only |
