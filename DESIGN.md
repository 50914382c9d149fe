# Formal model of pdfmm in Lean 4

## 1. Shape

* `/verif/lean/Verif/<Area>/Model.lean` — executable model of the C++ code, one definition per
  function (or per loop of a function).  Every definition cites the file and lines in `/repo`.
* `/verif/lean/Verif/<Area>/Spec.lean` — the small independent specification the theorems are
  stated against (PDF syntax rules, finite maps, lists, reachability, ...).  No model helper is
  used there.
* `/verif/lean/Verif/<Area>/Lemmas.lean` — helper lemmas.
* `/verif/lean/Verif/<Area>/Props.lean` — the property theorems, with non-vacuity examples.

Modelling conventions

* bytes are `UInt8`, buffers are `List UInt8`; C++ `char` is a byte and where the code relies on
  its sign the model converts explicitly;
* `uint16_t/uint32_t/uint64_t` are `UInt16/UInt32/UInt64` or `Nat` with explicit `% 2^n` when the
  property is about wrap-around, `Nat`/`Int` otherwise (stated in the comment);
* a raised `PdfError` is `Except.error (.error code)`; undefined behaviour (out-of-range index,
  division by zero, read of an uninitialised variable) is the distinct outcome `.error .ub`;
* a loop is structural recursion over the remaining input, or takes fuel with a theorem that the
  fuel given is always enough;
* an external library (zlib, OpenSSL, libc formatting, device I/O) is a parameter whose assumed
  behaviour is an explicit hypothesis of the theorem, listed in section 3.

When the code violates the property, the negation is proved with a concrete witness
(`..._false`), the strongest true part is proved with the suffix `_partial`, and the disagreement
is recorded in section 4.

## 2. Plan per property

| id | area | what is modelled | how it is proved |
|----|------|------------------|------------------|
| C01 | Filters | hex encoder/decoder state machines | induction on data; fold over blocks = fold over concatenation |
| C02 | Filters | same | negation by witness; partial: even digit texts with white space decode per spec |
| C03 | Filters | ASCII85 encoder/decoder state machines | base-85 digit arithmetic for full groups and 1..3 byte tails, induction by groups of 4, block fold |
| C04 | Filters | same | invariants over the encoder run; rejection by case analysis on the first bad character |
| C05 | Filters | RLE decoder | negation by witness; partial: what the decoder really computes on literal codes |
| C06 | Filters | LZW decoder with UB outcome | invariant (table non-empty entries, mask <= 3, code length) by induction over the input |
| C07 | Filters | LZW decoder, spec encoder relation on codes and bits | simulation between decoder table and encoder dictionary |
| C08 | Filters | all decoders as folds over blocks | fold fusion; negation by witness for LZW and ASCII85 end marker |
| C09 | Filters | predictor decoder | row-by-row induction against PNG filter spec (RFC 2083); negation for Average |
| C10 | Filters | predictor constructor and decode with UB outcome | invariant row index < row length; negation (division by zero) for sub-byte pixels |
| C11 | Filters | predictor case 2 | row-by-row induction |
| C12 | Filters | stacked encode and decode streams | induction on the filter list |
| C13 | Filters | PdfFilter lifecycle state machine | refinement to a 3-state automaton, induction on call sequences |
| C14 | Syntax | EscapeNameTo, UnescapeName | induction with per-byte table check lifted to all bytes |
| C15 | Syntax | tokenizer ReadName | induction |
| C16 | Syntax | PdfString::Write, ReadString state machine | invariant: reader state is (no escape, balance 0) after each written unit |
| C17 | Syntax | hex string write / read | induction |
| C18 | Syntax | integer formatting, from_chars | decimal round trip by induction on digits |
| C19 | Syntax | variant writer and recursive descent reader | mutual induction over values; follow-set lemma for adjacent tokens |
| C20 | Syntax | TryReadNextToken | remaining length strictly decreases |
| C21 | Syntax | reference look-ahead with token queue | negation at end of input by witness; partial otherwise |
| C22 | Syntax | RecursionGuard and parsing depth | depth counter invariant; negation of "same limit for later parses" by witness |
| C23 | Syntax | removeTrailingZeroes | value function on decimal texts preserved; induction |
| C24 | Objects | operator== / != on variants | reflexivity by structural induction; negations by witness |
| C25 | Objects | PdfReference comparison | case analysis |
| C26 | Objects | dictionary operations | refinement to finite map |
| C27 | Objects | array operations | refinement to list |
| C28 | Objects | dirty propagation over parent chains | induction on path |
| C29 | ObjectList | object list operations | refinement to finite map ordered by reference |
| C30 | ObjectList | getNextFreeObject with 16-bit truncation | negation by witness history; partial below 65536 |
| C31 | ObjectList | free list | invariant over histories |
| C32 | ObjectList | ReplaceObject | negation by witness; partial if present |
| C33 | ObjectList | CollectGarbage/visitObject | DFS reachability soundness and completeness |
| C34 | XRef | block list insertion, merge, write | invariant over insertions; merged write = sorted enumeration |
| C35 | XRef | free chain | list induction over written entries |
| C36 | XRef | entry formatting | digit count lemma; negation beyond 10 digits |
| C37 | XRef | table writer and subsection parser | round trip by induction over subsections |
| C38 | XRef | stream entry writer and parser | big-endian round trip; negation beyond 32 bits |
| C39 | XRef | stream parser with bounds as UB outcome | negation by witness; partial when size is a multiple of entry length |
| C40 | Parser | first-entry-wins fold over sections | fold characterisation |
| C41 | Parser | trailer merge | fold characterisation |
| C42 | Parser | visited-offset traversal | decreasing measure |
| C43 | Parser | header search automaton | negation by witness; partial |
| C44 | Parser | backward token search | negation by witness; partial |
| C45–C48 | Pages | page tree search, insertion, removal, cache | structural induction over trees; refinement to list of pages |
| C49, C50 | NameTree | B-tree insertion, split, lookup | invariant and refinement to sorted map |
| C51, C52 | Outlines | pointer structure as finite maps | invariant over histories; negations by witness |
| C53, C54 | Document | append and page insertion loops | map lemma; non-termination by induction on steps |
| C55 | Text | PDFDocEncoding table and conversions | whole table check lifted to strings |
| C56–C58 | Text | code point trie (BSTs) and lookups | permutation-independence via map semantics |
| C59, C60 | Date | formatter and parsers | digit arithmetic; negation by witness |
| C61 | Streams | span device | invariant over op sequences |
| C62 | Streams | object write with compression branch | negation by witness; partial for other branches |
| C63 | Encrypt | key derivation with abstract MD5 / RC4 | inversion of 20 rounds by induction |
| C64 | Tables | name tables | whole table check |
| C65 | Numeric | big-endian I/O | bit-vector arithmetic lemmas |
| C66 | Numeric | overflow check | division arithmetic |
| C67 | Syntax | object writer and tokenizer | `ToString` output reads back as the object |
| C68 | Syntax | literal string reader against the standard's grammar (`LitSpec`) | induction on the grammar; negations by witness |
| C69 | Syntax | hex string reader | induction on the digits with white space |
| C70 | Syntax | tokenizer loop | induction on the separator text |
| C71 | Syntax | name reader | induction on the escaped text |
| C72 | Text | dictionary comparator on names and plain strings | negation by witness; partial for ASCII |
| C73 | Parser | update counter of the chain reader | induction on the chain; negation for hybrid files |
| C74 | Parser | state kept by `Reset` | negation for every file |
| C75 | XRef | stream entry reader against the standard's table 18 | big-endian arithmetic; negations |
| C76 | Parser | end-of-file marker and backward search | last-occurrence characterisation |
| C77 | Pages | `GetPageNumber` climbing the parents | induction on the path |
| C78 | Pages | index stored in a page object | for fresh pages; negation by history |
| C79 | Pages | resources of the parents | for pages whose parent has some; negation for all others |
| C80 | Text | string states, UTF-8/UTF-16/PDFDocEncoding conversions, byte order marks | round trip; counterexample family proved for all texts starting like a mark |
| C81 | Text | evaluation of a string and operator== | counterexample; preservation for plain texts, idempotence |
| C82 | Text | names from texts, escaping, expansion | round trip |
| C83 | Text | keyword list conversions | counterexample for all lists of two or more; round trip for one keyword |
| C84 | Document | metadata cache, Info dictionary, XMP copy, nullable comparison | case analysis over all states; the text setters proved ineffective |
| C61 | Streams | memory devices (span, view, container), seeks, reads, writes, copies | invariant over all call sequences; exact results of each call; negation for the smallest offset |
| C85 | Streams | null device | induction on the call sequence |
| C86 | Streams | page contents device, character reads and peeks | abstraction function to the remaining text |
| C87 | Streams | page contents device, block reads and `CopyTo` | case analysis on the lengths; negation for every text longer than the buffer |
| C62 | Streams | stream objects, `PdfObject::Write`, `PdfParserObject` | composition of the dictionary round trip, header, keyword and length lemmas; negation for every unfiltered stream saved with compression |
| C88 | Streams | output streams, /Filter, /DecodeParms, decode chains (zlib as a parameter with a round-trip hypothesis) | refinement to a plain buffer; negations for stale /DecodeParms |
| C89 | Streams | failing `SetData` | case analysis; negation for every object and every filter without encoder |
| C90 | Streams | `CopyFrom`, `MoveFrom` | finite maps |
| C91 | Streams | `PdfObject::Write`, `PdfParserObject::Parse` | composition of the value round trip with the object keywords |
| C56 | Fonts | `PdfCharCodeMap`: `PushMapping`, `reviseCPMap` with the shuffle as an arbitrary permutation, `TryGetCharCode` | invariant over all histories; the tree built from any permutation returns the last path |
| C57 | Fonts | `TryGetNextCharCode` on UTF-8 text | induction on the recursion: longest path of the tree |
| C58 | Fonts | `TryGetCharCode` of one and of several code points | as C56 |
| C92 | Fonts | `TryGetCodePoints` of a code map | invariant over all histories |
| C93 | Fonts | `pushMapping`'s limits | invariant over all histories |
| C94 | Fonts | `TryConvertToEncoded`, `tryConvertEncodedToUtf8`, `TryGetNextCodePoints` | induction on the text; codes separable while read |
| C95 | Fonts | `tryConvertEncodedToUtf8` with `fetchFallbackCharCode` | induction on the bytes |
| C96 | Fonts | constructors of `PdfCMapEncoding`, move of a code map | evaluation for all maps |
| C97 | Fonts | `parseCMapObject` bfrange entries, `handleRangeMapping` | induction over the range; negation for texts of two or more characters |
| C98 | Fonts | `getCodeFromVariant`, limits | case analysis of entries; negation for CIDs |
| C99 | Fonts | `parseCMapObject` on the PostScript tokenizer | fuel argument over the tokenizer; negations |
| C100 | Fonts | `CreateFromObject`, `PdfIdentityEncoding` | induction over the test for an identity; negation |
| C101 | Fonts | `writeToUnicodeCMap`, `AppendToUnicodeEntries`, whole reader | induction over lines of the text, through the tokenizer |
| C102 | Fonts | `PdfEncodingMapOneByte::AppendToUnicodeEntries`, whole reader | negation for all encodings |
| C103 | Fonts | `PdfIdentityEncoding`, whole reader | negation for all sizes |
| C104 | Name trees | the loops over the names of a leaf with strings as they are read from a file (raw bytes) and `PdfString::operator==` | bytes written for a text are its UTF-8 bytes exactly when all characters are plain |
| C105 | Name trees | `AddToDictionary` over the nodes with the recursion guard, names made of the texts | induction over the levels; names of different texts differ |
| C106 | Outlines | Loading constructor with the recursion guard on the dictionaries of an outline built by any history of calls | nesting depth as an inductive relation; loading succeeds exactly up to the limit; outlines with 256 chapters fail |
| C107 | Appending | the unsigned arithmetic of the range, and the deletions | list lemma for the pages before and behind; error case from the first deletion |
| C108 | RC4 streams | Crypt/Rc4: key schedule, permutation, the cache of the last key, writes and reads in pieces | the state after any history equals the key stream of the specification; xor twice is the identity |
| C109 | Saving again | Crypt/Password, Crypt/Resave: keys, dictionary, authentication, copy of the encryption object | what authentication leaves in the object is what the next save uses |
| C110 | Incremental update | Crypt/Resave: identifier of the key and identifier in the trailer | equal identifiers: same as saving; different: witness digest for all passwords |
| C111 | Encryption dictionary | Crypt/PasswordModel: CreateFromObject, key computation | case analysis over every dictionary |
| C112 | File identifier | Crypt/Resave: CreateFileIdentifier on the device model of C61 | invariant of the buffer over the list of writes |
| C113 | Encrypted data | Crypt/AesModel: object key, chained blocks, padding, whole buffers; any block cipher with an inverse | block by block induction; composed with C63 |
| C114 | AES input stream | Crypt/AesModel: OpenSSL's update and final, readBuffer, CopyTo, Read | invariant of the decryption state after any number of bytes |
| C115 | Signing | `Sign/SignModel.lean`: preparing the dictionary, writing it with the noted positions, filling in /ByteRange, reading the file around the reserved room block by block, filling in /Contents | induction on the blocks with what remains to be read as invariant; splitting of the sorted dictionary; reading back with C19; overrun of the room shown for huge files |
| C116 | Save and load | The bytes that PdfWriter writes (header, objects, table, trailer, startxref) and the parser from IsPdfFile to ReadObjects, with the delayed loading of objects | Composition of the round trips of objects, streams, table and header, with the offsets |
| C117 | Updates | As C116, with updates appended at the end and the chain of /Prev | Induction over the history, with an invariant on the chain of tables; negations for the recursion limit, two updates in a row, updates of new documents, a removed /Info |
| C118 | Versions | As C117, with the version step of SaveUpdate and UpdateDocumentVersion | From C116 and C117; negations for a version in the catalog, lower versions and 2.0 |
| C119 | Extensions | The four calls on a catalog and indirect objects | Refinement to a map from names to version and level; negations for removing and for indirect extensions |
| C120 | Reals | exact decimals through the formatter, the token scan and the number readers | the text of a six-digit decimal is computed and lexed back; the rounding error is bounded by arithmetic; integral values are shown to come back as integers or not at all |
| C121 | Content operators | the three tables | equivalence with a table transcribed from the specification, for every byte string |
| C122 | Contents reader | the token loop, operand stack, inline image dictionary and data scanner | induction over the sequence, on top of the tokenizer round trip C19 |
| C123 | Contents reader | the stack of inputs with the forms being read | a lexicographic measure: forms not yet on the stack, then text left; invariant over the stack |
| C124 | Inline images | the scanner for EI, the dictionary loop, the state kept between calls | induction over the data with the scanner state; refutations for all data of each bad shape |
| C125 | Reader warnings | the operand count check and handleWarnings | equivalence with the counts of the operator table; refutation for every content |
| C126 | Object streams | the table of numbers and offsets, the parser of each object, the loop over streams | induction over the table with the tokenizer round trip C19 at each offset; refutations for unwanted bad objects, eager loading and negative offsets |
| C127 | CID widths | the exporter's run-length coder, the reader and the lookup of widths | invariant: written entries plus the pending range state the history; composition with C128 |
| C128 | CID widths | the loop over the array with 32 bit arithmetic and the vector of widths | induction over the entries against a last-statement-wins specification; case analysis for safety; refutations for CID -1 |
| C129 | CID to glyph map | the writer's gap filling and the reader's signed bytes | induction over the pairs; refutations for all maps of two CIDs and all bytes from 128 on |
| C130 | CIDSet | the bit setting loop | induction over the CIDs, bit level |
| C131 | Subset numbering | the map of used glyphs and its inversion | invariant over the history; uniqueness of sorted maps |
| C132 | String length | the conversion to glyphs with its shadowed variable, and the sum | equality with the sum over characters; refutation for every imported font |
| C133 | Subset tags | the odometer | the value of the letters counts modulo 26^6 |
| C134 | TrueType subsets | the whole of PdfFontTrueTypeSubset.cpp on bytes | a reader of font files as specification; outlines compared at every depth |
| C135 | TrueType subsets | loading with components | measure on the glyphs not yet loaded; closure both ways |
| C136 | TrueType subsets | hmtx and hhea | metrics of the specification against the written table |
| C137 | TrueType subsets | directory, copied tables, checksums | layout of the written file; counterexamples |
| C138 | Fonts | The six tables of 256 code points, taken over number by number into generated modules, with the reverse table as the greatest code with a code point. | The reverse table characterised by induction; uniqueness of the table entries and agreement with the encodings of the PDF reference by kernel evaluation over the complete tables. |
| C139 | Fonts | Lists of differences as sorted maps, writing as runs of consecutive codes, reading with the codes modulo 256, the base encoding and its name. | Induction over the history and over the list with the state of the reader as invariant. |
| C140 | Fonts | The tables of glyph names packed as numbers, lookup by name and by code point, names made of digits. | Reduction of lookups to fast functions that are proved equal, one kernel evaluation over the complete tables, and the digits by case analysis. |
| C141 | Fonts | Conversion with differences before the base encoding and the reverse map over the codes of the base encoding. | The characterisation of the greatest code with a code point. |
| C142 | Contents | Documents with content streams, arrays and the contents object of each page; giving out a stream for appending with the old contents wrapped; a painter from its first operator to its end. The text of a page is that of C86, the reader that of C120 to C122. | A relation between texts and the pieces they show, closed under concatenation with white space, from which the reader's steps are derived; induction over histories. |
| C143 | Contents | Pieces shown by an arbitrary machine with a stack of graphics states. | Induction over the pieces with the stack above the saved states as invariant. |
| C144 | Contents | The stream of a form before and after a painter. | As C142. |
| C145 | Contents | As C142, with several pages and two painters. | Frame lemma over the document. |
| C146 | Forms | `Forms/Inherit`: FindKeyParent over indirect objects | induction over the line of parents; cycles diverge for any stack |
| C147 | Forms | `Forms/FieldNames`: full and partial names | induction over the line; injectivity of joining with dots |
| C148 | Forms | `Forms/FieldFlags`: flags as 64 bit words, inherited | bitwise lemmas and a frame lemma for one changed entry |
| C149 | Forms | `Forms/FieldFlags`: type detection and constructors | case analysis and induction over histories of flags |
| C150 | Forms | `Forms/ChoiceField`: items and selection | refinement to a list, induction over histories |
| C151 | Forms | `Forms/FieldValue`: text, limit, check state | read back theorems over lines of ancestors |
| C152 | Forms | `Forms/Collections.lean`: the array, the cached objects and the map of positions with lazy initialisation, additions, removals, lookups | Refinement to a list of objects for every operation and every history; negations for entries that cannot be read, that occur twice, and for iteration before the first access |
| C153 | Forms | `Forms/FieldCreate.lean`: `PdfField::Create` on widgets: search by name, promotion to a parent, moving and dropping keys, kids | Invariant of the dictionaries of each named group; refinement of one call to an operation on groups, then any history; negations for fields read from files |
| C154 | Util | `Util/Geometry.lean`: rectangles over exact numbers, corners, arrays, containment, intersection | Membership characterised by linear inequalities for all points; negations for the empty rectangle at 0 0 and for disjoint rectangles |
| C155 | Util | `Util/Geometry.lean`: vectors, matrices, products, rotations, frame rotation, rectangle times matrix, one-directional translation | Polynomial identities; characterisation of the matrices for which rectangles and one-directional translations are right |
| C156 | Pages | `Pages/Boxes.lean`: boxes with inheritance and defaults, set and get, rotation, size set in place at the place where the entry was found | Order of lookup over the line of parents; read-back and frame over addKey; negations for inherited trim boxes, references, real rotations, shared arrays, reports and reversed corners |
| C157 | Contents | `Contents/TextPositions.lean`: the text, state and form operators of `ExtractTextTo` against a reader written from ISO 32000 | Refinement by induction over the operators; negations for quotes, rotated text, rise, stretching, form matrices, unmapped strings and extra restores |
| C158 | Contents | `Contents/TextEntries.lean`: chunks, fake spaces, splitting into words, trimming | Invariant over the shown strings against lines and words defined on the whole text; negation for glued strings |
| C159 | Contents | `Contents/TextPatterns.lean`: pattern matching on an entry, without regular expressions | Equivalence with occurrence, equality and leftmost occurrence; negation for whole words found too late |
| C160 | Contents | `Contents/TextWidths.lean`: lengths, trimming of the last string, splitting into words, distance of strings, on upright text with exact numbers | Algebra over the rationals; negations for scaled text matrices, scaled pages, words, substrings and scale dependence |
| C161 | Contents | `Contents/ResourceDict.lean`: resource dictionaries with inline and indirect kinds; addition, removal, lookup, colour resources | Invariant on kinds kept by every change, induction on histories; negations for shared kinds, null pointers and colour spaces |
| C162 | Contents | `Contents/Colors.lean`: colours with exact numbers, conversions, arrays, texts with the memory behind them, the table of names, samples of tint functions | Algebra over the rationals; sorted table lookup; negations for Lab and separation arrays, numbers, views, tints |
| C163 | Document | `Document/Destinations.lean`: destination arrays with their readers, tables of named destinations, items with a destination or an action, kinds of actions | Case analysis over the views of the standard; characterization of named lookup; invariant over histories; negations for FitBV, null coordinates, rectangles, empty destinations, links |
| C164 | Contents | `Contents/FormPage.lean`: box, matrix, contents and resources of a form filled from a page | Matrix algebra over the rationals on quarter turns; induction on the contents; negations for large rotations, divided contents, reference loops, inherited resources |
| C165 | Contents | `Contents/PageRes.lean`: lookup and creation of the resources of a page through its ancestors, colour profiles | Lookup along the line of parents; negations for deep trees, shared dictionaries, profiles |
| C166 | Document | `Document/FileSpec.lean`: file specifications from memory and files, portable names, stripped paths, attachments | Characterisation of names by characters; last part of a path; negations for all names with other characters, kept paths, changed files |
| C167 | Save | `Save/Files.lean`: modes of opening files, bytes in the file at every crash point of Save and SaveUpdate, objects read from the file being written | Exact cases of the modes; crash points through the search for the last marker and the chain of revisions of C117; negations for Save |
| C168 | Contents | `Verif/Contents/Painter.lean`: the painter with its canvas, remembered settings and the operators it writes | What a canvas is drawn with is computed from the operators by a specification of graphics states; induction over programs with matched saves and restores |
| C169 | Contents | `Verif/Contents/PainterText.lean`, on the same painter | The graphics state at every `Tj` is compared with what was asked for; exact condition |
| C170 | Contents | `Verif/Contents/PainterText.lean`, on the same painter | Invariant of all sequences of calls, over a specification of nesting |
| C171 | Contents | `Verif/Contents/PainterPaths.lean`: the calls that add to a path, with rational coordinates | The segments that operators add are specified; induction over calls for what is remembered; an inequality for every point of a quarter of a circle |
| C172 | Contents | `Verif/Contents/PainterLayout.lean`, on the same painter | The texts shown and their positions are read off the operators |
| C173 | Images | `ImgPic.decode`, `ImgPic.decodeBuf`, `setData`, `scanRGB`, `scanGray`, `scanBW`, `fetchJPEG` with unsigned arithmetic modulo 2³², bounds of strings and the sink | induction over the lines and over the pixels of a line, against a specification of rasters |
| C174 | Images | `ImObj` over `StObj`: `ImObj.setData`, `ImObj.setDataRaw`, `ImObj.decodeTo`, `ImObj.mask`, `ImObj.setICC`, `ImObj.setKey`, `ImObj.colorSpace`; codecs of JPEG and fax are parameters | the pixels of C173 composed with the streams of C62 and the writing and loading of objects |
| C175 | Images | `IDoc.tryXObj`, `IDoc.formRect`, `newXObj`, `newForm`, `setFormRect`, `xobjMatrix`, `setXObjMatrix`, `xobjId`, `drawXObj` | case analysis on the entries; `fmtNat` injective; the page's resources followed through the drawing of a list by induction |
| C176 | Images | `PngPic` (what libpng gives), `PngPic.split`, `PngPic.info`, `ImObj.loadPng`; libpng is a parameter | invariant of the loop that moves colours down in place and takes opacities out; composed with C174 |
| C177 | Images | `bufferFormat`, `fileFormat`, `pathExt`, `MemCur` (reads and seeks), `TiffPic`, `ImObj.loadTiff`, `jpegInfo`, `jpegQuality`; libjpeg and libtiff are parameters | path decomposition; refinement of a file by reads in memory, by induction on the reads; lines concatenated; composed with C174 |
| C178 | Streams | `StObj.opens`, `openInput`, `closeInput`, `mediaEntries`, `StObj.unwrap`, on the stream objects of C91 | cases on the filters that are left; the temporary stream is followed until it is closed |
| C179 | Streams | `StrHandle`, `HState.step` (opening, closing, moving, assigning), `HState.run` | refinement of histories by a relation of who holds which stream, by induction on the history |
| C180 | Document | `CatDoc`, `getPageMode`, `setPageMode`, `setPageLayout`, `setPref`, `prefCall`, `setUseFullScreen`, `getMetadata`, `setMetadata` | cases on where the entry is; frame conditions on all other entries and objects |
| C181 | Annotations | `IDoc.look`, `lookDict`, `apEntry`, `apStore`, `setAppearance`, `getAppearance`, `appearances`, `setEntry`, `getText`, `setFlags`, `getFlags`, `getAnnotRect`, `setAnnotRect`, `getOpen`, `tryAnnot`, `newAnnot` | Map laws over the object table, separation of the annotation, its appearance dictionary and the form |
| C182 | Signature entries | `openSig`, `Sig.value`, `Sig.store`, `Sig.setText`, `Sig.getText`, `Sig.setDate`, `Sig.getDate`, `Sig.setCreator`, `Sig.ensure`, `Sig.prepare`, `Sig.certify` | Map laws over the object table, the date round trip C59, absence of references to the added objects |
| C183 | Reading on demand | `Objects/Lazy`: objects with their place in a file, loading flags, streams with owners and the mark for updates; programs as lists of calls | simulation of an eager machine by the lazy one, by induction over the history; refutations for every instance |
| C184 | Font manager | `Fonts/FontManager`: names, the cache of imported fonts with the comparison its hash table uses, requests, embedding; system fonts and the table are parameters | invariants of the numbers and of the entries by induction over the history; refutations for every instance |
| C185 | Font files | `Fonts/FontFiles`: the search for the Type 1 lengths, the key, dictionary and data written | cases over the kind, induction over the bytes searched; refutations for every instance |
| C186 | Extended graphics states | `gsCall` over a dictionary; reader of ISO 32000 table 58 as specification | induction over the calls with the reader's view as invariant |
| C187 | Fonts loaded from objects | `loadFont`, `simpleMetrics`, `withLimits`, `LoadedFont.codeWidth` over any document; encoding maps are a parameter | inversion of the successful load, induction over `/Widths` |
| C188 | Streamed documents | `SDoc`: file, writer state and objects under `create`, `makeStream`, `writeStream`, `close` | invariant over all histories (`streamed_reach`), exact file text for the one stream that works, refutations for the rest |
| C189 | Standard fonts | all fourteen width tables and character maps as data; making and loading standard fonts; glyph numbers of codes | the tables checked by the kernel entry by entry; case analysis on the font dictionary |
| C190 | Simple fonts written and loaded | `FillDescriptor`, `Init`, `embedFont` and `getWidthsArray`, composed with the model of loading of C187 | all entries looked up in the written dictionaries; rounding bounds |
| C191 | Forms | `Verif/Forms/Widgets.lean`: a document, a widget and the place its characteristics pointer points at (none, the /MK entry, an object); calls that create, set and remove; the getters; `m_Widget` of buttons by where they come from; `SetAction` and `GetAction` with the cached action. The components of colours are kept by any faithful storage of numbers. | Invariant (the widget opened again gives the same pointer) by induction on the calls; separate specification of what a reader finds. Refuted: captions of buttons made by forms, colours that are absent, characteristics removed while open, direct actions set again. |
| C192 | AES-256 passwords | `Verif/Crypt/Aes256.lean`: preparation of passwords (libidn a parameter), `ComputeHash` with its buffer, the U, UE, O, OE and Perms values, the encryption dictionary written and read, `Authenticate`, and encryption of buffers; digests and the block cipher are parameters of which only lengths and invertibility are used | algorithm 2.B as an inductive relation, equality by induction on the rounds left, sum of bytes equals the big-endian number modulo three, round trip of the dictionary |
| C193 | Fonts | `Fonts/DynamicEncoding.lean`: the glyphs in use, the two maps filled as texts are encoded, encoding a sequence of texts, decoding through the maps and through the CMap that was saved | Invariant of the font after any sequence (the glyphs in use are numbered in order of first use); reading a text by induction; C101 for the CMap that is saved; the ambiguity of codes of one and two bytes for the negative results |
| C194 | Fonts | `Fonts/CidCMap.lean`: the text of the CMap of codes and CIDs of a subset font, of the map of a CMap and of an encoding of one byte; the reader of `Fonts/CMapModel.lean` | The text is read token by token: beginning, code space (C101), entries by induction with the history of the map (C92), end; composed with C193 for fonts made without an encoding |
| C195 | Fonts | `Fonts/WholeFont.lean`: the codes given to characters by a font that is made without an encoding and embedded whole; the map of `Fonts/CharMap.lean`, the readers of `Fonts/DynamicEncoding.lean` | Invariant over all texts: the map has the characters in use in the order of their first use; lookups by C56 for any order of the tree |

## 3. Trusted base

* Lean 4.33.0's kernel.  Axioms: at most `propext`, `Classical.choice`, `Quot.sound`; the table below
  gives them per theorem.  No axiom is added, there is no `sorry`, no `native_decide`, no `bv_decide`.
* Faithfulness of the hand translation from C++ to the model: each definition cites the lines it models
  and states its simplifications.  The C++ compiler, the standard library (containers, streams) and the
  operating system are outside the model.
* External behaviour that enters a theorem as a parameter or hypothesis: zlib (`Flate`) is any codec that
  round-trips; JPEG/CCITT filters are not modelled; floating-point formatting is modelled on exact decimal
  expansions (`Reals`), not on IEEE rounding.

### Axioms of each claimed theorem

* Classical.choice, Quot.sound, propext: `C03_a85_roundtrip`, `C03_a85_endmarker`, `C04_a85_alphabet`, `C04_a85_rejects_foreign`, `C04_a85_rejects_z_inside_group`, `C05_rle_total_partial`, `C06_lzw_safe_partial`, `C07_lzw_decodes`, `C08_rle_block_independent`, `C09_png_partial`, `C10_predictor_safe_partial`, `C11_tiff`, `C12_ascii_filters_roundtrip`, `C15_name_tokenization`, `C18_integer_roundtrip`, `C19_write_parse`, `C19_write_parse_context`, `C20_tokens_progress`, `C20_parse_terminates`, `C21_lookahead_partial`, `C22_deep_arrays_raise`, `C22_depth_history_partial`, `C22_limit_leaks_false`, `C22_dictionaries_unbounded_false`, `C24_eq_characterised`, `C24_transitive`, `C24_equality_partial`, `C24_object_partial`, `C25_reference_order`, `C27_array_is_list`, `C27_array_op`, `C28_changes_saved_partial`, `C29_list_is_map`, `C30_fresh_partial`, `C30_fresh_false`, `C30_replaces_live_false`, `C31_generations_partial`, `C31_exhausted_false`, `C32_replace_partial`, `C32_neighbour_false`, `C32_foreign_false`, `C33_garbage`, `C33_collected_are_free`, `C34_table`, `C34_size`, `C35_free_chain_partial`, `C35_no_head_false`, `C37_table_round_trip_partial`, `C37_many_sections_false`, `C38_stream_round_trip_partial`, `C38_large_offset_false`, `C39_stays_inside_partial`, `C40_long_chain_false`, `C42_terminates_partial`, `C45_page_at_partial`, `C45_deep_false`, `C46_insert_partial`, `C47_remove_partial`, `C48_history_partial`, `C48_failed_remove_false`, `C49_name_tree_lookup`, `C50_name_tree_shape`, `C51_links_partial`, `C51_calls_partial`, `C51_insert_false`, `C53_append_partial`, `C53_consistent`, `C53_in_memory`, `C53_gap_false`, `C53_zero_reference_false`, `C54_endless_false`, `C54_endless_no_free_false`, `C55_text_round_trip`, `C55_text_bytes`, `C55_bytes_round_trip`, `C57_longest_partial`, `C59_date_roundtrip`, `C59_pdf_date_roundtrip`, `C59_w3c_date_roundtrip`, `C59_text_shows_the_clock`, `calendar_exact`, `C60_standard_dates_read_partial`, `C60_accepted_partial`, `C60_truncated_false`, `C60_trailing_garbage_false`, `C60_no_such_day_false`, `C61_position_inside`, `C61_seek_partial`, `C61_read`, `C61_write`, `C61_write_seek_read`, `C61_copy_all`, `C61_copy_count`, `C62_history_save_partial`, `C62_write_read_partial`, `C62_compress_loses_data_false`, `C63_passwords_partial`, `C63_permissions`, `C64_filters`, `C64_short_filters`, `C64_annotations`, `C64_versions`, `C64_color_spaces_partial`, `C65_round_trip`, `C65_read_unsigned`, `C65_write_unsigned`, `C67_toString_roundtrip`, `C72_lookup_partial`, `C72_text_false`, `C76_startxref_partial`, `C77_page_number_partial`, `C78_index_partial`, `C80_text_survives_partial`, `C80_mark_false`, `C81_evaluation_partial`, `C82_name_text`, `C82_name_accepted`, `C83_keywords_partial`, `C83_keywords_false`, `C85_null_counts`, `C85_null_never_readable`, `C87_block_read_partial`, `C87_long_contents_lost_false`, `C88_use_partial`, `C88_history_partial`, `C88_stale_parms_false`, `C89_failed_set_false`, `C89_failed_use_partial`, `C90_move`, `C91_object_roundtrip`, `C94_encode_decode_partial`, `C94_one_size_partial`, `C94_mixed_sizes_false`, `C95_decode_total`, `C97_range_partial`, `C97_ligature_false`, `C98_bfrange_partial`, `C98_number_size_partial`, `C99_terminates_partial`, `C99_negative_false`, `C99_long_code_false`, `C100_listed_partial`, `C100_identity_false`, `C101_read_back`, `C102_one_byte_false`, `C103_identity_false`, `C104_reloaded_keys_partial`, `C104_other_keys_false`, `C105_dictionary_partial`, `C105_other_characters_false`, `C108_read_partial`, `C109_given_password_partial`, `C109_empty_password_false`, `C109_two_saves_false`, `C110_update_false`, `C113_user_password`, `C114_load_partial`, `C114_long_stream_false`, `C114_long_stream_flag_false`, `C114_long_stream_cut`, `C114_small_buffer_false`, `C115_signed_partial`, `C116_save_load_partial`, `C116_free_generation_false`, `C117_history_partial`, `C117_identifier`, `C117_update_limit_false`, `C117_second_update_false`, `C117_update_new_document_false`, `C117_info_removed_false`, `C118_save_version_partial`, `C118_save_version_false`, `C118_update_version_partial`, `C118_update_v20_false`, `C118_update_lower_false`, `C120_real_exact`, `C120_real_close`, `C120_integral_real_false`, `C121_operands`, `C122_reader_delivers`, `C123_reading_ends`, `C123_nested_partial`, `C123_nested_handler_false`, `C124_bad_value_false`, `C124_handler_dictionary_false`, `C125_throw_on_warnings_false`, `C126_compressed_objects`, `C126_document`, `C126_unwanted_object_false`, `C127_widths_partial`, `C128_widths_partial`, `C129_read_partial`, `C129_read_false`, `C130_cid_set`, `C130_length`, `C131_numbering`, `C133_tags_partial`, `C134_same_outlines_partial`, `C134_zero_false`, `C134_twice_false`, `C134_empty_false`, `C135_ends`, `C135_closure`, `C136_metrics_partial`, `C136_metrics_false`, `C137_tables_partial`, `C137_search_range_false`, `C137_checksum_false`, `C137_missing_false`, `C139_last_wins`, `C139_round_trip`, `C139_reread`, `C139_base_reread`, `C139_base_false`, `C140_names_partial`, `C140_large_false`, `C142_drawing_partial`, `C142_unsaved_history`, `C142_glued_false`, `C144_form_partial`, `C144_twice_false`, `C144_lost_false`, `C145_other_pages_partial`, `C145_shared_false`, `C145_painters_false`, `C146_cases`, `C146_inherited_partial`, `C146_nearest`, `C146_cycle_false`, `C146_null_false`, `C147_full_name_partial`, `C147_unique_partial`, `C147_empty_false`, `C147_cycle_false`, `C147_set_name`, `C147_raw`, `C147_remove_name`, `C148_flags_partial`, `C148_inverted_false`, `C149_created`, `C149_child`, `C149_kept`, `C149_history`, `C150_insert`, `C150_remove`, `C150_items`, `C150_history`, `C150_selected`, `C150_select_partial`, `C150_select_false`, `C150_stale_false`, `C151_text_partial`, `C151_terminal`, `C151_checked_partial`, `C151_limit_false`, `C151_limit_type_false`, `C151_state_false`, `C151_inherit_false`, `C151_removed`, `C152_step_partial`, `C152_history_partial`, `C152_bad_false`, `C152_duplicate_false`, `C152_iterate_false`, `C153_create_partial`, `C153_widget`, `C153_history_partial`, `C153_loaded_false`, `C153_found_false`, `C153_orphan_false`, `C154_corners`, `C154_array_partial`, `C154_read`, `C154_intersect_partial`, `C154_zero_false`, `C154_disjoint_false`, `C155_product`, `C155_kinds`, `C155_frame_inverse`, `C155_frame_partial`, `C155_rect_partial`, `C155_apply_false`, `C156_box`, `C156_set`, `C156_rotation`, `C156_turn`, `C156_size_partial`, `C156_reference_false`, `C156_inherited_false`, `C156_rotation_false`, `C156_report_false`, `C156_shared_false`, `C156_moves_false`, `C157_positions_partial`, `C157_order`, `C157_quote_false`, `C157_rotated_line_false`, `C157_rotated_advance_false`, `C157_rise_false`, `C157_stretch_false`, `C157_form_false`, `C157_unmapped_false`, `C157_restore_false`, `C158_words`, `C158_lines_partial`, `C158_glued_false`, `C158_preserved`, `C158_tokens`, `C159_substring`, `C159_word_partial`, `C159_word_false`, `C160_length_partial`, `C160_length_several_partial`, `C160_word_partial`, `C160_contiguous`, `C160_text_matrix_false`, `C160_trim_false`, `C160_substring_false`, `C160_word_length_false`, `C160_word_place_false`, `C160_scale_false`, `C161_separation_false`, `C161_lab_false`, `C161_color_false`, `C162_ranges`, `C162_total`, `C162_rgb_cmyk_rgb`, `C162_gray`, `C162_cmyk_rgb`, `C162_number_partial`, `C162_number_sign`, `C162_hex`, `C162_hex_bad`, `C162_named_partial`, `C162_tint_partial`, `C162_tint_rgb_partial`, `C162_cmyk_rgb_cmyk_false`, `C162_array_false`, `C162_separation_gray_false`, `C162_separation_false`, `C162_number_false`, `C162_hex_length_false`, `C162_unknown_false`, `C162_view_false`, `C162_tint_large_false`, `C162_tint_gray_false`, `C162_tint_lab_false`, `C163_written`, `C163_fit_false`, `C163_kind`, `C163_left_partial`, `C163_top_partial`, `C163_zoom_partial`, `C163_value_partial`, `C163_fitbv_false`, `C163_null_false`, `C163_rect_false`, `C163_safe`, `C163_named`, `C163_action_partial`, `C163_action_names`, `C163_action_false`, `C164_matrix_partial`, `C164_matrix_false`, `C164_rect_false`, `C164_box`, `C164_resources_partial`, `C164_inherited_false`, `C164_draw_false`, `C165_resources_partial`, `C165_resources_false`, `C165_draw_false`, `C165_create`, `C165_shared_false`, `C165_icc`, `C165_icc_false`, `C166_written`, `C166_plain_partial`, `C166_path_false`, `C166_other_false`, `C166_memory`, `C166_kept_false`, `C166_dot_false`, `C166_file_partial`, `C166_changed_false`, `C166_failed_false`, `C166_attach`, `C166_same_false`, `C167_crash_false`, `C167_update_crash_partial`, `C167_atomic_partial`, `C167_own_all_false`, `C167_own_update_partial`, `C168_set_partial`, `C168_brackets_partial`, `C168_fresh_partial`, `C168_restore_false`, `C168_initial_false`, `C168_canvas_false`, `C168_refused_false`, `C168_matrix_false`, `C169_font`, `C169_text_partial`, `C169_open_partial`, `C169_mode_false`, `C169_scale_false`, `C169_spacing_false`, `C169_begin_false`, `C169_nofont_false`, `C169_fill_false`, `C170_text_partial`, `C170_strict_partial`, `C170_switch_false`, `C170_encode_false`, `C170_utf8_false`, `C170_multi_false`, `C170_inside_false`, `C170_restore_false`, `C171_straight_partial`, `C171_straight_false`, `C171_smoothQuad_partial`, `C171_chain_partial`, `C171_quad_false`, `C171_smooth_partial`, `C171_smooth_false`, `C171_arc_false`, `C171_circle`, `C171_ellipse`, `C171_round_partial`, `C171_rectangle`, `C171_round_false`, `C172_tabs_partial`, `C172_tabs_false`, `C172_align_partial`, `C172_align_false`, `C172_multi_partial`, `C172_wrap_false`, `C172_double_false`, `C173_grey_false`, `C173_short_false`, `C173_mask_false`, `C173_width_false`, `C173_jpeg_false`, `C174_set_partial`, `C174_saved_partial`, `C174_refused_false`, `C174_refused_decode_false`, `C174_stale_mask_false`, `C174_raw_partial`, `C174_raw_filters_false`, `C174_raw_space_false`, `C174_raw_unset_false`, `C174_raw_saved_partial`, `C174_raw_saved_false`, `C174_names_partial`, `C174_names_false`, `C174_icc_false`, `C174_key_partial`, `C174_key_range_false`, `C174_image_dims`, `C174_grey_line_partial`, `C174_packed_jpeg`, `C175_kind`, `C175_found_partial`, `C175_new_form`, `C175_new_image_false`, `C175_bad_box_false`, `C175_untyped_false`, `C175_untyped_mask_false`, `C175_matrix_partial`, `C175_matrix_ref_false`, `C175_matrix_length`, `C175_names_distinct_partial`, `C175_names_false`, `C175_new_kind`, `C175_new_form_entries`, `C175_no_box`, `C176_rgba_partial`, `C176_rgb_partial`, `C176_grey_alpha_partial`, `C176_rest_false`, `C176_many_pixels_false`, `C176_palette_false`, `C176_bits_false`, `C177_magic_partial`, `C177_extension`, `C177_png_reads`, `C177_tiff_rgb_partial`, `C177_tiff_grey_partial`, `C177_grey_decode_false`, `C177_white_is_zero_false`, `C177_tiff_bits_false`, `C177_tiff_refused_partial`, `C177_tiff_refused_false`, `C177_tiff_leak_false`, `C177_jpeg_partial`, `C177_jpeg_decode_false`, `C177_quality`, `C178_unwrap_partial`, `C178_media_lost_false`, `C178_unwrap_failed_partial`, `C178_failed_open_false`, `C179_lock_partial`, `C179_own_stream_partial`, `C180_page_mode_read`, `C180_page_mode_set`, `C180_page_layout`, `C180_preference`, `C180_full_screen_partial`, `C180_full_screen_false`, `C180_full_screen_twice_false`, `C180_metadata_partial`, `C180_metadata_direct_false`, `C180_metadata_read_partial`, `C181_appearance_partial`, `C181_state_over_form_false`, `C181_text_partial`, `C181_removed_false`, `C181_flags`, `C181_rect`, `C181_open_partial`, `C181_open_false`, `C181_kind`, `C181_try_false`, `C182_text`, `C182_date`, `C182_no_value`, `C182_ensure`, `C182_prepare`, `C182_creator_partial`, `C182_creator_false`, `C182_certify_partial`, `C182_perms_false`, `C182_orphans_false`, `C182_certify_direct_false`, `C182_text_object`, `C183_lazy_partial`, `C183_broken`, `C183_move_partial`, `C183_text_false`, `C183_text_clean_false`, `C183_raw_false`, `C183_assign_false`, `C183_length_false`, `C183_self_false`, `C183_move_false`, `C183_move_new_false`, `C183_moved_stream_false`, `C183_read`, `C184_names`, `C184_names_plain`, `C184_embed`, `C184_std_partial`, `C184_name_partial`, `C184_std_again_partial`, `C184_std_false`, `C184_flags_false`, `C184_poison_false`, `C184_known_false`, `C185_embed_partial`, `C185_empty`, `C185_type1_false`, `C185_type1_lengths_false`, `C185_opentype_false`, `C186_gstate_partial`, `C186_both_false`, `C186_stroke_false`, `C186_halftone`, `C187_widths_partial`, `C187_outside_partial`, `C187_refused`, `C187_missing_false`, `C187_one_false`, `C187_truetype_false`, `C187_descendant_false`, `C187_stretch_false`, `C187_limits`, `C188_raw_partial`, `C188_memory_false`, `C188_default_false`, `C188_filter_false`, `C188_close_false`, `C188_again_false`, `streamed_reach`, `C189_made`, `C189_letters_false`, `C189_courier_partial`, `C189_listed_false`, `C189_beyond_false`, `C189_names`, `C190_embedded_partial`, `C190_unembedded_false`, `C190_default_false`, `C191_chars`, `C191_caption`, `C191_color_partial`, `C191_no_color_false`, `C191_button_false`, `C191_removed_false`, `C191_action_partial`, `C191_action_direct`, `C191_action_false`, `C191_action_removed_false`, `C191_color_removed`, `C191_open`, `C191_action_refused`, `C192_hash`, `C192_authenticate`, `C192_user`, `C192_owner`, `C192_wrong`, `C192_perms`, `C192_data`, `C192_nul_false`, `C192_empty_owner_false`, `C193_encode`, `C193_read_back_partial`, `C193_same_text_partial`, `C193_cids_partial`, `C193_reloaded_partial`, `C193_shared_false`, `C193_many_false`, `C194_read_back`, `C194_sizes`, `C194_sizes_false`, `C194_dynamic_partial`, `C194_whole`, `C194_one_byte_partial`, `C194_no_character`, `C194_last_false`, `C195_encode`, `C195_read_back_partial`, `C195_cids_partial`, `C195_many_false`, `C195_same_bytes`
* Quot.sound, propext: `C01_hex_roundtrip`, `C02_hex_spec_partial`, `C02_hex_spec_false`, `C02_hex_endmarker_false`, `C04_a85_total`, `C04_a85_skips_white`, `C08_hex_block_independent`, `C08_a85_block_independent_partial`, `C12_read_stream`, `C13_direction_not_checked`, `C14_name_escape_roundtrip`, `C14_name_escape_injective`, `escapeName_chars`, `C16_literal_string_roundtrip`, `C17_hex_string_roundtrip`, `C19_noInline_false`, `C19_nul_name_rejected`, `C21_last_token_lost_false`, `C22_shallow_arrays_parse`, `C23_real_text_partial`, `C24_array_ne_partial`, `C26_dict_is_map`, `C27_index`, `C28_dict_assign_false`, `C33_null_reference_false`, `C36_entry_width_partial`, `C36_entry_width_false`, `C40_newest_wins_partial`, `C40_known_entries_stay`, `C41_trailer_partial`, `C42_read_twice_false`, `C43_header_partial`, `C43_partial_match_false`, `C43_other_version_false`, `C44_last_partial`, `C44_first_false`, `C44_missing_false`, `C44_missing_whole_partial`, `C51_loaded_false`, `C51_erase_root_false`, `C56_any_order_partial`, `C56_order_matters_false`, `C58_sequence_partial`, `C58_single_partial`, `C58_single_false`, `C61_constructed_inside`, `C61_char`, `C63_v1_length_false`, `C63_v2_length_false`, `C63_padding`, `C65_big_endian_host_false`, `C66_exact`, `C68_literal_string_partial`, `C68_other_escape_false`, `C68_eol_false`, `C68_octal_paren_false`, `C69_hex_string_reading`, `C70_separators_ignored`, `C71_name_reading`, `C73_updates_partial`, `C73_hybrid_false`, `C74_parse_again_false`, `C75_entry_partial`, `C75_wide_false`, `C75_type_false`, `C76_eof`, `C76_no_eof`, `C76_strict`, `C86_chars_joined`, `C87_single_stream_cut_false`, `C88_parms_overrun_false`, `C90_copy`, `C92_code_points_partial`, `C92_other_size_false`, `C93_limits_partial`, `C93_zero_code_false`, `C98_bfchar_partial`, `C98_cid_range_false`, `C104_wrong_key_false`, `C106_reload_partial`, `C106_many_chapters_false`, `C107_range_partial`, `C107_beyond_false`, `C108_write_partial`, `C108_zero_key_false`, `C110_same_identifier_partial`, `C111_no_ub_partial`, `C111_short_string_false`, `C111_negative_length_false`, `C111_no_length_false`, `C112_same_info_partial`, `C112_same_length_false`, `C114_last_bytes_false`, `C115_huge_file_false`, `C119_add`, `C119_has`, `C119_remove_false`, `C119_remove_other_false`, `C120_large_real_false`, `C124_image_data_partial`, `C124_unended_image_false`, `C125_operand_warning_partial`, `C126_negative_offset_false`, `C128_safe_partial`, `C128_last_false`, `C128_list_false`, `C128_bad_default`, `C129_write_partial`, `C129_write_false`, `C131_stable`, `C132_length_partial`, `C132_length_false`, `C133_reopened_false`, `C138_encode_decode`, `C138_decode_encode_partial`, `C138_standard_partial`, `C138_standard_false`, `C139_wrap_false`, `C139_overflow_false`, `C140_unreadable_false`, `C140_shared_false`, `C141_difference_encoding`, `C141_encode_decode`, `C141_limits_false`, `C159_contains`, `C159_equal`, `C161_add_partial`, `C161_remove_partial`, `C161_remove_all_partial`, `C161_pointer_partial`, `C161_history_partial`, `C161_found`, `C161_shared_false`, `C161_pointer_false`, `C162_array_partial`, `C162_array_refused`, `C162_density_false`, `C164_contents_false`, `C166_strip`, `C167_open_partial`, `C167_own_false`, `C173_decode_partial`, `C173_set_partial`, `C173_round_trip_partial`, `C173_set_grey_partial`, `C173_buffer_partial`, `C173_grey_line_partial`, `C173_jpeg_partial`, `C173_fax_partial`, `C173_stride_false`, `C173_set_stride_false`, `C174_dims_partial`, `C174_dims_false`, `C176_palette_index_partial`, `C176_nibbles_false`, `C176_pairs_false`, `C176_palette_mask_partial`, `C177_tiff_reads_partial`, `C177_seek_end_false`, `C177_seek_back_false`, `C192_same`, `C192_open`, `C192_short_false`, `C192_missing_false`, `C192_perms_false`, `C193_code_cids`, `C195_zero_false`
* none: `C12_empty_refused`, `C13_flush_failure_blocks`, `C51_insert_parent_false`, `C52_never_raised_false`, `C96_moved_limits_false`, `C159_no_pattern`, `C163_link_false`, `C164_loop_false`
* propext: `C05_rle_false`, `C05_rle_repeat_false`, `C06_lzw_empty_ub`, `C08_predictor_block_independent`, `C08_a85_block_independent_false`, `C08_lzw_block_independent_false`, `C09_png_false`, `C10_paeth_div_zero`, `C10_overflow_ub`, `C12_chain_roundtrip`, `C13_protocol_partial`, `C23_precision_zero_false`, `C24_ne_false`, `C24_ne_always_true`, `C24_symmetry_false`, `C24_object_symmetry_false`, `C24_self_false`, `C27_index_false`, `C28_lost_without_link`, `C28_array_growth_false`, `C28_array_insert_false`, `C28_resize_false`, `C39_reads_outside_false`, `C39_index_overflow_false`, `C49_empty_root_false`, `C51_walk_partial`, `C59_outside_false`, `C60_reads_behind_the_view_false`, `C60_short_number_false`, `C61_seek_min_false`, `C61_access`, `C64_calrgb_false`, `C78_index_false`, `C79_resources_partial`, `C79_inherited_false`, `C81_evaluation_idempotent`, `C81_evaluation_false`, `C84_set_date_partial`, `C84_set_same_partial`, `C84_loaded_values_partial`, `C84_set_text_false`, `C84_set_author_false`, `C84_removed_date_false`, `C91_stream_data_start`, `C103_four_bytes_false`, `C119_indirect_false`, `C121_names`, `C124_ends_with_E_false`, `C124_ends_stream_false`, `C126_eager_false`, `C127_mapped_false`, `C127_default_false`, `C138_undefined_false`, `C143_isolated_partial`, `C143_unbalanced_false`, `C147_escape_false`, `C161_get`, `C163_exclusive`, `C163_set`, `C163_empty_false`, `C163_link_named_false`, `C164_contents_partial`, `C167_refused`, `C167_createnew_false`, `C167_openorcreate_false`, `C167_emptied_false`, `C167_save_false`, `C167_failed_false`, `C167_update`, `C170_finish_false`, `C177_tiny_false`, `C177_png_short_false`, `C177_seek_4g_false`, `C179_failed_open_false`, `C179_moved_false`, `C179_assign_false`, `C179_assign_out_false`, `C179_refused_output_partial`

### Code that is modelled

Lines cited by the definitions (generated from the comments in the modules).

| file | lines modelled | Lean modules |
|---|---|---|
| `base/PdfAcroForm.cpp` | 213-236 | Collections |
| `base/PdfAction.cpp` | 14-34, 36-44, 46-53, 85-93 | Destinations, Widgets |
| `base/PdfAction.h` | 30-52 | Destinations |
| `base/PdfAnnotation.cpp` | 23-41, 48-54, 56-61, 63-93, 77-79, 81-93, 190-193, 195-229, 205-213, 215-227, 251-266, 268-277, 279-282, 284-292, 313-319, 321-329, 331-337, 339-347, 370-383, 410-511, 577-586 | Annots |
| `base/PdfAnnotationActionBase.cpp` | 25-29, 31-48, 60-154, 60-66, 63, 68-79, 81-87, 84, 89-100, 105, 110-118, 123, 128-136, 141, 146-154 | Destinations, Widgets |
| `base/PdfAnnotationActionBase.h` | 54-60, 63-73 | Widgets |
| `base/PdfAnnotationCollection.cpp` | 44-62, 64-79, 86-104, 112-123, 134-141, 143-147, 149-178, 162-179, 180-188 | Collections |
| `base/PdfAnnotationWidget.cpp` | 41-52, 50 | Widgets |
| `base/PdfAnnotation_Types.cpp` | 16-20, 27-39, 66-72, 74-77, 87-90 | Annots, Destinations |
| `base/PdfArray.cpp` | 16-20, 28-310, 48-64, 122-131, 192-217, 204-214, 226-231, 238-243, 245-251, 253-263, 298-310, 317-325, 367-374, 405-412, 405-421 | ChoiceField, CidWidths, Destinations, DirtyModel, DirtyProps, Equality, FontLoad, TokModel, XObject |
| `base/PdfButton.cpp` | 47-59, 61-68 | Widgets |
| `base/PdfCIDToGIDMap.cpp` | 18-33, 28, 47-67 | GidMap |
| `base/PdfCMapEncoding.cpp` | 22-26, 41-45, 47-91, 51-58, 65-81, 104-280, 122-267, 126-136, 132-135, 142-181, 148-180, 152, 157-166, 194-216, 227-242, 247-250, 252-262, 255-261, 286-292, 295-323, 327-362, 333-345, 350-358, 364-370, 372-381, 389-392, 410-442 | CMapModel, CodeSpace |
| `base/PdfCMapEncoding.h` | 17-42 | CodeSpace |
| `base/PdfCanvas.cpp` | 70-79 | FormPage |
| `base/PdfCanvasInputDevice.cpp` | 15-46 | PageContents |
| `base/PdfCatalog.cpp` | 29-39, 41-55, 103-129, 131-163, 165-175, 177-192, 199-232, 251-280 | Catalog |
| `base/PdfCharCodeMap.cpp` | 16-17, 45-52, 54-67, 69-80, 82-86, 88-124, 92-110, 126-138, 140, 142-150, 161-197, 177-191, 199-210, 208-248, 212-256, 222-224, 223-231, 226-244, 258-273 | CharMap, CodeSpace, WholeFont |
| `base/PdfCharCodeMap.h` | 88-95, 97-102 | CharMap |
| `base/PdfCheckBox.cpp` | 51-55, 57-72, 65-72 | FieldValue |
| `base/PdfChoiceField.cpp` | 33-56, 34-170, 36-47, 58-69, 71-94, 82-96, 96-121, 111-124, 123-130, 132-137, 139-173, 155-175, 157-174, 180-188 | ChoiceField, FieldFlags |
| `base/PdfColor.cpp` | 145-295, 297-301, 303-311, 313-323, 325-340, 342-359, 373-384, 386-433, 460-512, 464-471, 470, 514-576, 528-537, 578-625, 586-606, 592, 627-679, 681-790, 696-763, 707-719, 780-786, 810-850, 853-860, 903-905, 1114-1118 | Colors, Painter, Widgets |
| `base/PdfColor.h` | 384-402, 396-402 | Colors |
| `base/PdfComboBox.cpp` | 14-24 | FieldFlags |
| `base/PdfContents.cpp` | 81-131, 83-100, 102-123, 125-130, 133-142 | PageContents |
| `base/PdfContentsReader.cpp` | 19-40, 24-40, 42-108, 60-80, 83-89, 86-89, 91-107, 115-168, 133-140, 170-174, 176-241, 241-274, 278-316, 322-353, 325-333, 329-330, 355-424, 364-369, 380-420, 426-430, 432-442 | ReaderModel |
| `base/PdfContentsReader.h` | 21-31, 33-42, 46-57, 59-78, 123-128, 131-139 | ReaderModel |
| `base/PdfData.cpp` | 33-42 | SignModel |
| `base/PdfDataContainer.cpp` | 44-48 | DirtyModel |
| `base/PdfDate.cpp` | 128-178, 130-151, 190-193, 200-290, 218-223, 225-257, 227-254, 259-289, 269-276, 278-282, 292-374, 314-343, 314-341, 345-373, 354-358, 376-395, 418-437, 439-454 | Dates, Metadata |
| `base/PdfDeclarations.h` | 67-79, 119-130, 168-174, 182-195, 312-326, 328-336, 341-352, 383-388, 393-398, 460-469, 478-488, 490-507, 518-550, 602-607, 612-617, 622-715 | Annots, Catalog, FieldFlags, ImageObj, Operators, Painter, Pixels, SaveVersion, Std14Data, Tables, TokModel |
| `base/PdfDestination.cpp` | 24-27, 29-41, 43-53, 55-64, 66-85, 87-144, 128-143, 146-158, 160-168, 170-195, 177-194, 197-208, 210-221, 223-231, 233-256, 258-264 | Destinations |
| `base/PdfDestination.h` | 18-27, 33-44, 51 | Destinations |
| `base/PdfDictionary.cpp` | 29-188, 43-50, 52-59, 70-121, 88-94, 96-103, 96-121, 105-121, 123-132, 133-146, 134-146, 148-170, 172-177, 179-188, 190-227, 198-224, 201-204, 216-218, 236-241, 263-270, 309-312 | Annots, Boxes, Catalog, DirtyModel, DirtyProps, Equality, Extensions, ImageObj, Inherit, Lazy, NameText, PageRes, ResourceDict, SaveVersion, SignModel, TokModel |
| `base/PdfDictionary.h` | 20-37, 38, 351-359, 492-508 | Annots, CidWidths, Inherit, NameText, ObjStreamModel |
| `base/PdfDifferenceEncoding.cpp` | 28-1325, 1327-2384, 2393-2406, 2408-2427, 2440-2457, 2459-2478, 2505-2526, 2528-2545, 2551-2576, 2578-2590, 2592-2608, 2645-2672, 2674-2694 | Differences, GlyphNameTables, GlyphNames |
| `base/PdfDocument.cpp` | 119, 119-145, 133, 201-231, 204, 213-216, 219-231, 289-327, 313, 322-326, 329-333, 335-345, 361-368, 370-372, 387-423, 444-482, 452-453, 468-469, 479-480, 527-531, 533-543 | AppendModel, FileSpec, FormPage, Metadata |
| `base/PdfElement.cpp` | 26-34, 43-48, 55-63 | Destinations, FileSpec, Widgets, XObject |
| `base/PdfEncoding.cpp` | 43-61, 73-76, 87-114, 87-158, 94-114, 117-139, 141-154, 184-220, 205-216, 208-216, 235-242, 262-265, 267-291, 311-354, 463-469, 526-542, 544-651, 559-571, 575-615, 630-638, 639, 653-684, 663-674, 679-683 | CMapModel, CMapOneByte, CidCMap, CodeSpace, DynamicEncoding, FontLoad, SimpleWrite, StdFonts, WholeFont |
| `base/PdfEncodingCommon.cpp` | 13-16, 18-21, 29-32, 38-42, 44-90, 117-120 | CMapModel, CharMap, CodeSpace, DynamicEncoding, WholeFont |
| `base/PdfEncodingCommon.h` | 17-45, 72-90 | CharMap |
| `base/PdfEncodingFactory.cpp` | 25-64 | FontLoad |
| `base/PdfEncodingMap.cpp` | 38-62, 110-127, 202-238, 245-271, 249-270, 258-268, 273-280, 287-305, 316-334, 336-349, 360-367, 407-432, 422-429, 449-465, 531-543, 545-557, 559-567 | CMapModel, CMapOneByte, CidCMap, CodeSpace, Differences, DynamicEncoding |
| `base/PdfEncrypt.cpp` | 80, 139-168, 149-159, 153-159, 179-204, 206-211, 225-232, 255-265, 268-271, 276-290, 298-384, 344-374, 375-383, 386-395, 426-427, 429-452, 454-558, 481, 532, 560-577, 592-606, 608-616, 617-620, 637-650, 666-715, 687-699, 701-711, 717-840, 724, 737-741, 781-797, 825-833, 842-870, 889-918, 951-998, 1000-1017, 1019-1048, 1026-1034, 1054-1057, 1086-1104, 1093, 1095-1096, 1106-1108, 1121-1124, 1171-1202, 1204-1233, 1238-1255, 1257-1285, 1261-1269, 1347-1363, 1356-1357, 1364-1371, 1415-1478, 1437-1476, 1452-1474, 1480-1526, 1575-1590, 1592-1599, 1626-1654, 1656-1721, 1678-1699, 1723-1782, 1813-1834, 1839-1854, 1856-1863, 1885-1890, 1892-1903, 1905-1943 | Aes256, AesModel, PasswordModel, Rc4, Resave |
| `base/PdfEncrypt.h` | 64-83, 89-99, 386-400, 389-400, 463-466, 578-579 | Aes256, PasswordModel, Rc4, Resave |
| `base/PdfExtGState.cpp` | 18-33, 35-84, 77-81 | GStates |
| `base/PdfExtGState.h` | 37-80 | GStates |
| `base/PdfField.cpp` | 30-48, 30-68, 33, 50-78, 53, 73, 161-218, 170-183, 194, 195-210, 212-213, 269-317, 375-409, 411-453, 420-452, 455-490, 497-504, 522-543, 532-540, 545-552, 555-566, 615-626, 643-651, 653-661, 810-823, 829-830, 842-876, 849-875, 863-868 | ChoiceField, FieldCreate, FieldFlags, FieldNames, Widgets |
| `base/PdfField.h` | 39-48 | FieldFlags |
| `base/PdfFieldChildrenCollection.cpp` | 120-132, 173-190 | Collections, FieldCreate |
| `base/PdfFileSpec.cpp` | 38-54, 40-41, 56-69, 71-106, 76, 80-103, 83-84, 85-88, 101, 122-143, 145-153, 155-164 | FileSpec |
| `base/PdfFilter.cpp` | 20-49, 123-126, 123-138, 129-137, 140-168, 199-247, 252-283, 285-301, 294-298, 303-309, 360-375, 377-391, 379-393, 393-409, 411-426, 428-442, 429-443, 444-476, 478-484 | ChainModel, Codec |
| `base/PdfFont.cpp` | 40-50, 71-127, 136-141, 159-166, 162, 189-217, 260-280, 291-300, 408-416, 409-416, 418-428, 430-499, 501-565, 656-671, 673-691, 693-764, 707-731, 770-782, 896-960, 905-911, 974-977, 1008-1014 | CidCMap, CidWidths, DynamicEncoding, FontFiles, FontLoad, FontManager, GidMap, Painter, SimpleWrite, StdFonts, WholeFont |
| `base/PdfFont.h` | 429-437, 436-437 | DynamicEncoding, WholeFont |
| `base/PdfFontCID.cpp` | 38-43, 114-129, 142-153, 160-195, 197-209, 211-223, 225-230, 232-237, 239-244 | CidWidths, GidMap |
| `base/PdfFontCIDTrueType.cpp` | 43-60, 53, 54-59 | GidMap |
| `base/PdfFontFactory.cpp` | 27-40, 75-179, 89-178, 94-118, 123-141, 123-143, 181-208 | FontLoad, FontManager, StdFonts |
| `base/PdfFontManager.cpp` | 53, 67-74, 78-85, 90-95, 97-111, 127-140, 142-159, 161-194, 161-171, 315-327, 412-429, 464-469, 478-481, 515-551 | FontManager, GidMap |
| `base/PdfFontManager.h` | 207-215, 211-212 | FontManager |
| `base/PdfFontMetrics.cpp` | 23, 29-36, 38-43, 167-174, 212-216 | CidWidths, DynamicEncoding, FontLoad, SimpleWrite, StdFonts |
| `base/PdfFontMetricsFreetype.cpp` | 76-85, 87-93, 227-246, 248-317, 260-278, 463-485 | FontFiles, FontManager |
| `base/PdfFontMetricsObject.cpp` | 23-132, 40-42, 45-59, 61-113, 78-110, 115-122, 124-131, 191-235, 191, 199-233, 202-208, 215-216, 218-219, 223-231, 230-231, 241-308, 241-318, 360-370, 527-537 | CidWidths, FontLoad |
| `base/PdfFontMetricsObject.h` | 82-119 | FontLoad |
| `base/PdfFontMetricsStandard14.cpp` | 18-36, 50-70, 56-66, 80-104, 111-129, 136-139 | StdFonts |
| `base/PdfFontObject.cpp` | 34-56, 35-56 | CidWidths, FontLoad, StdFonts |
| `base/PdfFontSimple.cpp` | 26-44, 56-112, 111 | SimpleWrite |
| `base/PdfFontTrueTypeSubset.cpp` | 24-35, 73-112, 73-82, 91-99, 114-195, 123-191, 125-139, 146-190, 206-250, 208-211, 213-221, 217-221, 223-249, 229-248, 235-241, 252-305, 260-262, 264-305, 266-294, 307-318, 321-347, 351-382, 362-377, 391-418, 420-522, 424-434, 438-447, 449-512, 451-512, 455-499, 475-482, 501-505, 536-556, 566-576 | TrueTypeModel |
| `base/PdfFontTrueTypeSubset.h` | 71-77, 88-95 | TrueTypeModel |
| `base/PdfGraphicsState.h` | 16-29 | Painter |
| `base/PdfIdentityEncoding.cpp` | 52-56, 78-94, 109-116 | CMapModel, CMapOneByte |
| `base/PdfImage.cpp` | 46-49, 51-56, 65-163, 76-162, 78-88, 172-177, 175-176, 179-224, 187-193, 195, 226-241, 243-264, 266-269, 268, 271-338, 331-337, 332, 333, 334, 335, 337, 340-388, 351-358, 360-370, 362, 375-387, 390-423, 425-468, 520-526, 570-592, 594-645, 656-833, 667-685, 688-815, 820-829, 853-863, 866-938, 870-886, 893-932, 973-989, 1042-1065, 1047-1059, 1145-1168, 1145-1148, 1158-1286, 1170-1235, 1182-1208, 1188-1204, 1212-1220, 1217, 1225-1233, 1237-1241, 1248-1282, 1299-1310, 1309, 1332-1347, 1349-1367 | ImageObj, Loading, Pixels, Png |
| `base/PdfImage.h` | 22-31 | ImageObj |
| `base/PdfImmediateWriter.cpp` | 66-82, 84-125, 127-132, 134-144, 146-159 | Streamed |
| `base/PdfImmediateWriter.h` | 81-84 | Streamed |
| `base/PdfIndirectObjectList.cpp` | 23, 24, 74-81, 107-115, 126-133, 135-147, 154-169, 171-182, 184-210, 196-208, 212-250, 212-226, 252-262, 269-283, 285-302, 309-314, 316-341, 343-368, 370-416, 477-483, 500-509 | Catalog, Garbage, ObjListModel, XObject |
| `base/PdfIndirectObjectList.h` | 18, 365-379 | AppendModel, ObjListModel |
| `base/PdfInfo.cpp` | 52-98, 176-190 | Metadata |
| `base/PdfInputStream.cpp` | 21-38, 56-72, 89-103 | AesModel, Lazy, Pixels, TrueTypeModel |
| `base/PdfListBox.cpp` | 13-23 | FieldFlags |
| `base/PdfMath.cpp` | 23-24, 31-34, 41-50, 52-71, 73-78, 88-98, 191-194, 200-208, 210-216, 233-249, 251-268 | Geometry, Painter, TextWidths, XObject |
| `base/PdfMath.h` | 20-46, 48-118 | Geometry |
| `base/PdfMathBase.h` | 28-66 | Geometry |
| `base/PdfMemDocument.cpp` | 152-174, 158-161, 176-191, 184-186, 197-219, 205-217, 207-216, 225-229, 231-257, 233-241, 241-247, 259-297, 265-297, 269-274, 279-285, 284, 333-346 | Extensions, Files, Lazy, SaveModel, SaveVersion |
| `base/PdfMetadata.cpp` | 22-160, 28-36, 39-166, 176-208, 315-319, 325-388, 331-361, 365-385, 390-398 | Metadata |
| `base/PdfName.cpp` | 40-43, 65-84, 86-89, 91-94, 96-107, 119-131, 141-183, 152-155, 159-160, 168-182, 171-173, 193-221, 208-209, 223-230, 273-277, 291-294, 319-324 | Destinations, Name, NameText, TokModel |
| `base/PdfName.h` | 128-138 | NameText |
| `base/PdfNameTree.cpp` | 25-29, 47-168, 51-70, 72-80, 101-137, 103-132, 138-162, 158-165, 170-228, 172-220, 182-189, 191-198, 230-306, 232-246, 238-302, 266-283, 292-293, 320-325, 327-340, 342-395, 349-372, 374-391, 397-408, 415-435, 437-443, 445-491, 450-464, 475-489 | NameTreeModel, NameTreeText |
| `base/PdfNameTree.h` | 21-26 | NameTreeModel |
| `base/PdfObject.cpp` | 28-36, 104-125, 107-111, 113-120, 116-125, 122-132, 152-162, 161-176, 199-206, 208-281, 312-316, 318-341, 324-345, 324-341, 348-352, 354-361, 366-371, 366-378, 373-378, 380-390, 392-396, 418-423, 426-435, 432-440, 440-451, 444-452, 484-497, 523-533, 542-548, 694-734, 706-746, 810-816, 818-836, 838-856 | AppendModel, Catalog, DirtyModel, Equality, Lazy, ObjListModel, Streamed |
| `base/PdfObject.h` | 402, 519-529 | Lazy, Widgets |
| `base/PdfObjectStream.cpp` | 34-38, 34-50, 52-56, 109-177, 130-173, 267-275, 299-351, 353-367, 384-388, 396-401, 403-411, 422-460, 458, 478-515, 479-513 | Handles, ImageObj, Lazy, PageContents, Streamed, Unwrap |
| `base/PdfObjectStream.h` | 41-44, 172, 236-240 | Handles, Lazy, Unwrap |
| `base/PdfObjectStreamParser.cpp` | 30-40, 30-34, 49-88, 53-65, 67-82, 78 | ObjStm |
| `base/PdfOperatorUtils.cpp` | 22-395, 22-394, 405-633, 644-1018 | Operators |
| `base/PdfOutlines.cpp` | 19-43, 45-63, 65-69, 77-82, 84-140, 100-121, 102-103, 127-139, 133-139, 142-182, 152-160, 184-191, 184-219, 193-200, 202-210, 212-219, 221-248, 230-247, 230-233, 235-238, 240-241, 243-244, 250-254, 261-273, 275-279, 358-361 | Destinations, OutlineModel |
| `base/PdfOutlines.h` | 252-264 | OutlineModel |
| `base/PdfOutputStream.cpp` | 24-40 | Codec |
| `base/PdfPage.cpp` | 24-31, 50-63, 70-78, 80-86, 164-192, 168-175, 176-189, 194-203, 205-211, 243-313, 245-255, 253-255, 315-327, 328-384, 339-386, 346-374, 404-413, 440-444, 478-501, 504-511, 513-527, 519-520 | Boxes, Model, PageContents, PageRes |
| `base/PdfPage.h` | 225-237 | Model |
| `base/PdfPageCollection.cpp` | 22-28, 39-42, 44-58, 60-78, 80-105, 95-102, 113-160, 113-132, 134-156, 162-169, 171-181, 198-231, 203-226, 233-337, 267-334, 294, 339-354, 355-362, 364-381, 372-381, 383-434, 393-423, 400-413, 436-475, 458-474, 477-481, 483-495, 497-507 | AppendModel, Extra, Model, PageRes |
| `base/PdfPageTreeCache.cpp` | 22-28, 30-40, 58-70, 72-79 | Model |
| `base/PdfPage_TextExtraction.cpp` | 30, 40-55, 57-80, 120-160, 152-154, 211-434, 211, 303-366, 317-322, 337-363, 338-363, 441-504, 444-498, 446-491, 449-452, 470-489, 493-497, 506-663, 509-541, 511-526, 528-540, 543-559, 561-640, 642, 717, 773-786, 788-801, 803-821, 841-851, 853-857, 864-873, 869-870, 875-878, 957-963, 965-970, 972-976, 978-998, 1000-1012, 1014-1018, 1028-1031, 1033-1078, 1036, 1038-1076, 1038-1068, 1053-1063, 1065-1067, 1092-1119, 1103-1117, 1122-1179, 1181-1200, 1202-1220, 1222-1231, 1244-1247, 1249-1252, 1290-1323, 1327-1365, 1421-1422, 1422 | TextEntries, TextPatterns, TextPositions, TextWidths |
| `base/PdfPainter.cpp` | 35, 60-69, 88-98, 100-116, 117-164, 118-171, 364-392, 372, 394-417, 419-438, 440-450, 449, 452-488, 490-498, 500-506, 508-519, 521-528, 537-551, 553-566, 568-606, 579-594, 581-592, 776-792, 778-789, 807-814, 817-849, 851-854, 856-859, 861-884, 872-881, 886-911, 913-932, 1005-1008, 1169, 1215-1221, 1230, 1311-1413, 1415-1431, 1451-1497, 1499-1516, 1517-1525, 1518-1525, 1527-1543, 1567-1637, 1642-1686 | PageContents, Painter, PainterPaths, XObject |
| `base/PdfPainter.h` | 34-41, 53-60, 91-109, 628-637, 637, 746-775, 784-793 | PageContents, Painter, PainterLayout, PainterPaths |
| `base/PdfParser.cpp` | 27, 36, 52-70, 72-160, 111-135, 163-189, 165-175, 191-215, 217-291, 227-237, 227-236, 238-254, 247, 256-284, 256-259, 293-314, 293-297, 296-313, 316-432, 334-356, 339-351, 375-418, 381-417, 408, 420-431, 434-441, 448-545, 466-538, 475-478, 481-534, 547-604, 563-577, 563-572, 592-601, 605-664, 606-668, 611-612, 675-770, 757, 787-795, 797-808, 834-861, 847-854, 899-928, 908-920, 930-974, 1005-1044 | Header, Model, ObjListProps, ObjStm, Resave, SaveModel, XChainModel |
| `base/PdfParserObject.cpp` | 38-56, 71-100, 71-79, 81-100, 111-128, 111-155, 161-245, 168-170, 243, 283-294 | Lazy, SaveModel |
| `base/PdfPostScriptTokenizer.cpp` | 13-14, 19-23, 30-94, 41-55 | CMapModel, ReaderModel |
| `base/PdfPostScriptTokenizer.h` | 23-30 | CMapModel |
| `base/PdfPredefinedEncoding.cpp` | 23-28, 45-302, 314-571, 592-633, 651-873, 891-1102, 1120-1340 | Differences, PredefTables |
| `base/PdfPushButton.cpp` | 32-36, 38-50, 61-74 | FieldFlags, Widgets |
| `base/PdfRect.cpp` | 23-26, 36-41, 49-56, 67-71, 73-88, 89-97, 100-132, 133-141, 143-163 | Boxes, Geometry, XObject |
| `base/PdfRect.h` | 128-134 | Geometry |
| `base/PdfReference.cpp` | 25-32, 30, 47-50, 52-55, 57-60, 62-65 | Numbers, Refs, TokModel |
| `base/PdfReference.h` | 20-120, 126-132 | Refs |
| `base/PdfResources.cpp` | 19-23, 25-29, 31-38, 58-65, 67-70, 82-123, 86-100, 92-93, 102-112, 125-133, 135-145, 147-154 | FormPage, PageRes, ResourceDict, XObject |
| `base/PdfSignature.cpp` | 36-41, 57-77, 59-60, 63, 74, 79-94, 94-116, 96-114, 116-125, 122, 127-145, 147-171, 152-160, 154-160, 157-159, 162-170, 173-210, 175-178, 212-226, 233-243 | SignModel, Signature |
| `base/PdfSignature.h` | 22-27, 30-37, 38-160 | SignModel, Signature |
| `base/PdfSigner.cpp` | 57-80, 66-70, 91-127, 108-123, 115-123, 126-141, 144-153, 155-161 | SignModel |
| `base/PdfStreamDevice.cpp` | 92-103, 124-132, 343-346, 358-451, 571-578 | FileSpec, Files, Header, Pixels, TrueTypeModel |
| `base/PdfStreamDevice.h` | 85-93, 87-92 | Files |
| `base/PdfStreamDeviceBase.h` | 14-19 | Files |
| `base/PdfStreamedDocument.cpp` | 36-40 | Streamed |
| `base/PdfStreamedObjectStream.cpp` | 67-71, 90-94 | Streamed |
| `base/PdfString.cpp` | 38-41, 67-114, 73-100, 110-156, 116-209, 145-153, 170-205, 186-203, 216-220, 234-246, 304-320, 322-379, 381-390, 381-391, 401-414, 416-432, 434-458 | Equality, Strings, TextString |
| `base/PdfString.h` | 139-153 | TextString |
| `base/PdfTextBox.cpp` | 32-36, 38-56, 41, 42-56, 58-68, 61, 70-73, 75-83, 113-121, 125-133, 148-151 | FieldFlags, FieldValue |
| `base/PdfTextBox.h` | 27-33 | FieldFlags |
| `base/PdfTextState.cpp` | 13-22 | TextPositions |
| `base/PdfTextState.h` | 17-28 | Painter |
| `base/PdfTokenizer.cpp` | 46-176, 70-176, 104-136, 191-208, 216-224, 232-237, 239-371, 268-284, 305-354, 345, 373-403, 405-466, 468-488, 490-610, 492-499, 583-585, 612-616, 618-649, 651-654, 656-675, 677-704, 706-735, 737-740, 742-745, 747-770, 772-792, 776-787, 783-786, 794-817 | Chars, Model, Strings, TokModel |
| `base/PdfTokenizer.h` | 20-35 | TokModel |
| `base/PdfVariant.cpp` | 18, 120-143, 145-207, 152-153, 166, 209-235, 216-235, 240-245, 247-255, 333-414, 416-497, 520-544, 546-553, 565-591, 567-574, 567-591, 576-591, 653-660, 692-699 | Boxes, CidWidths, Colors, Destinations, Equality, FontLoad, Lazy, Numbers, ObjectProps, SignModel, TokModel, XObject |
| `base/PdfWriter.cpp` | 72-123, 72-83, 97-100, 125-129, 131-183, 131-139, 133-177, 135, 185-219, 191-196, 201-207, 221-302, 227-241, 246-287, 285-298, 289-298 | DirtyModel, Lazy, Model, Resave, SaveModel, Streamed |
| `base/PdfXMPMetadata.h` | 15-27, 18-23, 24-25 | Metadata |
| `base/PdfXObject.cpp` | 26-31, 65-109, 70-77, 111-120, 122-130, 124, 132-143, 160-172, 174-187, 189-199 | ImageObj, XObject |
| `base/PdfXObjectForm.cpp` | 16-20, 25, 25-26, 28, 28-30, 40-47, 55-61, 73-77, 95-114, 118-120, 122-125, 127-147, 149-191 | FormPage, PagePaint, XObject |
| `base/PdfXRef.cpp` | 29-45, 39-75, 53-60, 64-70, 77-156, 91-153, 116-150, 158-206, 208-212, 214-246, 223-245, 248-252, 254-261, 263-285, 287-305, 307-313, 322-372 | Model, SaveModel |
| `base/PdfXRef.h` | 45-67 | Model |
| `base/PdfXRefEntry.cpp` | 78-106 | Model |
| `base/PdfXRefEntry.h` | 16-22, 24-50 | Model |
| `base/PdfXRefStream.cpp` | 49-55, 57-82, 65-66, 94-97 | Model |
| `base/PdfXRefStreamParserObject.cpp` | 89-135, 116-134, 122-133, 128-130, 163-219, 221-226 | Model, XChainModel |
| `common/nullable.h` | 216-226, 240-250 | Metadata |
| `common/types.h` | 36 | Pixels |
| `private/Format.h` | 27-31 | FileSpec |
| `private/ImageUtils.cpp` | 13-14, 35-172, 35-58, 39-57, 60-83, 85-109, 112-171, 174-224, 181-187, 183-186, 280-319, 364-403 | Pixels |
| `private/PdfDeclarationsPrivate.cpp` | 40-42, 59-69, 66-132, 71-78, 126-136, 138-163, 166-231, 233-295, 297-321, 323-351, 353-377, 379-398, 400-427, 429-454, 456-485, 487-502, 519-557, 559-603, 605-617, 619-645, 621-639, 647-650, 652-664, 666-728, 730-749, 897-904, 899-900, 906-913, 921-925, 983-987, 989-996, 990-996, 1011-1035, 1064-1067, 1102-1109, 1111-1118, 1120-1125, 1127-1132, 1134-1200, 1162-1170, 1172-1180, 1182-1188, 1190-1196, 1198-1218, 1220-1259, 1220-1249 | CMapModel, CharMap, Chars, Colors, Destinations, DynamicEncoding, FileSpec, Header, ImageObj, Model, NameText, Numbers, Numeric, OutlineModel, Tables, TextEntries, TextPatterns, TextString, TokModel, TrueTypeModel, WholeFont |
| `private/PdfDeclarationsPrivate.h` | 54-60, 330-335, 467-470, 472-475 | CodeSpace, Numeric |
| `private/PdfEncodingPrivate.cpp` | 17-274, 276-303, 317-324, 326-350, 359-372, 374-394 | PdfDoc |
| `private/PdfFiltersPrivate.cpp` | 21, 29-219, 32-80, 82-207, 90-206, 99-193, 150-173, 230-239, 241-283, 250-271, 300-321, 308-312, 323-370, 336-361, 372-431, 374-420, 384-404, 414-416, 422-430, 432-459, 520-575, 598-815, 625-650, 629-648, 656, 680-692, 694-788, 712-787, 715-724, 727-786, 733-785, 770-780, 795-813 | AsciiModel, LzwModel, PredictorModel |
| `private/PdfStandard14FontData.cpp` | 14-40, 63-294, 296-527, 529-760, 762-993, 995-1226, 1228-1459, 1461-1692, 1694-1925, 1927-2172, 2174-2419, 2421-2666, 2668-2913, 2915-3107, 3109-3313, 3384-3522, 3576-3817, 3819-4059, 4061-4301, 4303-4543, 4545-4785, 4787-5027, 5029-5269, 5271-5511, 5513-5767, 5769-6023, 6025-6279, 6281-6535, 6537-6737, 6739-6947, 6949-6985, 7016-7276 | Std14Data, StdFonts |
| `private/utfcpp_extensions.h` | 13-89, 95-171 | TextString |

### Code that is not modelled

Everything else; in particular no line of these source files: `base/PdfCommon.cpp`, `base/PdfDataProvider.cpp`, `base/PdfEncodingMapFactory.cpp`, `base/PdfEncodingShim.cpp`, `base/PdfError.cpp`, `base/PdfExtension.cpp`, `base/PdfFontBuiltinEncoding.cpp`, `base/PdfFontCIDType1.cpp`, `base/PdfFontConfigWrapper.cpp`, `base/PdfFontTrueType.cpp`, `base/PdfFontType1.cpp`, `base/PdfFontType3.cpp`, `base/PdfGraphicsState.cpp`, `base/PdfInputDevice.cpp`, `base/PdfMemoryObjectStream.cpp`, `base/PdfOutputDevice.cpp`, `base/PdfRadioButton.cpp`, `base/PdfStatefulEncrypt.cpp`, `base/PdfStreamDeviceBase.cpp`, `base/PdfStringStream.cpp`, `base/PdfTrailer.cpp`, `base/PdfVariantStack.cpp`, `base/PdfXMPMetadata.cpp`, `base/PdfXMPPacket.cpp`, `base/PdfXObjectPostScript.cpp`, `contrib/PdfFunction.cpp`, `contrib/PdfShadingPattern.cpp`, `contrib/PdfTilingPattern.cpp`, `private/FreetypePrivate.cpp`, `private/JpegCommon.cpp`, `private/PdfStandard14FontFiles.cpp`, `private/XMPUtils.cpp`, `private/XmlUtils.cpp`.

## 4. Where the code and the property disagree

Each disagreement is a theorem ending in `_false`; the note says what is proved instead.

* **C02** — False of the code for odd digit counts and '>' (witnesses proved); the partial theorem covers text with an even number of digits and no '>'. (`C02_hex_spec_false`, `C02_hex_endmarker_false`)
* **C05** — The decoder does not invert run-length encoding (witnesses proved); the partial theorem gives totality and the output bound. (`C05_rle_false`, `C05_rle_repeat_false`)
* **C06** — Holds unless the first block is empty, where the code reads past the empty buffer (proved).
* **C08** — Holds for hex, run length and the predictor; for ASCII85 without '~'; false for LZW and for the ASCII85 end marker (witnesses proved). Flate is an external library. (`C08_a85_block_independent_false`, `C08_lzw_block_independent_false`)
* **C09** — False for Average rows whose left and upper bytes are on different sides of 128 (witness proved); proved for all other images. (`C09_png_false`)
* **C10** — False for sub-byte pixels with Paeth and for int overflow of the row size (witnesses proved); proved for all other parameters.
* **C13** — False: the direction is not checked and a failing Flush leaves the filter open (witnesses proved); proved for histories without these.
* **C19** — Compact and clean mode. C19_noInline_false: NoInlineLiteral without Clean runs array elements together. (`C19_noInline_false`)
* **C21** — False as stated: a lone integer token at the end of input is dropped by the look-ahead. Everything else proved for every reachable tokenizer state. (`C21_last_token_lost_false`)
* **C22** — True for arrays on a fresh thread. False for dictionaries (values are not guarded) and for later parses (each overflow leaves the thread's depth one higher). (`C22_limit_leaks_false`, `C22_dictionaries_unbounded_false`)
* **C23** — Precision 0 is wrong: 100 prints as 1, and 0 reads out of bounds. (`C23_precision_zero_false`)
* **C24** — False in the code: != of two different variants, dictionaries or objects is always true; null equals everything from the left only; NaN and unknown values are == and != themselves. Proved: what == decides for all values without raw data, transitivity for all values, and that == is equality of values on values without null, raw data, unknown and NaN. (`C24_ne_false`, `C24_symmetry_false`, `C24_object_symmetry_false`, `C24_self_false`)
* **C27** — Proved for every operation sequence; operator[] takes a size_t and truncates it to unsigned, so indices from 2^32 on wrap (witness proved). (`C27_index_false`)
* **C28** — False in the code: growing a non-empty array or inserting into it unlinks its elements from the array, later changes to them are not saved; assigning to a contained dictionary and PdfArray::resize are never noticed. Proved for all histories without these. Reads are not modelled. (`C28_array_growth_false`, `C28_array_insert_false`, `C28_dict_assign_false`, `C28_resize_false`)
* **C30** — False from 65536 objects on (the next number is truncated to 16 bits); proved for all histories below that. (`C30_fresh_false`, `C30_replaces_live_false`)
* **C31** — Proved for histories of creations and removals below 65535 objects; false for exhausted entries of a loaded file, where the generation instead of the number is remembered as unavailable. (`C31_exhausted_false`)
* **C32** — Proved when the reference is present and the object belongs to the document. False for an absent reference (the next object is removed) and for an object made outside the document (the old object is lost). (`C32_neighbour_false`, `C32_foreign_false`)
* **C33** — For every list without an object stored under reference 0 0; the recursion depth is not bounded by the code. (`C33_null_reference_false`)
* **C35** — True when the save is incremental or object 1 has an entry. False otherwise: a full save without object 1 writes no entry 0, so the free list has no head (proved for all such saves). (`C35_no_head_false`)
* **C36** — True for offsets below 10^10 and generations below 10^5. False from 10^10 on: the line is longer than 20 bytes (proved for all such offsets). (`C36_entry_width_false`)
* **C37** — True for at most 511 subsections. False from 512 on: the reader raises NoEOFToken for the table the writer produced (proved for every save of 512 or more objects of which no two have neighbouring numbers). (`C37_many_sections_false`)
* **C38** — True for offsets below 2^32 and generations below 2^16. False from 2^32 on: the offset is silently reduced (proved for all such offsets). (`C38_large_offset_false`)
* **C39** — True when the data is a whole number of entries and the /Index sums do not overflow. False otherwise: a stream ending inside an entry is read past its end, and an overflowing /Index sum is undefined behaviour. (`C39_reads_outside_false`, `C39_index_overflow_false`)
* **C40** — The claim is proved for every chain of classic, hybrid and stream sections that fits the nesting limit. It is false beyond: every section costs two levels of the recursion limit of 256, so no file with more than 128 revisions can be opened. (`C40_long_chain_false`)
* **C41** — Proved for the chains of C40; the limit on their length is that of C40_long_chain_false.
* **C42** — Termination and a bound on the sections read are proved for every file. "At most once" is false: an offset named by /XRefStm is not marked as visited, so it can be read a second time through a /Prev. (`C42_read_twice_false`)
* **C43** — False as stated: the scanner forgets the character that broke a partial match, so a header directly behind the beginning of another one (for instance %%PDF-1.4) is missed; a %PDF- with an unknown version hides the header that follows. Proved for all prefixes without %PDF- and without % in their last four bytes. (`C43_partial_match_false`, `C43_other_version_false`)
* **C44** — False as stated: a match at the very beginning of the searched part raises InternalLogic, and a missing token raises nothing but leaves the device one byte before the searched part (the test for the index is i == 0 instead of i < 0). (`C44_first_false`, `C44_missing_false`)
* **C45** — Proved for page trees of any shape no deeper than the recursion limit, with fewer than 2^31 pages. False beyond the limit for every limit: C45_deep_false. (`C45_deep_false`)
* **C46** — Proved for page trees of any shape no deeper than the recursion limit, any index and any list of distinct new pages, up to 2^31 pages in total; also that /Parent links stay right. Missing: deeper trees, where the search raises (C45_deep_false).
* **C47** — Proved for page trees of any shape no deeper than the recursion limit with fewer than 2^31 pages; an index behind the end raises and changes nothing in the tree. Missing: deeper trees.
* **C48** — Proved for every history over trees within the recursion limit. False where RemovePageAt fails in a tree deeper than the limit: the cache has been shifted already, C48_failed_remove_false. (`C48_failed_remove_false`)
* **C49** — Proved for every sequence of additions to a document without the tree or to a well-formed tree with at least 65 kids and names allowed in a node (values resolved as GetValue does, keys compared by their texts). False for a root that exists and is empty (as made by GetDestsNode(true)) before anything is added: looking up raises NoObject. Keys read from files are C104. (`C49_empty_root_false`)
* **C51** — Proved for every history of CreateChild, CreateNext and Erase on an outline created in memory: each call succeeds, has the effect it should on the children of the items, and all pointers and keys fit. False for loaded outlines (the constructor never sets m_Last, so a child created afterwards is not reached from the others), for InsertChild (the parent is never set; an item can be inserted twice) and for Erase of the root. (`C51_loaded_false`, `C51_insert_false`, `C51_insert_parent_false`, `C51_erase_root_false`)
* **C52** — The property is false: InsertChild raises OutlineItemAlreadyPresent for no items at all, in no state, because one of the two roots compared is always null. C51_insert_false shows for every outline what happens instead. (`C52_never_raised_false`, `C51_insert_false`)
* **C53** — Proved for every target whose counter is the number of objects and free numbers plus one, which every document made in memory by up to 65534 creations and removals has, and every source whose numbers fit: all objects of the target stay, each source object comes with its stream under its number plus the difference with all references shifted, dangling references dangle, and the list stays consistent. False in general: the difference is the number of objects, not the highest number, so in a target with a gap (SetCanReuseObjectNumbers(false) after a removal, or a loaded file) a source object replaces an object of the target (C53_gap_false), and a null reference 0 0 R becomes a reference to the last target object. Not modelled: the page tree and outline part of append. (`C53_gap_false`, `C53_zero_reference_false`)
* **C54** — The property is false: the loops go through the objects of the document itself instead of the source, and add to it, so after any number of copies (as long as numbers fit 32 bits) there is a next one; with free numbers the loop before invalidates its own deque iterator. Proved for every non-empty document. (`C54_endless_false`, `C54_endless_no_free_false`)
* **C56** — Proved for every history, every shuffle and every sequence of code points, provided no two codes have the same value and different sizes and no code points stand behind two codes. Without the second condition the property is false: C56_order_matters_false shows that either code may be returned, depending on the shuffle. (`C56_order_matters_false`)
* **C57** — Proved for every history, shuffle and non-empty text in valid UTF-8; missing: histories in which two codes have the same value and different sizes (they overwrite each other, see C92), and invalid UTF-8 (which makes utf8::next throw).
* **C58** — For sequences the property holds (codes with the same value and different sizes apart). For single code points it is false: the first code point of a mapped ligature that is not mapped itself is reported as found, with a code of size zero, for every such map (C58_single_false); what is reported with another code is mapped (C58_single_partial). (`C58_single_false`)
* **C59** — All instants whose local time lies in the years 0 to 9999 and all offsets below 60 hours, for both forms. The calendar algorithms of the bundled date library are modelled and shown equal to the Gregorian calendar. C59_outside_false: both bounds are sharp. (`C59_outside_false`)
* **C60** — FALSE as stated. After the seconds any text may follow, for every date (C60_trailing_garbage_false). A date that ends with the year is the 30th of November before it and one that ends with the month is the day before its first, for every year and month (C60_truncated_false). Days that the month does not have are taken (C60_no_such_day_false). The parser reads past the end of the view it is given (C60_reads_behind_the_view_false). Proved: dates of the standard with at least a day are read as what they say, and what a text that is taken looks like. A year of one to three digits is taken (C60_short_number_false). (`C60_truncated_false`, `C60_trailing_garbage_false`, `C60_no_such_day_false`, `C60_reads_behind_the_view_false`, `C60_short_number_false`)
* **C61** — Proved for every history of calls, except seeks by the offset -2^63 relative to the current position or the end, which negate the smallest integer (undefined behaviour, C61_seek_min_false). (`C61_seek_min_false`)
* **C62** — Proved for every saveable stream object, every option and every history of uses, except unfiltered streams saved with compression, which are written empty and emptied in memory (C62_compress_loses_data_false: for every such stream). Flate is a parameter with a round-trip hypothesis about zlib; encryption is not modelled here. (`C62_compress_loses_data_false`)
* **C63** — For any digest of 16 bytes and any length-preserving cipher that is its own inverse: with RC4 version 1 and 40 bits, RC4 version 2 with 40, 56, 80, 96 or 128 bits, and AES-128, both passwords authenticate after writing and reading the dictionary, the user password gives the same key, so does the owner password unless it is itself accepted as user password, and exactly the given permissions are reported. False for RC4 version 1 with any other key length that PdfEncrypt::Create accepts (the length is not written, no password opens the file), and RC4 version 2 with 256 bits reads beyond the digest. The padding is that of the standard (C63_padding). (`C63_v1_length_false`, `C63_v2_length_false`)
* **C64** — Filters, annotation types and PDF versions are proved. The colour space CalRGB is missing in one direction (C64_calrgb_false); the others are proved. (`C64_calrgb_false`)
* **C65** — The round trip is proved for every host. On a big-endian host the bytes are not big-endian (C65_big_endian_host_false), on little-endian hosts they are. (`C65_big_endian_host_false`)
* **C68** — False in the code for a backslash before an ordinary character, unescaped CR, backslash CR LF, and short octal codes before inner parentheses; proved for every other literal string. (`C68_other_escape_false`, `C68_eol_false`, `C68_octal_paren_false`)
* **C72** — Lookup by PdfName is proved, by plain string only for texts whose PDFDocEncoding bytes are their UTF-8 bytes. For every other text the entry is not found by the plain string (C72_text_false): raw bytes are compared with UTF-8 text. (`C72_text_false`)
* **C73** — False for a hybrid file that was never updated: its /XRefStm is counted as an update. Proved for the chains of C40 whose oldest revision is not hybrid. (`C73_hybrid_false`)
* **C74** — False for every file: Reset does not forget the visited offsets, so the second Parse of a parser object raises InvalidXRef. PdfMemDocument makes a new parser for every load and is not affected. (`C74_parse_again_false`)
* **C75** — False for fields of more than four bytes, which are refused, and for unknown types, which raise an error instead of standing for null. Proved for all other widths and contents. (`C75_wide_false`, `C75_type_false`)
* **C76** — Proved if less than 504 bytes stand between the keyword and the marker; beyond that the searched part of 512 bytes does not reach the keyword.
* **C77** — Proved for page trees of any shape with right /Parent links and a recursion limit of at most 1000 (it is 256), which is where the code gives up climbing.
* **C78** — Proved for pages not served from the cache. False in general: a page keeps the index it was created with when other pages are inserted in front of it. (`C78_index_false`)
* **C79** — Proved when the page or its parent node has resources. False for every other page: the loop over the parents overwrites what it found with the absent resources of the next node. (`C79_inherited_false`)
* **C80** — Proved for every text except those of PDFDocEncoding characters that start with the characters of a byte order mark; for each of those the text read back is different (C80_mark_false). (`C80_mark_false`)
* **C81** — False in general: an unevaluated string is compared by its raw bytes (C81_evaluation_false). Proved for plain texts; idempotence of evaluation proved in general. (`C81_evaluation_false`)
* **C83** — False for every list of two or more keywords: the separators become part of the keywords. Proved for none and one keyword without line breaks. (`C83_keywords_false`)
* **C84** — The comparison operator of nullable values used by the text setters has the body of operator!=, so that setting a different text does nothing, in every state (C84_set_text_false). The date setters are proved right, up to dates that come back from the XMP packet after reloading. (`C84_set_text_false`, `C84_set_author_false`, `C84_removed_date_false`)
* **C87** — True only for contents that fit into one buffer; the end is reported as soon as the buffer is full (C87_long_contents_lost_false: for every longer contents CopyTo loses data). (`C87_long_contents_lost_false`, `C87_single_stream_cut_false`)
* **C88** — Proved for objects without /DecodeParms. Replacing the data leaves /DecodeParms behind, which makes the new data undecodable (C88_stale_parms_false, for every PNG predictor and all data) or reads out of bounds (C88_parms_overrun_false). Flate is a parameter with a round-trip hypothesis. (`C88_stale_parms_false`, `C88_parms_overrun_false`)
* **C89** — False when a filter has no encoder: the data is lost (C89_failed_set_false, for every object); the other failures leave the object unchanged. (`C89_failed_set_false`)
* **C92** — False as stated: the map is ordered by the value of the code only, so after any push the code points are returned for codes of every size with this value (C92_other_size_false). Proved when no other code pushed has the value of the code asked for. (`C92_other_size_false`)
* **C93** — Proved for histories with some code above zero and none equal to 2^32-1. When only code 0 is pushed the last code keeps its initial size, the result of converting minus infinity to a byte (C93_zero_code_false). (`C93_zero_code_false`)
* **C94** — Proved when no code's bytes begin with bytes whose value is that of a code (in particular for codes of one size), for texts without U+0000. False in general: a one byte code in the map and a two byte code starting with the value of another code are confused (C94_mixed_sizes_false). (`C94_mixed_sizes_false`)
* **C96** — False: the constructor keeps a reference to the limits of the map it moves from, so the encoding has the limits of an empty map and decodes nothing, for every map and every string. (`C96_moved_limits_false`)
* **C97** — Proved for destinations of one character. False for two or more characters: the last one is kept and an incremented copy of it appended (C97_ligature_false). (`C97_ligature_false`)
* **C98** — Proved of bfchar and bfrange entries with texts as destinations. False for cidrange: the CID counts as a code and a CID below 256 makes the smallest size one (C98_cid_range_false). A code given as a number counts the bytes it needs. (`C98_cid_range_false`)
* **C99** — Proved: reading a stream without a minus sign always ends. The full property is false: a negative number where a code is expected is read for ever (C99_negative_false), as the loop that counts its bytes shifts it with its sign; a code of more than four bytes is undefined behaviour (C99_long_code_false). (`C99_negative_false`, `C99_long_code_false`)
* **C100** — Listed codes keep their texts. False for unlisted codes: when all listed codes stand for themselves without gaps every code is mapped (C100_identity_false). (`C100_identity_false`)
* **C102** — False of every one-byte encoding: the text of the last code is not written, and reading the CMap back raises ValueOutOfRange. (`C102_one_byte_false`)
* **C103** — False of every size: the last code is one too large, so that one digit more is written and longer codes are read; four bytes are undefined behaviour. (`C103_identity_false`, `C103_four_bytes_false`)
* **C104** — Holds for a leaf whose keys have plain (ASCII) characters only. False for every key with any other character: it is not found after loading, adding it again gives it twice, and one key can be taken for another. Not modelled: several levels with raw keys. (`C104_other_keys_false`, `C104_wrong_key_false`)
* **C105** — Holds for trees of fewer than 256 levels whose keys have characters of PDFDocEncoding only. False for every tree with any other key: an error is raised. (`C105_other_characters_false`)
* **C106** — Loading gives every item back when the nesting of the constructor, which calls itself for the first child and for the next item, stays within the limit of the recursion guard (256), and fails otherwise. In particular every outline with 256 or more items at the top level makes the document unreadable. The objects are taken as already read. (`C106_many_chapters_false`)
* **C107** — Proved for every range inside the source and sizes below 2^32. False beyond: the error comes after all pages of the source have been added, and they stay. Pages are a list here; RemovePageAt on the page tree is C47. (`C107_beyond_false`)
* **C108** — Writes and reads in any pieces equal RC4 as specified, for every history of earlier streams, as long as no key is all zeros before the cache was filled. False for a first key of zeros: the empty cache is taken for its schedule and the data are written unencrypted. (`C108_zero_key_false`)
* **C109** — The saved file opens with the password that was given, with the same algorithm and permissions. False: authentication keeps only the password that was given, the other one is replaced by the empty password, so that for every digest and cipher each saved file opens with the empty password. Documents whose metadata are not encrypted are not covered. (`C109_empty_password_false`, `C109_two_saves_false`)
* **C110** — Holds when the identifier made for the update is the first string of /ID. False otherwise: the key is derived from the new identifier while readers use the first string of /ID, which stays; there is a digest and cipher meeting all hypotheses for which no password opens the updated file. (`C110_update_false`)
* **C111** — No undefined behaviour when O and U have at least 32 bytes and the length is above -8. False for shorter strings (read beyond their end), for negative lengths (read beyond the digest), and a missing length gives an internal error for every password instead of 40 bits. AES-256 is the subject of C192. (`C111_short_string_false`, `C111_negative_length_false`, `C111_no_length_false`)
* **C112** — False: the buffer is filled with zeros, the device writes behind them, and the digest is taken of the zeros. Two documents get the same identifier exactly because their information dictionaries have the same number of bytes. (`C112_same_length_false`)
* **C114** — Streams below 4096 bytes are loaded as they were. For every longer stream CopyTo reads an end flag that is not initialised (readBuffer sets it only at the end); were it false, the stream is loaded as it was, were it true, it is cut off after 4080 bytes. Reading any stream of 16 or more bytes with a buffer of 1 to 15 bytes writes beyond the buffer. When the last bytes do not fit the buffer the next call begins again with the first of them (C114_last_bytes_false). (`C114_long_stream_false`, `C114_long_stream_flag_false`, `C114_small_buffer_false`, `C114_last_bytes_false`)
* **C115** — Proved for files shorter than 10^10 bytes and any signer whose signature is not longer than announced. False of files with 10^10 bytes before and behind the signature: the text of /ByteRange overruns the 37 bytes reserved for it and overwrites what follows. The incremental saving itself is covered by the other claims. (`C115_huge_file_false`)
* **C116** — Proved for documents without reals, without encryption, with streams that the save does not compress itself, fewer than 511 runs of object numbers and files under 10 GB. Found: a free number comes back with its generation increased once more by each save and load (SafeAddFreeObject). (`C116_free_generation_false`)
* **C117** — Proved for up to 126 updates, under the conditions of C116. Found: with the 127th update the file cannot be opened any more (InvalidXRef by the recursion guard); a second SaveUpdate without opening the file in between drops the changes of the first one; SaveUpdate of a new document that was saved with Save loses all objects that are not written again; an /Info that was removed comes back. (`C117_update_limit_false`, `C117_second_update_false`, `C117_update_new_document_false`, `C117_info_removed_false`)
* **C118** — Proved for full saves when the catalog has no other version, and for updates to a higher version up to 1.7. Found: a full save with another /Version in the catalog loads that one; an update to 2.0 raises ValueOutOfRange; an update to a lower version keeps the old one. (`C118_save_version_false`, `C118_update_v20_false`, `C118_update_lower_false`)
* **C119** — Adding, asking and listing are proved for documents whose extensions are stored directly, in the catalog or an indirect dictionary. Found: RemovePdfExtension removes the literal key "ns" instead of the given name; GetPdfExtensions raises for an extension that is an indirect object, which HasPdfExtension finds. (`C119_remove_false`, `C119_remove_other_false`, `C119_indirect_false`)
* **C120** — The double is modelled as an exact decimal of at most fifteen digits. C120_integral_real_false: every real with an integral value is read back as an integer object. C120_large_real_false: an integral real of 2^63 or more is written without a point and the parser then raises NoNumber. (`C120_integral_real_false`, `C120_large_real_false`)
* **C123** — Termination is proved for every document, any mutually recursive forms and every consuming handler. That forms nest properly (every followed form is answered by one end and there is no other end) is proved without a handler; C123_nested_handler_false: with a handler, the warning about a missing EI replaces the warning that a form is already being read, so a form that was not entered looks as if it had been. (`C123_nested_handler_false`)
* **C124** — C124_ends_with_E_false: data that ends with E hides the EI after it. C124_ends_stream_false: an image at the end of its stream, with nothing after EI, is lost. C124_unended_image_false: an image left open in a form makes the reader take what follows in the page as image data. C124_bad_value_false: a bad value in the dictionary silently drops the rest of the stream. C124_handler_dictionary_false: with a handler the keys of one image show up in the next. (`C124_ends_with_E_false`, `C124_ends_stream_false`, `C124_unended_image_false`, `C124_bad_value_false`, `C124_handler_dictionary_false`)
* **C125** — The operand count warning is exact. C125_throw_on_warnings_false: with ThrowOnWarnings the reader raises at the first content, warnings or not. (`C125_throw_on_warnings_false`)
* **C126** — Proved for every stream whose table and objects are well formed, for one stream and for a list of streams. False otherwise in three ways: a malformed object nobody wants makes the whole read fail; with loading on demand off, a compressed object already read is dereferenced as a parser object through a null pointer; a negative offset reaches seekg with a negative position. (`C126_unwanted_object_false`, `C126_eager_false`, `C126_negative_offset_false`)
* **C127** — Proved for every map and every assignment of widths in whole thousandths, for fonts without a /CIDToGIDMap stream, as the library writes them; CIDs are below 2^32 - 1. False for loaded fonts with a /CIDToGIDMap stream: widths are stated by CID and looked up by glyph. False for the default width when there are no CIDs. (`C127_mapped_false`, `C127_default_false`)
* **C128** — Proved for all well formed arrays, and safety for all arrays of any objects whose CIDs are below 2^31. False for the CID -1 (or 2^32 - 1): the length wraps to 0 and memory outside of the vector is written. (`C128_last_false`, `C128_list_false`)
* **C129** — Reading is right when all bytes are below 128, and wrong for every entry with a larger byte, because the bytes are sign-extended. Writing is right for a map of one CID, and wrong for every map of two or more. (`C129_read_false`, `C129_write_false`)
* **C132** — True for loaded fonts; for every imported font with a Unicode mapping the length of every string is 0, because a local variable hides the result. Reals are modelled as integers. (`C132_length_false`)
* **C133** — Proved within one session; false across sessions, since the counter starts again and the fonts of the file are not looked at. (`C133_reopened_false`)
* **C134** — Proved for every undamaged font below 4 GB, every depth of components and every list without repetitions and without glyph 0, whenever the subset is built. False for lists that name the glyph 0 or a glyph twice. No subset is made when an empty glyph lies at the end of the file. (`C134_zero_false`, `C134_twice_false`, `C134_empty_false`)
* **C136** — Proved for fonts whose glyphs all have full metrics; false for every list in which a glyph without full metrics comes before one with full metrics: it gets the metrics of the latter. (`C136_metrics_false`)
* **C137** — The directory leads to the tables, and instructions and global data are kept. The search range is wrong in every subset, the checksums sum up signed bytes of the first quarter, and a font that has only some of the required tables is accepted. (`C137_search_range_false`, `C137_checksum_false`, `C137_missing_false`)
* **C138** — Proved: conversion to codes finds the greatest code and is inverse to conversion from codes, except for code 96 of the standard encoding; WinAnsi is that of the PDF reference, Mac Roman except for code 219, the standard encoding except for code 96. False: code 219 of Mac Roman is read as the euro sign instead of the currency sign and code 96 of the standard encoding as grave instead of quoteleft, and those characters cannot be written; undefined codes are read as U+0000, which is written as an undefined code. The tables of MacExpert, Symbol and ZapfDingbats are not compared with the reference. (`C138_standard_false`, `C138_undefined_false`)
* **C139** — Proved for all histories and arrays: the last addition wins, differences and base encodings that were read are read back after writing. False: codes beyond 255 wrap around instead of being refused, a name after the greatest integer is undefined behaviour, and the symbol encodings and, for a font with its own encoding, the standard encoding cannot be read back as bases. (`C139_wrap_false`, `C139_overflow_false`, `C139_base_false`)
* **C140** — Proved: code points below 65536, except for those that share their name with another one, are read back from their name. False: no code point from 65536 on is read back; names that begin with uni and go on with something else than a number raise an error; the code points that share a name are read as another one. (`C140_large_false`, `C140_unreadable_false`, `C140_shared_false`)
* **C141** — Proved for base encodings with codes 0 to 255, which the predefined ones are. False for the encodings of font programs with fewer codes: differences outside of these codes are read but cannot be written. (`C141_limits_false`)
* **C142** — Proved for pages on which all content streams but the last end with white space, and for any number of drawings of painters that leave the old contents alone. False otherwise: the streams are put together without white space between them; in particular, a second default drawing on a page with contents turns the Q after the old contents and the q of the first drawing into the word Qq, which is no operator. (`C142_glued_false`)
* **C143** — Proved for old contents that restore the states they save. False for contents that save a state without restoring it, since one restore is appended whatever the depth. (`C143_unbalanced_false`)
* **C144** — Proved for forms that are empty. False otherwise: by default, the old contents are there twice afterwards, and with NoSaveRestorePrior they are removed. (`C144_twice_false`, `C144_lost_false`)
* **C145** — Proved for pages that do not have the same array as contents, also when they share streams. False: pages that share the array all show the drawing, and when a second painter starts to draw on a page with contents before the first has finished, the drawing of the first is lost. (`C145_shared_false`, `C145_painters_false`)
* **C146** — Holds for every document whose parents end. Parents in a cycle are followed until the stack is exhausted (C146_cycle_false), and an explicit null on a field hides the inherited value instead of counting as absent (C146_null_false). (`C146_cycle_false`, `C146_null_false`)
* **C147** — Full names are the joined partial names and distinguish paths of partial names without dots and empty names. Partial names with dots or empty ones make different paths collide, and parents in a cycle exhaust the stack. (`C147_escape_false`, `C147_empty_false`, `C147_cycle_false`)
* **C148** — Proved for every single flag. Whether spell checking and scroll bars are enabled reads as the opposite of what was set (C148_inverted_false). (`C148_inverted_false`)
* **C150** — Items refine a list. The selected index is that of the first item with the same value, so an item whose value occurs before it is reported wrongly (C150_select_false), and removing the selected item leaves its value in the field (C150_stale_false). (`C150_select_false`, `C150_stale_false`)
* **C151** — Texts and check states set through the API read back. A limit on the length never has an effect because GetMaxLen tests the wrong way round, and check boxes whose state has another name than Yes or On, or whose value is inherited, read as not checked. (`C151_limit_false`, `C151_limit_type_false`, `C151_state_false`, `C151_inherit_false`)
* **C152** — Proved for arrays of distinct entries that can be read, for every history. What is wrong: with an entry that cannot be read the first access raises and later ones work on a truncated collection; with an entry listed twice lookup and removal go wrong; iterating before any other access shows nothing. (`C152_bad_false`, `C152_duplicate_false`, `C152_iterate_false`)
* **C153** — Proved for forms made in memory, for every history of creations on fresh widgets. What is wrong with forms read from a file: unread names are never found, so a second field of the same name appears; once names have been read, creating a field of that name follows a null pointer, or gives a kid without parent, name and kind. (`C153_loaded_false`, `C153_found_false`, `C153_orphan_false`)
* **C154** — Proved for exact arithmetic; rounding of doubles is not modelled. Arrays read back for rectangles that are not inside out. What is wrong: intersecting with the rectangle 0 0 0 0 gives the whole first rectangle, and the intersection of disjoint rectangles has a negative size and, written and read back, contains points of neither. (`C154_zero_false`, `C154_disjoint_false`)
* **C155** — Proved for exact arithmetic. Frame rotation is aligned for quarter turns. A transformed rectangle contains the images of its points exactly if the matrix does not mix coordinates with opposite signs (it is computed from two corners only). What is wrong: prepending a translation in x (or y) drops the part in the other direction, for every matrix that has one. (`C155_apply_false`)
* **C156** — Lookup order, read-back and independence of other pages proved for every tree; sizes for pages with their own boxes. What is wrong: bleed, trim and art boxes are inherited; box numbers given by reference raise; a rotation written as a real raises; setting the size of a page changes all pages sharing an inherited box, reports failure when there is no crop box although the size changed, and moves the page when the corners are given from right to left. (`C156_reference_false`, `C156_inherited_false`, `C156_rotation_false`, `C156_report_false`, `C156_shared_false`, `C156_moves_false`)
* **C157** — Order proved for all operators; places for every well formed sequence of plain operators. What is wrong: quote operators show before they move; rotated text advances and breaks lines along the page; rise, horizontal scaling and the matrix of a form are ignored; a string without Unicode values takes no room; a restore too many throws and all text is lost. Widths of strings are inputs of the model; numbers are exact. (`C157_quote_false`, `C157_rotated_line_false`, `C157_rotated_advance_false`, `C157_rise_false`, `C157_stretch_false`, `C157_form_false`, `C157_unmapped_false`, `C157_restore_false`)
* **C158** — Words and preservation of visible characters proved for everything shown; lines when no spaced string contains white space only after its first character, since the space before such a string is not written. The distance class of a string is an input here, see C160. (`C158_glued_false`)
* **C159** — Proved for containment, equality and substrings. With whole words and substrings together only the leftmost occurrence is looked at, so a later whole word is missed. Regular expressions are not modelled; lower case follows the model's table of the code. (`C159_word_false`)
* **C160** — Lengths of lines proved for upright text whose text matrix does not scale, from the start of a string, without trimming or on an unscaled page; places and lengths of words on unscaled pages. What is wrong: the text matrix is left out of lengths; unless white tokens are kept the page scale is applied twice to the last string of a line; with TokenizeWords it is applied three times to a word and the words after the first of a string are misplaced; the length of a substring counts the glyphs before it; gaps are compared with a space width to which the page scale was not applied. Rotated text is not part of the model; numbers are exact. (`C160_text_matrix_false`, `C160_trim_false`, `C160_substring_false`, `C160_word_length_false`, `C160_word_place_false`, `C160_scale_false`)
* **C161** — Proved where the kinds of resources are separate objects. False of the code: kinds shared by reference are changed for both pages; a null pointer makes an empty entry; a second separation of the same name keeps the first colour; Lab colours are looked for under another name than they are written; a colour space entry that is no dictionary makes adding colours raise. Where the objects for colour spaces come from is a parameter. (`C161_shared_false`, `C161_pointer_false`, `C161_separation_false`, `C161_lab_false`, `C161_color_false`)
* **C162** — Exact numbers in place of doubles. False of the code: a CMYK separation converted to gray is RGB; Lab and separation colours written to an array come back as other colours, and the empty array is refused; the first character of a number is skipped, so 1.0 is black and .1 is white; codes of other lengths and unknown names are black without error; a name is read past the end of its view; separation densities are not checked; tint samples of 128 or more are undefined behaviour, gray ones are not scaled, RGB and gray ones are black at tint 0. Arrays in text form and the rest of BuildColorSpace are not modelled. (`C162_cmyk_rgb_cmyk_false`, `C162_array_false`, `C162_density_false`, `C162_separation_gray_false`, `C162_separation_false`, `C162_number_false`, `C162_hex_length_false`, `C162_unknown_false`, `C162_view_false`, `C162_tint_large_false`, `C162_tint_gray_false`, `C162_tint_lab_false`)
* **C163** — Exact numbers in place of doubles; name trees are the lookup function proved in C49. False of the code: a fit that needs a value is accepted without one and written with an empty name; the value of FitBV cannot be read; coordinates left out raise when read; the rectangle reads back with its right and top sides as width and height; an empty destination is accepted and kept only in memory; a link with a destination accepts an action and keeps both; named destinations of links raise; two kinds of actions have no name, and creating them is undefined behaviour. (`C163_fit_false`, `C163_fitbv_false`, `C163_null_false`, `C163_rect_false`, `C163_empty_false`, `C163_link_false`, `C163_link_named_false`, `C163_action_false`)
* **C164** — Exact numbers in place of doubles. False of the code: rotations of more than one turn misplace the page; the rectangle the form reports is not its box when the page lies on its side; several content streams are joined without separators; a loop of references in the contents never ends; inherited resources are not copied; drawing on a new form after filling it replaces the resources. (`C164_matrix_false`, `C164_rect_false`, `C164_contents_false`, `C164_loop_false`, `C164_inherited_false`, `C164_draw_false`)
* **C165** — False of the code: only the nearest parent counts, so resources further up are lost, and drawing then hides them behind an empty dictionary; pages that inherit one dictionary share what is drawn; setting a colour profile drops all other colour spaces. (`C165_resources_false`, `C165_draw_false`, `C165_shared_false`, `C165_icc_false`)
* **C166** — False of the code: a name with any character other than letters, digits, underscores and separators, such as the dot of an extension, is written from a buffer without a terminating zero, which is undefined behaviour; separators are written as two backslashes and a slash; the path is stripped from the name even when it was to be kept; a file that changes meanwhile gets the wrong size; a file that cannot be read leaves objects behind; a second file of the same name replaces the first. (`C166_path_false`, `C166_other_false`, `C166_kept_false`, `C166_dot_false`, `C166_changed_false`, `C166_failed_false`, `C166_same_false`)
* **C167** — Crashes of the program, not of the machine: bytes reach the file in order. Updates are proved atomic (the old document at every crash point before the marker is complete, the new one after), if the marker is not part of an object. False of the code: CreateNew never opens anything with its default access; OpenOrCreate does not create; Open for writing empties the file; Save empties the file first, so a crash or an error loses the old document; saving into the file the document was loaded from cannot read the objects not read before. (`C167_createnew_false`, `C167_openorcreate_false`, `C167_emptied_false`, `C167_save_false`, `C167_crash_false`, `C167_failed_false`, `C167_own_false`, `C167_own_all_false`)
* **C168** — The claim is false: Save and Restore do not touch what the painter remembers, so a value set in between and again afterwards is not written (restore); the painter starts with a width of 0 and square caps, which drawings do not start with (initial); it keeps its values on the next canvas (canvas) and after a refused call (refused); and SetCurrentMatrix multiplies (matrix). Proved: a setter that changes the reported value is drawn with, in every state, and in programs that set a parameter only outside of Save and Restore the getter goes on telling what is drawn with. Errors of the stream of the canvas are not modelled. (`C168_restore_false`, `C168_initial_false`, `C168_canvas_false`, `C168_refused_false`, `C168_matrix_false`)
* **C169** — The claim is false: rendering modes are written with the number of the next one (mode, fill); values that went back to their default are not written, so the last ones stay (scale, spacing); BeginText writes no text state, so that texts after it have the old font or none (begin, nofont). Proved: DrawText uses the font and size set last, the exact condition under which all of the text state is right, and setters in an open text take effect at once. (`C169_mode_false`, `C169_scale_false`, `C169_spacing_false`, `C169_begin_false`, `C169_nofont_false`, `C169_fill_false`)
* **C170** — The claim is false: the canvas can be changed or finished with a text open (switch, finish); a text that cannot be encoded leaves a lone bracket (encode) and one that is not UTF-8 an open text object (utf8); DrawMultiLineText writes q and Q inside its text object (multi); drawing and saving are accepted in an open text (inside) and Restore without Save (restore). Proved for every program whose texts are UTF-8 and can be encoded and that does not change the canvas in an open text: text objects are never nested and are closed in every finished canvas; with no drawing in an open text, no operator is where it is not allowed. (`C170_switch_false`, `C170_finish_false`, `C170_encode_false`, `C170_utf8_false`, `C170_multi_false`, `C170_inside_false`, `C170_restore_false`)
* **C171** — The claim is false: MoveTo, LineTo and CubicBezierTo are not remembered, so that horizontal and vertical lines after them slant and smooth curves have corners (straight, smooth); QuadCurveTo uses a wrong second control point (quad); ArcTo turns points wrongly when the arc is rotated (arc); radii below 1 are ignored (round). Proved: circles, ellipses, rectangles and rounded rectangles with a radius of 1 or more, for every point of every curve, smooth curves after smooth curves, and the exact condition for straight lines. Coordinates are rational numbers; of ArcTo only the last transformation is modelled. (`C171_straight_false`, `C171_quad_false`, `C171_smooth_false`, `C171_arc_false`, `C171_round_false`)
* **C172** — The claim is false: the tabulator is kept after its spaces (tabs), twice as many spaces are used for several lines (double), alignment measures the text before spaces are added (align), and texts are never broken into lines (wrap). Proved for texts without tabulators: horizontal and vertical alignment is exact, and the text is shown unchanged on one line. The length of a text is what the font gives (C138 and later). (`C172_tabs_false`, `C172_align_false`, `C172_wrap_false`, `C172_double_false`)
* **C173** — Proved for RGB images of any size up to the limits of the arithmetic, for JPEG pictures and faxes as their decoders give the lines, for all formats, line lengths and soft masks. False of the code: grey images of two lines or more read outside their data (grey lines are looked for at three times their offset); longer lines are refused when a buffer is filled; data or soft masks that are too short, JPEG pictures wider than the dictionary says, line lengths that are too short for the pixels when setting, and widths of 2^30 are not refused and memory outside of the buffers is accessed. The JPEG and fax decoders are parameters. (`C173_stride_false`, `C173_grey_false`, `C173_short_false`, `C173_mask_false`, `C173_width_false`, `C173_set_stride_false`, `C173_jpeg_false`)
* **C174** — Proved for pixels and raw data set on any earlier image, also after saving. False, and proved false: a refused SetData has already changed the dimensions, after which decoding reads outside of the data; setting pixels keeps an earlier soft mask, whose memory is then read out of bounds; raw data with filters is decoded as if it had none until it was saved and read again, and saved with compression it is lost; a description that leaves the colour space unset reads an uninitialised value, even with a colour space array; the array of a colour space lacks its name; CalRGB has no name; an image with an ICC profile can no longer be decoded; negative dimensions wrap; bounds of colour keys may be negative. (`C174_refused_false`, `C174_refused_decode_false`, `C174_stale_mask_false`, `C174_raw_filters_false`, `C174_raw_space_false`, `C174_raw_unset_false`, `C174_raw_saved_false`, `C174_names_false`, `C174_icc_false`, `C174_dims_false`, `C174_key_range_false`)
* **C175** — What is given out is of the kind it has and was asked for; forms with sound rectangles and resources and PostScript objects are found, also by reference; a new form is found with its rectangle; matrices are kept; objects drawn with one prefix draw what was given. False of the code: looking at a new image or at a form whose rectangle has not four numbers raises instead of saying no; XObjects without /Type (which the format allows) or with /Type by reference are not found, so that masks without /Type are ignored; a matrix by reference raises; with prefixes that end in digits two objects can get one name and the second is drawn twice. (`C175_new_image_false`, `C175_bad_box_false`, `C175_untyped_false`, `C175_untyped_mask_false`, `C175_matrix_ref_false`, `C175_names_false`)
* **C176** — Proved for colours with and without opacities and for grey with opacities, of eight bits and fewer than 2^32 pixels; what libpng gives is a parameter. False of the code: data of images with opacities is longer than their pixels; with 2^32 pixels or more memory outside the mask is written; no file with a palette loads without undefined behaviour (its colour space is read before it is set); with four, two or one bits per pixel opacities go to the wrong pixels or memory behind the lines is read. (`C176_rest_false`, `C176_many_pixels_false`, `C176_palette_false`, `C176_nibbles_false`, `C176_pairs_false`, `C176_bits_false`)
* **C177** — The format of files and of buffers of more than four bytes, reads in memory counted from the beginning, TIFF files of colours and of greys, JPEG files saved without compression and the quality of those written are proved; the libraries are parameters. False of the code: shorter buffers are ignored without an error; short reads of PNG data are not reported; seeking from the end of TIFF data goes the wrong way, and before the end is undefined when read; position 2^32-1 cannot be reached; greys with white as zero are shown inverted; bilevel and palette TIFF files are undefined; every TIFF file that is refused is closed twice, and one loaded from memory never; before it is saved a JPEG file is decoded as if it were its pixels; greys of more than one line cannot be decoded. (`C177_tiny_false`, `C177_png_short_false`, `C177_seek_end_false`, `C177_seek_back_false`, `C177_seek_4g_false`, `C177_grey_decode_false`, `C177_white_is_zero_false`, `C177_tiff_bits_false`, `C177_tiff_refused_false`, `C177_tiff_leak_false`, `C177_jpeg_decode_false`)
* **C178** — Proved for streams without media filters and for streams with one filter that is for media. False of the code: with media filters besides others, the entry that names the media filters is lost; a stream whose decoders cannot be created stays locked for good after the failed attempt. (`C178_media_lost_false`, `C178_failed_open_false`)
* **C179** — Proved for histories in which all streams can be opened and variables in use are not assigned to (locks) or moved (reading and writing). False of the code: a failed opening locks for good; a moved input or output stream has lost its device and using it dereferences a null pointer; an input stream that is assigned to keeps reading the old stream, and the old stream stays locked. (`C179_failed_open_false`, `C179_moved_false`, `C179_assign_false`, `C179_assign_out_false`)
* **C180** — Modes, layouts and preferences are proved for every catalog; full screen with a page mode; metadata in an object of its own. False of the code: full screen raises an error for every catalog without a page mode; called twice it names a mode to return to that is not allowed; metadata of a catalog that holds it as a direct dictionary is lost. (`C180_full_screen_false`, `C180_full_screen_twice_false`, `C180_metadata_direct_false`)
* **C181** — Proved for appearances when the annotation, its appearance dictionary and the form are distinct objects and, with a state, when the kind's entry is not already a form. False of the code: an appearance for a state over an existing form is written into that form's own dictionary and is not listed; a removed title or contents is still inherited from a parent; /Open held as an indirect object raises; trying to take an object that is no annotation raises instead of answering no. (`C181_state_over_form_false`, `C181_removed_false`, `C181_open_false`, `C181_try_false`)
* **C182** — Texts, dates, a missing value, making a value and preparing are proved in full. False of the code: setting the creator drops every other entry of /Prop_Build; certifying drops every other permission of the catalog, leaves two objects that nothing refers to, and, when the value is a direct dictionary, raises an error after the signature's earlier reference was removed. (`C182_creator_false`, `C182_perms_false`, `C182_orphans_false`, `C182_certify_direct_false`)
* **C183** — Proved for every history of the calls listed in Spec.LazyFair. The property fails in the code for the others: ToString marks a changed object clean, so that freeing it or updating the file loses the change; data written through GetOutputStreamRaw to a stream without /Filter mark nothing; assigning an object without a stream keeps the old stream if it had been looked at; a /Length changed before the first look changes the stream; self-assignment reads freed memory; moving from a stream not looked at ends the program, move construction of an object not looked at gives null and a moved stream keeps its old owner. (`C183_text_false`, `C183_text_clean_false`, `C183_raw_false`, `C183_assign_false`, `C183_length_false`, `C183_self_false`, `C183_move_false`, `C183_move_new_false`, `C183_moved_stream_false`)
* **C184** — Proved for every history: names, embedding (with any hash table), and, with a table that never compares keys of two standard types, the fonts given. The code refutes the rest: equality of keys ignores the standard type (PdfFontManager.cpp:478-481), so a table that compares two of them gives the wrong font; a request for an exact name that fails leaves an empty entry (PdfFontManager.cpp:419-426), and the next request reads the first of no fonts or wrongly finds none; flags of later requests are ignored; and the object of an imported font is refused by GetLoadedFont, also once embedded. Fonts from a face or a buffer and the system's search are not modelled. (`C184_std_false`, `C184_flags_false`, `C184_poison_false`, `C184_known_false`)
* **C185** — Proved for every TrueType and CFF program. Refuted for the others: the search for the Type 1 lengths never ends when something that is no blank follows eexec (PdfFontMetricsFreetype.cpp:260-278), the getters of the second and third length give the first (PdfFontMetricsFreetype.cpp:463-485), and an OpenType program loses its /Subtype, which is set in a copy of the object (PdfFont.cpp:555). (`C185_type1_false`, `C185_type1_lengths_false`, `C185_opentype_false`)
* **C186** — Proved for all programs that set overprinting for both before fills alone and strokes alone after. False otherwise: SetOverprint and SetStrokeOverprint both write /OP, so overprinting set for both after fills leaves fills as they were, and set for strokes alone it holds for fills too. (`C186_both_false`, `C186_stroke_false`)
* **C187** — Proved for simple fonts with /FirstChar below /LastChar. False: /MissingWidth is not scaled; a font of one character has its width looked up elsewhere; a TrueType font without descriptor, a composite font whose descendant is missing and a /FontStretch string go through null pointers. (`C187_missing_false`, `C187_one_false`, `C187_truetype_false`, `C187_descendant_false`, `C187_stretch_false`)
* **C188** — Proved for the first stream, written raw with compression turned off. False: with compression on, every write to a stream for the file is refused after the first line of the object was written, and the stream stays locked; data through filters is in the file without /Filter; once one stream was opened all later ones are kept in memory; a second write to the same stream uses a freed object; closing always ends in an error. (`C188_memory_false`, `C188_default_false`, `C188_filter_false`, `C188_close_false`, `C188_again_false`)
* **C189** — Fonts made by a program have the right width for every character of the tables (C189_made). For loaded fonts the property is false: without /Widths a code less 32 is taken for a glyph number although the tables start with another glyph, so letters of every Times and Helvetica font have the width of their neighbour (C189_letters_false; only the Courier fonts come out right, C189_courier_partial); with /Widths every listed code has the width 0, since the vector is made with that many zeros before the widths are added (C189_listed_false); and a Courier font with /FirstChar and /LastChar reads its table beyond the end, because its size is given as 315 and it has 244 entries (C189_beyond_false). (`C189_letters_false`, `C189_listed_false`, `C189_beyond_false`)
* **C190** — Holds for embedded fonts with more than one code. A font that is not embedded is written without /FirstChar, /LastChar and /Widths, so all its codes have one width, and /MissingWidth is written in thousandths and read as units (C190_unembedded_false, C190_default_false). A font with one code is the subject of C187_one_false. The rounding of doubles is not modelled. (`C190_unembedded_false`, `C190_default_false`)
* **C191** — Proved for all documents, widgets and call sequences: every caption and colour entry is the one last set, for every way of reading it, and nothing else changes. Missing because the code breaks it: buttons made or loaded by a form have no widget and their caption calls use a null pointer; a colour that is absent, or the empty array for no colour, is read as black, and the colour for none cannot be set; once /MK is removed from an open widget captions go to a lost object or through a dangling pointer; an action that is a direct entry, set on an annotation, writes a reference to object 0 and is lost; an action that was got is remembered after /A is removed. Lab and separation colours are the subject of C162. (`C191_no_color_false`, `C191_button_false`, `C191_removed_false`, `C191_action_false`, `C191_action_removed_false`)
* **C192** — Everything but four parts is proved. The four are false of the code and their negations are proved: a document encrypted with an empty owner password is opened without any password (C192_empty_owner_false); a password is cut at its first zero byte (C192_nul_false); an encryption dictionary of version 5 with a string that is too short, or without OE, UE or Perms, is undefined behaviour (C192_short_false, C192_missing_false); and the encrypted permissions are not compared with P, so that changing P is not noticed (C192_perms_false). Digests, AES on a block and SASLprep are parameters. OpenSSL is taken to pad again after it was initialised anew. (`C192_nul_false`, `C192_empty_owner_false`, `C192_short_false`, `C192_missing_false`, `C192_perms_false`)
* **C193** — Encoding is proved as stated. Decoding holds only while at most 255 glyphs are in use and no two characters of the texts share a glyph: C193_many_false shows that the 256th glyph and all after it (up to 65535) get codes of two bytes whose first byte is read as a code of one byte, so that another text and other CIDs come back, and C193_shared_false that characters that share a glyph come back as the one drawn first. C193_reloaded_partial covers the ToUnicode CMap after saving and loading under the first of these limits. Fonts that are embedded whole (AddCharCodeSafe) are the subject of C195. C193_code_cids states the CIDs of a string for codes of any size none of which begins with a shorter one. (`C193_shared_false`, `C193_many_false`)
* **C194** — C194_read_back proves that every code has its CID after loading, for all sets of glyphs in use no two of which have the same code, and for font names without whitespace, delimiters, backslashes and backspaces (the name is written as it is). The part about sizes is false: C194_sizes shows that the CIDs are counted as codes, so that the sizes of codes that are tried range over the sizes of the CIDs, and C194_sizes_false that codes of one size k are not taken to have that size when a CID takes another number of bytes. C194_dynamic_partial gives the CIDs of texts for fonts made without an encoding with at most 255 glyphs in use. Fonts that are embedded whole: C194_whole proves the same for the map of a CMap, C194_one_byte_partial for all codes but the last of an encoding of one byte (from the code 1 on, or where the size of the code zero, a conversion of an infinite number, is 1), C194_no_character that such an encoding is refused if a code has no character, and C194_last_false shows that the last code is never written, so that its glyph is not its CID. (`C194_sizes_false`, `C194_last_false`)
* **C195** — Proved for all texts and all orders of the tree if the size of the code zero, which C++ leaves open (the logarithm of zero is converted to an integer), comes out as one: C195_encode says which texts can be encoded, and as long as at most 256 different characters are in use C195_read_back_partial and C195_cids_partial say that every text is read back exactly and that its CIDs are the glyphs. The full statement is false: C195_many_false shows that from the 257th character on a character is read back as a text that begins with another character, as the codes of two bytes begin with codes of one byte; C195_zero_false shows that if the size comes out as zero the first text raises InvalidHandle. Other sizes of the code zero are not covered. What is written for such a font when it is saved is not part of this model. C195_same_bytes adds that the bytes do not depend on the random orders. (`C195_many_false`, `C195_zero_false`)
