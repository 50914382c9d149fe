{"id": "C01", "title": "ASCIIHex encode/decode round trip", "statement": "Encoding any byte string with the ASCIIHexDecode filter and decoding the result with the same filter returns the original bytes, however the data is cut into EncodeBlock and DecodeBlock calls.", "quantifier": "every byte string, every partition of the input into encode blocks and of the encoded text into decode blocks", "why_tests_cant": "The set of inputs and of block partitions is infinite; a test fixes one of each.", "anchors": ["src/pdfmm/private/PdfFiltersPrivate.cpp: PdfHexFilter::EncodeBlockImpl, DecodeBlockImpl, EndDecodeImpl", "src/pdfmm/private/PdfDeclarationsPrivate.cpp: utls::WriteCharHexTo, utls::TryGetHexValue", "src/pdfmm/base/PdfFilter.cpp: PdfFilter::EncodeTo, DecodeTo"]}
{"id": "C02", "title": "ASCIIHex decoding follows the PDF rules for final odd digit and end marker", "statement": "Decoding ASCIIHex text ignores white space, an odd final digit d denotes the byte d<<4, and '>' ends the data (ISO 32000-1 7.4.2).", "quantifier": "every ASCIIHex text", "why_tests_cant": "Whether all texts obey the rule is a universally quantified claim; samples with even digit counts and no '>' hide the deviations.", "anchors": ["src/pdfmm/private/PdfFiltersPrivate.cpp: PdfHexFilter::DecodeBlockImpl, EndDecodeImpl"]}
{"id": "C03", "title": "ASCII85 encode/decode round trip", "statement": "Encoding any byte string with the ASCII85Decode filter and decoding the result returns the original bytes, however the data is cut into EncodeBlock and DecodeBlock calls.", "quantifier": "every byte string and every partition into encode and decode blocks", "why_tests_cant": "Depends on all residues of the length mod 4, on all 32-bit groups including the all-zero shortcut, and on every partition.", "anchors": ["src/pdfmm/private/PdfFiltersPrivate.cpp: PdfAscii85Filter::EncodeBlockImpl, EndEncodeImpl, DecodeBlockImpl, EndDecodeImpl, EncodeTuple, WidePut"]}
{"id": "C04", "title": "ASCII85 output alphabet and strict input checking", "statement": "The ASCII85 encoder only emits '!'..'u' and 'z'; the decoder raises an error on every other non-white character before an end marker and on a 'z' inside a group, and never yields data for it.", "quantifier": "every byte string encoded, every byte string offered to the decoder", "why_tests_cant": "A universally quantified rejection property; tests try a handful of bad characters in a handful of positions.", "anchors": ["src/pdfmm/private/PdfFiltersPrivate.cpp: PdfAscii85Filter::EncodeTuple, DecodeBlockImpl"]}
{"id": "C05", "title": "RunLength decoding is the inverse of run-length encoding", "statement": "Decoding with the RunLengthDecode filter a run-length encoded representation (ISO 32000-1 7.4.5: length byte 0..127 copies length+1 literals, 129..255 repeats the next byte 257-length times, 128 is end of data) returns the encoded bytes.", "quantifier": "every byte string and every legal run-length representation of it", "why_tests_cant": "There are infinitely many representations; the statement is about all of them.", "anchors": ["src/pdfmm/private/PdfFiltersPrivate.cpp: PdfRLEFilter::BeginDecodeImpl, DecodeBlockImpl"]}
{"id": "C06", "title": "LZW decoding never reads outside its tables", "statement": "Decoding any byte string at all with the LZWDecode filter either produces output or raises an error; it never indexes the string table or the mask table out of range, and never dereferences an empty input.", "quantifier": "every byte string, however malformed, as one block of input, from every reachable decoder state", "why_tests_cant": "Adversarial inputs are unbounded; fuzzing samples them.", "anchors": ["src/pdfmm/private/PdfFiltersPrivate.cpp: PdfLZWFilter::DecodeBlockImpl, InitTable, AddTable, FindCode"]}
{"id": "C07", "title": "LZW decoding inverts LZW encoding", "statement": "Decoding a block of LZW codes produced by a conforming variable-width LZW encoder (clear code 256, end code 257, early change) returns the encoded bytes.", "quantifier": "every byte string and every conforming LZW code sequence for it", "why_tests_cant": "Needs an argument about the decoder lagging the encoder by one table entry at every step, including code width changes.", "anchors": ["src/pdfmm/private/PdfFiltersPrivate.cpp: PdfLZWFilter::DecodeBlockImpl"]}
{"id": "C08", "title": "Filter decoding does not depend on how the input is cut into blocks", "statement": "For every filter the decoded output (or the error) for a byte string is the same whether it is passed in one DecodeBlock call or in several.", "quantifier": "every input, every partition into blocks, for ASCIIHex, ASCII85, LZW, RunLength and the PNG/TIFF predictors", "why_tests_cant": "The number of partitions is exponential in the length; stream readers cut at device buffer boundaries that tests do not control.", "anchors": ["src/pdfmm/private/PdfFiltersPrivate.cpp: DecodeBlockImpl of every filter, PdfPredictorDecoder::Decode", "src/pdfmm/base/PdfFilter.cpp: PdfBufferedDecodeStream, DecodeTo"]}
{"id": "C09", "title": "PNG predictor decoding inverts PNG filtering", "statement": "For 8-bit-or-wider pixels, decoding with predictors 10..14 an image filtered row by row with the PNG filters None, Sub, Up, Average or Paeth returns the original rows.", "quantifier": "every number of colors, bits per component, columns, rows, pixel contents and choice of filter per row", "why_tests_cant": "All pixel values and geometries; the Average filter only fails for large byte values.", "anchors": ["src/pdfmm/private/PdfFiltersPrivate.cpp: PdfPredictorDecoder::Decode"]}
{"id": "C10", "title": "Predictor decoding is memory safe and defined for every parameter set", "statement": "Constructing a predictor decoder from any /DecodeParms and decoding any data either works or raises an error: no division by zero, no out-of-range index.", "quantifier": "every predictor, colors, bits per component, columns value and every input", "why_tests_cant": "DecodeParms come from the file, i.e. from an adversary.", "anchors": ["src/pdfmm/private/PdfFiltersPrivate.cpp: PdfPredictorDecoder::PdfPredictorDecoder, Decode"]}
{"id": "C11", "title": "TIFF predictor decoding inverts horizontal differencing", "statement": "For 8 bits per component, decoding with predictor 2 data differenced per component returns the original rows.", "quantifier": "every colors, columns, rows and contents", "why_tests_cant": "All sizes and contents at once.", "anchors": ["src/pdfmm/private/PdfFiltersPrivate.cpp: PdfPredictorDecoder::Decode case 2"]}
{"id": "C12", "title": "Filter chains decode what they encode", "statement": "Writing a stream through a list of filters and reading it back through the same list returns the original bytes, for a list of any length.", "quantifier": "every byte string, every filter list built from filters that individually round-trip", "why_tests_cant": "The order in which stages are stacked on the write and the read side must be mutually inverse for every list.", "anchors": ["src/pdfmm/base/PdfFilter.cpp: PdfFilterFactory::CreateEncodeStream, CreateDecodeStream, PdfFilteredEncodeStream, PdfBufferedDecodeStream", "src/pdfmm/base/PdfObjectStream.cpp: getInputStream, PdfObjectOutputStream"]}
{"id": "C13", "title": "Filter objects enforce their begin/block/end protocol", "statement": "A filter accepts EncodeBlock/DecodeBlock/End calls only between the matching Begin and End, refuses a second Begin while busy, and is reusable after End or after a failed operation.", "quantifier": "every sequence of calls on a filter object, with arbitrary failures of the underlying codec", "why_tests_cant": "Call histories are unbounded.", "anchors": ["src/pdfmm/base/PdfFilter.cpp: PdfFilter::BeginEncode, EncodeBlock, EndEncode, BeginDecode, DecodeBlock, EndDecode, FailEncodeDecode"]}
{"id": "C14", "title": "Name escaping round trip", "statement": "For every name without a NUL byte, unescaping the escaped form returns the name; a name containing NUL is rejected with InvalidName when written.", "quantifier": "every byte string used as a name", "why_tests_cant": "All byte strings, including '#', delimiters, white space and bytes above 126.", "anchors": ["src/pdfmm/base/PdfName.cpp: PdfName::GetEscapedName, FromEscaped, EscapeNameTo, UnescapeName"]}
{"id": "C15", "title": "A written name is read back by the tokenizer", "statement": "Writing any NUL-free name (the empty one included) followed by anything that ends a token, and reading a variant from the result, yields the same name and leaves what follows still to be read, provided its escaped form fits in the token buffer.", "quantifier": "every name and every following context", "why_tests_cant": "Names interact with token boundaries, '#' escapes and the buffer limit.", "anchors": ["src/pdfmm/base/PdfName.cpp: PdfName::Write", "src/pdfmm/base/PdfTokenizer.cpp: PdfTokenizer::ReadName, TryReadNextToken"]}
{"id": "C16", "title": "Literal string round trip", "statement": "Writing any raw byte string as a literal string '( ... )' and reading it with the tokenizer returns the same bytes.", "quantifier": "every byte string, including unbalanced parentheses, backslashes, CR/LF and arbitrary binary", "why_tests_cant": "Escaping and the nesting/escape/octal state machine must be inverse for every string.", "anchors": ["src/pdfmm/base/PdfString.cpp: PdfString::Write", "src/pdfmm/base/PdfTokenizer.cpp: PdfTokenizer::ReadString"]}
{"id": "C17", "title": "Hexadecimal string round trip", "statement": "Writing any byte string as a hexadecimal string '<...>' and reading it with the tokenizer returns the same bytes.", "quantifier": "every byte string", "why_tests_cant": "All lengths and contents.", "anchors": ["src/pdfmm/base/PdfString.cpp: PdfString::Write, FromHexData", "src/pdfmm/base/PdfTokenizer.cpp: PdfTokenizer::ReadHexString, readHexString"]}
{"id": "C18", "title": "Integer round trip", "statement": "Every 64-bit integer written by a variant is read back as the same number.", "quantifier": "every int64 value", "why_tests_cant": "2^64 values including the minimum.", "anchors": ["src/pdfmm/base/PdfVariant.cpp: PdfVariant::Write", "src/pdfmm/base/PdfTokenizer.cpp: PdfTokenizer::DetermineDataType, ReadNextNumber"]}
{"id": "C19", "title": "Object write/parse round trip", "statement": "Writing any direct object built from null, booleans, integers, reals with one to six digits after the point, names, strings, references, arrays and dictionaries and parsing the text returns an equal object, in compact and in clean mode.", "quantifier": "every object tree (any size, nesting below the parser's recursion limit), in compact mode and in clean mode", "why_tests_cant": "Infinitely many nested values; adjacency of tokens (numbers, references, names) creates ambiguities only for particular neighbours.", "anchors": ["src/pdfmm/base/PdfVariant.cpp: PdfVariant::Write", "src/pdfmm/base/PdfArray.cpp: PdfArray::Write", "src/pdfmm/base/PdfDictionary.cpp: PdfDictionary::Write", "src/pdfmm/base/PdfTokenizer.cpp: PdfTokenizer::ReadNextVariant, ReadArray, ReadDictionary"]}
{"id": "C20", "title": "Tokenizing always makes progress", "statement": "Reading tokens from any finite input terminates: every successful read consumes at least one byte, and at the end of input it reports false.", "quantifier": "every byte string and every starting position", "why_tests_cant": "Non-termination is about all inputs; no finite test run shows termination.", "anchors": ["src/pdfmm/base/PdfTokenizer.cpp: PdfTokenizer::TryReadNextToken"]}
{"id": "C21", "title": "Reading a number never loses the following tokens", "statement": "When a value read turns out not to be an indirect reference, the tokens examined while deciding so are returned by the following reads, in order.", "quantifier": "every token sequence, including ones ending right after the number", "why_tests_cant": "The look-ahead queue must be exact for every continuation, notably end of input.", "anchors": ["src/pdfmm/base/PdfTokenizer.cpp: PdfTokenizer::DetermineDataType, EnqueueToken, TryReadNextToken"]}
{"id": "C22", "title": "Nesting is bounded by an error, not by a crash", "statement": "Parsing arrays or dictionaries nested deeper than the recursion limit raises an error, nesting up to the limit parses, and the limit is the same for every later parse on the thread.", "quantifier": "every nesting depth and every history of earlier (successful or failing) parses on the same thread", "why_tests_cant": "The limit must hold for unbounded depth and be restored after every history.", "anchors": ["src/pdfmm/private/PdfDeclarationsPrivate.cpp: utls::RecursionGuard, utls::RecursionGuard::Enter, Exit", "src/pdfmm/base/PdfTokenizer.cpp: PdfTokenizer::ReadDictionary, ReadArray"]}
{"id": "C23", "title": "Printed reals keep their value", "statement": "Formatting a real to a fixed number of decimals and stripping trailing zeroes yields a legal PDF real denoting exactly the rounded value, never an empty string, at every precision.", "quantifier": "every fixed-point decimal text produced by the formatter", "why_tests_cant": "All decimal expansions, including 0.000000, -0.5 and integers with trailing zeroes.", "anchors": ["src/pdfmm/private/PdfDeclarationsPrivate.cpp: utls::FormatTo, removeTrailingZeroes", "src/pdfmm/base/PdfVariant.cpp: PdfVariant::Write"]}
{"id": "C24", "title": "Variant equality is an equivalence and != is its negation", "statement": "operator== on variants, arrays, dictionaries and objects is reflexive, symmetric and transitive, and a != b is exactly !(a == b).", "quantifier": "every pair and triple of values", "why_tests_cant": "An algebraic law over all values; it fails only for particular type combinations or aliasing.", "anchors": ["src/pdfmm/base/PdfVariant.cpp: PdfVariant::operator==, operator!=", "src/pdfmm/base/PdfDictionary.cpp: PdfDictionary::operator!=", "src/pdfmm/base/PdfArray.cpp: PdfArray::operator==, operator!=", "src/pdfmm/base/PdfObject.cpp: PdfObject::operator==, operator!="]}
{"id": "C25", "title": "References are totally ordered consistently with equality", "statement": "operator< on references is a strict total order (object number first, then generation), consistent with == and !=, and equal references hash equally.", "quantifier": "every triple of references", "why_tests_cant": "Ordered containers are only correct if the law holds for all triples.", "anchors": ["src/pdfmm/base/PdfReference.cpp: PdfReference::operator<, operator==, operator!=", "src/pdfmm/base/PdfReference.h: std::hash<PdfReference>"]}
{"id": "C26", "title": "Dictionaries behave as finite maps", "statement": "After any sequence of AddKey, RemoveKey and Clear, GetKey returns the last value added for a key and not removed since, HasKey agrees with it, and the size is the number of present keys.", "quantifier": "every sequence of operations and every key", "why_tests_cant": "Histories are unbounded.", "anchors": ["src/pdfmm/base/PdfDictionary.cpp: PdfDictionary::AddKey, RemoveKey, Clear, getKey, HasKey"]}
{"id": "C27", "title": "Arrays behave as lists and reject bad indices", "statement": "After any sequence of Add, SetAt, insert, RemoveAt, Resize and Clear an array holds exactly the list of values the same operations give on a list; indexed access outside the bounds raises ValueOutOfRange.", "quantifier": "every sequence of operations and every index", "why_tests_cant": "Histories and indices are unbounded.", "anchors": ["src/pdfmm/base/PdfArray.cpp: PdfArray::Add, SetAt, RemoveAt, insert, Resize, Clear, getAt, findAt"]}
{"id": "C28", "title": "Every modification marks the enclosing indirect object dirty", "statement": "Changing a value at any depth inside an indirect object marks that object dirty, so an incremental update writes it; a read never marks it dirty.", "quantifier": "every object tree, every path to the modified value and every operation sequence", "why_tests_cant": "Depth and history are unbounded; a lost dirty flag silently drops the change from an incremental save.", "anchors": ["src/pdfmm/base/PdfObject.cpp: PdfObject::SetDirty, ResetDirty, setDirty", "src/pdfmm/base/PdfDataContainer.cpp: PdfDataContainer::SetDirty", "src/pdfmm/base/PdfDictionary.cpp: PdfDictionary::AddKey", "src/pdfmm/base/PdfArray.cpp: PdfArray::Resize, resize", "src/pdfmm/base/PdfWriter.cpp: PdfWriter::WritePdfObjects"]}
{"id": "C29", "title": "The indirect object list is a map ordered by reference", "statement": "After any sequence of object creations, insertions and removals GetObject(ref) returns the object last stored under ref and not removed, and iteration visits each object once in increasing reference order.", "quantifier": "every operation sequence and every reference", "why_tests_cant": "Histories are unbounded.", "anchors": ["src/pdfmm/base/PdfIndirectObjectList.cpp: PdfIndirectObjectList::PushObject, GetObject, RemoveObject, CreateObject, CreateDictionaryObject"]}
{"id": "C30", "title": "A created object gets a reference nobody else has", "statement": "CreateObject/CreateDictionaryObject/CreateArrayObject never reuses a reference (nor the object number) of a live object, for a document of any size.", "quantifier": "every history of creations and removals, any number of objects", "why_tests_cant": "Only documents beyond a size threshold misbehave; tests do not build them.", "anchors": ["src/pdfmm/base/PdfIndirectObjectList.cpp: getNextFreeObject, addNewObject, CreateDictionaryObject, TryIncrementObjectCount"]}
{"id": "C31", "title": "Freed object numbers come back with the next generation and exhausted ones never", "statement": "Removing object (n,g) makes n reusable only as (n,g+1); a number whose generation reached the maximum is never handed out again.", "quantifier": "every history of removals and creations", "why_tests_cant": "Generation exhaustion needs 65535 reuse cycles; histories are unbounded.", "anchors": ["src/pdfmm/base/PdfIndirectObjectList.cpp: SafeAddFreeObject, tryAddFreeObject, AddFreeObject, getNextFreeObject, removeObject"]}
{"id": "C32", "title": "ReplaceObject only touches the given reference", "statement": "ReplaceObject(ref, obj) returns the object stored under ref (or none) and leaves every other object in the list in place.", "quantifier": "every object list and every reference, present or not", "why_tests_cant": "The missing-reference case depends on the neighbours in the list.", "anchors": ["src/pdfmm/base/PdfIndirectObjectList.cpp: PdfIndirectObjectList::ReplaceObject, pushObject"]}
{"id": "C33", "title": "Garbage collection keeps exactly what is reachable", "statement": "CollectGarbage removes an object if and only if it is not reachable from the trailer through references (object streams are kept), for any reference graph including cycles.", "quantifier": "every object graph", "why_tests_cant": "Reachability in arbitrary cyclic graphs; also termination.", "anchors": ["src/pdfmm/base/PdfIndirectObjectList.cpp: CollectGarbage, visitObject"]}
{"id": "C34", "title": "The written xref table lists every object exactly once", "statement": "For objects and free references added in any order with distinct numbers, the written subsections are disjoint, increasing and consecutive inside, their counts equal the number of entries that follow, and each added object occurs exactly once at its own number with its own offset and generation.", "quantifier": "every set of references, every insertion order", "why_tests_cant": "All insertion orders and gap patterns; block merging only triggers for some.", "anchors": ["src/pdfmm/base/PdfXRef.cpp: PdfXRef::addObject, PdfXRefBlock::InsertItem, mergeBlocks, Write"]}
{"id": "C35", "title": "The written free list is a chain through all free entries", "statement": "Following the next-free numbers from entry 0 visits every written free entry exactly once in increasing order and ends at 0.", "quantifier": "every set of free and in-use references in every block structure", "why_tests_cant": "Linked-list integrity for any number of blocks and free entries.", "anchors": ["src/pdfmm/base/PdfXRef.cpp: PdfXRef::getFirstFreeObject, getNextFreeObject, Write"]}
{"id": "C36", "title": "Every xref table entry is exactly 20 bytes", "statement": "Each entry line of a written classic xref table is 20 bytes long, so that entry k of a subsection is found at a computed position.", "quantifier": "every offset and generation", "why_tests_cant": "Only offsets of ten digits and more break the format.", "anchors": ["src/pdfmm/base/PdfXRef.cpp: PdfXRef::WriteXRefEntry"]}
{"id": "C37", "title": "A written xref table is read back identically", "statement": "Parsing the classic xref table written for a set of objects recovers for every object number the same kind, offset or next-free number, and generation.", "quantifier": "every set of references with offsets below 10^10", "why_tests_cant": "All object sets and offsets; goes through number formatting, sscanf parsing and subsection arithmetic.", "anchors": ["src/pdfmm/base/PdfXRef.cpp: PdfXRef::Write", "src/pdfmm/base/PdfParser.cpp: PdfParser::ReadXRefContents, ReadXRefSubsection"]}
{"id": "C38", "title": "Cross-reference stream entries are read back identically", "statement": "The entries written in a cross-reference stream and parsed with its /W and /Index recover type, offset or next-free number and generation.", "quantifier": "every list of entries", "why_tests_cant": "All entry values; offsets beyond 4 GiB only appear in huge files.", "anchors": ["src/pdfmm/base/PdfXRefStream.cpp: WriteXRefEntry, EndWriteImpl", "src/pdfmm/base/PdfXRefStreamParserObject.cpp: parseStream, readXRefStreamEntry"]}
{"id": "C39", "title": "Parsing a cross-reference stream never reads outside its data", "statement": "For any /W, /Index and stream contents the cross-reference stream parser reads only inside the decoded buffer, or raises an error.", "quantifier": "every /W array, /Index array and buffer", "why_tests_cant": "Adversarial files; an over-read of a few bytes is invisible to tests without instrumentation.", "anchors": ["src/pdfmm/base/PdfXRefStreamParserObject.cpp: parseStream, readXRefStreamEntry"]}
{"id": "C40", "title": "The newest revision of an object wins", "statement": "When a file has several xref sections (incremental updates, hybrid files), the entry of each object number is the one of the newest section that mentions it.", "quantifier": "every chain of xref sections", "why_tests_cant": "Chains of any length with any overlap.", "anchors": ["src/pdfmm/base/PdfParser.cpp: PdfParser::ReadXRefContents, ReadXRefSubsection, ReadNextTrailer", "src/pdfmm/base/PdfXRefStreamParserObject.cpp: parseStream"]}
{"id": "C41", "title": "Merging trailers keeps the newest values", "statement": "After reading a chain of trailers the document trailer holds the newest trailer's entries and, for /Size, /Root, /Encrypt, /Info and /ID missing there, the newest older one that has them.", "quantifier": "every chain of trailers", "why_tests_cant": "Chains of any length.", "anchors": ["src/pdfmm/base/PdfParser.cpp: PdfParser::MergeTrailer, ReadNextTrailer"]}
{"id": "C42", "title": "Following /Prev chains terminates", "statement": "Reading the xref chain of any file, including one whose /Prev or /XRefStm offsets form a cycle, terminates and visits every offset at most once.", "quantifier": "every map from offsets to sections", "why_tests_cant": "Adversarial cycles of any length.", "anchors": ["src/pdfmm/base/PdfParser.cpp: PdfParser::ReadXRefContents, ReadNextTrailer, ReadXRefStreamContents"]}
{"id": "C43", "title": "A header preceded by other bytes is found", "statement": "A file that contains %PDF-1.x is recognised, whatever bytes precede the first occurrence.", "quantifier": "every prefix of bytes before the header", "why_tests_cant": "Only prefixes ending in a partial match of the magic word matter; they are easy to miss.", "anchors": ["src/pdfmm/base/PdfParser.cpp: PdfParser::IsPdfFile, ReadMagicWord"]}
{"id": "C44", "title": "Backward search finds the last occurrence of the token", "statement": "FindTokenBackward positions the device at the last occurrence of the token within the search range and raises an error when there is none.", "quantifier": "every file content, token and range", "why_tests_cant": "Boundary positions of the search window.", "anchors": ["src/pdfmm/base/PdfParser.cpp: PdfParser::FindTokenBackward, FindToken2"]}
{"id": "C45", "title": "Pages are found by index", "statement": "GetPageAt(i) returns the i-th page in document order for a well formed page tree of any shape, and raises PageNotFound for i >= GetCount().", "quantifier": "every well formed page tree (any nesting, empty intermediate nodes allowed) and every index", "why_tests_cant": "Tree shapes are unbounded.", "anchors": ["src/pdfmm/base/PdfPageCollection.cpp: GetPageAt, getPageNode, getChildCount"]}
{"id": "C46", "title": "Inserting pages inserts them at the index", "statement": "InsertPagesAt(i, ps) changes the page sequence to the old one with ps inserted at position min(i, count), and keeps every /Count correct.", "quantifier": "every well formed page tree, index and list of new pages, and sequences of such operations", "why_tests_cant": "Tree shapes, indices and histories are unbounded.", "anchors": ["src/pdfmm/base/PdfPageCollection.cpp: InsertPagesAt, insertPagesIntoNode, getPosInKids, changePagesCount"]}
{"id": "C47", "title": "Removing a page removes exactly that page", "statement": "RemovePageAt(i) changes the page sequence to the old one without its i-th element, keeps every /Count correct and leaves no empty intermediate node on the path.", "quantifier": "every well formed page tree and index", "why_tests_cant": "Tree shapes are unbounded.", "anchors": ["src/pdfmm/base/PdfPageCollection.cpp: RemovePageAt, deletePageFromNode, deletePageNode, isEmptyPageNode"]}
{"id": "C48", "title": "The page cache never serves a stale page", "statement": "After any sequence of GetPageAt, CreatePage, CreatePageAt, InsertPagesAt and RemovePageAt, a page served from the cache is the page the tree has at that index.", "quantifier": "every operation history", "why_tests_cant": "Cache coherence over unbounded histories.", "anchors": ["src/pdfmm/base/PdfPageTreeCache.cpp: InsertPlaceHolders, SetPage, DeletePage, GetPage", "src/pdfmm/base/PdfPageCollection.cpp: getPage, InsertPagesAt, RemovePageAt"]}
{"id": "C49", "title": "Name trees behave as maps", "statement": "After any sequence of AddValue calls on a name tree, GetValue returns the last value added for a key and nothing for other keys.", "quantifier": "every sequence of insertions of any length (node splits included) and every key", "why_tests_cant": "Splits happen only after many insertions and cascade in depth; histories are unbounded.", "anchors": ["src/pdfmm/base/PdfNameTree.cpp: PdfNameTreeNode::AddValue, Rebalance, SetLimits, PdfNameTree::GetKeyValue, CheckLimits"]}
{"id": "C50", "title": "Name trees stay sorted, limited and bounded", "statement": "After any sequence of AddValue calls the keys are strictly increasing in tree order, every non-root node's /Limits are its least and greatest key, and no node has more than 65 children or 65 names.", "quantifier": "every sequence of insertions", "why_tests_cant": "Structural invariant over unbounded histories.", "anchors": ["src/pdfmm/base/PdfNameTree.cpp: PdfNameTreeNode::AddValue, Rebalance, SetLimits"]}
{"id": "C51", "title": "Outline siblings form a consistent doubly linked list", "statement": "After any sequence of CreateChild, CreateNext, InsertChild and Erase calls, First/Last/Next/Prev of the outline items (in memory and in the dictionaries) describe the same ordered list of children of each item.", "quantifier": "every operation history, on new and on loaded outlines", "why_tests_cant": "Pointer-structure invariant over unbounded histories.", "anchors": ["src/pdfmm/base/PdfOutlines.cpp: CreateChild, InsertChildInternal, CreateNext, Erase, SetNext, SetPrevious, SetFirst, SetLast"]}
{"id": "C52", "title": "An outline item cannot be inserted twice", "statement": "InsertChild raises OutlineItemAlreadyPresent when the item already belongs to the same outline tree.", "quantifier": "every outline forest and every pair of items", "why_tests_cant": "All tree shapes; the guard must hold for every position.", "anchors": ["src/pdfmm/base/PdfOutlines.cpp: PdfOutlineItem::InsertChildInternal"]}
{"id": "C53", "title": "Appending a document keeps both documents' objects", "statement": "AppendDocumentPages leaves every existing object of the target in place and adds each source object under a new number with its references shifted consistently.", "quantifier": "every pair of documents", "why_tests_cant": "Number gaps and free lists of any shape.", "anchors": ["src/pdfmm/base/PdfDocument.cpp: PdfDocument::append, fixObjectReferences"]}
{"id": "C54", "title": "Inserting a page of another document terminates", "statement": "InsertDocumentPageAt terminates and only copies objects of the source document.", "quantifier": "every pair of documents", "why_tests_cant": "Non-termination cannot be observed by a finite test run; the loop must be analysed for every list.", "anchors": ["src/pdfmm/base/PdfDocument.cpp: PdfDocument::InsertDocumentPageAt"]}
{"id": "C55", "title": "PDFDocEncoding conversion round trip", "statement": "Converting a string of representable characters to PDFDocEncoding and back returns it; converting PDFDocEncoding bytes to Unicode and back returns the same bytes for every defined code except the one aliased code.", "quantifier": "every string of code points and every byte string", "why_tests_cant": "All strings; a table with an aliased and three undefined entries.", "anchors": ["src/pdfmm/private/PdfEncodingPrivate.cpp: TryConvertUTF8ToPdfDocEncoding, ConvertPdfDocEncodingToUTF8, s_cEncoding, getUTF8ToPdfEncodingMap"]}
{"id": "C56", "title": "Character maps do not depend on the random build order", "statement": "TryGetCharCode on a code map returns the same result whatever random order the search tree was built in, namely the code mapped to exactly those code points.", "quantifier": "every map and every permutation used by the shuffle", "why_tests_cant": "The implementation shuffles with a random device: the number of permutations is factorial.", "anchors": ["src/pdfmm/base/PdfCharCodeMap.cpp: reviseCPMap, findOrAddNode, findNode, TryGetCharCode"]}
{"id": "C57", "title": "Ligature matching is longest match", "statement": "TryGetNextCharCode consumes the longest prefix of the text that is mapped to a code and returns that code.", "quantifier": "every map and every text", "why_tests_cant": "All prefix overlap patterns among ligatures.", "anchors": ["src/pdfmm/base/PdfCharCodeMap.cpp: TryGetNextCharCode, tryFindNextCharacterId"]}
{"id": "C58", "title": "Lookups never report an undefined code as found", "statement": "TryGetCharCode returns true only if the code point (sequence) is mapped.", "quantifier": "every map and code point", "why_tests_cant": "Depends on whether the code point is a proper prefix of some ligature in the map.", "anchors": ["src/pdfmm/base/PdfCharCodeMap.cpp: TryGetCharCode(codepoint), TryGetCharCode(codepointview)"]}
{"id": "C59", "title": "Date round trip", "statement": "Formatting a date with year 0..9999 and an offset below 60 hours as PDF or W3C text and parsing the text returns the same instant and offset.", "quantifier": "every such date", "why_tests_cant": "All instants, leap years and offsets of both signs.", "anchors": ["src/pdfmm/base/PdfDate.cpp: createStringRepresentation, tryParse, tryParseW3C, inferTimeComponents, parseFixLenNumber"]}
{"id": "C60", "title": "Malformed dates are rejected", "statement": "A text that is not a PDF date (ISO 32000-1 7.9.4) makes TryParse return false, and a truncated date denotes the first month/day.", "quantifier": "every text", "why_tests_cant": "Universally quantified rejection.", "anchors": ["src/pdfmm/base/PdfDate.cpp: tryParse, parseFixLenNumber"]}
{"id": "C61", "title": "Seeking and reading memory devices stays in bounds", "statement": "For every sequence of seeks, reads and writes on a memory device, the position stays within the buffer, reads return the bytes at the position, and out-of-range seeks and writes raise an error and change nothing.", "quantifier": "every buffer and operation sequence", "why_tests_cant": "Unbounded histories; memory safety.", "anchors": ["src/pdfmm/base/PdfStreamDevice.cpp: StreamDevice::SeekPosition, SpanStreamDevice"]}
{"id": "C62", "title": "Saving preserves stream contents", "statement": "Writing an object with a stream writes the stream's data: decoding the written stream with its written /Filter yields the original data, whatever the save options.", "quantifier": "every stream content, filter list and save option", "why_tests_cant": "Contents and options; data loss shows only for unfiltered streams with compression enabled.", "anchors": ["src/pdfmm/base/PdfObject.cpp: PdfObject::Write", "src/pdfmm/base/PdfObjectStream.cpp: PdfObjectStream::MoveFrom, CopyFrom", "src/pdfmm/base/PdfMemoryObjectStream.cpp: TryMoveFrom, Write"]}
{"id": "C63", "title": "The right password opens the document", "statement": "A document encrypted with RC4 or AES-128 (revisions 2 to 4) authenticates with the user password and with the owner password that it was created with.", "quantifier": "every pair of passwords, permissions, document id and supported key length, for any MD5 and any stream cipher that is its own inverse", "why_tests_cant": "All passwords and ids; relies on the 20-round owner key being inverted in the opposite order.", "anchors": ["src/pdfmm/base/PdfEncrypt.cpp: PdfEncryptMD5Base::ComputeOwnerKey, ComputeEncryptionKey, PadPassword, CheckKey, PdfEncryptRC4::Authenticate, PdfEncryptAESV2::Authenticate"]}
{"id": "C64", "title": "Keyword tables are inverse of each other", "statement": "For filters, PDF versions, annotation types and color spaces, converting a value to its PDF name and back returns the value, and no two values share a name.", "quantifier": "every enumerator and every name", "why_tests_cant": "Whole-table property, to be checked for all entries and for all other names.", "anchors": ["src/pdfmm/private/PdfDeclarationsPrivate.cpp: FilterToName, NameToFilter, GetPdfVersion, GetPdfVersionName, AnnotationTypeToName, NameToAnnotationType, NameToColorSpaceRaw, ColorSpaceToNameRaw"]}
{"id": "C65", "title": "Big-endian integer I/O round trip", "statement": "Writing a 16- or 32-bit integer big-endian and reading it back returns it; reading bytes and writing them back returns the bytes.", "quantifier": "every integer and byte sequence", "why_tests_cant": "All values.", "anchors": ["src/pdfmm/private/PdfDeclarationsPrivate.cpp: utls::WriteUInt16BE, WriteUInt32BE, ReadUInt16BE, ReadUInt32BE, ReadInt16BE, ReadInt32BE"]}
{"id": "C66", "title": "The multiplication overflow check is exact", "statement": "DoesMultiplicationOverflow(a, b) is true exactly when the mathematical product does not fit.", "quantifier": "every pair of size_t values", "why_tests_cant": "2^128 pairs.", "anchors": ["src/pdfmm/private/PdfDeclarationsPrivate.cpp: DoesMultiplicationOverflow"]}
{"id": "C67", "title": "ToString parses back", "statement": "The text ToString gives for a value built from null, booleans, integers, names, strings, references, arrays and dictionaries parses to an equal value.", "quantifier": "every value tree below the recursion limit", "why_tests_cant": "ToString picks a different write mode by the kind of the value, and one of these modes runs neighbouring literals together; only a proof over all trees shows that mode is never used where it would.", "anchors": ["src/pdfmm/base/PdfVariant.cpp: PdfVariant::ToString, PdfVariant::Write", "src/pdfmm/base/PdfTokenizer.cpp: PdfTokenizer::TryReadNextVariant"]}
{"id": "C68", "title": "Literal strings are read as the standard defines them", "statement": "The tokenizer reads the text of every literal string of ISO 32000-1 7.3.4.2 (balanced parentheses, the escapes of table 3, octal codes of one to three digits, line continuations, end-of-line normalisation) to the bytes it denotes and stops right after the closing parenthesis.", "quantifier": "every literal string text and whatever follows it", "why_tests_cant": "The escape/octal/nesting state machine has to agree with the grammar on every combination.", "anchors": ["src/pdfmm/base/PdfTokenizer.cpp: PdfTokenizer::ReadString, getEscapedCharacter, isOctalChar"]}
{"id": "C69", "title": "Hexadecimal strings are read as the standard defines them", "statement": "The tokenizer reads every hexadecimal string made of digits in either case and white space to the bytes it denotes, an odd last digit counting as followed by 0, and stops right after '>'.", "quantifier": "every text of hexadecimal digits and white space", "why_tests_cant": "All lengths, spacings and parities.", "anchors": ["src/pdfmm/base/PdfTokenizer.cpp: readHexString, PdfTokenizer::ReadHexString", "src/pdfmm/base/PdfString.cpp: PdfString::FromHexData"]}
{"id": "C70", "title": "White space and comments between tokens are ignored", "statement": "Any sequence of white space characters and comments before a token leaves the token read unchanged.", "quantifier": "every separator text and every following input", "why_tests_cant": "Arbitrary lengths and mixtures of comments and line ends.", "anchors": ["src/pdfmm/base/PdfTokenizer.cpp: PdfTokenizer::TryReadNextToken"]}
{"id": "C71", "title": "Name escapes are read as the standard defines them", "statement": "A name is read to the bytes its text denotes: '#' and two hexadecimal digits in either case stand for a byte, every other character for itself.", "quantifier": "every valid name text", "why_tests_cant": "All combinations of escapes and characters.", "anchors": ["src/pdfmm/base/PdfName.cpp: UnescapeName"]}
{"id": "C72", "title": "A dictionary entry is found under the name it was stored with", "statement": "An entry stored with AddKey under a name is found by HasKey, GetKey and FindKey when the same text is given, whether as a PdfName or as a plain string.", "quantifier": "every name and every text", "why_tests_cant": "Agreement of two comparison functions over all byte strings.", "anchors": ["src/pdfmm/base/PdfDictionary.h: PdfDictionaryMap, PdfNameInequality", "src/pdfmm/base/PdfName.cpp: PdfName::operator==, operator<"]}
{"id": "C73", "title": "The number of incremental updates is that of the older revisions", "statement": "PdfParser::GetNumberOfIncrementalUpdates returns how many times the file was updated after it was first written.", "quantifier": "every chain of revisions", "why_tests_cant": "Chains of any length and mixture of section kinds.", "anchors": ["src/pdfmm/base/PdfParser.cpp: ReadNextTrailer, ReadXRefStreamContents", "src/pdfmm/base/PdfParser.h: GetNumberOfIncrementalUpdates"]}
{"id": "C74", "title": "A parser can be used again", "statement": "Calling PdfParser::Parse again on the same object, as is expected after a wrong password was given, gives the result a new parser gives.", "quantifier": "every file and every earlier run", "why_tests_cant": "Depends on what every earlier run left behind.", "anchors": ["src/pdfmm/base/PdfParser.cpp: PdfParser::Parse, Reset, ReadXRefContents"]}
{"id": "C75", "title": "Cross-reference stream entries of any producer are read as the standard defines", "statement": "An entry of a cross-reference stream is read to the type, offset or object number and generation or index that its big-endian fields stand for, with type 1 if the type field is absent; unknown types count as references to null.", "quantifier": "every width of the fields and every content", "why_tests_cant": "Widths and contents range over all values.", "anchors": ["src/pdfmm/base/PdfXRefStreamParserObject.cpp: readXRefStreamEntry"]}
{"id": "C76", "title": "The startxref keyword before the last end-of-file marker is found", "statement": "Whatever bytes follow the last %%EOF of a file, the startxref keyword that precedes this marker is the one used to open the file.", "quantifier": "every file content and every trailing garbage", "why_tests_cant": "Positions of the marker and length of the garbage are unbounded.", "anchors": ["src/pdfmm/base/PdfParser.cpp: PdfParser::CheckEOFMarker, FindXRef, FindTokenBackward"]}
{"id": "C77", "title": "A page knows its number", "statement": "GetPageNumber of the page at index i is i + 1.", "quantifier": "every well formed page tree of any shape and every page in it", "why_tests_cant": "Tree shapes are unbounded.", "anchors": ["src/pdfmm/base/PdfPage.cpp: PdfPage::GetPageNumber"]}
{"id": "C78", "title": "A page knows its index", "statement": "GetIndex of the page GetPageAt(i) returns is i, whatever was inserted or removed before.", "quantifier": "every history of page operations and every index", "why_tests_cant": "Depends on the whole history of the document.", "anchors": ["src/pdfmm/base/PdfPage.h: PdfPage::GetIndex", "src/pdfmm/base/PdfPageTreeCache.cpp: InsertPlaceHolders, DeletePage"]}
{"id": "C79", "title": "Pages inherit resources from their ancestors", "statement": "A page without resources of its own gets those of the nearest ancestor node that has some.", "quantifier": "every page tree of any shape", "why_tests_cant": "Tree shapes are unbounded.", "anchors": ["src/pdfmm/base/PdfPage.cpp: PdfPage::PdfPage", "src/pdfmm/base/PdfPageCollection.cpp: getPage"]}
{"id": "C80", "title": "A text put into a string survives writing and reading", "statement": "A Unicode text given to PdfString is what GetString returns after the string has been written to a file (as a literal or hexadecimal string) and read again.", "quantifier": "every text of Unicode characters", "why_tests_cant": "All texts, including those whose PDFDocEncoding bytes look like a byte order mark.", "anchors": ["src/pdfmm/base/PdfString.cpp: PdfString::Write, initFromUtf8String, evaluateString, getEncoding"]}
{"id": "C81", "title": "Equality of strings does not depend on whether their text was looked at", "statement": "Calling GetString on a string changes the result of no comparison with another string, and calling it twice is the same as once.", "quantifier": "every pair of strings", "why_tests_cant": "Quantifies over all byte strings and encodings.", "anchors": ["src/pdfmm/base/PdfString.cpp: evaluateString, operator==, canPerformComparison"]}
{"id": "C82", "title": "Names keep their text", "statement": "A name made from a text returns this text; written and read again it has the same bytes and text; a text outside PDFDocEncoding is refused with an error.", "quantifier": "every text", "why_tests_cant": "All texts.", "anchors": ["src/pdfmm/base/PdfName.cpp: initFromUtf8String, expandUtf8String, EscapeNameTo, UnescapeName, operator=="]}
{"id": "C83", "title": "Keyword lists survive their conversion to text", "statement": "The list given to SetKeywords is what GetKeywords returns.", "quantifier": "every list of keywords", "why_tests_cant": "All lists.", "anchors": ["src/pdfmm/private/PdfDeclarationsPrivate.cpp: ToPdfKeywordsList, ToPdfKeywordsString", "src/pdfmm/base/PdfMetadata.cpp: SetKeywords, GetKeywords"]}
{"id": "C84", "title": "Metadata setters take effect", "statement": "After setting a metadata entry (title, author, subject, keywords, creator, producer, dates) its getter returns the value set and the other entries are unchanged.", "quantifier": "every document state, entry and value", "why_tests_cant": "Quantifies over all states of document and cache and all values.", "anchors": ["src/pdfmm/base/PdfMetadata.cpp: SetTitle, SetAuthor, SetSubject, setKeywords, SetCreator, SetProducer, SetCreationDate, SetModifyDate, ensureInitialized", "src/pdfmm/common/nullable.h: operator=="]}
{"id": "C85", "title": "A null device counts what is written to it", "statement": "After any sequence of calls on a null stream device its length is the number of bytes written and nothing can be read from it.", "quantifier": "every sequence of writes, reads and seeks", "why_tests_cant": "All histories of calls.", "anchors": ["src/pdfmm/base/PdfStreamDevice.cpp: NullStreamDevice"]}
{"id": "C86", "title": "Page contents are read as one text", "statement": "Reading a page's contents character by character, with peeks in between, gives the data of its content streams in order with exactly one line break between consecutive non-empty streams.", "quantifier": "every list of content streams and every interleaving of reads and peeks", "why_tests_cant": "All lists of streams, all interleavings.", "anchors": ["src/pdfmm/base/PdfCanvasInputDevice.cpp: PdfCanvasInputDevice, peek, readChar, tryGetNextDevice, tryPopNextDevice"]}
{"id": "C87", "title": "Page contents are copied whole", "statement": "Copying a page's contents through its input device gives the same text as reading it character by character, whatever the lengths of the streams and of the buffer.", "quantifier": "every list of content streams and every buffer size", "why_tests_cant": "All lengths of streams relative to the buffer.", "anchors": ["src/pdfmm/base/PdfCanvasInputDevice.cpp: readBuffer, setEOF", "src/pdfmm/base/PdfInputStream.cpp: CopyTo"]}
{"id": "C88", "title": "Stream data set is stream data read", "statement": "After any history of replacing and appending uses of a stream's output stream with any encodable filters, decoding the stream gives what a plain buffer would hold.", "quantifier": "every stream object, every history of uses, every filter list, every division of the data into writes", "why_tests_cant": "All histories, filter lists and data.", "anchors": ["src/pdfmm/base/PdfObjectStream.cpp: GetOutputStream, SetData, CopyTo, getInputStream, PdfObjectOutputStream", "src/pdfmm/base/PdfMemoryObjectStream.cpp: GetOutputStream"]}
{"id": "C89", "title": "A failed change leaves a stream unchanged", "statement": "When setting or appending stream data raises an error, the stream still decodes to what it did before.", "quantifier": "every stream object, every failing filter list and data", "why_tests_cant": "All objects and filter lists.", "anchors": ["src/pdfmm/base/PdfObjectStream.cpp: PdfObjectOutputStream, SetData", "src/pdfmm/base/PdfFilter.cpp: CreateEncodeStream"]}
{"id": "C90", "title": "Copying and moving streams", "statement": "Copying or moving a stream into another object gives that object the source's data and filters and leaves its other keys alone; copying leaves the source alone, moving leaves it empty.", "quantifier": "every pair of stream objects", "why_tests_cant": "All pairs of objects.", "anchors": ["src/pdfmm/base/PdfObjectStream.cpp: CopyFrom, MoveFrom", "src/pdfmm/base/PdfMemoryObjectStream.cpp: TryCopyFrom, TryMoveFrom"]}
{"id": "C91", "title": "Written indirect objects are read back", "statement": "An indirect object without a stream, written with any options, is read from the file with the same identifier and the same value, whatever follows it.", "quantifier": "every identifier, every value without reals, every save option, every following text", "why_tests_cant": "All values, options and following bytes.", "anchors": ["src/pdfmm/base/PdfObject.cpp: Write", "src/pdfmm/base/PdfParserObject.cpp: Parse, readReference"]}
{"id": "C92", "title": "Code lookup in a code map", "statement": "After any sequence of PushMapping calls and lookups, TryGetCodePoints for a character code returns the code points last pushed for exactly that code (value and size), and reports failure for codes never pushed.", "quantifier": "All sequences of pushes and lookups, all codes and code point sequences", "why_tests_cant": "The lookup key ignores the code size, which only shows for particular pairs of codes out of all histories", "anchors": ["src/pdfmm/base/PdfCharCodeMap.cpp PushMapping", "src/pdfmm/base/PdfCharCodeMap.cpp TryGetCodePoints", "src/pdfmm/base/PdfEncodingCommon.cpp PdfCharCode::operator<"]}
{"id": "C93", "title": "Limits of a code map", "statement": "After any sequence of PushMapping calls GetLimits gives the smallest and the biggest size of the codes pushed, and the first and last of those codes.", "quantifier": "All sequences of pushes", "why_tests_cant": "Limits are updated incrementally, so every order and multiset of codes matters", "anchors": ["src/pdfmm/base/PdfCharCodeMap.cpp pushMapping", "src/pdfmm/base/PdfEncodingCommon.h PdfEncodingLimits"]}
{"id": "C94", "title": "Encoding then decoding text", "statement": "A text all of whose characters are mapped, encoded with a CMap encoding and decoded again with it, is the same text.", "quantifier": "All code maps, all texts covered by the map", "why_tests_cant": "Decoding is greedy over the code sizes, so it depends on all pairs of codes in the map and on every position in the text", "anchors": ["src/pdfmm/base/PdfEncoding.cpp TryConvertToEncoded", "src/pdfmm/base/PdfEncoding.cpp tryConvertEncodedToUtf8", "src/pdfmm/base/PdfEncodingMap.cpp PdfEncodingMap::TryGetNextCodePoints"]}
{"id": "C95", "title": "Decoding always ends with valid text", "statement": "Converting any string of bytes to text with any CMap encoding terminates and gives valid UTF-8 or an exception, whatever the bytes are.", "quantifier": "All maps, all byte strings", "why_tests_cant": "Byte strings come from files: the input space is unbounded and adversarial", "anchors": ["src/pdfmm/base/PdfEncoding.cpp tryConvertEncodedToUtf8"]}
{"id": "C96", "title": "Encoding made of a code map", "statement": "A CMap encoding constructed from a code map decodes every code of that map.", "quantifier": "All code maps", "why_tests_cant": "The constructor reads the limits of the map after having moved it, for every map", "anchors": ["src/pdfmm/base/PdfCMapEncoding.cpp PdfCMapEncoding::PdfCMapEncoding", "src/pdfmm/private/PdfDeclarationsPrivate.h utls::move"]}
{"id": "C97", "title": "Ranges of a CMap", "statement": "A bfrange entry maps the i-th code of the range to the destination text with i added to its last character.", "quantifier": "All ranges, destinations and states of the reader", "why_tests_cant": "Ranges have up to 2^32 codes and destinations any number of characters", "anchors": ["src/pdfmm/base/PdfCMapEncoding.cpp parseCMapObject", "src/pdfmm/base/PdfCMapEncoding.cpp handleRangeMapping"]}
{"id": "C98", "title": "Code sizes of a CMap", "statement": "The smallest and largest code sizes of a CMap that was read are those of the codes it lists.", "quantifier": "All entries and states of the reader", "why_tests_cant": "Entries come from files and every combination of sizes must work", "anchors": ["src/pdfmm/base/PdfCMapEncoding.cpp getCodeFromVariant", "src/pdfmm/base/PdfCMapEncoding.cpp CreateFromObject"]}
{"id": "C99", "title": "Reading a CMap ends", "statement": "Reading any stream of bytes as a CMap terminates and does not cause undefined behaviour.", "quantifier": "All byte strings", "why_tests_cant": "CMaps come from untrusted files: the inputs are unbounded", "anchors": ["src/pdfmm/base/PdfCMapEncoding.cpp parseCMapObject", "src/pdfmm/base/PdfCMapEncoding.cpp getCodeFromVariant"]}
{"id": "C100", "title": "A CMap maps what it lists", "statement": "The encoding made of a CMap maps the codes the CMap lists as it says, and no other codes.", "quantifier": "All CMap texts and codes", "why_tests_cant": "All codes that are not listed must be unmapped", "anchors": ["src/pdfmm/base/PdfCMapEncoding.cpp CreateFromObject", "src/pdfmm/base/PdfIdentityEncoding.cpp tryGetCodePoints"]}
{"id": "C101", "title": "A ToUnicode CMap is read back", "statement": "The ToUnicode CMap written for a code map (codes of one to four bytes that fit their size, no value under two sizes, Unicode texts) reads back as an encoding that maps every code to the same text, with the same smallest and largest code sizes.", "quantifier": "All code maps made by any sequence of pushes, all orders of the hash table of sizes", "why_tests_cant": "Maps are unbounded and contain arbitrary texts and code sizes", "anchors": ["src/pdfmm/base/PdfEncoding.cpp writeToUnicodeCMap", "src/pdfmm/base/PdfEncodingMap.cpp AppendToUnicodeEntries", "src/pdfmm/base/PdfCMapEncoding.cpp CreateFromObject"]}
{"id": "C102", "title": "ToUnicode of one-byte encodings", "statement": "The ToUnicode CMap written for a one-byte encoding reads back as an encoding that maps every code of it to the same text.", "quantifier": "All one-byte encodings", "why_tests_cant": "The tables are arbitrary functions of 256 codes", "anchors": ["src/pdfmm/base/PdfEncodingMap.cpp PdfEncodingMapOneByte::AppendToUnicodeEntries", "src/pdfmm/base/PdfCMapEncoding.cpp parseCMapObject"]}
{"id": "C103", "title": "ToUnicode of identities", "statement": "The ToUnicode CMap written for an identity encoding of n bytes reads back as an encoding of codes of n bytes.", "quantifier": "All sizes of codes", "why_tests_cant": "The codes range over 256^n values", "anchors": ["src/pdfmm/base/PdfIdentityEncoding.cpp getLimits", "src/pdfmm/base/PdfIdentityEncoding.cpp AppendToUnicodeEntries"]}
{"id": "C104", "title": "Keys of a name tree are found after saving and loading", "statement": "A key added to a name tree is found, with its value, by looking it up after the document has been saved and loaded, and adding a value for it again replaces the old one.", "quantifier": "every key text and every tree", "why_tests_cant": "Keys of every script; tests use ASCII names.", "anchors": ["src/pdfmm/base/PdfNameTree.cpp: PdfNameTree::GetKeyValue, PdfNameTreeNode::AddValue", "src/pdfmm/base/PdfString.cpp: PdfString::operator=="]}
{"id": "C105", "title": "A name tree as a dictionary has all its entries", "statement": "Converting a name tree to a dictionary gives exactly the keys and values of the tree.", "quantifier": "every well-formed name tree", "why_tests_cant": "All trees and keys.", "anchors": ["src/pdfmm/base/PdfNameTree.cpp: PdfNameTree::ToDictionary, PdfNameTree::AddToDictionary"]}
{"id": "C106", "title": "A saved outline can be loaded again", "statement": "A document whose outline was created through the API and saved can be opened again, and every outline item is found in the same place: children under the same parent and in the same order.", "quantifier": "every outline: any number of items at any level and any depth", "why_tests_cant": "The number of items an outline may have is unbounded; tests use small outlines.", "anchors": ["src/pdfmm/base/PdfOutlines.cpp: PdfOutlineItem::PdfOutlineItem(PdfObject&, PdfOutlineItem*, PdfOutlineItem*)", "src/pdfmm/private/PdfDeclarationsPrivate.cpp: RecursionGuard::Enter", "src/pdfmm/base/PdfDocument.cpp: PdfDocument::Init"]}
{"id": "C107", "title": "Appending a range of pages", "statement": "AppendDocumentPages with a page index and a page count adds exactly those pages of the source to the end of the target, in order; when the range goes beyond the pages of the source it raises an error and leaves the target as it was.", "quantifier": "every target, every source and every index and count", "why_tests_cant": "the range arithmetic is unsigned and the pages are first all added and then deleted, so each index and count takes another path", "anchors": ["src/pdfmm/base/PdfDocument.cpp:AppendDocumentPages", "src/pdfmm/base/PdfDocument.cpp:deletePages"]}
{"id": "C108", "title": "RC4 streams give back what was written", "statement": "Data written through an RC4 output stream in any pieces and read back through an RC4 input stream in any pieces, for the same object key, is the original data, whatever other streams the same encryption object has processed before.", "quantifier": "every key, data, cutting into writes and reads, and history of earlier streams", "why_tests_cant": "The key schedule is cached between streams and the permutation carries over between calls, so correctness depends on every earlier stream and every cut.", "anchors": ["src/pdfmm/base/PdfEncrypt.cpp:RC4Stream", "src/pdfmm/base/PdfEncrypt.cpp:PdfRC4OutputStream", "src/pdfmm/base/PdfEncrypt.cpp:PdfRC4InputStream"]}
{"id": "C109", "title": "Saving an opened document keeps its passwords", "statement": "A document that was opened with one of its passwords and is saved again can be opened with that password, keeps its algorithm and permissions, and cannot be opened with passwords it did not have.", "quantifier": "every encryption dictionary up to AES-128, password, and identifiers", "why_tests_cant": "What is lost shows only in the keys of the second file, for every pair of passwords.", "anchors": ["src/pdfmm/base/PdfEncrypt.cpp:PdfEncryptMD5Base::Authenticate", "src/pdfmm/base/PdfEncrypt.cpp:GenerateEncryptionKey", "src/pdfmm/base/PdfMemDocument.cpp:PdfMemDocument::Save", "src/pdfmm/base/PdfWriter.cpp:PdfWriter::Write"]}
{"id": "C110", "title": "An incremental update of an encrypted document can be opened", "statement": "After an encrypted document is updated incrementally, the password it was opened with opens the updated file.", "quantifier": "every pair of passwords, permissions and file identifiers", "why_tests_cant": "It depends on two identifiers that are equal in most test files.", "anchors": ["src/pdfmm/base/PdfMemDocument.cpp:PdfMemDocument::SaveUpdate", "src/pdfmm/base/PdfWriter.cpp:PdfWriter::FillTrailerObject", "src/pdfmm/base/PdfParser.cpp:PdfParser::GetDocumentId"]}
{"id": "C111", "title": "Any encryption dictionary is read safely", "statement": "Opening a file with any encryption dictionary and any password either succeeds, or reports a wrong password or an error, without undefined behaviour; a missing key length means 40 bits.", "quantifier": "every encryption dictionary, password and document id", "why_tests_cant": "The contents of the dictionary come from untrusted files.", "anchors": ["src/pdfmm/base/PdfEncrypt.cpp:PdfEncrypt::CreateFromObject", "src/pdfmm/base/PdfEncrypt.cpp:PdfEncryptRC4", "src/pdfmm/base/PdfEncrypt.cpp:PdfEncryptMD5Base::ComputeEncryptionKey"]}
{"id": "C112", "title": "The file identifier depends on the document information", "statement": "Documents with different information dictionaries get different file identifiers, up to collisions of the digest.", "quantifier": "every pair of information dictionaries and digest function", "why_tests_cant": "It is a statement about every pair of documents; a test sees only that an identifier is there.", "anchors": ["src/pdfmm/base/PdfWriter.cpp:PdfWriter::CreateFileIdentifier", "src/pdfmm/base/PdfStreamDevice.h:ContainerStreamDevice"]}
{"id": "C113", "title": "Encrypted strings and streams come back unchanged", "statement": "Every string and stream of any object of a document that was encrypted and then opened with its user password has its original bytes, and the length announced for an encrypted stream is the length of its encrypted data.", "quantifier": "every pair of passwords, algorithm up to AES-128, object number, generation and data", "why_tests_cant": "Round trip over all data lengths (padding), object keys and passwords.", "anchors": ["src/pdfmm/base/PdfEncrypt.cpp:PdfEncrypt::EncryptTo", "src/pdfmm/base/PdfEncrypt.cpp:PdfEncrypt::DecryptTo", "src/pdfmm/base/PdfEncrypt.cpp:PdfEncryptMD5Base::CreateObjKey", "src/pdfmm/base/PdfEncrypt.cpp:PdfEncryptAESBase"]}
{"id": "C114", "title": "Reading an AES stream gives its data", "statement": "Loading or reading an AES encrypted stream gives its original data, for any stream length and any size of the buffer it is read with.", "quantifier": "every stream, what follows it in the file, and buffer sizes", "why_tests_cant": "Blocks are held back and padding removed at the end, so the result depends on how lengths and buffer sizes interact.", "anchors": ["src/pdfmm/base/PdfEncrypt.cpp:PdfAESInputStream", "src/pdfmm/base/PdfInputStream.cpp:InputStream::CopyTo", "src/pdfmm/base/PdfInputStream.cpp:InputStream::Read", "src/pdfmm/base/PdfObjectStream.cpp:PdfObjectStream::InitData"]}
{"id": "C115", "title": "A signature covers the file except itself", "statement": "When a saved document is signed, the bytes handed to the signer are exactly the bytes named by the /ByteRange of the finished file, these are the whole file without the /Contents string, /Contents holds the signature that was computed padded with zeros, and nothing else in the file changed.", "quantifier": "all signature dictionaries, positions of the dictionary in the file, contents of the file around it, signers, signature sizes, buffer sizes and file sizes", "why_tests_cant": "A test signs a few files with one buffer size; the property must hold wherever the blocks fall with respect to the reserved room and however many digits the offsets have.", "anchors": ["src/pdfmm/base/PdfSigner.cpp: SignDocument, readForSignature, adjustByteRange, setSignature", "src/pdfmm/base/PdfSignature.cpp: PdfSignature::PrepareForSigning", "src/pdfmm/base/PdfData.cpp: PdfData::Write"]}
{"id": "C116", "title": "A saved document opens as the same document", "statement": "If a document is saved to an empty device and the file is opened again, the opened document has exactly the objects of the saved one under the same references and with the same content, the same /Root and /Info, and a /Size one more than the largest object number.", "quantifier": "every document of any number of objects, free numbers and nesting of values, and every set of save options", "why_tests_cant": "the bytes of the file, the offsets in its table and the way the parser finds them all depend on every object of the document; a test saves a few documents", "anchors": ["src/pdfmm/base/PdfMemDocument.cpp:PdfMemDocument::Save", "src/pdfmm/base/PdfWriter.cpp:PdfWriter::Write", "src/pdfmm/base/PdfXRef.cpp:PdfXRef::Write", "src/pdfmm/base/PdfParser.cpp:PdfParser::Parse"]}
{"id": "C117", "title": "A file with any history of updates opens as the last document", "statement": "After saving a document and then any number of times opening the file, changing the document and appending an update, opening the file gives exactly the document of the last update.", "quantifier": "every history of saves and updates, of any length, and every change of the document in each step", "why_tests_cant": "the result depends on the whole chain of revisions; tests append one or two updates", "anchors": ["src/pdfmm/base/PdfMemDocument.cpp:PdfMemDocument::SaveUpdate", "src/pdfmm/base/PdfWriter.cpp:PdfWriter::WritePdfObjects, PdfWriter::FillTrailerObject", "src/pdfmm/base/PdfParser.cpp:PdfParser::ReadXRefContents, PdfParser::ReadNextTrailer"]}
{"id": "C118", "title": "The version that is set is the version that is loaded", "statement": "After SetPdfVersion and a save or an update, the opened file has that version.", "quantifier": "every document, every history of updates and every version", "why_tests_cant": "the version in the catalog, the one in the header and the initial one interact over the history of the file", "anchors": ["src/pdfmm/base/PdfMemDocument.cpp:PdfMemDocument::SetPdfVersion, PdfMemDocument::SaveUpdate", "src/pdfmm/base/PdfParser.cpp:PdfParser::UpdateDocumentVersion"]}
{"id": "C119", "title": "Vendor extensions are added, listed and removed", "statement": "After AddPdfExtension, HasPdfExtension is true for this name and level and unchanged for other names, and GetPdfExtensions lists exactly the extensions of the document; after RemovePdfExtension it is gone.", "quantifier": "every document, names, levels and versions, and every sequence of calls", "why_tests_cant": "the calls work on dictionaries of any content, direct or indirect; a test looks at one extension", "anchors": ["src/pdfmm/base/PdfMemDocument.cpp:PdfMemDocument::AddPdfExtension, PdfMemDocument::HasPdfExtension, PdfMemDocument::GetPdfExtensions, PdfMemDocument::RemovePdfExtension"]}
{"id": "C120", "title": "Reals survive writing and reading", "statement": "Writing a real object and parsing the text gives a real object with the same value, up to the six decimals the writer prints.", "quantifier": "every real value, written in compact or clean mode, alone or inside arrays and dictionaries", "why_tests_cant": "The behaviour depends on the decimal expansion: values with more than six decimals, integral values and values beyond the 64-bit range behave differently.", "anchors": ["src/pdfmm/base/PdfVariant.cpp: PdfVariant::Write", "src/pdfmm/private/PdfDeclarationsPrivate.cpp: utls::FormatTo, removeTrailingZeroes", "src/pdfmm/base/PdfTokenizer.cpp: PdfTokenizer::DetermineDataType"]}
{"id": "C121", "title": "Content operators are recognised exactly", "statement": "A keyword in a content stream is recognised as an operator exactly when it is one of the operators of the PDF specification, its name is given back unchanged, and the operand count is the specification's.", "quantifier": "every byte string", "why_tests_cant": "All keywords, known or not; a missing or swapped table entry shows only for that operator.", "anchors": ["src/pdfmm/base/PdfOperatorUtils.cpp: TryGetPdfOperator, TryGetPdfOperatorName, TryGetOperandCount"]}
{"id": "C122", "title": "Content streams are read as they were written", "statement": "Reading a content stream that holds a sequence of operators with their operands and of inline images delivers exactly that sequence, in order: each operator with its operands and each image with its dictionary and data, then the end.", "quantifier": "every sequence of operators with any operands (nested arrays and dictionaries included) and inline images with any dictionary and any data in which no EI followed by white space occurs, in every write mode that separates tokens", "why_tests_cant": "Sequences and operands are unbounded and a token boundary error shows only for particular neighbours.", "anchors": ["src/pdfmm/base/PdfContentsReader.cpp: PdfContentsReader::TryReadNext", "src/pdfmm/base/PdfPostScriptTokenizer.cpp: TryReadNext"]}
{"id": "C123", "title": "Reading contents ends", "statement": "Repeatedly calling TryReadNext on a page or device ends after finitely many calls, each of which returns, and never enters a form that is already being read.", "quantifier": "every content text, every set of forms with any nesting, mutually recursive or self referring, every handler of inline images that only consumes its device", "why_tests_cant": "Recursion among forms can have any depth and shape; a missed cycle shows only for a particular graph.", "anchors": ["src/pdfmm/base/PdfContentsReader.cpp: TryReadNext, tryFollowXObject, isCalledRecursively"]}
{"id": "C124", "title": "Inline image data is delivered whole", "statement": "The data of an inline image is what stands between ID and the EI that ends it; what follows the image is read as content.", "quantifier": "every image data and every following text", "why_tests_cant": "The end of the data is found by scanning arbitrary bytes; the failures depend on the last bytes and on what follows.", "anchors": ["src/pdfmm/base/PdfContentsReader.cpp: tryReadInlineImgData, readInlineImgDict"]}
{"id": "C125", "title": "Warnings are exact", "statement": "A warning is given exactly for the malformed content it names, and with ThrowOnWarnings the reader raises exactly when there is a warning.", "quantifier": "every operator, operand count and sequence of contents", "why_tests_cant": "All operators with all operand counts, in every sequence.", "anchors": ["src/pdfmm/base/PdfContentsReader.cpp: handleWarnings, tryReadNextContent"]}
{"id": "C126", "title": "Objects in object streams are found", "statement": "Loading a document makes each object that the cross reference places in an object stream available under its number with generation 0 and with the value written there, and changes no other object.", "quantifier": "every object stream with any number of objects at any offsets in any order, every set of wanted objects, every document content before", "why_tests_cant": "The offsets, the order of objects and the filler between them are arbitrary, and the objects may be of any type and depth.", "anchors": ["src/pdfmm/base/PdfObjectStreamParser.cpp: Parse, readObjectsFromStream", "src/pdfmm/base/PdfParser.cpp: readObjectsInternal, readCompressedObjectFromStream"]}
{"id": "C127", "title": "Glyph widths of an embedded CID font survive", "statement": "After a CID font is embedded, the font loaded from the file gives every CID the width of the glyph it stands for, and CIDs outside of the font the default width.", "quantifier": "every map from CIDs to glyphs, with gaps, runs of equal and of different widths in any order, and every assignment of widths", "why_tests_cant": "The width array is run-length coded with three kinds of transitions between runs; errors show only for particular sequences of equal and different widths and gaps.", "anchors": ["src/pdfmm/base/PdfFontCID.cpp: WidthExporter, createWidths", "src/pdfmm/base/PdfFontMetricsObject.cpp: PdfFontMetricsObject", "src/pdfmm/base/PdfFont.cpp: GetCIDLengthRaw, TryMapCIDToGID"]}
{"id": "C128", "title": "Any width array is read as it states", "statement": "Loading a CID font with any /W array gives each CID the last width the array states for it and the default width otherwise, or raises an error; it has no undefined behaviour.", "quantifier": "every array of objects", "why_tests_cant": "Arrays come from arbitrary files: overlapping ranges, indirect lists, missing objects and extreme numbers in any combination.", "anchors": ["src/pdfmm/base/PdfFontMetricsObject.cpp: PdfFontMetricsObject"]}
{"id": "C129", "title": "CID to glyph maps survive", "statement": "The stream written for a map from CIDs to glyphs states exactly this map, and the map read from a stream is the one it states.", "quantifier": "every map and every stream", "why_tests_cant": "The errors depend on gaps between CIDs and on the values of single bytes.", "anchors": ["src/pdfmm/base/PdfCIDToGIDMap.cpp: ExportTo, Create, TryMapCIDToGID"]}
{"id": "C130", "title": "The CIDSet states the CIDs in use", "statement": "The /CIDSet stream of a subset font has the bit of a CID set exactly when the CID is in use, and is no longer than needed.", "quantifier": "every set of CIDs in any order", "why_tests_cant": "All sets of numbers; the bit order and the growth of the buffer matter.", "anchors": ["src/pdfmm/base/PdfFontCIDTrueType.cpp: embedFontSubset"]}
{"id": "C131", "title": "Glyphs of a subset font keep their CIDs", "statement": "Each glyph used with a subset font gets one CID that never changes and that no other glyph has; the CIDs are numbered from 1 in the order of first use, as the font writer requires.", "quantifier": "every history of uses", "why_tests_cant": "All sequences with repetitions.", "anchors": ["src/pdfmm/base/PdfFont.cpp: AddSubsetGIDSafe, tryAddSubsetGID", "src/pdfmm/base/PdfFontCID.cpp: getCIDToGIDMapSubset"]}
{"id": "C132", "title": "The length of a string is the sum of its characters", "statement": "GetStringLength gives the sum of the lengths of the characters of the string.", "quantifier": "every font, text state and string", "why_tests_cant": "All strings and fonts.", "anchors": ["src/pdfmm/base/PdfFont.cpp: TryGetStringLength, tryConvertToGIDs, TryGetCharLength"]}
{"id": "C133", "title": "Subset fonts have different tags", "statement": "The name of each subset font starts with a tag of six upper case letters that no other subset font of the document has.", "quantifier": "any number of subset fonts and any number of sessions", "why_tests_cant": "The letters roll over like an odometer after 26, 676, ... fonts.", "anchors": ["src/pdfmm/base/PdfFontManager.cpp: GenerateSubsetPrefix"]}
{"id": "C134", "title": "A TrueType subset draws what the font draws", "statement": "The font program embedded for a subset of a TrueType font shows under each CID the outline that the glyph has in the font, with all components at any depth, and the glyph 0 for what is missing.", "quantifier": "every undamaged font file and list of glyphs", "why_tests_cant": "All fonts, nesting of compound glyphs and orders of glyphs.", "anchors": ["src/pdfmm/base/PdfFontTrueTypeSubset.cpp: BuildFont, LoadGlyphs, WriteGlyphTable, WriteLocaTable, WriteTables"]}
{"id": "C135", "title": "Subsetting ends and takes the glyphs that are needed", "statement": "Loading the glyphs of a subset ends for every font file, also when compound glyphs contain each other, and takes the listed glyphs, their components at any depth and no others.", "quantifier": "every file and list of glyphs", "why_tests_cant": "Cycles and nesting of any depth.", "anchors": ["src/pdfmm/base/PdfFontTrueTypeSubset.cpp: LoadGID, LoadCompound"]}
{"id": "C136", "title": "A TrueType subset keeps the metrics", "statement": "Each glyph of a TrueType subset has the advance width and left side bearing that it has in the font.", "quantifier": "every font file and list of glyphs", "why_tests_cant": "All fonts and orders of glyphs.", "anchors": ["src/pdfmm/base/PdfFontTrueTypeSubset.cpp: WriteHmtxTable, WriteTables"]}
{"id": "C137", "title": "A TrueType subset is a well formed font file", "statement": "The table directory of a TrueType subset leads to the tables with correct checksums and search parameters, instructions and global data of the font are kept, and fonts that lack required tables are refused.", "quantifier": "every font file and list of glyphs", "why_tests_cant": "All files.", "anchors": ["src/pdfmm/base/PdfFontTrueTypeSubset.cpp: InitTables, WriteTables, GetTableCheksum"]}
{"id": "C138", "title": "Predefined encodings convert text both ways", "statement": "A code point converts in a predefined encoding to the greatest code that stands for it, and not at all exactly when no code does; a code converts to the character that the PDF standard assigns and back to the code.", "quantifier": "every predefined encoding, code and code point", "why_tests_cant": "All codes of all tables at once, and all code points.", "anchors": ["src/pdfmm/base/PdfPredefinedEncoding.cpp: s_cEncoding", "src/pdfmm/base/PdfEncodingMap.cpp: PdfBuiltInEncoding"]}
{"id": "C139", "title": "Encoding differences survive writing and reading", "statement": "After any history a code has the difference that was added for it last; differences are written so that they are read back as they were, and the base encoding too; codes that are out of range are refused.", "quantifier": "every history of additions and every /Differences array", "why_tests_cant": "All arrays with gaps, repeated and descending codes.", "anchors": ["src/pdfmm/base/PdfDifferenceEncoding.cpp: PdfDifferenceList, PdfDifferenceEncoding::Create, getExportObject"]}
{"id": "C140", "title": "Glyph names stand for their characters", "statement": "The glyph name that is made for a code point is read back as that code point, and any name can be read.", "quantifier": "every code point", "why_tests_cant": "The 4281 names of the tables with their duplicates, and all code points that are not in them.", "anchors": ["src/pdfmm/base/PdfDifferenceEncoding.cpp: NameToCodePoint, CodePointToName"]}
{"id": "C141", "title": "Encodings with differences convert text both ways", "statement": "A code of an encoding with differences stands for its difference when it has one and for the character of the base encoding otherwise; text converts to a code that stands for it whenever there is one.", "quantifier": "every list of differences, base encoding, code and code point", "why_tests_cant": "All lists of differences with collisions between them and with the base encoding.", "anchors": ["src/pdfmm/base/PdfDifferenceEncoding.cpp: tryGetCharCode, tryGetCodePoints, buildReverseMap"]}
{"id": "C142", "title": "Drawing on a page keeps its contents", "statement": "After drawing on a page, readers of its contents find everything that was there before and everything that was drawn, in the order that was asked for, with the graphics state saved and restored around both as the flags of the painter say.", "quantifier": "every page with any number of content streams, every drawing and every history of drawings", "why_tests_cant": "All contents, all texts of drawings and any number of painters one after the other.", "anchors": ["src/pdfmm/base/PdfContents.cpp: GetStreamForAppending, copyTo", "src/pdfmm/base/PdfPainter.cpp: finishDrawing, checkStream"]}
{"id": "C143", "title": "Drawings do not depend on the contents before them", "statement": "What a painter draws is shown from the initial graphics state of the page whatever its old contents did, and leaves that state as it was.", "quantifier": "every machine that shows operators, every old contents and drawing", "why_tests_cant": "All contents with any nesting of saved states.", "anchors": ["src/pdfmm/base/PdfContents.cpp: GetStreamForAppending", "src/pdfmm/base/PdfPainter.cpp: finishDrawing"]}
{"id": "C144", "title": "Drawing on a form keeps its contents", "statement": "Drawing on a form XObject adds what is drawn to its contents.", "quantifier": "every contents of the form, flags and drawing", "why_tests_cant": "All contents and flags.", "anchors": ["src/pdfmm/base/PdfXObjectForm.cpp: GetStreamForAppending", "src/pdfmm/base/PdfPainter.cpp: finishDrawing"]}
{"id": "C145", "title": "Drawing is local to the page and the painter", "statement": "Drawing on a page leaves all other pages as they are, and several painters may draw on the same page at the same time.", "quantifier": "every document, pair of pages and interleaving of two painters", "why_tests_cant": "All ways of sharing streams and arrays between pages.", "anchors": ["src/pdfmm/base/PdfContents.cpp: GetStreamForAppending", "src/pdfmm/base/PdfPainter.cpp: checkStream, finishDrawing"]}
{"id": "C146", "title": "Inherited entries of fields", "statement": "Asking a field for an entry it may inherit gives the entry of the field itself or else of the nearest ancestor that has it, and nothing when none has it; a document whose parents form a cycle is reported, not followed for ever.", "quantifier": "every document, dictionary, key, depth of parents", "why_tests_cant": "the depth of the parents is unbounded, and a cycle only shows in a crafted document", "anchors": ["src/pdfmm/base/PdfDictionary.cpp FindKeyParent", "src/pdfmm/base/PdfField.cpp GetFieldFlags"]}
{"id": "C147", "title": "Full names of fields", "statement": "The full name of a field is the partial names from the outermost ancestor down to the field joined with dots, two fields with different paths have different full names, and the name set on a field is the name read from it.", "quantifier": "every tree of fields and all partial names, including empty ones and ones with dots", "why_tests_cant": "names are arbitrary strings and ancestors arbitrarily many", "anchors": ["src/pdfmm/base/PdfField.cpp getFullName, GetFullName, SetName, GetName"]}
{"id": "C148", "title": "Field flags", "statement": "After a flag of a field was set or cleared it reads as set, all its other flags (own or inherited) read as before, and the flags of fields that are not below it are unchanged.", "quantifier": "every document, line of ancestors, flag bit and inherited flags", "why_tests_cant": "flags, the ancestors they are inherited from and the order of calls multiply beyond what cases can cover", "anchors": ["src/pdfmm/base/PdfField.cpp SetFieldFlag, GetFieldFlag, GetFieldFlags", "src/pdfmm/base/PdfTextBox.cpp IsSpellcheckingEnabled, IsScrollBarsEnabled"]}
{"id": "C149", "title": "Kinds of fields", "statement": "A field created as some kind is read back as that kind, a child created below it too, and no history of setting the flags the class offers turns it into another kind.", "quantifier": "every kind of field, document, parent and history of flag changes", "why_tests_cant": "histories are unbounded, and kinds are told apart by bits of the flags they share", "anchors": ["src/pdfmm/base/PdfField.cpp getFieldType, init, createField", "src/pdfmm/base/PdfComboBox.cpp PdfComboBox", "src/pdfmm/base/PdfListBox.cpp PdfListBox", "src/pdfmm/base/PdfPushButton.cpp init"]}
{"id": "C150", "title": "Items of choice fields", "statement": "After any history of inserting and removing, the items of a combo or list box are those of a list with the same history, with their values and texts; the selected index is the index that was selected.", "quantifier": "every history, item value, text and index", "why_tests_cant": "the history is unbounded and selection goes through values that may coincide", "anchors": ["src/pdfmm/base/PdfChoiceField.cpp InsertItem, RemoveItem, GetItem, GetItemDisplayText, GetItemCount, SetSelectedIndex, GetSelectedIndex"]}
{"id": "C151", "title": "Values of text and check boxes", "statement": "The text set on a text box is the text read from it, text longer than the limit set is refused, and a check box reads as it was set or as its state in the file says.", "quantifier": "every text, limit, line of ancestors, flags and name of the state", "why_tests_cant": "the text, the limit and where each is inherited from vary independently", "anchors": ["src/pdfmm/base/PdfTextBox.cpp SetText, GetText, SetMaxLen, GetMaxLen", "src/pdfmm/base/PdfCheckBox.cpp SetChecked, IsChecked", "src/pdfmm/base/PdfField.cpp AssertTerminalField"]}
{"id": "C152", "title": "Annotation and field collections stay in step with the document", "statement": "A page's annotations, a form's fields and a field's kids are each shown as a collection. Whatever sequence of additions, removals, lookups by position and by reference and iterations a program performs, the collection shows exactly the objects listed in the document's array, in order, a lookup by reference gives the object with that reference, and removals and additions change the document's array in the same way.", "quantifier": "all arrays of distinct well-formed entries and all finite histories of operations; and, for what goes wrong, all arrays with an entry that cannot be read or that occurs twice", "why_tests_cant": "The cached positions are corrected after every removal; whether they are still right depends on the whole history of additions and removals.", "anchors": ["src/pdfmm/base/PdfAnnotationCollection.cpp:PdfAnnotationCollection", "src/pdfmm/base/PdfAcroForm.cpp:PdfAcroForm::initFields", "src/pdfmm/base/PdfFieldChildrenCollection.cpp:PdfFieldChildrenCollectionBase"]}
{"id": "C153", "title": "Widgets created with one name form one field", "statement": "Fields are created on widgets one after the other, with any names and kinds. The calls that are refused are exactly those whose name has a period or was used for another kind before. Every other widget ends up with the full name and the kind it was created with, widgets of the same name share one field (with one name, kind, flags and value), and the form lists one field per name.", "quantifier": "all finite histories of creations with arbitrary names, kinds and fresh widgets; and, for what goes wrong, all forms read from a file", "why_tests_cant": "A second widget with a known name restructures the first one (keys move to a new parent, the form's list changes); whether names, kinds and list are still right must be shown for every sequence of names and kinds.", "anchors": ["src/pdfmm/base/PdfField.cpp:PdfField::Create", "src/pdfmm/base/PdfField.cpp:linkFieldObjectToParent", "src/pdfmm/base/PdfAcroForm.cpp:PdfAcroForm"]}
{"id": "C154", "title": "Rectangles: corners, arrays and intersections", "statement": "A rectangle made from any two opposite corners contains exactly the points between them, whichever corners are given; writing a rectangle to an array and reading it back gives the same rectangle; an array that is not four numbers is refused; the intersection of two rectangles contains exactly the points that lie in both.", "quantifier": "all corners, rectangles, points and number arrays, with exact arithmetic", "why_tests_cant": "Order of corners, overlap and containment have many cases by sign and position; a test fixes one of them.", "anchors": ["src/pdfmm/base/PdfRect.cpp:PdfRect::FromArray", "src/pdfmm/base/PdfRect.cpp:PdfRect::Intersect", "src/pdfmm/base/PdfRect.cpp:PdfRect::Contains"]}
{"id": "C155", "title": "Matrices compose as transformations", "statement": "Multiplying matrices is applying one transformation after the other; translations, scalings and rotations do what they are named after; rotating a page frame aligns it with the axes, exchanges width and height for quarter turns and is undone by its inverse; transforming a rectangle gives a rectangle that contains the images of all its points; prepending a translation in one direction is the same as translating by a vector in that direction.", "quantifier": "all matrices, vectors, rectangles and angles, with exact arithmetic", "why_tests_cant": "Wrong terms in a product vanish for the unrotated matrices that tests use.", "anchors": ["src/pdfmm/base/PdfMath.cpp:Matrix::operator*", "src/pdfmm/base/PdfMath.cpp:GetFrameRotationTransform", "src/pdfmm/base/PdfMathBase.h:MatrixTraits", "src/pdfmm/base/PdfRect.cpp:PdfRect::operator*"]}
{"id": "C156", "title": "Page boxes, size and rotation", "statement": "A page box is the one PDF prescribes: the page's own, else the inherited one where the box is inheritable, else the box that stands for it. A box or rotation that was set reads back exactly and changes no other page; setting the width or height changes that page's size only, keeps its corner and reports whether it succeeded.", "quantifier": "all page trees, boxes, rotations and sizes", "why_tests_cant": "Inheritance, shared arrays, corner order and kinds of numbers combine; a test has one tree.", "anchors": ["src/pdfmm/base/PdfPage.cpp:PdfPage::getPageBox", "src/pdfmm/base/PdfPage.cpp:PdfPage::SetPageWidth", "src/pdfmm/base/PdfPage.cpp:PdfPage::SetRotationRaw", "src/pdfmm/base/PdfPage.cpp:PdfPage::HasRotation"]}
{"id": "C157", "title": "Where extracted text is placed", "statement": "Text extracted from a page comes in the order in which it is shown, every shown text once, and each piece at the place on the page that PDF gives it, whatever the nesting of saved states, text objects and forms.", "quantifier": "all sequences of text, state and form operators", "why_tests_cant": "Positions depend on the whole history of operators; a test has one page.", "anchors": ["src/pdfmm/base/PdfPage_TextExtraction.cpp:PdfPage::ExtractTextTo", "src/pdfmm/base/PdfPage_TextExtraction.cpp:ExtractionContext::PushString", "src/pdfmm/base/PdfPage_TextExtraction.cpp:TextStateStack::Pop"]}
{"id": "C158", "title": "Extracted entries are the lines or words of the page", "statement": "Text extraction never loses, repeats or reorders a visible character. Its entries are the lines, with a space where strings are set apart, or with TokenizeWords exactly the words of the lines, however the text is cut into strings.", "quantifier": "all shown strings, cuts, distances and flags", "why_tests_cant": "The same line can be cut into strings in unboundedly many ways.", "anchors": ["src/pdfmm/base/PdfPage_TextExtraction.cpp:addEntry", "src/pdfmm/base/PdfPage_TextExtraction.cpp:addEntryChunk", "src/pdfmm/base/PdfPage_TextExtraction.cpp:ExtractionContext::tryAddEntry"]}
{"id": "C159", "title": "Searching extracted text", "statement": "With a pattern, extraction gives exactly the entries that contain it, or that are it as a whole word, and with ExtractSubstring the matching part as it is written.", "quantifier": "all patterns, texts and matching flags", "why_tests_cant": "Where occurrences overlap or lie inside words is unbounded.", "anchors": ["src/pdfmm/base/PdfPage_TextExtraction.cpp:addEntryChunk", "src/pdfmm/base/PdfPage_TextExtraction.cpp:isMatchWholeWordSubstring"]}
{"id": "C160", "title": "Lengths of extracted text and gaps between strings", "statement": "The length reported for an extracted entry is its width on the page. Strings that follow each other without a gap are joined, and whether a gap separates words does not depend on the scale of the page.", "quantifier": "all widths, matrices, glyph ranges and flags", "why_tests_cant": "Scaling may come from the page, the text matrix or both; a test uses one.", "anchors": ["src/pdfmm/base/PdfPage_TextExtraction.cpp:computeLength", "src/pdfmm/base/PdfPage_TextExtraction.cpp:StatefulString::computeLengths", "src/pdfmm/base/PdfPage_TextExtraction.cpp:ExtractionContext::areChunksSpaced"]}
{"id": "C161", "title": "Resources of pages and forms", "statement": "A resource added under a kind and a name is the one found there until it is replaced or removed, whatever the history; no change of one resource changes another, and a colour added is the colour found.", "quantifier": "all documents, kinds, names, objects and histories of additions and removals", "why_tests_cant": "Kinds may be inline, indirect, shared or of the wrong type; tests start from an empty page.", "anchors": ["src/pdfmm/base/PdfResources.cpp:PdfResources::AddResource", "src/pdfmm/base/PdfResources.cpp:PdfResources::RemoveResource", "src/pdfmm/base/PdfResources.cpp:PdfResources::getOrCreateDictionary", "src/pdfmm/base/PdfResources.cpp:PdfResources::AddColorResource"]}
{"id": "C162", "title": "Colours: ranges, conversions, arrays, texts and separations", "statement": "A colour has components in range or is refused; conversions between colour spaces stay in range and the way from RGB to CMYK and back is the identity; a colour written to an array is read back; a text gives the colour it names; the tint function of a separation gives no colorant at tint 0 and the alternate colour at tint 1.", "quantifier": "all components, colours, arrays, texts and alternate colours", "why_tests_cant": "Components are real numbers and texts are arbitrary; tests try a few.", "anchors": ["src/pdfmm/base/PdfColor.cpp:PdfColor::ConvertToCMYK", "src/pdfmm/base/PdfColor.cpp:PdfColor::ConvertToRGB", "src/pdfmm/base/PdfColor.cpp:PdfColor::ConvertToGrayScale", "src/pdfmm/base/PdfColor.cpp:PdfColor::TryCreateFromArray", "src/pdfmm/base/PdfColor.cpp:PdfColor::FromString", "src/pdfmm/base/PdfColor.cpp:PdfColor::BuildColorSpace"]}
{"id": "C163", "title": "Destinations, named destinations and actions", "statement": "A destination made for a page writes the array the PDF standard gives to that view, and its kind, page, coordinates and zoom read back as they were given; a named destination is found exactly when its name stands for one; an outline item never has both a destination and an action.", "quantifier": "all pages, coordinates, views (with or without left-out coordinates), arrays of any content, name tables, and histories of setting destinations and actions", "why_tests_cant": "tests use a few destinations; coordinates are arbitrary, arrays come from files, and the exclusion of destinations and actions must hold after every history of calls", "anchors": ["src/pdfmm/base/PdfDestination.cpp PdfDestination", "src/pdfmm/base/PdfAction.cpp PdfAction", "src/pdfmm/base/PdfOutlines.cpp PdfOutlineItem::SetDestination", "src/pdfmm/base/PdfAnnotation_Types.cpp PdfAnnotationLink::SetDestination", "src/pdfmm/base/PdfAnnotationActionBase.cpp SetAction"]}
{"id": "C164", "title": "A form filled from a page shows the page", "statement": "Filling a form from a page gives it the page's box, a matrix that turns the page by its rotation and puts the box at the origin, the page's contents and its resources.", "quantifier": "all boxes, rotations, content streams and resource entries of pages", "why_tests_cant": "tests fill forms from upright pages with one stream; boxes, rotations and the division of the contents into streams are arbitrary", "anchors": ["src/pdfmm/base/PdfXObjectForm.cpp PdfXObjectForm::FillFromPage", "src/pdfmm/base/PdfXObjectForm.cpp initAfterPageInsertion", "src/pdfmm/base/PdfDocument.cpp FillXObjectFromPage"]}
{"id": "C165", "title": "The resources of a page", "statement": "The resources of a page are its own, or else those of the nearest node above that has some; asking for them changes nothing when there are some, and drawing on the page keeps what its contents use.", "quantifier": "all page trees of any depth, with resources at any of the nodes, and all resource dictionaries", "why_tests_cant": "page trees come from files and have any depth; a test has one or two shapes", "anchors": ["src/pdfmm/base/PdfPage.cpp getResources", "src/pdfmm/base/PdfPage.cpp GetOrCreateResources", "src/pdfmm/base/PdfPage.cpp SetICCProfile", "src/pdfmm/base/PdfResources.cpp PdfResources"]}
{"id": "C166", "title": "File specifications and attachments", "statement": "A file specification has the name it was made for, without its path if asked, a portable form of it, and exactly the data with their length; an attached file is found under its name and attaching another one does not take it away.", "quantifier": "all file names and paths, data, contents of files and changes of them meanwhile, documents and tables of attachments", "why_tests_cant": "tests attach one file with a simple name; names and paths are arbitrary, and files may change or disappear while they are read", "anchors": ["src/pdfmm/base/PdfFileSpec.cpp PdfFileSpec::Init", "src/pdfmm/base/PdfFileSpec.cpp CreateFileSpecification", "src/pdfmm/base/PdfFileSpec.cpp MaybeStripPath", "src/pdfmm/base/PdfDocument.cpp AttachFile"]}
{"id": "C167", "title": "Opening files, and crashes while a document is saved", "statement": "Opening a file in a mode does what is documented for that mode; whatever the point at which saving stops, the file holds the old document or the new one; saving into the file a document was loaded from keeps all of it.", "quantifier": "all modes, accesses and contents of files; all documents, histories of updates and crash points", "why_tests_cant": "a test saves without being interrupted; the property is about every point at which the program may stop", "anchors": ["src/pdfmm/base/PdfStreamDevice.cpp FileStreamDevice::getFileStream", "src/pdfmm/base/PdfMemDocument.cpp Save", "src/pdfmm/base/PdfMemDocument.cpp SaveUpdate", "src/pdfmm/base/PdfParser.cpp CheckEOFMarker"]}
{"id": "C168", "title": "What a painter reports as set is what it draws with", "statement": "After a program sets the line width, the miter limit, the cap, the join, the rendering intent, a colour or the matrix of a painter, the painter reports that value and what it draws afterwards on the canvas is drawn with it; Save and Restore bring back both the values drawn with and the values reported.", "quantifier": "every painter, every sequence of calls with nested saves and restores, every value and every change of canvas", "why_tests_cant": "The remembered value and the one in the contents part only after particular orders of setting, saving, restoring and changing the canvas.", "anchors": ["src/pdfmm/base/PdfPainter.cpp:PdfGraphicsStateWrapper", "src/pdfmm/base/PdfPainter.cpp:PdfPainter::Save", "src/pdfmm/base/PdfPainter.cpp:PdfPainter::Restore", "src/pdfmm/base/PdfPainter.cpp:PdfPainter::SetCanvas"]}
{"id": "C169", "title": "Texts are drawn with the font and text settings that are in force", "statement": "A text drawn by DrawText, or by AddText between BeginText and EndText, is shown with the font, size, scaling, spacings and rendering mode that were set last.", "quantifier": "every painter, every history of settings, every text", "why_tests_cant": "Defaults are not written, so a wrong value appears only when a setting goes back to its default after another text, or is made before a text is begun.", "anchors": ["src/pdfmm/base/PdfPainter.cpp:PdfPainter::DrawText", "src/pdfmm/base/PdfPainter.cpp:PdfPainter::writeTextState", "src/pdfmm/base/PdfPainter.cpp:PdfTextStateWrapper", "src/pdfmm/base/PdfPainter.cpp:PdfPainter::BeginText"]}
{"id": "C170", "title": "Contents written by a painter have well formed text objects", "statement": "Whatever calls a program makes, refused ones included, the contents of each canvas have text objects that are closed and not nested, show texts inside of them only, have no operators in them that are not allowed there, and restore no state that was not saved.", "quantifier": "every sequence of calls, every canvas, every text and every failure of an encoding", "why_tests_cant": "It is an invariant of all histories of calls, including those in which a call failed half way.", "anchors": ["src/pdfmm/base/PdfPainter.cpp:PdfPainter::BeginText", "src/pdfmm/base/PdfPainter.cpp:PdfPainter::EndText", "src/pdfmm/base/PdfPainter.cpp:PdfPainter::DrawMultiLineText", "src/pdfmm/base/PdfPainter.cpp:PdfPainter::FinishDrawing"]}
{"id": "C171", "title": "Paths have the shapes that were asked for", "statement": "Horizontal and vertical lines are such, quadratic curves have the control point that was given, smooth curves go on from the last one without a corner, and circles, ellipses and rounded rectangles are these to within 0.06%.", "quantifier": "every history of path calls, every coordinate, and every point of each curve", "why_tests_cant": "A curve is infinitely many points, and the start of a segment depends on the whole history of the path.", "anchors": ["src/pdfmm/base/PdfPainter.cpp:PdfPainter::HorizontalLineTo", "src/pdfmm/base/PdfPainter.cpp:PdfPainter::QuadCurveTo", "src/pdfmm/base/PdfPainter.cpp:PdfPainter::SmoothCurveTo", "src/pdfmm/base/PdfPainter.cpp:PdfPainter::Circle", "src/pdfmm/base/PdfPainter.cpp:PdfPainter::Ellipse", "src/pdfmm/base/PdfPainter.cpp:PdfPainter::Rectangle", "src/pdfmm/base/PdfPainter.cpp:PdfPainter::ArcTo"]}
{"id": "C172", "title": "Texts are placed in their box as asked", "statement": "Aligned texts are at the left, the centre or the right of the width given, by the length of what is shown; tabulators are replaced by the number of spaces that was set; texts of several lines are broken at line ends and at the width, and placed at the top, the centre or the bottom.", "quantifier": "every text, font, box and alignment", "why_tests_cant": "It relates the position to the length of every text that can be drawn.", "anchors": ["src/pdfmm/base/PdfPainter.cpp:PdfPainter::DrawTextAligned", "src/pdfmm/base/PdfPainter.cpp:PdfPainter::drawMultiLineText", "src/pdfmm/base/PdfPainter.cpp:PdfPainter::getMultiLineTextAsLines", "src/pdfmm/base/PdfPainter.cpp:expandTabs"]}
{"id": "C173", "title": "Pixels of an image are set and decoded as they are", "statement": "What is given to an image as lines of pixels is what comes out when it is decoded, in whatever pixel format and line length either side asks for: every pixel at its place with its components in the order of the format, with the opacity of the soft mask, and zeros in the rest of the line. Images that cannot be decoded so are refused.", "quantifier": "every width, height, line length, pixel format, picture, soft mask and target, bounded or not", "why_tests_cant": "Each pixel of each image is a separate case, and the line lengths and the arithmetic of offsets differ for every format.", "anchors": ["src/pdfmm/base/PdfImage.cpp:PdfImage::DecodeTo", "src/pdfmm/base/PdfImage.cpp:PdfImage::SetData", "src/pdfmm/base/PdfImage.cpp:PdfImage::initScanLine", "src/pdfmm/base/PdfImage.cpp:PdfImage::getBufferSize", "src/pdfmm/base/PdfImage.cpp:fetchPDFScanLineRGB", "src/pdfmm/private/ImageUtils.cpp:utls::FetchImageRGB", "src/pdfmm/private/ImageUtils.cpp:utls::FetchImageGrayScale", "src/pdfmm/private/ImageUtils.cpp:utls::FetchImageBW"]}
{"id": "C174", "title": "An image set is the image its document shows", "statement": "What is set on an image, as pixels or as raw data with its description, is what the document then shows, before and after saving: its dictionary says the dimensions, depth, colour space and filters of the data, its stream holds the data, decoding gives the pixels with the opacities of its mask, and a refused call changes nothing. Masks by colour key hold the colours asked for.", "quantifier": "every document, image, earlier content, picture, mask, raw data, description, ICC profile and colour range", "why_tests_cant": "The dictionary, the stream and the mask are set by separate calls in any order over any earlier content, and each combination is a separate case.", "anchors": ["src/pdfmm/base/PdfImage.cpp:PdfImage::SetData", "src/pdfmm/base/PdfImage.cpp:PdfImage::SetDataRaw", "src/pdfmm/base/PdfImage.cpp:PdfImage::DecodeTo", "src/pdfmm/base/PdfImage.cpp:PdfImage::GetColorSpace", "src/pdfmm/base/PdfImage.cpp:PdfImage::SetICCProfile", "src/pdfmm/base/PdfImage.cpp:PdfImage::SetChromaKeyMask", "src/pdfmm/base/PdfImage.cpp:PdfImage::SetSoftmask"]}
{"id": "C175", "title": "XObjects found are the ones that are there", "statement": "Asking a document for an XObject gives exactly the forms, images and PostScript objects it holds, of the kind asked for, with their rectangle and resources; what was created is found again; the matrix of an XObject is the one that was set; and XObjects drawn on one page, whatever their names, each draw what was given.", "quantifier": "every document, object, kind, rectangle, matrix, name prefix and sequence of objects drawn", "why_tests_cant": "Whether an object counts depends on what each of its entries is, directly or by reference, and whether two names clash depends on prefixes and numbers that no sample covers.", "anchors": ["src/pdfmm/base/PdfXObject.cpp:PdfXObject::TryCreateFromObject", "src/pdfmm/base/PdfXObject.cpp:PdfXObject::GetMatrix", "src/pdfmm/base/PdfXObject.cpp:PdfXObject::InitIdentifiers", "src/pdfmm/base/PdfXObjectForm.cpp:PdfXObjectForm::SetRect"]}
{"id": "C176", "title": "A PNG file becomes the image it holds", "statement": "A PNG file that is loaded becomes an image that shows the colours and the opacities of its pixels, for every kind of PNG file and every number of bits, over whatever the image was before, and no memory outside of the lines, the palette and the mask is touched.", "quantifier": "every kind of PNG file, size, depth, line, palette and opacity, and every image it is loaded into", "why_tests_cant": "Every pixel of a file of any size is moved on its own, and whether memory is left depends on widths and palettes chosen by whoever made the file.", "anchors": ["src/pdfmm/base/PdfImage.cpp:LoadFromPngContent", "src/pdfmm/base/PdfImage.cpp:PdfImage::loadFromPngData"]}
{"id": "C177", "title": "Image files are read as what they are", "statement": "A file or a buffer is read as the format its name or its first bytes say, or refused with an error; the libraries are given its bytes as they are; a JPEG file is kept byte by byte with a description that fits it; a TIFF file becomes an image that shows its samples; what cannot be read is refused, leaves the image as it was, and every handle is closed once.", "quantifier": "every path, buffer, sequence of reads and seeks, JPEG file, TIFF file, image and set of libraries", "why_tests_cant": "Names, first bytes, the reads of a library and the fields of a file are chosen by others, and a handle that is closed twice or never shows only on some of the paths through the code.", "anchors": ["src/pdfmm/base/PdfImage.cpp:PdfImage::LoadFromFile", "src/pdfmm/base/PdfImage.cpp:PdfImage::LoadFromBuffer", "src/pdfmm/base/PdfImage.cpp:PdfImage::loadFromTiffHandle", "src/pdfmm/base/PdfImage.cpp:PdfImage::loadFromJpegInfo", "src/pdfmm/base/PdfImage.cpp:TiffData", "src/pdfmm/base/PdfImage.cpp:PngData"]}
{"id": "C178", "title": "Unwrapping a stream and opening it", "statement": "Unwrapping a stream removes the filters that can be decoded and keeps those that are for media, with their parameters: what is read from the stream stays the same, and a stream that cannot be decoded is reported, is left as it was and can be used again.", "quantifier": "every stream object, list of filters, parameters and data", "why_tests_cant": "Which filters are left and whether the entries that describe them survive depends on every combination of filters, parameters and the order in which temporary streams are closed.", "anchors": ["src/pdfmm/base/PdfObjectStream.cpp:PdfObjectStream::Unwrap", "src/pdfmm/base/PdfObjectStream.cpp:PdfObjectStream::GetInputStream", "src/pdfmm/base/PdfObjectStream.cpp:PdfObjectStream::MoveFrom"]}
{"id": "C179", "title": "Streams that are open are locked, and only those", "statement": "However input and output streams of stream objects are opened, moved, assigned and closed, each reads or writes the stream object it was opened for, a stream object in use cannot be opened again, and one that is in use by nobody can.", "quantifier": "every sequence of openings, moves, assignments and closings of any number of streams", "why_tests_cant": "It is a statement about all histories of the handles, with errors in between.", "anchors": ["src/pdfmm/base/PdfObjectStream.h:PdfObjectInputStream", "src/pdfmm/base/PdfObjectStream.h:PdfObjectOutputStream", "src/pdfmm/base/PdfObjectStream.cpp:PdfObjectInputStream::operator="]}
{"id": "C180", "title": "The catalog holds what was set", "statement": "Page mode, page layout, viewer preferences, full screen and metadata that are set are the entries of the catalog afterwards and are read back, wherever the entries were kept before, and nothing else changes.", "quantifier": "every catalog, mode, layout, preference, value and metadata, with direct and indirect entries", "why_tests_cant": "Entries may be direct, indirect, dangling or absent in any combination, and what is read back depends on which object was changed.", "anchors": ["src/pdfmm/base/PdfCatalog.cpp:PdfCatalog::GetPageMode", "src/pdfmm/base/PdfCatalog.cpp:PdfCatalog::SetUseFullScreen", "src/pdfmm/base/PdfCatalog.cpp:PdfCatalog::SetMetadataStreamValue", "src/pdfmm/base/PdfCatalog.cpp:PdfCatalog::setViewerPreference"]}
{"id": "C181", "title": "An annotation reads back what was stored in it", "statement": "After an appearance stream, a title, contents, flags, a rectangle or the open state is stored in an annotation, reading it back gives what was stored, every other entry of the annotation and every other object is unchanged, removing a title or contents leaves none, and trying to take an object as an annotation answers no, without an error, when it is not one.", "quantifier": "every document, annotation object, appearance kind, state name, text, flags, rectangle and object", "why_tests_cant": "An annotation's entries may be direct, indirect or inherited and its appearance dictionary may already hold forms or states in any mixture; tests use one freshly made annotation.", "anchors": ["src/pdfmm/base/PdfAnnotation.cpp (SetAppearanceStreamForObject, GetAppearanceStreams, getAppearanceStream, SetTitle, GetTitle, SetContents, SetFlags, GetFlags, GetRect, SetRect, tryCreateFromObject)", "src/pdfmm/base/PdfAnnotation_Types.cpp (PdfAnnotationPopup::SetOpen, PdfAnnotationText::GetOpen)"]}
{"id": "C182", "title": "A signature keeps what it is told", "statement": "After the signer, reason, place, date or creator of a signature is set or removed, its getter gives it back, also from the field opened anew, and nothing else in the document differs; without a value every setter is refused; giving a field a value makes exactly one signature dictionary; preparing sets exactly its five entries; certifying names the signature and the permission and keeps the rest of the catalog's permissions and of the document.", "quantifier": "every document, signature field, text, date, permission and free references", "why_tests_cant": "The value of a field may be an object, a direct dictionary or missing, and the catalog may hold other permissions; tests sign one field made by the library.", "anchors": ["src/pdfmm/base/PdfSignature.cpp (SetSignerName, SetSignatureReason, SetSignatureLocation, SetSignatureDate, SetSignatureCreator, GetSignerName, GetSignatureDate, EnsureValueObject, PrepareForSigning, AddCertificationReference)", "src/pdfmm/base/PdfSignature.h (PdfSignature, PdfCertPermission)"]}
{"id": "C183", "title": "Reading objects on demand cannot be noticed", "statement": "Objects of a loaded file are read when first looked at and may be freed again. Every program sees the values and stream data it would see had the whole file been read at once: looks repeated give the same, changes survive freeing, an assignment or a move gives the target the value and the stream of the source, and every change marks its object for the next update", "quantifier": "All files, all objects and every history of looks, changes, assignments, moves and frees, of any length", "why_tests_cant": "Tests look at an object once, in one order; the defects appear only for certain orders of loading, printing, freeing and moving", "anchors": ["src/pdfmm/base/PdfObject.cpp PdfObject::DelayedLoad", "src/pdfmm/base/PdfObject.cpp PdfObject::assign", "src/pdfmm/base/PdfObject.cpp PdfObject::moveFrom", "src/pdfmm/base/PdfParserObject.cpp PdfParserObject::FreeObjectMemory", "src/pdfmm/base/PdfParserObject.cpp PdfParserObject::parseStream", "src/pdfmm/base/PdfObjectStream.cpp PdfObjectStream::GetOutputStreamRaw"]}
{"id": "C184", "title": "A document keeps one right font for each request", "statement": "The base name and style taken from a font name are its family name and its style words, whatever subset tag stands before it. Asking a document for a standard font or for a font by name gives a font of that type, encoding, name and style; the same request gives the same font until the fonts are embedded; a request that finds nothing changes no later one; embedding embeds every font given so far exactly once; and the object of a font can be loaded as a font", "quantifier": "every family name, tag and style word; every set of system fonts, every hash table and every history of requests, of any length", "why_tests_cant": "Tests ask for a few fonts once each; the defects need a hash table that puts two keys in one bucket, a failed request before another one, or the same request with other flags", "anchors": ["src/pdfmm/base/PdfFontManager.cpp PdfFontManager::GetFont", "src/pdfmm/base/PdfFontManager.cpp PdfFontManager::GetStandard14Font", "src/pdfmm/base/PdfFontManager.cpp PdfFontManager::getImportedFont", "src/pdfmm/base/PdfFontManager.cpp PdfFontManager::AddImported", "src/pdfmm/base/PdfFontManager.cpp PdfFontManager::EmbedFonts", "src/pdfmm/base/PdfFontManager.cpp PdfFontManager::GetLoadedFont", "src/pdfmm/base/PdfFontManager.cpp EqualElement", "src/pdfmm/base/PdfFont.cpp PdfFont::ExtractBaseName"]}
{"id": "C185", "title": "An embedded font program is written whole and labelled right", "statement": "Embedding a font program writes its bytes unchanged under the key for its kind, with the lengths or the subtype that kind needs, and it ends for every program; an empty program is refused", "quantifier": "every kind of font program and every content, of any length", "why_tests_cant": "The lengths are searched for in the bytes of the program, which can be anything, and tests embed a few TrueType files", "anchors": ["src/pdfmm/base/PdfFont.cpp PdfFont::EmbedFontFile", "src/pdfmm/base/PdfFontMetricsFreetype.cpp PdfFontMetricsFreetype::initType1Lengths"]}
{"id": "C186", "title": "Graphics state parameters are the ones asked for", "statement": "After any sequence of calls on an extended graphics state, a reader of its dictionary that follows ISO 32000 takes exactly the opacities, blend mode, overprint settings, rendering intent and halftone frequency last asked for", "quantifier": "every sequence of setter calls of any length", "why_tests_cant": "The entries depend on each other through defaults of the standard, so the order of calls matters; tests try one call each", "anchors": ["src/pdfmm/base/PdfExtGState.cpp PdfExtGState::SetOverprint", "src/pdfmm/base/PdfExtGState.cpp PdfExtGState::SetFillOverprint", "src/pdfmm/base/PdfExtGState.cpp PdfExtGState::SetStrokeOverprint", "src/pdfmm/base/PdfExtGState.cpp PdfExtGState::SetFrequency"]}
{"id": "C187", "title": "A font dictionary is loaded as what it says", "statement": "Loading a font from its dictionary either refuses it with an error, finds no font, or gives a font in which the width of each character code is the number its Widths array has for that code in the unit of the font, and the missing width for codes outside", "quantifier": "every font dictionary, descriptor and document around it, and every character code", "why_tests_cant": "Dictionaries come from files and may miss or mistype any entry; tests load a few well-formed fonts", "anchors": ["src/pdfmm/base/PdfFontFactory.cpp PdfFont::TryCreateFromObject", "src/pdfmm/base/PdfFontMetricsObject.cpp PdfFontMetricsObject::PdfFontMetricsObject", "src/pdfmm/base/PdfEncoding.cpp PdfEncoding::GetLimits", "src/pdfmm/base/PdfFontObject.cpp PdfFontObject::tryMapCIDToGID"]}
{"id": "C188", "title": "A document written while it is made holds what was written", "statement": "In a document that is written to a file while it is made, the data written to each stream of an object is in the file as a whole object that a reader decodes to the same bytes, its length and its place are recorded, later streams work the same way, and closing the document succeeds", "quantifier": "every history of creating objects, making streams and writing them, every data and list of filters", "why_tests_cant": "Whether a stream goes to the file or to memory depends on the history of the writer; tests of the library never close such a document", "anchors": ["src/pdfmm/base/PdfImmediateWriter.cpp PdfImmediateWriter::WriteObject", "src/pdfmm/base/PdfImmediateWriter.cpp PdfImmediateWriter::Finish", "src/pdfmm/base/PdfImmediateWriter.cpp PdfImmediateWriter::CreateStream", "src/pdfmm/base/PdfImmediateWriter.cpp PdfImmediateWriter::FinishLastObject", "src/pdfmm/base/PdfStreamedDocument.cpp PdfStreamedDocument::Close", "src/pdfmm/base/PdfObjectStream.cpp PdfObjectOutputStream::~PdfObjectOutputStream"]}
{"id": "C189", "title": "The standard fonts have their own widths", "statement": "A character drawn with one of the 14 standard fonts has the width that font has for it, whether the font was made by the program or loaded from a document, and the widths a font dictionary lists for its codes are those in effect for the codes.", "quantifier": "all 14 standard fonts, all characters, all font dictionaries of standard fonts with and without listed widths, all codes", "why_tests_cant": "The widths are some thousands, of fourteen tables, and the glyph numbers of loaded fonts come from another numbering than those of made ones; a test measures one string in one font.", "anchors": ["src/pdfmm/base/PdfFontMetricsStandard14.cpp PdfFontMetricsStandard14::create, TryGetGlyphWidth, TryGetGID", "src/pdfmm/base/PdfFontObject.cpp PdfFontObject::tryMapCIDToGID", "src/pdfmm/private/PdfStandard14FontData.cpp"]}
{"id": "C190", "title": "Simple fonts keep their metrics through a file", "statement": "A simple font made from a font file and used in a document has, when the document is loaded again, the same name, weight, ascent, descent and box, and every code has the width it had, up to a rounding to thousandths.", "quantifier": "all fonts made from files, embedded or not, all ranges of codes, all widths, all documents they are written into", "why_tests_cant": "The widths pass through rounding, an array that starts at the first code and a default of another unit; a test loads one font and looks at one width.", "anchors": ["src/pdfmm/base/PdfFontSimple.cpp PdfFontSimple::Init, embedFont, getWidthsArray", "src/pdfmm/base/PdfFont.cpp PdfFont::FillDescriptor, GetBoundingBox", "src/pdfmm/base/PdfFontMetricsObject.cpp"]}
{"id": "C191", "title": "Captions and colours of widgets, and actions of annotations", "statement": "The captions and colours of a widget are those last set: after any calls that set or remove the border and background colours and the normal, rollover and alternate captions, each is what the last call made it, when read through the widget, through one opened again and by another reader of the document, and the other entries of the widget and all other objects are unchanged. The action set on an annotation is the action it has in the document.", "quantifier": "every document, every widget annotation with no characteristics, direct or indirect ones, every sequence of calls, every colour, every button whether made by a form, loaded or got from a widget, and every action", "why_tests_cant": "The characteristics are kept through a cached pointer into the document, so the result depends on how the widget was opened, on where the dictionary is and on the whole history of calls.", "anchors": ["src/pdfmm/base/PdfAnnotationActionBase.cpp PdfAppearanceCharacteristics, SetAction, getAction", "src/pdfmm/base/PdfAnnotationActionBase.h PdfAppearanceCharacteristicsProvider", "src/pdfmm/base/PdfButton.cpp SetCaption, GetCaption", "src/pdfmm/base/PdfPushButton.cpp SetRolloverCaption, SetAlternateCaption", "src/pdfmm/base/PdfField.cpp PdfField"]}
{"id": "C192", "title": "Documents encrypted with AES-256 are opened by their passwords only", "statement": "A document encrypted with AES-256 (revision 5 or 6) and saved is opened again by its user password and by its owner password, and either gives back the key the document was encrypted with; every other password is refused unless its hash collides. The hash is the one of the standard (SHA-256, or the rounds of algorithm 2.B), the encrypted permissions are those of the dictionary, strings and streams encrypted with the key are decrypted by it, and reading the encryption dictionary of any file is defined", "quantifier": "every user and owner password, set of permissions, choice of random bytes, tried password and encryption dictionary, and every behaviour of the digests and of the block cipher that keeps lengths and can be inverted", "why_tests_cant": "passwords, salts and keys are 32 to 127 arbitrary bytes and the number of rounds depends on the data; a test tries a few passwords and never a malformed dictionary", "anchors": ["src/pdfmm/base/PdfEncrypt.cpp:PdfEncryptSHABase::ComputeHash", "src/pdfmm/base/PdfEncrypt.cpp:PdfEncryptAESV3::GenerateEncryptionKey", "src/pdfmm/base/PdfEncrypt.cpp:PdfEncryptAESV3::Authenticate", "src/pdfmm/base/PdfEncrypt.cpp:PdfEncrypt::CreateFromObject"]}
{"id": "C193", "title": "Text drawn with a font made without an encoding is read back", "statement": "When texts are encoded one after the other with a subset font that was made without an encoding, each text is encoded exactly if the font has a glyph for every one of its characters, whatever was encoded before. Decoding the bytes of any of these texts at the end gives the text back, and the CIDs of its glyphs, also after the font was saved and loaded.", "quantifier": "Every font (every assignment of glyphs to characters), every sequence of texts, every text of the sequence and every order of the hash table of code sizes", "why_tests_cant": "Codes are given to glyphs in the order in which they are first used, so that the bytes of a text depend on all texts before it, and the sizes of the codes on how many glyphs are in use at the end: no finite number of sequences covers this.", "anchors": ["src/pdfmm/base/PdfFont.cpp: PdfFont::AddSubsetGIDSafe, PdfFont::tryAddSubsetGID", "src/pdfmm/base/PdfEncoding.cpp: PdfEncoding::TryConvertToEncoded, PdfEncoding::tryConvertEncodedToUtf8, PdfEncoding::tryConvertEncodedToCIDs, PdfEncoding::writeToUnicodeCMap", "src/pdfmm/private/PdfDeclarationsPrivate.cpp: utls::GetCharCodeSize"]}
{"id": "C194", "title": "The character codes of a subset font have the same CIDs after the font is loaded", "statement": "When a CID-keyed subset font is saved, a CMap with the codes and CIDs of all glyphs in use is written. It is written without an error, and in the font that is loaded from it every code has the CID it had, and the codes are taken to have the sizes they had. With a font made without an encoding every text therefore has the same CIDs before and after.", "quantifier": "Every set of glyphs in use with codes of one to four bytes and CIDs, every plain font name, every order of the hash table of code sizes, every sequence of texts", "why_tests_cant": "The CMap is written in one grammar and read by a tokenizer for another one that counts entries and ignores what it does not know, so that an entry can be lost or misread depending on all others: no sample of sets covers this.", "anchors": ["src/pdfmm/base/PdfEncoding.cpp: PdfEncoding::ExportToFont, PdfEncoding::writeCIDMapping", "src/pdfmm/base/PdfCMapEncoding.cpp: parseCMapObject, getCodeFromVariant", "src/pdfmm/base/PdfFont.cpp: PdfFont::tryAddSubsetGID"]}
{"id": "C195", "title": "Text drawn with a font that is made without an encoding and embedded whole is read back", "statement": "When a font is made without an encoding and without a subset, every text whose characters all have glyphs can be encoded, whatever was encoded before, and no other text. Each encoded text is read back as the text it was, also where characters share a glyph, and its CIDs are the glyphs of its characters.", "quantifier": "Every assignment of glyphs to characters, every sequence of texts, every order in which the tree of the map to Unicode is built", "why_tests_cant": "The code of a character depends on all texts encoded before it, on lookups in a tree that is built in a random order, and the reader splits the bytes by the sizes of all codes in use: no sample of texts or runs covers this.", "anchors": ["src/pdfmm/base/PdfFont.cpp: PdfFont::AddCharCodeSafe", "src/pdfmm/base/PdfEncoding.cpp: PdfEncoding::tryConvertToEncoded, PdfEncoding::tryGetCharCode, PdfEncoding::tryConvertEncodedToUtf8", "src/pdfmm/base/PdfCharCodeMap.cpp: PdfCharCodeMap::TryGetCharCode, PdfCharCodeMap::PushMapping"]}
