{"id": "C01", "title": "Byte strings read back exactly", "statement": "Writing Str(s) appends bytes from which a PDF reader (ISO 32000-1 7.3.4 literal and hexadecimal strings: escapes, octal, nested parentheses, end-of-line normalisation) recovers exactly s and stops exactly at the end of the string, whatever bytes are written afterwards.", "quantifier": "every byte string s (any length, any byte values, any parenthesis nesting) and every byte sequence following it", "why_tests_cant": "infinitely many byte strings; the escape decision depends on global parenthesis balance and on neighbouring bytes (octal escapes followed by digits)", "anchors": ["src/object.rs: Str, Str::is_balanced, Sealed for Str", "src/buf.rs: push_hex, push_octal"]}
{"id": "C02", "title": "String and name objects are spelled in visible ASCII", "statement": "The bytes written for Str, TextStr, TextStrWithLang, Name, Date, integers, reals, booleans, null, references and rectangles are all in the range 0x20..0x7E (so no write of a primitive can introduce a control byte or a non-ASCII byte).", "quantifier": "every primitive value of every kind", "why_tests_cant": "quantifies over all byte strings / all unicode strings / all floats", "anchors": ["src/object.rs: Sealed for Str/TextStr/TextStrWithLang/Name/Date/Rect/Ref", "src/buf.rs: push_int, push_float"]}
{"id": "C03", "title": "Names read back exactly", "statement": "Writing Name(n) appends a PDF name from which a reader (7.3.5, #xx escapes) recovers exactly n, provided what follows starts with white space or a delimiter; no byte of n (space, '#', '/', delimiters, NUL, non-ASCII) can end the name early or be misread.", "quantifier": "every byte string n", "why_tests_cant": "256^k names for every length k; the characters that must be escaped are spread over the whole byte range", "anchors": ["src/object.rs: Sealed for Name, is_regular_character"]}
{"id": "C04", "title": "Text strings read back exactly", "statement": "Writing TextStr(t) appends a string object whose PDF text-string decoding (PDFDocEncoding for printable ASCII without a byte order mark, UTF-16BE after FE FF) is exactly the sequence of Unicode scalar values of t, including characters outside the Basic Multilingual Plane.", "quantifier": "every Unicode string t", "why_tests_cant": "the choice of encoding and the surrogate arithmetic must be right for all 1.1M scalar values in all combinations", "anchors": ["src/object.rs: TextStr, write_utf16be_text_str_header/footer"]}
{"id": "C05", "title": "Text strings with language tags read back exactly", "statement": "Writing TextStrWithLang(segments) appends a UTF-16BE text string from which a reader that understands the U+001B language escapes recovers exactly the same list of (language, region, text) segments, when no text contains U+001B; LanguageIdentifier::from_lang / from_lang_region accept exactly two-character ASCII-alphanumeric codes and keep them unchanged.", "quantifier": "every list of segments; every candidate code string", "why_tests_cant": "unbounded lists of segments over all Unicode strings", "anchors": ["src/object.rs: LanguageIdentifier, TextStrWithLang, write_utf16be_lang_code"]}
{"id": "C06", "title": "Integers and references read back exactly", "statement": "Writing an i32 appends a token that a PDF reader reads as that same integer; writing a Ref appends `id 0 R`, read as the reference to that id with generation 0. Ref::new succeeds exactly for positive ids; next/bump hand out strictly increasing ids, so a bump allocator never repeats an id.", "quantifier": "every i32; every ref; every number of bumps", "why_tests_cant": "2^32 values and unbounded allocation histories", "anchors": ["src/buf.rs: push_int", "src/object.rs: Ref::new, get, next, bump, Sealed for Ref"]}
{"id": "C07", "title": "Finite floats are written as valid PDF numbers that round back to the same f32", "statement": "Writing a finite f32 appends an optional sign and decimal digits with at most one point - never an exponent, NaN or inf - and the decimal number written rounds (to nearest, ties to even) to the very same f32; the boundaries 1e-6, 1e12 and 2^31 between the formatting paths introduce no error.", "quantifier": "all finite f32 values", "why_tests_cant": "2^32 bit patterns through three different formatting paths; boundary values decide correctness", "anchors": ["src/buf.rs: push_float, push_decimal"]}
{"id": "C08", "title": "Dates are always in range and read back", "statement": "Whatever setters of Date are called, in whatever order and with whatever arguments, the text written is a valid PDF date D:YYYY[MM[DD[HH[mm[SS[Z|+HH'mm|-HH'mm]]]]]] whose fields are in the ISO ranges, equal to the last values set clamped into range, and truncated at the first missing field.", "quantifier": "every sequence of setter calls with every u16/u8/i8 argument", "why_tests_cant": "unbounded call sequences over all argument values and 2^6 presence patterns", "anchors": ["src/object.rs: Date and its setters, Sealed for Date"]}
{"id": "C09", "title": "Object trees read back exactly (pretty mode)", "statement": "Any nesting of arrays, dictionaries and primitives written through Obj/Array/Dict with pretty printing on yields bytes from which a PDF reader recovers exactly the tree that was written: same structure, same order of items and entries, same keys, same values.", "quantifier": "every finite tree of writer calls (any depth and width, any keys and values) at any starting indentation", "why_tests_cant": "unbounded recursive structure; token separation depends on neighbouring tokens", "anchors": ["src/object.rs: Obj, Array, Dict, their Drop impls"]}
{"id": "C10", "title": "Object trees read back exactly (compact mode)", "statement": "With pretty printing off the minimal-whitespace output still reads back as exactly the tree that was written, as long as no empty name is directly followed by a token that does not start with a delimiter. (For that remaining case the claim is false of the code: `[/ 5]` is written as `[/5]`.)", "quantifier": "every finite tree of writer calls without an empty name directly before a non-delimited token", "why_tests_cant": "the padding rule inspects the previously written byte, so correctness is a property of every adjacent pair of tokens in every context", "anchors": ["src/object.rs: Obj::primitive, is_delimiter_character, Array::push, Dict::insert"]}
{"id": "C11", "title": "Pretty and compact output denote the same object and compact is never longer", "statement": "For the same writer calls, the compact and the pretty output are read as the same value, and the compact output has at most as many bytes.", "quantifier": "every finite tree of writer calls (non-clashing)", "why_tests_cant": "relates two unbounded outputs for every input", "anchors": ["src/chunk.rs: Settings", "src/object.rs: Obj, Array, Dict"]}
{"id": "C12", "title": "Every legal sequence of writer calls produces a complete, balanced object", "statement": "For every sequence of API calls that the borrow checker admits (push/insert, primitive, starting arrays and dictionaries, dropping the innermost open writer) that ends with no open writer, the bytes written are those of one well-defined tree; Array::len/Dict::len always equal the number of push/insert calls made on that writer.", "quantifier": "every call history of the writer state machine", "why_tests_cant": "unbounded histories with arbitrary interleavings of nesting levels", "anchors": ["src/object.rs: Obj, Array, Dict, TypedArray, TypedDict, Drop impls"]}
{"id": "C13", "title": "Streams carry their data verbatim with the right Length", "statement": "Chunk::stream writes an indirect stream object whose /Length entry equals the number of data bytes and from which a reader that uses /Length recovers exactly the data bytes, whatever they are (including the words endstream and endobj), together with every dictionary entry; it panics exactly when the data is longer than i32::MAX.", "quantifier": "every byte string as data, every list of extra dictionary entries, both settings", "why_tests_cant": "all byte strings incl. those containing PDF keywords", "anchors": ["src/object.rs: Stream::start, Drop for Stream", "src/chunk.rs: Chunk::stream"]}
{"id": "C14", "title": "Recorded offsets point at the objects", "statement": "In every chunk built through the API, each top-level object listed by refs() was recorded at the byte position where its `id 0 obj` header starts, and reading an indirect object at that position yields that id and exactly the object that was written; refs() lists ids in writing order.", "quantifier": "every history of indirect/stream/extend/renumber_into/merge_limits calls on any number of chunks", "why_tests_cant": "offset bookkeeping must survive arbitrary histories of chunk operations", "anchors": ["src/chunk.rs: Chunk::indirect, stream, extend, refs", "src/lib.rs: Pdf"]}
{"id": "C15", "title": "Extending a chunk concatenates", "statement": "a.extend(&b) leaves a's bytes as a prefix, appends b's bytes, makes refs() the concatenation, shifts b's offsets by exactly a.len(), merges limits field-wise to the maximum, and leaves b unchanged; extending is associative and the empty chunk is neutral.", "quantifier": "all pairs/triples of chunks", "why_tests_cant": "quantifies over all chunk states", "anchors": ["src/chunk.rs: Chunk::extend", "src/buf.rs: extend_buf, Limits::merge"]}
{"id": "C16", "title": "The header survives and set_version / set_binary_marker touch only their bytes", "statement": "At every moment of a Pdf's life its bytes start with `%PDF-M.m\\n%xxxx\\n\\n` with M.m the version last set with digits below ten (default 1.7) and xxxx the marker last set; calling set_version or set_binary_marker at any time changes no byte outside those positions, no offset, and no object.", "quantifier": "every history of Pdf calls", "why_tests_cant": "setters patch absolute positions and may be called after any amount of content", "anchors": ["src/lib.rs: Pdf::with_settings_and_capacity, set_binary_marker, set_version"]}
{"id": "C17", "title": "The cross-reference table locates every object", "statement": "Pdf::finish writes `xref\\n0 N` followed by exactly N entries of exactly 20 bytes, N = 1 + largest id used; entry i is an in-use entry carrying the byte offset where object i starts if object i was written, and a free entry otherwise.", "quantifier": "every set of distinct ids and offsets below 10^10", "why_tests_cant": "arbitrary gaps, orders of writing and numbers of objects", "anchors": ["src/lib.rs: Pdf::finish, write_offsets, PlainXRefWriter"]}
{"id": "C18", "title": "The free list is a correct linked list", "statement": "In cross-reference tables, following the next-free links from entry 0 visits exactly the unused ids below N in increasing order, once each, and returns to 0; entry 0 is free with generation 65535 and all other free entries have generation 0. The same holds for cross-reference streams whenever the largest id fits the offset field; otherwise the links are truncated to the field (exactly as C21 states).", "quantifier": "every set of used ids", "why_tests_cant": "the next-free computation scans runs of used ids; correctness depends on every gap pattern", "anchors": ["src/lib.rs: write_offsets"]}
{"id": "C19", "title": "finish panics exactly when an id was used twice", "statement": "Pdf::finish and finish_with_xref_stream panic if and only if two top-level objects (including the xref stream itself) have the same id or, for streams, the encoded table is longer than i32::MAX.", "quantifier": "every multiset of ids in every writing order", "why_tests_cant": "all orders and multiplicities of ids", "anchors": ["src/lib.rs: write_offsets"]}
{"id": "C20", "title": "A finished file reads back as exactly the objects written", "statement": "For every Pdf built through the API with distinct ids, a reader that starts from the end of the file (%%EOF, startxref, xref table, trailer) and follows the table recovers every object that was written, under its id, with exactly its value, and no other object, plus the trailer entries.", "quantifier": "every history of Pdf construction followed by finish", "why_tests_cant": "end-to-end property over unbounded documents", "anchors": ["src/lib.rs: Pdf::finish, finish_trailer, write_offsets, TrailerData::write_into_dict", "src/chunk.rs"]}
{"id": "C21", "title": "Cross-reference streams locate every object", "statement": "finish_with_xref_stream writes a stream object of type XRef, at the startxref position and under the given id, whose /W [1 w 2] fields decode to one entry per id 0..Size-1: in-use entries (type 1) carry the exact byte offset, including the stream's own; w is the least width that can hold the largest offset. Free entries carry their link exactly when it fits w bytes (otherwise the code truncates it).", "quantifier": "every history of Pdf construction and every xref id; every filter closure for the filtered variant", "why_tests_cant": "field-width boundaries at every power of 256 and arbitrary id gaps", "anchors": ["src/lib.rs: finish_with_xref_stream_inner, XRefStreamWriter, determine_field_width"]}
{"id": "C22", "title": "The trailer reflects the registered catalog, info and file id", "statement": "The trailer has /Size = 1 + largest id, /Root and /Info exactly when catalog/document_info were called (with the id of the last such call) and /ID exactly when set_file_id was called (with the last pair, byte for byte), in both finish variants.", "quantifier": "every history of Pdf calls", "why_tests_cant": "histories of setters in any order and number", "anchors": ["src/lib.rs: Pdf::catalog, document_info, set_file_id, TrailerData::write_into_dict"]}
{"id": "C23", "title": "Renumbering commutes with writing", "statement": "For every chunk built through the API and every mapping, chunk.renumber(mapping) has exactly the bytes, offsets and ids of the chunk obtained by writing the same objects with every object id and every indirect reference replaced by the mapping - nothing else changes.", "quantifier": "every chunk history, every (pure) mapping from refs to refs", "why_tests_cant": "the patcher re-scans raw bytes; it must not be fooled by any string, name, number or stream content", "anchors": ["src/renumber.rs", "src/chunk.rs: Chunk::renumber, renumber_into"]}
{"id": "C24", "title": "Renumbering never alters strings, names or stream data", "statement": "Reference-like text inside strings, names and stream data (e.g. `1 0 R`, `stream`, `endobj`, parentheses, percent signs) is copied unchanged by renumber.", "quantifier": "every string/name/stream content in every chunk", "why_tests_cant": "adversarial content over all byte strings", "anchors": ["src/renumber.rs: patch_object, validate_ref, validate_stream, extract_object"]}
{"id": "C25", "title": "The renumber closure is called once per occurrence, in order", "statement": "renumber calls the closure exactly once for each top-level object and once for each indirect reference, object id first and then the references of that object in the order in which they were written; results for stateful closures are those of this call order.", "quantifier": "every chunk and every stateful mapping", "why_tests_cant": "all chunk histories and all closure states", "anchors": ["src/renumber.rs: renumber, patch_object", "src/chunk.rs: Chunk::renumber (doc)"]}
{"id": "C26", "title": "Renumbering composes", "statement": "Renumbering with the identity leaves the objects unchanged (byte for byte when the settings agree), and renumbering with f and then with g equals renumbering with g after f.", "quantifier": "every chunk and all mappings", "why_tests_cant": "equational law over all chunks", "anchors": ["src/renumber.rs", "src/chunk.rs: Chunk::renumber"]}
{"id": "C27", "title": "Limits are the exact maxima of what was written", "statement": "After any history, limits() reports exactly the maximum name length, string length (for Str), array length, dictionary entry count, absolute integer (for integers other than i32::MIN) and absolute real over everything written; known exceptions in the code (dates, text strings in UTF-16 form, i32::MIN) are proved as such.", "quantifier": "every writer/chunk history", "why_tests_cant": "maximum over unbounded histories", "anchors": ["src/buf.rs: Limits", "src/object.rs: register calls"]}
{"id": "C28", "title": "Limits merging is a join", "statement": "Limits::merge is commutative, associative, idempotent and monotone on the limits reachable through the API, so the limits of a document do not depend on the order in which chunks and content streams are merged.", "quantifier": "all reachable limits", "why_tests_cant": "algebraic laws over all values", "anchors": ["src/buf.rs: Limits::merge, register_*", "src/chunk.rs: merge_limits, extend"]}
{"id": "C29", "title": "Content streams read back as the operations issued", "statement": "The bytes of Content::finish are read by a content-stream reader as exactly the sequence of operators issued, each with exactly its operands in order (pretty and compact mode; compact mode excluding empty names directly before a non-delimited token).", "quantifier": "every sequence of operations with every operand list", "why_tests_cant": "unbounded sequences of operations and operand values; separation depends on neighbours", "anchors": ["src/content.rs: Content, Operation, all operator methods"]}
{"id": "C30", "title": "Graphics-state nesting depth is tracked correctly", "statement": "Content::state_nesting_depth is the number of graphics states a reader of the finished stream has open at its end (unmatched restores ignored), for every sequence of calls in which q and Q are issued through save_state/restore_state; finish drops exactly one trailing newline and nothing else.", "quantifier": "every sequence of operator calls", "why_tests_cant": "unbounded call sequences", "anchors": ["src/content.rs: save_state, restore_state, state_nesting_depth, finish"]}
{"id": "C31", "title": "ToUnicode CMaps read back as the mappings given", "statement": "For a name, registry and ordering without line ends, UnicodeCmap::finish yields a CMap that a CMap interpreter reads as: that name, collection and writing mode, the full one- or two-byte code space, and bfchar sections of 1 to 100 entries with the announced count whose concatenation is exactly the (glyph, text) pairs given, in order, for every Unicode string. A line end in the name injects into the program (proved).", "quantifier": "every sequence of pair/pair_with_multiple calls", "why_tests_cant": "section boundaries at every multiple of 100; all strings", "anchors": ["src/font.rs: UnicodeCmap, GlyphId"]}
{"id": "C32", "title": "PostScript calculator programs read back", "statement": "PostScriptOp::encode yields a calculator program in braces from which a Type 4 function reader recovers exactly the operators given (finite reals below 10^12 as reals), with nesting of if/ifelse blocks.", "quantifier": "every finite program (any nesting)", "why_tests_cant": "recursive programs of any depth and any numeric operands", "anchors": ["src/functions.rs: PostScriptOp"]}
{"id": "C33", "title": "A file built from ASCII parts is ASCII", "statement": "A finished file is ASCII if and only if every part copied verbatim (binary marker, stream data) is, whatever strings, names and texts were written; a file with an unfiltered cross-reference stream is never ASCII.", "quantifier": "every Pdf history with ASCII marker and ASCII stream data", "why_tests_cant": "must hold for every string, name and number written", "anchors": ["src/lib.rs: set_binary_marker (doc)", "src/object.rs"]}
{"id": "C34", "title": "Separation and DeviceN spaces cannot be completed inconsistently", "statement": "Separation and DeviceN builders panic exactly at the first call out of order (second alternate space, tint transform before the alternate space, attributes before the tint transform); all color spaces that can be written read back as the arrays ISO 32000 defines, with exactly the arguments given.", "quantifier": "every sequence of builder calls", "why_tests_cant": "all call orders and repetitions", "anchors": ["src/color.rs: Separation, DeviceN"]}
{"id": "C35", "title": "Structure roles map consistently between PDF 1.7 and 2.0", "statement": "Role names are distinct; StructRole2::compatibility_1_7 and StructRole::into_pdf_2_0 are mutually consistent; heading names H1..Hn read back as their level for every level; known inconsistencies in the code are proved as such.", "quantifier": "all roles and every heading level", "why_tests_cant": "levels range over all u16 and every role combination", "anchors": ["src/structure.rs: StructRole, StructRole2, StructRole2Compat, RoleMapOpts"]}
{"id": "C36", "title": "The file ends with a startxref pointing at the cross-reference section", "statement": "Every finished file ends with `startxref\\n<offset>\\n%%EOF` where offset is exactly the byte position of the `xref` keyword or of the xref stream's object header.", "quantifier": "every Pdf history, both finish variants", "why_tests_cant": "offset depends on the whole history", "anchors": ["src/lib.rs: finish_trailer, finish, finish_with_xref_stream_inner"]}
{"id": "C37", "title": "Checked setters panic exactly outside their documented range", "statement": "Ref::new, set_line_width, set_flatness, DecodeParms::colors, DecodeParms::bits_per_component, IccProfile::n, tiling x_step/y_step, Outline::count, ViewerPreferences::non_full_screen_page_mode and the stream length check panic exactly for the values outside their documented domain (NaN line widths included), also when nested in other writers.", "quantifier": "all argument values", "why_tests_cant": "full i32/f32 domains", "anchors": ["src/object.rs", "src/content.rs", "src/color.rs", "src/structure.rs"]}
{"id": "C38", "title": "CID widths read back as the CID-to-width map of the calls", "statement": "Interpreted by the standard's algorithm for W arrays, the array written by any sequence of consecutive/same calls assigns exactly the CIDs of the calls their widths, in order.", "quantifier": "all call sequences, start CIDs, list lengths, ranges", "why_tests_cant": "every sequence of runs and every width", "anchors": ["src/font.rs: Widths"]}
{"id": "C39", "title": "Encoding differences read back as the code-to-name map of the calls", "statement": "Interpreted by the standard's algorithm for Differences arrays, the array written by any sequence of calls names exactly the codes of the calls.", "quantifier": "all call sequences and names", "why_tests_cant": "every sequence of runs and every name", "anchors": ["src/font.rs: Differences"]}
{"id": "C40", "title": "Name and number tree nodes hold exactly the inserted pairs", "statement": "Looking up Names (Nums) in the dictionary written gives an array that pairs up into exactly the inserted keys and values in order, whatever other calls were made on the node.", "quantifier": "all entries and call sequences", "why_tests_cant": "every key and value", "anchors": ["src/object.rs: NameTree, NumberTree"]}
{"id": "C41", "title": "Flag sets are written with the standard's bits", "statement": "Every set of flag constants is written as the integer whose set bits are exactly the standard's positions of these flags, so that the set can be recovered.", "quantifier": "all flag types and all subsets", "why_tests_cant": "exponentially many subsets; the code's constants against the standard's positions", "anchors": ["src/actions.rs: FormActionFlags", "src/annotations.rs: AnnotationFlags", "src/font.rs: FontFlags", "src/forms.rs: SigFlags, SignatureSeedValueFlags, CertificateSeedValueFlags, FieldFlags", "src/structure.rs: OutlineItemFlags"]}
{"id": "C42", "title": "Structure dictionaries have exactly the documented entries", "statement": "Every sequence of calls on the document-structure writers (Catalog, Pages, Page, Outline, OutlineItem, StructTreeRoot, StructElement, MarkInfo, DocumentInfo, ViewerPreferences, PageLabel, Namespace, RoleMap, ClassMap, …) produces an object that a PDF reader reads as a dictionary or array whose entries are, in call order, exactly the ISO 32000 keys of the calls with values that mean the arguments, plus the mandatory constant entries (Type, S, Subtype).", "quantifier": "all writers of the module, all call sequences of any length with any arguments, nested writers included, compact and pretty, direct and indirect", "why_tests_cant": "every call sequence with every argument; a wrong key or a swapped argument shows only for the calls a test happens to make", "anchors": ["src/structure.rs"]}
{"id": "C43", "title": "Font dictionaries have exactly the documented entries", "statement": "Every sequence of calls on the font writers (Type1Font, Type3Font, Type0Font, CidFont, FontDescriptor, Encoding, Widths, Cmap stream, …) is read back as the documented entries with values that mean the arguments; streams additionally with unchanged data and correct Length.", "quantifier": "all writers, all call sequences and arguments", "why_tests_cant": "every call sequence with every argument", "anchors": ["src/font.rs"]}
{"id": "C44", "title": "Graphics dictionaries have exactly the documented entries", "statement": "The same for stream dictionaries, DecodeParms, Resources, ExtGState, XObjects, groups, patterns, shadings, functions, ICC profiles: entries read back are exactly the documented ones with values that mean the arguments.", "quantifier": "all writers, all call sequences and arguments", "why_tests_cant": "every call sequence with every argument", "anchors": ["src/object.rs", "src/content.rs", "src/xobject.rs", "src/color.rs", "src/functions.rs"]}
{"id": "C45", "title": "Interactive dictionaries have exactly the documented entries", "statement": "The same for destinations, file specifications, embedded files, transitions, renditions, actions, annotations, forms, fields and signature dictionaries, for all calls not listed as defects; each defect is proved to be one.", "quantifier": "all writers, all call sequences and arguments", "why_tests_cant": "every call sequence with every argument", "anchors": ["src/actions.rs", "src/annotations.rs", "src/files.rs", "src/forms.rs", "src/renditions.rs", "src/transitions.rs", "src/structure.rs: Destination"]}
{"id": "C46", "title": "Tagged-PDF attributes have exactly the documented entries", "statement": "The same for attribute objects (layout, list, field, table, artifact, FENote, user properties); a value given per side is written so that a reader obtains the right value for each side.", "quantifier": "all writers, all call sequences and arguments", "why_tests_cant": "every call sequence with every argument", "anchors": ["src/attributes.rs"]}
{"id": "C47", "title": "Rectangles and their quadrilaterals are geometrically right", "statement": "A Rect is written as the array x1 y1 x2 y2; to_quad_points lists every corner exactly once, counterclockwise for a rectangle given lower-left first.", "quantifier": "all coordinates", "why_tests_cant": "all f32 coordinates", "anchors": ["src/object.rs: Rect"]}
{"id": "C48", "title": "Documents read back page by page, end to end", "statement": "Whatever page tree (any shape and depth) with whatever page dictionaries and content streams (none, one or an array per page; plain or filtered) is written, in any order, spread over any chunks and mixed with any other objects, a reader that is given only the finished bytes, starts at the end of the file and follows trailer, catalog, page tree and contents finds exactly these pages in order, each with the entries and the operations that were asked for, for all three ways to finish.", "quantifier": "all histories, page trees, page and content calls, filters, ways of finishing", "why_tests_cant": "composition of every layer of the library over unbounded documents", "anchors": ["src/lib.rs: Pdf::finish, finish_with_xref_stream, finish_with_xref_stream_and_filter, catalog", "src/structure.rs: Catalog, Pages, Page", "src/content.rs: Content", "src/chunk.rs: Chunk::stream, pages, page"]}
{"id": "C49", "title": "Order of calls, chunks, settings and the kind of cross-reference section do not matter", "statement": "Two documents into which the same objects (ids and contents) were written and with the same catalog, info and file id read the same: every object number is the same value in both files or absent in both, and Root, Info and ID agree, whatever the order of the calls, however objects were spread over chunks, extended or renumbered into place, whatever the pretty settings, and whichever finish method was used for each (the cross-reference stream object itself aside).", "quantifier": "all pairs of histories with the same objects, all pairs of finish methods", "why_tests_cant": "all pairs of histories", "anchors": ["src/chunk.rs: Chunk::extend, renumber_into, indirect, stream", "src/lib.rs: Pdf::finish*", "src/object.rs: Array, Dict"]}
{"id": "C50", "title": "Keys are found in number and name trees over several nodes", "statement": "Looking up a key in the finished file through the levels of a number tree (by Kids and Limits) finds every inserted key with its value and no other key, e.g. for page labels. For name trees the same holds for a reader that accepts names as limits and for trees of one node; with more nodes a reader that follows the standard finds nothing, because NameTree::limits writes names instead of strings.", "quantifier": "all trees (any shape and depth), keys, values, histories and finish methods", "why_tests_cant": "unbounded trees and all keys", "anchors": ["src/object.rs: NameTree, NumberTree", "src/structure.rs: Catalog::page_labels, Names"]}
{"id": "C51", "title": "Chunks with colliding ids can be merged with an allocating closure", "statement": "Renumbering any number of chunks into a document with the closure of the documentation (`*map.entry(old).or_insert_with(|| alloc.bump())`, one allocator, one map per chunk) gives all objects consecutive fresh ids: no two objects of whatever chunks collide, finish does not panic, and in the finished file every object of a chunk is the object that a file made of this chunk alone contains, with every reference renamed to the new id of the same object; references to objects that the chunk does not contain point to no object; the objects, catalog, info and file id of the document are unchanged.", "quantifier": "all documents whose ids are below the allocator, all lists of chunks of any history with any (colliding) ids, all finish methods", "why_tests_cant": "Collisions depend on the whole set of ids and references in all chunks; only induction over histories, reference order and the closure state shows that none can occur.", "anchors": ["src/chunk.rs: Chunk::renumber, Chunk::renumber_into", "src/renumber.rs: renumber, patch_object", "src/object.rs: Ref::bump", "src/lib.rs: Pdf::finish"]}
{"id": "C52", "title": "Machine integers while writing objects", "statement": "Array and Dict count their items with an i32, and the limits take the absolute value of every integer. In a build with overflow checks a legal sequence of calls panics exactly when some array or dictionary receives more than i32::MAX items or i32::MIN is written (as an integer, as a real or in a rectangle); otherwise its bytes, lengths and limits are those of unbounded counters. In a build without overflow checks no sequence panics; bytes are right as long as nothing receives 2^32 items, len() is reported modulo 2^32 and limits are right up to i32::MAX items; an array of 2^32+1 items loses a separator, so two items fuse.", "quantifier": "all legal sequences of array/dict/push/insert/primitive/finish calls of any length and nesting, both kinds of build", "why_tests_cant": "The boundary is at more than two billion items; a test would need gigabytes and could only look at one sequence.", "anchors": ["src/object.rs: Array::push, Array::len, Dict::insert, Dict::len, Drop for Array, Drop for Dict", "src/buf.rs: Limits::register_int, Buf::push_int, Buf::push_float"]}
{"id": "C53", "title": "Object ids at the end of the range", "statement": "Ref::next and Ref::bump panic exactly at i32::MAX in both kinds of build. In a build with overflow checks, finish panics exactly if an id is used twice or is i32::MAX, and finish_with_xref_stream(_and_filter) panics for an id i32::MAX (of an object or of the stream); otherwise both kinds of build return the same bytes. In a build without overflow checks a document with distinct ids one of which is i32::MAX is finished without a panic but announces -2147483648 cross-reference entries.", "quantifier": "all documents (histories), both kinds of build, all finish methods", "why_tests_cant": "Such a file has 2^31 free entries (43 GB); the exact panic condition ranges over all histories.", "anchors": ["src/lib.rs: write_offsets, Pdf::finish, finish_with_xref_stream_inner", "src/object.rs: Ref::next, Ref::bump"]}
{"id": "C54", "title": "The text of a document can be extracted", "statement": "From the bytes of a finished file alone a reader obtains, page by page and character code by character code, the text that pair and pair_with_multiple of UnicodeCmap assign to the glyphs shown by show, next_line_show, next_line_show_and_set_word_and_char_spacing and show_positioned in the font last selected with set_font (saved and restored by save_state and restore_state), or nothing for glyphs without a mapping: through trailer, catalog, page tree with inherited resources, resource dictionaries given in place or by reference, Type0 (identity encoding), Type1 and Type3 fonts, ToUnicode stream (compressed or not) and content streams, whatever else was written and however the file was finished.", "quantifier": "all documents (histories), page trees of any depth, resources, fonts, CMaps with any number of mappings, content of any length, all finish methods and filters", "why_tests_cant": "A test extracts the text of one document; here every layer (operators, strings, codes, CMap blocks, references, offsets) must agree for all of them.", "anchors": ["src/font.rs: UnicodeCmap::pair, pair_with_multiple, finish; Type0Font::to_unicode; Type1Font::to_unicode; Type3Font::to_unicode; CmapStream", "src/content.rs: Content::set_font, show, next_line_show, show_positioned, save_state, restore_state", "src/structure.rs: Page::resources, Pages::resources", "src/content.rs: Resources::fonts", "src/lib.rs: Pdf::finish"]}
{"id": "C55", "title": "White space: compact output is minimal, pretty output is laid out line by line", "statement": "With pretty disabled, every object, indirect object body and stream dictionary is written with as little white space as possible: no shorter byte string has the same tokens in the same spelling (Settings::pretty: 'as compactly as possible'); the same holds for content streams except for one superfluous space at the very start exactly when the first operand is a bare token. With pretty enabled, dictionaries have one line per entry indented two spaces per level (saturating at 255), arrays are on one line with single spaces, indirect objects are followed by an empty line, and content streams have one operation per line.", "quantifier": "all trees of writer calls (any nesting depth), all ids, stream entries and data, all sequences of content operators", "why_tests_cant": "Whether a space is needed depends on the last byte before and the first byte after every token boundary, and minimality compares with all other spellings.", "anchors": ["src/object.rs: Obj::primitive, Array::push, Dict::insert, Drop for Array, Drop for Dict, Drop for Stream", "src/content.rs: Operation::obj, Drop for Operation, Content::finish", "src/chunk.rs: Settings::pretty"]}
{"id": "C56", "title": "The outline and the links of a document are found again", "statement": "From the bytes of a finished file alone a reader obtains the outline as the tree that was written: every item with its title, its color and whether it is italic or bold, its count, and the index and view of the page its destination leads to (given directly with dest or by a name defined in the document's destinations), the items linked consistently with parent, prev, next, first and last; and, page by page and in order, every link annotation with its rectangle and its target (a page index and view, or a URI). Whatever else was written, in whatever order, and however the file was finished.", "quantifier": "all documents (histories), page trees of any depth, outlines of any shape and size, any number of annotations, all finish methods", "why_tests_cant": "A test follows the links of one document; here ids, references, offsets, names and the page order must agree for all of them.", "anchors": ["src/structure.rs: Outline, OutlineItem, Destination, Catalog::outlines, Catalog::destinations, Page::annotations", "src/annotations.rs: Annotation::subtype, rect, action", "src/actions.rs: Action::destination, destination_named, uri", "src/lib.rs: Pdf::finish"]}
{"id": "C57", "title": "Attached files are found again", "statement": "From the bytes of a finished file alone a reader lists the attached files in the order of the EmbeddedFiles name tree (which may have any number of levels): for each its name in the tree, its file names (plain and Unicode), description, relationship, MIME type and exactly its data, decoded if a filter was declared. More generally all pairs of any name tree or number tree are listed in order. Whatever else was written and however the file was finished.", "quantifier": "all documents (histories), trees of any depth, any number of files, all data and filters, all finish methods", "why_tests_cant": "A test attaches a few files; here keys, references, offsets, lengths and data must agree for all of them.", "anchors": ["src/structure.rs: Names::embedded_files, Catalog::names", "src/object.rs: NameTree, NumberTree", "src/files.rs: FileSpec, EmbeddedFile", "src/chunk.rs: Chunk::embedded_file, Chunk::file_spec", "src/lib.rs: Pdf::finish"]}
{"id": "C58", "title": "Page labels are found again", "statement": "From the bytes of a finished file alone a reader obtains for every page of the page tree, in order, the label text that the PageLabel calls (style, prefix, offset) ask for: the prefix followed by the number of the page within its range in the style chosen (decimal, roman, letters, or none), counted from the offset or from 1, with the ranges given by the keys of the page label number tree over any number of nodes.", "quantifier": "all documents (histories), page trees and number trees of any depth, any number of ranges and pages, all finish methods", "why_tests_cant": "A test checks a few labels of one document; here every page of every document.", "anchors": ["src/structure.rs: PageLabel::style, prefix, offset; Catalog::page_labels", "src/object.rs: NumberTree", "src/lib.rs: Pdf::finish"]}
{"id": "C59", "title": "Version, identifier, document information, language and XMP metadata are found again", "statement": "From the bytes of a finished file alone a reader obtains the version (the later one of the header's and the catalog's), the file identifier, every text, date and trapping status set on the DocumentInfo, the language of the document and the XMP metadata (unfiltered), each exactly as given to the API, and nothing where nothing was set; a document without document information has none in its trailer.", "quantifier": "all documents (histories), all combinations of properties set and not set, all finish methods", "why_tests_cant": "A test sets a few properties in one document; here every combination, with the setters called at any point of any history.", "anchors": ["src/lib.rs: Pdf::set_version, set_file_id, document_info, catalog, finish", "src/structure.rs: DocumentInfo, Catalog::lang, version, metadata; Metadata"]}
{"id": "C60", "title": "Text in form XObjects and membership in marked-content sequences survive into the file", "statement": "Let a document be built from pages, resources, fonts with UnicodeCmaps, form XObjects (nested to any depth, with resources of their own, given by reference, or none; compressed or not), images, property lists, and Content operations including x_object, begin_marked_content, begin_marked_content_with_properties (dictionary or named) and end_marked_content. A reader given only the finished bytes that interprets the page contents, descends into the forms painted by Do and maps codes through the ToUnicode CMaps obtains, page by page and code by code, exactly the text asked for, and for each code the innermost enclosing marked-content sequence with an MCID, together with the stream (page or form) in which that MCID is valid; content of a form that is not itself marked belongs to the sequence around the Do. At most one such result can be asked for by given calls.", "quantifier": "all documents (histories), all page trees, contents, forms nested to any depth, fonts, property lists, all four ways to finish", "why_tests_cant": "Marked content, form nesting, resource lookup, graphics state and CMaps interact; only a proof over all nestings and all call sequences shows that nothing is lost or attributed to the wrong sequence.", "anchors": ["src/content.rs: Content::begin_marked_content, begin_marked_content_with_properties, end_marked_content, x_object, MarkContent, PropertyList", "src/xobject.rs: FormXObject, ImageXObject", "src/structure.rs: Page, Pages", "src/font.rs: UnicodeCmap", "src/lib.rs: Pdf::finish"]}
{"id": "C61", "title": "The structure tree and the parent tree of a tagged document survive into the file, together with the text they tag", "statement": "Let a document be built with a StructTreeRoot (in the catalog or as an object of its own), StructElements of standard types of PDF 1.7, of PDF 2.0 in a namespace, or of custom types with a RoleMap, whose kids (none, a single one, or several) are elements, marked-content identifiers, MarkedRefs (on a page or in a form stream) and ObjectRefs. A reader given only the finished bytes, which insists that elements point back to their parents, obtains exactly this tree: for every element its type, the standard type to which the role map maps it, its identifier, title, language, alternate, expanded and replacement texts and its kids in order; and for every piece of marked content the index of its page and exactly the text that the page contents and the forms painted on it show inside that sequence. From the StructParents keys of the pages and the parent tree (a number tree of any depth) it obtains for every page the elements to which its sequences belong.", "quantifier": "all documents (histories), structure trees and number trees of any depth and width, page trees, contents, forms, role maps with distinct names, all four ways to finish", "why_tests_cant": "Structure trees, page trees, forms, resources, CMaps and the role map are combined without bounds; the claim relates the whole file to the whole structure.", "anchors": ["src/structure.rs: StructTreeRoot, StructElement, StructChildren, MarkedRef, ObjectRef, RoleMap, StructRole, StructRole2, Catalog::struct_tree_root, Page::struct_parents", "src/content.rs: marked content", "src/object.rs: NumberTree", "src/lib.rs: Pdf::finish"]}
{"id": "C62", "title": "Typed constructors of a chunk", "statement": "In a document built by any sequence of typed calls (the thirty-seven typed constructors of Chunk, catalog, document_info, the setters, and any other chunk call in between) and finished in any way, every object whose values PDF can represent is found under the id it was given and is the documented kind of object (a page, a Type 1 font, an image stream, a sampled function, ...) with, in order, exactly what the calls on the returned writer stand for; streams carry exactly their data and its length; the trailer names the last catalog, document information and file identifier; with typed calls only, the ids of the document are exactly the ids given, in order, and nothing is found under any other number.", "quantifier": "all sequences of calls on a document, all arguments, both modes, the three ways to finish, all readers that undo the chosen filter", "why_tests_cant": "every constructor with every sequence of calls in every position of every document; a constructor wired to the wrong writer shows only for that constructor", "anchors": ["src/chunk.rs: Chunk::stream and the typed constructors (247-493)", "src/lib.rs: Pdf::catalog, document_info, set_version, set_binary_marker, set_file_id, finish"]}
{"id": "C63", "title": "Interactive forms", "statement": "From the bytes of any finished file alone a reader that follows the standard (catalog, AcroForm written in place or as an object, Fields, Kids, Parent links checked) obtains exactly the terminal fields of the form that was written, in order: the fully qualified name made of the partial names given from the top down, field type, flags, value and default value set on the field or else on the nearest field above it that sets them, and the widgets of each field (the field itself made an annotation, or widgets below it), each with its object number, its rectangle and the first page whose annotation array lists it; fields without widgets have none; a document without form has no fields.", "quantifier": "all documents, all trees of fields of any depth and width, all names, values and flags, all assignments of widgets to pages, the three ways to finish", "why_tests_cant": "the meaning of a field depends on all fields above it and on the annotation arrays of all pages; trees are unbounded in depth and width", "anchors": ["src/forms.rs: Form (12-64), Field (89-509)", "src/structure.rs: Catalog::form, Page::annotations", "src/annotations.rs: Annotation"]}
{"id": "C64", "title": "Interruption at any point leaves a well-formed chunk and harms no other object", "statement": "If the caller's code is interrupted (a panic that unwinds, or an early return) at any moment while writers are open, dropping them leaves in the buffer exactly what one complete tree of calls writes: the completed calls, with every open array, dictionary and stream closed and nothing in place of an Obj that had been handed out but not used. Array items pushed but never written are absent on reading; a dictionary key whose value was never written makes that object (and only it) unreadable. If no Obj was pending the interrupted object reads back as the tree of the completed calls; the document can be finished, every object written before is found in it with its value, and no object appears that was not begun. A stream interrupted while its dictionary is being written keeps the entries inserted so far and all of its data; asking for a stream with more data than PDF allows leaves an empty dictionary under its id. An object begun but never started (its Obj dropped unused) is recorded at its header, where a reader finds no object, and renumbering leaves it out as if it had never been begun.", "quantifier": "all admitted call sequences and all points at which they may be interrupted, all nesting depths, all chunks and document histories, all ways to finish, all filters and settings", "why_tests_cant": "The points of interruption are the prefixes of all call sequences; tests can only cut a few of them short.", "anchors": ["src/object.rs: Obj, Drop for Array, Drop for Dict, Stream::start, Drop for Stream", "src/chunk.rs: Chunk::indirect, Chunk::stream", "src/renumber.rs: renumber, extract_object"]}
{"id": "C65", "title": "Histories of calls on a content stream, and their interruption", "statement": "Every sequence of calls on a content stream and the writers obtained from it (operations, operands, nested arrays and dictionaries) that the types admit and that leaves nothing open amounts to a list of operations, and every list of operations arises in this way. If the caller is interrupted at any point, dropping the open writers leaves exactly what a list of complete operations writes: the completed ones, and the open one with the operands written so far and its operator. If no Obj was pending, a reader reads the stream as these operations.", "quantifier": "all admitted call sequences of any length and nesting depth, all points of interruption, both spelling modes", "why_tests_cant": "There are infinitely many interleavings of operations, operands and nested writers, and every prefix is a point of interruption.", "anchors": ["src/content.rs: Content::op, Operation::obj, Operation::operand, Drop for Operation", "src/object.rs: Drop for Array, Drop for Dict"]}
{"id": "C66", "title": "Images painted on a page are read back with their samples, masks and transformations", "statement": "If pages paint images with Content::x_object, directly or inside form XObjects nested to any depth (with or without their own matrix, with their own resources or those of the stream that paints them), then a reader given only the bytes of the finished file obtains for every page, in order, exactly those images: the object it refers to, width, height, bits per component, color space, Decode array, stencil flag, the samples (as given, or what the declared filter decodes to them), the color-key or stencil mask, the soft mask with its samples, and the list of transformations in effect, as set by transform, save_state, restore_state and the matrices of the forms around it.", "quantifier": "every document history with any page tree, any resources (given on the page, inherited from any ancestor, or as a separate object), any nesting of forms, any sequence of content operations on pages and forms, any images and masks, any ids and settings, and each of the ways to finish the file", "why_tests_cant": "The images seen depend on resource inheritance, nesting of forms, the state stack and the byte layout of the whole file; tests check a few documents with one image.", "anchors": ["src/xobject.rs: ImageXObject, FormXObject", "src/content.rs: Content::x_object, Content::transform, Content::save_state, Content::restore_state", "src/chunk.rs: Chunk::image_xobject, Chunk::form_xobject", "src/structure.rs: Page::resources, Pages::resources", "src/content.rs: Resources::x_objects"]}
{"id": "C67", "title": "The fonts of a page are read back with their encodings, widths, descriptors, programs and glyph procedures", "statement": "If the resources of pages name fonts written with Type1Font, Type3Font or Type0Font with CidFont, then a reader given only the bytes of the finished file obtains for every page exactly those fonts under their names: for simple fonts the base font, the predefined or custom encoding with the glyph name of every code, and the width of every code from first_char to last_char; for Type 3 fonts also the matrix and the content operations of every glyph procedure; for composite fonts the encoding, and of the CIDFont its kind, character collection, default width, the width of every CID, and the map from CIDs to glyph indices; and the font descriptor with its flags (exactly those given), box and metrics, and the embedded font program: under which of the three keys, with which subtype, and its data as given or as the declared filter decodes it.", "quantifier": "every document history with any page tree and any resources (on the page, inherited from any ancestor, in place or as separate objects), any number of fonts of the three kinds with any calls, widths, differences and glyph procedures, any ids and settings, and each of the ways to finish the file", "why_tests_cant": "What is read depends on resource inheritance, on the layout of the whole file and on the arrays of widths and differences of any length; tests check a single font dictionary's bytes.", "anchors": ["src/font.rs: Type1Font, Type3Font, Type0Font, CidFont, Widths, Encoding, Differences, FontDescriptor, FontFlags", "src/content.rs: Resources::fonts", "src/object.rs: Stream::filter", "src/structure.rs: Page::resources, Pages::resources", "src/lib.rs: Pdf::finish"]}
{"id": "C68", "title": "What is painted on every page is what the drawing calls ask for", "statement": "A reader given only the bytes of the finished file that interprets the content of every page by the PDF imaging model obtains the same display list as the calls made on Content ask for: the same painted elements in the same order (paths with their segments, filling rule and stroking; text runs with their position, codes and adjustments; shadings; images; form XObjects with everything inside them), and for each element the same graphics state: the transformations in effect, the clipping paths, boxes and texts, the stroking and filling color with space, components and pattern, and every parameter set by an operator or by a named graphics state dictionary. Saving and restoring states, clipping that takes effect after the next painting operator, text objects, combined operators (closing before painting, moving to the next line before showing), and forms with their own matrix, bounding box and resources are all taken into account.", "quantifier": "every document history with any page tree, any resources (on the page, inherited, in place or as separate objects), any sequences of calls on Content whose text operators are in text objects, forms nested to any depth, any ids, settings and filters, and each of the ways to finish the file", "why_tests_cant": "The state in effect for an element depends on everything before it in the stream, on resource lookup through the page tree and on nested forms; tests compare the bytes of single short streams.", "anchors": ["src/content.rs: Content, Operation, Resources", "src/xobject.rs: FormXObject, ImageXObject", "src/structure.rs: Page::contents, Page::resources, Pages::resources", "src/lib.rs: Pdf::finish"]}
{"id": "C69", "title": "Strings, names and numbers are spelled plainly", "statement": "A name of printable regular characters is written verbatim after the slash, and no spelling of a name in printable characters is shorter than the one written. A printable ASCII string without backslashes whose parentheses balance is written verbatim in parentheses; any ASCII string is written literally with exactly the escapes of ISO 32000-1 Table 3, parentheses being escaped only if they do not balance; a string with a non-ASCII byte is written in upper-case hexadecimal. A printable ASCII text is the string of its characters, any other text is FEFF and its UTF-16BE code units in hexadecimal. No spelling of an integer is shorter than the one written; an integral float of i32 range is written as the integer; a finite float is written with no more digits after the point than any other decimal that reads as the same float (but for a single zero).", "quantifier": "all names, byte strings, texts, integers and finite floats, and all other spellings of the same object", "why_tests_cant": "minimality quantifies over every alternative spelling of every value; reading back cannot see over-escaping or superfluous digits", "anchors": ["src/object.rs: Name::write, Str::write, Str::is_balanced, TextStr::write", "src/buf.rs: push_int, push_float, push_decimal, push_hex, push_octal, push_hex_u16"]}
{"id": "C70", "title": "Annotations of every page are found again with their data and what their appearances paint", "statement": "Write pages that list annotations - through Annotation, or as form fields turned into widgets with into_annotation - and appearance streams for them (one for all states, or one per state, for the normal, rollover and down appearance), whose contents may paint further forms. A reader that is given only the bytes of the finished file, whichever way it was finished, obtains for every page, in order, every annotation with its type, rectangle, flags, contents, author, subject, name, modification date, page, struct parent, icon, highlight effect, color, quad points, line, border and appearance state exactly as given (missing where not set), and for every appearance stream of every state the elements it paints with the whole graphics state of each: those that the calls on its Content ask for, in the form's own matrix, bounding box and resources.", "quantifier": "for all documents, page trees, annotations, appearance streams, nesting depths of forms, and ways to finish the file", "why_tests_cant": "Annotation dictionaries have dozens of optional entries, nested appearance dictionaries and streams that paint other streams; a test sees one combination, while a wrong key, a swapped coordinate or a lost state only shows for some.", "anchors": ["src/annotations.rs: Annotation, Appearance, AppearanceEntry", "src/structure.rs: Page::annotations", "src/forms.rs: Field::into_annotation", "src/xobject.rs: FormXObject", "src/content.rs: Content"]}
{"id": "C71", "title": "Every page is found again with the boundaries, rotation, unit and presentation in effect", "statement": "Write a page tree of any shape whose nodes and pages set media boxes, crop boxes, rotations, and whose pages set bleed, trim and art boxes, user units, modification dates, struct parents, tab orders, thumbnails, metadata, display durations, transitions and transparency groups - or leave them out. A reader that is given only the bytes of the finished file, whichever way it was finished, obtains for every page, in order, the boundaries and rotation in effect - the page's own, else those of the nearest node above it that sets one, else the default of the standard (crop box: media box; bleed, trim, art box: crop box; rotation: 0) - and all other entries exactly as given.", "quantifier": "for all documents, page trees of any shape and depth, combinations of set and missing entries, and ways to finish the file", "why_tests_cant": "Inheritance and defaults make the geometry of a page depend on every node above it; tests see a few trees, while a wrong key or a swapped coordinate in one of the boxes shows only for pages that use it.", "anchors": ["src/structure.rs: Page, Pages", "src/transitions.rs: Transition", "src/xobject.rs: Group", "src/object.rs: Rect, Date"]}
{"id": "C72", "title": "Color spaces, functions, shadings and patterns are found again with everything they refer to", "statement": "Name color spaces of any family, shadings and patterns in the resources of the pages, given on a page or inherited, in place or as objects of their own: calibrated and Lab spaces with their parameters, ICC profiles with an alternate space, indexed and pattern spaces, Separation and DeviceN spaces whose alternate spaces and tint transforms are in place or referenced, functions of all four types, stitching functions composed of others to any depth, function-based, axial and radial shadings and meshes, shading patterns, tiling patterns with their own content and resources; streams compressed or not. A reader that is given only the bytes of the finished file, whichever way it was finished, obtains for every page, in order, the same names with the same spaces, shadings and patterns: every number, component count, table, profile, sample and mesh byte, calculator instruction and nested function, and for the tile of a tiling pattern the very elements it paints with the graphics state of each.", "quantifier": "for all documents, page trees, resource dictionaries, nestings of spaces and functions of any depth, settings of content streams, and ways to finish the file", "why_tests_cant": "The color of a pixel depends on a chain of objects of unbounded length (space, alternate space, tint transform, composed functions, programs, tables); tests see a few chains, and a wrong key or reference anywhere in one shifts colors silently.", "anchors": ["src/color.rs: ColorSpace, Separation, DeviceN, IccProfile, TilingPattern, ShadingPattern, FunctionShading, StreamShading", "src/functions.rs: SampledFunction, ExponentialFunction, StitchingFunction, PostScriptFunction", "src/content.rs: Resources, ExtGraphicsState"]}
{"id": "C73", "title": "How a document asks to be shown and printed, end to end", "statement": "From the bytes of a finished file a reader that knows only the standard obtains the page layout and page mode, each viewer preference, the mark information, the developer extensions (prefix, base version, level) and the output intents (subtype, condition, identifier, registry, info, and the number of components and decoded data of the profile), in order, exactly as given to the API; what was not given has the default value of the standard.", "quantifier": "every history of calls that runs, every way of finishing the file, every combination and order of catalog calls in which each of these entries is given at most once, every text, every list of extensions and output intents, every filter that undoes the profile data", "why_tests_cant": "the combinations of optional entries, orders of calls, texts, list lengths and surrounding objects are unbounded, and a value under a neighbouring key or a dropped default only shows for particular combinations", "anchors": ["src/structure.rs: Catalog::{page_layout,page_mode,viewer_preferences,mark_info,extensions,output_intents}, ViewerPreferences, MarkInfo, DeveloperExtension", "src/color.rs: OutputIntent, OutputIntentSubtype, IccProfile"]}
{"id": "C74", "title": "Actions are found again with the events that trigger them", "statement": "From the bytes of a finished file a reader that knows only the standard finds, for every event of the document (before closing, saving, printing, after saving, printing), of every page (opened, closed), of every annotation (activated, pointer entered, left, button pressed, released, focus gained, lost, page of the annotation opened, made visible, hidden) and of every field that is a widget (keystroke, format, validate, calculate), exactly the action that was given for that event, and the named scripts in order; each action with all its data: destinations resolved to page indices and views, URIs, scripts from strings or decoded streams, files, fields by object or name, flags, media renditions with clips and permissions.", "quantifier": "every history of calls that runs, every way of finishing the file, every page tree, every choice of which events have actions and in which order they were set, every list of annotations, every depth of the name tree, every text and file name", "why_tests_cant": "a key or a page mixed up shows only for the particular event and object; the combinations of events, objects, types of actions and their optional data are unbounded", "anchors": ["src/actions.rs: Action, Fields, AdditionalActions", "src/renditions.rs: Rendition, MediaClip, MediaPlayParams, MediaPermissions", "src/structure.rs: Catalog::additional_actions, Names::javascript, Page::additional_actions", "src/annotations.rs: Annotation::{action,additional_actions}", "src/forms.rs: Field::{additional_actions,into_annotation}", "src/files.rs: FileSpec"]}
{"id": "C75", "title": "Structure elements are found again with what they mean", "statement": "From the bytes of a finished file a reader that knows only the standard finds for every element of the structure tree, at every depth: what its type means, that is, all types to which the role map and the role maps of namespaces map it one after the other, each with the name of its namespace; the natural language in effect, which is its own or else that of the nearest element above it that has one, or else that of the document; for every owner and key the value of the attribute that was set last among the objects of its classes and then its own, and no attributes that were not set; its user properties with name, value, format and whether they are hidden; the elements to which it refers; its pronunciation and the alphabet of that; and the identifiers of elements with the elements to which they belong.", "quantifier": "every history of calls that runs, every way of finishing the file, every structure tree of any depth, every role map and every number and linking of namespaces, every chain of mappings, every class map, every list of attribute objects of any owner, every depth of the name tree, every name, text and value", "why_tests_cant": "chains of role maps, inheritance of languages and precedence of attributes are unbounded; a swapped role and name, a wrong owner or a wrong level of an array shows only for the particular combination", "anchors": ["src/structure.rs: StructTreeRoot::{role_map,class_map,id_tree}, StructElement, RoleMap, ClassMap, Namespace, NamespaceRoleMap", "src/attributes.rs: Attributes, UserProperty, LayoutAttributes, ListAttributes, FieldAttributes, TableAttributes, ArtifactAttributes, FENoteAttributes", "src/structure.rs: Catalog::lang"]}
{"id": "C76", "title": "Graphics state parameters and transparency are found again, end to end", "statement": "For every page of a finished file, a reader that is given only the bytes finds, for every graphics state parameter dictionary that the resources in effect on the page name (given on the page or inherited, in place or as an object of its own), exactly the parameters that were set, under the same names and in the same order: line width, cap, join, miter limit and dash pattern, rendering intent, overprint control, black generation, undercolor removal and transfer functions (the newer entries taking precedence, functions found again with all the functions they are composed of), halftone, flatness, smoothness, stroke adjustment, blend mode, soft mask, alpha constants, alpha source and text knockout. Of a soft mask it finds the subtype, the group it is derived from with its attributes (color space, isolated, knockout) and everything the group paints, the backdrop color and the transfer function. A parameter that was not set is not found.", "quantifier": "all documents with any page tree, resources given in place, by reference or inherited, any call sequence on ExtGraphicsState, SoftMask, Group and FormXObject that sets each entry at most once, functions, color spaces and forms nested to any depth, both ways to finish the file, all settings", "why_tests_cant": "A test compares one dictionary with a fixed string; that each of some thirty parameters reaches the reader under the key it looks for, for every combination, value, way of referring to the objects involved and depth of what a mask is derived from, is a statement about all documents.", "anchors": ["src/content.rs: ExtGraphicsState, SoftMask, Resources::ext_g_states, BlendMode, MaskType, OverprintMode", "src/xobject.rs: FormXObject::group, Group", "src/functions.rs: ExponentialFunction, StitchingFunction, SampledFunction, PostScriptFunction", "src/lib.rs: Pdf::finish"]}
{"id": "C77", "title": "Settings of the interactive form and details of its fields are found again, end to end", "statement": "A reader that is given only the bytes of a finished file finds the settings that were given to the interactive form (signature flags, calculation order, default resources, default appearance, quadding), whether the form was written in the catalog or as an object of its own, and for every terminal field, in the order of the field tree: its alternate and mapping name, the default appearance, quadding, greatest length and options that the field gives or inherits from the nearest field above it that gives them or from the form (options as pairs of exported and displayed text, in the order of the calls, for each of the four ways to add options and for button options), its default style, rich text value, top index and selected indices, and for signature fields the lock (action, fields, permissions) and the seed value with every constraint it sets, including the certificate constraints with key usage bits, distinguished names and flags, and the timestamp server. What was not set is not found.", "quantifier": "all documents, all trees of fields of any depth and width (with widgets below, merged with a widget, or without), all call sequences on Form, Field, ChoiceOptions, SignatureFieldLock, SignatureSeedValue, CertificateSeedValue, SignatureTimeStamp, SignatureModificationDetectionPrevention that set each entry at most once, both ways to finish the file, all settings", "why_tests_cant": "Which appearance, alignment or options a field has depends on the whole chain of fields above it, each an object that must be found through the cross-reference table; that the nearest given value is the one that reaches the reader for every tree cannot be enumerated.", "anchors": ["src/forms.rs: Form, Field, ChoiceOptions, SignatureFieldLock, SignatureSeedValue, CertificateSeedValue, SignatureTimeStamp, SignatureModificationDetectionPrevention, CertificateKeyUsage", "src/structure.rs: Catalog::form", "src/lib.rs: Pdf::finish"]}
{"id": "C78", "title": "Borders, captions and icons of annotations are found again", "statement": "For every annotation of every page of a finished file, written as an annotation or as a form field that was made a widget, a reader that is given only the bytes finds exactly the border style (width, style, dash pattern) and the appearance characteristics (rotation, border and background color, the three captions, the three icons, how icons are placed, the position of the caption) that were set, each icon with everything it paints, and none that was not set.", "quantifier": "all documents with any page tree and any annotations, all call sequences on BorderStyle, AppearanceCharacteristics and IconFit that set each entry at most once, icons that nest forms to any depth, both ways to finish the file, all settings", "why_tests_cant": "The reader must find the page, its annotations, the dictionaries and for each icon a form with its resources and content through the cross-reference section; a statement about what it obtains for every document is not settled by comparing a few dictionaries with strings.", "anchors": ["src/annotations.rs: Annotation::border_style, Annotation::appearance_characteristics, BorderStyle, AppearanceCharacteristics, IconFit, BorderType, IconScale, IconScaleType, TextPosition", "src/forms.rs: Field::into_annotation", "src/lib.rs: Pdf::finish"]}
{"id": "C79", "title": "Associated files are found again with their data", "statement": "From the bytes of a finished file alone, a reader obtains, in order, the files that were associated with the document, with its structure tree, with each page and each annotation, the file each file attachment annotation attaches, and, given its number, those of any structure element, image or form: for each one file system, names, description, relationship and volatility, and the embedded file with its type, size, dates, checksum and data, exactly as given; and for a form that stands for a page of another file, that file, page and identifier.", "quantifier": "all documents with any page tree, any number of associated files at each place, all call sequences on FileSpec, EmbeddedFile, EmbeddingParams and Reference that set each entry at most once, data that are stored as they are or with a filter that decodes to them, both ways to finish the file, all settings", "why_tests_cant": "What a reader obtains passes through the file specification, the reference to the stream, the cross-reference section and the filter of the stream; it must be right for all documents, data and combinations of entries.", "anchors": ["src/files.rs: FileSpec, EmbeddedFile, EmbeddingParams, AssociationKind", "src/structure.rs: Catalog::associated_files, StructTreeRoot::associated_files, StructElement::associated_files, Page::associated_files", "src/annotations.rs: Annotation::associated_files, Annotation::file_spec", "src/xobject.rs: ImageXObject::associated_files, FormXObject::associated_files, FormXObject::reference, Reference"]}
{"id": "C80", "title": "Streams decode with the filter and parameters that were set", "statement": "If the data given to a stream are what a filter with some parameters encodes, and the filter and these parameters were declared on any of the writers for streams, then a reader of the finished file, whatever its decoders do, gives the decoder that filter, exactly these parameters, those that were not declared with the default values of ISO 32000, for JBIG2 the data of the global segments, and exactly the bytes that were stored, and so obtains the data; a stream without a filter is read as it is.", "quantifier": "all documents, all eleven writers for streams, all filters, all sequences of DecodeParms calls that set each parameter at most once, all data, all decoders, both ways to finish the file, all settings", "why_tests_cant": "The decoder is arbitrary, so every parameter matters, and the bytes between stream and endstream must be right for all data, including data that contain keywords; tests compare a few dictionaries.", "anchors": ["src/object.rs: Stream::filter, Stream::decode_parms, Filter, DecodeParms, Predictor", "src/chunk.rs: Chunk::stream", "src/xobject.rs: ImageXObject, FormXObject", "src/color.rs: IccProfile, TilingPattern, StreamShading", "src/functions.rs: SampledFunction, PostScriptFunction", "src/files.rs: EmbeddedFile", "src/font.rs: Cmap", "src/structure.rs: Metadata"]}
{"id": "C81", "title": "Font descriptors give each class of glyphs its metrics", "statement": "A reader of the finished file that is given the number of a font descriptor and a class of glyphs obtains exactly the metrics that were set for it: name, family, stretch, weight, flags, bounding box, angle, ascent, descent, leading, heights, stems, widths, character set and PANOSE classification, each as overridden for that class, inline or by a reference, or, where the class does not override it, as set for the whole font, and nothing that was not set; the data of the CID set are those that were written.", "quantifier": "all documents, all sequences of font descriptor calls that set each metric at most once, all sets of distinct overridden classes, all classes asked for, both ways to finish the file, all settings", "why_tests_cant": "Nineteen optional metrics combine with any number of overriding descriptors in two forms; tests write one descriptor with a few entries.", "anchors": ["src/font.rs: FontDescriptor, FontDescriptorOverride, CjkClass, FontFlags, FontStretch", "src/chunk.rs: Chunk::font_descriptor"]}
{"id": "C82", "title": "Named objects of every category are found again", "statement": "For each of the ten categories of the name dictionary (destinations, appearances, scripts, pages, templates, content ids, content URLs, embedded files, alternate presentations, renditions): a reader of the finished file lists the names that were inserted into its tree, in order, with the objects or values they were given to; each name, looked up with the limits of the nodes, leads to its object, every other name to nothing; a category that was not set has no names.", "quantifier": "all documents, all ten categories, all name trees of any depth whose root is part of the catalog, all named objects (including streams) and values, all names looked up, both ways to finish the file, all settings", "why_tests_cant": "Trees have any number of nodes and levels, and every name that was not inserted must be rejected; tests insert a few names in one node.", "anchors": ["src/structure.rs: Names, Catalog::names", "src/object.rs: NameTree, NameTreeEntries"]}
{"id": "C83", "title": "Details of images and form XObjects, and metadata of objects, are found again", "statement": "A reader of the finished file that is given the number of an image obtains exactly the rendering intent, interpolation, use of opacity in the data, alternate images with the one to print, key in the parent tree and matte color that were set, with the default values of ISO 32000 for what was not set; of a form XObject, the time of modification and the keys in the parent tree; of the catalog, a page, an image, a form XObject or an ICC profile, exactly the metadata that were given to it, or none.", "quantifier": "all documents, all sequences of calls on images, forms, pages, catalogs and profiles that set each detail at most once, all numbers of alternates, all metadata, both ways to finish the file, all settings", "why_tests_cant": "Every combination of optional entries must be told apart from every other by a reader that only has bytes; tests compare a few dictionaries.", "anchors": ["src/xobject.rs: ImageXObject, SMaskInData, FormXObject", "src/color.rs: IccProfile::metadata", "src/structure.rs: Page::metadata, Catalog::metadata, Metadata"]}
{"id": "C84", "title": "Namespaces, schemas and lexicons of a tagged document are found again", "statement": "A reader of the finished file that follows the structure tree root finds exactly the namespaces listed in it, in order, each with the name, the schema (with everything its file specification says and the data of the embedded file) and, type by type, the type and namespace to which it was mapped; the pronunciation lexicons; and the next key of the parent tree; and nothing where nothing was set.", "quantifier": "all documents, all numbers of namespaces, all sequences of calls on the structure tree root and on namespaces that set each item at most once, all role maps with distinct types, also with namespaces that refer to each other in cycles, both ways to finish the file, all settings", "why_tests_cant": "References among namespaces form arbitrary graphs, and lists and role maps have any length; tests show a few dictionaries.", "anchors": ["src/structure.rs: StructTreeRoot::namespaces, StructTreeRoot::pronunciation_lexicon, StructTreeRoot::parent_tree_next_key, Namespace, NamespaceRoleMap", "src/files.rs: FileSpec"]}
{"id": "C85", "title": "Embedded CMaps of composite fonts, and names and boxes of simple fonts, are found again", "statement": "A reader of the finished file that is given the number of a composite font and follows its encoding finds exactly the predefined CMap that was named, or the embedded CMap that was given, with its name, character collection, writing mode (horizontal if none was set) and decoded data, and in turn the CMap on which it is based, embedded or predefined, to the end of the chain. Of a Type 1 or Type 3 font it finds the name, and of a Type 3 font the bounding box, that were set, and none if none was set.", "quantifier": "all documents, all chains of CMaps of any length, all sequences of calls on fonts and CMap streams that set each entry at most once, all data, filtered or not, both ways to finish the file, all settings", "why_tests_cant": "Chains have any length, and each link is one of two kinds of values under one key; tests show single streams.", "anchors": ["src/font.rs: Cmap, Type0Font::encoding_cmap, Type0Font::encoding_predefined, Type1Font::name, Type3Font::name, Type3Font::bbox, SystemInfo, WMode"]}
{"id": "C86", "title": "Resource dictionaries name exactly what was registered", "statement": "A reader of the finished file that is given the number of a page, a node of the page tree, a form XObject, a tiling pattern or a Type 3 font finds under each category of its resources (XObjects, fonts, color spaces, patterns, shadings, graphics states, property lists) exactly the names that were registered, in order, each with the value registered under it, and the procedure sets; and no resources if none were set.", "quantifier": "all documents, all sequences of calls on resources that set each category at most once, in place or as objects of their own, all names and values, both ways to finish the file, all settings", "why_tests_cant": "Any number of arbitrary names and values must be attributed to the right category by a reader that only has bytes.", "anchors": ["src/content.rs: Resources, ProcSet, PropertyList", "src/structure.rs: Page::resources, Pages::resources", "src/xobject.rs: FormXObject::resources", "src/color.rs: TilingPattern::resources", "src/font.rs: Type3Font::resources"]}
{"id": "C87", "title": "A page is found by its number", "statement": "If every node of the page tree was given the number of pages below it (Pages::count) and every node and page its parent, then a reader of the finished file that uses the counts to enter only one kid of every node finds, for every number k, exactly the page that a reader of the whole tree finds at position k, with the dictionary that was asked for, and no page for any other number; the count of the root is the number of pages; and the parents lead from every page through the nodes above it to the root.", "quantifier": "all documents, page trees of any shape and depth, all page numbers, all ways to finish the file, all settings", "why_tests_cant": "Random access must agree with sequential reading for every tree and every number.", "anchors": ["src/structure.rs: Pages::count, Pages::kids, Pages::parent, Page::parent, Catalog::pages", "src/lib.rs: Pdf::finish, finish_with_xref_stream, finish_with_xref_stream_and_filter"]}
{"id": "C88", "title": "A document part looks the same wherever it is embedded", "statement": "If a chunk with pages, form XObjects or images is renumbered into a document with the closure of the documentation, together with any other chunks with whatever ids, then in the finished file the node, page, form or image that had number n in the chunk is found under its new number and looks the same as in a file made of the chunk alone: below a node of the page tree the same pages in order with the same operations and the same dictionaries up to the new numbers; on every page, through forms nested to any depth, the same text in the same marked-content sequences; painting a form shows the same text wherever it is painted; and the same images are painted on every page, in order, under the same transformations, with the same samples, masks and soft masks; and everything painted on every page (paths, text, shadings, images, in order, through forms) is the same with the same graphics state in effect, references to resources renumbered.", "quantifier": "all documents, all lists of chunks with any (colliding) ids, all nodes, pages and forms in them, all depths, all ways to finish, all decoders that do not look at object numbers", "why_tests_cant": "Content reached through chains of references of any length must survive any renumbering.", "anchors": ["src/chunk.rs: Chunk::renumber, Chunk::renumber_into", "src/renumber.rs: renumber, patch_object", "src/lib.rs: Pdf::finish, finish_with_xref_stream, finish_with_xref_stream_and_filter"]}
{"id": "C89", "title": "A conformance checker finds nothing in the file beyond the reported limits", "statement": "A checker that goes through all objects of the finished file (except the cross-reference stream) and looks at every value at every depth comes across nothing that exceeds what Chunk::limits reported before finishing: no longer name or key, no larger array or dictionary, no larger integer, object number or real, no string longer than twice the reported length plus two (22 bytes for dates; i32::MIN is not counted). If nothing was renumbered or merged by hand, the reported limits are attained in the file; that of strings if strings are given as bytes. The same for the operands of a content stream and the limits of the buffer that Content::finish returns.", "quantifier": "all histories of a document (extended, renumbered and merged chunks), all ways to finish, all content streams, all values at all depths", "why_tests_cant": "Maxima over everything in files of any size, against a reader that looks at the bytes.", "anchors": ["src/buf.rs: Limits", "src/chunk.rs: Chunk::limits, Chunk::extend, Chunk::renumber_into", "src/object.rs: Array, Dict, Drop", "src/content.rs: Content::finish", "src/lib.rs: Pdf::finish"]}
{"id": "C90", "title": "Objects can be recovered from a file cut anywhere, and without its cross-reference section", "statement": "A reader that reads one indirect object after another from the start of the file, without startxref and cross-reference section, finds in any beginning of a finished file (or of the bytes of an unfinished document) exactly the first k objects that were written, in order and with exactly their contents, and nothing else except, after all of them, the cross-reference stream. It finds all objects that had been written when Chunk::len was not larger than the length of this beginning; in the whole file it finds all objects, each the one that the cross-reference section leads to. This needs that no binary marker (also of documents copied into this one) contains a line feed or carriage return.", "quantifier": "all histories of a document (with chunks and whole documents copied in by extend, renumbered chunks), all ways to finish, all positions at which the file is cut", "why_tests_cant": "Every crash point of every file: a cut may fall within a number, name, string, keyword or stream data that looks like an object.", "anchors": ["src/chunk.rs: Chunk::len, Chunk::as_bytes, Chunk::extend", "src/object.rs: Obj::indirect, Stream, Drop", "src/lib.rs: Pdf, Pdf::set_binary_marker, Pdf::finish, Pdf::finish_with_xref_stream"]}
{"id": "C91", "title": "Characters of Type 3 fonts look as drawn", "statement": "Name Type 3 fonts in the resources of pages (given on the page or inherited, in place or as objects of their own), with an encoding given by differences, glyph descriptions written with Content, and resources of their own or those of the page. A reader that is given only the bytes of the finished file obtains for every page, in order, every such font under its name, and for every code that the encoding names the glyph name and the glyph: how it begins (a colored glyph or a shape, with its displacement and box exactly as given) and exactly the elements that its calls ask for, each with the whole graphics state in effect, where names refer to what the resources of the font say and forms may be nested to any depth; and nothing for a name without a glyph description. Wherever text is shown on a page in a Type 3 font with resources of its own, each code shown paints the character asked for.", "quantifier": "all documents, page trees, fonts, encodings, glyph descriptions, forms to any depth, all ways to finish, all decoders that undo the filters used", "why_tests_cant": "A character is found through five levels of references and drawn by a state machine over any sequence of calls.", "anchors": ["src/font.rs: Type3Font, Differences", "src/content.rs: Content::start_color_glyph, Content::start_shape_glyph", "src/lib.rs: Pdf::finish, finish_with_xref_stream, finish_with_xref_stream_and_filter"]}
{"id": "C92", "title": "What is painted in marked-content sequences is found again", "statement": "On the Content of pages and of forms on them (stored as it is or filtered, with resources given on the page or form, or inherited), begin and end marked-content sequences, nested in any way, with a tag alone, with a property list given in place or named in the resources, with or without an identifier, anywhere between calls that paint paths, text, shadings, images and forms. A reader that is given only the bytes of the finished file obtains for every page, in order, exactly the elements that the calls ask for, each with the whole graphics state in effect and with exactly the sequences around it: their tags and identifiers, the innermost first, and the form to which they belong; what a form paints is also in the sequences in which the form is painted; so for every identifier it obtains exactly what was painted in the sequence with this identifier (in the innermost sequence that has one); and the sequences do not change what is painted. With a parent tree of structure elements in the document, a reader obtains for everything that is painted exactly the structure element to which it belongs by a sequence of the page.", "quantifier": "all documents, page trees, sequences of calls, nesting of sequences, forms to any depth, all ways to finish, all decoders that undo the filters used", "why_tests_cant": "Sequences may be nested and interleaved with saved states, paths and forms in unboundedly many ways; what matters is the state of a machine after any number of calls.", "anchors": ["src/content.rs: Content::begin_marked_content, Content::begin_marked_content_with_properties, Content::end_marked_content, PropertyList", "src/content.rs: Resources::properties", "src/structure.rs: StructTreeRoot::parent_tree, Page::struct_parents", "src/lib.rs: Pdf::finish, finish_with_xref_stream, finish_with_xref_stream_and_filter"]}
