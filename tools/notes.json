{
 "C01": {
  "note": "Every byte string, both spellings, any following bytes."
 },
 "C05": {
  "note": "Texts without U+001B; the code does not escape it (recorded in DESIGN.md)."
 },
 "C06": {
  "note": "Includes Ref::new and bump allocation; bump past i32::MAX panics in the code and is outside the allocation statement."
 },
 "C07": {
  "note": "Up to the sign of zero: -0.0 is written as 0. The digit generator (ryu / std Display) is modelled by its contract, see DESIGN.md."
 },
 "C10": {
  "note": "The excluded case is proved to fail by C10_empty_name_clash."
 },
 "C12": {
  "note": "Writers are dropped innermost first, as the borrow checker enforces; mem::forget is not modelled."
 },
 "C14": {
  "note": "Histories range over indirect, stream, extend, merging limits, renumber_into and every Pdf call."
 },
 "C23": {
  "note": "Byte-for-byte when the objects were spelled in the target's mode; by value otherwise."
 },
 "C17": {
  "note": "Ids below i32::MAX (1 + i32::MAX overflows in the code), files below 10^10 bytes (the standard's limit for tables)."
 },
 "C18": {
  "note": "Tables: always. Streams: if the largest id fits the field width; otherwise the code truncates links (witnessed by an example, stated exactly by C21)."
 },
 "C19": {
  "note": "Ids below i32::MAX. Streams also panic when the encoded table exceeds i32::MAX bytes, which the theorem includes."
 },
 "C20": {
  "note": "Objects must be representable (ItemOk, as in C08/C14). Same for xref streams in C21 (StreamFile)."
 },
 "C21": {
  "note": "With and without filter; the filter is an arbitrary function undone by the reader's decoder. usize is 64 bit."
 },
 "C27": {
  "note": "Limits after any chunk/document history are the exact maxima over the facts listed by Spec.chunkFacts / pdfFacts from the call arguments alone; exceptions proved separately."
 },
 "C28": {
  "note": "Semilattice laws on reachable limits, least upper bound, monotonicity, and order independence for whole histories."
 },
 "C29": {
  "note": "All operator methods and the generic op, pretty and compact; typed methods are pairwise distinguishable; the empty-name exclusion in compact mode is shown necessary."
 },
 "C30": {
  "note": "Depth equals the greatest excess of q over Q among the tails of the stream as read back; raw op(\"q\") is excluded because the code does not count it."
 },
 "C33": {
  "note": "ASCII iff every verbatim part (marker bytes, stream data, raw text) is; a file with an unfiltered cross-reference stream is never ASCII (C33_xref_stream_never_ascii)."
 },
 "C34": {
  "note": "Constructors and presets of ColorSpace, Separation, DeviceN and their attribute dictionaries; nested color spaces and functions are arbitrary written objects."
 },
 "C35": {
  "note": "All role enums with their name tables, class predicates, compatibility and into_pdf_2_0 maps; the RP -> WP defect of the code is proved as a defect and excluded from the positive theorem."
 },
 "C37": {
  "note": "Every assert of the public setters; propagated to all stream writers and the catalog. none = panic."
 },
 "C38": {
  "note": "Calls through the typed methods (raw items via Deref excluded). The reader is Spec.readW."
 },
 "C39": {
  "note": "Calls through the typed methods (raw items via Deref excluded). The reader is Spec.readDifferences."
 },
 "C40": {
  "note": "Single node; how nodes are arranged into a tree is the user's choice of Kids and Limits. NameTree::limits is a defect (C44_defect_name_tree_limits)."
 },
 "C41": {
  "note": "All eight flag types written to files; RICH_TEXT and RADIOS_IN_UNISON share bit 26 in the standard."
 },
 "C42": {
  "note": "Generated from the source by tools/typed.py (keys of the specification from the doc comments, value types from ISO tables in the script). Reading .code covers the calls with defects, reading .standard all others."
 },
 "C43": {
  "note": "As C42."
 },
 "C44": {
  "note": "As C42; defects proved by C44_defect_*."
 },
 "C45": {
  "note": "As C42; defects proved by C45_defect_*."
 },
 "C46": {
  "note": "As C42."
 },
 "C47": {
  "note": "Orientation over the exact values of the coordinates (scaled integers)."
 },
 "C48": {
  "note": "Hypotheses: every object involved can be represented (ItemOk), content calls do not panic, Type/Pages/Kids/Contents are set once each (a second entry with the same key is the caller's error), the decoder undoes the declared filter. Pages that went through renumber_into are covered by C14-C16, not by this theorem."
 },
 "C49": {
  "note": "Objects must be representable (ItemOk). Two bodies are the same if they are the same tree of calls."
 },
 "C50": {
  "note": "The limits given must enclose the keys and not overlap between siblings (the caller's duty). C50_name_tree_limits_defect proves the consequence of defect 18."
 },
 "C51": {
  "note": "For every document and every list of chunks (any histories), merged with the closure documented for Chunk::renumber (one allocator, one map per chunk): new numbers are consecutive and never collide, finish cannot panic, each chunk reads in the merged file as in a file of its own up to renaming, dangling references stay dangling, and the document itself is unchanged."
 },
 "C52": {
  "note": "Justifies the unbounded counters used everywhere else. C52_checked is exact (panic iff); C52_unchecked_defect shows that the bound of C52_unchecked cannot be improved."
 },
 "C53": {
  "note": "Justifies the wrapping arithmetic on ids used everywhere else (C53_unchecked: the model is the code without overflow checks) and settles builds with checks; C53_unchecked_defect is defect 11."
 },
 "C54": {
  "note": "Hypotheses as for C48, and: fonts and graphics states that are used are in the resources exactly once, ToUnicode (and the identity Encoding of Type0 fonts) are set once, shown strings are whole codes, raw operators given to op are not text operators, graphics states do not set a font (ExtGraphicsState::font is defect 25: it writes a name), CMap names free of line ends (C31). The reader does not descend into form XObjects and ignores ActualText; if a code is mapped twice the last mapping counts."
 },
 "C55": {
  "note": "Hypotheses as for C10/C29 (finite numbers, no empty name directly before a bare token). Minimality is over all byte strings with the same lexemes; the lines around indirect objects and stream data are fixed by the layout theorems, not claimed minimal. The leading space of content streams is defect 27."
 },
 "C56": {
  "note": "Hypotheses as for C48, and: the calls that set Title, Parent, Prev, Next, First, Last and Dest describe a tree, each made once; titles are plain text strings; destinations lead to pages of the page tree; links have go-to or URI actions. The reader rejects outlines whose back links are inconsistent."
 },
 "C57": {
  "note": "Hypotheses as for C48, and: each entry of the file specification is set at most once, EF by embedded_file or embedded_file_with_unicode; descriptions are plain text strings. Listing does not need limits, so it is not affected by defect 18."
 },
 "C58": {
  "note": "Hypotheses as for C48 and C57; prefixes are plain text strings. The text of numbers (roman numerals, letters) is defined in the specification after ISO 32000-1, 12.4.2; the crate writes only style names."
 },
 "C59": {
  "note": "Texts are plain text strings (language-tagged ones: C42). Hypotheses as for C48: each entry is set at most once, ids are distinct and below i32::MAX; dates in range."
 },
 "C60": {
  "note": "Draws is a relation with one rule per method that shows text or influences it; Spec/Interpret.lean is the reader. Sample: a page with an image and a form that paints a compressed form without resources, with identifiers in place, by name and missing."
 },
 "C61": {
  "note": "Located excludes content without a page and pages that are not in the document. Attributes, classes, role maps of namespaces and the ID tree are not read. Catalog::struct_tree_root writes the root in place, so its kids cannot refer to it; the back reference is required if the root is an object. Sample: custom type with a role map, an element in a namespace, every kind of kid, text in a form, all streams compressed."
 },
 "C62": {
  "note": "For the writers with calls that depart from the standard (C45) the theorem holds with the code's reading for all calls and with the standard's reading for the conforming ones."
 },
 "C63": {
  "note": "Values given as names, plain texts, choices; rich text, signatures and appearance streams are not read. Fields below a field have partial names (the standard tells fields from widgets by it)."
 },
 "C64": {
  "note": "Interruption between two calls of the generic writers (`push`, `insert`, `primitive`, `array`, `dict`, drop); all typed writers are made of these. Not modelled: a panic inside one of these calls after part of its bytes were written (the overflow checks of C52, allocation failure), mem::forget. `C64_never_started` assumes that another object or a cross-reference table follows."
 },
 "C65": {
  "note": "Typed methods of Content other than `op` count as one call each (C29); their own writers are operations of the same kind."
 },
 "C66": {
  "note": "Reader in Spec/Images.lean, relation Paints between calls and what they ask for; forms nested to any depth; numbers compared by NumIs (the f32 nearest to the decimal read)."
 },
 "C67": {
  "note": "Reader in Spec/Fonts.lean. Widths of simple fonts are those of codes first_char to last_char, with as many numbers as codes; vertical metrics and embedded encoding CMaps are not part of this statement (text extraction with ToUnicode is C54). Numbers compared by NumIs."
 },
 "C68": {
  "note": "Imaging machine and reader in Spec/Display.lean; the same machine gives the calls their meaning, with environments justified by what was written. Fonts, color spaces, patterns, shadings and graphics state dictionaries appear as the values in the resources (what fonts and images contain is C66 and C67). Optional content counts as visible; raw operators given by name must not be operators of the machine. Numbers compared by NumIs, resources by Denotes."
 },
 "C69": {
  "note": "Complements C01-C07, which say that what is written reads back. The digits chosen by ryu and core are modelled by contract (DESIGN.md)."
 },
 "C70": {
  "note": "An independent reader runs the imaging machine of C68 on every appearance stream. Border style, appearance characteristics, actions and file specifications of annotations are covered per dictionary (C20-C36) or by C56 (links), not here. The entry T is read as the author except in widgets, where it is the name of the field."
 },
 "C71": {
  "note": "There are no methods for the crop box and rotation of a node of the page tree; the statement covers nodes that set them through Dict::pair. Transition::opaque writes the wrong key (a defect reported in DESIGN.md); the entry B is not read here. Additional actions and associated files are covered by C56 and per dictionary."
 },
 "C72": {
  "note": "Indexed and uncolored pattern spaces have a named base space, as in the API; the presets are covered as the calibrated spaces they write. Required entries are those ISO 32000 requires; nested spaces and functions are read up to a given depth, for every depth. Numbers are read back as in C03 (NumIs). The graphics state of a shading pattern is read as the code writes it (defects of ExtGraphicsState are reported in DESIGN.md)."
 },
 "C73": {
  "note": "Texts given without language tags (`TextStr`). The entries must be given at most once each. An output intent needs a subtype and an identifier, as in the standard."
 },
 "C74": {
  "note": "Each action entry is given at most once. `annot_page_close` is left out because it writes the key of another event (defect 23). Remote destinations are named ones. Texts given without language tags. Actions of document, pages and annotations in place; named scripts as objects."
 },
 "C75": {
  "note": "`C75_semantics` and `C75_identifiers`. Each entry of an element is given at most once; an attribute object is written by one of the methods for owners, or `owner` and raw entries. Keys of role maps and class maps distinct. Preset namespaces have the names that the code writes (defect 24). Texts given without language tags."
 },
 "C76": {
  "note": "Proved for all documents whose pages and resources were written through the typed writers. ExtGraphicsState::font is left out: it writes a name where a reference is required (defect list in DESIGN.md). Transfer functions given as an array of four cannot be expressed through the API. Halftones are found by their number: the crate has no writer for them."
 },
 "C77": {
  "note": "Proved for all documents whose form and fields were written through the typed writers; texts are given without language tags. SignatureSeedValue::appearance_filter and CertificateSeedValue::signature_policy_commitment_type write under the key of another entry (defect list in DESIGN.md): they are excluded where they would clash and not read where they do not."
 },
 "C78": {
  "note": "Proved for all documents whose annotations were written through the typed writers; captions without language tags. border_color_cymk and background_color_cymk write the components in the order of their parameters, C Y M K (defect list in DESIGN.md), and are left out: colors are transparent, gray or RGB."
 },
 "C79": {
  "note": "Proved for all documents whose objects were written through the typed writers; descriptions and page labels without language tags. The typed API writes file specifications inside the array; ISO 32000-2 allows this for AF, too."
 },
 "C80": {
  "note": "Proved for an arbitrary decoder. The API can declare one filter per stream; raw entries that set Filter or DecodeParms are outside of the hypotheses."
 },
 "C81": {
  "note": "The style of a descriptor is read as the twelve bytes of Table 124. The CID set must be a stream whose data the reader can decode."
 },
 "C82": {
  "note": "Looking up a name uses the limits as this crate writes them, that is, as names (defect 18); listing does not use limits."
 },
 "C83": {
  "note": "The dictionaries of alternate images have no typed writer; they are assumed to be written as Table 91 has it."
 },
 "C84": {
  "note": "For the three preset names the namespace reads as what the code writes (defect 24 in DESIGN.md)."
 },
 "C85": {
  "note": ""
 },
 "C86": {
  "note": ""
 },
 "C87": {
  "note": ""
 },
 "C88": {
  "note": ""
 },
 "C89": {
  "note": ""
 },
 "C90": {
  "note": "C90_marker_needed shows a marker with a line feed that spoils the first object for this reader; the crate documents set_binary_marker without this condition."
 },
 "C91": {
  "note": "The graphics state at the beginning of a glyph is taken to be the initial one in glyph space."
 },
 "C92": {
  "note": "For sequences begun in a form, the structure element is not looked up (the form has its own key in the parent tree)."
 }
}