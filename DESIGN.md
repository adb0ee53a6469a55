# Formal model of typst/pdf-writer in Lean 4 — design

## Layers

| layer | modules | content |
|---|---|---|
| base | `Verif/Base.lean` | bytes = `List UInt8`, byte literals `b!"…"`, exhaustive byte lemmas |
| model | `Verif/Model/*.lean` | function-by-function model of `/repo/src`; every definition cites file and lines |
| spec | `Verif/Spec/*.lean` | written from ISO 32000 only: lexer, object reader, text-string decoder, file reader, …; never imports `Model` helpers for computing |
| proofs | `Verif/Proof/*.lean` | lemmas |
| properties | `Verif/Props/*.lean` | the property theorems and their non-vacuity examples |

Mutating Rust functions become functions returning the new state. A panic is an explicit
`none`/`Except`-style result. `Vec<u8>` is `List UInt8`, `usize` is `Nat` (no 64-bit overflow of
buffer lengths is modelled), `i32` is `Int` with an explicit range predicate where it matters,
`f32` is a bit pattern (sign, 31-bit magnitude), `&str` is a list of Unicode scalar values (`Char`).

A *writer history* (what the borrow checker admits: the innermost writer is always finished first)
is a tree of calls (`Prog`); C12 relates arbitrary call sequences on a stack machine to such trees.

## Plan per property

| id | modelled | proof |
|---|---|---|
| C01 | `Str::write`, `is_balanced`, `push_hex`, `push_octal` | induction on the bytes against an ISO literal/hex string reader |
| C02 | every `Primitive::write` | induction; per-byte facts exhaustively over 256 bytes |
| C03 | `Name::write`, `is_regular_character` | induction against a `#xx` reader |
| C04 | `TextStr::write` | surrogate arithmetic + induction over characters |
| C05 | `LanguageIdentifier`, `TextStrWithLang` | induction over segments |
| C06 | `push_int`, `Ref` | induction on decimal digits |
| C07 | `push_float`, `push_decimal`, IEEE single values, ryu / `Display` layout | digits contract of the external crates modelled as "coarsest decimal unit that rounds back"; interval arguments over integers |
| C08 | `Date` | case analysis on presence + clamping |
| C09–C11 | `Obj`, `Array`, `Dict` | mutual induction on trees: run = pure spelling; spelling scans to tokens; tokens fold to the value |
| C12 | stack machine of open writers | simulation between call sequences and trees |
| C13 | `Stream` | reader by `/Length` |
| C14–C15 | `Chunk` | invariant over reachable chunk states |
| C16 | `Pdf` header setters | invariant over histories |
| C17–C19 | `write_offsets`, `PlainXRefWriter` | induction over the sorted offsets |
| C20 | `Pdf::finish` | composition of the above against an end-of-file reader |
| C21 | xref stream | big-endian field arithmetic |
| C22 | `TrailerData` | history invariant |
| C23–C26 | `renumber.rs` | scanner invariant: `patch (spell t) = spell (map f t)` by induction |
| C27–C28 | `Limits` | induction over histories; lattice laws |
| C29–C30 | `content.rs` | induction over operations |
| C31 | `UnicodeCmap` | invariant (count, flushed blocks) |
| C32 | `PostScriptOp` | mutual induction |
| C33 | whole file | C02 lifted |
| C34 | `Separation`, `DeviceN` | state machine invariant |
| C35 | role tables | whole-table case analysis |
| C36 | `finish_trailer` | direct |
| C37 | assertion checks | case analysis; closed under nesting |
| C38–C39 | `Widths`, `Differences` | induction over calls against the standard's readers (`Spec/Typed/Maps`) |
| C40 | `NameTree`, `NumberTree` | induction over calls and entries |
| C41 | flag types | bit arithmetic, one lemma for all types |
| C42–C46 | all typed writers (731 methods, 85 writers) | generated model, specification and proofs; each call implies its documented entries, lists of calls by induction, nesting by composition |
| C47 | `Rect` | sign of the cross product |
| C48 | whole documents | composition of C20–C22, C29, C42; induction over page trees |
| C49 | whole documents | exact values of objects (`bodyVal`) do not depend on position or mode |
| C50 | `NameTree`, `NumberTree` in files | induction over trees, one proof for both kinds |
| C51 | `renumber_into` with an allocating, memoising closure; whole files | the closure computes a pure injective function (invariant over the call order of C25), then C19, C20, C23 |
| C52 | `Array`/`Dict` with `i32` counters and `abs`, with and without overflow checks (`Model/Counts`), on the stack machine of C12 | simulation step by step between bounded and unbounded counters; induction over the calls |
| C53 | `write_offsets`, `Ref::next` and finishing with checked or wrapping arithmetic (`Model/Counts`) | equal to the rest of the model below `i32::MAX`; the sorted list ends with the largest id |
| C54 | whole documents with fonts, resources and ToUnicode CMaps | composition of C20–C22, C29, C31, C42, C45, C48; induction over page trees and calls |
| C55 | white space of `Obj`, `Array`, `Dict`, `Stream`, `Operation` | lower bound for every byte string with the same lexemes; compact output attains it (mutual induction); layout functions for pretty output |
| C56 | outlines, destinations, link annotations and actions in whole documents | composition of C20–C22, C42, C45; induction on the number of outline items, over the page tree and over annotations |
| C57 | name trees, number trees, file specifications and embedded files in whole documents | composition of C20–C22, C42, C45; mutual induction over trees, induction over files |
| C58 | page labels in whole documents | composition with the listing of number trees (C57) and of pages (C56) |
| C59 | document information, version, identifier, language, XMP in whole documents | composition of the trailer theorems (C20, C22), the header theorem (C16) and the typed entries (C42) |
| C60 | Spec/Interpret.lean: reader with scenes (resources) and forms; relation Draws over the calls | induction over Draws, reusing the font, graphics state and resource lemmas of C54; page tree walker generic in the page reader |
| C61 | Spec/Tagged.lean: reader of elements, kids and the parent tree over the pages read as in C60; given side StructPart | mutual induction over the structure tree; number tree lemma of C58 |
| C62 | TypedObject: one constructor per typed method of Chunk; DocCall.run | each sequence of calls is a PdfHist; finishing_exact gives the exact value; the per-writer lemmas of C38-C44, C34 give its meaning |
| C63 | reader fileFields over the bytes; given side FieldTree with what each field says about itself | induction over the tree of fields; page annotations by induction over the leaves of the page tree |
| C64 | `WState.unwind` and `WState.unwindStream` (Model/Stack) drop everything open, innermost first; `Prog.unused` is an `Obj` dropped unused | the calls made so far followed by the drops are an admitted history (induction on the stack), so C12 yields its unique tree; then the theorems on histories (C20, C21, C23) apply |
| C65 | `CState.call`, `CState.unwind` (Model/ContentStack): the open operation and the stack of writers in its operand | invariant on reachable states (`Shape`) by induction on the calls; C12 and C64 for the operand; C29 for reading |
| C66 | Page trees, resources, content operations, forms and images are the existing models; new is a reader (Spec/Images.lean) that follows cm, q, Q and Do and reads image dictionaries, and an inductive relation between the calls and the images they ask for. | Induction on that relation: every operator read is the one of the call (C29), XObject names resolve through the resources read (C54), image entries by lookup in the dictionary read (typed writers, C31 on); then induction on the page tree. |
| C67 | Font writers, page trees and resources are the existing models; new is a reader (Spec/Fonts.lean) that reads fonts, descriptors and programs, and a description of what was given to the API. | Entry by entry by lookup in the dictionary read (typed writers, C31 on), W and Differences arrays by C38 and C39, glyph procedures by C29, then induction on the page tree (the generic lemma of C66). |
| C68 | Content, forms, page trees and resources are the existing models; new is an imaging machine, polymorphic in the representation of numbers and resources, the table of operators of Annex A, a reader that runs it on a file, and what every call on Content asks for. | Parametricity of the machine by simulation, operator by operator; the table agrees with the calls by C29 and cases on the calls; induction on the nesting depth of forms; then induction on the page tree (the generic lemma of C66). |
| C69 | `Str::write`, `is_balanced`, `Name::write`, `TextStr::write`, `push_int`, `push_float`, `push_decimal` | `Spec/Spelling.lean`: a grammar of balanced strings, Table 3, UTF-16BE; is_balanced decides the grammar; byte-wise comparison with every other spelling; search for the coarsest unit is complete because the rounding interval is convex |
| C70 | Spec/Annots: a reader for the annotations of every page; appearance streams are forms run by the machine of Spec/Display | structured induction over pages, annotations and states; each entry by the call that sets it (annotation or widget), appearances by displays_read of C68 |
| C71 | Spec/Geometry: a reader that walks the page tree with the inherited entries and fills in the defaults of Table 30 | mutual induction over the page tree carrying the relation between inherited entries given and read; each entry by the call that sets it |
| C72 | Spec/Colors: a reader for functions, color spaces, shadings and patterns that follows references to any depth and paints tiles with the machine of C60's display | induction over the nesting depth; each entry by the call that sets it, tiles by the display theorem, programs by the calculator reader |
| C73 | A reader `fileViewing` with the defaults of Tables 28, 150 and 321; what was given as `GivenViewing` | `C73_viewing`: equality with what was wanted, from `optional_eq`/`required_eq` on the meaning of the calls and `finds_of` |
| C74 | A reader `fileEvents` from the tables of 12.6 and 13.2, with events instead of keys; what was given as a function from events to actions | `C74_events`: `action_read` by cases on the type of action, `events_read` by induction on the table, `navigator_read` for destinations, `tree_list` for named scripts |
| C75 | A reader `fileSemantics` from 14.7 and 14.8.5 (ISO 32000-2, 14.7.4) that resolves chains of role maps, languages in effect and precedence of attributes; what was given as an inductive relation `Chain` and a relation `Decides` on the list of attribute objects | `C75_semantics`: `chain_read` by induction on the chain, `sameAttributes_of` by splitting the list at the deciding object, `sem_read`/`sems_read` by mutual induction on the tree; `C75_identifiers`: `tree_list` |
| C76 | Reader of the bytes for the graphics state parameters named by the resources of each page (`Spec/States.lean`), soft masks with their group painted by the machine of C61 and functions and spaces by the reader of C72 | `finds_of`, page tree induction `tree_means`, `category_read`, then entry by entry from the meaning of the typed calls (`Proof/States.lean`) |
| C77 | Reader of the bytes for form settings and inherited and own details of terminal fields (`Spec/Details.lean`) | `finds_of`, structural induction over the field tree for any inherited state and any leaf reader (`each_read`), then entry by entry from the meaning of the typed calls (`Proof/Details.lean`) |
| C78 | Reader of the bytes for border styles and appearance characteristics, icons painted by the machine of C68 (`Spec/Borders.lean`) | As C70: `eachAnnot_read` over pages and annotations, then entry by entry (`Proof/Borders.lean`) |
| C79 | Reader of the bytes for AF and FS entries, file specifications and embedded files with parameters (`Spec/Associated.lean`) | As C57 and C78, entry by entry (`Proof/Associated.lean`) |
| C80 | Reader of the bytes that decodes a stream with effective parameters, for any decoder (`Spec/Coding.lean`) | Filter and DecodeParms entries of all stream writers at once (`codingCalls_entries`), then parameter by parameter (`Proof/Coding.lean`) |
| C81 | Reader of the bytes that applies the overrides of a class to the metrics of the font (`Spec/Metrics.lean`) | Entry by entry for one descriptor (`metrics_read`), then by induction on the overriding calls (`Proof/Metrics.lean`) |
| C82 | Reader of the bytes with one key per category of Table 31 (`Spec/Named.lean`) | Catalog, name dictionary, then the tree theorems of C50 and C57, then the objects referred to (`Proof/Named.lean`) |
| C83 | Reader of the bytes for details of XObjects and for metadata of any object (`Spec/XObjects.lean`) | Entry by entry, for streams with the implicit length (`Proof/XObjects.lean`) |
| C84 | Reader of the bytes for the namespaces of a document (`Spec/Namespaces.lean`), given what C75 and C79 have for names, role maps and files | Entry by entry; a role map entry resolves the name of its target namespace by reading that object (`Proof/Namespaces.lean`) |
| C85 | Reader of the bytes that follows CMaps from a font (`Spec/CharMaps.lean`) | Induction on the chain (`Proof/CharMaps.lean`) |
| C86 | Reader of the bytes for resource dictionaries of any object (`Spec/Resources.lean`) | Category by category, for all writers that have resources (`Proof/Resources.lean`) |
| C87 | Reader that seeks a page by `Count` and climbs by `Parent` (`Spec/Seek.lean`) | Induction over the page tree (`Proof/Seek.lean`) |
| C88 | Readers of C48, C60, C68 and of images, applied to the merged file and to the chunk alone (`Spec/Embedded.lean`, `Spec/EmbeddedImages.lean`, `Spec/EmbeddedDisplay.lean`) | The readers commute with renaming (`Proof/Embedded.lean`, `Proof/EmbeddedImages.lean`, `Proof/EmbeddedDisplay.lean`: the imaging machine is natural in numbers and resources), objects by C51 |
| C89 | A checker over the values that the reader of C20 finds (`Spec/Survey.lean`) | Every value read counts as what was counted for it (`Proof/Survey.lean`), maxima by C27, objects by C20/C21 |
| C90 | A reader that repeats the reader of indirect objects (`Spec/Recover.lean`) | More input never changes a complete token or object (`Proof/Recover.lean`: nextToken_ext, readIndirect_ext); induction over the pieces of the file |
| C91 | Font reader of C67 and imaging machine of C68, combined (`Spec/Glyphs.lean`) | As C67 and C72 (`Proof/Glyphs.lean`) |
| C92 | Imaging machine of C68 with a stack of open sequences, also in forms, and the parent tree of C61 (`Spec/DisplayMarks.lean`) | As C68; a second induction (over forms) shows that the stack does not influence the machine (`Proof/DisplayMarks.lean`) |

Nothing on the list is considered inexpressible.

## Trusted base

* Lean 4.33.0 kernel. Every theorem in `MANIFEST.json` depends on at most the axioms `propext`, `Classical.choice` and
  `Quot.sound` (checked with `#print axioms`-style collection over all `C…` theorems; `vcheck` replays every module). No
  own axioms, no `native_decide`/`bv_decide`; finite facts use `decide +kernel`.
* The reading of the Rust source embodied in `Verif/Model` (the code is not executed here).
* The reading of ISO 32000 embodied in `Verif/Spec`.
* For the typed writers: `tools/rust_parse.py` and `tools/typed.py` turn `/repo/src` into `Model/Typed`, and doc comments plus
  tables typed into the script into `Spec/Typed`. The script is not trusted to be right for the theorems to hold of the
  generated model; it is trusted for the model to be the code. Every generated constructor carries file and lines.
* External crates are modelled by contract: `itoa` = decimal spelling; `ryu` / `core::fmt` float
  formatting = the decimal with the coarsest unit that rounds back, of two such the nearer, of two equally near the even one (as
  ryu does; `core` is used only outside of 1e-6 … 1e12, where ties do not occur), laid out as documented; `memchr::memmem` =
  first/last occurrence; `slice::sort` = stable sorting; `bitflags` = unions of the constants.
* Integer overflow: the model wraps, as builds without overflow checks do; C52 and C53 state exactly where builds with checks panic instead.

## What is modelled

All of `/repo/src`: `buf.rs`, `object.rs`, `chunk.rs`, `lib.rs`, `renumber.rs`, `content.rs`, `font.rs`, `functions.rs`,
`color.rs`, `structure.rs`, `actions.rs`, `annotations.rs`, `attributes.rs`, `files.rs`, `forms.rs`, `renditions.rs`,
`transitions.rs`, `xobject.rs`, except what is listed below.

Simplifications:

* Buffer lengths do not overflow `usize`; `usize` is 64 bit where a width matters (C21, C30).
* A writer obtained from an `Obj` is a tree of calls. The stack machine of C12 justifies this for the untyped API (drop order
  as enforced by the borrow checker); typed writers hold exactly one untyped writer, so the same holds for them.
* The constructors of typed objects on chunks (chunk.rs:255-491) are `indirect(id).start()` or `X::start(self.stream(..))`, so
  they are `writeIndirect`/`writeStream` of the model.
* Consuming methods (`self` by value) may occur anywhere in a list of calls: a superset of what the types allow.
* Fixed-size arrays of numbers are lists of any length; nested color spaces, functions and `Obj` returned to the user are
  arbitrary trees (`Prog`); phantom types of `NameTree`, `NumberTree`, `UnicodeCmap`, `TypedArray` are dropped; the cycle
  `FontDescriptor` → `FontDescriptorOverride` → `FontDescriptor` is cut by an arbitrary tree.
* Flags are unions of the declared constants (unknown bits can only be made with `from_bits_retain`).
* Limits: `op("q")` given as a raw operator name is not counted as nesting, as in the code.

Not modelled: replacing a `Chunk` inside a `Pdf` through `DerefMut` (`*pdf = chunk`, `mem::swap`), `mem::forget` of a writer, panics inside
a call of a generic writer after part of its bytes were written (only the overflow checks of C52 could do that), allocation failure, `Debug` implementations, capacity hints.

## Notes on statements

* An `Obj` may be dropped unused (`Prog.unused`). Reading-back theorems assume that this did not happen within the object read
  (`Ok`); C64 says what is left when it does. C24 and C26 speak of objects of which something was written (`started`).
* C07: up to the sign of zero (−0.0 is written as `0`). Theorems need finite numbers; NaN/inf are written as words.
* C10, C29: in compact mode an empty name directly before a token that does not start with a delimiter is fused with it
  (defect 1); theorems exclude exactly this (`NoClash`) and prove it happens.
* C17, C18, C19: ids below `i32::MAX`: `1 + id` overflows there (defect 11; modelled as wrapping).
* C21: the next-free link of an xref stream is truncated to the field width (defect 6); stated exactly.
* C31: name escapes (`#xx`) of the PDF name spelling also appear in the PostScript program; the CMap reader undoes them.
* C35: `H0` and levels: see the statements; `heading` names for every level ≥ 1.
* C42–C46: a theorem with a reading `rd` holds for `.standard` if no call with a known defect is used, and for `.code` always;
  the meanings differ only in the entries listed under defects 18 to 25.

## Defects and quirks found in the code

1. Compact mode: an empty `Name` directly followed by a token not starting with a delimiter is fused with it (`[/ 5]` → `[/5]`, `<</ 5>>` → `<</5>>`), because `/` counts as a delimiter for the padding rule (`object.rs:680-700`).
2. `push_float(2147483648.0)` writes `2147483647` (saturating cast). It still rounds back to the same f32.
3. Non-finite floats are written as `NaN`/`inf`, which is not PDF.
4. `register_int(i32::MIN)`: `abs` overflows (panic in debug, no registration in release).
5. `Limits::str_len` ignores `Date` and under-reports UTF-16 text strings (registers the UTF-8 length).
6. The xref stream's field width is computed from the largest offset only; the next-free id of a free entry is silently truncated when it needs more bytes.
7. `push_decimal` ("forces the decimal point") writes no point for |v| ≥ 1e12, so a PostScript real 1e12 is read back as an integer.
8. `StructRole::RP.into_pdf_2_0()` yields `WP`.
9. `AdditionalActions::annot_page_close` writes `/PV` (same key as `annot_page_visible`).
10. `SignatureSeedValue::appearance_filter` writes `/LockDocument`; `CertificateSeedValue::signature_policy_commitment_type` writes the hash-algorithm key.
11. `Ref` with id `i32::MAX` overflows `1 + id` in `write_offsets`; plain xref entries exceed 20 bytes for offsets ≥ 10^10.
12. `UnicodeCmap` copies the CMap name and registry/ordering into PostScript comments unescaped.
13. Dropping an `Obj` unconsumed leaves the object without `endobj`; `renumber` then skips it (after calling the closure).
14. A file finished with an unfiltered cross-reference stream is never ASCII, although `set_binary_marker` documents a way to make files ASCII.
15. `Separation` accepts several tint transforms and `DeviceN` several attribute dictionaries: the array then has too many elements.
16. `DeviceNAttrs::colorants` is typed as a dictionary of dictionaries, the standard asks for Separation arrays.
17. `StructRole2`/`StructRole`: see 8; the round trip through PDF 2.0 is not the identity for `RP`.
18. `NameTree::limits` writes names where the standard asks for strings (object.rs:1469).
19. `border_color_cymk`/`background_color_cymk` write the components in the order C Y M K (annotations.rs).
20. `Transition::opaque` writes a number under `/F` instead of a boolean under `/B` (transitions.rs:59).
21. `SignatureSeedValue::appearance_filter` writes `/LockDocument` (forms.rs:728).
22. `CertificateSeedValue::signature_policy_commitment_type` writes `/SignaturePolicyHashAlgorithm` (forms.rs:997).
23. `AdditionalActions::annot_page_close` writes `/PV` (actions.rs:341).
24. The namespace presets write `https://www.iso.org/pdf2/ssn`, `https://www.iso.org/pdf/ssn`, `https://www.w3.org/1998/Math/MathML`; the standard's names are `http://iso.org/pdf2/ssn`, `http://iso.org/pdf/ssn`, `http://www.w3.org/1998/Math/MathML`.
25. `ExtGraphicsState::font` writes a name where an indirect reference is required (content.rs:1449).
26. Without overflow checks, an `Array` with more than 2^32 items loses a separator each time its `i32` counter passes zero (C52).
27. A compact content stream that starts with a number (or another bare operand) starts with a superfluous space: `Operation::obj` asks for padding although nothing precedes (content.rs:130-138, object.rs:694-699; C55).
28. `Catalog::separation_info` writes `/SeparationInfo` into the catalog; the standard defines it for page objects (ISO 32000-1, Table 30), and `Page` has no such method (structure.rs:138).
