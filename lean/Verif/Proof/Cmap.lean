import Verif.Proof.Scan
import Verif.Proof.Text
import Verif.Model.Cmap
import Verif.Spec.Cmap

/-! # Lemmas: `UnicodeCmap` -/

set_option linter.unusedSimpArgs false
set_option linter.unusedVariables false
set_option maxRecDepth 8192

namespace PdfW
open Spec

/-! ## Tokens to the end -/

theorem tokens_of_scan {bs rest : Bytes} {ts : List Tok} (h : Scan bs ts rest) (he : skipSpace false rest = []) (fuel : Nat)
    (hf : ts.length < fuel) : tokens fuel bs = some ts := by
  induction h generalizing fuel with
  | nil bs =>
    obtain ⟨f, rfl⟩ : ∃ f, fuel = f + 1 := ⟨fuel - 1, by simp at hf; omega⟩
    simp [tokens, he]
  | @cons bs r rest t ts h hs ih =>
    obtain ⟨f, rfl⟩ : ∃ f, fuel = f + 1 := ⟨fuel - 1, by simp at hf; omega⟩
    have hne : skipSpace false bs ≠ [] := by
      intro e; simp [nextToken, e, tokenAt] at h
    simp only [List.length_cons] at hf
    rw [tokens, if_neg hne, h]
    simp [ih he f (by omega)]

theorem skipSpace_comment (xs rest : Bytes) (h : ∀ b ∈ xs, b ≠ 10 ∧ b ≠ 13) :
    skipSpace true (xs ++ 10 :: rest) = skipSpace false rest := by
  induction xs with
  | nil => simp [skipSpace]
  | cons b xs ih =>
    simp only [List.mem_cons, forall_eq_or_imp] at h
    simp [skipSpace, h.1, ih h.2]

theorem nextToken_comment (xs rest : Bytes) (h : ∀ b ∈ xs, b ≠ 10 ∧ b ≠ 13) :
    nextToken (37 :: (xs ++ 10 :: rest)) = nextToken rest := by
  have h1 : isWhite 37 = false := by decide
  rw [nextToken, skipSpace, h1]
  simp [skipSpace_comment xs rest h, nextToken]

theorem Scan.comment {xs bs rest : Bytes} {ts : List Tok} (h : ∀ b ∈ xs, b ≠ 10 ∧ b ≠ 13) (hne : ts ≠ [])
    (hs : Scan bs ts rest) : Scan (37 :: (xs ++ 10 :: bs)) ts rest := by
  cases hs with
  | nil => simp at hne
  | cons h1 hs => exact .cons (by rw [nextToken_comment _ _ h]; exact h1) hs

theorem cmapRun_append (s : CmapState) (a b : List Tok) :
    cmapRun s (a ++ b) = (cmapRun s a).bind (fun s' => cmapRun s' b) := by
  induction a generalizing s with
  | nil => rfl
  | cons t a ih =>
    simp only [List.cons_append, cmapRun]
    cases cmapStep s t with
    | none => rfl
    | some s' => exact ih s'

/-! ## Glyph ids -/

/-- The two glyph id types write the hexadecimal spelling of their character code. -/
class LawfulGlyphId (G : Type) extends GlyphId G, CharCode G where
  push_eq : ∀ (g : G) (buf : Buf), push g buf = buf.extend ((code g).flatMap hex2)
  code_ne : ∀ g : G, code g ≠ []

instance : LawfulGlyphId UInt8 where
  push_eq g buf := by
    simp only [GlyphId.push, CharCode.code, pushHex_eq]; simp
  code_ne g := by simp [CharCode.code]

theorem u16_code (g : UInt16) :
    [UInt8.ofNat (g.toNat / 256), UInt8.ofNat (g.toNat % 256)] = [(g >>> 8).toUInt8, g.toUInt8] := by
  have := g.toNat_lt
  have h1 : UInt8.ofNat (g.toNat / 256) = (g >>> 8).toUInt8 := by
    apply UInt8.toNat_inj.mp
    simp [Nat.shiftRight_eq_div_pow]
  have h2 : UInt8.ofNat (g.toNat % 256) = g.toUInt8 := by
    apply UInt8.toNat_inj.mp
    simp
  rw [h1, h2]

instance : LawfulGlyphId UInt16 where
  push_eq g buf := by
    simp only [GlyphId.push, CharCode.code, pushHexU16_eq, u16_code]
  code_ne g := by simp [CharCode.code]

/-! ## Entries and sections -/

section
variable {G : Type} [LawfulGlyphId G]

/-- Spelling of one entry. -/
def entryBytes (p : G × List Char) : Bytes :=
  ch!"<" :: ((CharCode.code p.1).flatMap hex2 ++ (b!"> <" ++ ((unitBytes (utf16 p.2)).flatMap hex2 ++ b!">\n")))

/-- The string operands of one entry. -/
def entryPair (p : G × List Char) : Bytes × Bytes := (CharCode.code p.1, unitBytes (utf16 p.2))

theorem foldl_utf16 (cs : List Char) (m : Buf) :
    cs.foldl (fun m ch => (utf16Char ch).foldl Buf.pushHexU16 m) m = m.extend ((unitBytes (utf16 cs)).flatMap hex2) := by
  have : cs.foldl (fun m ch => (utf16Char ch).foldl Buf.pushHexU16 m) m = (utf16 cs).foldl Buf.pushHexU16 m := by
    unfold utf16
    induction cs generalizing m with
    | nil => rfl
    | cons c cs ih => simp only [List.foldl_cons, List.flatMap_cons, List.foldl_append, ih]
  rw [this, foldl_pushHexU16]

/-- Spelling of one section. -/
def blockBytes (ps : List (G × List Char)) : Bytes :=
  intBytes ps.length ++ (b!" beginbfchar\n" ++ (ps.flatMap entryBytes ++ b!"endbfchar\n"))

/-- Is the state reached after writing `done` full sections and the entries `cur`? -/
structure CmapInv (hdr : Bytes) (c : UnicodeCmap) (done : List (List (G × List Char))) (cur : List (G × List Char)) : Prop where
  buf : c.buf.inner = hdr ++ done.flatMap blockBytes
  mappings : c.mappings.inner = cur.flatMap entryBytes
  count : c.count = cur.length
  full : ∀ b ∈ done, b.length = 100
  small : cur.length < 100

theorem flush_inner (c : UnicodeCmap) (cur : List (G × List Char)) (hm : c.mappings.inner = cur.flatMap entryBytes)
    (hc : c.count = cur.length) :
    c.flushRange.buf.inner = c.buf.inner ++ (if cur = [] then [] else blockBytes cur) := by
  unfold UnicodeCmap.flushRange
  cases cur with
  | nil => simp at hc; simp [hc]
  | cons p cur =>
    have : c.count > 0 := by rw [hc]; simp
    simp only [if_pos this, if_neg (List.cons_ne_nil p cur)]
    simp only [Buf.extend_inner, Buf.pushInt, hm, blockBytes, hc, List.append_assoc]

theorem pairMulti_inv (hdr : Bytes) (c : UnicodeCmap) (done : List (List (G × List Char))) (cur : List (G × List Char))
    (h : CmapInv hdr c done cur) (g : G) (cs : List Char) :
    ∃ done' cur', CmapInv hdr (c.pairWithMultiple g cs) done' cur' ∧
      done'.flatten ++ cur' = done.flatten ++ (cur ++ [(g, cs)]) := by
  have hm : ((((GlyphId.push g (c.mappings.push ch!"<")).extend b!"> <").extend
      ((unitBytes (utf16 cs)).flatMap hex2)).extend b!">\n").inner = (cur ++ [(g, cs)]).flatMap entryBytes := by
    rw [LawfulGlyphId.push_eq]
    simp [h.mappings, entryBytes]
  simp only [UnicodeCmap.pairWithMultiple, foldl_utf16]
  split
  · rename_i h100
    have hlen : (cur ++ [(g, cs)]).length = 100 := by
      have := h.small; have := h.count; simp at h100 ⊢; omega
    refine ⟨done ++ [cur ++ [(g, cs)]], [], ⟨?_, rfl, rfl, ?_, by simp⟩, by simp⟩
    · rw [flush_inner _ (cur ++ [(g, cs)]) hm (by simp [h.count])]
      simp [h.buf]
    · intro b hb
      simp only [List.mem_append, List.mem_singleton] at hb
      rcases hb with hb | rfl
      · exact h.full b hb
      · exact hlen
  · rename_i h100
    refine ⟨done, cur ++ [(g, cs)], ⟨h.buf, hm, by simp [h.count], h.full, ?_⟩, rfl⟩
    have := h.small; have := h.count; simp at h100 ⊢; omega

theorem runCmap_inv (hdr : Bytes) (calls : List (CmapCall G)) (c : UnicodeCmap) (done : List (List (G × List Char)))
    (cur : List (G × List Char)) (h : CmapInv hdr c done cur) :
    ∃ done' cur', CmapInv hdr (runCmap c calls) done' cur' ∧
      done'.flatten ++ cur' = done.flatten ++ (cur ++ calls.map CmapCall.entry) := by
  induction calls generalizing c done cur with
  | nil => exact ⟨done, cur, h, by simp⟩
  | cons a calls ih =>
    have step : ∃ done' cur', CmapInv hdr (a.run c) done' cur' ∧ done'.flatten ++ cur' = done.flatten ++ (cur ++ [a.entry]) := by
      cases a with
      | pair g ch => exact pairMulti_inv hdr c done cur h g [ch]
      | pairWithMultiple g cs => exact pairMulti_inv hdr c done cur h g cs
    obtain ⟨d1, c1, i1, e1⟩ := step
    obtain ⟨d2, c2, i2, e2⟩ := ih (a.run c) d1 c1 i1
    refine ⟨d2, c2, i2, ?_⟩
    rw [e2, ← List.append_assoc, e1]
    simp

/-- The sections finally written. -/
theorem finish_sections (hdr : Bytes) (c : UnicodeCmap) (done : List (List (G × List Char))) (cur : List (G × List Char))
    (h : CmapInv hdr c done cur) :
    ∃ blocks : List (List (G × List Char)), blocks.flatten = done.flatten ++ cur ∧ (∀ b ∈ blocks, 1 ≤ b.length ∧ b.length ≤ 100) ∧
      c.finish.inner = hdr ++ (blocks.flatMap blockBytes ++
        b!"endcmap\nCMapName currentdict /CMap defineresource pop\nend\nend\n%%EndResource\n%%EOF") := by
  refine ⟨done ++ (if cur = [] then [] else [cur]), ?_, ?_, ?_⟩
  · split
    · rename_i e; simp [e]
    · simp
  · intro b hb
    simp only [List.mem_append] at hb
    rcases hb with hb | hb
    · have := h.full b hb; omega
    · split at hb
      · simp at hb
      · simp only [List.mem_singleton] at hb
        subst hb
        have := h.small
        have : b.length ≠ 0 := by simpa using ‹¬ b = []›
        omega
  · simp only [UnicodeCmap.finish, Buf.extend_inner, flush_inner c cur h.mappings h.count, h.buf]
    split <;> simp

/-! ## Scanning sections -/

theorem hexString_scan (s rest : Bytes) : Scan (ch!"<" :: (s.flatMap hex2 ++ ch!">" :: rest)) [.str s] rest :=
  delim_head _ _ _ (by have := tokenAt_hexString s rest (Or.inr trivial); simpa using this) ⟨_, _, rfl, by decide, by decide⟩

def entryToks (p : G × List Char) : List Tok := [.str (CharCode.code p.1), .str (unitBytes (utf16 p.2))]

theorem entry_scan (p : G × List Char) (rest : Bytes) : Scan (entryBytes p ++ rest) (entryToks p) (10 :: rest) := by
  have h2 := hexString_scan (unitBytes (utf16 p.2)) (10 :: rest)
  have h1 := (hexString_scan (CharCode.code p.1) (32 :: ch!"<" :: ((unitBytes (utf16 p.2)).flatMap hex2 ++ ch!">" :: 10 :: rest))).append
    (Scan.white (by decide) (by simp) h2)
  simpa [entryBytes, entryToks] using h1

theorem entries_scan (ps : List (G × List Char)) (rest : Bytes) (ts : List Tok) (rest' : Bytes) (hne : ts ≠ []) (h : Scan rest ts rest') :
    Scan (ps.flatMap entryBytes ++ rest) (ps.flatMap entryToks ++ ts) rest' := by
  induction ps with
  | nil => exact h
  | cons p ps ih =>
    simp only [List.flatMap_cons, List.append_assoc]
    exact (entry_scan p _).append (Scan.white (by decide) (by simp [hne]) ih)

def blockToks (ps : List (G × List Char)) : List Tok :=
  .int ps.length :: .kw b!"beginbfchar" :: (ps.flatMap entryToks ++ [.kw b!"endbfchar"])

theorem block_scan (ps : List (G × List Char)) (rest : Bytes) :
    Scan (blockBytes ps ++ rest) (blockToks ps) (10 :: rest) := by
  have h3 : Scan (b!"endbfchar\n" ++ rest) [.kw b!"endbfchar"] (10 :: rest) := Scan.cons (by rfl) (Scan.nil _)
  have h2 := entries_scan ps (b!"endbfchar\n" ++ rest) _ _ (by simp) h3
  have h1 : Scan (b!" beginbfchar\n" ++ (ps.flatMap entryBytes ++ (b!"endbfchar\n" ++ rest)))
      (.kw b!"beginbfchar" :: (ps.flatMap entryToks ++ [.kw b!"endbfchar"])) (10 :: rest) :=
    Scan.cons (by rfl) (Scan.white (w := 10) (by decide) (by simp) h2)
  have h0 := (intBytes_scan (ps.length : Int) _ (by exact white_sepOk 32 _ (by decide))).append h1
  simpa [blockBytes, blockToks] using h0

theorem blocks_scan (bs : List (List (G × List Char))) (rest : Bytes) (ts : List Tok) (rest' : Bytes) (hne : ts ≠ [])
    (h : Scan rest ts rest') : Scan (bs.flatMap blockBytes ++ rest) (bs.flatMap blockToks ++ ts) rest' := by
  induction bs with
  | nil => exact h
  | cons b bs ih =>
    simp only [List.flatMap_cons, List.append_assoc]
    exact (block_scan b _).append (Scan.white (by decide) (by simp [hne]) ih)

/-! ## Executing sections -/

theorem run_entries (ps : List (G × List Char)) (s : CmapState) (ts : List Tok) :
    cmapRun s (ps.flatMap entryToks ++ ts) =
      cmapRun { s with stack := (ps.flatMap entryToks).reverse.map PsItem.lit ++ s.stack } ts := by
  induction ps generalizing s with
  | nil => rfl
  | cons p ps ih =>
    simp only [List.flatMap_cons, entryToks, List.cons_append, List.nil_append, cmapRun, cmapStep]
    rw [ih]
    simp

theorem strPairs_entries (ps : List (G × List Char)) :
    strPairs ((ps.flatMap entryToks).map PsItem.lit) = some (ps.map entryPair) := by
  induction ps with
  | nil => rfl
  | cons p ps ih => simp [entryToks, strPairs, entryPair, entryToks] at ih ⊢; simp [ih]

theorem run_block (ps : List (G × List Char)) (hp : 1 ≤ ps.length ∧ ps.length ≤ 100) (s : CmapState) (hs : s.stack = [])
    (hn : s.sect = none) (hi : s.inMap = true) (ts : List Tok) :
    cmapRun s (blockToks ps ++ ts) = cmapRun { s with blocks := s.blocks ++ [ps.map entryPair] } ts := by
  obtain ⟨stack, depth, defs, inMap, sect, ranges, blocks, resources⟩ := s
  simp only at hs hn hi
  subst hs hn hi
  have hz : sectionSize (ps.length : Int) = true := by simp [sectionSize]; omega
  have h1 : ∀ s : CmapState, cmapOp s b!"beginbfchar" = openSection s .bfchar := fun s => rfl
  have h2 : ∀ s : CmapState, cmapOp s b!"endbfchar" =
    (closeSection s .bfchar).map fun (s, ps) => { s with blocks := s.blocks ++ [ps] } := fun s => rfl
  simp only [blockToks, List.cons_append, List.append_assoc, cmapRun, cmapStep, h1, openSection, hz, if_true, run_entries,
    List.nil_append, h2, closeSection, List.append_nil, ← List.map_reverse, List.reverse_reverse, strPairs_entries,
    List.length_map, Int.toNat_natCast, Option.map_some]

theorem run_blocks (bs : List (List (G × List Char))) (hb : ∀ b ∈ bs, 1 ≤ b.length ∧ b.length ≤ 100) (s : CmapState)
    (hs : s.stack = []) (hn : s.sect = none) (hi : s.inMap = true) (ts : List Tok) :
    cmapRun s (bs.flatMap blockToks ++ ts) = cmapRun { s with blocks := s.blocks ++ bs.map (·.map entryPair) } ts := by
  induction bs generalizing s with
  | nil => simp
  | cons b bs ih =>
    simp only [List.mem_cons, forall_eq_or_imp] at hb
    simp only [List.flatMap_cons, List.append_assoc]
    rw [run_block b hb.1 s hs hn hi, ih hb.2 { s with blocks := s.blocks ++ [b.map entryPair] } hs hn hi]
    simp

theorem decodeEntries_entryPair (ps : List (G × List Char)) :
    decodeEntries (ps.map entryPair) = some (ps.map fun p => (CharCode.code p.1, p.2)) := by
  induction ps with
  | nil => rfl
  | cons p ps ih =>
    simp only [List.map_cons, entryPair, decodeEntries, utf16be, units_unitBytes, Option.bind_some, decodeUtf16_utf16]
    simp only [ih]

theorem decodeBlocks_entryPair (bs : List (List (G × List Char))) :
    decodeBlocks (bs.map (·.map entryPair)) = some (bs.map (·.map fun p => (CharCode.code p.1, p.2))) := by
  induction bs with
  | nil => rfl
  | cons b bs ih => simp only [List.map_cons, decodeBlocks, decodeEntries_entryPair, ih]

end

/-! ## The header -/

/-- Bytes of the comment header. -/
def commentBytes (name : Bytes) (info : SystemInfo) : Bytes :=
  37 :: (b!"!PS-Adobe-3.0 Resource-CMap" ++ 10 ::
  37 :: (b!"%DocumentNeededResources: procset CIDInit" ++ 10 ::
  37 :: (b!"%IncludeResource: procset CIDInit" ++ 10 ::
  37 :: ((b!"%BeginResource: CMap " ++ name) ++ 10 ::
  37 :: ((b!"%Title: (" ++ name ++ [32] ++ info.registry ++ [32] ++ info.ordering ++ [32] ++ intBytes info.supplement ++ [41]) ++ 10 ::
  37 :: (b!"%Version: 1" ++ 10 ::
  37 :: (b!"%EndComments" ++ [10])))))))

theorem header_eq (name : Bytes) (info : SystemInfo) :
    (UnicodeCmap.header name info Buf.new).inner = commentBytes name info := by
  simp only [UnicodeCmap.header, Buf.extend_inner, Buf.push_inner, Buf.pushInt, Buf.new, commentBytes, List.nil_append,
    List.append_assoc, List.cons_append]

theorem comments_scan (name : Bytes) (info : SystemInfo) (hn : OneLine name) (hr : OneLine info.registry)
    (ho : OneLine info.ordering) (bs : Bytes) (ts : List Tok) (rest : Bytes) (hne : ts ≠ []) (h : Scan bs ts rest) :
    Scan (commentBytes name info ++ bs) ts rest := by
  have f : ∀ b : UInt8, isRegular b = true → b ≠ 10 ∧ b ≠ 13 := forall_byte (by decide +kernel)
  have hi : ∀ b ∈ intBytes info.supplement, b ≠ 10 ∧ b ≠ 13 := fun b hb =>
    f b (List.all_eq_true.mp (intBytes_regular _) b hb)
  have e : commentBytes name info ++ bs = 
    37 :: (b!"!PS-Adobe-3.0 Resource-CMap" ++ 10 ::
    37 :: (b!"%DocumentNeededResources: procset CIDInit" ++ 10 ::
    37 :: (b!"%IncludeResource: procset CIDInit" ++ 10 ::
    37 :: ((b!"%BeginResource: CMap " ++ name) ++ 10 ::
    37 :: ((b!"%Title: (" ++ name ++ [32] ++ info.registry ++ [32] ++ info.ordering ++ [32] ++ intBytes info.supplement ++ [41]) ++ 10 ::
    37 :: (b!"%Version: 1" ++ 10 ::
    37 :: (b!"%EndComments" ++ 10 :: bs))))))) := by
    simp only [commentBytes, List.append_assoc, List.cons_append, List.nil_append]
  rw [e]
  refine Scan.comment (by decide) hne (Scan.comment (by decide) hne (Scan.comment (by decide) hne
    (Scan.comment ?_ hne (Scan.comment ?_ hne (Scan.comment (by decide) hne (Scan.comment (by decide) hne h))))))
  · intro b hb
    rw [List.mem_append] at hb
    rcases hb with hb | hb
    · revert b; decide
    · exact hn b hb
  · intro b hb
    simp only [List.mem_append] at hb
    rcases hb with (((((((hb | hb) | hb) | hb) | hb) | hb) | hb) | hb) | hb
    · revert b; decide
    · exact hn b hb
    · revert b; decide
    · exact hr b hb
    · revert b; decide
    · exact ho b hb
    · revert b; decide
    · exact hi b hb
    · revert b; decide

/-- Tokens of the body. -/
def bodyToks (name : Bytes) (info : SystemInfo) (mode : WMode) (lo hi : Bytes) : List Tok :=
  [.name b!"CIDInit", .name b!"ProcSet", .kw b!"findresource", .kw b!"begin", .int 12, .kw b!"dict", .kw b!"begin",
   .kw b!"begincmap", .name b!"CIDSystemInfo", .int 3, .kw b!"dict", .kw b!"dup", .kw b!"begin",
   .name b!"Registry", .str info.registry, .kw b!"def", .name b!"Ordering", .str info.ordering, .kw b!"def",
   .name b!"Supplement", .int info.supplement, .kw b!"def", .kw b!"end", .kw b!"def",
   .name b!"CMapName", .name name, .kw b!"def", .name b!"CMapVersion", .int 1, .kw b!"def",
   .name b!"CMapType", .int 0, .kw b!"def", .name b!"WMode", .int mode.toInt, .kw b!"def",
   .int 1, .kw b!"begincodespacerange", .str lo, .str hi, .kw b!"endcodespacerange"]

/-- Bytes of the body. -/
def cmapBodyBytes (name : Bytes) (info : SystemInfo) (mode : WMode) (lo hi : Bytes) (rest : Bytes) : Bytes :=
  b!"/CIDInit /ProcSet findresource begin\n12 dict begin\nbegincmap\n/CIDSystemInfo 3 dict dup begin\n    /Registry " ++
  (strBytes info.registry ++ (b!" def\n    /Ordering " ++ (strBytes info.ordering ++ (b!" def\n    /Supplement " ++
  (intBytes info.supplement ++ (b!" def\nend def\n/CMapName " ++ (nameBytes name ++
  (b!" def\n/CMapVersion 1 def\n/CMapType 0 def\n/WMode " ++ (intBytes mode.toInt ++ (b!" def\n1 begincodespacerange\n" ++
  (ch!"<" :: (lo.flatMap hex2 ++ ch!">" :: 32 :: ch!"<" :: (hi.flatMap hex2 ++ ch!">" :: (b!"\nendcodespacerange\n" ++ rest))))))))))))))

theorem body_scan (name : Bytes) (info : SystemInfo) (mode : WMode) (lo hi : Bytes) (rest : Bytes) :
    Scan (cmapBodyBytes name info mode lo hi rest) (bodyToks name info mode lo hi) (10 :: rest) := by
  unfold cmapBodyBytes bodyToks
  have g : ∀ {a b c : Bytes} {w : UInt8} {s t : List Tok}, Scan a s (w :: b) → isWhite w = true → t ≠ [] → Scan b t c → Scan a (s ++ t) c :=
    fun h1 hw hne h2 => h1.append (Scan.white hw hne h2)
  have s1 : ∀ (x : Bytes), Scan (b!"/CIDInit /ProcSet findresource begin\n12 dict begin\nbegincmap\n/CIDSystemInfo 3 dict dup begin\n    /Registry " ++ x)
    [.name b!"CIDInit", .name b!"ProcSet", .kw b!"findresource", .kw b!"begin", .int 12, .kw b!"dict", .kw b!"begin",
     .kw b!"begincmap", .name b!"CIDSystemInfo", .int 3, .kw b!"dict", .kw b!"dup", .kw b!"begin", .name b!"Registry"] (32 :: x) := by
    intro x
    simp only [List.cons_append, List.nil_append]
    repeat (first | exact Scan.nil _ | refine Scan.cons (by rfl) ?_)
  have s2 : ∀ (x : Bytes), Scan (b!" def\n    /Ordering " ++ x) [.kw b!"def", .name b!"Ordering"] (32 :: x) := by
    intro x
    simp only [List.cons_append, List.nil_append]
    repeat (first | exact Scan.nil _ | refine Scan.cons (by rfl) ?_)
  have s3 : ∀ (x : Bytes), Scan (b!" def\n    /Supplement " ++ x) [.kw b!"def", .name b!"Supplement"] (32 :: x) := by
    intro x
    simp only [List.cons_append, List.nil_append]
    repeat (first | exact Scan.nil _ | refine Scan.cons (by rfl) ?_)
  have s4 : ∀ (x : Bytes), Scan (b!" def\nend def\n/CMapName " ++ x) [.kw b!"def", .kw b!"end", .kw b!"def", .name b!"CMapName"] (32 :: x) := by
    intro x
    simp only [List.cons_append, List.nil_append]
    repeat (first | exact Scan.nil _ | refine Scan.cons (by rfl) ?_)
  have s5 : ∀ (x : Bytes), Scan (b!" def\n/CMapVersion 1 def\n/CMapType 0 def\n/WMode " ++ x)
      [.kw b!"def", .name b!"CMapVersion", .int 1, .kw b!"def", .name b!"CMapType", .int 0, .kw b!"def", .name b!"WMode"] (32 :: x) := by
    intro x
    simp only [List.cons_append, List.nil_append]
    repeat (first | exact Scan.nil _ | refine Scan.cons (by rfl) ?_)
  have s6 : ∀ (x : Bytes), Scan (b!" def\n1 begincodespacerange\n" ++ x) [.kw b!"def", .int 1, .kw b!"begincodespacerange"] (10 :: x) := by
    intro x
    simp only [List.cons_append, List.nil_append]
    repeat (first | exact Scan.nil _ | refine Scan.cons (by rfl) ?_)
  have s7 : ∀ (x : Bytes), Scan (b!"\nendcodespacerange\n" ++ x) [.kw b!"endcodespacerange"] (10 :: x) := by
    intro x
    simp only [List.cons_append, List.nil_append]
    repeat (first | exact Scan.nil _ | refine Scan.cons (by rfl) ?_)
  have w : ∀ (b : UInt8) (x : Bytes), isWhite b = true → sepOk (b :: x) = true := white_sepOk
  refine g (s1 _) (by decide) (by simp) ((scan_prim (.str info.registry) trivial _ (by simp [needsEnd])).append
    (g (s2 _) (by decide) (by simp) ((scan_prim (.str info.ordering) trivial _ (by simp [needsEnd])).append
    (g (s3 _) (by decide) (by simp) ((intBytes_scan info.supplement _ (by exact w 32 _ (by decide))).append
    (g (s4 _) (by decide) (by simp) ((scan_prim (.name name) trivial _ (fun _ => by exact w 32 _ (by decide))).append
    (g (s5 _) (by decide) (by simp) ((intBytes_scan mode.toInt _ (by exact w 32 _ (by decide))).append
    (g (s6 _) (by decide) (by simp) ((hexString_scan lo _).append (g (Scan.nil (32 :: _)) (by decide) (by simp) ((hexString_scan hi _).append
    (s7 rest))))))))))))))

theorem body_eq (name : Bytes) (info : SystemInfo) (mode : WMode) (buf : Buf) :
    (UnicodeCmap.body name info mode buf).inner ++ b!"1 begincodespacerange\n" =
      buf.inner ++ (b!"/CIDInit /ProcSet findresource begin\n12 dict begin\nbegincmap\n/CIDSystemInfo 3 dict dup begin\n    /Registry " ++
  (strBytes info.registry ++ (b!" def\n    /Ordering " ++ (strBytes info.ordering ++ (b!" def\n    /Supplement " ++
  (intBytes info.supplement ++ (b!" def\nend def\n/CMapName " ++ (nameBytes name ++
  (b!" def\n/CMapVersion 1 def\n/CMapType 0 def\n/WMode " ++ (intBytes mode.toInt ++ b!" def\n1 begincodespacerange\n")))))))))) := by
  simp only [UnicodeCmap.body, Buf.extend_inner, Buf.push_inner, Buf.pushInt, writeStr_eq, writeName_eq, List.append_assoc,
    List.cons_append, List.nil_append]

theorem new_eq (G : Type) [LawfulGlyphId G] (name : Bytes) (info : SystemInfo) (mode : WMode) (rest : Bytes) :
    (UnicodeCmap.withWritingMode G name info mode).buf.inner ++ rest =
      commentBytes name info ++ cmapBodyBytes name info mode (CharCode.code (GlyphId.min : G)) (CharCode.code (GlyphId.max : G)) rest := by
  have h := body_eq name info mode (UnicodeCmap.header name info Buf.new)
  simp only [UnicodeCmap.withWritingMode, UnicodeCmap.codespace, LawfulGlyphId.push_eq, Buf.extend_inner, Buf.push_inner, h,
    header_eq, cmapBodyBytes, List.append_assoc, List.cons_append, List.nil_append]

/-- The interpreter state after the header. -/
def headState (name : Bytes) (info : SystemInfo) (mode : WMode) (lo hi : Bytes) : CmapState :=
  { stack := [], depth := 2
    defs := [(3, b!"Registry", .lit (.str info.registry)), (3, b!"Ordering", .lit (.str info.ordering)),
      (3, b!"Supplement", .lit (.int info.supplement)), (2, b!"CIDSystemInfo", .dict), (2, b!"CMapName", .lit (.name name)),
      (2, b!"CMapVersion", .lit (.int 1)), (2, b!"CMapType", .lit (.int 0)), (2, b!"WMode", .lit (.int mode.toInt))]
    inMap := true, sect := none, ranges := [(lo, hi)], blocks := [], resources := [] }

theorem run_head (name : Bytes) (info : SystemInfo) (mode : WMode) (lo hi : Bytes) :
    cmapRun {} (bodyToks name info mode lo hi) = some (headState name info mode lo hi) := by
  rfl

def tailToks : List Tok :=
  [.kw b!"endcmap", .kw b!"CMapName", .kw b!"currentdict", .name b!"CMap", .kw b!"defineresource", .kw b!"pop", .kw b!"end", .kw b!"end"]

def tailBytes' : Bytes := b!"endcmap\nCMapName currentdict /CMap defineresource pop\nend\nend\n%%EndResource\n%%EOF"

theorem tail_scan : Scan tailBytes' tailToks b!"\n%%EndResource\n%%EOF" := by
  unfold tailToks tailBytes'
  repeat (first | exact Scan.nil _ | refine Scan.cons (by rfl) ?_)

theorem readToUnicode_cmap {G : Type} [LawfulGlyphId G] (name : Bytes) (info : SystemInfo) (mode : WMode) (hn : OneLine name)
    (hr : OneLine info.registry) (ho : OneLine info.ordering) (blocks : List (List (G × List Char)))
    (hb : ∀ b ∈ blocks, 1 ≤ b.length ∧ b.length ≤ 100) (bs : Bytes)
    (e : bs = (UnicodeCmap.withWritingMode G name info mode).buf.inner ++ (blocks.flatMap blockBytes ++ tailBytes')) :
    readToUnicode bs = some ⟨name, info.registry, info.ordering, info.supplement, mode.toInt,
      [(CharCode.code (GlyphId.min : G), CharCode.code (GlyphId.max : G))],
      blocks.map (·.map fun p => (CharCode.code p.1, p.2))⟩ := by
  rw [new_eq] at e
  have hs : Scan bs (bodyToks name info mode (CharCode.code (GlyphId.min : G)) (CharCode.code (GlyphId.max : G)) ++
      (blocks.flatMap blockToks ++ tailToks)) b!"\n%%EndResource\n%%EOF" := by
    rw [e]
    refine comments_scan name info hn hr ho _ _ _ (by simp [bodyToks]) ((body_scan _ _ _ _ _ _).append
      (Scan.white (by decide) (by simp [tailToks]) (blocks_scan _ _ _ _ (by simp [tailToks]) tail_scan)))
  have ht := tokens_of_scan hs (by decide) (bs.length + 1) (by have := hs.length; omega)
  unfold readToUnicode
  rw [ht]
  simp only [cmapRun_append _ (bodyToks _ _ _ _ _), run_head, Option.bind_some,
    run_blocks blocks hb (headState name info mode _ _) rfl rfl rfl]
  have hd := decodeBlocks_entryPair blocks
  simp only [headState, List.nil_append]
  generalize hbb : blocks.map (·.map entryPair) = bb at hd ⊢
  have hrun : ∀ (lo hi : Bytes), cmapRun { (headState name info mode lo hi) with blocks := bb } tailToks =
    some { (headState name info mode lo hi) with blocks := bb, depth := 0, inMap := false, resources := [(.lit (.name name), b!"CMap")] } := by
    intro lo hi; rfl
  simp only [headState] at hrun
  rw [hrun]
  have l1 : ∀ st : CmapState, st.defs = (headState name info mode [] []).defs → 
      st.lookup 2 b!"CMapName" = some (.lit (.name name)) ∧ st.lookup 3 b!"Registry" = some (.lit (.str info.registry)) ∧
      st.lookup 3 b!"Ordering" = some (.lit (.str info.ordering)) ∧ st.lookup 3 b!"Supplement" = some (.lit (.int info.supplement)) ∧
      st.lookup 2 b!"WMode" = some (.lit (.int mode.toInt)) ∧ st.lookup 2 b!"CIDSystemInfo" = some .dict ∧
      st.lookup 2 b!"CMapType" = some (.lit (.int 0)) := by
    intro st hst
    unfold CmapState.lookup
    rw [hst]
    exact ⟨rfl, rfl, rfl, rfl, rfl, rfl, rfl⟩
  obtain ⟨a1, a2, a3, a4, a5, a6, a7⟩ := l1 { stack := [], depth := 0, defs := (headState name info mode [] []).defs, inMap := false, sect := none, ranges := [(CharCode.code (GlyphId.min : G), CharCode.code (GlyphId.max : G))], blocks := bb, resources := [(.lit (.name name), b!"CMap")] } rfl
  simp only [headState] at a1 a2 a3 a4 a5 a6 a7
  simp only [a1, a2, a3, a4, a5, a6, a7, hd, and_self, if_true]

end PdfW
