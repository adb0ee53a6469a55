import Verif.Proof.Cmap

/-! # C31: ToUnicode CMaps -/

set_option linter.unusedSimpArgs false
set_option linter.unusedVariables false

namespace PdfW.Props
open PdfW Spec

/-- Both glyph id types at once (lemma for the two theorems below). -/
theorem cmap_reads_back {G : Type} [LawfulGlyphId G] (name : Bytes) (info : SystemInfo) (mode : WMode)
    (calls : List (CmapCall G)) (hn : OneLine name) (hr : OneLine info.registry) (ho : OneLine info.ordering) :
    ∃ sections : List (List (Bytes × List Char)),
      readToUnicode (runCmap (UnicodeCmap.withWritingMode G name info mode) calls).finish.inner =
        some ⟨name, info.registry, info.ordering, info.supplement, mode.toInt,
          [(CharCode.code (GlyphId.min : G), CharCode.code (GlyphId.max : G))], sections⟩ ∧
      sections.flatten = calls.map (fun c => (CharCode.code c.entry.1, c.entry.2)) ∧
      ∀ s ∈ sections, 1 ≤ s.length ∧ s.length ≤ 100 := by
  obtain ⟨d, c, hi, he⟩ := runCmap_inv (UnicodeCmap.withWritingMode G name info mode).buf.inner calls
    (UnicodeCmap.withWritingMode G name info mode) [] []
    ⟨(by simp), rfl, rfl, (by simp), (by simp)⟩
  obtain ⟨blocks, hf, hb, hfin⟩ := finish_sections _ _ d c hi
  refine ⟨_, readToUnicode_cmap name info mode hn hr ho blocks hb _ hfin, ?_, ?_⟩
  · rw [← List.map_flatten, hf, he]; simp
  · intro s hs
    simp only [List.mem_map] at hs
    obtain ⟨b, hb1, rfl⟩ := hs
    simpa using hb b hb1

/-- C31, two-byte glyph ids: whatever calls are made, the finished CMap is a well-formed program that
registers itself under its name, carries the character collection and the writing mode, covers the
codes `<0000>`–`<FFFF>`, and whose `bfchar` sections (1 to 100 entries each, with the announced count)
contain, in order, exactly the mappings asked for. -/
theorem C31_cmap_two_byte (name : Bytes) (info : SystemInfo) (mode : WMode) (calls : List (CmapCall UInt16))
    (hn : OneLine name) (hr : OneLine info.registry) (ho : OneLine info.ordering) :
    ∃ sections : List (List (Bytes × List Char)),
      readToUnicode (runCmap (UnicodeCmap.withWritingMode UInt16 name info mode) calls).finish.inner =
        some ⟨name, info.registry, info.ordering, info.supplement, (if mode = .vertical then 1 else 0),
          [([0x00, 0x00], [0xFF, 0xFF])], sections⟩ ∧
      sections.flatten = calls.map (fun c =>
        ([UInt8.ofNat (c.entry.1.toNat / 256), UInt8.ofNat (c.entry.1.toNat % 256)], c.entry.2)) ∧
      ∀ s ∈ sections, 1 ≤ s.length ∧ s.length ≤ 100 := by
  obtain ⟨secs, h1, h2, h3⟩ := cmap_reads_back name info mode calls hn hr ho
  refine ⟨secs, ?_, h2, h3⟩
  rw [h1]; cases mode <;> rfl

/-- C31, one-byte glyph ids. -/
theorem C31_cmap_one_byte (name : Bytes) (info : SystemInfo) (mode : WMode) (calls : List (CmapCall UInt8))
    (hn : OneLine name) (hr : OneLine info.registry) (ho : OneLine info.ordering) :
    ∃ sections : List (List (Bytes × List Char)),
      readToUnicode (runCmap (UnicodeCmap.withWritingMode UInt8 name info mode) calls).finish.inner =
        some ⟨name, info.registry, info.ordering, info.supplement, (if mode = .vertical then 1 else 0),
          [([0x00], [0xFF])], sections⟩ ∧
      sections.flatten = calls.map (fun c => ([c.entry.1], c.entry.2)) ∧
      ∀ s ∈ sections, 1 ≤ s.length ∧ s.length ≤ 100 := by
  obtain ⟨secs, h1, h2, h3⟩ := cmap_reads_back name info mode calls hn hr ho
  refine ⟨secs, ?_, h2, h3⟩
  rw [h1]; cases mode <;> rfl

/-- `UnicodeCmap::new` is the horizontal case. -/
theorem C31_new (name : Bytes) (info : SystemInfo) :
    UnicodeCmap.new UInt16 name info = UnicodeCmap.withWritingMode UInt16 name info .horizontal ∧
    UnicodeCmap.new UInt8 name info = UnicodeCmap.withWritingMode UInt8 name info .horizontal := ⟨rfl, rfl⟩

/-- A usual system info. -/
def adobeIdentity : SystemInfo := ⟨b!"Adobe", b!"Identity", 0⟩

/-- The hypotheses are met by the usual CMap name and collection. -/
example : OneLine b!"Custom" ∧ OneLine adobeIdentity.registry ∧ OneLine adobeIdentity.ordering := by
  refine ⟨?_, ?_, ?_⟩ <;> (unfold OneLine; decide)

/-- A concrete CMap: a plain character, an astral character (surrogate pair), a ligature and an empty text. -/
example : readToUnicode (runCmap (G := UInt16) (UnicodeCmap.new UInt16 b!"Custom" adobeIdentity)
    [.pair 3 'a', .pair 300 (Char.ofNat 0x1F600), .pairWithMultiple 7 ['f', 'i'], .pairWithMultiple 9 []]).finish.inner =
    some ⟨b!"Custom", b!"Adobe", b!"Identity", 0, 0, [([0, 0], [255, 255])],
      [[([0, 3], ['a']), ([1, 44], [Char.ofNat 0x1F600]), ([0, 7], ['f', 'i']), ([0, 9], [])]]⟩ := by
  decide +kernel

/-- The condition on line ends is needed: the name is copied unescaped into a comment, so a line end in it
injects its remainder into the program, which is then not a CMap. -/
theorem C31_comment_injection :
    readToUnicode (UnicodeCmap.new UInt16 b!"A\nB" adobeIdentity).finish.inner = none := by
  decide +kernel

end PdfW.Props
