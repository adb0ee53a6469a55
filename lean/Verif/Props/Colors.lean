import Verif.Proof.Colors
import Verif.Proof.ItemOk
import Verif.Proof.Fast
import Verif.Props.Annots

set_option linter.unusedSimpArgs false
set_option linter.unusedVariables false

/-!
# C72: color spaces, functions, shadings and patterns

End to end, as C60: the color spaces, shadings and patterns in the resources of each page, given on the page or inherited, in place or as
objects of their own, with everything they refer to, however deep, whichever way the file is finished.
-/

namespace PdfW.Props
open PdfW Spec Imaging

/-- C72. -/
theorem C72_colors (unf : Val → Bytes → Option Bytes) (h : PdfHist) (p : Pdf) (w : Finishing) (bytes : Bytes) (hr : h.run = some p)
    (hf : w.run p = some bytes) (hids : ∀ r ∈ docIds h ++ w.ids, r.get < 2147483647) (hlen : w.Fits p bytes) (hu : w.Undone unf)
    (cid : Ref) (cat : List CatalogCall) (t : PageTree) (hw : DocumentWritten unf h cid cat t) (depth forms : Nat) (pages : List GivenColors)
    (ht : t.Colors unf (pdfItems h) depth forms pages) (tree n m : Nat) (hd : t.depth ≤ tree) (hn : depth ≤ n) (hm : forms ≤ m) :
    ∃ read, fileColors unf bytes tree n m = some read ∧ Pairwise ColorsRead pages read := by
  obtain ⟨f, h1, hfinds, hroot⟩ := finds_of hr hf hids hlen hu
  obtain ⟨d, hcat, he⟩ := catalog_read hfinds (hroot cid hw.root) hw.catalog hw.noType
  have hpg : (CatalogEntries .code cat).filter (fun e => e.1 == b!"Pages") = [(b!"Pages", IsRef t.id)] := by
    simp only [CatalogEntries, List.filter_append, onlyCall_filter hw.pages]
    rfl
  obtain ⟨w', hl, hw'⟩ := lookup_of he hpg
  simp only [IsRef] at hw'
  subst hw'
  obtain ⟨ys, hy, hym⟩ := tree_means (unf := unf) (R := ColorsRead) hfinds (pageColors_read hfinds hn hm) t tree hd hw.tree none none rfl pages ht
  exact ⟨ys, by simp only [fileColors, h1, Option.bind_some, hcat, hl, refNumber, hy], hym⟩

/-! ## A document that meets the hypotheses

A spot color whose tint transform is composed of an exponential and a sampled function and whose alternate space is an object of its own, a
DeviceN space with a calculator function and attributes, a compressed ICC profile with an alternate space, an indexed space; an axial shading
and a mesh; a tiling pattern that paints with its own resources and a shading pattern. -/

def colOne : F32 := ⟨false, 0x3F800000⟩
def colTwo : F32 := ⟨false, 0x40000000⟩
def colHalf : F32 := ⟨false, 0x3F000000⟩
def colWhite : Xyz := ⟨colHalf, colOne, colOne⟩
def colRect : Rect := ⟨F32.zero, F32.zero, colTwo, colOne⟩

def colExpCalls : List ExponentialCall := [.domain [F32.zero, colOne], .c0 [F32.zero], .c1 [colHalf], .n colTwo]
def colExp : GivenFn := .exponential [F32.zero, colOne] none (some [F32.zero]) (some [colHalf]) colTwo
def colSampCalls : List SampledFunctionCall :=
  [.domain [F32.zero, colOne], .range [F32.zero, colTwo], .size [2], .bitsPerSample 8, .order .linear, .decode [F32.zero, colTwo]]
def colSamp : GivenFn := .sampled [F32.zero, colOne] [F32.zero, colTwo] [2] 8 (some 1) none (some [F32.zero, colTwo]) b!"ab"
def colStitchCalls : List StitchingCall :=
  [.domain [F32.zero, colOne], .functions [rf 5, rf 7], .bounds [colHalf], .encode [F32.zero, colOne, colOne, F32.zero]]
def colStitch : GivenFn := .stitching [F32.zero, colOne] none [colExp, colSamp] [colHalf] [F32.zero, colOne, colOne, F32.zero]
def colOps : List PostScriptOp := [.simple .dup, .real colHalf, .simple .gt, .if_ [.integer 3, .simple .mul]]
def colCalcCalls : List PostScriptFunctionCall := [.domain [F32.zero, colOne, F32.zero, colOne], .range [F32.zero, colTwo]]
def colCalc : GivenFn := .calculator [F32.zero, colOne, F32.zero, colOne] [F32.zero, colTwo] colOps

def colLab : Prog := lab colWhite none (some ⟨F32.zero, colOne, F32.zero, colTwo⟩)
def colGray : Prog := calGray colWhite (some colWhite) (some colTwo)
def colIccCalls : List IccProfileCall := [.n 1, .alternate colGray, .stream (.filter .flateDecode)]
def colSepCalls : List SeparationCall := [.alternateColorSpaceRef (rf 10), .tintRef (rf 6)]
def colSep : Prog := (separation b!"Gold" colSepCalls).get (by decide +kernel)
def colAttrs : List DeviceNAttrsCall := [.subtype .nChannel, .mixingHints [.solidities [(b!"A", colOne)]]]
def colDevnCalls : List DeviceNCall := [.alternateDevice .cmyk, .tintRef (rf 8), .attrs colAttrs]
def colDevn : Prog := (deviceN [b!"A", b!"B"] colDevnCalls).get (by decide +kernel)
def colIcc : Prog := .array [.prim (.name b!"ICCBased"), .prim (.ref (rf 9))]
def colIndexed : Prog := .array [.prim (.name b!"Indexed"), .prim (.name b!"DeviceRGB"), .prim (.int 1), .prim (.str b!"abcdef")]

def colAxialCalls : List FunctionShadingCall :=
  [.shadingType .axial, .colorSpace colGray, .coords [F32.zero, F32.zero, colOne, colTwo], .function (rf 5), .extend [true, false], .bbox colRect]
def colMeshCalls : List StreamShadingCall :=
  [.shadingType .latticeGouraud, .colorSpace colSep, .bitsPerCoordinate 16, .bitsPerComponent 8, .decode [F32.zero, colOne], .verticesPerRow 2, .antiAlias true]
def colPatCalls : List ShadingPatternCall := [.shadingRef (rf 11), .matrix [colOne, F32.zero, F32.zero, colTwo, F32.zero, F32.zero], .extGraphics [.lineWidth colTwo]]

def colTileContent : List ContentCall := [.setFillColorSpace (.named b!"C"), .setFillColor [colHalf], .rect F32.zero F32.zero colOne colOne, .fillNonzero]
def colTileRes : List ResourcesCall := [.colorSpaces [(b!"C", colGray)]]
def colTile : TilePart := ⟨rf 12, [.paintType .colored, .tilingType .noDistortion, .bbox colRect, .xStep colTwo, .yStep colOne, .resources colTileRes],
  ((runCalls colTileContent (Content.withSettings true)).get (by decide +kernel)).finish.inner, true, colTileContent⟩

def colRes : List ResourcesCall :=
  [.colorSpaces [(b!"C0", colSep), (b!"C1", colDevn), (b!"C2", colIcc), (b!"C3", colIndexed), (b!"C4", .prim (.ref (rf 10)))],
   .shadings [(b!"S0", FunctionShading.prog colAxialCalls), (b!"S1", .prim (.ref (rf 11)))],
   .patterns [(b!"P0", .prim (.ref (rf 12))), (b!"P1", ShadingPattern.prog colPatCalls)]]

def colPage : List PageCall := [.parent (rf 2)]
def colTree : PageTree := .node (rf 2) [.kids [rf 3], .count 1, .resources colRes] [.page (rf 3) colPage []]

def colDoc : PdfHist :=
  .call (.call (.call (.call (.call (.call (.call (.call (.call (.call (.catalog (.new false) (rf 1) ([.pages (rf 2)].flatMap CatalogCall.entries))
    (.indirect (rf 2) (Pages.prog [.kids [rf 3], .count 1, .resources colRes])))
    (.indirect (rf 3) (Page.prog colPage)))
    (.indirect (rf 5) (exponentialFunction colExpCalls)))
    (.indirect (rf 6) (stitchingFunction colStitchCalls)))
    (.stream (rf 7) (SampledFunction.entries colSampCalls) b!"ab"))
    (.stream (rf 8) (PostScriptFunction.entries colCalcCalls) (PostScriptOp.encode colOps).inner))
    (.stream (rf 9) (IccProfile.entries colIccCalls) b!"??"))
    (.indirect (rf 10) colLab))
    (.stream (rf 11) (StreamShading.entries colMeshCalls) b!"mesh"))
    (.stream (rf 12) (TilingPattern.entries colTile.calls) colTile.data)

def colUnf : Val → Bytes → Option Bytes
  | .name n, d => if n = b!"FlateDecode" ∧ d = b!"??" then some b!"profile" else none
  | _, _ => none

/-- An object of the sample document. -/
macro "col_has" b:term : tactic => `(tactic| refine ⟨⟨_, $b, false⟩,
  by simp [colDoc, pdfItems, callItems, chunkItems, chunkPretty, pdfPretty, colTile], rfl, rfl, itemOkB_sound _ (by decide +kernel)⟩)

theorem colDoc_ok : DocumentWritten colUnf colDoc (rf 1) [.pages (rf 2)] colTree where
  root := rfl
  catalog := by
    refine ⟨⟨rf 1, .val (Catalog.prog [.pages (rf 2)]), false⟩, ?_, rfl, rfl, ?_⟩
    · simp only [colDoc, pdfItems, callItems, chunkItems, chunkPretty, pdfPretty, Catalog.prog, Catalog.entries]
      simp [pName]
    · sample_ok
  noType := by simp [NoCall, CatalogMeans]
  pages := rfl
  tree := by
    simp only [colTree, PageTree.Written, writtenList]
    refine ⟨?_, ?_, rfl, ⟨?_, ?_, Or.inl ⟨rfl, ?_⟩, by simp⟩, trivial⟩
    · col_has (.val (Pages.prog [.kids [rf 3], .count 1, .resources colRes]))
    · simp [NoCall, PagesMeans]
    · col_has (.val (Page.prog colPage))
    · simp [NoCall, PageMeans, colPage]
    · simp [NoCall, PageMeans, colPage]

/-! What is asked for. -/

def colLabIs : GivenSpace := .lab colWhite.list none (some [F32.zero, colOne, F32.zero, colTwo])
def colGrayIs : GivenSpace := .calGray colWhite.list (some colWhite.list) (some colTwo)
def colSepIs : GivenSpace := .separation b!"Gold" colLabIs colStitch
def colDevnIs : GivenSpace := .deviceN [b!"A", b!"B"] (.named b!"DeviceCMYK") colCalc (some colAttrs)
def colIccIs : GivenSpace := .iccOr 1 colGrayIs none b!"profile"
def colIndexedIs : GivenSpace := .indexed (.named b!"DeviceRGB") 1 b!"abcdef"
def colMatrix : List F32 := [colOne, F32.zero, F32.zero, colTwo, F32.zero, F32.zero]

def colAxial : GivenShade := ⟨2, colGrayIs, none, some [F32.zero, F32.zero, colTwo, colOne], none, none, none, some [F32.zero, F32.zero, colOne, colTwo],
  some [true, false], some colExp, none⟩
def colMeshData : Mesh F32 := ⟨16, 8, none, [F32.zero, colOne], some 2, b!"mesh"⟩
def colMesh : GivenShade := ⟨5, colSepIs, none, none, some true, none, none, none, none, none, some colMeshData⟩

def colBlack : Color F32 Prog := ⟨.prim (.name b!"DeviceGray"), [], none⟩
def colTileLooks : List (Element F32 Prog) :=
  [.path [⟨.rectangle, [F32.zero, F32.zero, colOne, colOne]⟩] (some .nonzero) false
    ⟨[], [.box [F32.zero, F32.zero, colTwo, colOne] []], colBlack, ⟨colGray, [colHalf], none⟩, []⟩]
def colTiling : GivenPat := .tiling 1 2 [F32.zero, F32.zero, colTwo, colOne] colTwo colOne none colTileLooks
def colShadingPat : GivenPat := .shading colMesh (some colMatrix) (some [.lineWidth colTwo])

def colPages : List GivenColors := [⟨[(b!"C0", colSepIs), (b!"C1", colDevnIs), (b!"C2", colIccIs), (b!"C3", colIndexedIs), (b!"C4", colLabIs)],
  [(b!"S0", colAxial), (b!"S1", colMesh)], [(b!"P0", colTiling), (b!"P1", colShadingPat)]⟩]

theorem colExp_ok (n : Nat) : FnWritten colUnf (pdfItems colDoc) (n + 1) (.prim (.ref (rf 5))) colExp :=
  Or.inl ⟨_, Or.inr ⟨rf 5, rfl, by col_has (.val (exponentialFunction colExpCalls))⟩, .exponential (calls := colExpCalls) (noCall_keys rfl) rfl (noCall_keys rfl) rfl rfl rfl⟩

theorem colSamp_ok (n : Nat) : FnWritten colUnf (pdfItems colDoc) (n + 1) (.prim (.ref (rf 7))) colSamp :=
  Or.inr ⟨rf 7, rfl, FnStream.sampled (calls := colSampCalls) (stored := b!"ab") (order := some .linear)
    (by col_has (.stream (SampledFunction.entries colSampCalls) b!"ab")) (noCall_keys rfl) rfl rfl rfl rfl rfl (noCall_keys rfl) rfl
    (Or.inl ⟨noCall_keys rfl, rfl⟩)⟩

theorem colStitch_ok : FnWritten colUnf (pdfItems colDoc) 2 (.prim (.ref (rf 6))) colStitch :=
  Or.inl ⟨_, Or.inr ⟨rf 6, rfl, by col_has (.val (stitchingFunction colStitchCalls))⟩,
    .stitching (calls := colStitchCalls) (ids := [rf 5, rf 7]) (noCall_keys rfl) rfl (noCall_keys rfl) rfl (.cons (colExp_ok 0) (.cons (colSamp_ok 0) .nil)) rfl rfl⟩

theorem colCalc_ok : FnWritten colUnf (pdfItems colDoc) 2 (.prim (.ref (rf 8))) colCalc :=
  Or.inr ⟨rf 8, rfl, FnStream.calculator (calls := colCalcCalls) (stored := (PostScriptOp.encode colOps).inner)
    (by col_has (.stream (PostScriptFunction.entries colCalcCalls) (PostScriptOp.encode colOps).inner)) (noCall_keys rfl) rfl rfl
    (by simp only [colOps, AllPsFinite, PsFinite]; exact ⟨trivial, by decide, trivial, ⟨trivial, trivial, trivial⟩, trivial⟩)
    (Or.inl ⟨noCall_keys rfl, rfl⟩)⟩

theorem colLab_ok (n : Nat) : SpaceWritten colUnf (pdfItems colDoc) (n + 1) (.prim (.ref (rf 10))) colLabIs := by
  rw [SpaceWritten.eq_def]
  exact Or.inr ⟨colLab, Or.inr ⟨rf 10, rfl, by col_has (.val colLab)⟩, .lab (r := some ⟨F32.zero, colOne, F32.zero, colTwo⟩) (b := none) rfl⟩

theorem colGray_ok (n : Nat) : SpaceWritten colUnf (pdfItems colDoc) (n + 1) colGray colGrayIs := by
  rw [SpaceWritten.eq_def]
  exact Or.inr ⟨colGray, Or.inl rfl, .calGray (w := colWhite) (b := some colWhite) rfl⟩

theorem colSep_ok : SpaceWritten colUnf (pdfItems colDoc) 2 colSep colSepIs := by
  rw [SpaceWritten.eq_def]
  exact Or.inr ⟨colSep, Or.inl rfl, .separation (a := .alternateColorSpaceRef (rf 10)) (t := .tintRef (rf 6)) rfl (colLab_ok 0) colStitch_ok⟩

theorem colDevn_ok : SpaceWritten colUnf (pdfItems colDoc) 2 colDevn colDevnIs := by
  rw [SpaceWritten.eq_def]
  exact Or.inr ⟨colDevn, Or.inl rfl, .deviceN (a := .alternateDevice .cmyk) (t := .tintRef (rf 8)) rfl rfl colCalc_ok⟩

theorem colIcc_ok : SpaceWritten colUnf (pdfItems colDoc) 2 colIcc colIccIs := by
  rw [SpaceWritten.eq_def]
  exact Or.inr ⟨colIcc, Or.inl rfl, .iccOr (id := rf 9) (calls := colIccCalls) (q := colGray) rfl
    ⟨⟨b!"??", by col_has (.stream (IccProfile.entries colIccCalls) b!"??"), Or.inr ⟨.flateDecode, rfl, by decide⟩⟩, rfl, noCall_keys rfl⟩ rfl (colGray_ok 0)⟩

theorem colIndexed_ok : SpaceWritten colUnf (pdfItems colDoc) 2 colIndexed colIndexedIs := by
  rw [SpaceWritten.eq_def]
  exact Or.inr ⟨colIndexed, Or.inl rfl, .indexed rfl⟩

theorem colAxial_ok : ShadeSet colUnf (pdfItems colDoc) 2 colAxialCalls colAxial where
  kind := ⟨.axial, rfl, rfl⟩
  space := ⟨colGray, rfl, colGray_ok 1⟩
  background := noCall_keys rfl
  box := ⟨some colRect, rfl, rfl⟩
  antiAlias := noCall_keys rfl
  domain := noCall_keys rfl
  matrix := noCall_keys rfl
  coords := rfl
  extend := rfl
  function := ⟨some (rf 5), rfl, colExp_ok 1⟩
  mesh := rfl

theorem colMesh_ok : ShadeWritten colUnf (pdfItems colDoc) 2 (.prim (.ref (rf 11))) colMesh :=
  Or.inr ⟨rf 11, colMeshCalls, b!"mesh", colMeshData, rfl, by col_has (.stream (StreamShading.entries colMeshCalls) b!"mesh"),
    { kind := ⟨.latticeGouraud, rfl, rfl⟩
      space := ⟨colSep, rfl, colSep_ok⟩
      background := noCall_keys rfl
      box := ⟨none, rfl, noCall_keys rfl⟩
      antiAlias := rfl
      others := ⟨rfl, rfl, rfl, rfl, noCall_keys rfl, noCall_keys rfl, noCall_keys rfl, noCall_keys rfl⟩
      function := ⟨none, noCall_keys rfl, trivial⟩
      mesh := rfl
      coordinateBits := rfl
      componentBits := rfl
      flagBits := noCall_keys rfl
      decode := rfl
      perRow := rfl
      data := Or.inl ⟨noCall_keys rfl, rfl⟩ }⟩

theorem colTile_ok : colTile.Written colUnf (pdfItems colDoc) where
  object := by show HasObject (pdfItems colDoc) (rf 12) (.stream (TilingPattern.entries colTile.calls) colTile.data); col_has (.stream (TilingPattern.entries colTile.calls) colTile.data)
  noType := noCall_keys rfl
  stored := ⟨(runCalls colTileContent (Content.withSettings true)).get (by decide +kernel), by simp [colTile],
    Or.inl ⟨noCall_keys rfl, by simp only [colTile]⟩⟩
  ok := by simp [colTile, colTileContent, CallOk, operandsOf, OkItems, Ok, PrimOk, nam, num, colOne, colHalf]; decide
  clash := Or.inl rfl

def colNamed (cat n : Bytes) : Option Prog := if cat = b!"ColorSpace" ∧ n = b!"C" then some colGray else none

theorem colTiling_ok : PatWritten colUnf (pdfItems colDoc) 2 0 (.prim (.ref (rf 12))) colTiling := by
  refine PatWritten.tiling (paint := .colored) (tiling := .noDistortion) (box := colRect) (res := some colTileRes) colTile colTile_ok rfl rfl rfl rfl rfl
    (noCall_keys rfl) (Or.inr ⟨_, rfl, Or.inl rfl⟩) ?_
  refine ⟨⟨fun n => .prim (.name n), colNamed, fun _ _ => none⟩, fun _ => rfl, ?_, (by intro _ _ _ h; cases h),
    by simp [colTile, colTileContent, Unrelated], rfl⟩
  intro c n v h
  replace h : colNamed c n = some v := h
  unfold colNamed at h
  split at h
  · rename_i hc; obtain ⟨rfl, rfl⟩ := hc; cases h
    exact ⟨.colorSpaces, colTileRes, _, by simp [categoryMethods], rfl, Or.inl rfl, rfl⟩
  · cases h

theorem colShadingPat_ok : PatWritten colUnf (pdfItems colDoc) 2 0 (ShadingPattern.prog colPatCalls) colShadingPat :=
  .shading (calls := colPatCalls) (q := rf 11) (Or.inl rfl) (noCall_keys rfl) (Or.inl ⟨rfl, colMesh_ok⟩) rfl rfl

/-- What the calls ask for. -/
theorem colTree_colors : colTree.Colors colUnf (pdfItems colDoc) 2 0 colPages := by
  simp only [colTree, PageTree.Colors, PageTree.Each, eachList]
  refine ⟨some colRes, Or.inr ⟨_, rfl, Or.inl rfl⟩, [colPages[0]], [], rfl, ⟨some colRes, _, rfl, Or.inl ⟨noCall_keys rfl, rfl⟩, ?_, ?_, ?_⟩, rfl⟩
  · exact Or.inr ⟨_, Or.inl rfl, .cons ⟨rfl, colSep_ok⟩ (.cons ⟨rfl, colDevn_ok⟩ (.cons ⟨rfl, colIcc_ok⟩ (.cons ⟨rfl, colIndexed_ok⟩
      (.cons ⟨rfl, colLab_ok 1⟩ .nil))))⟩
  · exact Or.inr ⟨_, Or.inl rfl, .cons ⟨rfl, Or.inl ⟨colAxialCalls, Or.inl rfl, colAxial_ok⟩⟩ (.cons ⟨rfl, colMesh_ok⟩ .nil)⟩
  · exact Or.inr ⟨_, Or.inl rfl, .cons ⟨rfl, colTiling_ok⟩ (.cons ⟨rfl, colShadingPat_ok⟩ .nil)⟩

/-- The remaining hypotheses. -/
example : ∀ r ∈ docIds colDoc, r.get < 2147483647 := by decide +kernel
example : colTree.depth = 2 := rfl

/-- What a reader of the sample sees of a color space. -/
def colShowFn : ReadFn → Int × Nat × Bytes
  | .sampled _ _ size bits _ _ _ data => (bits, size.length, data)
  | .exponential _ _ _ _ _ => (2, 0, [])
  | .stitching _ _ fs bs _ => (3, fs.length + bs.length, [])
  | .calculator _ _ p => (4, p.length, [])
def colShow : ReadSpace → List Bytes × List (Int × Nat × Bytes)
  | .named n => ([n], [])
  | .separation n (.lab ..) t => ([n, b!"Lab"], [colShowFn t])
  | .deviceN ns (.named a) t (some _) => (ns ++ [a], [colShowFn t])
  | .iccOr _ (.calGray ..) _ data => ([b!"CalGray", data], [])
  | .indexed (.named b) _ t => ([b, t], [])
  | .lab .. => ([b!"Lab"], [])
  | _ => ([], [])
def colShowShade (s : ReadShade) : Int × Int × List Bytes :=
  (s.kind, ((s.function.map colShowFn).map Prod.fst).getD 0, (colShow s.space).1 ++ s.mesh.toList.map Mesh.data)
def colShowPat : ReadPat → Int × Int × Nat
  | .tiling p t _ _ _ _ es => (p, t, es.length)
  | .shading s m g => (0, s.kind, (m.map List.length).getD 0)

/-- What a reader of the finished file sees, if it is short enough. -/
def colReads {α : Type} (show_ : ReadColors → α) : Option (List α) := (fastRun colDoc).bind fun p => p.finish.bind fun b =>
  if b.length < 10 ^ 10 then (fileColors colUnf b 2 2 0).map fun ps => ps.map show_ else none
example {α : Type} (show_ : ReadColors → α) : colReads show_ = colDoc.run.bind fun p => p.finish.bind fun b =>
    if b.length < 10 ^ 10 then (fileColors colUnf b 2 2 0).map fun ps => ps.map show_ else none := by rw [colReads, fastRun_eq]

set_option synthInstance.maxHeartbeats 400000 in
set_option synthInstance.maxSize 2000 in
example : colReads (fun a => a.spaces.map fun x => (x.1, colShow x.2)) =
    some [[(b!"C0", [b!"Gold", b!"Lab"], [(3, 3, [])]), (b!"C1", [b!"A", b!"B", b!"DeviceCMYK"], [(4, 4, [])]), (b!"C2", [b!"CalGray", b!"profile"], []),
        (b!"C3", [b!"DeviceRGB", b!"abcdef"], []), (b!"C4", [b!"Lab"], [])]] := by decide +kernel
set_option synthInstance.maxHeartbeats 400000 in
set_option synthInstance.maxSize 2000 in
example : colReads (fun a => a.shadings.map fun x => (x.1, colShowShade x.2)) =
    some [[(b!"S0", 2, 2, []), (b!"S1", 5, 0, [b!"Gold", b!"Lab", b!"mesh"])]] := by decide +kernel
example : colReads (fun a => a.patterns.map fun x => (x.1, colShowPat x.2)) = some [[(b!"P0", 1, 2, 1), (b!"P1", 0, 5, 6)]] := by decide +kernel

end PdfW.Props
