import Verif.Spec.Viewing
import Verif.Proof.Colors
import Verif.Proof.Properties

set_option linter.unusedSimpArgs false
set_option linter.unusedVariables false

/-! # Reading how a document asks to be shown and printed -/

namespace PdfW
open Spec

variable {unf : Val → Bytes → Option Bytes} {f : FileEnd} {bytes : Bytes} {items : List Item}

theorem name_read {α : Type} (iso : α → Bytes) (a : α) (v : Val) (h : IsName (iso a) v) : nameOf v = some (iso a) := by
  simp only [IsName] at h; subst h; rfl

theorem version_read (x : UInt8 × UInt8) (v : Val) (h : IsVersion x.1 x.2 v) : versionOf v = some (x.1.toNat, x.2.toNat) := by
  obtain ⟨n, rfl, hn⟩ := h; exact hn

theorem window_read (g : GivenWindow) (calls : List ViewerPreferencesCall) (hg : g.Set calls) (d : List (Bytes × Val))
    (he : EntriesAre (ViewerPreferencesEntries calls) d) : readWindow d = some g.wanted := by
  have he : EntriesAre ([] ++ calls.flatMap ViewerPreferencesMeans) d := he
  have e1 := optional_eq (read := truthOf) (fun b : Bool => IsBool b) id he rfl hg.hideToolbar (fun _ => rfl) bool_read
  have e2 := optional_eq (read := truthOf) (fun b : Bool => IsBool b) id he rfl hg.hideMenubar (fun _ => rfl) bool_read
  have e3 := optional_eq (read := truthOf) (fun b : Bool => IsBool b) id he rfl hg.fit (fun _ => rfl) bool_read
  have e4 := optional_eq (read := truthOf) (fun b : Bool => IsBool b) id he rfl hg.center (fun _ => rfl) bool_read
  have e5 := optional_eq (read := truthOf) (fun b : Bool => IsBool b) id he rfl hg.showTitle (fun _ => rfl) bool_read
  have e6 := optional_eq (read := nameOf) (fun m => IsName (isoPageMode m)) isoPageMode he rfl hg.afterFullScreen (fun _ => rfl) (name_read _)
  have e7 := optional_eq (read := nameOf) (fun m => IsName (isoDirection m)) isoDirection he rfl hg.direction (fun _ => rfl) (name_read _)
  simp only [readWindow, e1, e2, e3, e4, e5, e6, e7, Option.bind_some, Option.map_some, Option.map_id, id, GivenWindow.wanted]
  cases g.afterFullScreen <;> cases g.direction <;> rfl

theorem marking_read (g : GivenMarking) (calls : List MarkInfoCall) (hg : g.Set calls) (d : List (Bytes × Val))
    (he : EntriesAre (MarkInfoEntries calls) d) : readMarking d = some g.wanted := by
  have he : EntriesAre ([] ++ calls.flatMap MarkInfoMeans) d := he
  have e1 := optional_eq (read := truthOf) (fun b : Bool => IsBool b) id he rfl hg.marked (fun _ => rfl) bool_read
  have e2 := optional_eq (read := truthOf) (fun b : Bool => IsBool b) id he rfl hg.userProperties (fun _ => rfl) bool_read
  have e3 := optional_eq (read := truthOf) (fun b : Bool => IsBool b) id he rfl hg.suspects (fun _ => rfl) bool_read
  simp only [readMarking, e1, e2, e3, Option.bind_some, Option.map_some, Option.map_id, id, GivenMarking.wanted]

theorem extension_read (g : GivenExtension) (hg : g.Set) (v : Val) (hv : IsDeveloperExtension g.calls v) :
    readExtension f bytes (g.key, v) = some g.wanted := by
  obtain ⟨d, rfl, he⟩ := hv
  have he : EntriesAre ([(b!"Type", IsName b!"DeveloperExtensions")] ++ g.calls.flatMap DeveloperExtensionMeans) d := he
  have e1 := required_eq (read := versionOf) _ (g.version.1.toNat, g.version.2.toNat) he rfl hg.version rfl (version_read g.version)
  have e2 := required_eq (read := intOf) _ g.level he rfl hg.level rfl (int_read g.level)
  simp only [readExtension, followDict, followRef, e1, e2, Option.bind_some, Option.map_some, GivenExtension.wanted]

theorem extensions_read (gs : List GivenExtension) (hg : ∀ g ∈ gs, g.Set) (es : List (Bytes × Val))
    (he : EntriesAre ((gs.map fun e => (e.key, e.calls)).map fun e => (e.1, IsDeveloperExtension e.2)) es) :
    readEach (readExtension f bytes) (es.filter (·.1 != b!"Type")) = some (gs.map GivenExtension.wanted) := by
  induction gs generalizing es with
  | nil => simp only [List.map_nil, EntriesAre] at he; subst he; rfl
  | cons g gs ih =>
    simp only [List.map_cons, EntriesAre] at he
    obtain ⟨w, ws, rfl, hw, hr⟩ := he
    rw [List.filter_cons_of_pos (by simp [(hg g (by simp)).key])]
    simp only [readEach, extension_read g (hg g (by simp)) w hw, Option.bind_some, ih (fun x hx => hg x (by simp [hx])) ws hr, Option.map_some,
      List.map_cons]

theorem readProfile_read (hf : Finds f bytes items) (p : GivenProfile) (hp : ProfileWritten unf items p.id p.calls p.components p.range p.data)
    (v : Val) (hv : IsRef p.id v) : readProfile unf f bytes v = some (p.components, p.data) := by
  simp only [IsRef] at hv
  subst hv
  obtain ⟨d, stored, y, q1, -, q2, -, -, q3⟩ := profile_read hf hp
  simp only [readProfile, q1, q2, q3, Option.bind_some, Option.map_some]

theorem intent_read (hf : Finds f bytes items) (g : GivenIntent) (hg : g.Set unf items) (v : Val) (hv : IsOutputIntent g.calls v) :
    readIntent unf f bytes v = some g.wanted := by
  obtain ⟨d, rfl, he⟩ := hv
  have he : EntriesAre ([(b!"Type", IsName b!"OutputIntent")] ++ g.calls.flatMap OutputIntentMeans) d := he
  have text : ∀ b v, IsText b v → readText v = some (id b) := fun b v hv => readText_isText b v hv
  have e1 := required_eq (read := nameOf) _ (isoOutputIntentSubtype g.subtype) he rfl hg.subtype rfl (name_read _ _)
  have e2 := optional_eq (read := readText) IsText id he rfl hg.condition (fun _ => rfl) text
  have e3 := required_eq (read := readText) (IsText g.identifier) g.identifier he rfl hg.identifier rfl (text _)
  have e4 := optional_eq (read := readText) IsText id he rfl hg.registry (fun _ => rfl) text
  have e5 := optional_eq (read := readText) IsText id he rfl hg.info (fun _ => rfl) text
  obtain ⟨y, e6, hb⟩ := optional_call (read := readProfile unf f bytes) (P := fun p : GivenProfile => IsRef p.id)
    (R := fun p a => a = (p.components, p.data)) he rfl hg.profile (fun _ _ => rfl) (fun p hp v hv => ⟨_, readProfile_read hf p (hg.written p hp) v hv, rfl⟩)
  have hy := bothOrNone_eq (g := fun p : GivenProfile => (p.components, p.data)) hb
  simp only [readIntent, followDict, followRef, e1, e2, e3, e4, e5, e6, hy, Option.bind_some, Option.map_some, Option.map_id, id, GivenIntent.wanted]

theorem intents_read (hf : Finds f bytes items) (gs : List GivenIntent) (hg : ∀ g ∈ gs, g.Set unf items) (vs : List Val)
    (he : ItemsAre ((gs.map GivenIntent.calls).map fun c => IsOutputIntent c) vs) :
    readEach (readIntent unf f bytes) vs = some (gs.map GivenIntent.wanted) := by
  induction gs generalizing vs with
  | nil => simp only [List.map_nil, ItemsAre] at he; subst he; rfl
  | cons g gs ih =>
    simp only [List.map_cons, ItemsAre] at he
    obtain ⟨w, ws, rfl, hw, hr⟩ := he
    simp only [readEach, intent_read hf g (hg g (by simp)) w hw, Option.bind_some, ih (fun x hx => hg x (by simp [hx])) ws hr, Option.map_some,
      List.map_cons]

/-- What is read from the catalog. -/
structure ViewingReads (unf : Val → Bytes → Option Bytes) (f : FileEnd) (file : Bytes) (d : List (Bytes × Val)) (g : GivenViewing) : Prop where
  layout : optionalEntry b!"PageLayout" d nameOf = some (g.layout.map isoPageLayout)
  mode : optionalEntry b!"PageMode" d nameOf = some (g.mode.map isoPageMode)
  window : (optionalEntry b!"ViewerPreferences" d fun v => (followDict f file v).bind readWindow) = some (g.window.map fun w => w.2.wanted)
  marking : (optionalEntry b!"MarkInfo" d fun v => (followDict f file v).bind readMarking) = some (g.marking.map fun w => w.2.wanted)
  extensions : (optionalEntry b!"Extensions" d fun v => (followDict f file v).bind fun es => readEach (readExtension f file) (es.filter (·.1 != b!"Type"))) =
    some (g.extensions.map fun es => es.map GivenExtension.wanted)
  intents : (optionalEntry b!"OutputIntents" d fun v => (itemsOf v).bind (readEach (readIntent unf f file))) =
    some (g.intents.map fun is => is.map GivenIntent.wanted)

theorem viewing_read (hf : Finds f bytes items) (g : GivenViewing) (cat : List CatalogCall) (hg : g.Set unf items cat) (d : List (Bytes × Val))
    (he : EntriesAre (CatalogEntries .code cat) d) : ViewingReads unf f bytes d g := by
  have he : EntriesAre ([(b!"Type", IsName b!"Catalog")] ++ cat.flatMap (CatalogMeans .code)) d := he
  refine ⟨?_, ?_, ?_, ?_, ?_, ?_⟩
  · exact optional_eq (read := nameOf) (fun m => IsName (isoPageLayout m)) isoPageLayout he rfl hg.layout (fun _ => rfl) (name_read _)
  · exact optional_eq (read := nameOf) (fun m => IsName (isoPageMode m)) isoPageMode he rfl hg.mode (fun _ => rfl) (name_read _)
  · obtain ⟨y, h, hb⟩ := optional_call (read := fun v => (followDict f bytes v).bind readWindow)
      (P := fun w : List ViewerPreferencesCall × GivenWindow => IsViewerPreferences w.1) (R := fun w a => a = w.2.wanted) he rfl hg.window (fun _ _ => rfl)
      (fun w hw v hv => by
        obtain ⟨d, rfl, hd⟩ := hv
        exact ⟨_, by simp only [followDict, followRef, Option.bind_some]; exact window_read w.2 w.1 (hg.windowSet w hw) d hd, rfl⟩)
    rw [h, bothOrNone_eq (g := fun w : List ViewerPreferencesCall × GivenWindow => w.2.wanted) hb]
  · obtain ⟨y, h, hb⟩ := optional_call (read := fun v => (followDict f bytes v).bind readMarking)
      (P := fun w : List MarkInfoCall × GivenMarking => IsMarkInfo w.1) (R := fun w a => a = w.2.wanted) he rfl hg.marking (fun _ _ => rfl)
      (fun w hw v hv => by
        obtain ⟨d, rfl, hd⟩ := hv
        exact ⟨_, by simp only [followDict, followRef, Option.bind_some]; exact marking_read w.2 w.1 (hg.markingSet w hw) d hd, rfl⟩)
    rw [h, bothOrNone_eq (g := fun w : List MarkInfoCall × GivenMarking => w.2.wanted) hb]
  · obtain ⟨y, h, hb⟩ := optional_call (read := fun v => (followDict f bytes v).bind fun es => readEach (readExtension f bytes) (es.filter (·.1 != b!"Type")))
      (P := fun gs : List GivenExtension => DictIs ((gs.map fun e => (e.key, e.calls)).map fun e => (e.1, IsDeveloperExtension e.2)))
      (R := fun gs a => a = gs.map GivenExtension.wanted) he rfl hg.extensions (fun _ _ => rfl)
      (fun gs hgs v hv => by
        obtain ⟨d, rfl, hd⟩ := hv
        exact ⟨_, by simp only [followDict, followRef, Option.bind_some]; exact extensions_read gs (hg.extensionsSet gs hgs) d hd, rfl⟩)
    rw [h, bothOrNone_eq (g := fun gs : List GivenExtension => gs.map GivenExtension.wanted) hb]
  · obtain ⟨y, h, hb⟩ := optional_call (read := fun v => (itemsOf v).bind (readEach (readIntent unf f bytes)))
      (P := fun gs : List GivenIntent => ArrayIs ((gs.map GivenIntent.calls).map fun c => IsOutputIntent c))
      (R := fun gs a => a = gs.map GivenIntent.wanted) he rfl hg.intents (fun _ _ => rfl)
      (fun gs hgs v hv => by
        obtain ⟨vs, rfl, hd⟩ := hv
        exact ⟨_, by simp only [itemsOf, Option.bind_some]; exact intents_read hf gs (hg.intentsSet gs hgs) vs hd, rfl⟩)
    rw [h, bothOrNone_eq (g := fun gs : List GivenIntent => gs.map GivenIntent.wanted) hb]

end PdfW
