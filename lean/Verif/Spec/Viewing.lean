import Verif.Spec.Colors

/-!
# How a document asks to be shown and printed (ISO 32000-1, 7.7.2, 7.12, 12.2, 14.7.1 and 14.11.5)

A reader that is given only the bytes of a file and obtains how the document is to be shown when it is opened, what it says about its
marking, which extensions it uses, and for which output conditions it was made. It knows nothing about the writer.
-/

namespace PdfW.Spec
open PdfW

/-! ## The reader -/

/-- Preferences for the window (Table 150), with the defaults of that table. -/
structure Window where
  hideToolbar : Bool := false
  hideMenubar : Bool := false
  fit : Bool := false
  center : Bool := false
  showTitle : Bool := false
  afterFullScreen : Bytes := b!"UseNone"
  direction : Bytes := b!"L2R"
deriving DecidableEq

/-- Mark information (Table 321), with the defaults of that table. -/
structure Marking where
  marked : Bool := false
  userProperties : Bool := false
  suspects : Bool := false
deriving DecidableEq

/-- An output intent (Table 365); the profile is its number of components (Table 66) and its data after undoing filters. -/
structure Intent where
  subtype : Bytes
  condition : Option (List Char)
  identifier : List Char
  registry : Option (List Char)
  info : Option (List Char)
  profile : Option (Int × Bytes)
deriving DecidableEq

/-- How a document asks to be shown and printed. An extension is its prefix, the version it extends and its level (Tables 49 and 50). -/
structure Viewing where
  layout : Bytes := b!"SinglePage"
  mode : Bytes := b!"UseNone"
  window : Window := {}
  marking : Marking := {}
  extensions : List (Bytes × (Nat × Nat) × Int) := []
  intents : List Intent := []
deriving DecidableEq

/-- A viewer preferences dictionary (Table 150). -/
def readWindow (d : List (Bytes × Val)) : Option Window :=
  (optionalEntry b!"HideToolbar" d truthOf).bind fun toolbar => (optionalEntry b!"HideMenubar" d truthOf).bind fun menubar =>
  (optionalEntry b!"FitWindow" d truthOf).bind fun fit => (optionalEntry b!"CenterWindow" d truthOf).bind fun center =>
  (optionalEntry b!"DisplayDocTitle" d truthOf).bind fun title => (optionalEntry b!"NonFullScreenPageMode" d nameOf).bind fun mode =>
  (optionalEntry b!"Direction" d nameOf).map fun direction =>
    ⟨toolbar.getD false, menubar.getD false, fit.getD false, center.getD false, title.getD false, mode.getD b!"UseNone", direction.getD b!"L2R"⟩

/-- A mark information dictionary (Table 321). -/
def readMarking (d : List (Bytes × Val)) : Option Marking :=
  (optionalEntry b!"Marked" d truthOf).bind fun marked => (optionalEntry b!"UserProperties" d truthOf).bind fun user =>
  (optionalEntry b!"Suspects" d truthOf).map fun suspects => ⟨marked.getD false, user.getD false, suspects.getD false⟩

/-- An entry of the extensions dictionary (Table 50). -/
def readExtension (f : FileEnd) (file : Bytes) (e : Bytes × Val) : Option (Bytes × (Nat × Nat) × Int) :=
  (followDict f file e.2).bind fun d => (requiredEntry b!"BaseVersion" d versionOf).bind fun version =>
    (requiredEntry b!"ExtensionLevel" d intOf).map fun level => (e.1, version, level)

/-- The profile of an output intent: a stream (8.6.5.5). -/
def readProfile (unf : Val → Bytes → Option Bytes) (f : FileEnd) (file : Bytes) : Val → Option (Int × Bytes)
  | .ref n 0 =>
    match f.object file n with
    | some (.stream d _) => (requiredEntry b!"N" d intOf).bind fun k => (decodedStream unf f file n).map fun data => (k, data)
    | _ => none
  | _ => none

/-- An output intent (Table 365). -/
def readIntent (unf : Val → Bytes → Option Bytes) (f : FileEnd) (file : Bytes) (v : Val) : Option Intent :=
  (followDict f file v).bind fun d => (requiredEntry b!"S" d nameOf).bind fun subtype =>
  (optionalEntry b!"OutputCondition" d readText).bind fun condition => (requiredEntry b!"OutputConditionIdentifier" d readText).bind fun identifier =>
  (optionalEntry b!"RegistryName" d readText).bind fun registry => (optionalEntry b!"Info" d readText).bind fun info =>
  (optionalEntry b!"DestOutputProfile" d (readProfile unf f file)).map fun profile => ⟨subtype, condition, identifier, registry, info, profile⟩

/-- How a file asks to be shown and printed: trailer, catalog, and the dictionaries and arrays there. `Type` is not an extension. -/
def fileViewing (unf : Val → Bytes → Option Bytes) (file : Bytes) : Option Viewing :=
  (readFile unf file).bind fun f => (readCatalog f file).bind fun d =>
  (optionalEntry b!"PageLayout" d nameOf).bind fun layout => (optionalEntry b!"PageMode" d nameOf).bind fun mode =>
  (optionalEntry b!"ViewerPreferences" d fun v => (followDict f file v).bind readWindow).bind fun window =>
  (optionalEntry b!"MarkInfo" d fun v => (followDict f file v).bind readMarking).bind fun marking =>
  (optionalEntry b!"Extensions" d fun v => (followDict f file v).bind fun es => readEach (readExtension f file) (es.filter (·.1 != b!"Type"))).bind fun extensions =>
  (optionalEntry b!"OutputIntents" d fun v => (itemsOf v).bind (readEach (readIntent unf f file))).map fun intents =>
    ⟨layout.getD b!"SinglePage", mode.getD b!"UseNone", window.getD {}, marking.getD {}, extensions.getD [], intents.getD []⟩

/-! ## What was asked for -/

/-- Preferences for the window as given to the API. -/
structure GivenWindow where
  hideToolbar : Option Bool
  hideMenubar : Option Bool
  fit : Option Bool
  center : Option Bool
  showTitle : Option Bool
  afterFullScreen : Option PageMode
  direction : Option Direction

/-- They were set by these calls. -/
structure GivenWindow.Set (g : GivenWindow) (calls : List ViewerPreferencesCall) : Prop where
  hideToolbar : MaybeCall ViewerPreferencesMeans b!"HideToolbar" calls g.hideToolbar .hideToolbar
  hideMenubar : MaybeCall ViewerPreferencesMeans b!"HideMenubar" calls g.hideMenubar .hideMenubar
  fit : MaybeCall ViewerPreferencesMeans b!"FitWindow" calls g.fit .fitWindow
  center : MaybeCall ViewerPreferencesMeans b!"CenterWindow" calls g.center .centerWindow
  showTitle : MaybeCall ViewerPreferencesMeans b!"DisplayDocTitle" calls g.showTitle .displayDocTitle
  afterFullScreen : MaybeCall ViewerPreferencesMeans b!"NonFullScreenPageMode" calls g.afterFullScreen .nonFullScreenPageMode
  direction : MaybeCall ViewerPreferencesMeans b!"Direction" calls g.direction .direction

/-- What a reader should use: what was given, or the default. -/
def GivenWindow.wanted (g : GivenWindow) : Window where
  hideToolbar := g.hideToolbar.getD false
  hideMenubar := g.hideMenubar.getD false
  fit := g.fit.getD false
  center := g.center.getD false
  showTitle := g.showTitle.getD false
  afterFullScreen := isoPageMode (g.afterFullScreen.getD .useNone)
  direction := isoDirection (g.direction.getD .l2r)

/-- Mark information as given to the API. -/
structure GivenMarking where
  marked : Option Bool
  userProperties : Option Bool
  suspects : Option Bool

/-- It was set by these calls. -/
structure GivenMarking.Set (g : GivenMarking) (calls : List MarkInfoCall) : Prop where
  marked : MaybeCall MarkInfoMeans b!"Marked" calls g.marked .marked
  userProperties : MaybeCall MarkInfoMeans b!"UserProperties" calls g.userProperties .userProperties
  suspects : MaybeCall MarkInfoMeans b!"Suspects" calls g.suspects .suspects

/-- What a reader should use: what was given, or the default. -/
def GivenMarking.wanted (g : GivenMarking) : Marking := ⟨g.marked.getD false, g.userProperties.getD false, g.suspects.getD false⟩

/-- A developer extension as given to the API. -/
structure GivenExtension where
  key : Bytes
  calls : List DeveloperExtensionCall
  version : UInt8 × UInt8
  level : Int

/-- It was set by its calls; `Type` is not a prefix. -/
structure GivenExtension.Set (g : GivenExtension) : Prop where
  key : g.key ≠ b!"Type"
  version : OnlyCall DeveloperExtensionMeans b!"BaseVersion" g.calls (.baseVersion g.version.1 g.version.2)
  level : OnlyCall DeveloperExtensionMeans b!"ExtensionLevel" g.calls (.extensionLevel g.level)

/-- What a reader should obtain. -/
def GivenExtension.wanted (g : GivenExtension) : Bytes × (Nat × Nat) × Int := (g.key, (g.version.1.toNat, g.version.2.toNat), g.level)

/-- An ICC profile as given to the API: a stream, what its data decode to, and the number of components. -/
structure GivenProfile where
  id : Ref
  calls : List IccProfileCall
  components : Int
  range : Option (List F32)
  data : Bytes

/-- An output intent as given to the API. -/
structure GivenIntent where
  calls : List OutputIntentCall
  subtype : OutputIntentSubtype
  condition : Option (List Char)
  identifier : List Char
  registry : Option (List Char)
  info : Option (List Char)
  profile : Option GivenProfile

/-- It was set by its calls, and the profile was written. -/
structure GivenIntent.Set (unf : Val → Bytes → Option Bytes) (items : List Item) (g : GivenIntent) : Prop where
  subtype : OnlyCall OutputIntentMeans b!"S" g.calls (.subtype g.subtype)
  condition : MaybeCall OutputIntentMeans b!"OutputCondition" g.calls g.condition (fun t => .outputCondition (.plain t))
  identifier : OnlyCall OutputIntentMeans b!"OutputConditionIdentifier" g.calls (.outputConditionIdentifier (.plain g.identifier))
  registry : MaybeCall OutputIntentMeans b!"RegistryName" g.calls g.registry .registryName
  info : MaybeCall OutputIntentMeans b!"Info" g.calls g.info (fun t => .info (.plain t))
  profile : MaybeCall OutputIntentMeans b!"DestOutputProfile" g.calls g.profile (fun p => .destOutputProfile p.id)
  written : ∀ p, g.profile = some p → ProfileWritten unf items p.id p.calls p.components p.range p.data

/-- What a reader should obtain. -/
def GivenIntent.wanted (g : GivenIntent) : Intent :=
  ⟨isoOutputIntentSubtype g.subtype, g.condition, g.identifier, g.registry, g.info, g.profile.map fun p => (p.components, p.data)⟩

/-- How the document is to be shown and printed, as given to the API. -/
structure GivenViewing where
  layout : Option PageLayout
  mode : Option PageMode
  window : Option (List ViewerPreferencesCall × GivenWindow)
  marking : Option (List MarkInfoCall × GivenMarking)
  extensions : Option (List GivenExtension)
  intents : Option (List GivenIntent)

/-- It was set by these calls on the catalog. -/
structure GivenViewing.Set (unf : Val → Bytes → Option Bytes) (items : List Item) (g : GivenViewing) (cat : List CatalogCall) : Prop where
  layout : MaybeCall (CatalogMeans .code) b!"PageLayout" cat g.layout .pageLayout
  mode : MaybeCall (CatalogMeans .code) b!"PageMode" cat g.mode .pageMode
  window : MaybeCall (CatalogMeans .code) b!"ViewerPreferences" cat g.window (fun w => .viewerPreferences w.1)
  windowSet : ∀ w, g.window = some w → w.2.Set w.1
  marking : MaybeCall (CatalogMeans .code) b!"MarkInfo" cat g.marking (fun m => .markInfo m.1)
  markingSet : ∀ m, g.marking = some m → m.2.Set m.1
  extensions : MaybeCall (CatalogMeans .code) b!"Extensions" cat g.extensions (fun es => .extensions (es.map fun e => (e.key, e.calls)))
  extensionsSet : ∀ es, g.extensions = some es → ∀ e ∈ es, e.Set
  intents : MaybeCall (CatalogMeans .code) b!"OutputIntents" cat g.intents (fun is => .outputIntents (is.map GivenIntent.calls))
  intentsSet : ∀ is, g.intents = some is → ∀ i ∈ is, i.Set unf items

/-- What a reader should use: what was given, or the default. -/
def GivenViewing.wanted (g : GivenViewing) : Viewing where
  layout := isoPageLayout (g.layout.getD .singlePage)
  mode := isoPageMode (g.mode.getD .useNone)
  window := (g.window.map fun w => w.2.wanted).getD {}
  marking := (g.marking.map fun m => m.2.wanted).getD {}
  extensions := (g.extensions.getD []).map GivenExtension.wanted
  intents := (g.intents.getD []).map GivenIntent.wanted

end PdfW.Spec
