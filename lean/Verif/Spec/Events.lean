import Verif.Spec.Annots
import Verif.Spec.Colors

/-!
# Actions and the events that trigger them (ISO 32000-1, 12.6, 13.2 and 7.7.4)

A reader that is given only the bytes of a file and obtains which actions are performed when the document is opened, closed, saved or
printed, when a page is opened or closed, when an annotation is activated or entered with the pointer, and when a form field changes. It knows
nothing about the writer.
-/

namespace PdfW.Spec
open PdfW

/-! ## The reader -/

/-- A field in the list of an action: by object number or by its name (Tables 236 and 238). -/
inductive FieldRef where
  | object (n : Nat)
  | named (name : List Char)
deriving DecidableEq

/-- A file that an action refers to (Table 44). -/
structure Place where
  system : Option Bytes
  path : Option Bytes
  unicode : Option (List Char)
deriving DecidableEq

/-- A media clip (Tables 274 to 276). -/
structure Clip where
  kind : Bytes
  name : Option (List Char)
  place : Option Place
  mime : Option Bytes
  temporary : Option Bytes
  alternates : Option (List (List Char))
deriving DecidableEq

/-- A rendition (Tables 266 and 271), with whether controls are shown (Table 280). -/
structure Media where
  kind : Bytes
  name : Option (List Char)
  clip : Option Clip
  controls : Option Bool
deriving DecidableEq

/-- What an action does (12.6.4). -/
inductive ReadAction where
  | goTo (page : Nat) (view : List Val)
  | remote (place : Place) (name : Bytes) (window : Option Bool)
  | launch (place : Place) (window : Option Bool)
  | uri (u : Bytes) (isMap : Bool)
  | submit (place : Place) (fields : Option (List FieldRef)) (flags : Nat)
  | reset (fields : Option (List FieldRef)) (flags : Nat)
  | importData (place : Place)
  | script (text : List Char)
  | rendition (operation : Option Int) (annotation : Option Nat) (media : Option Media)

/-- A file specification (Table 44). -/
def readPlace (f : FileEnd) (file : Bytes) (v : Val) : Option Place :=
  (followDict f file v).bind fun d => (optionalEntry b!"FS" d nameOf).bind fun system => (optionalEntry b!"F" d strOf).bind fun path =>
    (optionalEntry b!"UF" d readText).map fun unicode => ⟨system, path, unicode⟩

/-- A field of an action. -/
def readFieldRef : Val → Option FieldRef
  | .ref n 0 => some (.object n)
  | .str s => (decodeText s).map .named
  | _ => none

/-- The fields of an action. -/
def readFieldRefs (v : Val) : Option (List FieldRef) := (itemsOf v).bind (readEach readFieldRef)

/-- A script: a text string or a stream (Table 217). -/
def readScript (unf : Val → Bytes → Option Bytes) (f : FileEnd) (file : Bytes) : Val → Option (List Char)
  | .ref n 0 => (decodedStream unf f file n).bind decodeText
  | v => readText v

/-- A media clip. -/
def readClip (f : FileEnd) (file : Bytes) (v : Val) : Option Clip :=
  (followDict f file v).bind fun d => (requiredEntry b!"S" d nameOf).bind fun kind => (optionalEntry b!"N" d readText).bind fun name =>
  (optionalEntry b!"D" d (readPlace f file)).bind fun place => (optionalEntry b!"CT" d strOf).bind fun mime =>
  (optionalEntry b!"P" d fun v => (followDict f file v).bind fun p => optionalEntry b!"TF" p strOf).bind fun temporary =>
  (optionalEntry b!"Alt" d fun v => (itemsOf v).bind (readEach readText)).map fun alternates =>
    ⟨kind, name, place, mime, temporary.join, alternates⟩

/-- A rendition. That controls are shown is a best-effort parameter. -/
def readMedia (f : FileEnd) (file : Bytes) (v : Val) : Option Media :=
  (followDict f file v).bind fun d => (requiredEntry b!"S" d nameOf).bind fun kind => (optionalEntry b!"N" d readText).bind fun name =>
  (optionalEntry b!"C" d (readClip f file)).bind fun clip =>
  (optionalEntry b!"P" d fun v => (followDict f file v).bind fun p =>
    optionalEntry b!"BE" p fun v => (followDict f file v).bind fun b => optionalEntry b!"C" b truthOf).map fun controls =>
      ⟨kind, name, clip, controls.join.join⟩

/-- An action (Table 193 and those for the types of actions). -/
def readAction (unf : Val → Bytes → Option Bytes) (f : FileEnd) (file : Bytes) (nav : Navigator) (v : Val) : Option ReadAction :=
  (followDict f file v).bind fun d => (requiredEntry b!"S" d nameOf).bind fun s =>
    if s = b!"GoTo" then (requiredEntry b!"D" d (readDest nav)).map fun t => .goTo t.1 t.2
    else if s = b!"GoToR" then
      (requiredEntry b!"F" d (readPlace f file)).bind fun place => (requiredEntry b!"D" d nameOf).bind fun name =>
        (optionalEntry b!"NewWindow" d truthOf).map fun window => .remote place name window
    else if s = b!"Launch" then
      (requiredEntry b!"F" d (readPlace f file)).bind fun place => (optionalEntry b!"NewWindow" d truthOf).map fun window => .launch place window
    else if s = b!"URI" then
      (requiredEntry b!"URI" d strOf).bind fun u => (optionalEntry b!"IsMap" d truthOf).map fun isMap => .uri u (isMap.getD false)
    else if s = b!"SubmitForm" then
      (requiredEntry b!"F" d (readPlace f file)).bind fun place => (optionalEntry b!"Fields" d readFieldRefs).bind fun fields =>
        (optionalEntry b!"Flags" d flagsOf).map fun flags => .submit place fields (flags.getD 0)
    else if s = b!"ResetForm" then
      (optionalEntry b!"Fields" d readFieldRefs).bind fun fields => (optionalEntry b!"Flags" d flagsOf).map fun flags => .reset fields (flags.getD 0)
    else if s = b!"ImportData" then (requiredEntry b!"F" d (readPlace f file)).map .importData
    else if s = b!"JavaScript" then (requiredEntry b!"JS" d (readScript unf f file)).map .script
    else if s = b!"Rendition" then
      (optionalEntry b!"OP" d intOf).bind fun operation => (optionalEntry b!"AN" d refNumber).bind fun annotation =>
        (optionalEntry b!"R" d (readMedia f file)).map fun media => .rendition operation annotation media
    else none

/-- What can trigger an action. -/
inductive Event where
  | beforeClose | beforeSave | afterSave | beforePrint | afterPrint
  | pageOpened | pageClosed
  | activated | entered | exited | pressed | released | focused | blurred | opened | shown | hidden
  | keystroke | format | validate | calculate
deriving DecidableEq

/-- The events of a document (Table 197). -/
def documentEvents : List (Bytes × Event) :=
  [(b!"WC", .beforeClose), (b!"WS", .beforeSave), (b!"DS", .afterSave), (b!"WP", .beforePrint), (b!"DP", .afterPrint)]
/-- The events of a page (Table 195). -/
def pageEvents : List (Bytes × Event) := [(b!"O", .pageOpened), (b!"C", .pageClosed)]
/-- The events of an annotation (Table 194), without `PC`, which the crate does not write, and of a field (Table 196). -/
def annotationEvents : List (Bytes × Event) :=
  [(b!"E", .entered), (b!"X", .exited), (b!"D", .pressed), (b!"U", .released), (b!"Fo", .focused), (b!"Bl", .blurred), (b!"PO", .opened),
   (b!"PV", .shown), (b!"PI", .hidden), (b!"K", .keystroke), (b!"F", .format), (b!"V", .validate), (b!"C", .calculate)]

/-- The actions of an additional-actions dictionary, in the order of the table. -/
def readEvents (read : Val → Option ReadAction) (table : List (Bytes × Event)) (d : List (Bytes × Val)) : Option (List (Event × ReadAction)) :=
  match table with
  | [] => some []
  | e :: es => (optionalEntry e.1 d read).bind fun a => (readEvents read es d).map ((a.map fun a => (e.2, a)).toList ++ ·)

/-- The additional actions of a dictionary; none if there is no such entry. -/
def readAdditional (f : FileEnd) (file : Bytes) (read : Val → Option ReadAction) (table : List (Bytes × Event)) (d : List (Bytes × Val)) :
    Option (List (Event × ReadAction)) :=
  (optionalEntry b!"AA" d (followDict f file)).bind fun aa => readEvents read table (aa.getD [])

/-- The actions of an annotation: the one performed when it is activated, and the others. -/
def readAnnotEvents (f : FileEnd) (file : Bytes) (read : Val → Option ReadAction) (n : Nat) : Option (List (Event × ReadAction)) :=
  (dictObject f file n).bind fun d => (optionalEntry b!"A" d read).bind fun a =>
    (readAdditional f file read annotationEvents d).map ((a.map fun a => (.activated, a)).toList ++ ·)

/-- A page: its own actions, and those of its annotations. -/
def readPageEvents (f : FileEnd) (file : Bytes) (read : Val → Option ReadAction) (n : Nat) :
    Option (List (Event × ReadAction) × List (List (Event × ReadAction))) :=
  (dictObject f file n).bind fun d => (readAdditional f file read pageEvents d).bind fun own =>
    ((pageAnnots f file n).bind (readEach (readAnnotEvents f file read))).map fun annots => (own, annots)

/-- All actions of a document: the scripts that are run when it is opened, with their names (Table 31, JavaScript), the actions for events of the
document, and those of each page. -/
structure FileEvents where
  scripts : List (Bytes × ReadAction)
  document : List (Event × ReadAction)
  pages : List (List (Event × ReadAction) × List (List (Event × ReadAction)))

/-- The named scripts. -/
def readScripts (f : FileEnd) (file : Bytes) (read : Val → Option ReadAction) (depth : Nat) (d : List (Bytes × Val)) : Option (List (Bytes × ReadAction)) :=
  (optionalEntry b!"Names" d (followDict f file)).bind fun names => (optionalEntry b!"JavaScript" (names.getD []) (followDict f file)).bind fun tree =>
    match tree with
    | none => some []
    | some td => (listTree b!"Names" strOf f file depth td).bind (readEach fun e => (read e.2).map fun a => (e.1, a))

/-- The actions of a file; `depth` bounds the depth of the page tree and of the name tree. -/
def fileEvents (unf : Val → Bytes → Option Bytes) (file : Bytes) (depth : Nat) : Option FileEvents :=
  (readFile unf file).bind fun f => (readCatalog f file).bind fun d => (readNavigator f file depth d).bind fun nav =>
    (readScripts f file (readAction unf f file nav) depth d).bind fun scripts =>
    (readAdditional f file (readAction unf f file nav) documentEvents d).bind fun document =>
      (readEach (readPageEvents f file (readAction unf f file nav)) nav.pages).map fun pages => ⟨scripts, document, pages⟩

/-! ## What was asked for -/

/-- A file specification as given to the API. -/
structure GivenPlace where
  calls : List FileSpecCall
  is : Place

/-- It was set by its calls. -/
structure GivenPlace.Set (g : GivenPlace) : Prop where
  system : MaybeCall FileSpecMeans b!"FS" g.calls g.is.system .fileSystem
  path : MaybeCall FileSpecMeans b!"F" g.calls g.is.path .path
  unicode : MaybeCall FileSpecMeans b!"UF" g.calls g.is.unicode .unicFile

/-- A field as given to the API. -/
inductive GivenFieldRef where
  | object (id : Ref)
  | named (name : List Char)

/-- The fields that these calls list. -/
def fieldsGiven : List FieldsCall → Option (List GivenFieldRef)
  | [] => some []
  | .id r :: cs => (fieldsGiven cs).map (.object r :: ·)
  | .ids rs :: cs => (fieldsGiven cs).map (rs.map .object ++ ·)
  | .name n :: cs => (fieldsGiven cs).map (.named n :: ·)
  | .names ns :: cs => (fieldsGiven cs).map (ns.map .named ++ ·)
  | .raw _ :: _ => none

/-- What a reader should obtain. -/
def GivenFieldRef.wanted : GivenFieldRef → FieldRef
  | .object id => .object id.get.toNat
  | .named n => .named n

/-- A list of fields as given to the API. -/
structure GivenFields where
  calls : List FieldsCall
  list : List GivenFieldRef

/-- A media clip as given to the API. -/
structure GivenClip where
  calls : List MediaClipCall
  kind : MediaClipType
  name : Option (List Char)
  place : Option GivenPlace
  mime : Option Bytes
  permissions : Option (List MediaPermissionsCall)
  temporary : Option TempFileType
  alternates : Option (List (List Char))

/-- It was set by its calls. -/
structure GivenClip.Set (g : GivenClip) : Prop where
  kind : OnlyCall MediaClipMeans b!"S" g.calls (.subtype g.kind)
  name : MaybeCall MediaClipMeans b!"N" g.calls g.name fun t => .name (.plain t)
  place : MaybeCall MediaClipMeans b!"D" g.calls g.place fun p => .data p.calls
  placeSet : ∀ p, g.place = some p → p.Set
  mime : MaybeCall MediaClipMeans b!"CT" g.calls g.mime .dataType
  permissions : MaybeCall MediaClipMeans b!"P" g.calls g.permissions .permissions
  temporary : MaybeCall MediaPermissionsMeans b!"TF" (g.permissions.getD []) g.temporary .tempFile
  alternates : MaybeCall MediaClipMeans b!"Alt" g.calls g.alternates .altTexts

/-- What a reader should obtain. -/
def GivenClip.wanted (g : GivenClip) : Clip :=
  ⟨isoMediaClipType g.kind, g.name, g.place.map GivenPlace.is, g.mime, g.temporary.map isoTempFileType, g.alternates⟩

/-- A rendition as given to the API. -/
structure GivenMedia where
  calls : List RenditionCall
  kind : RenditionType
  name : Option (List Char)
  clip : Option GivenClip
  play : Option (List MediaPlayParamsCall)
  controls : Option Bool

/-- It was set by its calls. -/
structure GivenMedia.Set (g : GivenMedia) : Prop where
  kind : OnlyCall RenditionMeans b!"S" g.calls (.subtype g.kind)
  name : MaybeCall RenditionMeans b!"N" g.calls g.name fun t => .name (.plain t)
  clip : MaybeCall RenditionMeans b!"C" g.calls g.clip fun c => .mediaClip c.calls
  clipSet : ∀ c, g.clip = some c → c.Set
  play : MaybeCall RenditionMeans b!"P" g.calls g.play .mediaPlayParams
  controls : MaybeCall MediaPlayParamsMeans b!"BE" (g.play.getD []) g.controls .controls

/-- What a reader should obtain. -/
def GivenMedia.wanted (g : GivenMedia) : Media := ⟨isoRenditionType g.kind, g.name, g.clip.map GivenClip.wanted, g.controls⟩

/-- An action as given to the API. -/
inductive GivenAction where
  | goTo (dest : GivenDest)
  | remote (place : GivenPlace) (name : Bytes) (window : Option Bool)
  | launch (place : GivenPlace) (window : Option Bool)
  | uri (u : Bytes) (isMap : Option Bool)
  | submit (place : GivenPlace) (fields : Option GivenFields) (flags : Option (List FormActionFlag))
  | reset (fields : Option GivenFields) (flags : Option (List FormActionFlag))
  | importData (place : GivenPlace)
  | script (text : List Char)
  | scriptStream (id : Ref) (stream : List StreamCall) (stored data : Bytes) (text : List Char)
  | rendition (operation : Option RenditionOperation) (annotation : Option Ref) (media : Option GivenMedia)

/-- The action was set by these calls. Destinations lead to pages of the document; streams with scripts were written. -/
def ActionSet (unf : Val → Bytes → Option Bytes) (items : List Item) (cat : List CatalogCall) (ids : List Ref) (calls : List ActionCall) : GivenAction → Prop
  | .goTo g => OnlyCall ActionMeans b!"S" calls (.actionType .goTo) ∧ OnlyCall ActionMeans b!"D" calls (g.call .destination .destinationNamed) ∧
      DestOk items cat ids g
  | .remote p n w => OnlyCall ActionMeans b!"S" calls (.actionType .remoteGoTo) ∧ OnlyCall ActionMeans b!"F" calls (.fileSpec p.calls) ∧ p.Set ∧
      OnlyCall ActionMeans b!"D" calls (.destinationNamed n) ∧ MaybeCall ActionMeans b!"NewWindow" calls w .newWindow
  | .launch p w => OnlyCall ActionMeans b!"S" calls (.actionType .launch) ∧ OnlyCall ActionMeans b!"F" calls (.fileSpec p.calls) ∧ p.Set ∧
      MaybeCall ActionMeans b!"NewWindow" calls w .newWindow
  | .uri u m => OnlyCall ActionMeans b!"S" calls (.actionType .uri) ∧ OnlyCall ActionMeans b!"URI" calls (.uri u) ∧
      MaybeCall ActionMeans b!"IsMap" calls m .isMap
  | .submit p fs fl => OnlyCall ActionMeans b!"S" calls (.actionType .submitForm) ∧ OnlyCall ActionMeans b!"F" calls (.fileSpec p.calls) ∧ p.Set ∧
      MaybeCall ActionMeans b!"Fields" calls fs (fun g => .fields g.calls) ∧ (∀ g, fs = some g → fieldsGiven g.calls = some g.list) ∧
      MaybeCall ActionMeans b!"Flags" calls fl .formFlags
  | .reset fs fl => OnlyCall ActionMeans b!"S" calls (.actionType .resetForm) ∧
      MaybeCall ActionMeans b!"Fields" calls fs (fun g => .fields g.calls) ∧ (∀ g, fs = some g → fieldsGiven g.calls = some g.list) ∧
      MaybeCall ActionMeans b!"Flags" calls fl .formFlags
  | .importData p => OnlyCall ActionMeans b!"S" calls (.actionType .importData) ∧ OnlyCall ActionMeans b!"F" calls (.fileSpec p.calls) ∧ p.Set
  | .script t => OnlyCall ActionMeans b!"S" calls (.actionType .javaScript) ∧ OnlyCall ActionMeans b!"JS" calls (.jsString t)
  | .scriptStream id stream stored data t => OnlyCall ActionMeans b!"S" calls (.actionType .javaScript) ∧ OnlyCall ActionMeans b!"JS" calls (.jsStream id) ∧
      HasObject items id (.stream (Stream.entries stream) stored) ∧ DataStored unf stream stored data ∧ decodeText data = some t
  | .rendition op an m => OnlyCall ActionMeans b!"S" calls (.actionType .rendition) ∧ MaybeCall ActionMeans b!"OP" calls op .operation ∧
      MaybeCall ActionMeans b!"AN" calls an .annotation ∧ MaybeCall ActionMeans b!"R" calls m (fun g => .rendition g.calls) ∧ ∀ g, m = some g → g.Set

/-- The method of `AdditionalActions` for an event. (Activation is in no table: it is the action of the annotation itself.) -/
def _root_.PdfW.Spec.Event.call : Event → List ActionCall → AdditionalActionsCall
  | .beforeClose => .catBeforeClose
  | .beforeSave => .catBeforeSave
  | .afterSave => .catAfterSave
  | .beforePrint => .catBeforePrint
  | .afterPrint => .catAfterPrint
  | .pageOpened => .pageOpen
  | .pageClosed => .pageClose
  | .activated => .annotMouseRelease
  | .entered => .annotCurserEnter
  | .exited => .annotCursorExit
  | .pressed => .annotMousePress
  | .released => .annotMouseRelease
  | .focused => .widgetFocus
  | .blurred => .widgetFocusLoss
  | .opened => .annotPageOpen
  | .shown => .annotPageVisible
  | .hidden => .annotPageInvisible
  | .keystroke => .formCalculatePartial
  | .format => .formFormat
  | .validate => .formValidate
  | .calculate => .formCalculate

/-- An action with the calls that set it. -/
abbrev CalledAction := List ActionCall × GivenAction

/-- The actions for events, with the calls on `AdditionalActions`, if it was started. -/
structure GivenEvents where
  calls : Option (List AdditionalActionsCall)
  on : Event → Option CalledAction

/-- The actions for the events of a table were set. -/
def GivenEvents.Set (g : GivenEvents) (table : List (Bytes × Event)) (ok : List ActionCall → GivenAction → Prop) : Prop :=
  ∀ e ∈ table, MaybeCall (AdditionalActionsMeans .code) e.1 (g.calls.getD []) (g.on e.2) (fun a => e.2.call a.1) ∧ ∀ a, g.on e.2 = some a → ok a.1 a.2

/-- The actions in the order of the table. -/
def GivenEvents.list (g : GivenEvents) (table : List (Bytes × Event)) : List (Event × CalledAction) :=
  table.filterMap fun e => (g.on e.2).map fun a => (e.2, a)

/-- An annotation with its actions as given to the API. -/
structure EventAnnot where
  id : Ref
  source : AnnotSource
  action : Option CalledAction
  events : GivenEvents

/-- The additional actions were set on the annotation, or on the field that was made an annotation. -/
def AnnotSource.SetsEvents (s : AnnotSource) (calls : Option (List AdditionalActionsCall)) : Prop :=
  s.Sets b!"AA" calls .additionalActions ∨
  ∃ field annot aa, s = .widget field annot ∧ calls = some aa ∧ OnlyCall (FieldMeans .code) b!"AA" field (.additionalActions aa)

/-- The annotation was written. -/
structure EventAnnot.Written (items : List Item) (ok : List ActionCall → GivenAction → Prop) (g : EventAnnot) : Prop where
  object : HasObject items g.id (.val g.source.body)
  action : g.source.Sets b!"A" g.action fun a => .action a.1
  actionSet : ∀ a, g.action = some a → ok a.1 a.2
  additional : g.source.SetsEvents g.events.calls
  events : g.events.Set annotationEvents ok

/-- A page with its actions as given to the API. -/
structure EventPage where
  events : GivenEvents
  annots : List EventAnnot

/-- The page was written. -/
structure EventPage.Written (items : List Item) (ok : List ActionCall → GivenAction → Prop) (page : List PageCall) (g : EventPage) : Prop where
  additional : MaybeCall (PageMeans .code) b!"AA" page g.events.calls .additionalActions
  events : g.events.Set pageEvents ok
  annots : AnnotsSet page (g.annots.map EventAnnot.id)
  annotsWritten : ∀ a ∈ g.annots, a.Written items ok

/-- A named script of the document: an action that is an object of its own. -/
structure GivenScript where
  name : Bytes
  id : Ref
  action : CalledAction

/-- The named scripts were written: none, or a name tree. -/
def ScriptsWritten (items : List Item) (ok : List ActionCall → GivenAction → Prop) (cat : List CatalogCall) (depth : Nat) (gs : List GivenScript) : Prop :=
  (NoCall (CatalogMeans .code) b!"Names" cat ∧ gs = []) ∨
  ∃ names, OnlyCall (CatalogMeans .code) b!"Names" cat (.names names) ∧
    ((NoCall (NamesMeans .code) b!"JavaScript" names ∧ gs = []) ∨
     ∃ t : Tree NameTreeCall Bytes, OnlyCall (NamesMeans .code) b!"JavaScript" names (.javascript t.calls) ∧ t.Linked nameApi b!"Names" items ∧
      t.depth ≤ depth ∧ t.pairs = (gs.map fun g => (g.name, .ref g.id)) ∧
      ∀ g ∈ gs, HasObject items g.id (.val (Action.prog g.action.1)) ∧ ok g.action.1 g.action.2)

/-! ## What is read is what was asked for -/

/-- The flags read are those given. -/
def FormFlagsRead (given : Option (List FormActionFlag)) (n : Nat) : Prop := ∀ i, n.testBit i = true ↔ i + 1 ∈ (given.getD []).map isoFormActionFlag

/-- The action read is the one given. -/
def ActionReads (ids : List Ref) : GivenAction → ReadAction → Prop
  | .goTo g, .goTo page view => DestMeans ids g (page, view)
  | .remote p n w, .remote p' n' w' => p' = p.is ∧ n' = n ∧ w' = w
  | .launch p w, .launch p' w' => p' = p.is ∧ w' = w
  | .uri u m, .uri u' m' => u' = u ∧ m' = m.getD false
  | .submit p fs fl, .submit p' fs' fl' => p' = p.is ∧ fs' = fs.map (fun g => g.list.map GivenFieldRef.wanted) ∧ FormFlagsRead fl fl'
  | .reset fs fl, .reset fs' fl' => fs' = fs.map (fun g => g.list.map GivenFieldRef.wanted) ∧ FormFlagsRead fl fl'
  | .importData p, .importData p' => p' = p.is
  | .script t, .script t' => t' = t
  | .scriptStream _ _ _ _ t, .script t' => t' = t
  | .rendition op an m, .rendition op' an' m' => op' = op.map isoRenditionOperation ∧ an' = an.map (·.get.toNat) ∧ m' = m.map GivenMedia.wanted
  | _, _ => False

/-- The actions for events read are those given. -/
def EventsRead (ids : List Ref) (gs : List (Event × CalledAction)) (rs : List (Event × ReadAction)) : Prop :=
  Pairwise (fun g r => r.1 = g.1 ∧ ActionReads ids g.2.2 r.2) gs rs

/-- The actions of an annotation, the one for activation first. -/
def EventAnnot.list (g : EventAnnot) : List (Event × CalledAction) := (g.action.map fun a => (.activated, a)).toList ++ g.events.list annotationEvents

/-- The page read is the one given. -/
def EventPageReads (ids : List Ref) (g : EventPage) (r : List (Event × ReadAction) × List (List (Event × ReadAction))) : Prop :=
  EventsRead ids (g.events.list pageEvents) r.1 ∧ Pairwise (fun a r => EventsRead ids (EventAnnot.list a) r) g.annots r.2

/-- The document read is the one given. -/
structure EventsFound (ids : List Ref) (scripts : List GivenScript) (document : GivenEvents) (pages : List EventPage) (r : FileEvents) : Prop where
  scripts : Pairwise (fun g r => r.1 = g.name ∧ ActionReads ids g.action.2 r.2) scripts r.scripts
  document : EventsRead ids (document.list documentEvents) r.document
  pages : Pairwise (EventPageReads ids) pages r.pages

end PdfW.Spec
