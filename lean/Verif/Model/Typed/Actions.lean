-- Generated by tools/typed.py from /repo/src; do not edit.
import Verif.Model.Typed.Renditions
import Verif.Model.Typed.Destination

/-! # Typed writers: `Fields`, `Action`, `AdditionalActions` -/

namespace PdfW

/-- Calls of public methods of `Fields` (actions.rs:148-148). -/
inductive FieldsCall where
  /-- actions.rs:152-155 -/
  | id (r : Ref)
  /-- actions.rs:158-161 -/
  | ids (ids' : List Ref)
  /-- actions.rs:164-167 -/
  | name (name' : List Char)
  /-- actions.rs:170-176 -/
  | names (names' : List (List Char))
  /-- actions.rs:179 -/
  | raw (value : Prog)

/-- The items each method inserts. -/
def FieldsCall.items : FieldsCall → List Prog
  | .id r => [pRef r]
  | .ids ids' => ids'.map pRef
  | .name name' => [pText name']
  | .names names' => names'.map pText
  | .raw value => [value]

/-- All items of the object: those of the constructor (actions.rs:148-148), then those of the calls. -/
def Fields.items (calls : List FieldsCall) : List Prog := calls.flatMap FieldsCall.items

/-- The object written. -/
def Fields.prog (calls : List FieldsCall) : Prog := .array (Fields.items calls)

/-- Calls of public methods of `Action` (actions.rs:11-15). -/
inductive ActionCall where
  /-- actions.rs:19-22 -/
  | actionType (kind : ActionType)
  /-- actions.rs:26-28 -/
  | destination (calls : List DestinationCall)
  /-- actions.rs:32-35 -/
  | destinationNamed (name : Bytes)
  /-- actions.rs:43-45 -/
  | fileSpec (calls : List FileSpecCall)
  /-- actions.rs:49-52 -/
  | newWindow (new : Bool)
  /-- actions.rs:55-58 -/
  | uri (uri' : Bytes)
  /-- actions.rs:63-66 -/
  | isMap (map : Bool)
  /-- actions.rs:70-73 -/
  | jsString (script : List Char)
  /-- actions.rs:80-83 -/
  | jsStream (script : Ref)
  /-- actions.rs:88-90 -/
  | fields (calls : List FieldsCall)
  /-- actions.rs:94-97 -/
  | formFlags (flags : List FormActionFlag)
  /-- actions.rs:101-104 -/
  | operation (op : RenditionOperation)
  /-- actions.rs:108-111 -/
  | annotation (r : Ref)
  /-- actions.rs:115-117 -/
  | rendition (calls : List RenditionCall)
  /-- actions.rs:120 -/
  | raw (key : Bytes) (value : Prog)

/-- The entries each method inserts. -/
def ActionCall.entries : ActionCall → List (Bytes × Prog)
  | .actionType kind => [(b!"S", pName kind.toName)]
  | .destination calls => [(b!"D", Destination.prog calls)]
  | .destinationNamed name => [(b!"D", pName name)]
  | .fileSpec calls => [(b!"F", FileSpec.prog calls)]
  | .newWindow new => [(b!"NewWindow", pBool new)]
  | .uri uri' => [(b!"URI", pStr uri')]
  | .isMap map => [(b!"IsMap", pBool map)]
  | .jsString script => [(b!"JS", pText script)]
  | .jsStream script => [(b!"JS", pRef script)]
  | .fields calls => [(b!"Fields", Fields.prog calls)]
  | .formFlags flags => [(b!"Flags", pFlags (flags.map FormActionFlag.bits))]
  | .operation op => [(b!"OP", pInt op.toInt)]
  | .annotation r => [(b!"AN", pRef r)]
  | .rendition calls => [(b!"R", Rendition.prog calls)]
  | .raw key value => [(key, value)]

/-- All entries of the object: those of the constructor (actions.rs:11-15), then those of the calls. -/
def Action.entries (calls : List ActionCall) : List (Bytes × Prog) := [(b!"Type", pName b!"Action")] ++ calls.flatMap ActionCall.entries

/-- The object written. -/
def Action.prog (calls : List ActionCall) : Prog := .dict (Action.entries calls)

/-- Calls of public methods of `AdditionalActions` (actions.rs:299-299). -/
inductive AdditionalActionsCall where
  /-- actions.rs:306-308 -/
  | annotCurserEnter (calls : List ActionCall)
  /-- actions.rs:313-315 -/
  | annotCursorExit (calls : List ActionCall)
  /-- actions.rs:320-322 -/
  | annotMousePress (calls : List ActionCall)
  /-- actions.rs:327-329 -/
  | annotMouseRelease (calls : List ActionCall)
  /-- actions.rs:334-336 -/
  | annotPageOpen (calls : List ActionCall)
  /-- actions.rs:341-343 -/
  | annotPageClose (calls : List ActionCall)
  /-- actions.rs:348-350 -/
  | annotPageVisible (calls : List ActionCall)
  /-- actions.rs:356-358 -/
  | annotPageInvisible (calls : List ActionCall)
  /-- actions.rs:367-369 -/
  | widgetFocus (calls : List ActionCall)
  /-- actions.rs:374-376 -/
  | widgetFocusLoss (calls : List ActionCall)
  /-- actions.rs:386-388 -/
  | pageOpen (calls : List ActionCall)
  /-- actions.rs:394-396 -/
  | pageClose (calls : List ActionCall)
  /-- actions.rs:406-408 -/
  | formCalculatePartial (calls : List ActionCall)
  /-- actions.rs:414-416 -/
  | formFormat (calls : List ActionCall)
  /-- actions.rs:422-424 -/
  | formValidate (calls : List ActionCall)
  /-- actions.rs:431-433 -/
  | formCalculate (calls : List ActionCall)
  /-- actions.rs:441-443 -/
  | catBeforeClose (calls : List ActionCall)
  /-- actions.rs:448-450 -/
  | catBeforeSave (calls : List ActionCall)
  /-- actions.rs:455-457 -/
  | catAfterSave (calls : List ActionCall)
  /-- actions.rs:462-464 -/
  | catBeforePrint (calls : List ActionCall)
  /-- actions.rs:469-471 -/
  | catAfterPrint (calls : List ActionCall)
  /-- actions.rs:474 -/
  | raw (key : Bytes) (value : Prog)

/-- The entries each method inserts. -/
def AdditionalActionsCall.entries : AdditionalActionsCall → List (Bytes × Prog)
  | .annotCurserEnter calls => [(b!"E", Action.prog calls)]
  | .annotCursorExit calls => [(b!"X", Action.prog calls)]
  | .annotMousePress calls => [(b!"D", Action.prog calls)]
  | .annotMouseRelease calls => [(b!"U", Action.prog calls)]
  | .annotPageOpen calls => [(b!"PO", Action.prog calls)]
  | .annotPageClose calls => [(b!"PV", Action.prog calls)]
  | .annotPageVisible calls => [(b!"PV", Action.prog calls)]
  | .annotPageInvisible calls => [(b!"PI", Action.prog calls)]
  | .widgetFocus calls => [(b!"Fo", Action.prog calls)]
  | .widgetFocusLoss calls => [(b!"Bl", Action.prog calls)]
  | .pageOpen calls => [(b!"O", Action.prog calls)]
  | .pageClose calls => [(b!"C", Action.prog calls)]
  | .formCalculatePartial calls => [(b!"K", Action.prog calls)]
  | .formFormat calls => [(b!"F", Action.prog calls)]
  | .formValidate calls => [(b!"V", Action.prog calls)]
  | .formCalculate calls => [(b!"C", Action.prog calls)]
  | .catBeforeClose calls => [(b!"WC", Action.prog calls)]
  | .catBeforeSave calls => [(b!"WS", Action.prog calls)]
  | .catAfterSave calls => [(b!"DS", Action.prog calls)]
  | .catBeforePrint calls => [(b!"WP", Action.prog calls)]
  | .catAfterPrint calls => [(b!"DP", Action.prog calls)]
  | .raw key value => [(key, value)]

/-- All entries of the object: those of the constructor (actions.rs:299-299), then those of the calls. -/
def AdditionalActions.entries (calls : List AdditionalActionsCall) : List (Bytes × Prog) := calls.flatMap AdditionalActionsCall.entries

/-- The object written. -/
def AdditionalActions.prog (calls : List AdditionalActionsCall) : Prog := .dict (AdditionalActions.entries calls)

end PdfW
