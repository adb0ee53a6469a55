-- Generated by tools/typed.py from /repo/src; do not edit.
import Verif.Model.Typed.Actions
import Verif.Spec.Typed.Renditions
import Verif.Spec.Typed.Destination

/-! # Meaning of the calls of `Fields`, `Action`, `AdditionalActions`

Keys from the documentation of each method, value types from the parameter types and ISO 32000. -/

namespace PdfW.Spec
open PdfW

/-- The items a call of `Fields` stands for. -/
def FieldsMeans : FieldsCall → List (Val → Prop)
  | .id r => [IsRef r]
  | .ids ids' => ids'.map IsRef
  | .name name' => [IsText name']
  | .names names' => names'.map IsText
  | .raw value => [Denotes value]

def FieldsItems (calls : List FieldsCall) : List (Val → Prop) := calls.flatMap FieldsMeans

def IsFields (calls : List FieldsCall) : Val → Prop := ArrayIs (FieldsItems calls)

/-- The entries a call of `Action` stands for: key and meaning of the value. -/
def ActionMeans : ActionCall → List (Bytes × (Val → Prop))
  | .actionType kind => [(b!"S", IsName (isoActionType kind))]
  | .destination calls => [(b!"D", IsDestination calls)]
  | .destinationNamed name => [(b!"D", IsName name)]
  | .fileSpec calls => [(b!"F", IsFileSpec calls)]
  | .newWindow new => [(b!"NewWindow", IsBool new)]
  | .uri uri' => [(b!"URI", IsStr uri')]
  | .isMap map => [(b!"IsMap", IsBool map)]
  | .jsString script => [(b!"JS", IsText script)]
  | .jsStream script => [(b!"JS", IsRef script)]
  | .fields calls => [(b!"Fields", IsFields calls)]
  | .formFlags flags => [(b!"Flags", FlagsAre (flags.map isoFormActionFlag))]
  | .operation op => [(b!"OP", IsInt (isoRenditionOperation op))]
  | .annotation r => [(b!"AN", IsRef r)]
  | .rendition calls => [(b!"R", IsRendition calls)]
  | .raw key value => [(key, Denotes value)]

def ActionEntries (calls : List ActionCall) : List (Bytes × (Val → Prop)) := [(b!"Type", IsName b!"Action")] ++ calls.flatMap ActionMeans

def IsAction (calls : List ActionCall) : Val → Prop := DictIs (ActionEntries calls)

/-- The entries a call of `AdditionalActions` stands for: key and meaning of the value. -/
def AdditionalActionsMeans (rd : Reading) : AdditionalActionsCall → List (Bytes × (Val → Prop))
  | .annotCurserEnter calls => [(b!"E", IsAction calls)]
  | .annotCursorExit calls => [(b!"X", IsAction calls)]
  | .annotMousePress calls => [(b!"D", IsAction calls)]
  | .annotMouseRelease calls => [(b!"U", IsAction calls)]
  | .annotPageOpen calls => [(b!"PO", IsAction calls)]
  | .annotPageClose calls => rd.pick [(b!"PC", IsAction calls)] [(b!"PV", IsAction calls)]
  | .annotPageVisible calls => [(b!"PV", IsAction calls)]
  | .annotPageInvisible calls => [(b!"PI", IsAction calls)]
  | .widgetFocus calls => [(b!"Fo", IsAction calls)]
  | .widgetFocusLoss calls => [(b!"Bl", IsAction calls)]
  | .pageOpen calls => [(b!"O", IsAction calls)]
  | .pageClose calls => [(b!"C", IsAction calls)]
  | .formCalculatePartial calls => [(b!"K", IsAction calls)]
  | .formFormat calls => [(b!"F", IsAction calls)]
  | .formValidate calls => [(b!"V", IsAction calls)]
  | .formCalculate calls => [(b!"C", IsAction calls)]
  | .catBeforeClose calls => [(b!"WC", IsAction calls)]
  | .catBeforeSave calls => [(b!"WS", IsAction calls)]
  | .catAfterSave calls => [(b!"DS", IsAction calls)]
  | .catBeforePrint calls => [(b!"WP", IsAction calls)]
  | .catAfterPrint calls => [(b!"DP", IsAction calls)]
  | .raw key value => [(key, Denotes value)]

def AdditionalActionsEntries (rd : Reading) (calls : List AdditionalActionsCall) : List (Bytes × (Val → Prop)) := calls.flatMap (AdditionalActionsMeans rd)

def IsAdditionalActions (rd : Reading) (calls : List AdditionalActionsCall) : Val → Prop := DictIs (AdditionalActionsEntries rd calls)

/-- Calls whose behaviour is as documented (see `Props/Typed/Defects.lean` for the others). -/
def _root_.PdfW.AdditionalActionsCall.conforming : AdditionalActionsCall → Bool
  | .annotPageClose _ => false
  | _ => true

end PdfW.Spec
