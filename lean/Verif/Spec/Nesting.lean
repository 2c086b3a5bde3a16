import Verif.Model.Feature

/-
Specification of well nested calls, independent of readers and writers.  Every call that ends something (a geometry, a feature,
the properties or the geometry of a feature, a dataset) ends what was begun last and has not been ended, and a geometry and a
feature are ended with the arguments they were begun with.  Calls about datasets, features and properties are made while no
geometry is open.
-/

namespace Geozero
namespace Spec

/-- something that was begun and not ended -/
inductive Open
  /-- `dataset_begin` -/
  | dataset
  /-- `feature_begin` with this index -/
  | feature (idx : Nat)
  /-- `properties_begin` -/
  | properties
  /-- `geometry_begin` -/
  | geometry
  /-- a geometry (`point_begin`, `polygon_begin`, ..) with its `tagged` and its index -/
  | geom (kind : GKind) (tagged : Bool) (idx : Nat)
deriving DecidableEq, Repr

/-- the last thing begun is `o`: it is ended -/
def closeOpen (o : Open) : List Open → Option (List Open)
  | [] => none
  | o' :: st => if o' = o then some st else none

/-- no geometry is open (they are always innermost) -/
def outside : List Open → Bool
  | .geom _ _ _ :: _ => false
  | _ => true

/-- what is open (innermost first) after one call of a geometry processor; `none` if the call is not allowed -/
def openAfter (st : List Open) : Ev → Option (List Open)
  | .gbegin k tagged _ idx => some (.geom k tagged idx :: st)
  | .gend k tagged idx => closeOpen (.geom k tagged idx) st
  | _ => some st

/-- what is open after a list of calls -/
def openRun (st : List Open) : List Ev → Option (List Open)
  | [] => some st
  | e :: es => (openAfter st e).bind fun st => openRun st es

/-- no call ends anything but the innermost open geometry -/
def WellNested (es : List Ev) : Prop := ∃ st, openRun [] es = some st

/-- the same, and no geometry is left open -/
def Balanced (es : List Ev) : Prop := openRun [] es = some []

/-- what is open after one call of a feature processor -/
def fopenAfter (st : List Open) : FEv → Option (List Open)
  | .geom e => openAfter st e
  | .dsBegin _ => if outside st then some (.dataset :: st) else none
  | .ftBegin idx => if outside st then some (.feature idx :: st) else none
  | .propsBegin => if outside st then some (.properties :: st) else none
  | .geomBegin => if outside st then some (.geometry :: st) else none
  | .prop _ _ _ => if outside st then some st else none
  | .dsEnd => closeOpen .dataset st
  | .ftEnd idx => closeOpen (.feature idx) st
  | .propsEnd => closeOpen .properties st
  | .geomEnd => closeOpen .geometry st

/-- what is open after a list of calls of a feature processor -/
def fopenRun (st : List Open) : List FEv → Option (List Open)
  | [] => some st
  | e :: es => (fopenAfter st e).bind fun st => fopenRun st es

/-- no call ends anything but what was begun last -/
def FWellNested (es : List FEv) : Prop := ∃ st, fopenRun [] es = some st

/-- the same, and nothing is left open -/
def FBalanced (es : List FEv) : Prop := fopenRun [] es = some []

/-- a geometry reader makes well nested calls on every processor and every input, and when it succeeds everything it began is
ended -/
def ReaderNests (src : Prog Unit) : Prop :=
  ∀ (σ : Type) (P : Prog.Proc σ) (s : σ) (bs : List Byte),
    WellNested (Prog.interp P src s bs).2.1 ∧ ∀ a, (Prog.interp P src s bs).2.2 = .ok a → Balanced (Prog.interp P src s bs).2.1

/-- the same for a reader of features -/
def FReaderNests (src : FProg Unit) : Prop :=
  ∀ (σ : Type) (P : FProc σ) (s : σ) (bs : List Byte),
    FWellNested (FProg.interp P src s bs).2.1 ∧
      ∀ a, (FProg.interp P src s bs).2.2 = .ok a → FBalanced (FProg.interp P src s bs).2.1

end Spec
end Geozero
