import Verif.Model.GeoJson
import Verif.Model.Csv
import Verif.Model.Mvt
import Verif.Model.GeoFeature
import Verif.Model.Adaptors
import Verif.Model.Tessellator

/-
What reading two files one after the other in one file should be.
-/

namespace Geozero

/-- the call with the number of its feature raised by `n` -/
def FEv.later (n : Nat) : FEv → FEv
  | .ftBegin i => .ftBegin (n + i)
  | .ftEnd i => .ftEnd (n + i)
  | e => e

/-- The calls and the outcome of the joined file, given those of its two parts, the first of which has `n` records: if the first
fails, that; otherwise its calls but for the end of the dataset, then the calls of the second but for the beginning of the dataset, with
later numbers, and the outcome of the second. -/
def joinedRun (n : Nat) (a b : List FEv × Except Err (Unit × List Byte)) : List FEv × Except Err (Unit × List Byte) :=
  match a.2 with
  | .error e => (a.1, .error e)
  | .ok _ => (a.1.dropLast ++ b.1.tail.map (FEv.later n), b.2)

/-- The processor does not look at the numbers of features. -/
structure FProc.IgnoresNumbers {σ : Type} (p : FProc σ) : Prop where
  step : ∀ s e n, p.step s (FEv.later n e) = p.step s e
  left : ∀ s e n, p.left s (FEv.later n e) = p.left s e

/-- The processor does nothing when a dataset begins or ends. -/
structure FProc.IgnoresDataset {σ : Type} (p : FProc σ) : Prop where
  dsBegin : ∀ s name, p.step s (.dsBegin name) = .ok s
  dsEnd : ∀ s, p.step s .dsEnd = .ok s

/-- The state and the outcome of processing with one source and then, if it succeeds, with another one. -/
def processBoth {σ : Type} (p : FProc σ) (a b : FProg Unit) (s : σ) : σ × Except Err Unit :=
  match FProg.interp p a s [] with
  | (s1, _, .error e) => (s1, .error e)
  | (s1, _, .ok _) => ((FProg.interp p b s1 []).1, (FProg.interp p b s1 []).2.2.map fun _ => ())

end Geozero
