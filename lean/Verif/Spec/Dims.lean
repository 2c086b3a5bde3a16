import Verif.Model.Feature

/-
What it means that the answers a processor gives to `multi_dim()` and `dimensions()` change nothing but the dimensions it gets.
-/

namespace Geozero.Spec

/-- a call without the dimensions beyond x and y: `coordinate(x, y, ..)` becomes `xy(x, y)`, every other call stays -/
def flatEv : Ev → Ev
  | .coord x y _ _ _ _ i => .xy x y i
  | e => e

/-- the same for the calls of the feature layer -/
def flatFEv : FEv → FEv
  | .geom e => .geom (flatEv e)
  | e => e

/-- a geometry processor that treats `coordinate(x, y, ..)` as `xy(x, y)`, whatever else it does (it may also fail) -/
def Flat {σ : Type} (P : Prog.Proc σ) : Prop := ∀ s e, P.step s e = P.step s (flatEv e)

/-- the same for a feature processor, also in the state a failing call leaves it in -/
def FFlat {σ : Type} (P : FProc σ) : Prop :=
  (∀ s e, P.step s e = P.step s (flatFEv e)) ∧ (∀ s e, P.left s e = P.left s (flatFEv e))

/-- a processor that is asked and always answers that it wants two dimensions -/
def twoDim {σ : Type} (P : Prog.Proc σ) : Prog.Proc σ := { P with multi := fun _ => false }

/-- the same for a feature processor -/
def ftwoDim {σ : Type} (P : FProc σ) : FProc σ := { P with multi := fun _ => false, dims := fun _ => {} }

/-- Whatever a processor answers when it is asked for its dimensions, as long as it only looks at x and y, on every input: had it
asked for two dimensions, it would have ended in the same state, with the same outcome and the same unread input, after the same
calls without the further dimensions. -/
def OnlyDims {α : Type} (p : Prog α) : Prop :=
  ∀ (σ : Type) (P : Prog.Proc σ), Flat P → ∀ s bs,
    Prog.interp (twoDim P) p s bs =
      ((Prog.interp P p s bs).1, (Prog.interp P p s bs).2.1.map flatEv, (Prog.interp P p s bs).2.2)

/-- the same for readers of features -/
def FOnlyDims {α : Type} (p : FProg α) : Prop :=
  ∀ (σ : Type) (P : FProc σ), FFlat P → ∀ s bs,
    FProg.interp (ftwoDim P) p s bs =
      ((FProg.interp P p s bs).1, (FProg.interp P p s bs).2.1.map flatFEv, (FProg.interp P p s bs).2.2)

end Geozero.Spec
