import Verif.Spec.Joined
import Verif.Model.Svg

/-
The same features in different kinds of GeoJSON file.
-/

namespace Geozero

/-- the call without the index of the geometry or part of a geometry it begins or ends -/
def FEv.noIdx : FEv → FEv
  | .geom (.gbegin k tagged size _) => .geom (.gbegin k tagged size 0)
  | .geom (.gend k tagged _) => .geom (.gend k tagged 0)
  | e => e

/-- The processor does not look at the indices of geometries and their parts. -/
structure FProc.IgnoresIndices {σ : Type} (p : FProc σ) : Prop where
  step : ∀ s e, p.step s e.noIdx = p.step s e
  left : ∀ s e, p.left s e.noIdx = p.left s e

end Geozero
