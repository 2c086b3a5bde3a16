import Verif.Model.GeoJson
import Verif.Model.Csv

/-
Files read as one geometry: the geometries of their records, and processors that take them for the members of a collection.
-/

namespace Geozero

/-- The geometry on a line of a line-delimited text: of the feature, or the line itself. -/
def GeoJsonValue.ownGeometry : GeoJsonValue → Option GjGeom
  | .feature f => f.geometry
  | .geometry g => some g
  | .featureCollection _ => none

/-- the call without the index of the geometry or part of a geometry it begins or ends -/
def Ev.noIdx : Ev → Ev
  | .gbegin k tagged size _ => .gbegin k tagged size 0
  | .gend k tagged _ => .gend k tagged 0
  | e => e

/-- The processor does not look at the indices of geometries and their parts. -/
def Proc.IgnoresIndices {σ : Type} (p : Prog.Proc σ) : Prop := ∀ s e, p.step s e.noIdx = p.step s e

/-- The processor begins a collection of `n` geometries like one of a single geometry. -/
def Proc.IgnoresSize {σ : Type} (p : Prog.Proc σ) (n : Nat) : Prop :=
  ∀ s, p.step s (.gbegin .collection true 1 0) = p.step s (.gbegin .collection true n 0)

/-- The state of the processor and the outcome after a source. -/
def Proc.effect {σ : Type} (p : Prog.Proc σ) (src : Prog Unit) (s : σ) (bs : List Byte) : σ × Except Err (Unit × List Byte) :=
  ((Prog.interp p src s bs).1, (Prog.interp p src s bs).2.2)

end Geozero
