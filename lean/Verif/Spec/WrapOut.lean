import Verif.Spec.Wrap

/-
Transforming positions on the way into a writer, and transforming what it made.
-/

namespace Geozero.Spec

/-- the positions a list of calls delivers -/
def deliveredXY : List Ev → List XY
  | [] => []
  | .xy x y _ :: es => ⟨x, y⟩ :: deliveredXY es
  | .coord x y _ _ _ _ _ :: es => ⟨x, y⟩ :: deliveredXY es
  | _ :: es => deliveredXY es

/-- The transformation keeps equal positions equal and different positions different (in the sense of `==` on numbers, so that NaN
differs from itself). -/
def KeepsEquality (f : F64 → F64 → F64 × F64) (ps : List XY) : Prop :=
  ∀ p ∈ ps, ∀ q ∈ ps, (p.mapXY f).feq (q.mapXY f) = p.feq q

/-- converting to geo-types with the writer behind a wrapper that transforms positions: `GeoWriter::new().pre_process_xy(f)` -/
def toGeoWrapped (f : F64 → F64 → F64 × F64) (sz : ElemSizes) (src : Prog Unit) (bs : List Byte) : Except Err GeoGeom :=
  match Prog.interp (wrapGeom f (GeoWriter.proc sz)) src {} bs with
  | (w, _, .ok _) =>
    match w.takeGeometry.1 with
    | some g => .ok g
    | none => .error (.geometry "Missing Geometry")
  | (_, _, .error e) => .error e

end Geozero.Spec
