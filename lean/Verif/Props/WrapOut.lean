import Verif.Lemmas.WrapOut
import Verif.Props.Wrap

/-
C87: Transforming coordinates before, during or after the conversion to geo-types gives the same geometry.
-/

namespace Geozero
open Spec Prog

/-! ### C87 -/

/-- before is during: for every reader of C86 converting the transformed value is converting the value with the writer behind the
wrapper, for every transformation; errors are the same -/
theorem C87_before_is_during {f : F64 → F64 → F64 × F64} {p q : Prog Unit} (h : ReadsAs f p q) (sz : ElemSizes) (bs : List Byte) :
    toGeo sz q bs = toGeoWrapped f sz p bs := by
  have := h _ (GeoWriter.proc sz) {} bs
  unfold toGeo toGeoWrapped
  rw [this]
  generalize interp (wrapGeom f (GeoWriter.proc sz)) p {} bs = r
  obtain ⟨w, es, o⟩ := r
  cases o <;> rfl

/-- the same for blobs of the five dialects, as far as C86 has them -/
theorem C87_blob_before_is_during {f : F64 → F64 → F64 × F64} {fo : FOps} {d : WkbDialect} {bs bs' : List Byte}
    (h : BlobReadsAs f (processWkbTypeGeom fo d) bs bs') (sz : ElemSizes) :
    geoFromWkb fo sz d bs' = toGeoWrapped f sz (processWkbTypeGeom fo d) bs := by
  have := h _ (GeoWriter.proc sz) false (fun _ => rfl) {}
  unfold geoFromWkb toGeoWrapped
  rw [this]
  generalize interp (wrapGeom f (GeoWriter.proc sz)) (processWkbTypeGeom fo d) {} bs = r
  obtain ⟨w, es, o⟩ := r
  cases o <;> rfl

/-- during is after, for every source and input, malformed too, if the transformation keeps equal positions equal and different ones
different; errors are the same -/
theorem C87_during_is_after_partial (f : F64 → F64 → F64 × F64) (sz : ElemSizes) (src : Prog Unit) (bs : List Byte)
    (h : KeepsEquality f (deliveredXY (run false src bs).1)) :
    toGeoWrapped f sz src bs = (toGeo sz src bs).map (GeoGeom.mapXY f) := toGeoWrapped_eq sz src bs h

/-- without the condition whether a conversion succeeds, and the error if it does not, is still the same -/
theorem C87_same_outcome (f : F64 → F64 → F64 × F64) (sz : ElemSizes) (src : Prog Unit) (bs : List Byte) (e : Err) :
    toGeoWrapped f sz src bs = .error e ↔ toGeo sz src bs = .error e := toGeoWrapped_error f sz src bs e

/-- before is after: WKT, geo-types, GEOS, GPX, GeoJSON and CSV, as far as C86 has them -/
theorem C87_before_is_after_partial {f : F64 → F64 → F64 × F64} {p q : Prog Unit} (h : ReadsAs f p q) (sz : ElemSizes)
    (bs : List Byte) (hf : KeepsEquality f (deliveredXY (run false p bs).1)) :
    toGeo sz q bs = (toGeo sz p bs).map (GeoGeom.mapXY f) := by
  rw [C87_before_is_during h, C87_during_is_after_partial f sz p bs hf]

/-- everything is moved to one place -/
def collapse (_ _ : F64) : F64 × F64 := (0#64, 0#64)

/-- sizes for the examples -/
def someSizes : ElemSizes := ⟨16, 24, 48, 56⟩

/-- a ring that is not closed, in WKT -/
def threeCorners : WktGeom := .polygon [[{ x := 1#64, y := 1#64 }, { x := 2#64, y := 2#64 }, { x := 3#64, y := 1#64 }]]

/-- The condition is needed: geo-types closes an open ring with a fourth position, but not if the three positions it is given are the
same. -/
theorem C87_collapse_false : ∃ (f : F64 → F64 → F64 × F64) (sz : ElemSizes) (src : Prog Unit),
    toGeoWrapped f sz src [] ≠ (toGeo sz src []).map (GeoGeom.mapXY f) :=
  ⟨collapse, someSizes, wktProcessGeom threeCorners, fun h => by
    have h' : (.ok (.polygon ⟨List.replicate 3 ⟨0#64, 0#64⟩, []⟩) : Except Err GeoGeom) =
      .ok (.polygon ⟨List.replicate 4 ⟨0#64, 0#64⟩, []⟩) := h
    cases h'⟩

/-! ### non-vacuity -/

/-- swapping the axes keeps equality, whatever the positions -/
theorem keepsEquality_swapXY (ps : List XY) : KeepsEquality swapXY ps := fun p _ q _ => by
  simp only [XY.feq, XY.mapXY, swapXY, Bool.and_comm]

/-- so does, for the three corners, another function -/
example : KeepsEquality (fun x y => (x + 1#64, y ^^^ 0x8000000000000000#64)) (deliveredXY (run false (wktProcessGeom threeCorners) []).1) := by
  unfold KeepsEquality
  decide

/-- the ring is closed with the transformed first corner -/
example : toGeoWrapped swapXY someSizes (wktProcessGeom threeCorners) [] =
    .ok (.polygon ⟨[⟨1#64, 1#64⟩, ⟨2#64, 2#64⟩, ⟨1#64, 3#64⟩, ⟨1#64, 1#64⟩], []⟩) := rfl

/-- and an error is an error either way: a point without positions -/
example : toGeoWrapped collapse someSizes (wktProcessGeom (.point none)) [] = .error (.geometry "empty Point") ∧
    toGeo someSizes (wktProcessGeom (.point none)) [] = .error (.geometry "empty Point") := ⟨rfl, rfl⟩

end Geozero
