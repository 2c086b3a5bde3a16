import Verif.Model.Basic

/-
C55: which sequences of calls the GDAL writer must not get, in terms of the calls alone.
-/

namespace Geozero.Spec

/-- at some call `P` held of the calls before it and of itself, and `Q` of all calls after it -/
def Since (P : List Ev → Ev → Prop) (Q : Ev → Prop) (calls : List Ev) : Prop :=
  ∃ before e after, calls = before ++ e :: after ∧ P before e ∧ ∀ f ∈ after, Q f

/-- calls for which the GDAL writer makes a new geometry, dropping the one it has: the types of Simple Features except collections
and parts of other geometries -/
def ogrType : Ev → Option GKind
  | .gbegin .point _ _ _ => some .point
  | .gbegin .multiPoint _ _ _ => some .multiPoint
  | .gbegin .lineString true _ _ => some .lineString
  | .gbegin .multiLineString _ _ _ => some .multiLineString
  | .gbegin .polygon true _ _ => some .polygon
  | .gbegin .multiPolygon _ _ _ => some .multiPolygon
  | _ => none

/-- the type of the geometry the writer has after these calls -/
def ogrCurrent (calls : List Ev) : GKind := (calls.filterMap ogrType).getLast?.getD .point

/-- a line string that is part of another geometry begins -/
def BeginsPart (e : Ev) : Prop := ∃ n i, e = .gbegin .lineString false n i

/-- a polygon that is part of another geometry begins -/
def BeginsPartPolygon (e : Ev) : Prop := ∃ n i, e = .gbegin .polygon false n i

/-- the geometry that held the last line string begun as a part has been dropped -/
def LineDropped (calls : List Ev) : Prop :=
  Since (fun before e => (∃ f ∈ before, BeginsPart f) ∧ ogrType e ≠ none) (fun f => ¬ BeginsPart f) calls

/-- a multi polygon was begun and no polygon in it -/
def NoPolygonYet (calls : List Ev) : Prop :=
  Since (fun _ e => ogrType e = some .multiPolygon) (fun f => ogrType f = none ∧ ¬ BeginsPartPolygon f) calls

/-- after these calls, this one writes to memory that has been freed: a coordinate for a geometry made of lines none of which has
been begun, while the line begun last was part of a geometry dropped since -/
def UsesFreed (calls : List Ev) (e : Ev) : Prop :=
  (∃ x y i, e = .xy x y i) ∧
    (ogrCurrent calls = .multiLineString ∨ ogrCurrent calls = .polygon ∨ ogrCurrent calls = .multiPolygon) ∧ LineDropped calls

/-- after these calls, this one subtracts 1 from 0: a part of a multi polygon that has no polygon yet -/
def Overflows (calls : List Ev) (e : Ev) : Prop := BeginsPart e ∧ NoPolygonYet calls

/-- calls the writer answers with an error: empty points, lines in geometries without lines, polygons outside of multi
polygons -/
def Refused (calls : List Ev) (e : Ev) : Prop :=
  (∃ i, e = .emptyPoint i) ∨
  (BeginsPart e ∧ (ogrCurrent calls = .point ∨ ogrCurrent calls = .lineString ∨ ogrCurrent calls = .multiPoint)) ∨
  (BeginsPartPolygon e ∧ ogrCurrent calls ≠ .multiPolygon)

/-- every one of these calls is answered without an error, a write to freed memory or an overflow -/
def Harmless (calls : List Ev) : Prop := ∀ before e after, calls = before ++ e :: after →
  ¬ Refused before e ∧ ¬ UsesFreed before e ∧ ¬ Overflows before e

end Geozero.Spec
