import Verif.Spec.Features
import Verif.Spec.GeoJson
import Verif.Spec.Mvt
import Verif.Spec.Wkt
import Verif.Model.Csv

/-
What converting features to CSV should give: one table.
-/

namespace Geozero

/-- A feature as its source has it: its attributes in order (`none`: the value is null), and its geometry if it has one. -/
structure SrcFeature where
  attrs : List (Text × Option ColVal)
  geom : Option Geom

/-- the attributes that are not null -/
def SrcFeature.values (f : SrcFeature) : List (Text × ColVal) := f.attrs.filterMap fun p => p.2.map fun v => (p.1, v)

/-- the WKT of the geometry of a feature, empty if there is none -/
def SrcFeature.column (fmt : Fmt) (f : SrcFeature) : Text :=
  match f.geom with
  | none => []
  | some g => Spec.wkt fmt.f64 false g

/-- the record of a feature: the WKT of its geometry, then its printed values -/
def SrcFeature.record (fmt : Fmt) (f : SrcFeature) : List Text := f.column fmt :: f.values.map fun p => p.2.display fmt

/-- The feature has a value for each of these columns, in this order; attributes after them are null. -/
def SrcFeature.Fills (names : List Text) (f : SrcFeature) : Prop :=
  ∃ (vs : List (Text × ColVal)) (nulls : List Text), vs.map Prod.fst = names ∧
    f.attrs = vs.map (fun p => (p.1, some p.2)) ++ nulls.map fun n => (n, none)

/-- The features make one table: all have the columns the first one has values for. -/
def OneTable : List SrcFeature → Prop
  | [] => True
  | f :: fs => ∀ g ∈ fs, g.Fills (f.values.map Prod.fst)

/-- The table: a header record and one record for each feature; nothing at all without features. -/
def csvTable (fmt : Fmt) : List SrcFeature → List (List Text)
  | [] => []
  | f :: fs => (txt "geometry" :: f.values.map Prod.fst) :: (f :: fs).map (SrcFeature.record fmt)

/-- a feature of a vector tile layer -/
def MvtFeature.src (f : MvtFeature) : SrcFeature :=
  { attrs := f.properties.map fun p => (p.1, p.2.column), geom := some f.geometry.denote }

/-- a feature of a GeoJSON document -/
def GjFeature.src (f : GjFeature) : SrcFeature :=
  { attrs := (f.properties.getD []).map fun p => (p.1, p.2.column), geom := f.geometry.map GjGeom.geom }

end Geozero
