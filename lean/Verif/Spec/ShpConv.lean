import Verif.Spec.Shp
import Verif.Spec.GeoJson

/-
Specification for converting whole shapefiles: what the features of a shapefile are, independently of any reader.
-/

namespace Geozero

/-- the fields of a row of the attribute table that have a value, with their values, in order -/
def rowFields (row : ShpRow) : List (Text × ColVal) := row.filterMap fun f => f.2.column.map fun v => (f.1, v)

/-- The features of a shapefile with the given rows and geometries: one for each row and shape, in order. -/
def shpFeatureData (rows : List ShpRow) (gs : List Geom) : List FeatureData :=
  List.zipWith (fun row g => { props := some (rowFields row), geom := some g }) rows gs

end Geozero
