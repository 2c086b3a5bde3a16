import Verif.Spec.Stored
import Verif.Model.WkbTypes

/-
What it means for a blob to hold a geometry with its dimensions and spatial reference, per dialect.  Only refers
to the format specification in Spec/Wkb.lean.
-/

namespace Geozero
namespace Spec

/-- `bs` holds `g` with coordinate dimensions `d` and spatial reference `srid` (`none`: the blob carries none),
in any byte order (GeoPackage: header and body in the same order). -/
def Holds : WkbDialect → Dims → Option Int → Geom → List Byte → Prop
  | .wkb, d, srid, g, bs => srid = none ∧ ∃ e, OgcWkb d e g bs
  | .ewkb, d, srid, g, bs => (∀ s ∈ srid, isI32 s) ∧ ∃ e, Ewkb d e srid g bs
  | .geopackage, d, srid, g, bs => ∃ e s env, srid = some s ∧ isI32 s ∧ Gpkg d e e s env g bs
  | .mySQL, d, srid, g, bs => ∃ n : Nat, srid = some (n : Int) ∧ n < 2 ^ 31 ∧ MySql d n g bs
  | .spatiaLite, d, srid, g, bs =>
    ∃ e s mbr, (srid = if s = 0 then none else some s) ∧ isI32 s ∧ SpatiaLite d e s mbr g bs

end Spec
end Geozero
