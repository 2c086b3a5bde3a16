import Verif.Model.GeoTypes
import Verif.Model.Geos
import Verif.Model.Gdal
import Verif.Model.Svg
import Verif.Model.GeoJson
import Verif.Model.Wkt
import Verif.Model.WkbWriter
import Verif.Spec.Geom

/-
Using one writer several times (C82).  A use is a source and the bytes it reads.
-/

namespace Geozero
open Prog

/-- a source and its input -/
abbrev Use := Prog Unit × List Byte

/-- a writer after these uses, one after the other, whatever the outcome of each -/
def Prog.Proc.after {σ : Type} (P : Proc σ) (w : σ) : List Use → σ
  | [] => w
  | u :: us => P.after (interp P u.1 w u.2).1 us

/-- what the source delivers when it is asked for coordinates as `multi` says: SRIDs and the calls of the geometry, without an error -/
def Delivers (multi : Bool) (u : Use) (g : Geom) : Prop :=
  ∃ (ss : List (Option Int)) (rest : List Byte), run multi u.1 u.2 = (ss.map Ev.srid ++ g.events multi 0, .ok ((), rest))

/-- `process_geom(&mut writer)` then `writer.take_geometry()` on a `GeoWriter` that may have been used before -/
def geoAgain (sz : ElemSizes) (w : GeoWriter) (u : Use) : GeoWriter × Except Err GeoGeom :=
  match interp (GeoWriter.proc sz) u.1 w u.2 with
  | (w, _, .ok _) =>
    (w.takeGeometry.2, match w.takeGeometry.1 with
      | some g => .ok g
      | none => .error (.geometry "Missing Geometry"))
  | (w, _, .error e) => (w, .error e)

/-- the results of several uses of one `GeoWriter` -/
def geoResults (sz : ElemSizes) (w : GeoWriter) : List Use → List (Except Err GeoGeom)
  | [] => []
  | u :: us => (geoAgain sz w u).2 :: geoResults sz (geoAgain sz w u).1 us

/-- `process_geom(&mut writer)` then `writer.geometry()` on a `GeosWriter` in the state `w`: the geometry and its SRID -/
def geosAgain (lib : GeosLib) (w : GeosWriter) (u : Use) : Except Err (GeosGeom × Int) :=
  match interp (GeosWriter.proc lib) u.1 w u.2 with
  | (w, _, .ok _) => .ok (w.geom, w.geomSrid)
  | (_, _, .error e) => .error e

/-- `process_geom(&mut writer)` then `writer.geometry()` on a `GdalWriter` in the state `w` -/
def gdalAgain (w : GdalWriter) (u : Use) : Except Err OgrGeom :=
  match interp GdalWriter.proc u.1 w u.2 with
  | (w, _, .ok _) => .ok w.geom
  | (_, _, .error e) => .error e

end Geozero
