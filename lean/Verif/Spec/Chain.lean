import Verif.Spec.RoundTrip
import Verif.Spec.Stored
import Verif.Spec.Geos
import Verif.Spec.Gdal
import Verif.Spec.GeoTypes
import Verif.Model.Gdal
import Verif.Model.GeoTypes
import Verif.Model.WkbWriter
import Verif.Model.WkbReader

/-
Specification for C70: geometries converted from format to format.
-/

namespace Geozero.Chain

open Geozero

/-- a geometry in some format: the reader of the format and the bytes it reads -/
structure Source where
  read : Prog Unit
  input : List Byte := []

/-- The source delivers the geometry to two-dimensional processors: all its calls, in order, after at most an SRID. -/
def Source.Delivers (s : Source) (g : Geom) : Prop :=
  ∃ pre rest, (pre = [] ∨ ∃ v, pre = [Ev.srid v]) ∧
    Prog.run false s.read s.input = (pre ++ g.events false 0, .ok ((), rest))

/-- the formats a geometry can be converted to and read from -/
inductive Format
  | wkb (dialect : WkbDialect) (srid : Option Int) (envelope : List F64)
  | wkt
  | geoJson
  | geoTypes
  | geos
  | gdal

/-- what is not part of geozero: printing and parsing numbers, the parsers of WKT and GeoJSON, GEOS, sizes of Rust types,
float arithmetic -/
structure Tools where
  numbers : Spec.NumText
  wktParser : Text → Except Err WktGeom
  gjParser : GjParser
  sizes : ElemSizes
  geos : GeosLib
  floats : FOps
  ogrBlank : OgrPt

/-- Convert a source to a format (`to_wkb_dialect`, `to_wkt`, `to_json`, `to_geo`, `to_geos`, `to_gdal`, all in two dimensions);
the result is the source that reads the format. -/
def Tools.convert (T : Tools) (s : Source) : Format → Except Err Source
  | .wkb d srid env =>
    match Prog.interp WkbWriter.proc s.read (WkbWriter.withOpts d {} srid env) s.input with
    | (w, _, .ok _) => .ok ⟨processWkbTypeGeom T.floats d, w.out⟩
    | (_, _, .error e) => .error e
  | .wkt => (toWktWithOpts T.numbers.num s.read .wkt {} none s.input).map fun t => ⟨processWktText T.wktParser t, []⟩
  | .geoJson =>
    match toJson T.numbers.num s.read s.input with
    | .ok t => (T.gjParser.parse t).map fun v => ⟨processGeoJsonGeom v, []⟩
    | .error e => .error e
  | .geoTypes => (toGeo T.sizes s.read s.input).map fun g => ⟨geoProcessGeom g, []⟩
  | .geos => (toGeos T.geos s.read s.input).map fun g => ⟨geosProcessGeom g.1, []⟩
  | .gdal => (toGdal s.read s.input).map fun g => ⟨ogrProcessGeom T.ogrBlank g, []⟩

/-- convert step by step -/
def Tools.chain (T : Tools) (s : Source) : List Format → Except Err Source
  | [] => .ok s
  | f :: fs =>
    match T.convert s f with
    | .ok s' => T.chain s' fs
    | .error e => .error e

/-- The outermost geometry has no second part the SpatiaLite writer would lose or garble (see C05): a polygon or triangle has at
most one ring; curves and surfaces are left out. -/
def OnePart : Geom → Prop
  | .polygon rs | .triangle rs => rs.length ≤ 1
  | .compoundCurve _ | .curvePolygon _ | .polyhedralSurface _ | .tin _ => False
  | _ => True

/-- the SRID and the envelope fit the dialect; SpatiaLite only for geometries of one part -/
def HeaderFits (srid : Option Int) (env : List F64) (g : Geom) : WkbDialect → Prop
  | .wkb => True
  | .ewkb => ∀ v ∈ srid, isI32 v
  | .geopackage => (∀ v ∈ srid, isI32 v) ∧ (env.length = 0 ∨ env.length = 4)
  | .mySQL => ∀ v ∈ srid, isI32 v ∧ 0 ≤ v
  | .spatiaLite => (∀ v ∈ srid, isI32 v) ∧ (env.length = 0 ∨ env.length = 4) ∧ OnePart g

/-- The format can hold the geometry. -/
def Tools.Holds (T : Tools) (g : Geom) : Format → Prop
  | .wkb d srid env => HeaderFits srid env g d ∧ g.Fits ∧ g.levels ≤ 128
  | .wkt => g.IsGeoJson (Spec.Recoverable false)
  | .geoJson => g.IsGeoJson (fun c => c.AllOrds
      (fun x => Json.IsNumber (T.numbers.num x) ∧ T.gjParser.num (T.numbers.num x) = x) false ∧ c.z = none ∧ c.m = none) ∧
      ∀ t, Json.IsText t (Rfc7946.geometry T.numbers.num false g) → T.gjParser.accepts t
  | .geoTypes => (∃ v : GeoGeom, v.Closed ∧ v.denote = g) ∧ g.Budget T.sizes
  | .geos => g.geos ≠ none ∧ T.geos.accepts g ∧ g.Short
  | .gdal => g.Basic

/-- a two-dimensional geometry without empty points, and without points at (NaN, NaN), which stand for empty ones -/
structure Planar (g : Geom) : Prop where
  flat : Spec.AllCoords (Spec.HasDims {}) g
  noEmpty : g.hasEmptyPoint = false
  noNaN : g.hasNaNPoint = false

end Geozero.Chain
