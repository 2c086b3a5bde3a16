import Verif.Model.Mvt
import Verif.Model.Geos
import Verif.Model.Gdal
import Verif.Model.Csv
import Verif.Model.Gpx
import Verif.Model.GeoJson

/-
How large a parsed geometry or data set is: one for each position, two for each geometry, line, ring and polygon, six for each
feature, one for each of its properties, two for the data set.  These numbers come from the values alone, not from a reader.
-/

namespace Geozero.Spec

/-- a line, a ring or the points of a multi point -/
def seqSize {α : Type} (l : List α) : Nat := 2 + l.length

/-- the rings of a polygon or the lines of a multi line string -/
def ringsSize {α : Type} (rs : List (List α)) : Nat := 2 + (rs.map seqSize).sum

/-- geo-types polygons -/
def polySize (p : GPoly) : Nat := ringsSize (p.exterior :: p.interiors)

mutual
/-- geo-types geometries; a rectangle is read as a polygon of at most six positions, a triangle as one of at most five (a corner
that is not a number does not equal itself, so that the ring is closed once more) -/
def geoSize : GeoGeom → Nat
  | .point _ => 3
  | .line _ _ => 4
  | .lineString cs => seqSize cs
  | .polygon p => polySize p
  | .multiPoint ps => seqSize ps
  | .multiLineString ls => ringsSize ls
  | .multiPolygon ps => 2 + (ps.map polySize).sum
  | .collection gs => 2 + geoSizes gs
  | .rect _ _ => 10
  | .triangle _ _ _ => 9

def geoSizes : List GeoGeom → Nat
  | [] => 0
  | g :: gs => geoSize g + geoSizes gs
end

mutual
/-- GEOS geometries -/
def geosSize : GeosGeom → Nat
  | .point cs => seqSize cs
  | .multiPoint ps => 2 + (ps.map List.length).sum
  | .lineString cs => seqSize cs
  | .linearRing cs => seqSize cs
  | .multiLineString ls => ringsSize ls
  | .polygon e is => ringsSize (e :: is)
  | .multiPolygon ps => 2 + (ps.map fun p => ringsSize (p.1 :: p.2)).sum
  | .collection gs => 2 + geosSizes gs

def geosSizes : List GeosGeom → Nat
  | [] => 0
  | g :: gs => geosSize g + geosSizes gs
end

mutual
/-- OGR geometries; a point may be read although it has none -/
def ogrSize : OgrGeom → Nat
  | .node _ ps ms => 3 + ps.length + ogrSizes ms

def ogrSizes : List OgrGeom → Nat
  | [] => 0
  | g :: gs => ogrSize g + ogrSizes gs
end

mutual
/-- parsed WKT -/
def wktSize : WktGeom → Nat
  | .point _ => 3
  | .lineString cs => seqSize cs
  | .polygon rs => ringsSize rs
  | .multiPoint ps => seqSize ps
  | .multiLineString ls => ringsSize ls
  | .multiPolygon ps => 2 + (ps.map ringsSize).sum
  | .collection gs => 2 + wktSizes gs

def wktSizes : List WktGeom → Nat
  | [] => 0
  | g :: gs => wktSize g + wktSizes gs
end

mutual
/-- parsed GeoJSON geometries -/
def gjSize : GjGeom → Nat
  | .point _ => 3
  | .lineString ps => seqSize ps
  | .polygon rs => ringsSize rs
  | .multiPoint ps => seqSize ps
  | .multiLineString ls => ringsSize ls
  | .multiPolygon ps => 2 + (ps.map ringsSize).sum
  | .collection gs => 2 + gjSizes gs

def gjSizes : List GjGeom → Nat
  | [] => 0
  | g :: gs => gjSize g + gjSizes gs
end

/-- tile polygons -/
def ipolySize (p : IPoly) : Nat := ringsSize (p.exterior :: p.interiors)

mutual
/-- geometries of a tile -/
def mvtSize : MvtGeom → Nat
  | .point _ => 3
  | .line _ _ => 0
  | .lineString cs => seqSize cs
  | .polygon p => ipolySize p
  | .multiPoint ps => seqSize ps
  | .multiLineString ls => ringsSize ls
  | .multiPolygon ps => 2 + (ps.map ipolySize).sum
  | .collection gs => 2 + mvtSizes gs
  | .rect _ _ => 0
  | .triangle _ _ _ => 0

def mvtSizes : List MvtGeom → Nat
  | [] => 0
  | g :: gs => mvtSize g + mvtSizes gs
end

/-- the layer of a tile -/
def mvtLayerSize (l : MvtLayer) : Nat := 2 + (l.features.map fun f => 6 + f.properties.length + mvtSize f.geometry).sum

/-- the geometry of a GeoJSON feature, if it has one -/
def gjGeometrySize (g : Option GjGeom) : Nat := (g.map gjSize).getD 0

/-- a GeoJSON feature -/
def gjFeatureSize (f : GjFeature) : Nat := 6 + (f.properties.getD []).length + gjGeometrySize f.geometry

/-- a GeoJSON document -/
def gjDocSize : GeoJsonValue → Nat
  | .featureCollection fs => 2 + (fs.map gjFeatureSize).sum
  | .feature f => 2 + gjFeatureSize f
  | .geometry g => gjSize g

/-- a line of newline-delimited GeoJSON; nothing for one that is not GeoJSON -/
def gjLineSize : Except Err GeoJsonValue → Nat
  | .error _ => 0
  | .ok v => gjDocSize v

/-- a GPX document: a way point is a geometry, a track or the routes together are lines -/
def gpxSize (d : GpxDoc) : Nat := 2 + 3 * d.waypoints.length + (d.tracks.map ringsSize).sum + ringsSize d.routes

/-- the geometry that the field `i` of a CSV record parses to; nothing if there is none -/
def csvGeomSize (parse : Text → Except Err WktGeom) (i : Nat) (record : List Text) : Nat :=
  match record[i]? with
  | none => 0
  | some t =>
    match parse t with
    | .error _ => 0
    | .ok g => wktSize g

/-- a CSV record whose geometry is field `i` -/
def csvRecordSize (parse : Text → Except Err WktGeom) (i : Nat) : Except Err (List Text) → Nat
  | .error _ => 0
  | .ok r => 6 + r.length + csvGeomSize parse i r

/-- the geometry of a CSV record, if it could be read -/
def csvFieldSize (parse : Text → Except Err WktGeom) (i : Nat) : Except Err (List Text) → Nat
  | .error _ => 0
  | .ok r => csvGeomSize parse i r

end Geozero.Spec
