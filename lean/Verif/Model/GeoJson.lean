import Verif.Model.Property
import Verif.Model.GeoTypes

/-
Models /repo/geozero/src/geojson: geojson_writer.rs, geojson_line_writer.rs, geojson_reader.rs, geojson_line_reader.rs.

The external crate `geojson` parses text into values; the readers are modelled on those values (`GeoJsonValue` below).
Text is a list of characters; number formatting is a parameter.
-/

namespace Geozero

/-! ### geojson_writer.rs -/

/-- `GeoJsonWriter` (geojson_writer.rs:8-11): its dimensions and the text written so far -/
structure GeoJsonWriter where
  dims : Dims := {}
  out : Text := []
deriving DecidableEq, Repr

namespace GeoJsonWriter

/-- `self.out.write_all(..)` (geojson_writer.rs:25 on) -/
def put (w : GeoJsonWriter) (t : Text) : GeoJsonWriter := { w with out := w.out ++ t }

/-- `comma` (geojson_writer.rs:23-28) -/
def comma (w : GeoJsonWriter) (idx : Nat) : GeoJsonWriter := if idx > 0 then w.put (txt ",") else w

/-- `replace('\"', "\\\"")` (geojson_writer.rs:200, 206, 207, 213) -/
def escape : Text → Text
  | [] => []
  | c :: t => if c = '"' then '\\' :: '"' :: escape t else c :: escape t

/-- begin methods: the text written by `point_begin`, `multipoint_begin`, ..., `geometrycollection_begin`
(geojson_writer.rs:111-192); the methods for curves, triangles and surfaces are the defaults and write nothing -/
def beginText : GKind → Bool → Option Text
  | .point, _ => some (txt "{\"type\": \"Point\", \"coordinates\": ")
  | .multiPoint, _ => some (txt "{\"type\": \"MultiPoint\", \"coordinates\": [")
  | .lineString, true => some (txt "{\"type\": \"LineString\", \"coordinates\": [")
  | .lineString, false => some (txt "[")
  | .multiLineString, _ => some (txt "{\"type\": \"MultiLineString\", \"coordinates\": [")
  | .polygon, true => some (txt "{\"type\": \"Polygon\", \"coordinates\": [")
  | .polygon, false => some (txt "[")
  | .multiPolygon, _ => some (txt "{\"type\": \"MultiPolygon\", \"coordinates\": [")
  | .collection, _ => some (txt "{\"type\": \"GeometryCollection\", \"geometries\": [")
  | _, _ => none

/-- end methods (geojson_writer.rs:117-196) -/
def endText : GKind → Bool → Option Text
  | .point, _ => some (txt "}")
  | .multiPoint, _ => some (txt "]}")
  | .lineString, true => some (txt "]}")
  | .lineString, false => some (txt "]")
  | .multiLineString, _ => some (txt "]}")
  | .polygon, true => some (txt "]}")
  | .polygon, false => some (txt "]")
  | .multiPolygon, _ => some (txt "]}")
  | .collection, _ => some (txt "]}")
  | _, _ => none

/-- `if let Some(z) = z { write!(",{z}") }` (geojson_writer.rs:99-101) -/
def optZ (num : F64 → Text) : Option F64 → Text
  | none => []
  | some z => txt "," ++ num z

/-- `GeomProcessor for GeoJsonWriter` (geojson_writer.rs:78-197); `srid` is the no-op default -/
def geomStep (num : F64 → Text) (w : GeoJsonWriter) : Ev → GeoJsonWriter
  | .srid _ => w
  | .xy x y idx => (w.comma idx).put (txt "[" ++ num x ++ txt "," ++ num y ++ txt "]")
  | .coord x y z _ _ _ idx => (w.comma idx).put (txt "[" ++ num x ++ txt "," ++ num y ++ optZ num z ++ txt "]")
  | .emptyPoint idx => (w.comma idx).put (txt "{\"type\": \"Point\", \"coordinates\": []}")
  | .gbegin k tagged _ idx =>
    match beginText k tagged with
    | none => w
    | some t => (w.comma idx).put t
  | .gend k tagged _ =>
    match endText k tagged with
    | none => w
    | some t => w.put t

/-- `write_num_prop`, `write_json_prop` (geojson_writer.rs:199-203, 212-216) -/
def rawProp (name v : Text) : Text := txt "\"" ++ escape name ++ txt "\": " ++ v

/-- `write_str_prop` (geojson_writer.rs:205-210) -/
def strProp (name v : Text) : Text := txt "\"" ++ escape name ++ txt "\": \"" ++ escape v ++ txt "\""

/-- the `match colval` of `property` (geojson_writer.rs:223-240); numbers and booleans are printed with `{v}` -/
def propText (fmt : Fmt) (name : Text) : ColVal → Text
  | .string v => strProp name v
  | .dateTime v => strProp name v
  | .json v => rawProp name v
  | .binary _ => []
  | v => rawProp name (v.display fmt)

/-- `dataset_begin` (geojson_writer.rs:32-46) -/
def datasetBegin (w : GeoJsonWriter) : Option Text → GeoJsonWriter
  | none => w.put (txt "{\n\"type\": \"FeatureCollection\"" ++ txt ",\n\"features\": [")
  | some name =>
    w.put (txt "{\n\"type\": \"FeatureCollection\"" ++ (txt ",\n\"name\": \"" ++ name ++ txt "\"") ++
      txt ",\n\"features\": [")

/-- the three traits (geojson_writer.rs:31-243).  No call fails: the output is a `Vec<u8>`. -/
def step (fmt : Fmt) (w : GeoJsonWriter) : FEv → Except Err GeoJsonWriter
  | .dsBegin name => .ok (w.datasetBegin name)
  | .dsEnd => .ok (w.put (txt "]}"))
  | .ftBegin idx => .ok ((if idx > 0 then w.put (txt ",\n") else w).put (txt "{\"type\": \"Feature\""))
  | .ftEnd _ => .ok (w.put (txt "}"))
  | .propsBegin => .ok (w.put (txt ", \"properties\": {"))
  | .propsEnd => .ok (w.put (txt "}"))
  | .geomBegin => .ok (w.put (txt ", \"geometry\": "))
  | .geomEnd => .ok w
  | .prop i name v => .ok ((if i > 0 then w.put (txt ", ") else w).put (propText fmt name v))
  | .geom e => .ok (w.geomStep fmt.f64 e)

/-- as a processor: `property` answers `false` (geojson_writer.rs:241) -/
def proc (fmt : Fmt) : FProc GeoJsonWriter where
  step := step fmt
  multi w := w.dims.multi
  dims w := w.dims

/-- as a geometry processor (`impl GeomProcessor for GeoJsonWriter`, geojson_writer.rs:78-240) -/
def geomProc (num : F64 → Text) : Prog.Proc GeoJsonWriter where
  step w e := .ok (w.geomStep num e)
  multi w := w.dims.multi

end GeoJsonWriter

/-- `ToJson::to_json` (geojson/mod.rs:23-32) on a source whose `process_geom` behaves like `src`.  Text is a list of
characters here, so the check for UTF-8 disappears. -/
def toJson (num : F64 → Text) (src : Prog Unit) (bs : List Byte) : Except Err Text :=
  match Prog.interp (GeoJsonWriter.geomProc num) src {} bs with
  | (w, _, .ok _) => .ok w.out
  | (_, _, .error e) => .error e

/-- `ProcessToJson::to_json` (geojson/mod.rs:40-49) -/
def processToJson (fmt : Fmt) (src : FProg Unit) (bs : List Byte) : Except Err Text :=
  match FProg.interp (GeoJsonWriter.proc fmt) src {} bs with
  | (w, _, .ok _) => .ok w.out
  | (_, _, .error e) => .error e

/-- `FromWkb for GeoJsonString` (geojson/mod.rs:70-80) -/
def geoJsonFromWkb (fo : FOps) (num : F64 → Text) (d : WkbDialect) (bs : List Byte) : Except Err Text :=
  match Prog.interp (GeoJsonWriter.geomProc num) (processWkbTypeGeom fo d) {} bs with
  | (w, _, .ok _) => .ok w.out
  | (_, _, .error e) => .error e

/-! ### geojson_line_writer.rs -/

/-- `GeoJsonLineWriter` (geojson_line_writer.rs:10-22) -/
structure GeoJsonLineWriter where
  contexts : Nat := 0
  inner : GeoJsonWriter := {}
deriving DecidableEq, Repr

namespace GeoJsonLineWriter

/-- `begin_context` (geojson_line_writer.rs:37-39) -/
def beginContext (w : GeoJsonLineWriter) : GeoJsonLineWriter := { w with contexts := w.contexts + 1 }

/-- `end_context` (geojson_line_writer.rs:41-47); subtraction below zero panics -/
def endContext (w : GeoJsonLineWriter) : Except Err GeoJsonLineWriter :=
  if w.contexts = 0 then .error (.panic "attempt to subtract with overflow")
  else if w.contexts = 1 then .ok { contexts := 0, inner := w.inner.put (txt "\n") }
  else .ok { w with contexts := w.contexts - 1 }

/-- `if self.open_contexts > 0 && idx > 0 { self.comma()?; }` (geojson_line_writer.rs:119-121 and others) -/
def comma (w : GeoJsonLineWriter) (idx : Nat) : GeoJsonLineWriter :=
  if w.contexts > 0 ∧ idx > 0 then { w with inner := w.inner.put (txt ",") } else w

/-- `GeomProcessor for GeoJsonLineWriter` (geojson_line_writer.rs:87-222); methods not overridden have the default
behaviour -/
def geomStep (num : F64 → Text) (w : GeoJsonLineWriter) : Ev → Except Err GeoJsonLineWriter
  | .srid _ => .ok w
  | .xy x y idx => .ok { w with inner := w.inner.geomStep num (.xy x y idx) }
  | .coord x y z m t tm idx => .ok { w with inner := w.inner.geomStep num (.coord x y z m t tm idx) }
  | .emptyPoint idx =>
    let w := (w.comma idx).beginContext
    endContext { w with inner := w.inner.geomStep num (.emptyPoint 0) }
  | .gbegin k tagged size idx =>
    if (GeoJsonWriter.beginText k tagged).isSome then
      let w := (w.comma idx).beginContext
      .ok { w with inner := w.inner.geomStep num (.gbegin k tagged size 0) }
    else .ok w
  | .gend k tagged idx =>
    if (GeoJsonWriter.beginText k tagged).isSome then
      endContext { w with inner := w.inner.geomStep num (.gend k tagged idx) }
    else .ok w

/-- `FeatureProcessor` and `PropertyProcessor for GeoJsonLineWriter` (geojson_line_writer.rs:57-85, 224-228) -/
def step (fmt : Fmt) (w : GeoJsonLineWriter) : FEv → Except Err GeoJsonLineWriter
  | .dsBegin _ => .ok w
  | .dsEnd => .ok w
  | .ftBegin _ =>
    let w := w.beginContext
    match w.inner.step fmt (.ftBegin 0) with
    | .error x => .error x
    | .ok k => .ok { w with inner := k }
  | .ftEnd idx =>
    match w.inner.step fmt (.ftEnd idx) with
    | .error x => .error x
    | .ok k => endContext { w with inner := k }
  | .propsBegin =>
    match w.inner.step fmt .propsBegin with
    | .error x => .error x
    | .ok k => .ok { w with inner := k }
  | .propsEnd =>
    match w.inner.step fmt .propsEnd with
    | .error x => .error x
    | .ok k => .ok { w with inner := k }
  | .geomBegin =>
    match w.inner.step fmt .geomBegin with
    | .error x => .error x
    | .ok k => .ok { w with inner := k }
  | .geomEnd =>
    match w.inner.step fmt .geomEnd with
    | .error x => .error x
    | .ok k => .ok { w with inner := k }
  | .prop i name v =>
    match w.inner.step fmt (.prop i name v) with
    | .error x => .error x
    | .ok k => .ok { w with inner := k }
  | .geom e => w.geomStep fmt.f64 e

/-- as a processor (geojson_line_writer.rs) -/
def proc (fmt : Fmt) : FProc GeoJsonLineWriter where
  step := step fmt
  multi w := w.inner.dims.multi
  dims w := w.inner.dims

end GeoJsonLineWriter

/-! ### values of the `geojson` crate -/

/-- `geojson::GeometryValue`; a position is a list of numbers (`PointType`)
(external; imported in geojson_reader.rs:4) -/
inductive GjGeom
  | point (p : List F64)
  | multiPoint (ps : List (List F64))
  | lineString (ps : List (List F64))
  | multiLineString (ls : List (List (List F64)))
  | polygon (rs : List (List (List F64)))
  | multiPolygon (ps : List (List (List (List F64))))
  | collection (gs : List GjGeom)

/-- `serde_json::Value` as property value; arrays and objects by the text `serde_json::to_string` gives for them (which
does not fail for values that were parsed) (external; used in geojson_reader.rs:215-255) -/
inductive GjVal
  | null
  | bool (b : Bool)
  | f64 (x : F64)
  | i64 (v : Int64)
  | u64 (v : UInt64)
  | string (s : Text)
  | array (json : Text)
  | object (json : Text)
deriving DecidableEq, Repr

/-- `geojson::Feature`: properties in the iteration order of the map, geometry
(external; imported in geojson_reader.rs:4) -/
structure GjFeature where
  properties : Option (List (Text × GjVal)) := none
  geometry : Option GjGeom := none

/-- `geojson::GeoJson` (external; imported in geojson_reader.rs:4) -/
inductive GeoJsonValue
  | featureCollection (fs : List GjFeature)
  | feature (f : GjFeature)
  | geometry (g : GjGeom)

/-! ### geojson_reader.rs -/

/-- `process_coord` (geojson_reader.rs:257-276); `point_type[0]`, `point_type[1]` panic when missing -/
def gjCoord (multi : Bool) (i : Nat) (p : List F64) : Prog Unit :=
  match p with
  | x :: y :: rest =>
    if multi then Prog.emitEv (.coord x y rest.head? none none none i) else Prog.emitEv (.xy x y i)
  | _ => .fail (.panic "index out of bounds")

/-- `process_linestring` (geojson_reader.rs:278-290) -/
def gjLine (tagged : Bool) (idx : Nat) (l : List (List F64)) : Prog Unit := do
  Prog.emitEv (.gbegin .lineString tagged l.length idx)
  let multi ← Prog.multiDim
  forIdx (gjCoord multi) 0 l
  Prog.emitEv (.gend .lineString tagged idx)

/-- `process_polygon` (geojson_reader.rs:292-303) -/
def gjPolygon (tagged : Bool) (idx : Nat) (rs : List (List (List F64))) : Prog Unit := do
  Prog.emitEv (.gbegin .polygon tagged rs.length idx)
  forIdx (gjLine false) 0 rs
  Prog.emitEv (.gend .polygon tagged idx)

mutual
/-- `process_geojson_geom_n` (geojson_reader.rs:160-217) -/
def gjGeomN (idx : Nat) : GjGeom → Prog Unit
  | .point p => do
    Prog.emitEv (.gbegin .point true 1 idx)
    let multi ← Prog.multiDim
    gjCoord multi 0 p
    Prog.emitEv (.gend .point true idx)
  | .multiPoint ps => do
    Prog.emitEv (.gbegin .multiPoint true ps.length idx)
    let multi ← Prog.multiDim
    forIdx (gjCoord multi) 0 ps
    Prog.emitEv (.gend .multiPoint true idx)
  | .lineString ps => gjLine true idx ps
  | .multiLineString ls => do
    Prog.emitEv (.gbegin .multiLineString true ls.length idx)
    forIdx (gjLine false) 0 ls
    Prog.emitEv (.gend .multiLineString true idx)
  | .polygon rs => gjPolygon true idx rs
  | .multiPolygon ps => do
    Prog.emitEv (.gbegin .multiPolygon true ps.length idx)
    forIdx (gjPolygon false) 0 ps
    Prog.emitEv (.gend .multiPolygon true idx)
  | .collection gs => do
    Prog.emitEv (.gbegin .collection true gs.length idx)
    gjMembers 0 gs
    Prog.emitEv (.gend .collection true idx)

/-- the loop over the members of a collection (geojson_reader.rs:211-213) -/
def gjMembers (i : Nat) : List GjGeom → Prog Unit
  | [] => pure ()
  | g :: gs => do
    gjGeomN i g
    gjMembers (i + 1) gs
end

/-- the `ColumnValue` of a property, `None` for null (geojson_reader.rs:226-252) -/
def GjVal.column : GjVal → Option ColVal
  | .null => none
  | .bool b => some (.bool b)
  | .f64 x => some (.double x)
  | .i64 v => some (.long v)
  | .u64 v => some (.ulong v)
  | .string s => some (.string s)
  | .array t => some (.json t)
  | .object t => some (.json t)

/-- one round of the loop of `process_properties` (geojson_reader.rs:220-255) -/
def gjProperty (i : Nat) (p : Text × GjVal) : FProg Unit :=
  match p.2.column with
  | none => .ret ()
  | some v => FProg.call (.prop i p.1 v)

/-- `if let Some(ref properties) = feature.properties { .. }` (geojson_reader.rs:90-94, 116-120) -/
def gjPropertiesPart : Option (List (Text × GjVal)) → FProg Unit
  | none => .ret ()
  | some ps => do
    FProg.call .propsBegin
    FProg.forIdx gjProperty 0 ps
    FProg.call .propsEnd

/-- `if let Some(ref geometry) = feature.geometry { .. }` (geojson_reader.rs:95-99, 121-125) -/
def gjGeometryPart (idx : Nat) : Option GjGeom → FProg Unit
  | none => .ret ()
  | some g => do
    FProg.call .geomBegin
    FProg.lift (gjGeomN idx g)
    FProg.call .geomEnd

/-- body of the loop over the features of a collection (geojson_reader.rs:88-101); the geometry is delivered with the
index of the feature -/
def gjCollectionFeature (idx : Nat) (f : GjFeature) : FProg Unit := do
  FProg.call (.ftBegin idx)
  gjPropertiesPart f.properties
  gjGeometryPart idx f.geometry
  FProg.call (.ftEnd idx)

/-- `process_geojson_feature` (geojson_reader.rs:110-131) -/
def gjSingleFeature (idx : Nat) (f : GjFeature) : FProg Unit := do
  FProg.call (.dsBegin none)
  (if f.geometry.isSome || f.properties.isSome then gjCollectionFeature idx f else .ret ())
  FProg.call .dsEnd

/-- `process_geojson` (geojson_reader.rs:84-107) -/
def processGeoJson : GeoJsonValue → FProg Unit
  | .featureCollection fs => do
    FProg.call (.dsBegin none)
    FProg.forIdx gjCollectionFeature 0 fs
    FProg.call .dsEnd
  | .feature f => gjSingleFeature 0 f
  | .geometry g => FProg.lift (gjGeomN 0 g)

/-- `read_geojson` (geojson_reader.rs:57-62); `parsed` is the outcome of reading and parsing the text -/
def readGeoJson (parsed : Except Err GeoJsonValue) : FProg Unit :=
  match parsed with
  | .error e => .fail e
  | .ok v => processGeoJson v

/-- body of the loop of `read_geojson_fc` (geojson_reader.rs:64-71) -/
def readFcFeature (idx : Nat) (f : Except Err GjFeature) : FProg Unit :=
  match f with
  | .error e => .fail e
  | .ok f => gjSingleFeature idx f

/-- `read_geojson_fc` (geojson_reader.rs:64-70) on the features `FeatureReader` yields -/
def readGeoJsonFc (fs : List (Except Err GjFeature)) : FProg Unit := FProg.forIdx readFcFeature 0 fs

/-- `process_geojson_geom` (geojson_reader.rs:134-157) -/
def processGeoJsonGeom : GeoJsonValue → Prog Unit
  | .featureCollection fs => forIdx gjGeomN 0 (fs.filterMap GjFeature.geometry)
  | .feature f =>
    match f.geometry with
    | none => pure ()
    | some g => gjGeomN 0 g
  | .geometry g => gjGeomN 0 g

/-! ### geojson_line_reader.rs -/

/-- the error for a line that is neither a feature nor a geometry (geojson_line_reader.rs:66, 89) -/
def lineError : Err := .dataset "line-delimited GeoJson ('geojsonl') files must have one Feature or Geometry per line"

/-- `process_feature` (geojson_line_reader.rs:96-114); the geometry is delivered with index 0 -/
def gjLineFeature (idx : Nat) (f : GjFeature) : FProg Unit := do
  FProg.call (.ftBegin idx)
  gjPropertiesPart f.properties
  gjGeometryPart 0 f.geometry
  FProg.call (.ftEnd idx)

/-- body of the loop of `read_geojson_lines` (geojson_line_reader.rs:84-92) -/
def gjLineItem (idx : Nat) (line : Except Err GeoJsonValue) : FProg Unit :=
  match line with
  | .error e => .fail e
  | .ok (.feature f) => gjLineFeature idx f
  | .ok (.geometry g) => FProg.lift (gjGeomN idx g)
  | .ok (.featureCollection _) => .fail lineError

/-- `read_geojson_lines` (geojson_line_reader.rs:80-94); `lines` are the parsed lines -/
def readGeoJsonLines (lines : List (Except Err GeoJsonValue)) : FProg Unit := do
  FProg.call (.dsBegin none)
  FProg.forIdx gjLineItem 0 lines
  FProg.call .dsEnd

/-- `add_geometry_to_collection` (geojson_line_reader.rs:42-54); the result is the new `started` -/
def gjAddGeometry (started : Bool) (idx : Nat) (g : GjGeom) : Prog Bool := do
  (if started then pure () else Prog.emitEv (.gbegin .collection true 1 0))
  gjGeomN idx g
  pure true

/-- the loop of `read_geojson_line_geometries` (geojson_line_reader.rs:57-69) -/
def gjLineGeoms (started : Bool) (idx : Nat) : List (Except Err GeoJsonValue) → Prog Bool
  | [] => pure started
  | .error e :: _ => .fail e
  | .ok (.feature f) :: lines =>
    match f.geometry with
    | none => gjLineGeoms started (idx + 1) lines
    | some g => Prog.bind (gjAddGeometry started idx g) fun s => gjLineGeoms s (idx + 1) lines
  | .ok (.geometry g) :: lines =>
    Prog.bind (gjAddGeometry started idx g) fun s => gjLineGeoms s (idx + 1) lines
  | .ok (.featureCollection _) :: _ => .fail lineError

/-- `read_geojson_line_geometries` (geojson_line_reader.rs:35-77) -/
def readGeoJsonLineGeometries (lines : List (Except Err GeoJsonValue)) : Prog Unit := do
  let started ← gjLineGeoms false 0 lines
  (if started then pure () else Prog.emitEv (.gbegin .collection true 0 0))
  Prog.emitEv (.gend .collection true 0)

/-- the loop of `bufLines`, after the characters `cur` of an unfinished line (used in geojson_line_reader.rs:57, 84) -/
def bufLinesFrom (cur : Text) : Text → List Text
  | [] => if cur = [] then [] else [cur]
  | c :: t =>
    if c = '\n' then (if cur.getLast? = some '\r' then cur.dropLast else cur) :: bufLinesFrom [] t
    else bufLinesFrom (cur ++ [c]) t

/-- `BufRead::lines` of the standard library on characters: the lines without their line break (`\n` or `\r\n`); what is after the
last line break is a line if it is not empty (used in geojson_line_reader.rs:57, 84) -/
def bufLines (t : Text) : List Text := bufLinesFrom [] t

/-- `GeoJsonLineReader::process` (geojson_line_reader.rs:28-32, 80-94) on text, with the parser of the `geojson` crate.
Simplification: the lines are split before the first call, in the code one by one; the parser is pure, so this makes no difference. -/
def readGeoJsonLinesText (parse : Text → Except Err GeoJsonValue) (t : Text) : FProg Unit :=
  readGeoJsonLines ((bufLines t).map parse)

end Geozero
