import Verif.Spec.Json
import Verif.Spec.Features
import Verif.Spec.Values
import Verif.Model.GeoJson

/-
GeoJSON (RFC 7946) objects of geometries, features and feature collections, as JSON values.
-/

namespace Geozero
open Json

namespace Rfc7946

/-- a position: longitude, latitude and, for three-dimensional output, altitude if there is one (section 3.1.1) -/
def position (num : F64 → Text) (multi : Bool) (c : Coord) : Json :=
  .arr ([.num (num c.x), .num (num c.y)] ++
    (match multi, c.z with
      | true, some z => [.num (num z)]
      | _, _ => []))

/-- array of positions -/
def positions (num : F64 → Text) (multi : Bool) (cs : List Coord) : Json := .arr (cs.map (position num multi))

/-- array of arrays of positions -/
def rings (num : F64 → Text) (multi : Bool) (rs : List (List Coord)) : Json := .arr (rs.map (positions num multi))

/-- object with a type and another member -/
def object (type member : String) (v : Json) : Json := .obj [(txt "type", .str (txt type)), (txt member, v)]

/-- geometry object (sections 3.1.2 - 3.1.8); an empty point has an empty `coordinates` array; types that are not
GeoJSON are `null` -/
def geometry (num : F64 → Text) (multi : Bool) : Geom → Json
  | .emptyPoint => object "Point" "coordinates" (.arr [])
  | .point c => object "Point" "coordinates" (position num multi c)
  | .multiPoint cs => object "MultiPoint" "coordinates" (positions num multi cs)
  | .lineString cs => object "LineString" "coordinates" (positions num multi cs)
  | .multiLineString ls => object "MultiLineString" "coordinates" (rings num multi ls)
  | .polygon rs => object "Polygon" "coordinates" (rings num multi rs)
  | .multiPolygon ps => object "MultiPolygon" "coordinates" (.arr (ps.map (rings num multi)))
  | .collection gs => object "GeometryCollection" "geometries" (.arr (gs.map (geometry num multi)))
  | _ => .null

end Rfc7946

/-- all numbers that are written for the geometry satisfy `p` -/
def Coord.AllOrds (p : F64 → Prop) (multi : Bool) (c : Coord) : Prop :=
  p c.x ∧ p c.y ∧ (multi = true → ∀ z, c.z = some z → p z)

/-- a geometry of one of the seven GeoJSON types (RFC 7946, section 3.1), or the empty point, all of whose coordinates
satisfy `p` -/
inductive Geom.IsGeoJson (p : Coord → Prop) : Geom → Prop
  | emptyPoint : IsGeoJson p .emptyPoint
  | point {c : Coord} (h : p c) : IsGeoJson p (.point c)
  | multiPoint {cs : List Coord} (h : ∀ c ∈ cs, p c) : IsGeoJson p (.multiPoint cs)
  | lineString {cs : List Coord} (h : ∀ c ∈ cs, p c) : IsGeoJson p (.lineString cs)
  | multiLineString {ls : List (List Coord)} (h : ∀ l ∈ ls, ∀ c ∈ l, p c) : IsGeoJson p (.multiLineString ls)
  | polygon {rs : List (List Coord)} (h : ∀ l ∈ rs, ∀ c ∈ l, p c) : IsGeoJson p (.polygon rs)
  | multiPolygon {ps : List (List (List Coord))} (h : ∀ q ∈ ps, ∀ l ∈ q, ∀ c ∈ l, p c) : IsGeoJson p (.multiPolygon ps)
  | collection {gs : List Geom} (h : ∀ g ∈ gs, IsGeoJson p g) : IsGeoJson p (.collection gs)

/-! ### features -/

/-- no backslash and no control character (quotes are allowed) -/
def PlainText (t : Text) : Prop := ∀ c ∈ t, c ≠ '\\' ∧ 32 ≤ c.toNat

/-- the JSON value of a property value: integers and floats as their decimal text, `decode` for embedded JSON -/
def Content.toJson (fmt : Fmt) (decode : Text → Json) : Content → Json
  | .int i => .num (intText i)
  | .bool b => .bool b
  | .float32 x => .num (fmt.f32 x)
  | .float64 x => .num (fmt.f64 x)
  | .text t => .str t
  | .date t => .str t
  | .json t => decode t
  | .bytes _ => .null

/-- the JSON value of a column value -/
def ColVal.toJson (fmt : Fmt) (decode : Text → Json) (v : ColVal) : Json :=
  match v.content with
  | none => .null
  | some c => c.toJson fmt decode

/-- values with a JSON form: finite floats (those printed as JSON numbers), plain strings, embedded JSON that is JSON, no
binary -/
def ColVal.Printable (fmt : Fmt) (decode : Text → Json) : ColVal → Prop
  | .float x => IsNumber (fmt.f32 x)
  | .double x => IsNumber (fmt.f64 x)
  | .string t => PlainText t
  | .dateTime t => PlainText t
  | .json t => IsText t (decode t)
  | .binary _ => False
  | _ => True

/-- A feature to be written: properties section (absent or a list of names and values), geometry section (absent or a
geometry), and which section comes first. -/
structure FeatureData where
  props : Option (List (Text × ColVal)) := none
  geom : Option Geom := none
  geomFirst : Bool := false

/-- the calls delivering it: properties numbered 0, 1, ..., the geometry with index 0 -/
def FeatureData.feat (multi : Bool) (d : FeatureData) : Feat where
  props := d.props.map (enumFrom 0)
  geom := d.geom.map fun g => g.events multi 0
  geomFirst := d.geomFirst

/-- names are plain, values and geometry have a JSON form -/
structure FeatureData.Printable (fmt : Fmt) (decode : Text → Json) (multi : Bool) (d : FeatureData) : Prop where
  names : ∀ ps, d.props = some ps → ∀ p ∈ ps, PlainText p.1
  vals : ∀ ps, d.props = some ps → ∀ p ∈ ps, p.2.Printable fmt decode
  geom : ∀ g, d.geom = some g → g.IsGeoJson (fun c => c.AllOrds (fun x => IsNumber (fmt.f64 x)) multi)

/-- How Rust prints floats: as a JSON number if they are finite, otherwise as `NaN`, `inf` or `-inf`. -/
def PrintsFloats {α : Type} (num : α → Text) : Prop :=
  ∀ x, IsNumber (num x) ∨ num x = txt "NaN" ∨ num x = txt "inf" ∨ num x = txt "-inf"

/-- `Printable` without the condition on floats -/
def ColVal.PrintableText (decode : Text → Json) : ColVal → Prop
  | .string t => PlainText t
  | .dateTime t => PlainText t
  | .json t => IsText t (decode t)
  | .binary _ => False
  | _ => True

/-- `Printable` without the condition on floats and ordinates -/
structure FeatureData.PrintableText (decode : Text → Json) (d : FeatureData) : Prop where
  names : ∀ ps, d.props = some ps → ∀ p ∈ ps, PlainText p.1
  vals : ∀ ps, d.props = some ps → ∀ p ∈ ps, p.2.PrintableText decode
  geom : ∀ g, d.geom = some g → g.IsGeoJson fun _ => True

/-- a float is finite: it is printed as a JSON number -/
def ColVal.Finite (fmt : Fmt) : ColVal → Prop
  | .float x => IsNumber (fmt.f32 x)
  | .double x => IsNumber (fmt.f64 x)
  | _ => True

/-- all floats among the properties and all ordinates that are written are finite -/
structure FeatureData.Finite (fmt : Fmt) (multi : Bool) (d : FeatureData) : Prop where
  vals : ∀ ps, d.props = some ps → ∀ p ∈ ps, p.2.Finite fmt
  geom : ∀ g, d.geom = some g → g.IsGeoJson (fun c => c.AllOrds (fun x => IsNumber (fmt.f64 x)) multi)

namespace Rfc7946

/-- the `properties` member -/
def propsMember (fmt : Fmt) (decode : Text → Json) (d : FeatureData) : List (Text × Json) :=
  match d.props with
  | none => []
  | some ps => [(txt "properties", .obj (ps.map fun p => (p.1, p.2.toJson fmt decode)))]

/-- the `geometry` member -/
def geomMember (fmt : Fmt) (multi : Bool) (d : FeatureData) : List (Text × Json) :=
  match d.geom with
  | none => []
  | some g => [(txt "geometry", geometry fmt.f64 multi g)]

/-- feature object (section 3.2), members in the order of delivery.  (RFC 7946 wants both members to be there; a section
that is not delivered has no member here.) -/
def feature (fmt : Fmt) (decode : Text → Json) (multi : Bool) (d : FeatureData) : Json :=
  .obj ((txt "type", .str (txt "Feature")) ::
    (if d.geomFirst then geomMember fmt multi d ++ propsMember fmt decode d
     else propsMember fmt decode d ++ geomMember fmt multi d))

/-- feature collection object (section 3.3) with the name of the dataset as foreign member -/
def featureCollection (fmt : Fmt) (decode : Text → Json) (multi : Bool) (name : Option Text) (ds : List FeatureData) : Json :=
  .obj ((txt "type", .str (txt "FeatureCollection")) ::
    ((match name with | none => [] | some n => [(txt "name", .str n)]) ++
      [(txt "features", .arr (ds.map (feature fmt decode multi)))]))

end Rfc7946

/-! ### line-delimited GeoJSON -/

/-- An item of a GeoJSON-lines file: a feature (any properties section, any geometry delivered with any index), or a bare
geometry. -/
inductive LineItem
  | feature (props : Option (List PropRec)) (geom : Option (Nat × Geom)) (geomFirst : Bool)
  | geometry (g : Geom)

/-- the calls delivering item number `i` -/
def LineItem.evs (multi : Bool) (i : Nat) : LineItem → List FEv
  | .feature ps g first => Feat.evs i ⟨ps, g.map fun g => g.2.events multi g.1, first⟩
  | .geometry g => (g.events multi i).map FEv.geom

/-- bare geometries are of a GeoJSON type -/
def LineItem.Ok : LineItem → Prop
  | .feature _ _ _ => True
  | .geometry g => g.IsGeoJson fun _ => True

/-- no line break in a property -/
def PropRec.OneLine (p : PropRec) : Prop :=
  '\n' ∉ p.2.1 ∧
    match p.2.2 with
    | .string t => '\n' ∉ t
    | .dateTime t => '\n' ∉ t
    | .json t => '\n' ∉ t
    | _ => True

/-- no line break in the properties of an item -/
def LineItem.OneLine : LineItem → Prop
  | .feature ps _ _ => ∀ p ∈ ps.getD [], PropRec.OneLine p
  | .geometry _ => True

/-! ### GeoJSON values -/

/-- coordinate of a position: first, second and, if there is one, third number -/
def posCoord : List F64 → Coord
  | x :: y :: rest => { x := x, y := y, z := rest.head? }
  | _ => { x := 0, y := 0 }

/-- the geometry of a GeoJSON geometry value -/
def GjGeom.geom : GjGeom → Geom
  | .point p => .point (posCoord p)
  | .multiPoint ps => .multiPoint (ps.map posCoord)
  | .lineString ps => .lineString (ps.map posCoord)
  | .multiLineString ls => .multiLineString (ls.map (List.map posCoord))
  | .polygon rs => .polygon (rs.map (List.map posCoord))
  | .multiPolygon ps => .multiPolygon (ps.map (List.map (List.map posCoord)))
  | .collection gs => .collection (gs.map GjGeom.geom)

/-- every position has at least two numbers (RFC 7946, section 3.1.1) -/
inductive GjGeom.Ok : GjGeom → Prop
  | point {p : List F64} (h : 2 ≤ p.length) : Ok (.point p)
  | multiPoint {ps : List (List F64)} (h : ∀ p ∈ ps, 2 ≤ p.length) : Ok (.multiPoint ps)
  | lineString {ps : List (List F64)} (h : ∀ p ∈ ps, 2 ≤ p.length) : Ok (.lineString ps)
  | multiLineString {ls : List (List (List F64))} (h : ∀ l ∈ ls, ∀ p ∈ l, 2 ≤ p.length) : Ok (.multiLineString ls)
  | polygon {rs : List (List (List F64))} (h : ∀ l ∈ rs, ∀ p ∈ l, 2 ≤ p.length) : Ok (.polygon rs)
  | multiPolygon {ps : List (List (List (List F64)))} (h : ∀ q ∈ ps, ∀ l ∈ q, ∀ p ∈ l, 2 ≤ p.length) :
      Ok (.multiPolygon ps)
  | collection {gs : List GjGeom} (h : ∀ g ∈ gs, Ok g) : Ok (.collection gs)

/-- content of a property value; `null` has none -/
def GjVal.content : GjVal → Option Content
  | .null => none
  | .bool b => some (.bool b)
  | .f64 x => some (.float64 x)
  | .i64 v => some (.int v.toInt)
  | .u64 v => some (.int v.toNat)
  | .string s => some (.text s)
  | .array t => some (.json t)
  | .object t => some (.json t)

/-- the properties delivered for a property map: those that are not null, with their position in the map -/
def gjProps (ps : List (Text × GjVal)) : List PropRec :=
  (enumFrom 0 ps).filterMap fun p => p.2.2.column.map fun v => (p.1, p.2.1, v)

/-- the feature delivered for feature value `f`, its geometry with index `idx` -/
def GjFeature.feat (multi : Bool) (idx : Nat) (f : GjFeature) : Feat where
  props := f.properties.map gjProps
  geom := f.geometry.map fun g => g.geom.events multi idx

/-- the positions of its geometry are positions -/
def GjFeature.Ok (f : GjFeature) : Prop := ∀ g, f.geometry = some g → g.Ok

end Geozero
