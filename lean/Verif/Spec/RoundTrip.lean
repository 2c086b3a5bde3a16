import Verif.Spec.GeoJson
import Verif.Spec.Wkt

/-
What the external parsers have to do for text to be read back: a WKT parser, a CSV codec, a GeoJSON parser.  Each is stated on
the grammar of the format, not on what the writers happen to print.
-/

namespace Geozero
open Json

/-! ### WKT -/

/-- `parse` understands the WKT of two-dimensional geometries of the seven simple feature types, as the grammar `parseWkt` does.
(Nothing is said about other texts.) -/
def UnderstandsWkt (N : Spec.NumText) (parse : Text → Except Err WktGeom) : Prop :=
  ∀ t g, Spec.parseWkt N.parse t = some g → g.IsGeoJson (Spec.Recoverable false) →
    ∃ w, parse t = .ok w ∧ w.NoEmptyMember ∧ w.denote = g

/-! ### CSV -/

/-- `dec` gets the header record and the other records back from what `enc` writes for records of equal length.  (Nothing is said
about records of different lengths and unfinished records.) -/
def DecodesCsv (enc : List (List Text) → List Text → Text)
    (dec : Text → Except Err (List Text) × List (Except Err (List Text))) : Prop :=
  ∀ (header : List Text) (rows : List (List Text)), header ≠ [] → (∀ r ∈ rows, r.length = header.length) →
    dec (enc (header :: rows) []) = (.ok header, rows.map .ok)

/-! ### GeoJSON -/

namespace Rfc7946

/-- the value of the member with a name, in an object whose names are different -/
def member (ms : List (Text × Json)) (name : String) : Option Json := ms.lookup (txt name)

/-- the names of the members are different -/
def Distinct (ms : List (Text × Json)) : Prop := (ms.map Prod.fst).Nodup

/-- two lists whose members are related one by one -/
def ArrayOf {α β : Type} (R : β → α → Prop) : List β → List α → Prop
  | [], [] => True
  | j :: js, x :: xs => R j x ∧ ArrayOf R js xs
  | _, _ => False

/-- a position: an array of at least two numbers -/
def IsPosition (num : Text → F64) (j : Json) (p : List F64) : Prop :=
  ∃ lits : List Text, j = .arr (lits.map .num) ∧ 2 ≤ lits.length ∧ p = lits.map num

/-- an array of positions -/
def IsPositions (num : Text → F64) (j : Json) (ps : List (List F64)) : Prop := ∃ js, j = .arr js ∧ ArrayOf (IsPosition num) js ps

/-- an array of arrays of positions -/
def IsRings (num : Text → F64) (j : Json) (rs : List (List (List F64))) : Prop :=
  ∃ js, j = .arr js ∧ ArrayOf (IsPositions num) js rs

/-- an array of arrays of arrays of positions -/
def IsPolygons (num : Text → F64) (j : Json) (ps : List (List (List (List F64)))) : Prop :=
  ∃ js, j = .arr js ∧ ArrayOf (IsRings num) js ps

/-- an object with a type and a `coordinates` member -/
def HasCoordinates (j : Json) (type : String) (c : Json) : Prop :=
  ∃ ms, j = .obj ms ∧ Distinct ms ∧ member ms "type" = some (.str (txt type)) ∧ member ms "coordinates" = some c

mutual
/-- a geometry object (section 3.1) -/
def IsGeometry (num : Text → F64) : Json → GjGeom → Prop
  | j, .point p => ∃ c, HasCoordinates j "Point" c ∧ IsPosition num c p
  | j, .multiPoint ps => ∃ c, HasCoordinates j "MultiPoint" c ∧ IsPositions num c ps
  | j, .lineString ps => ∃ c, HasCoordinates j "LineString" c ∧ IsPositions num c ps
  | j, .multiLineString ls => ∃ c, HasCoordinates j "MultiLineString" c ∧ IsRings num c ls
  | j, .polygon rs => ∃ c, HasCoordinates j "Polygon" c ∧ IsRings num c rs
  | j, .multiPolygon ps => ∃ c, HasCoordinates j "MultiPolygon" c ∧ IsPolygons num c ps
  | j, .collection gs => ∃ ms js, j = .obj ms ∧ Distinct ms ∧ member ms "type" = some (.str (txt "GeometryCollection")) ∧
      member ms "geometries" = some (.arr js) ∧ IsGeometries num js gs

def IsGeometries (num : Text → F64) : List Json → List GjGeom → Prop
  | [], [] => True
  | j :: js, g :: gs => IsGeometry num j g ∧ IsGeometries num js gs
  | _, _ => False
end

/-- a property value: integers by their value if they fit into 64 bits, other numbers as floats, arrays and objects as
serialized again by `ser` -/
def propVal (num : Text → F64) (ser : Json → Text) : Json → GjVal
  | .null => .null
  | .bool b => .bool b
  | .str s => .string s
  | .num lit =>
    match decimal lit with
    | none => .f64 (num lit)
    | some n =>
      if lit = txt "-0" then .f64 (num lit)
      else if -(2 ^ 63) ≤ n ∧ n < 2 ^ 63 then .i64 (Int64.ofInt n)
      else if 0 ≤ n ∧ n < 2 ^ 64 then .u64 (UInt64.ofNat n.toNat)
      else .f64 (num lit)
  | .arr xs => .array (ser (.arr xs))
  | .obj ms => .object (ser (.obj ms))

/-- a feature object (section 3.2), with a properties object or null and a geometry object or null; `order` is the order in which
the properties are kept -/
def IsFeature (num : Text → F64) (ser : Json → Text) (order : List (Text × Json) → List (Text × Json)) (j : Json)
    (f : GjFeature) : Prop :=
  ∃ ms pj gj, j = .obj ms ∧ Distinct ms ∧ member ms "type" = some (.str (txt "Feature")) ∧ member ms "properties" = some pj ∧
    member ms "geometry" = some gj ∧
    (match f.properties with
      | none => pj = .null
      | some ps => ∃ pms, pj = .obj pms ∧ ps = (order pms).map fun p => (p.1, propVal num ser p.2)) ∧
    (match f.geometry with
      | none => gj = .null
      | some g => IsGeometry num gj g)

/-- a feature collection object (section 3.3) -/
def IsFeatureCollection (num : Text → F64) (ser : Json → Text) (order : List (Text × Json) → List (Text × Json)) (j : Json)
    (fs : List GjFeature) : Prop :=
  ∃ ms js, j = .obj ms ∧ Distinct ms ∧ member ms "type" = some (.str (txt "FeatureCollection")) ∧ member ms "features" = some (.arr js) ∧
    ArrayOf (IsFeature num ser order) js fs

end Rfc7946

/-- A parser of GeoJSON: how it reads numbers, prints arrays and objects again, and orders the properties of a feature (a
`BTreeMap` sorts them; the properties of an object without duplicate names are all kept), and which texts it accepts.  It may
reject texts that are too deeply nested, or have numbers or other members it does not like; an accepted text that is GeoJSON is
read as what it is. -/
structure GjParser where
  num : Text → F64
  ser : Json → Text
  order : List (Text × Json) → List (Text × Json)
  accepts : Text → Prop
  parse : Text → Except Err GeoJsonValue
  order_perm : ∀ ms, Rfc7946.Distinct ms → (order ms).Perm ms
  collection : ∀ t j fs, accepts t → IsText t j → Rfc7946.IsFeatureCollection num ser order j fs →
    parse t = .ok (.featureCollection fs)
  feature : ∀ t j f, accepts t → IsText t j → Rfc7946.IsFeature num ser order j f → parse t = .ok (.feature f)
  geometry : ∀ t j g, accepts t → IsText t j → Rfc7946.IsGeometry num j g → parse t = .ok (.geometry g)

/-- What comes back of a value that is written as JSON: integers, booleans and strings as they are, a date-time as a string, a
float as what its text is as a number: itself, or the integer if it is printed like one; embedded JSON arrays and objects as JSON,
printed again by the parser (`ser`), and other embedded JSON as the string, boolean or number it is. -/
def Content.BackAs (fmt : Fmt) (num : Text → F64) (ser : Json → Text) (decode : Text → Json) : Content → Content → Prop
  | .int i, c => c = .int i
  | .bool b, c => c = .bool b
  | .text t, c => c = .text t
  | .date t, c => c = .text t
  | .float64 x, c => c = .float64 (num (fmt.f64 x)) ∨ ∃ n, decimal (fmt.f64 x) = some n ∧ c = .int n
  | .float32 x, c => c = .float64 (num (fmt.f32 x)) ∨ ∃ n, decimal (fmt.f32 x) = some n ∧ c = .int n
  | .json t, c =>
    match decode t with
    | .null => False
    | .bool b => c = .bool b
    | .str s => c = .text s
    | .num lit => c = .float64 (num lit) ∨ ∃ n, decimal lit = some n ∧ c = .int n
    | .arr _ => c = .json (ser (decode t))
    | .obj _ => c = .json (ser (decode t))
  | .bytes _, _ => False

/-- A feature that GeoJSON can carry: both sections are there, names are different and plain, values are not binary and have a JSON
form, the geometry is of a GeoJSON type without empty points, with numbers that are
printed as numbers and read back (`num`) as they were, and with no more dimensions than are written. -/
structure FeatureData.Carried (fmt : Fmt) (decode : Text → Json) (num : Text → F64) (multi : Bool) (d : FeatureData) (ps : List (Text × ColVal))
    (g : Geom) : Prop where
  props : d.props = some ps
  geom : d.geom = some g
  names : ∀ p ∈ ps, PlainText p.1
  nodup : (ps.map Prod.fst).Nodup
  vals : ∀ p ∈ ps, p.2.Printable fmt decode
  type : g.IsGeoJson fun c => c.AllOrds (fun x => IsNumber (fmt.f64 x) ∧ num (fmt.f64 x) = x) multi ∧ c.m = none ∧ (multi = false → c.z = none)
  noEmpty : g.hasEmptyPoint = false

/-- embedded JSON that is null, which GeoJSON does not tell from a missing value -/
def ColVal.isNullJson (decode : Text → Json) : ColVal → Bool
  | .json t => match decode t with
    | .null => true
    | _ => false
  | _ => false

/-- The feature `f` read back for feature number `i`: the same geometry; after some reordering the same names with what comes back of
the values, numbered 0, 1, ...; only embedded nulls do not come back (but are counted). -/
def FeatureData.Back (fmt : Fmt) (num : Text → F64) (ser : Json → Text) (decode : Text → Json) (ps : List (Text × ColVal))
    (g : List Ev) (f : Feat) : Prop :=
  f.geom = some g ∧ ∃ (qs : List PropRec) (ps' : List (Text × ColVal)), f.props = some qs ∧ ps'.Perm ps ∧
    Rfc7946.ArrayOf (fun (q : PropRec) (p : (Text × ColVal) × Nat) => q.1 = p.2 ∧ q.2.1 = p.1.1 ∧
      ∃ c c', p.1.2.content = some c ∧ q.2.2.content = some c' ∧ c.BackAs fmt num ser decode c') qs
      (ps'.zipIdx.filter fun p => !p.1.2.isNullJson decode)

end Geozero
