import Verif.Spec.GeoTypes
import Verif.Spec.Values
import Verif.Spec.Features
import Verif.Model.Mvt

/-
What tile geometries and tile values mean, which geometries a tile can hold, and which numbers are whole.
-/

namespace Geozero

/-- The value of the IEEE-754 pattern is the integer `n`: the pattern is finite, `(-1)^sign * sig * 2^(e - 1075) = n`
with `e` the biased exponent (1 for subnormal numbers). -/
def F64.IsInt (x : F64) (n : Int) : Prop :=
  x.bexp ≠ 2047 ∧ x.sig * 2 ^ (max x.bexp 1) = n.natAbs * 2 ^ 1075 ∧ (if x.neg then n ≤ 0 else 0 ≤ n)

/-- The value of the pattern, rounded towards zero, is the integer `n`. -/
def F64.TruncTo (x : F64) (n : Int) : Prop :=
  x.bexp ≠ 2047 ∧ n.natAbs * 2 ^ 1075 ≤ x.sig * 2 ^ (max x.bexp 1) ∧
    x.sig * 2 ^ (max x.bexp 1) < (n.natAbs + 1) * 2 ^ 1075 ∧ (if x.neg then n ≤ 0 else 0 ≤ n)

/-- range of `i32` -/
def InI32 (n : Int) : Prop := -2147483648 ≤ n ∧ n ≤ 2147483647

/-- `-0.0` -/
def F64.negZero : F64 := 0x8000000000000000#64

/-- a coordinate a tile stores exactly: x and y whole numbers in the range of `i32` (and not `-0.0`), no z, no m -/
def Coord.TileExact (c : Coord) : Prop :=
  (∃ n, c.x.IsInt n ∧ InI32 n ∧ c.x ≠ F64.negZero) ∧ (∃ n, c.y.IsInt n ∧ InI32 n ∧ c.y ≠ F64.negZero) ∧
    c.z = none ∧ c.m = none

/-- value of a base64 digit (RFC 4648, table 1) -/
def b64Val (c : Char) : Option Nat :=
  let n := c.toNat
  if 65 ≤ n ∧ n ≤ 90 then some (n - 65)
  else if 97 ≤ n ∧ n ≤ 122 then some (n - 97 + 26)
  else if 48 ≤ n ∧ n ≤ 57 then some (n - 48 + 52)
  else if n = 43 then some 62
  else if n = 47 then some 63
  else none

/-- decode base64 (RFC 4648, section 4): groups of four digits hold three bytes, a last group `dd==` holds one, `ddd=` two -/
def b64Decode : Text → Option (List Byte)
  | [] => some []
  | [a, b, c, d] =>
    if c = '=' ∧ d = '=' then do
      let x ← b64Val a
      let y ← b64Val b
      if y % 16 = 0 then some [UInt8.ofNat (x * 4 + y / 16)] else none
    else if d = '=' then do
      let x ← b64Val a
      let y ← b64Val b
      let z ← b64Val c
      if z % 4 = 0 then some [UInt8.ofNat (x * 4 + y / 16), UInt8.ofNat (y % 16 * 16 + z / 4)] else none
    else do
      let x ← b64Val a
      let y ← b64Val b
      let z ← b64Val c
      let u ← b64Val d
      some [UInt8.ofNat (x * 4 + y / 16), UInt8.ofNat (y % 16 * 16 + z / 4), UInt8.ofNat (z % 4 * 64 + u)]
  | a :: b :: c :: d :: rest => do
    let x ← b64Val a
    let y ← b64Val b
    let z ← b64Val c
    let u ← b64Val d
    let r ← b64Decode rest
    some (UInt8.ofNat (x * 4 + y / 16) :: UInt8.ofNat (y % 16 * 16 + z / 4) :: UInt8.ofNat (z % 4 * 64 + u) :: r)
  | _ => none

/-- content of a tile value, if it is not null -/
def MvtValue.content : MvtValue → Option Content
  | .string v => some (.text v)
  | .float v => some (.float32 v)
  | .double v => some (.float64 v)
  | .int v => some (.int v.toInt)
  | .uint v => some (.int v.toNat)
  | .sint v => some (.int v.toInt)
  | .bool v => some (.bool v)
  | .null => none

/-- What the tile format keeps of a value's content: dates and JSON become texts, bytes become base64 text. -/
def Content.tile : Content → Content
  | .json t => .text t
  | .date t => .text t
  | .bytes b => .text (base64 b)
  | c => c

/-- the coordinate a tile position denotes -/
def IXY.coord (p : IXY) : Coord := { x := F64.ofI32 p.x, y := F64.ofI32 p.y, z := none, m := none }

def IPoly.rings (p : IPoly) : List (List IXY) := p.exterior :: p.interiors

mutual
/-- The geometry a tile geometry denotes. -/
def MvtGeom.denote : MvtGeom → Geom
  | .point p => .point p.coord
  | .line a b => .lineString [a.coord, b.coord]
  | .lineString cs => .lineString (cs.map IXY.coord)
  | .polygon p => .polygon (p.rings.map (List.map IXY.coord))
  | .multiPoint ps => .multiPoint (ps.map IXY.coord)
  | .multiLineString ls => .multiLineString (ls.map (List.map IXY.coord))
  | .multiPolygon ps => .multiPolygon (ps.map fun p => p.rings.map (List.map IXY.coord))
  | .collection gs => .collection (MvtGeom.denoteList gs)
  | .rect a b => .polygon [[a.coord, b.coord]]
  | .triangle a b c => .polygon [[a.coord, b.coord, c.coord]]

def MvtGeom.denoteList : List MvtGeom → List Geom
  | [] => []
  | g :: gs => g.denote :: MvtGeom.denoteList gs
end

mutual
/-- `P` holds of every line, `Q` of the list of rings of every polygon, and there is no bare segment, rectangle or
triangle (which the decoder of the tile format never produces). -/
def MvtGeom.All (P : List IXY → Prop) (Q : List (List IXY) → Prop) : MvtGeom → Prop
  | .point _ | .multiPoint _ => True
  | .lineString cs => P cs
  | .multiLineString ls => ∀ l ∈ ls, P l
  | .polygon p => Q p.rings
  | .multiPolygon ps => ∀ p ∈ ps, Q p.rings
  | .collection gs => MvtGeom.AllList P Q gs
  | .line _ _ | .rect _ _ | .triangle _ _ _ => False

def MvtGeom.AllList (P : List IXY → Prop) (Q : List (List IXY) → Prop) : List MvtGeom → Prop
  | [] => True
  | g :: gs => g.All P Q ∧ MvtGeom.AllList P Q gs
end

/-- a geometry of the kinds a tile can hold -/
def MvtGeom.Tile (g : MvtGeom) : Prop := g.All (fun _ => True) (fun _ => True)

/-- a closed ring: the last position repeats the first, with at least three positions before -/
def ClosedRing (r : List IXY) : Prop := ∃ body, 3 ≤ body.length ∧ r = body ++ body.head?.toList

/-- The minimum a tile geometry must satisfy: lines have at least two positions; polygons at least one ring, and every
ring is closed and has at least three positions besides the closing one. -/
def MvtGeom.Minimal (g : MvtGeom) : Prop :=
  g.All (fun l => 2 ≤ l.length) (fun rings => rings ≠ [] ∧ ∀ r ∈ rings, ClosedRing r)

/-- a ring without its closing position -/
def openRing (r : List IXY) : List IXY := if 2 ≤ r.length ∧ r.head? = r.getLast? then r.dropLast else r

/-- the tile positions of a list of coordinates under the writer's transformation -/
def tilePos (tr : F64 → F64 → IXY) (cs : List Coord) : List IXY := cs.map fun c => tr c.x c.y

/-- tile polygon for a list of rings: the first is the exterior; all are closed -/
def tilePoly (tr : F64 → F64 → IXY) : List (List Coord) → IPoly
  | [] => { exterior := [], interiors := [] }
  | e :: is => { exterior := closedUp Eq (tilePos tr e), interiors := is.map fun r => closedUp Eq (tilePos tr r) }

mutual
/-- The tile geometry for a geometry, where there is one: no curves, triangles, TINs, surfaces, and no empty points. -/
def Geom.tile (tr : F64 → F64 → IXY) : Geom → Option MvtGeom
  | .point c => some (.point (tr c.x c.y))
  | .lineString cs => some (.lineString (tilePos tr cs))
  | .polygon rings => some (.polygon (tilePoly tr rings))
  | .multiPoint cs => some (.multiPoint (tilePos tr cs))
  | .multiLineString ls => some (.multiLineString (ls.map (tilePos tr)))
  | .multiPolygon ps => some (.multiPolygon (ps.map (tilePoly tr)))
  | .collection gs => (Geom.tileList tr gs).map .collection
  | _ => none

def Geom.tileList (tr : F64 → F64 → IXY) : List Geom → Option (List MvtGeom)
  | [] => some []
  | g :: gs =>
    match g.tile tr, Geom.tileList tr gs with
    | some r, some rs => some (r :: rs)
    | _, _ => none
end

mutual
/-- the kinds of geometry a tile can hold -/
def Geom.TileKind : Geom → Prop
  | .point _ | .lineString _ | .polygon _ | .multiPoint _ | .multiLineString _ | .multiPolygon _ => True
  | .collection gs => Geom.TileKindList gs
  | _ => False

def Geom.TileKindList : List Geom → Prop
  | [] => True
  | g :: gs => g.TileKind ∧ Geom.TileKindList gs
end

/-- the kinds of values of a tile (vector tile specification 2.1, 4.4) -/
inductive TileValueKind
  | string | float | double | int | uint | sint | bool
deriving DecidableEq, Repr

def MvtValue.kind : MvtValue → Option TileValueKind
  | .string _ => some .string
  | .float _ => some .float
  | .double _ => some .double
  | .int _ => some .int
  | .uint _ => some .uint
  | .sint _ => some .sint
  | .bool _ => some .bool
  | .null => none

/-- the kind for each type of column: signed integers as `sint`, unsigned ones as `uint`, everything textual and binary
data as `string` -/
def ColVal.tileKind : ColVal → TileValueKind
  | .byte _ | .short _ | .int _ | .long _ => .sint
  | .ubyte _ | .ushort _ | .uint _ | .ulong _ => .uint
  | .bool _ => .bool
  | .float _ => .float
  | .double _ => .double
  | .string _ | .json _ | .dateTime _ | .binary _ => .string

/-- a polygon with at least one ring, every ring with at least three tile positions besides a closing one -/
def drawablePoly (tr : F64 → F64 → IXY) (rings : List (List Coord)) : Prop :=
  rings ≠ [] ∧ ∀ r ∈ rings, 3 ≤ (openRing (tilePos tr r)).length

mutual
/-- The minimum a geometry must satisfy to be put in a tile. -/
def Geom.Drawable (tr : F64 → F64 → IXY) : Geom → Prop
  | .lineString cs => 2 ≤ cs.length
  | .multiLineString ls => ∀ l ∈ ls, 2 ≤ l.length
  | .polygon rings => drawablePoly tr rings
  | .multiPolygon ps => ∀ p ∈ ps, drawablePoly tr p
  | .collection gs => Geom.DrawableList tr gs
  | _ => True

def Geom.DrawableList (tr : F64 → F64 → IXY) : List Geom → Prop
  | [] => True
  | g :: gs => g.Drawable tr ∧ Geom.DrawableList tr gs
end

/-- every ring of every polygon ends with its first coordinate -/
def ringsClosed (rings : List (List Coord)) : Prop := ∀ r ∈ rings, r.head? = r.getLast?

mutual
def Geom.RingsClosed : Geom → Prop
  | .polygon rings => ringsClosed rings
  | .multiPolygon ps => ∀ p ∈ ps, ringsClosed p
  | .collection gs => Geom.RingsClosedList gs
  | _ => True

def Geom.RingsClosedList : List Geom → Prop
  | [] => True
  | g :: gs => g.RingsClosed ∧ Geom.RingsClosedList gs
end

/-- the properties a tile feature delivers, numbered from `i`: all but the null ones, which still take a number -/
def tileProps : Nat → List (Text × MvtValue) → List PropRec
  | _, [] => []
  | i, p :: ps =>
    match p.2.column with
    | none => tileProps (i + 1) ps
    | some v => (i, p.1, v) :: tileProps (i + 1) ps

/-- a tile feature as delivered to a processor with the given `multi_dim()` -/
def MvtFeature.feat (multi : Bool) (f : MvtFeature) : Feat :=
  { props := some (tileProps 0 f.properties), geom := some (f.geometry.denote.events multi 0) }

/-- What a layer holds of a feature: nothing if it has no geometry; otherwise its tile geometry and all its properties in
order. -/
inductive TileFeature (sz : ElemSizes) (tr : F64 → F64 → IXY) (f : Feat) : Option MvtFeature → Prop
  | skip (h : f.geom = none ∨ f.geom = some []) : TileFeature sz tr f none
  | keep (g : Geom) (i : Nat) (r : MvtGeom) (hg : f.geom = some (g.events false i)) (hr : g.tile tr = some r)
      (hb : g.Budget sz) (hd : g.Drawable tr) :
      TileFeature sz tr f (some { geometry := r, properties := (f.props.getD []).map fun p => (p.2.1, p.2.2.mvt) })

/-- feature by feature -/
inductive TileFeatures (sz : ElemSizes) (tr : F64 → F64 → IXY) : List Feat → List (Option MvtFeature) → Prop
  | nil : TileFeatures sz tr [] []
  | cons (f : Feat) (m : Option MvtFeature) (fs : List Feat) (ms : List (Option MvtFeature))
      (h : TileFeature sz tr f m) (hs : TileFeatures sz tr fs ms) : TileFeatures sz tr (f :: fs) (m :: ms)

end Geozero
