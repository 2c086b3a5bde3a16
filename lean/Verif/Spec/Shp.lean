import Verif.Spec.Geom
import Verif.Spec.Features
import Verif.Spec.Mvt
import Verif.Model.Shp

/-
Specification of shapefiles, after the ESRI Shapefile Technical Description (July 1998): main file header, record
headers, and the record contents of the null, point, multipoint, polyline and polygon types in their plain, Z and M
variants.
-/

namespace Geozero
namespace Spec

/-- the three variants of a shape type -/
inductive EsriDim
  | xy | z | m
deriving DecidableEq, Repr

/-- A shape.  Which coordinates carry z and m is fixed by the variant and by the presence of measures. -/
inductive EsriShape
  | null
  | point (c : Coord)
  | multiPoint (cs : List Coord)
  | polyLine (parts : List (List Coord))
  | polygon (rings : List (List Coord))
deriving DecidableEq, Repr

/-- shape type codes (page 4) -/
def EsriShape.typeCode : EsriDim → EsriShape → Int
  | _, .null => 0
  | .xy, .point _ => 1 | .xy, .polyLine _ => 3 | .xy, .polygon _ => 5 | .xy, .multiPoint _ => 8
  | .z, .point _ => 11 | .z, .polyLine _ => 13 | .z, .polygon _ => 15 | .z, .multiPoint _ => 18
  | .m, .point _ => 21 | .m, .polyLine _ => 23 | .m, .polygon _ => 25 | .m, .multiPoint _ => 28

/-- all coordinates of a shape in order -/
def EsriShape.coords : EsriShape → List Coord
  | .null => []
  | .point c => [c]
  | .multiPoint cs => cs
  | .polyLine ps | .polygon ps => ps.flatten

/-- Shapes of variant `d` with measures present or not: z in the Z variant only; measures never in the plain variant,
always in a `PointM`, optionally elsewhere. -/
structure EsriShape.Valid (d : EsriDim) (hasM : Bool) (s : EsriShape) : Prop where
  z : ∀ c ∈ s.coords, c.z.isSome = decide (d = .z)
  m : ∀ c ∈ s.coords, c.m.isSome = hasM
  plain : d = .xy → hasM = false
  pointM : ∀ c, s = .point c → d = .m → hasM = true

/-- numbers of a record that do not belong to its coordinates: bounding box and ranges of z and m -/
structure EsriExtent where
  box : F64 × F64 × F64 × F64
  zRange : F64 × F64
  mRange : F64 × F64

def f64Bytes (vs : List F64) : List Byte := vs.flatMap (encF64 .le)
def i32Bytes (vs : List Nat) : List Byte := vs.flatMap fun (v : Nat) => encI32 .le v
def xyBytes (cs : List Coord) : List Byte := cs.flatMap fun c => encF64 .le c.x ++ encF64 .le c.y

/-- a block of z or m values: range and values -/
def blockBytes (present : Bool) (range : F64 × F64) (vs : List F64) : List Byte :=
  if present then f64Bytes [range.1, range.2] ++ f64Bytes vs else []

/-- z block and m block -/
def blocks (d : EsriDim) (hasM : Bool) (x : EsriExtent) (cs : List Coord) : List Byte :=
  blockBytes (decide (d = .z)) x.zRange (cs.filterMap Coord.z) ++ blockBytes hasM x.mRange (cs.filterMap Coord.m)

/-- index of the first point of each part -/
def partStarts {α : Type} : Nat → List (List α) → List Nat
  | _, [] => []
  | n, p :: ps => n :: partStarts (n + p.length) ps

/-- the four numbers of a bounding box -/
def boxBytes (x : EsriExtent) : List Byte := f64Bytes [x.box.1, x.box.2.1, x.box.2.2.1, x.box.2.2.2]

/-- record contents after the shape type -/
def EsriShape.body (d : EsriDim) (hasM : Bool) (x : EsriExtent) : EsriShape → List Byte
  | .null => []
  | .point c => encF64 .le c.x ++ encF64 .le c.y ++ f64Bytes c.z.toList ++ f64Bytes c.m.toList
  | .multiPoint cs => boxBytes x ++ encI32 .le cs.length ++ xyBytes cs ++ blocks d hasM x cs
  | .polyLine ps | .polygon ps =>
    boxBytes x ++ encI32 .le ps.length ++ encI32 .le ps.flatten.length ++ i32Bytes (partStarts 0 ps) ++ xyBytes ps.flatten ++
      blocks d hasM x ps.flatten

/-- record contents -/
def EsriShape.content (d : EsriDim) (hasM : Bool) (x : EsriExtent) (s : EsriShape) : List Byte :=
  encI32 .le (s.typeCode d) ++ s.body d hasM x

/-- content length in 16-bit words -/
def EsriShape.words (d : EsriDim) (hasM : Bool) (x : EsriExtent) (s : EsriShape) : Int :=
  ((s.content d hasM x).length / 2 : Nat)

/-- a record: number and content length, most significant byte first, and the contents -/
def EsriShape.record (num : Int) (d : EsriDim) (hasM : Bool) (x : EsriExtent) (s : EsriShape) : List Byte :=
  encI32 .be num ++ encI32 .be (s.words d hasM x) ++ s.content d hasM x

/-! ### meaning -/

/-- Rings grouped into polygons: every ring in exactly one group, in order; a group begins at the first ring and at
every outer ring, so all others are inner. -/
def Grouped {α : Type} (inner : α → Bool) (rings : List α) (groups : List (List α)) : Prop :=
  groups.flatten = rings ∧ (∀ g ∈ groups, g ≠ [] ∧ ∀ r ∈ g.tail, inner r) ∧
    ∀ g ∈ groups.tail, ∀ r ∈ g.head?, ¬ inner r

/-- The geometry a shape stands for: none for the null shape; a polyline is a multi line string of its parts; a polygon is a
multi polygon of its grouped rings. -/
inductive Denotes (inner : List Coord → Bool) : EsriShape → Option Geom → Prop
  | null : Denotes inner .null none
  | point (c : Coord) : Denotes inner (.point c) (some (.point c))
  | multiPoint (cs : List Coord) : Denotes inner (.multiPoint cs) (some (.multiPoint cs))
  | polyLine (ps : List (List Coord)) : Denotes inner (.polyLine ps) (some (.multiLineString ps))
  | polygon (rings : List (List Coord)) (groups : List (List (List Coord))) :
      Grouped inner rings groups → Denotes inner (.polygon rings) (some (.multiPolygon groups))

/-- what is left of a coordinate for a processor of the given dimensions -/
def _root_.Geozero.Coord.keep (dims : Dims) (c : Coord) : Coord :=
  { c with z := if dims.z then c.z else none, m := if dims.m then c.m else none }

def EsriShape.keep (dims : Dims) : EsriShape → EsriShape
  | .null => .null
  | .point c => .point (c.keep dims)
  | .multiPoint cs => .multiPoint (cs.map (Coord.keep dims))
  | .polyLine ps => .polyLine (ps.map (List.map (Coord.keep dims)))
  | .polygon ps => .polygon (ps.map (List.map (Coord.keep dims)))

/-- the calls for the geometry of a shape, none for the null shape -/
def shapeEvs (multi : Bool) : Option Geom → List Ev
  | none => []
  | some g => g.events multi 0

/-- the orientation test applied to a ring -/
def innerRing (ar : ShpArith) (ring : List Coord) : Bool := ringInner ar (ring.map fun c => ⟨c.x, c.y⟩)

/-! ### orientation -/

/-- twice the signed area of a closed ring by the shoelace formula, positive when the ring is counterclockwise -/
def twiceArea : List (Int × Int) → Int
  | (x0, y0) :: (x1, y1) :: rest => (x0 * y1 - x1 * y0) + twiceArea ((x1, y1) :: rest)
  | _ => 0

/-- The arithmetic is exact on integers up to `B`: a property of IEEE-754 with `B = 2 ^ 53`. -/
structure _root_.Geozero.ShpArith.ExactTo (ar : ShpArith) (B : Nat) : Prop where
  sub : ∀ x y a b, F64.IsInt x a → F64.IsInt y b → a.natAbs ≤ B → b.natAbs ≤ B → (a - b).natAbs ≤ B → F64.IsInt (ar.sub x y) (a - b)
  add : ∀ x y a b, F64.IsInt x a → F64.IsInt y b → a.natAbs ≤ B → b.natAbs ≤ B → (a + b).natAbs ≤ B → F64.IsInt (ar.add x y) (a + b)
  mul : ∀ x y a b, F64.IsInt x a → F64.IsInt y b → a.natAbs ≤ B → b.natAbs ≤ B → (a * b).natAbs ≤ B → F64.IsInt (ar.mul x y) (a * b)
  half : ∀ x a, F64.IsInt x a → a.natAbs ≤ B → F64.lt (ar.half x) F64.zero = decide (a < 0)
  start : F64.IsInt ar.start 0

/-! ### files -/

/-- A main file header: file code, five unused numbers, file length in 16-bit words, version, shape type, bounding
box. -/
def EsriHeader (words version typeCode : Int) (unused : List Byte) (box : List F64) : List Byte :=
  encI32 .be 9994 ++ unused ++ encI32 .be words ++ encI32 .le version ++ encI32 .le typeCode ++ f64Bytes box

/-- a shape in a file: number, variant, presence of measures, extent -/
structure EsriItem where
  num : Int
  dim : EsriDim
  hasM : Bool
  ext : EsriExtent
  shape : EsriShape

/-- the record of a shape -/
def EsriItem.bytes (i : EsriItem) : List Byte := i.shape.record i.num i.dim i.hasM i.ext

/-- the record is well-formed and smaller than 2 GiB -/
structure EsriItem.Ok (i : EsriItem) : Prop where
  num : isI32 i.num
  valid : i.shape.Valid i.dim i.hasM
  size : (i.shape.content i.dim i.hasM i.ext).length < 2 ^ 31

/-- the codes of the shape types (ESRI Shapefile Technical Description, main file header) -/
def shapeCodes : List Int := [0, 1, 3, 5, 8, 11, 13, 15, 18, 21, 23, 25, 28, 31]

/-- A well-formed main file with the given shapes, shorter than 2 GiB. -/
structure EsriFile (items : List EsriItem) (bs : List Byte) : Prop where
  ok : ∀ i ∈ items, i.Ok
  bytes : ∃ (words version typeCode : Int) (unused : List Byte) (box : List F64),
    bs = EsriHeader words version typeCode unused box ++ items.flatMap EsriItem.bytes ∧
    unused.length = 20 ∧ box.length = 8 ∧ isI32 version ∧ typeCode ∈ shapeCodes ∧
    words * 2 = bs.length
  small : bs.length < 2 ^ 31

/-- the properties a processor hears: all up to the first one it answers with `true` -/
def heard (ans : FEv → Bool) : List PropRec → List PropRec
  | [] => []
  | p :: ps => p :: if ans (.prop p.1 p.2.1 p.2.2) then [] else heard ans ps

/-- the fields of a row that are not null, in order, numbered 0, 1, ... -/
def rowProps (row : ShpRow) : List PropRec :=
  enumFrom 0 (row.filterMap fun f => f.2.column.map fun v => (f.1, v))

/-- geometries that shapes stand for, one each -/
def DenoteAll (inner : List Coord → Bool) : List EsriShape → List (Option Geom) → Prop
  | [], [] => True
  | s :: ss, g :: gs => Denotes inner s g ∧ DenoteAll inner ss gs
  | _, _ => False

/-! ### sane records -/

/-- the `i32` stored at an offset -/
def i32At (e : Endian) (ofs : Nat) (bs : List Byte) : Int := i32OfNat (decUInt e ((bs.drop ofs).take 4))

/-- What a record has to look like for the reader not to panic, as far as its fields are there at all: a content length of
two words at least and less than 1 GiB; counts that are not negative; a part table that never decreases and stays within the
number of points.  Coordinates, sizes that disagree, unknown types and missing bytes are unconstrained. -/
structure SaneRecord (bs : List Byte) : Prop where
  size : 8 ≤ bs.length → 2 ≤ i32At .be 4 bs ∧ i32At .be 4 bs < 2 ^ 30
  points : 48 ≤ bs.length → i32At .le 8 bs ∈ [8, 18, 28] → 0 ≤ i32At .le 44 bs
  parts : 52 ≤ bs.length → i32At .le 8 bs ∈ [3, 5, 13, 15, 23, 25] → 0 ≤ i32At .le 44 bs ∧ 0 ≤ i32At .le 48 bs
  table : ∀ n : Nat, 52 ≤ bs.length → i32At .le 8 bs ∈ [3, 5, 13, 15, 23, 25] → i32At .le 44 bs = (n : Nat) →
    52 + 4 * n ≤ bs.length →
    List.Pairwise (· ≤ ·) ((0 : Int) :: ((List.range n).map fun k => i32At .le (52 + 4 * k) bs) ++ [i32At .le 48 bs])

/-- a declared count of points or parts is negative -/
def NegativeCount (bs : List Byte) : Prop :=
  i32At .le 8 bs ∈ [8, 18, 28] ∧ 48 ≤ bs.length ∧ i32At .le 44 bs < 0 ∨
  i32At .le 8 bs ∈ [3, 5, 13, 15, 23, 25] ∧ 52 ≤ bs.length ∧ (i32At .le 44 bs < 0 ∨ i32At .le 48 bs < 0)

/-- a polyline or polygon with `n` parts and `m` points that is complete, whose length is the declared one (without or with
measures), and whose part table is not increasing from 0 or more to the number of points -/
def BadTable (bs : List Byte) : Prop :=
  i32At .le 8 bs ∈ [3, 5, 13, 15, 23, 25] ∧ ∃ n m : Nat, i32At .le 44 bs = n ∧ i32At .le 48 bs = m ∧
    (2 * i32At .be 4 bs = 44 + 4 * n + 16 * m + (if i32At .le 8 bs ∈ [13, 15] then 16 + 8 * m else 0) ∨
      2 * i32At .be 4 bs = 44 + 4 * n + 16 * m + (if i32At .le 8 bs ∈ [13, 15] then 16 + 8 * m else 0) + (16 + 8 * m)) ∧
    8 + 2 * i32At .be 4 bs ≤ bs.length ∧
    ¬ List.Pairwise (· ≤ ·) ((0 : Int) :: ((List.range n).map fun k => i32At .le (52 + 4 * k) bs) ++ [(m : Int)])

/-- The records a reader panics on: those whose declared length (in 16-bit words) cannot be doubled in 32 bits; and, of those
with a known type, the ones that declare less than the type takes, a multipatch of negative length, a negative count, or a
part table out of order. -/
def RecordPanics (bs : List Byte) : Prop :=
  8 ≤ bs.length ∧ (2 ^ 30 ≤ i32At .be 4 bs ∨ i32At .be 4 bs < -2 ^ 30 ∨
    12 ≤ bs.length ∧ i32At .le 8 bs ∈ shapeCodes ∧
      (i32At .be 4 bs = 0 ∨ i32At .be 4 bs = 1 ∨ i32At .le 8 bs = 31 ∧ i32At .be 4 bs < 0 ∨ NegativeCount bs ∨ BadTable bs))

/-- The declared length (in 16-bit words, of which the type takes two) is one that the type and the counts allow: measures may
be absent or present in all multipoints, polylines and polygons and in a point with z; a multipatch is not looked into. -/
def LengthFits (bs : List Byte) : Prop :=
  i32At .le 8 bs = 1 ∧ i32At .be 4 bs = 10 ∨
  i32At .le 8 bs = 21 ∧ i32At .be 4 bs = 14 ∨
  i32At .le 8 bs = 11 ∧ (i32At .be 4 bs = 14 ∨ i32At .be 4 bs = 18) ∨
  i32At .le 8 bs = 31 ∨
  i32At .le 8 bs ∈ [8, 18, 28] ∧ (∃ n : Nat, i32At .le 44 bs = n ∧
    (2 * i32At .be 4 bs = 40 + 16 * n + (if i32At .le 8 bs = 18 then 16 + 8 * n else 0) ∨
      2 * i32At .be 4 bs = 40 + 16 * n + (if i32At .le 8 bs = 18 then 16 + 8 * n else 0) + (16 + 8 * n))) ∨
  i32At .le 8 bs ∈ [3, 5, 13, 15, 23, 25] ∧ ∃ n m : Nat, i32At .le 44 bs = n ∧ i32At .le 48 bs = m ∧
    (2 * i32At .be 4 bs = 44 + 4 * n + 16 * m + (if i32At .le 8 bs ∈ [13, 15] then 16 + 8 * m else 0) ∨
      2 * i32At .be 4 bs = 44 + 4 * n + 16 * m + (if i32At .le 8 bs ∈ [13, 15] then 16 + 8 * m else 0) + (16 + 8 * m))

/-- The records a reader accepts: a null shape of any declared length but 0 and 1 words that can be doubled in 32 bits (even
a negative one), or a shape of a known type that is complete, of a fitting length, and without a bad part table. -/
def RecordAccepted (bs : List Byte) : Prop :=
  12 ≤ bs.length ∧ -2 ^ 30 ≤ i32At .be 4 bs ∧ i32At .be 4 bs < 2 ^ 30 ∧
    (i32At .le 8 bs = 0 ∧ i32At .be 4 bs ≠ 0 ∧ i32At .be 4 bs ≠ 1 ∨
      2 ≤ i32At .be 4 bs ∧ 8 + 2 * i32At .be 4 bs ≤ bs.length ∧ LengthFits bs ∧ ¬ BadTable bs)

end Spec
end Geozero
