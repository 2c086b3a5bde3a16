import Verif.Spec.Wkb
import Verif.Model.WkbReader

/-
SpatiaLite BLOB variants: TinyPoint and compressed line strings, after the SpatiaLite format description.
-/

namespace Geozero
namespace Spec

/-- dimension code of a TinyPoint: 1 = XY, 2 = XYZ, 3 = XYM, 4 = XYZM -/
def tinyCode (d : Dims) : Byte :=
  match d.z, d.m with
  | false, false => 1
  | true, false => 2
  | false, true => 3
  | true, true => 4

/-- a TinyPoint BLOB: start mark, byte order with the high bit set, SRID, dimension code, ordinates, end mark -/
def tinyPoint (d : Dims) (e : Endian) (srid : Int) (c : Coord) : List Byte :=
  [0, orderMark e + 128] ++ encI32 e srid ++ [tinyCode d] ++ coordBytes e c ++ [0xFE]

/-- an inner vertex of a compressed line string: single precision differences to the previous vertex, m in full -/
structure Delta where
  x : BitVec 32
  y : BitVec 32
  z : Option (BitVec 32)
  m : Option F64

def encF32 (e : Endian) (v : BitVec 32) : List Byte := encUInt e 4 v.toNat

def deltaBytes (e : Endian) (δ : Delta) : List Byte :=
  encF32 e δ.x ++ encF32 e δ.y ++ δ.z.toList.flatMap (encF32 e) ++ δ.m.toList.flatMap (encF64 e)

def Delta.HasDims (d : Dims) (δ : Delta) : Prop := δ.z.isSome = d.z ∧ δ.m.isSome = d.m

/-- the vertex a difference stands for -/
def Delta.apply (fo : FOps) (p : Coord) (δ : Delta) : Coord :=
  { x := fo.add p.x (fo.of32 δ.x), y := fo.add p.y (fo.of32 δ.y),
    z := match p.z, δ.z with
      | some a, some b => some (fo.add a (fo.of32 b))
      | _, _ => none
    m := δ.m }

/-- the inner vertices: each difference is relative to the vertex before it -/
def inner (fo : FOps) : Coord → List Delta → List Coord
  | _, [] => []
  | p, δ :: δs => δ.apply fo p :: inner fo (δ.apply fo p) δs

/-- a compressed point array: count, first vertex in full, differences, last vertex in full -/
def compressedBytes (e : Endian) (first : Coord) (δs : List Delta) (last : Coord) : List Byte :=
  encU32 e (δs.length + 2) ++ coordBytes e first ++ δs.flatMap (deltaBytes e) ++ coordBytes e last

/-- header and end mark of a compressed geometry with type code `code` (1000000 is added to it) -/
def compressedBlob (d : Dims) (e : Endian) (srid : Int) (mbr : List F64) (code : Nat) (body : List Byte) : List Byte :=
  [0, orderMark e] ++ encI32 e srid ++ mbr.flatMap (encF64 e) ++ [0x7C] ++ encU32 e (1000000 + ogcCode d code)
    ++ body ++ [0xFE]

end Spec
end Geozero
