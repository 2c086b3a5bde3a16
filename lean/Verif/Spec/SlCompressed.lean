import Verif.Spec.WkbSpatialite

/-
SpatiaLite blobs with a compressed line string or polygon, and the geometry they stand for.
-/

namespace Geozero
namespace Spec

/-- the vertices of a compressed point array: the first and the last in full, the inner ones as differences -/
def vertices (fo : FOps) (first : Coord) (δs : List Delta) (last : Coord) : List Coord :=
  first :: (inner fo first δs ++ [last])

/-- the parts of a compressed point array have dimensions `d`, and their number fits the count -/
def PartsOk (d : Dims) (first : Coord) (δs : List Delta) (last : Coord) : Prop :=
  HasDims d first ∧ HasDims d last ∧ (∀ δ ∈ δs, δ.HasDims d) ∧ δs.length + 2 < 2 ^ 32

/-- `blob` is a compressed SpatiaLite line string or polygon standing for `g`, with dimensions `d` and SRID `srid` (0: none) -/
def Compressed (fo : FOps) (d : Dims) (srid : Int) (g : Geom) (blob : List Byte) : Prop :=
  isI32 srid ∧ ∃ (e : Endian) (mbr : List F64), mbr.length = 4 ∧
    ((∃ first δs last, PartsOk d first δs last ∧ g = .lineString (vertices fo first δs last) ∧
        blob = compressedBlob d e srid mbr 2 (compressedBytes e first δs last)) ∨
     (∃ rings : List (Coord × List Delta × Coord), rings.length < 2 ^ 32 ∧ (∀ r ∈ rings, PartsOk d r.1 r.2.1 r.2.2) ∧
        g = .polygon (rings.map fun r => vertices fo r.1 r.2.1 r.2.2) ∧
        blob = compressedBlob d e srid mbr 3
          (encU32 e rings.length ++ rings.flatMap fun r => compressedBytes e r.1 r.2.1 r.2.2)))

end Spec
end Geozero
