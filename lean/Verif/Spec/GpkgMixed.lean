import Verif.Spec.Wkb

/-
GeoPackage blobs whose header and geometry have different byte orders.
-/

namespace Geozero

/-- the number whose bytes are those of `x` in opposite order -/
def F64.swapped (x : F64) : F64 := BitVec.ofNat 64 (fromLE (toLE 8 x.toNat).reverse)

/-- every ordinate with its bytes in opposite order -/
def Coord.swapped (c : Coord) : Coord :=
  { x := c.x.swapped, y := c.y.swapped, z := c.z.map F64.swapped, m := c.m.map F64.swapped }

/-- the number read from the four bytes of `n` in opposite order -/
def swapped32 (n : Nat) : Nat := fromLE (toLE 4 n).reverse

/-- number of points of a line or circular string, of members of any other geometry with members that have a header of their own;
`none` for points, and for polygons and triangles, whose rings have no header -/
def Geom.parts : Geom → Option Nat
  | .emptyPoint | .point _ | .polygon _ | .triangle _ => none
  | .lineString cs | .circularString cs | .multiPoint cs => some cs.length
  | .compoundCurve ss => some ss.length
  | .multiLineString ls => some ls.length
  | .multiCurve cs | .curvePolygon cs => some cs.length
  | .multiPolygon ps | .polyhedralSurface ps | .tin ps => some ps.length
  | .multiSurface ss => some ss.length
  | .collection gs => some gs.length

/-- number of rings of a polygon or triangle -/
def Geom.rings : Geom → Option Nat
  | .polygon rs | .triangle rs => some rs.length
  | _ => none

/-- the geometry whose number of points or members has its bytes in opposite order, if that number is not higher than the real one:
the points or members that come first; the points of a line or circular string themselves have their bytes in opposite order, members
have a byte order mark of their own -/
def Geom.mixed : Geom → Geom
  | .lineString cs => .lineString ((cs.take (swapped32 cs.length)).map Coord.swapped)
  | .circularString cs => .circularString ((cs.take (swapped32 cs.length)).map Coord.swapped)
  | .multiPoint cs => .multiPoint (cs.take (swapped32 cs.length))
  | .compoundCurve ss => .compoundCurve (ss.take (swapped32 ss.length))
  | .multiLineString ls => .multiLineString (ls.take (swapped32 ls.length))
  | .multiCurve cs => .multiCurve (cs.take (swapped32 cs.length))
  | .curvePolygon cs => .curvePolygon (cs.take (swapped32 cs.length))
  | .multiPolygon ps => .multiPolygon (ps.take (swapped32 ps.length))
  | .polyhedralSurface ps => .polyhedralSurface (ps.take (swapped32 ps.length))
  | .tin ps => .tin (ps.take (swapped32 ps.length))
  | .multiSurface ss => .multiSurface (ss.take (swapped32 ss.length))
  | .collection gs => .collection (gs.take (swapped32 gs.length))
  | g => g

end Geozero
