import Verif.Spec.Float
import Verif.Spec.Mvt

/-
Where a coordinate belongs in a tile.
-/

namespace Geozero

/-- a coordinate of a map: a finite number that is not absurdly large -/
def F64.OnMap (x : F64) : Prop := x.IsFinite ∧ |x.val| ≤ 2 ^ 500

/-- The bounds of a tile: left < right and bottom < top, with a distance that is not absurdly small; the extent is positive and at
most 2^30. -/
structure TileBox (extent : Nat) (left bottom right top : F64) : Prop where
  pos : 0 < extent
  small : extent ≤ 2 ^ 30
  leftOnMap : left.OnMap
  bottomOnMap : bottom.OnMap
  rightOnMap : right.OnMap
  topOnMap : top.OnMap
  wide : 2 ^ (-400 : ℤ) ≤ right.val - left.val
  high : 2 ^ (-400 : ℤ) ≤ top.val - bottom.val

/-- the exact distance from the lower bound of an ordinate, in units of the tile -/
def tileDistance (extent : Nat) (lower upper x : F64) : ℚ := (x.val - lower.val) * (extent / (upper.val - lower.val))

mutual
/-- all positions of a tile geometry -/
def MvtGeom.positions : MvtGeom → List IXY
  | .point p => [p]
  | .line a b => [a, b]
  | .lineString cs | .multiPoint cs => cs
  | .polygon p => p.rings.flatten
  | .multiLineString ls => ls.flatten
  | .multiPolygon ps => ps.flatMap fun p => p.rings.flatten
  | .collection gs => MvtGeom.positionsList gs
  | .rect a b => [a, b]
  | .triangle a b c => [a, b, c]

def MvtGeom.positionsList : List MvtGeom → List IXY
  | [] => []
  | g :: gs => g.positions ++ MvtGeom.positionsList gs
end

end Geozero
