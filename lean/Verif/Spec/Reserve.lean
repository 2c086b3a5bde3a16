import Verif.Model.GeoTypes

/-
What a writer reserves from announced sizes (specification for C77).
-/

namespace Geozero

/-- the size in memory of the elements of which a geometry of kind `k` announces a number; 0 for the kinds that announce none or
whose announcement the geo-types and MVT writers ignore -/
def elementBytes (sz : ElemSizes) : GKind → Nat
  | .multiPoint | .lineString => sz.coord
  | .multiLineString | .polygon => sz.line
  | .multiPolygon => sz.poly
  | .collection => sz.geom
  | _ => 0

/-- the bytes asked for by a list of calls: for every geometry begun, the announced number times the size of an element -/
def announcedBytes (sz : ElemSizes) : List Ev → Nat
  | [] => 0
  | .gbegin k _ n _ :: evs => n * elementBytes sz k + announcedBytes sz evs
  | _ :: evs => announcedBytes sz evs

/-- the largest element -/
def ElemSizes.largest (sz : ElemSizes) : Nat := max (max sz.coord sz.line) (max sz.poly sz.geom)

end Geozero
