import Verif.Spec.Geos

/-
What becomes of any geometry, of whatever kind and nesting, when it is converted to GEOS.
-/

namespace Geozero

/-- a circular string with at least one coordinate -/
def Seg.isArc : Seg → Bool
  | .line _ => false
  | .circ cs => !cs.isEmpty

def Curve.hasArc : Curve → Bool
  | .seg s => s.isArc
  | .compound ss => ss.any Seg.isArc

def Surface.hasArc : Surface → Bool
  | .polygon _ => false
  | .curvePolygon rings => rings.any Curve.hasArc

mutual
/-- The geometry has a circular string with at least one coordinate. -/
def Geom.hasArc : Geom → Bool
  | .circularString cs => !cs.isEmpty
  | .compoundCurve ss => ss.any Seg.isArc
  | .multiCurve cs | .curvePolygon cs => cs.any Curve.hasArc
  | .multiSurface ss => ss.any Surface.hasArc
  | .collection gs => Geom.hasArcList gs
  | _ => false

def Geom.hasArcList : List Geom → Bool
  | [] => false
  | g :: gs => g.hasArc || Geom.hasArcList gs
end

mutual
/-- the points, line strings, polygons and multis of these that a geometry is or has as members at any depth, in order -/
def Geom.basicParts : Geom → List Geom
  | .point c => [.point c]
  | .multiPoint cs => [.multiPoint cs]
  | .lineString cs => [.lineString cs]
  | .multiLineString ls => [.multiLineString ls]
  | .polygon rs => [.polygon rs]
  | .multiPolygon ps => [.multiPolygon ps]
  | .collection gs => Geom.basicPartsList gs
  | _ => []

def Geom.basicPartsList : List Geom → List Geom
  | [] => []
  | g :: gs => g.basicParts ++ Geom.basicPartsList gs
end

/-- the polygons of a surface -/
def Surface.polygons : Surface → List (List (List Coord))
  | .polygon rings => [rings]
  | .curvePolygon _ => []

mutual
/-- The library accepts all line strings, rings and polygons of the geometry that are handed to it; a polygon has a ring. -/
def GeosLib.Takes (lib : GeosLib) : Geom → Prop
  | .lineString cs => lib.accepts (.lineString cs)
  | .multiLineString ls => lib.accepts (.multiLineString ls)
  | .polygon rs => rs ≠ [] ∧ lib.acceptsPoly rs
  | .multiPolygon ps | .polyhedralSurface ps => ∀ rs ∈ ps, rs ≠ [] ∧ lib.acceptsPoly rs
  | .multiSurface ss => ∀ rs ∈ ss.flatMap Surface.polygons, rs ≠ [] ∧ lib.acceptsPoly rs
  | .collection gs => GeosLib.TakesList lib gs
  | _ => True

def GeosLib.TakesList (lib : GeosLib) : List Geom → Prop
  | [] => True
  | g :: gs => GeosLib.Takes lib g ∧ GeosLib.TakesList lib gs
end

/-- the GEOS geometry of the last of the basic parts, if there is one -/
def Geom.geosLast (g : Geom) : Option GeosGeom := g.basicParts.getLast?.bind Geom.geos

end Geozero
