import Verif.Spec.Geom
import Verif.Spec.Stored
import Verif.Spec.Rings
import Verif.Model.GeoTypes

/-
What a geo-types geometry denotes, and which geometries geo-types can represent.
-/

namespace Geozero

/-- a two-dimensional coordinate -/
def XY.coord (p : XY) : Coord := { x := p.x, y := p.y, z := none, m := none }

/-- forget z and m -/
def Coord.xyPart (c : Coord) : XY := { x := c.x, y := c.y }

def GPoly.rings (p : GPoly) : List (List Coord) := (p.exterior :: p.interiors).map (List.map XY.coord)

/-- two positions are the same -/
def XY.Same (p q : XY) : Prop := p.x.Same q.x ∧ p.y.Same q.y

instance (p q : XY) : Decidable (p.Same q) := inferInstanceAs (Decidable (_ ∧ _))

/-- the ring around a rectangle -/
def rectRing (mn mx : XY) : List XY := closedUp XY.Same [⟨mx.x, mn.y⟩, ⟨mx.x, mx.y⟩, ⟨mn.x, mx.y⟩, ⟨mn.x, mn.y⟩, ⟨mx.x, mn.y⟩]

/-- the ring around a triangle -/
def triangleRing (a b c : XY) : List XY := closedUp XY.Same [a, b, c, a]

mutual
/-- The geometry a geo-types value denotes. -/
def GeoGeom.denote : GeoGeom → Geom
  | .point p => .point p.coord
  | .line a b => .lineString [a.coord, b.coord]
  | .lineString cs => .lineString (cs.map XY.coord)
  | .polygon p => .polygon p.rings
  | .multiPoint ps => .multiPoint (ps.map XY.coord)
  | .multiLineString ls => .multiLineString (ls.map (List.map XY.coord))
  | .multiPolygon ps => .multiPolygon (ps.map GPoly.rings)
  | .collection gs => .collection (GeoGeom.denoteList gs)
  | .rect mn mx => .polygon [(rectRing mn mx).map XY.coord]
  | .triangle a b c => .polygon [(triangleRing a b c).map XY.coord]

def GeoGeom.denoteList : List GeoGeom → List Geom
  | [] => []
  | g :: gs => g.denote :: GeoGeom.denoteList gs
end

mutual
/-- The documented normalisation: Line becomes LineString, Rect and Triangle become Polygon. -/
def GeoGeom.normal : GeoGeom → GeoGeom
  | .line a b => .lineString [a, b]
  | .rect mn mx => .polygon { exterior := rectRing mn mx, interiors := [] }
  | .triangle a b c => .polygon { exterior := triangleRing a b c, interiors := [] }
  | .collection gs => .collection (GeoGeom.normalList gs)
  | g => g

def GeoGeom.normalList : List GeoGeom → List GeoGeom
  | [] => []
  | g :: gs => g.normal :: GeoGeom.normalList gs
end

/-- every ring is closed, which `geo_types::Polygon` guarantees by construction (for coordinates that
are not NaN) -/
def GPoly.Closed (p : GPoly) : Prop := ∀ r ∈ p.exterior :: p.interiors, Closes XY.Same r

mutual
/-- every polygon of the value has closed rings -/
def GeoGeom.Closed : GeoGeom → Prop
  | .polygon p => p.Closed
  | .multiPolygon ps => ∀ p ∈ ps, p.Closed
  | .rect mn mx => Closes XY.Same (rectRing mn mx)
  | .triangle a b c => Closes XY.Same (triangleRing a b c)
  | .collection gs => GeoGeom.ClosedList gs
  | _ => True

def GeoGeom.ClosedList : List GeoGeom → Prop
  | [] => True
  | g :: gs => g.Closed ∧ GeoGeom.ClosedList gs
end

/-- Reserving `n` elements of `size` bytes stays within 16 MiB. -/
def Within (size n : Nat) : Prop := n * size ≤ 16777216

mutual
/-- Every count announced for the geometry stays within the 16 MiB budget. -/
def Geom.Budget (sz : ElemSizes) : Geom → Prop
  | .multiPoint cs | .lineString cs => Within sz.coord cs.length
  | .multiLineString ls | .polygon ls => Within sz.line ls.length ∧ ∀ l ∈ ls, Within sz.coord l.length
  | .multiPolygon ps => Within sz.poly ps.length ∧
      ∀ p ∈ ps, Within sz.line p.length ∧ ∀ l ∈ p, Within sz.coord l.length
  | .collection gs => Within sz.geom gs.length ∧ Geom.BudgetList sz gs
  | _ => True

def Geom.BudgetList (sz : ElemSizes) : List Geom → Prop
  | [] => True
  | g :: gs => g.Budget sz ∧ Geom.BudgetList sz gs
end

/-- geo-types polygon for a list of rings: the first is the exterior; all are closed -/
def polyOf : List (List Coord) → GPoly
  | [] => { exterior := [], interiors := [] }
  | e :: is => { exterior := closedUp XY.Same (e.map Coord.xyPart)
                 interiors := is.map fun r => closedUp XY.Same (r.map Coord.xyPart) }

mutual
/-- The geo-types value for a geometry, where there is one: no curves, triangles, TINs, surfaces, and no
empty points. -/
def Geom.geo : Geom → Option GeoGeom
  | .point c => some (.point c.xyPart)
  | .lineString cs => some (.lineString (cs.map Coord.xyPart))
  | .polygon rings => some (.polygon (polyOf rings))
  | .multiPoint cs => some (.multiPoint (cs.map Coord.xyPart))
  | .multiLineString ls => some (.multiLineString (ls.map (List.map Coord.xyPart)))
  | .multiPolygon ps => some (.multiPolygon (ps.map polyOf))
  | .collection gs => (Geom.geoList gs).map .collection
  | _ => none

def Geom.geoList : List Geom → Option (List GeoGeom)
  | [] => some []
  | g :: gs =>
    match g.geo, Geom.geoList gs with
    | some r, some rs => some (r :: rs)
    | _, _ => none
end

end Geozero
