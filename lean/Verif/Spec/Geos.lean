import Verif.Spec.Geom
import Verif.Spec.GeoTypes
import Verif.Model.Geos

/-
What a GEOS geometry denotes, which geometries GEOS can represent, and which the library accepts.
-/

namespace Geozero

def GPos.coord (p : GPos) : Coord := { x := p.x, y := p.y, z := p.z, m := none }

/-- forget z and m -/
def Coord.gpos (c : Coord) : GPos := { x := c.x, y := c.y }

def GSeq.coords (cs : GSeq) : List Coord := cs.map GPos.coord

mutual
/-- The geometry a GEOS geometry denotes.  (A point has at most one position.) -/
def GeosGeom.denote : GeosGeom → Geom
  | .point cs =>
    match cs with
    | [] => .emptyPoint
    | p :: _ => .point p.coord
  | .multiPoint ps => .multiPoint (ps.flatMap GSeq.coords)
  | .lineString cs | .linearRing cs => .lineString (GSeq.coords cs)
  | .multiLineString ls => .multiLineString (ls.map GSeq.coords)
  | .polygon e is => .polygon ((e :: is).map GSeq.coords)
  | .multiPolygon ps => .multiPolygon (ps.map fun p => (p.1 :: p.2).map GSeq.coords)
  | .collection gs => .collection (GeosGeom.denoteList gs)

def GeosGeom.denoteList : List GeosGeom → List Geom
  | [] => []
  | g :: gs => g.denote :: GeosGeom.denoteList gs
end

mutual
/-- no empty point anywhere: points have exactly one position -/
def GeosGeom.NoEmptyPoint : GeosGeom → Prop
  | .point cs => cs.length = 1
  | .multiPoint ps => ∀ p ∈ ps, p.length = 1
  | .collection gs => GeosGeom.NoEmptyPointList gs
  | _ => True

def GeosGeom.NoEmptyPointList : List GeosGeom → Prop
  | [] => True
  | g :: gs => g.NoEmptyPoint ∧ GeosGeom.NoEmptyPointList gs
end

/-- the GEOS geometry for a geometry of one of the six basic kinds; z and m are lost -/
def Geom.geos : Geom → Option GeosGeom
  | .point c => some (.point [c.gpos])
  | .multiPoint cs => some (.multiPoint (cs.map fun c => [c.gpos]))
  | .lineString cs => some (.lineString (cs.map Coord.gpos))
  | .multiLineString ls => some (.multiLineString (ls.map (List.map Coord.gpos)))
  | .polygon (e :: is) => some (.polygon (e.map Coord.gpos) (is.map (List.map Coord.gpos)))
  | .multiPolygon ps =>
    if ps.all fun rs => !rs.isEmpty then
      some (.multiPolygon (ps.map fun rs => ((rs.headD []).map Coord.gpos, rs.tail.map (List.map Coord.gpos))))
    else none
  | _ => none

/-- The library accepts these rings as a polygon. -/
def GeosLib.acceptsPoly (lib : GeosLib) (rs : List (List Coord)) : Prop :=
  (∀ r ∈ rs, lib.ringOk (r.map Coord.gpos) = true) ∧
  lib.polyOk ((rs.headD []).map Coord.gpos) (rs.tail.map (List.map Coord.gpos)) = true

/-- The library accepts the lines, rings and polygons of a geometry. -/
def GeosLib.accepts (lib : GeosLib) : Geom → Prop
  | .lineString cs => lib.lineOk (cs.map Coord.gpos) = true
  | .multiLineString ls => ∀ l ∈ ls, lib.lineOk (l.map Coord.gpos) = true
  | .polygon rs => lib.acceptsPoly rs
  | .multiPolygon ps => ∀ rs ∈ ps, lib.acceptsPoly rs
  | _ => True

/-- Every coordinate list has fewer than 2^32 members. -/
def Geom.Short : Geom → Prop
  | .multiPoint cs | .lineString cs => cs.length < 2 ^ 32
  | .multiLineString ls | .polygon ls => ∀ l ∈ ls, l.length < 2 ^ 32
  | .multiPolygon ps => ∀ rs ∈ ps, ∀ l ∈ rs, l.length < 2 ^ 32
  | _ => True

/-- one of the six basic kinds -/
def Geom.Basic : Geom → Prop
  | .point _ | .multiPoint _ | .lineString _ | .multiLineString _ | .polygon _ | .multiPolygon _ => True
  | _ => False

end Geozero
