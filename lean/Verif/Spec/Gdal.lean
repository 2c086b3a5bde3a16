import Verif.Spec.Geom
import Verif.Spec.Stored
import Verif.Model.Gdal

/-
What an OGR geometry denotes, how OGR represents each geometry, and which streams keep the GDAL writer safe.
-/

namespace Geozero

namespace OgrGeom

/-- the coordinate of an OGR point; OGR always has a z value -/
def coord (p : OgrPt) : Coord := { x := p.x, y := p.y, z := some p.z, m := none }

def coords (g : OgrGeom) : List Coord := g.pts.map coord

/-- a point -/
def asPoint (g : OgrGeom) : Option Coord := if g.kind = some .point then g.pts.head?.map coord else none

/-- a line string or ring -/
def asLine (g : OgrGeom) : Option (List Coord) := if g.kind = some .lineString then some g.coords else none

/-- the members are the rings -/
def rings (g : OgrGeom) : Option (List (List Coord)) := g.members.mapM asLine

def asPolygon (g : OgrGeom) : Option (List (List Coord)) := if g.kind = some .polygon then g.rings else none

def asSeg (g : OgrGeom) : Option Seg :=
  match g.kind with
  | some .lineString => some (.line g.coords)
  | some .circularString => some (.circ g.coords)
  | _ => none

def asCurve (g : OgrGeom) : Option Curve :=
  match g.kind with
  | some .lineString => some (.seg (.line g.coords))
  | some .circularString => some (.seg (.circ g.coords))
  | some .compoundCurve => (g.members.mapM asSeg).map .compound
  | _ => none

def asSurface (g : OgrGeom) : Option Surface :=
  match g.kind with
  | some .curvePolygon => (g.members.mapM asCurve).map .curvePolygon
  | some .polygon => g.rings.map .polygon
  | _ => none

mutual
/-- The geometry an OGR geometry denotes; `none` if a member has the wrong type or the type is unknown.  The members of
polyhedral surfaces and TINs are taken for what they should be without looking at their type. -/
def denote : OgrGeom → Option Geom
  | node k ps ms =>
    match k with
    | some .point => some (match ps with | [] => .emptyPoint | p :: _ => .point (coord p))
    | some .multiPoint => (ms.mapM asPoint).map .multiPoint
    | some .lineString => some (.lineString (ps.map coord))
    | some .multiLineString => (ms.mapM asLine).map .multiLineString
    | some .polygon => (ms.mapM asLine).map .polygon
    | some .multiPolygon => (ms.mapM asPolygon).map .multiPolygon
    | some .collection => (denoteList ms).map .collection
    | some .circularString => some (.circularString (ps.map coord))
    | some .compoundCurve => (ms.mapM asSeg).map .compoundCurve
    | some .curvePolygon => (ms.mapM asCurve).map .curvePolygon
    | some .triangle => (ms.mapM asLine).map .triangle
    | some .multiCurve => (ms.mapM asCurve).map .multiCurve
    | some .polyhedralSurface => (ms.mapM rings).map .polyhedralSurface
    | some .tin => (ms.mapM rings).map .tin
    | some .multiSurface => (ms.mapM asSurface).map .multiSurface
    | none => none

def denoteList : List OgrGeom → Option (List Geom)
  | [] => some []
  | g :: gs =>
    match denote g with
    | none => none
    | some x => match denoteList gs with
      | none => none
      | some xs => some (x :: xs)
end

mutual
/-- every point has a position -/
def NoEmptyPoint : OgrGeom → Prop
  | node k ps ms => (k = some .point → ps ≠ []) ∧ NoEmptyPointList ms

def NoEmptyPointList : List OgrGeom → Prop
  | [] => True
  | g :: gs => g.NoEmptyPoint ∧ NoEmptyPointList gs
end

end OgrGeom

/-! ### the OGR geometry for each geometry -/

/-- OGR has no missing z (it is 0) and this code does not look at m. -/
def Coord.ogr (c : Coord) : OgrPt := { x := c.x, y := c.y, z := c.z.getD F64.zero }

def ogrLine (cs : List Coord) : OgrGeom := .node (some .lineString) (cs.map Coord.ogr) []
def ogrCirc (cs : List Coord) : OgrGeom := .node (some .circularString) (cs.map Coord.ogr) []
def ogrPoly (rs : List (List Coord)) : OgrGeom := .node (some .polygon) [] (rs.map ogrLine)
def ogrTri (rs : List (List Coord)) : OgrGeom := .node (some .triangle) [] (rs.map ogrLine)

def Seg.ogr : Seg → OgrGeom
  | .line cs => ogrLine cs
  | .circ cs => ogrCirc cs

def Curve.ogr : Curve → OgrGeom
  | .seg s => s.ogr
  | .compound ss => .node (some .compoundCurve) [] (ss.map Seg.ogr)

def Surface.ogr : Surface → OgrGeom
  | .polygon rs => ogrPoly rs
  | .curvePolygon cs => .node (some .curvePolygon) [] (cs.map Curve.ogr)

mutual
/-- the OGR geometry for a geometry -/
def Geom.ogr : Geom → OgrGeom
  | .emptyPoint => .node (some .point) [] []
  | .point c => .node (some .point) [c.ogr] []
  | .multiPoint cs => .node (some .multiPoint) [] (cs.map fun c => .node (some .point) [c.ogr] [])
  | .lineString cs => ogrLine cs
  | .circularString cs => ogrCirc cs
  | .compoundCurve ss => .node (some .compoundCurve) [] (ss.map Seg.ogr)
  | .multiLineString ls => .node (some .multiLineString) [] (ls.map ogrLine)
  | .multiCurve cs => .node (some .multiCurve) [] (cs.map Curve.ogr)
  | .polygon rs => ogrPoly rs
  | .triangle rs => ogrTri rs
  | .curvePolygon cs => .node (some .curvePolygon) [] (cs.map Curve.ogr)
  | .multiPolygon ps => .node (some .multiPolygon) [] (ps.map ogrPoly)
  | .polyhedralSurface ps => .node (some .polyhedralSurface) [] (ps.map ogrPoly)
  | .tin ts => .node (some .tin) [] (ts.map ogrTri)
  | .multiSurface ss => .node (some .multiSurface) [] (ss.map Surface.ogr)
  | .collection gs => .node (some .collection) [] (Geom.ogrList gs)

def Geom.ogrList : List Geom → List OgrGeom
  | [] => []
  | g :: gs => g.ogr :: Geom.ogrList gs
end

/-- a coordinate with its z, 0 if missing, and without m -/
def Coord.ogrXYZ (c : Coord) : Coord := { x := c.x, y := c.y, z := some (c.z.getD F64.zero), m := none }

/-- forget z and m -/
def Coord.flat (c : Coord) : Coord := { x := c.x, y := c.y }

/-! ### memory safety -/

mutual
/-- a geometry of the six basic kinds, an empty point, or a collection of such, nested to any depth -/
def Geom.Plain : Geom → Prop
  | .emptyPoint | .point _ | .multiPoint _ | .lineString _ | .multiLineString _ | .polygon _ | .multiPolygon _ => True
  | .collection gs => Geom.PlainList gs
  | _ => False

def Geom.PlainList : List Geom → Prop
  | [] => True
  | g :: gs => g.Plain ∧ Geom.PlainList gs
end

/-- the call begins a circular string -/
def Ev.beginsCirc : Ev → Bool
  | .gbegin .circularString _ _ _ => true
  | _ => false

end Geozero
