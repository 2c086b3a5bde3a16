import Verif.Model.Basic

/-
Specification tree of geometries and the documented event stream of each
(the "Following events" sections of geometry_processor.rs:142-409).
-/

namespace Geozero

/-- A part of a compound curve: a line string or a circular string. -/
inductive Seg
  | line (cs : List Coord)
  | circ (cs : List Coord)
deriving DecidableEq, Repr

/-- A curve: a single segment or a compound curve. -/
inductive Curve
  | seg (s : Seg)
  | compound (ss : List Seg)
deriving DecidableEq, Repr

/-- A surface: a polygon (list of rings) or a curve polygon (list of curves). -/
inductive Surface
  | polygon (rings : List (List Coord))
  | curvePolygon (rings : List Curve)
deriving DecidableEq, Repr

/-- Geometries of the OGC simple feature model that the crate handles. -/
inductive Geom
  | emptyPoint
  | point (c : Coord)
  | multiPoint (cs : List Coord)
  | lineString (cs : List Coord)
  | circularString (cs : List Coord)
  | compoundCurve (ss : List Seg)
  | multiLineString (ls : List (List Coord))
  | multiCurve (cs : List Curve)
  | polygon (rings : List (List Coord))
  | triangle (rings : List (List Coord))
  | curvePolygon (rings : List Curve)
  | multiPolygon (ps : List (List (List Coord)))
  | polyhedralSurface (ps : List (List (List Coord)))
  | tin (ts : List (List (List Coord)))
  | multiSurface (ss : List Surface)
  | collection (gs : List Geom)
deriving Repr, Inhabited

/-- Number the members of a list from `i` and concatenate what `f` gives for each. -/
def evList {α : Type} (f : Nat → α → List Ev) : Nat → List α → List Ev
  | _, [] => []
  | i, x :: xs => f i x ++ evList f (i + 1) xs

/-- begin event, members numbered from 0, end event -/
def bracket {α : Type} (k : GKind) (tagged : Bool) (idx : Nat) (f : Nat → α → List Ev) (xs : List α) :
    List Ev :=
  .gbegin k tagged xs.length idx :: (evList f 0 xs ++ [.gend k tagged idx])

def coordEvs (multi : Bool) (i : Nat) (c : Coord) : List Ev := [coordEv multi c i]

def lineEvs (multi tagged : Bool) (idx : Nat) (cs : List Coord) : List Ev :=
  bracket .lineString tagged idx (coordEvs multi) cs

def circEvs (multi : Bool) (idx : Nat) (cs : List Coord) : List Ev :=
  bracket .circularString true idx (coordEvs multi) cs

def polyEvs (multi tagged : Bool) (idx : Nat) (rings : List (List Coord)) : List Ev :=
  bracket .polygon tagged idx (lineEvs multi false) rings

def triEvs (multi tagged : Bool) (idx : Nat) (rings : List (List Coord)) : List Ev :=
  bracket .triangle tagged idx (lineEvs multi false) rings

/-- Line strings inside compound curves and curve collections are delivered untagged. -/
def segEvs (multi : Bool) (idx : Nat) : Seg → List Ev
  | .line cs => lineEvs multi false idx cs
  | .circ cs => circEvs multi idx cs

def curveEvs (multi : Bool) (idx : Nat) : Curve → List Ev
  | .seg s => segEvs multi idx s
  | .compound ss => bracket .compoundCurve true idx (segEvs multi) ss

def surfaceEvs (multi : Bool) (idx : Nat) : Surface → List Ev
  | .polygon rings => polyEvs multi false idx rings
  | .curvePolygon rings => bracket .curvePolygon true idx (curveEvs multi) rings

mutual
/-- The event stream of a geometry delivered at index `idx` to a processor with the given
`multi_dim()`. -/
def Geom.events (multi : Bool) (idx : Nat) : Geom → List Ev
  | .emptyPoint => [.emptyPoint idx]
  | .point c => [.gbegin .point true 1 idx, coordEv multi c 0, .gend .point true idx]
  | .multiPoint cs => bracket .multiPoint true idx (coordEvs multi) cs
  | .lineString cs => lineEvs multi true idx cs
  | .circularString cs => circEvs multi idx cs
  | .compoundCurve ss => bracket .compoundCurve true idx (segEvs multi) ss
  | .multiLineString ls => bracket .multiLineString true idx (lineEvs multi false) ls
  | .multiCurve cs => bracket .multiCurve true idx (curveEvs multi) cs
  | .polygon rings => polyEvs multi true idx rings
  | .triangle rings => triEvs multi true idx rings
  | .curvePolygon rings => bracket .curvePolygon true idx (curveEvs multi) rings
  | .multiPolygon ps => bracket .multiPolygon true idx (polyEvs multi false) ps
  | .polyhedralSurface ps => bracket .polyhedralSurface true idx (polyEvs multi false) ps
  | .tin ts => bracket .tin true idx (triEvs multi false) ts
  | .multiSurface ss => bracket .multiSurface true idx (surfaceEvs multi) ss
  | .collection gs =>
    .gbegin .collection true gs.length idx :: (eventsList multi 0 gs ++ [.gend .collection true idx])

/-- Members of a collection, numbered from `i`. -/
def eventsList (multi : Bool) (i : Nat) : List Geom → List Ev
  | [] => []
  | g :: gs => Geom.events multi i g ++ eventsList multi (i + 1) gs
end

theorem eventsList_eq (multi : Bool) (i : Nat) (gs : List Geom) :
    eventsList multi i gs = evList (Geom.events multi) i gs := by
  induction gs generalizing i with
  | nil => simp [eventsList, evList]
  | cons g gs ih => simp [eventsList, evList, ih]

/-- A collection is bracketed like every other container. -/
theorem events_collection (multi : Bool) (idx : Nat) (gs : List Geom) :
    Geom.events multi idx (.collection gs) = bracket .collection true idx (Geom.events multi) gs := by
  simp [Geom.events, bracket, eventsList_eq]

def Seg.coords : Seg → List Coord
  | .line cs | .circ cs => cs

def Curve.coords : Curve → List Coord
  | .seg s => s.coords
  | .compound ss => ss.flatMap Seg.coords

def Surface.coords : Surface → List Coord
  | .polygon rings => rings.flatten
  | .curvePolygon rings => rings.flatMap Curve.coords

mutual
/-- All coordinates of a geometry, in order. -/
def Geom.coords : Geom → List Coord
  | .emptyPoint => []
  | .point c => [c]
  | .multiPoint cs | .lineString cs | .circularString cs => cs
  | .compoundCurve ss => ss.flatMap Seg.coords
  | .multiLineString ls | .polygon ls | .triangle ls => ls.flatten
  | .multiCurve cs | .curvePolygon cs => cs.flatMap Curve.coords
  | .multiPolygon ps | .polyhedralSurface ps | .tin ps => ps.flatMap List.flatten
  | .multiSurface ss => ss.flatMap Surface.coords
  | .collection gs => Geom.coordsList gs

def Geom.coordsList : List Geom → List Coord
  | [] => []
  | g :: gs => g.coords ++ Geom.coordsList gs
end

theorem Geom.coordsList_eq (gs : List Geom) : Geom.coordsList gs = gs.flatMap Geom.coords := by
  induction gs with
  | nil => simp [Geom.coordsList]
  | cons g gs ih => simp [Geom.coordsList, ih]

/-- Structural induction with the collection case stated for all members. -/
theorem Geom.ind {P : Geom → Prop}
    (emptyPoint : P .emptyPoint) (point : ∀ c, P (.point c)) (multiPoint : ∀ cs, P (.multiPoint cs))
    (lineString : ∀ cs, P (.lineString cs)) (circularString : ∀ cs, P (.circularString cs))
    (compoundCurve : ∀ ss, P (.compoundCurve ss)) (multiLineString : ∀ ls, P (.multiLineString ls))
    (multiCurve : ∀ cs, P (.multiCurve cs)) (polygon : ∀ rs, P (.polygon rs))
    (triangle : ∀ rs, P (.triangle rs)) (curvePolygon : ∀ rs, P (.curvePolygon rs))
    (multiPolygon : ∀ ps, P (.multiPolygon ps)) (polyhedralSurface : ∀ ps, P (.polyhedralSurface ps))
    (tin : ∀ ts, P (.tin ts)) (multiSurface : ∀ ss, P (.multiSurface ss))
    (collection : ∀ gs, (∀ g ∈ gs, P g) → P (.collection gs)) : ∀ g, P g := by
  intro g
  refine Geom.rec (motive_1 := P) (motive_2 := fun gs => ∀ g ∈ gs, P g)
    emptyPoint point multiPoint lineString circularString compoundCurve multiLineString multiCurve
    polygon triangle curvePolygon multiPolygon polyhedralSurface tin multiSurface
    collection (by simp) ?_ g
  intro head tail hh ht g hg
  rcases List.mem_cons.mp hg with rfl | h
  · exact hh
  · exact ht g h

end Geozero
