import Verif.Spec.Features
import Verif.Model.Tessellator

/-
What tessellating a dataset should give.
-/

namespace Geozero

/-- a ring as a closed sub-path with single precision positions; nothing for a ring without positions -/
def ringPath (cast : F64 → Float32Bits) : List Coord → List PathCmd
  | [] => []
  | c :: cs => .begin ⟨cast c.x, cast c.y⟩ :: (cs.map (fun c => PathCmd.lineTo ⟨cast c.x, cast c.y⟩) ++ [.close])

/-- the path of a polygon: its rings in order -/
def polyPath (cast : F64 → Float32Bits) (rings : List (List Coord)) : List PathCmd := rings.flatMap (ringPath cast)

/-- the polygon of a surface, if it is one -/
def Surface.area : Surface → List (List (List Coord))
  | .polygon rs => [rs]
  | .curvePolygon _ => []

mutual
/-- the polygons of a geometry, in order -/
def Geom.areas : Geom → List (List (List Coord))
  | .polygon rs => [rs]
  | .multiPolygon ps | .polyhedralSurface ps => ps
  | .multiSurface ss => ss.flatMap Surface.area
  | .collection gs => Geom.areasList gs
  | _ => []

def Geom.areasList : List Geom → List (List (List Coord))
  | [] => []
  | g :: gs => g.areas ++ Geom.areasList gs
end

theorem Geom.areasList_eq (gs : List Geom) : Geom.areasList gs = gs.flatMap Geom.areas := by
  induction gs with
  | nil => simp [Geom.areasList]
  | cons g gs ih => simp [Geom.areasList, ih]

/-- A geometry made of polygons and separate line strings only -/
inductive Geom.Solid : Geom → Prop
  | lineString (cs : List Coord) : Solid (.lineString cs)
  | polygon (rs : List (List Coord)) : Solid (.polygon rs)
  | multiPolygon (ps : List (List (List Coord))) : Solid (.multiPolygon ps)
  | polyhedralSurface (ps : List (List (List Coord))) : Solid (.polyhedralSurface ps)
  | multiSurface (ss : List Surface) (h : ∀ s ∈ ss, ∃ rs, s = .polygon rs) : Solid (.multiSurface ss)
  | collection (gs : List Geom) (h : ∀ g ∈ gs, Solid g) : Solid (.collection gs)

/-- the triples of a list of indices, if its length is a multiple of three -/
def triples : List Nat → Option (List (Nat × Nat × Nat))
  | [] => some []
  | a :: b :: c :: rest => (triples rest).map ((a, b, c) :: ·)
  | _ => none

/-- `out` is what is delivered for one polygon: the vertices of its fill, then its triangles -/
def FillOf (ly : Lyon) (rings : List (List Coord)) (out : List VOut) : Prop :=
  ∃ vs is ts, ly.fill (polyPath ly.cast rings) = .ok (vs, is) ∧ triples is = some ts ∧
    out = vs.map VOut.vertex ++ ts.map fun t => VOut.triangle t.1 t.2.1 t.2.2

/-- `out` is what is delivered for polygons in order -/
inductive FillsOf (ly : Lyon) : List (List (List Coord)) → List VOut → Prop
  | nil : FillsOf ly [] []
  | cons {rings : List (List Coord)} {ps : List (List (List Coord))} {a b : List VOut} (h : FillOf ly rings a)
      (hs : FillsOf ly ps b) : FillsOf ly (rings :: ps) (a ++ b)

/-- the tessellators succeed on every path, with whole triangles -/
structure Lyon.Total (ly : Lyon) : Prop where
  fill : ∀ path, ∃ vs is ts, ly.fill path = .ok (vs, is) ∧ triples is = some ts
  stroke : ∀ path, ∃ u, ly.stroke path = .ok u

/-- the features have no geometry or a solid one (whatever index it is delivered with); `areas` are all their polygons in order -/
inductive SolidFeats : List Feat → List (List (List Coord)) → Prop
  | nil : SolidFeats [] []
  | none {f : Feat} {fs : List Feat} {areas : List (List (List Coord))} (hf : f.geom = none) (h : SolidFeats fs areas) :
      SolidFeats (f :: fs) areas
  | some {f : Feat} {fs : List Feat} {areas : List (List (List Coord))} (g : Geom) (i : Nat) (hf : f.geom = some (g.events false i))
      (hg : g.Solid) (h : SolidFeats fs areas) : SolidFeats (f :: fs) (g.areas ++ areas)

/-- the vertices of an OBJ document, in order -/
def objVertices : List ObjLine → List P32
  | [] => []
  | .v p :: ls => p :: objVertices ls
  | .f .. :: ls => objVertices ls

/-- the faces of an OBJ document, in order -/
def objFaces : List ObjLine → List (Nat × Nat × Nat)
  | [] => []
  | .v _ :: ls => objFaces ls
  | .f a b c :: ls => (a, b, c) :: objFaces ls

/-- the triangles an OBJ document describes: its faces refer to the vertices of the whole document, counted from 1 -/
def objTriangles (lines : List ObjLine) : List (Option P32 × Option P32 × Option P32) :=
  (objFaces lines).map fun t => ((objVertices lines)[t.1 - 1]?, (objVertices lines)[t.2.1 - 1]?, (objVertices lines)[t.2.2 - 1]?)

/-- the triangles of one polygon: its indices refer to its own vertices, counted from 0 -/
def fillTriangles (vs : List P32) (ts : List (Nat × Nat × Nat)) : List (Option P32 × Option P32 × Option P32) :=
  ts.map fun t => (vs[t.1]?, vs[t.2.1]?, vs[t.2.2]?)

/-! What is filled when there are lines that are not polygons and not line strings of their own. -/

/-- a part of a geometry: a line inside a multi line string, a curve or a triangle; a line string of its own; a polygon -/
inductive TessPart
  | loose (line : List Coord)
  | line (cs : List Coord)
  | area (rings : List (List Coord))

def Seg.part : Seg → TessPart
  | .line cs | .circ cs => .loose cs

def Curve.tessParts : Curve → List TessPart
  | .seg s => [s.part]
  | .compound ss => ss.map Seg.part

def Surface.tessParts : Surface → List TessPart
  | .polygon rs => [.area rs]
  | .curvePolygon cs => cs.flatMap Curve.tessParts

mutual
/-- the parts of a geometry, in order -/
def Geom.tessParts : Geom → List TessPart
  | .lineString cs => [.line cs]
  | .compoundCurve ss => ss.map Seg.part
  | .multiLineString ls | .triangle ls => ls.map .loose
  | .tin ts => ts.flatMap fun rs => rs.map .loose
  | .multiCurve cs | .curvePolygon cs => cs.flatMap Curve.tessParts
  | .polygon rs => [.area rs]
  | .multiPolygon ps | .polyhedralSurface ps => ps.map .area
  | .multiSurface ss => ss.flatMap Surface.tessParts
  | .collection gs => Geom.tessPartsList gs
  | .emptyPoint | .point _ | .multiPoint _ | .circularString _ => []

def Geom.tessPartsList : List Geom → List TessPart
  | [] => []
  | g :: gs => g.tessParts ++ Geom.tessPartsList gs
end

theorem Geom.tessPartsList_eq (gs : List Geom) : Geom.tessPartsList gs = gs.flatMap Geom.tessParts := by
  induction gs with
  | nil => simp [Geom.tessPartsList]
  | cons g gs ih => simp [Geom.tessPartsList, ih]

def Seg.Lineal : Seg → Prop
  | .line _ => True
  | .circ _ => False

def Curve.Lineal : Curve → Prop
  | .seg s => s.Lineal
  | .compound ss => ∀ s ∈ ss, s.Lineal

def Surface.Lineal : Surface → Prop
  | .polygon _ => True
  | .curvePolygon cs => ∀ c ∈ cs, c.Lineal

/-- A geometry all of whose positions are in line strings or rings: no points and no circular strings. -/
inductive Geom.Lineal : Geom → Prop
  | lineString (cs : List Coord) : Lineal (.lineString cs)
  | compoundCurve (ss : List Seg) (h : ∀ s ∈ ss, s.Lineal) : Lineal (.compoundCurve ss)
  | multiLineString (ls : List (List Coord)) : Lineal (.multiLineString ls)
  | multiCurve (cs : List Curve) (h : ∀ c ∈ cs, c.Lineal) : Lineal (.multiCurve cs)
  | polygon (rs : List (List Coord)) : Lineal (.polygon rs)
  | triangle (rs : List (List Coord)) : Lineal (.triangle rs)
  | curvePolygon (cs : List Curve) (h : ∀ c ∈ cs, c.Lineal) : Lineal (.curvePolygon cs)
  | multiPolygon (ps : List (List (List Coord))) : Lineal (.multiPolygon ps)
  | polyhedralSurface (ps : List (List (List Coord))) : Lineal (.polyhedralSurface ps)
  | tin (ts : List (List (List Coord))) : Lineal (.tin ts)
  | multiSurface (ss : List Surface) (h : ∀ s ∈ ss, s.Lineal) : Lineal (.multiSurface ss)
  | collection (gs : List Geom) (h : ∀ g ∈ gs, Lineal g) : Lineal (.collection gs)

/-- What is filled: each polygon together with the loose lines since the last polygon or line string of its own (`pend` before). -/
def filledFrom (pend : List (List Coord)) : List TessPart → List (List (List Coord))
  | [] => []
  | .loose l :: ps => filledFrom (pend ++ [l]) ps
  | .line _ :: ps => filledFrom [] ps
  | .area rs :: ps => (pend ++ rs) :: filledFrom [] ps

/-- the loose lines after the last polygon or line string of its own -/
def looseAfter (pend : List (List Coord)) : List TessPart → List (List Coord)
  | [] => pend
  | .loose l :: ps => looseAfter (pend ++ [l]) ps
  | .line _ :: ps => looseAfter [] ps
  | .area _ :: ps => looseAfter [] ps

/-- the features have no geometry or a lineal one; `parts` are all their parts in order -/
inductive LinealFeats : List Feat → List TessPart → Prop
  | nil : LinealFeats [] []
  | none {f : Feat} {fs : List Feat} {parts : List TessPart} (hf : f.geom = none) (h : LinealFeats fs parts) :
      LinealFeats (f :: fs) parts
  | some {f : Feat} {fs : List Feat} {parts : List TessPart} (g : Geom) (i : Nat) (hf : f.geom = some (g.events false i))
      (hg : g.Lineal) (h : LinealFeats fs parts) : LinealFeats (f :: fs) (g.tessParts ++ parts)

/-- the vertices among the calls to the output -/
def outVertices : List VOut → List P32
  | [] => []
  | .vertex p :: o => p :: outVertices o
  | .triangle .. :: o => outVertices o

/-- the triangles among the calls to the output -/
def outTriangles : List VOut → List (Nat × Nat × Nat)
  | [] => []
  | .vertex _ :: o => outTriangles o
  | .triangle a b c :: o => (a, b, c) :: outTriangles o

end Geozero
