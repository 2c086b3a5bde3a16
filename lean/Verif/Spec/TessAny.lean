import Verif.Spec.Tessellator
import Verif.Spec.Svg

/-
What is filled for datasets of any geometries, with points and circular strings too.
-/

namespace Geozero

/-- a part of a geometry: positions that are not in a line (points, circular strings); a line inside a multi line string, a curve or a
triangle; a line string of its own; a polygon -/
inductive TessBit
  | dots (cs : List Coord)
  | loose (cs : List Coord)
  | line (cs : List Coord)
  | area (rings : List (List Coord))

def Seg.bit : Seg → TessBit
  | .line cs => .loose cs
  | .circ cs => .dots cs

def Curve.bits : Curve → List TessBit
  | .seg s => [s.bit]
  | .compound ss => ss.map Seg.bit

def Surface.bits : Surface → List TessBit
  | .polygon rs => [.area rs]
  | .curvePolygon cs => cs.flatMap Curve.bits

mutual
/-- the parts of a geometry, in order -/
def Geom.bits : Geom → List TessBit
  | .emptyPoint => []
  | .point c => [.dots [c]]
  | .multiPoint cs | .circularString cs => [.dots cs]
  | .lineString cs => [.line cs]
  | .compoundCurve ss => ss.map Seg.bit
  | .multiLineString ls | .triangle ls => ls.map .loose
  | .tin ts => ts.flatMap fun rs => rs.map .loose
  | .multiCurve cs | .curvePolygon cs => cs.flatMap Curve.bits
  | .polygon rs => [.area rs]
  | .multiPolygon ps | .polyhedralSurface ps => ps.map .area
  | .multiSurface ss => ss.flatMap Surface.bits
  | .collection gs => Geom.bitsList gs

def Geom.bitsList : List Geom → List TessBit
  | [] => []
  | g :: gs => g.bits ++ Geom.bitsList gs
end

theorem Geom.bitsList_eq (gs : List Geom) : Geom.bitsList gs = gs.flatMap Geom.bits := by
  induction gs with
  | nil => simp [Geom.bitsList]
  | cons g gs ih => simp [Geom.bitsList, ih]

/-- a path in the making: its commands, and whether its last sub-path is still open -/
structure OpenPath where
  cmds : List PathCmd := []
  isOpen : Bool := false
deriving DecidableEq

/-- positions begin a new sub-path, which stays open (whether or not another is open) -/
def OpenPath.dots (cast : F64 → Float32Bits) (p : OpenPath) : List Coord → OpenPath
  | [] => p
  | c :: cs => ⟨p.cmds ++ .begin ⟨cast c.x, cast c.y⟩ :: cs.map (fun c => PathCmd.lineTo ⟨cast c.x, cast c.y⟩), true⟩

/-- close the last sub-path if it is open -/
def OpenPath.close (p : OpenPath) : OpenPath := if p.isOpen then ⟨p.cmds ++ [.close], false⟩ else p

/-- the path after a line or ring: its positions, closed -/
def OpenPath.loose (cast : F64 → Float32Bits) (p : OpenPath) (cs : List Coord) : OpenPath := (p.dots cast cs).close

/-- The paths that are filled, one for each polygon: all positions since the polygon or line string of its own before it, then the
rings.  Lines and rings are closed; a line or ring without positions, or a polygon without rings, closes the points before it. -/
def pathsFrom (cast : F64 → Float32Bits) (p : OpenPath) : List TessBit → List (List PathCmd)
  | [] => []
  | .dots cs :: bs => pathsFrom cast (p.dots cast cs) bs
  | .loose cs :: bs => pathsFrom cast (p.loose cast cs) bs
  | .line _ :: bs => pathsFrom cast {} bs
  | .area rs :: bs => (rs.foldl (OpenPath.loose cast) p).close.cmds :: pathsFrom cast {} bs

/-- the path after some parts -/
def pathAfter (cast : F64 → Float32Bits) (p : OpenPath) : List TessBit → OpenPath
  | [] => p
  | .dots cs :: bs => pathAfter cast (p.dots cast cs) bs
  | .loose cs :: bs => pathAfter cast (p.loose cast cs) bs
  | .line _ :: bs => pathAfter cast {} bs
  | .area _ :: bs => pathAfter cast {} bs

/-- `out` is what is delivered for the fill of one path: its vertices, then its triangles -/
def FillOfPath (ly : Lyon) (path : List PathCmd) (out : List VOut) : Prop :=
  ∃ vs is ts, ly.fill path = .ok (vs, is) ∧ triples is = some ts ∧
    out = vs.map VOut.vertex ++ ts.map fun t => VOut.triangle t.1 t.2.1 t.2.2

/-- `out` is what is delivered for paths in order -/
inductive FillsOfPaths (ly : Lyon) : List (List PathCmd) → List VOut → Prop
  | nil : FillsOfPaths ly [] []
  | cons {path : List PathCmd} {ps : List (List PathCmd)} {a b : List VOut} (h : FillOfPath ly path a)
      (hs : FillsOfPaths ly ps b) : FillsOfPaths ly (path :: ps) (a ++ b)

/-- the features have no geometry or one without empty points; `bits` are all their parts in order -/
inductive BitFeats : List Feat → List TessBit → Prop
  | nil : BitFeats [] []
  | none {f : Feat} {fs : List Feat} {bits : List TessBit} (hf : f.geom = none) (h : BitFeats fs bits) : BitFeats (f :: fs) bits
  | some {f : Feat} {fs : List Feat} {bits : List TessBit} (g : Geom) (i : Nat) (hf : f.geom = some (g.events false i))
      (hg : g.NoEmptyPoint) (h : BitFeats fs bits) : BitFeats (f :: fs) (g.bits ++ bits)

/-- Positions arrive while a sub-path of points or of a circular string is still open (`isOpen` at first).  Only lines, rings and
polygons close one. -/
def overlaps (isOpen : Bool) : List TessBit → Bool
  | [] => false
  | .dots cs :: bs => (isOpen && !cs.isEmpty) || overlaps (isOpen || !cs.isEmpty) bs
  | .loose cs :: bs | .line cs :: bs => (isOpen && !cs.isEmpty) || overlaps false bs
  | .area rs :: bs => (isOpen && !(rs.headD []).isEmpty) || overlaps false bs

end Geozero
