import Verif.Spec.Wkb

/-
What a WKB-like format with fixed dimensions can represent of a geometry.
-/

namespace Geozero

/-- A coordinate as stored with dimensions `d`: a missing z or m becomes 0.0, a superfluous one is
dropped. -/
def Coord.conform (d : Dims) (c : Coord) : Coord :=
  { x := c.x, y := c.y
    z := if d.z then some (c.z.getD F64.zero) else none
    m := if d.m then some (c.m.getD F64.zero) else none }

def Seg.map (f : Coord → Coord) : Seg → Seg
  | .line cs => .line (cs.map f)
  | .circ cs => .circ (cs.map f)

def Curve.map (f : Coord → Coord) : Curve → Curve
  | .seg s => .seg (s.map f)
  | .compound ss => .compound (ss.map (Seg.map f))

def Surface.map (f : Coord → Coord) : Surface → Surface
  | .polygon rings => .polygon (rings.map (List.map f))
  | .curvePolygon rings => .curvePolygon (rings.map (Curve.map f))

mutual
/-- Apply a function to every coordinate. -/
def Geom.map (f : Coord → Coord) : Geom → Geom
  | .emptyPoint => .emptyPoint
  | .point c => .point (f c)
  | .multiPoint cs => .multiPoint (cs.map f)
  | .lineString cs => .lineString (cs.map f)
  | .circularString cs => .circularString (cs.map f)
  | .compoundCurve ss => .compoundCurve (ss.map (Seg.map f))
  | .multiLineString ls => .multiLineString (ls.map (List.map f))
  | .multiCurve cs => .multiCurve (cs.map (Curve.map f))
  | .polygon rings => .polygon (rings.map (List.map f))
  | .triangle rings => .triangle (rings.map (List.map f))
  | .curvePolygon rings => .curvePolygon (rings.map (Curve.map f))
  | .multiPolygon ps => .multiPolygon (ps.map (List.map (List.map f)))
  | .polyhedralSurface ps => .polyhedralSurface (ps.map (List.map (List.map f)))
  | .tin ts => .tin (ts.map (List.map (List.map f)))
  | .multiSurface ss => .multiSurface (ss.map (Surface.map f))
  | .collection gs => .collection (Geom.mapList f gs)

def Geom.mapList (f : Coord → Coord) : List Geom → List Geom
  | [] => []
  | g :: gs => g.map f :: Geom.mapList f gs
end

instance (c : Coord) : Decidable (Spec.AllNaN c) := by unfold Spec.AllNaN; exact inferInstance

mutual
/-- WKB has no representation of its own for an empty point: a point whose ordinates are all NaN *is*
the empty point. -/
def Geom.nanEmpty : Geom → Geom
  | .point c => if Spec.AllNaN c then .emptyPoint else .point c
  | .collection gs => .collection (Geom.nanEmptyList gs)
  | g => g

def Geom.nanEmptyList : List Geom → List Geom
  | [] => []
  | g :: gs => g.nanEmpty :: Geom.nanEmptyList gs
end

/-- The geometry a reader can get back from storage with dimensions `d`. -/
def Geom.stored (d : Dims) (g : Geom) : Geom := (g.map (Coord.conform d)).nanEmpty

mutual
/-- `P` holds of the number of members at every level (a count is stored in 32 bits). -/
def Geom.Lens (P : Nat → Prop) : Geom → Prop
  | .emptyPoint | .point _ => True
  | .multiPoint cs | .lineString cs | .circularString cs => P cs.length
  | .compoundCurve ss => P ss.length ∧ ∀ s ∈ ss, SegLens P s
  | .multiLineString ls | .polygon ls | .triangle ls => P ls.length ∧ ∀ l ∈ ls, P l.length
  | .multiCurve cs | .curvePolygon cs => P cs.length ∧ ∀ c ∈ cs, CurveLens P c
  | .multiPolygon ps | .polyhedralSurface ps | .tin ps =>
    P ps.length ∧ ∀ p ∈ ps, P p.length ∧ ∀ l ∈ p, P l.length
  | .multiSurface ss => P ss.length ∧ ∀ s ∈ ss, SurfaceLens P s
  | .collection gs => P gs.length ∧ Geom.LensList P gs
where
  SegLens (P : Nat → Prop) : Seg → Prop
    | .line cs | .circ cs => P cs.length
  CurveLens (P : Nat → Prop) : Curve → Prop
    | .seg s => SegLens P s
    | .compound ss => P ss.length ∧ ∀ s ∈ ss, SegLens P s
  SurfaceLens (P : Nat → Prop) : Surface → Prop
    | .polygon rings => P rings.length ∧ ∀ l ∈ rings, P l.length
    | .curvePolygon rings => P rings.length ∧ ∀ c ∈ rings, CurveLens P c

def Geom.LensList (P : Nat → Prop) : List Geom → Prop
  | [] => True
  | g :: gs => g.Lens P ∧ Geom.LensList P gs
end

/-- Every count fits the 32-bit count field of WKB. -/
def Geom.Fits (g : Geom) : Prop := g.Lens (· < 2 ^ 32)

mutual
/-- The geometry has an empty point somewhere. -/
def Geom.hasEmptyPoint : Geom → Bool
  | .emptyPoint => true
  | .collection gs => Geom.hasEmptyPointList gs
  | _ => false

def Geom.hasEmptyPointList : List Geom → Bool
  | [] => false
  | g :: gs => g.hasEmptyPoint || Geom.hasEmptyPointList gs
end

mutual
/-- The geometry has a (single) point whose ordinates are all NaN. -/
def Geom.hasNaNPoint : Geom → Bool
  | .point c => decide (Spec.AllNaN c)
  | .collection gs => Geom.hasNaNPointList gs
  | _ => false

def Geom.hasNaNPointList : List Geom → Bool
  | [] => false
  | g :: gs => g.hasNaNPoint || Geom.hasNaNPointList gs
end

end Geozero
