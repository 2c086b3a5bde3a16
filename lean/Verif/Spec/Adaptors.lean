import Verif.Spec.Geom
import Verif.Model.Feature

/-
Specification vocabulary for the adaptors: positions of a stream of calls, the order of `f64`, bounding boxes,
mapping a function over the positions of calls and geometries.
-/

namespace Geozero

/-! ### positions and bounding boxes -/

/-- the position a call delivers, if any -/
def FEv.pos? : FEv → Option (F64 × F64)
  | .geom (.xy x y _) => some (x, y)
  | .geom (.coord x y _ _ _ _ _) => some (x, y)
  | _ => none

/-- the positions delivered by a stream of calls, in order -/
def positions (evs : List FEv) : List (F64 × F64) := evs.filterMap FEv.pos?

/-- The value of an IEEE-754 double that is not NaN, as an integer multiple of `2^-1074`: sign, exponent field `e`
and fraction `f` stand for `±f` when `e = 0` (subnormal) and for `±(2^52 + f) * 2^(e-1)` otherwise.  An infinity
gets the value above (below) all finite ones that this formula gives. -/
def F64.magnitude (n : Nat) : Nat :=
  if n / 2 ^ 52 = 0 then n % 2 ^ 52 else (2 ^ 52 + n % 2 ^ 52) * 2 ^ (n / 2 ^ 52 - 1)

def F64.value (x : F64) : Int :=
  if x.toNat / 2 ^ 63 = 0 then (F64.magnitude (x.toNat % 2 ^ 63) : Int) else - (F64.magnitude (x.toNat % 2 ^ 63) : Int)

/-- `a` is the least of `l` (the list is not empty) -/
def IsMin (l : List F64) (a : F64) : Prop := a ∈ l ∧ ∀ x ∈ l, a.value ≤ x.value
/-- `a` is the greatest of `l` -/
def IsMax (l : List F64) (a : F64) : Prop := a ∈ l ∧ ∀ x ∈ l, x.value ≤ a.value

/-- a position without NaN -/
def NumPos (p : F64 × F64) : Prop := p.1.isNaN = false ∧ p.2.isNaN = false

/-! ### mapping positions -/

/-- replace the position of a call by `f` of it; nothing else changes -/
def FEv.mapXY (f : F64 → F64 → F64 × F64) (e : FEv) : FEv :=
  match e with
  | .geom (.xy x y idx) => .geom (.xy (f x y).1 (f x y).2 idx)
  | .geom (.coord x y z m t tm idx) => .geom (.coord (f x y).1 (f x y).2 z m t tm idx)
  | e => e

/-- `FEv.mapXY` on geometry calls -/
def Ev.mapXY (f : F64 → F64 → F64 × F64) : Ev → Ev
  | .xy x y idx => .xy (f x y).1 (f x y).2 idx
  | .coord x y z m t tm idx => .coord (f x y).1 (f x y).2 z m t tm idx
  | e => e

/-- a coordinate with transformed position -/
def Coord.mapXY (f : F64 → F64 → F64 × F64) (c : Coord) : Coord :=
  { c with x := (f c.x c.y).1, y := (f c.x c.y).2 }

def Seg.mapXY (f : F64 → F64 → F64 × F64) : Seg → Seg
  | .line cs => .line (cs.map (Coord.mapXY f))
  | .circ cs => .circ (cs.map (Coord.mapXY f))

def Curve.mapXY (f : F64 → F64 → F64 × F64) : Curve → Curve
  | .seg s => .seg (s.mapXY f)
  | .compound ss => .compound (ss.map (Seg.mapXY f))

def Surface.mapXY (f : F64 → F64 → F64 × F64) : Surface → Surface
  | .polygon rs => .polygon (rs.map (List.map (Coord.mapXY f)))
  | .curvePolygon rs => .curvePolygon (rs.map (Curve.mapXY f))

mutual
/-- the geometry with every position transformed -/
def Geom.mapXY (f : F64 → F64 → F64 × F64) : Geom → Geom
  | .emptyPoint => .emptyPoint
  | .point c => .point (c.mapXY f)
  | .multiPoint cs => .multiPoint (cs.map (Coord.mapXY f))
  | .lineString cs => .lineString (cs.map (Coord.mapXY f))
  | .circularString cs => .circularString (cs.map (Coord.mapXY f))
  | .compoundCurve ss => .compoundCurve (ss.map (Seg.mapXY f))
  | .multiLineString ls => .multiLineString (ls.map (List.map (Coord.mapXY f)))
  | .multiCurve cs => .multiCurve (cs.map (Curve.mapXY f))
  | .polygon rs => .polygon (rs.map (List.map (Coord.mapXY f)))
  | .triangle rs => .triangle (rs.map (List.map (Coord.mapXY f)))
  | .curvePolygon rs => .curvePolygon (rs.map (Curve.mapXY f))
  | .multiPolygon ps => .multiPolygon (ps.map (List.map (List.map (Coord.mapXY f))))
  | .polyhedralSurface ps => .polyhedralSurface (ps.map (List.map (List.map (Coord.mapXY f))))
  | .tin ps => .tin (ps.map (List.map (List.map (Coord.mapXY f))))
  | .multiSurface ss => .multiSurface (ss.map (Surface.mapXY f))
  | .collection gs => .collection (Geom.mapXYList f gs)

def Geom.mapXYList (f : F64 → F64 → F64 × F64) : List Geom → List Geom
  | [] => []
  | g :: gs => g.mapXY f :: Geom.mapXYList f gs
end

/-- a source of features all of whose positions are transformed -/
def FProg.mapXY {α : Type} (f : F64 → F64 → F64 × F64) : FProg α → FProg α
  | .ret a => .ret a
  | .fail e => .fail e
  | .read k => .read (fun b => FProg.mapXY f (k b))
  | .emit e k => .emit (e.mapXY f) (FProg.mapXY f k)
  | .emitOk e k => .emitOk (e.mapXY f) (FProg.mapXY f k)
  | .prop i n v k => .prop i n v (fun b => FProg.mapXY f (k b))
  | .ask k => .ask (fun b d => FProg.mapXY f (k b d))

/-! ### calls a plain two-dimensional stream without collections consists of -/

/-- neither an SRID, nor an empty point, nor the begin or end of a geometry collection -/
def FEv.plain : FEv → Bool
  | .geom (.srid _) => false
  | .geom (.emptyPoint _) => false
  | .geom (.gbegin .collection _ _ _) => false
  | .geom (.gend .collection _ _) => false
  | _ => true

end Geozero
