import Verif.Model.Feature

/-
Models /repo/geozero/src/wrap.rs, multiplex.rs, bounds.rs and the adaptor `DatasourceGeomProcessor` of api.rs.
-/

namespace Geozero

/-! ### wrap.rs -/

/-- the event a `WrappedXYProcessor` passes on: `xy` and `coordinate` transform the position first
(wrap.rs:37-54), every other method is delegated unchanged (wrap.rs:29-36, 55-182).
Simplification: the begin/end methods, delegated one by one in the code, are one case here. -/
def wrapEv (f : F64 → F64 → F64 × F64) : FEv → FEv
  | .geom (.xy x y idx) => .geom (.xy (f x y).1 (f x y).2 idx)
  | .geom (.coord x y z m t tm idx) => .geom (.coord (f x y).1 (f x y).2 z m t tm idx)
  | .geom (.srid s) => .geom (.srid s)
  | .geom (.emptyPoint idx) => .geom (.emptyPoint idx)
  | .geom (.gbegin k tagged size idx) => .geom (.gbegin k tagged size idx)
  | .geom (.gend k tagged idx) => .geom (.gend k tagged idx)
  | .dsBegin name => .dsBegin name
  | .dsEnd => .dsEnd
  | .ftBegin idx => .ftBegin idx
  | .ftEnd idx => .ftEnd idx
  | .propsBegin => .propsBegin
  | .propsEnd => .propsEnd
  | .geomBegin => .geomBegin
  | .geomEnd => .geomEnd
  | .prop i n v => .prop i n v

/-- `WrappedXYProcessor` (wrap.rs:5-182), as made by `pre_process_xy` (geometry_processor.rs:437-445) -/
def wrapXY {σ : Type} (f : F64 → F64 → F64 × F64) (p : FProc σ) : FProc σ where
  step s e := p.step s (wrapEv f e)
  left s e := p.left s (wrapEv f e)
  abort s e := p.abort s (wrapEv f e)
  multi := p.multi
  dims := p.dims

/-! ### multiplex.rs -/

/-- does `Multiplexer` forward this call?  Not overridden, hence with the default behaviour: `srid`,
`empty_point`, `geometrycollection_begin` and `geometrycollection_end` (multiplex.rs:53-182) -/
def muxForwards : FEv → Bool
  | .geom (.srid _) => false
  | .geom (.emptyPoint _) => false
  | .geom (.gbegin .collection _ _ _) => false
  | .geom (.gend .collection _ _) => false
  | _ => true

/-- `self.p1.m(..)?; self.p2.m(..)`.  `property` is `p1.property(..).and(p2.property(..))` (multiplex.rs:185-191):
same result, though `p2` is called even when `p1` failed. -/
def muxBoth {σ τ : Type} (p : FProc σ) (q : FProc τ) (s : σ × τ) (e : FEv) : Except Err (σ × τ) :=
  match p.step s.1 e with
  | .error x => .error x
  | .ok s1 =>
    match q.step s.2 e with
    | .error x => .error x
    | .ok s2 => .ok (s1, s2)

/-- the state after a failed call: the second processor has not been called if the first one failed (simplification: for
`property` it has, but no reader drops the error of `property`) (multiplex.rs:19-191, the order of the two calls) -/
def muxLeft {σ τ : Type} (p : FProc σ) (q : FProc τ) (s : σ × τ) (e : FEv) : σ × τ :=
  match p.step s.1 e with
  | .error _ => (p.left s.1 e, s.2)
  | .ok s1 => (s1, q.left s.2 e)

/-- `Multiplexer` (multiplex.rs:7-191).  `multi_dim` and `dimensions` are the defaults (XY); the answer of
`property` is that of the second processor. -/
def mux {σ τ : Type} (p : FProc σ) (q : FProc τ) : FProc (σ × τ) where
  step s e :=
    if muxForwards e then muxBoth p q s e
    else match defaultStep e with
      | .ok _ => .ok s
      | .error x => .error x
  left s e := if muxForwards e then muxLeft p q s e else s
  abort s e := q.abort s.2 e
  multi _ := false
  dims _ := {}

/-! ### api.rs: DatasourceGeomProcessor -/

/-- does `DatasourceGeomProcessor` forward this geometry call?  (api.rs:101-201: no `srid`, `empty_point`,
`geometrycollection_begin`, `geometrycollection_end`) -/
def dsGeomForwards : Ev → Bool
  | .srid _ => false
  | .emptyPoint _ => false
  | .gbegin .collection _ _ _ => false
  | .gend .collection _ _ => false
  | _ => true

/-- `DatasourceGeomProcessor` (api.rs:97-204): geometry calls go to the wrapped processor, all calls for
features and properties are the no-op defaults; `property` answers `true` (property_processor.rs:60-62).
Its `dimensions`/`multi_dim` are the defaults. -/
def dsGeom {σ : Type} (p : Prog.Proc σ) : FProc σ where
  step s
    | .geom e =>
      if dsGeomForwards e then p.step s e
      else match defaultStep (.geom e) with
        | .ok _ => .ok s
        | .error x => .error x
    | _ => .ok s
  abort _ _ := true
  multi _ := false
  dims _ := {}

/-- `GeozeroDatasource::process_geom` (api.rs:37-40) -/
def datasourceProcessGeom {σ : Type} (src : FProg Unit) (p : Prog.Proc σ) (s : σ) (bs : List Byte) :
    σ × List FEv × Except Err (Unit × List Byte) :=
  FProg.interp (dsGeom p) src s bs

/-! ### bounds.rs -/

/-- position of a number in the order of `f64`: sign and magnitude of the bit pattern as an integer (`-0.0` and
`0.0` coincide) (used for the comparisons of bounds.rs:13-22) -/
def F64.key (x : F64) : Int :=
  if x.toNat < 2 ^ 63 then (x.toNat : Int) else - ((x.toNat - 2 ^ 63 : Nat) : Int)

/-- `<` on `f64`: false when an operand is NaN (used in bounds.rs:13-22) -/
def F64.lt (x y : F64) : Bool := !x.isNaN && !y.isNaN && decide (x.key < y.key)

/-- `Bounds` (bounds.rs:3-9) -/
structure Bounds where
  minX : F64
  minY : F64
  maxX : F64
  maxY : F64
deriving DecidableEq, Repr

/-- `Bounds::extend` (bounds.rs:12-25) -/
def Bounds.extend (b : Bounds) (x y : F64) : Bounds :=
  { minX := if F64.lt x b.minX then x else b.minX
    maxX := if F64.lt b.maxX x then x else b.maxX
    minY := if F64.lt y b.minY then y else b.minY
    maxY := if F64.lt b.maxY y then y else b.maxY }

/-- `BoundsProcessor::xy` (bounds.rs:58-71) -/
def Bounds.add : Option Bounds → F64 → F64 → Option Bounds
  | none, x, y => some { minX := x, minY := y, maxX := x, maxY := y }
  | some b, x, y => some (b.extend x y)

/-- `BoundsProcessor` (bounds.rs:44-91): `xy` and `coordinate` are overridden, everything else is default. -/
def boundsProc : FProc (Option Bounds) where
  step b
    | .geom (.xy x y _) => .ok (Bounds.add b x y)
    | .geom (.coord x y _ _ _ _ _) => .ok (Bounds.add b x y)
    | e =>
      match defaultStep e with
      | .ok _ => .ok b
      | .error x => .error x
  abort _ _ := true

end Geozero
