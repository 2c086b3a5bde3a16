import Verif.Model.Feature

/-
Models /repo/geozero/src/tessellator/mod.rs, with the path builder of the external crate `lyon` 1.0 as a recorder of its
calls and the two tessellators of that crate as parameters.
-/

namespace Geozero

/-- `lyon::math::Point` (external; tessellator/mod.rs:3-6) -/
structure P32 where
  x : Float32Bits
  y : Float32Bits
deriving DecidableEq, Repr, Inhabited

/-- one call of the path builder (the calls of tessellator/mod.rs:42-44, 69, 91) -/
inductive PathCmd
  | begin (p : P32)
  | lineTo (p : P32)
  | close
deriving DecidableEq, Repr

/-- What is taken from outside: whether the assertions of lyon's path builder are compiled in, the conversion `as f32`, and the
results of the fill tessellator (vertices in the order they are made, indices) and of the stroke tessellator (printed only).
(external; tessellator/mod.rs:3-6, 42-44, 111-127) -/
structure Lyon where
  checked : Bool
  cast : F64 → Float32Bits
  fill : List PathCmd → Except Err (List P32 × List Nat)
  stroke : List PathCmd → Except Err Unit

/-- `lyon::path::path::Builder`: the calls so far, and whether a sub-path has been begun and not ended
(external; tessellator/mod.rs:6, 23) -/
structure PathBuilder where
  cmds : List PathCmd := []
  inSub : Bool := false
deriving DecidableEq, Repr

/-- `Builder::begin` of lyon: a sub-path must not be in progress (called in tessellator/mod.rs:42-44) -/
def PathBuilder.begin (ly : Lyon) (b : PathBuilder) (p : P32) : Except Err PathBuilder :=
  if ly.checked && b.inSub then .error (.panic "multiple begin() calls without end()")
  else .ok { cmds := b.cmds ++ [.begin p], inSub := true }

/-- `Builder::line_to` of lyon: a sub-path must be in progress (called in tessellator/mod.rs:42-44) -/
def PathBuilder.lineTo (ly : Lyon) (b : PathBuilder) (p : P32) : Except Err PathBuilder :=
  if ly.checked && !b.inSub then .error (.panic "edge operation is made before begin()")
  else .ok { b with cmds := b.cmds ++ [.lineTo p] }

/-- `Builder::close` of lyon: a sub-path must be in progress (called in tessellator/mod.rs:69, 91) -/
def PathBuilder.close (ly : Lyon) (b : PathBuilder) : Except Err PathBuilder :=
  if ly.checked && !b.inSub then .error (.panic "end() called without begin()")
  else .ok { cmds := b.cmds ++ [.close], inSub := false }

/-- `Builder::build` of lyon: no sub-path may be in progress (called in tessellator/mod.rs:73, 93) -/
def PathBuilder.build (ly : Lyon) (b : PathBuilder) : Except Err (List PathCmd) :=
  if ly.checked && b.inSub then .error (.panic "build() called before end()") else .ok b.cmds

/-- a call of `VertexOutput` (tessellator/mod.rs:14-17); the third coordinate is always 0.0 -/
inductive VOut
  | vertex (p : P32)
  | triangle (a b c : Nat)
deriving DecidableEq, Repr

/-- `Tessellator` (tessellator/mod.rs:20-25), with the calls made to its output -/
structure Tess where
  started : Bool := false
  builder : PathBuilder := {}
  numRings : Nat := 0
  out : List VOut := []
deriving DecidableEq, Repr

namespace Tess

/-- `for tri in buffers.indices.chunks(3) { out.triangle(tri[0], tri[1], tri[2]) }` (tessellator/mod.rs:124-126) -/
def triangles : List Nat → Except Err (List VOut)
  | [] => .ok []
  | a :: b :: c :: rest =>
    match triangles rest with
    | .ok ts => .ok (.triangle a b c :: ts)
    | .error e => .error e
  | _ => .error (.panic "index out of bounds")

/-- `tessellate_line` (tessellator/mod.rs:98-109) -/
def tessellateLine (ly : Lyon) (path : List PathCmd) : Except Err Unit :=
  match ly.stroke path with
  | .ok _ => .ok ()
  | .error _ => .error (.panic "called `Result::unwrap()` on an `Err` value")

/-- `tessellate_poly` (tessellator/mod.rs:111-127): the calls to the output -/
def tessellatePoly (ly : Lyon) (path : List PathCmd) : Except Err (List VOut) :=
  match ly.fill path with
  | .error _ => .error (.panic "called `Result::unwrap()` on an `Err` value")
  | .ok (vs, is) =>
    match triangles is with
    | .error e => .error e
    | .ok ts => .ok (vs.map VOut.vertex ++ ts)

/-- `if self.has_started { self.has_started = false; builder.close() }` (tessellator/mod.rs:67-70, 89-92): the builder
after it -/
def closeStarted (ly : Lyon) (t : Tess) : Except Err PathBuilder := if t.started then t.builder.close ly else .ok t.builder

/-- `xy` (tessellator/mod.rs:39-47) -/
def xy (ly : Lyon) (t : Tess) (x y : F64) (idx : Nat) : Except Err Tess :=
  if idx = 0 then
    match t.builder.begin ly ⟨ly.cast x, ly.cast y⟩ with
    | .ok builder => .ok { t with started := true, builder }
    | .error e => .error e
  else
    match t.builder.lineTo ly ⟨ly.cast x, ly.cast y⟩ with
    | .ok builder => .ok { t with builder }
    | .error e => .error e

/-- `linestring_end` (tessellator/mod.rs:66-76) -/
def linestringEnd (ly : Lyon) (t : Tess) (tagged : Bool) : Except Err Tess :=
  match t.closeStarted ly with
  | .error e => .error e
  | .ok builder =>
    if tagged then
      match builder.build ly with
      | .error e => .error e
      | .ok path =>
        match tessellateLine ly path with
        | .error e => .error e
        | .ok _ => .ok { t with started := false, builder := {} }
    else .ok { t with started := false, builder }

/-- `polygon_end` (tessellator/mod.rs:87-95) -/
def polygonEnd (ly : Lyon) (t : Tess) : Except Err Tess :=
  match t.closeStarted ly with
  | .error e => .error e
  | .ok builder =>
    match builder.build ly with
    | .error e => .error e
    | .ok path =>
      match tessellatePoly ly path with
      | .error e => .error e
      | .ok vs => .ok { t with started := false, builder := {}, out := t.out ++ vs }

/-- `GeomProcessor for Tessellator` (tessellator/mod.rs:38-96); the methods it does not define do nothing, except that an empty
point is refused (geometry_processor.rs) -/
def step (ly : Lyon) (t : Tess) : Ev → Except Err Tess
  | .xy x y idx => t.xy ly x y idx
  | .emptyPoint _ => .error (.geometry "The input was an empty Point, but the output doesn't support empty Points")
  | .gbegin .lineString tagged _ _ => .ok (if tagged then { t with numRings := 1 } else t)
  | .gend .lineString tagged _ => t.linestringEnd ly tagged
  | .gbegin .polygon _ size _ => .ok { t with numRings := size }
  | .gend .polygon _ _ => t.polygonEnd ly
  | _ => .ok t

/-- `FeatureProcessor` and `PropertyProcessor` for `Tessellator` (tessellator/mod.rs:129-130): the methods of features do
nothing -/
def fstep (ly : Lyon) (t : Tess) : FEv → Except Err Tess
  | .geom e => t.step ly e
  | _ => .ok t

end Tess

/-- a line printed by `ObjWriter` (tessellator/mod.rs:133-142): "v x y 0" or "f a b c" -/
inductive ObjLine
  | v (p : P32)
  | f (a b c : Nat)
deriving DecidableEq, Repr

/-- `idx + 1` on `u16` in a build with overflow checks (tessellator/mod.rs:140) -/
def objIndex (i : Nat) : Except Err Nat := if i + 1 < 2 ^ 16 then .ok (i + 1) else .error (.panic "attempt to add with overflow")

/-- `VertexOutput for ObjWriter` (tessellator/mod.rs:135-142) -/
def objLine : VOut → Except Err ObjLine
  | .vertex p => .ok (.v p)
  | .triangle a b c => do
    let a ← objIndex a
    let b ← objIndex b
    let c ← objIndex c
    .ok (.f a b c)

end Geozero
