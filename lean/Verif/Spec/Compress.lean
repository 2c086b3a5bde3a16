import Verif.Spec.Float32
import Verif.Spec.SlCompressed

/-
What it means that a list of vertices was compressed, and that vertices read are near to what they were.
-/

namespace Geozero
namespace Spec

/-- the single precision number `δ` is the difference between the ordinates `p` and `v` up to `η` -/
def OrdStep (η : ℚ) (p v : F64) (δ : F32) : Prop := δ.IsFinite ∧ |δ.val - (v.val - p.val)| ≤ η

/-- the single precision number `δ` is the difference between the ordinates `p` and `v`, which is at most `D`, rounded to the
nearest such number -/
def OrdRounded (D : ℚ) (p v : F64) (δ : F32) : Prop := |v.val - p.val| ≤ D ∧ F32.Nearest (v.val - p.val) δ

/-- `δ` was stored for the vertex `v` after `p`: differences of x, y and z, related by `R` to them, and m as it is -/
def DeltaStep (R : F64 → F64 → F32 → Prop) (p v : Coord) (δ : Delta) : Prop :=
  R p.x v.x δ.x ∧ R p.y v.y δ.y ∧
  (match p.z, v.z, δ.z with
    | some a, some b, some c => R a b c
    | none, none, none => True
    | _, _, _ => False) ∧
  δ.m = v.m

/-- `δs` were stored for the vertices `vs` after `p`, each relative to the one before it -/
def DeltasOf (R : F64 → F64 → F32 → Prop) : Coord → List Coord → List Delta → Prop
  | _, [], [] => True
  | p, v :: vs, δ :: δs => DeltaStep R p v δ ∧ DeltasOf R v vs δs
  | _, _, _ => False

/-- `bytes` is the point array that a compressor whose differences are related by `R` writes for the vertices `vs` -/
def CompressedFrom (R : F64 → F64 → F32 → Prop) (d : Dims) (e : Endian) (vs : List Coord) (bytes : List Byte) : Prop :=
  (∀ v ∈ vs, HasDims d v) ∧ vs.length < 2 ^ 32 ∧
  ∃ first mid last δs, vs = first :: (mid ++ [last]) ∧ DeltasOf R first mid δs ∧ bytes = compressedBytes e first δs last

/-- an ordinate is a finite number of magnitude at most `M` -/
def OrdUpTo (M : ℚ) (x : F64) : Prop := x.IsFinite ∧ |x.val| ≤ M

/-- x, y and z are -/
def UpTo (M : ℚ) (c : Coord) : Prop := OrdUpTo M c.x ∧ OrdUpTo M c.y ∧ ∀ z, c.z = some z → OrdUpTo M z

/-- x, y and z are off by at most `ε`, m is the same -/
def Near (ε : ℚ) (a b : Coord) : Prop :=
  |a.x.val - b.x.val| ≤ ε ∧ |a.y.val - b.y.val| ≤ ε ∧
  (match a.z, b.z with
    | some u, some v => |u.val - v.val| ≤ ε
    | none, none => True
    | _, _ => False) ∧
  a.m = b.m

/-- `got` are the vertices `vs`, the first and the last exactly, the i-th inner one up to `i * ε` -/
def ReadWithin (ε : ℚ) (vs got : List Coord) : Prop :=
  got.length = vs.length ∧ got.head? = vs.head? ∧ got.getLast? = vs.getLast? ∧
  ∀ (i : Nat) (v u : Coord), vs[i]? = some v → got[i]? = some u → Near (i * ε) u v

/-- the coordinate a call delivers -/
def evCoord : Ev → Option Coord
  | .coord x y z m _ _ _ => some { x, y, z, m }
  | .xy x y _ => some { x, y, z := none, m := none }
  | _ => none

/-- the coordinates that calls deliver -/
def coordsOf (evs : List Ev) : List Coord := evs.filterMap evCoord

/-- what a processor for `multi` dimensions gets of a coordinate -/
def seenBy (multi : Bool) (c : Coord) : Coord := if multi then c else { x := c.x, y := c.y, z := none, m := none }

end Spec
end Geozero
