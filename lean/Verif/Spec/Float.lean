import Mathlib.Data.Rat.Floor
import Mathlib.Tactic.Positivity
import Verif.Model.Mvt

/-
What the bits of an `f64` mean as a rational number, and what arithmetic has to do to be that of IEEE 754.
-/

namespace Geozero

namespace F64

/-- neither infinite nor NaN -/
def IsFinite (x : F64) : Prop := x.bexp ≠ 2047

/-- the magnitude: significand times a power of two -/
def mag (x : F64) : ℚ := x.sig * 2 ^ ((max x.bexp 1 : Nat) - 1075 : ℤ)

/-- the value of a finite pattern -/
def val (x : F64) : ℚ := if x.neg then -x.mag else x.mag

/-- the largest finite value -/
def largest : ℚ := (2 ^ 53 - 1) * 2 ^ (971 : ℤ)

/-- `x` is a finite number nearest to `q` (one of them if there are two: nothing is said about ties) -/
def Nearest (q : ℚ) (x : F64) : Prop := x.IsFinite ∧ ∀ y : F64, y.IsFinite → |x.val - q| ≤ |y.val - q|

end F64

/-- Arithmetic as IEEE 754 demands (round to nearest; how ties are broken and what happens when the result is too large is left
open): the result of an operation is a number nearest to the exact result; `floor` and the conversion of integers are exact. -/
structure FArith.Ieee (ar : FArith) : Prop where
  sub : ∀ x y : F64, x.IsFinite → y.IsFinite → |x.val - y.val| ≤ F64.largest → F64.Nearest (x.val - y.val) (ar.sub x y)
  mul : ∀ x y : F64, x.IsFinite → y.IsFinite → |x.val * y.val| ≤ F64.largest → F64.Nearest (x.val * y.val) (ar.mul x y)
  div : ∀ x y : F64, x.IsFinite → y.IsFinite → y.val ≠ 0 → |x.val / y.val| ≤ F64.largest →
    F64.Nearest (x.val / y.val) (ar.div x y)
  floor : ∀ x : F64, x.IsFinite → (ar.floor x).IsFinite ∧ (ar.floor x).val = ⌊x.val⌋
  ofU32 : ∀ n : Nat, n < 2 ^ 32 → (ar.ofU32 n).IsFinite ∧ (ar.ofU32 n).val = n

end Geozero
