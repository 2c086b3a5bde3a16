import Verif.Spec.Float
import Verif.Spec.WkbSpatialite

/-
Single precision numbers, their values, and the arithmetic used for compressed SpatiaLite geometries.
-/

namespace Geozero

/-- the bit pattern of an `f32` -/
abbrev F32 := BitVec 32

namespace F32

/-- biased exponent -/
def bexp (x : F32) : Nat := x.toNat / 2 ^ 23 % 2 ^ 8

/-- the 23 stored bits of the significand -/
def frac (x : F32) : Nat := x.toNat % 2 ^ 23

/-- the significand with its implicit bit -/
def sig (x : F32) : Nat := if bexp x = 0 then frac x else 2 ^ 23 + frac x

/-- sign bit -/
def neg (x : F32) : Bool := decide (2 ^ 31 ≤ x.toNat)

/-- neither infinite nor NaN -/
def IsFinite (x : F32) : Prop := x.bexp ≠ 255

/-- the magnitude: significand times a power of two -/
def mag (x : F32) : ℚ := x.sig * 2 ^ ((max x.bexp 1 : Nat) - 150 : ℤ)

/-- the value of a finite pattern -/
def val (x : F32) : ℚ := if x.neg then -x.mag else x.mag

/-- the largest finite value -/
def largest : ℚ := (2 ^ 24 - 1) * 2 ^ (104 : ℤ)

/-- `x` is a finite number nearest to `q` -/
def Nearest (q : ℚ) (x : F32) : Prop := x.IsFinite ∧ ∀ y : F32, y.IsFinite → |x.val - q| ≤ |y.val - q|

end F32

/-- The operations of IEEE 754: `f64::from(f32)` is exact, addition rounds to nearest (nothing is said about ties and overflow). -/
structure FOps.Ieee (fo : FOps) : Prop where
  of32 : ∀ x : F32, x.IsFinite → (fo.of32 x).IsFinite ∧ (fo.of32 x).val = x.val
  add : ∀ x y : F64, x.IsFinite → y.IsFinite → |x.val + y.val| ≤ F64.largest → F64.Nearest (x.val + y.val) (fo.add x y)

end Geozero
