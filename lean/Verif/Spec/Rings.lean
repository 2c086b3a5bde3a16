import Verif.Model.Basic

/-
Numbers of IEEE-754 patterns, and closing rings.
-/

namespace Geozero

/-- the magnitude of a double in units of 2^-1074 (IEEE-754, 3.4): eleven bits of exponent, 52 bits of fraction, subnormal below
exponent one.  Infinity comes out as the number after the greatest double. -/
def F64.units (x : F64) : Nat :=
  let e := x.toNat / 2 ^ 52 % 2 ^ 11
  let f := x.toNat % 2 ^ 52
  if e = 0 then f else (2 ^ 52 + f) * 2 ^ (e - 1)

/-- the number a double stands for, in units of 2^-1074; the highest bit is the sign -/
def F64.number (x : F64) : Int := if x.toNat / 2 ^ 63 = 0 then x.units else -(x.units : Int)

/-- not a number: exponent 2047 with a fraction -/
def F64.NotNumber (x : F64) : Prop := x.toNat / 2 ^ 52 % 2 ^ 11 = 2047 ∧ x.toNat % 2 ^ 52 ≠ 0

/-- two doubles are the same number: neither is NaN, the numbers are equal (so the two zeros are the same) -/
def F64.Same (x y : F64) : Prop := ¬ x.NotNumber ∧ ¬ y.NotNumber ∧ x.number = y.number

instance (x : F64) : Decidable x.NotNumber := inferInstanceAs (Decidable (_ ∧ _))
instance (x y : F64) : Decidable (x.Same y) := inferInstanceAs (Decidable (_ ∧ _))

/-- the ring ends where it starts -/
def Closes {α : Type} (same : α → α → Prop) (r : List α) : Prop := ∀ a ∈ r.head?, ∀ b ∈ r.getLast?, same b a

instance {α : Type} (same : α → α → Prop) [∀ a b, Decidable (same a b)] (r : List α) : Decidable (Closes same r) :=
  inferInstanceAs (Decidable (∀ a ∈ r.head?, ∀ b ∈ r.getLast?, same b a))

/-- the ring, with its first point once more at the end unless it ends where it starts -/
def closedUp {α : Type} (same : α → α → Prop) [∀ a b, Decidable (same a b)] (r : List α) : List α :=
  match r.head?, r.getLast? with
  | some a, some b => if same b a then r else r ++ [a]
  | _, _ => r

end Geozero
