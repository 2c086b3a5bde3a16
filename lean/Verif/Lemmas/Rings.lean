import Verif.Spec.GeoTypes

/- Helper lemmas for rings: comparison of doubles in the model is comparison of numbers. -/

namespace Geozero

private def u (n : Nat) : Nat := if n / 2 ^ 52 = 0 then n % 2 ^ 52 else (2 ^ 52 + n % 2 ^ 52) * 2 ^ (n / 2 ^ 52 - 1)

private theorem u_succ (n : Nat) : u n < u (n + 1) := by
  unfold u
  by_cases hf : n % 2 ^ 52 + 1 < 2 ^ 52
  · have h1 : (n + 1) / 2 ^ 52 = n / 2 ^ 52 := by omega
    have h2 : (n + 1) % 2 ^ 52 = n % 2 ^ 52 + 1 := by omega
    rw [h1, h2]
    split
    · omega
    · exact Nat.mul_lt_mul_of_pos_right (by omega) (Nat.two_pow_pos _)
  · have h1 : (n + 1) / 2 ^ 52 = n / 2 ^ 52 + 1 := by omega
    have h2 : (n + 1) % 2 ^ 52 = 0 := by omega
    rw [h1, h2, if_neg (show ¬ n / 2 ^ 52 + 1 = 0 by omega)]
    generalize hk : n / 2 ^ 52 = k at *
    by_cases h0 : k = 0
    · rw [if_pos h0, h0]
      simp only [Nat.zero_add, Nat.sub_self, Nat.pow_zero, Nat.mul_one, Nat.add_zero]
      exact Nat.mod_lt _ (by decide)
    · rw [if_neg h0]
      obtain ⟨k', rfl⟩ : ∃ k', k = k' + 1 := ⟨k - 1, by omega⟩
      have hlt : n % 2 ^ 52 < 2 ^ 52 := Nat.mod_lt _ (by decide)
      have h4 : (2 ^ 52 + n % 2 ^ 52) * 2 ^ k' < (2 ^ 52 + 2 ^ 52) * 2 ^ k' :=
        Nat.mul_lt_mul_of_pos_right (by omega) (Nat.two_pow_pos _)
      have h5 : (2 ^ 52 + 2 ^ 52) * 2 ^ k' = (2 ^ 52 + 0) * 2 ^ (k' + 1) := by
        rw [Nat.pow_succ 2 k']; omega
      simp only [Nat.add_sub_cancel]
      omega

private theorem u_mono {m n : Nat} (h : m < n) : u m < u n := by
  induction n with
  | zero => omega
  | succ n ih =>
    by_cases h' : m = n
    · subst h'; exact u_succ m
    · exact Nat.lt_trans (ih (by omega)) (u_succ n)

private theorem u_inj {m n : Nat} (h : u m = u n) : m = n := by
  rcases Nat.lt_trichotomy m n with h' | h' | h'
  · have := u_mono h'; omega
  · exact h'
  · have := u_mono h'; omega

private theorem units_eq (x : F64) : x.units = u (x.toNat % 2 ^ 63) := by
  have hx := x.isLt
  have h1 : x.toNat % 2 ^ 63 / 2 ^ 52 = x.toNat / 2 ^ 52 % 2 ^ 11 := by omega
  have h2 : x.toNat % 2 ^ 63 % 2 ^ 52 = x.toNat % 2 ^ 52 := by omega
  simp only [F64.units, u, h1, h2]

private theorem isNaN_iff (x : F64) : x.isNaN = true ↔ x.NotNumber := by
  have hx := x.isLt
  simp only [F64.isNaN, decide_eq_true_eq, F64.NotNumber]
  omega

/-- the model compares numbers -/
theorem F64.feq_iff (a b : F64) : a.feq b = true ↔ a.Same b := by
  have ha := a.isLt
  have hb := b.isLt
  have h0 : u 0 = 0 := by simp [u]
  simp only [F64.feq, Bool.and_eq_true, Bool.not_eq_true', Bool.or_eq_true, beq_iff_eq, F64.Same, ← isNaN_iff, Bool.not_eq_true, F64.number,
    units_eq, and_assoc]
  refine and_congr_right fun _ => and_congr_right fun _ => ?_
  constructor
  · rintro (rfl | ⟨h1, h2⟩)
    · rfl
    · rw [h1, h2, h0]
      split <;> split <;> rfl
  · intro h
    have hz : ∀ n, u n = 0 → n = 0 := fun n h => u_inj (by rw [h, h0])
    split at h <;> split at h
    · left
      have := u_inj (Int.ofNat_inj.mp h)
      exact BitVec.eq_of_toNat_eq (by omega)
    · right
      exact ⟨hz _ (by omega), hz _ (by omega)⟩
    · right
      exact ⟨hz _ (by omega), hz _ (by omega)⟩
    · left
      have := u_inj (Int.ofNat_inj.mp (Int.neg_inj.mp h))
      exact BitVec.eq_of_toNat_eq (by omega)

theorem XY.feq_iff (a b : XY) : a.feq b = true ↔ a.Same b := by
  simp [XY.feq, XY.Same, F64.feq_iff]

theorem closeRing_eq (r : List XY) : closeRing r = closedUp XY.Same r := by
  cases r with
  | nil => rfl
  | cons c r =>
    have hl : (c :: r).getLast? = some ((c :: r).getLast (by simp)) := List.getLast?_eq_some_getLast _
    simp only [closeRing, closedUp, List.head?_cons, hl, Option.getD_some, XY.feq_iff]

theorem closedUp_of_closes {α : Type} (same : α → α → Prop) [∀ a b, Decidable (same a b)] {r : List α} (h : Closes same r) :
    closedUp same r = r := by
  unfold closedUp
  split
  · rename_i a b h1 h2
    rw [if_pos (h a h1 b h2)]
  · rfl

theorem rectPolygon_eq (mn mx : XY) : rectPolygon mn mx = { exterior := rectRing mn mx, interiors := [] } := by
  simp [rectPolygon, GPoly.new, closeRing_eq, rectRing]

theorem trianglePolygon_eq (a b c : XY) : trianglePolygon a b c = { exterior := triangleRing a b c, interiors := [] } := by
  simp [trianglePolygon, GPoly.new, closeRing_eq, triangleRing]

end Geozero
