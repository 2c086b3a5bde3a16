import Mathlib.Tactic.Linarith
import Mathlib.Tactic.FieldSimp
import Mathlib.Tactic.Ring
import Mathlib.Tactic.LinearCombination
import Mathlib.Algebra.Order.Field.Power
import Mathlib.Data.Finset.Max
import Mathlib.Data.Fintype.Basic
import Mathlib.Tactic.NormNum
import Mathlib.Data.Int.Log
import Mathlib.Algebra.Order.Round
import Mathlib.Order.Monotone.Basic
import Verif.Spec.Float
import Verif.Spec.Mvt
import Verif.Lemmas.F64Int

/-
Rounding to the nearest double: it is monotone, exact where it can be, and the error is at most half a unit in the last place.
-/

namespace Geozero
namespace F64

/-- the magnitude of the pattern `n` without its sign -/
def magN (n : Nat) : ℚ := (if n / 2 ^ 52 = 0 then (n % 2 ^ 52 : Nat) else (2 ^ 52 + n % 2 ^ 52 : Nat)) * 2 ^ ((max (n / 2 ^ 52) 1 : Nat) - 1075 : ℤ)

theorem mag_eq (x : F64) : x.mag = magN (x.toNat % 2 ^ 63) := by
  have h1 : x.toNat % 2 ^ 63 / 2 ^ 52 = x.bexp := by unfold bexp; omega
  have h2 : x.toNat % 2 ^ 63 % 2 ^ 52 = x.frac := by unfold frac; omega
  unfold mag magN sig
  rw [h1, h2]

theorem magN_succ (n : Nat) : magN n < magN (n + 1) := by
  unfold magN
  by_cases h : (n + 1) % 2 ^ 52 = 0
  · -- next binade
    have h1 : n % 2 ^ 52 = 2 ^ 52 - 1 := by omega
    have h2 : (n + 1) / 2 ^ 52 = n / 2 ^ 52 + 1 := by omega
    rw [h, h1, h2]
    by_cases h0 : n / 2 ^ 52 = 0
    · rw [h0]
      norm_num
    · rw [if_neg h0, if_neg (by omega)]
      have e1 : max (n / 2 ^ 52) 1 = n / 2 ^ 52 := by omega
      have e2 : max (n / 2 ^ 52 + 1) 1 = n / 2 ^ 52 + 1 := by omega
      rw [e1, e2]
      generalize n / 2 ^ 52 = k
      have : ((k + 1 : Nat) - 1075 : ℤ) = (k - 1075 : ℤ) + 1 := by push_cast; ring
      rw [this, zpow_add₀ (by norm_num)]
      have hp : (0 : ℚ) < 2 ^ ((k : ℤ) - 1075) := by positivity
      norm_num
      nlinarith
  · have h1 : (n + 1) / 2 ^ 52 = n / 2 ^ 52 := by omega
    have h2 : (n + 1) % 2 ^ 52 = n % 2 ^ 52 + 1 := by omega
    rw [h1, h2]
    have hp : (0 : ℚ) < 2 ^ ((max (n / 2 ^ 52) 1 : Nat) - 1075 : ℤ) := by positivity
    apply mul_lt_mul_of_pos_right _ hp
    split
    · push_cast; linarith
    · push_cast; linarith

theorem magN_strictMono : StrictMono magN := strictMono_nat_of_lt_succ magN_succ

theorem magN_zero : magN 0 = 0 := by norm_num [magN]

theorem mag_nonneg (x : F64) : 0 ≤ x.mag := by
  rw [mag_eq, ← magN_zero]
  exact magN_strictMono.monotone (Nat.zero_le _)

/-- equal values are equal patterns, or both zero -/
theorem val_inj {x y : F64} (h : x.val = y.val) : x = y ∨ (x.val = 0 ∧ y.val = 0) := by
  unfold val neg at h ⊢
  have hx := mag_nonneg x
  have hy := mag_nonneg y
  by_cases h1 : 2 ^ 63 ≤ x.toNat <;> by_cases h2 : 2 ^ 63 ≤ y.toNat <;>
    simp only [h1, h2, decide_true, decide_false, if_true, if_false, Bool.false_eq_true, neg_inj] at h ⊢
  · left
    rw [mag_eq, mag_eq] at h
    have := magN_strictMono.injective h
    apply BitVec.eq_of_toNat_eq
    have := x.isLt
    have := y.isLt
    omega
  · right
    have a : x.mag = 0 := by linarith
    have b : y.mag = 0 := by linarith
    exact ⟨by rw [a, neg_zero], b⟩
  · right
    have a : x.mag = 0 := by linarith
    have b : y.mag = 0 := by linarith
    exact ⟨a, by rw [b, neg_zero]⟩
  · left
    rw [mag_eq, mag_eq] at h
    have := magN_strictMono.injective h
    apply BitVec.eq_of_toNat_eq
    have := x.isLt
    have := y.isLt
    omega

/-- with the sign changed -/
def flip (x : F64) : F64 := BitVec.ofNat 64 (x.toNat % 2 ^ 63 + (if 2 ^ 63 ≤ x.toNat then 0 else 2 ^ 63))

theorem flip_toNat (x : F64) : (flip x).toNat = x.toNat % 2 ^ 63 + (if 2 ^ 63 ≤ x.toNat then 0 else 2 ^ 63) := by
  unfold flip
  rw [BitVec.toNat_ofNat]
  split <;> omega

theorem flip_finite {x : F64} (h : x.IsFinite) : (flip x).IsFinite := by
  unfold IsFinite bexp at *
  rw [flip_toNat]
  split <;> omega

theorem flip_val (x : F64) : (flip x).val = -x.val := by
  have hm : (flip x).mag = x.mag := by
    rw [mag_eq, mag_eq, flip_toNat]
    congr 1
    split <;> omega
  have hn : (flip x).neg = !x.neg := by
    unfold neg
    rw [flip_toNat]
    have := x.isLt
    by_cases h : 2 ^ 63 ≤ x.toNat
    · simp only [h, if_true, decide_true, Bool.not_true, decide_eq_false_iff_not]; omega
    · simp only [h, if_false, decide_false, Bool.not_false, decide_eq_true_eq]; omega
  unfold val
  rw [hm, hn]
  cases x.neg <;> simp

/-- a magnitude below that of infinity is the value of a finite pattern -/
theorem exists_magN {n : Nat} (h : n < 2047 * 2 ^ 52) : ∃ x : F64, x.IsFinite ∧ x.val = magN n := by
  refine ⟨BitVec.ofNat 64 n, ?_, ?_⟩
  · unfold IsFinite bexp
    rw [BitVec.toNat_ofNat]
    omega
  · unfold val neg
    rw [mag_eq, BitVec.toNat_ofNat]
    have h1 : n % 2 ^ 64 = n := by omega
    have h2 : n % 2 ^ 63 = n := by omega
    rw [h1, h2, if_neg]
    simp; omega

/-- numbers with a significand of at most 53 bits are representable -/
theorem exists_normal {m : Nat} {e : ℤ} (h1 : 2 ^ 52 ≤ m) (h2 : m < 2 ^ 53) (h3 : -1074 ≤ e) (h4 : e ≤ 971) :
    ∃ x : F64, x.IsFinite ∧ x.val = m * 2 ^ e := by
  obtain ⟨k, hk⟩ : ∃ k : Nat, (k : ℤ) = e + 1075 := ⟨(e + 1075).toNat, by omega⟩
  have hn : (k * 2 ^ 52 + (m - 2 ^ 52)) < 2047 * 2 ^ 52 := by omega
  obtain ⟨x, hx, hv⟩ := exists_magN hn
  refine ⟨x, hx, ?_⟩
  rw [hv]
  unfold magN
  have d1 : (k * 2 ^ 52 + (m - 2 ^ 52)) / 2 ^ 52 = k := by omega
  have d2 : (k * 2 ^ 52 + (m - 2 ^ 52)) % 2 ^ 52 = m - 2 ^ 52 := by omega
  have d3 : max k 1 = k := by omega
  have d4 : 2 ^ 52 + (m - 2 ^ 52) = m := by omega
  have d5 : (k : ℤ) - 1075 = e := by omega
  rw [d1, d2, d3, if_neg (by omega), d4, d5]

theorem exists_subnormal {m : Nat} (h : m ≤ 2 ^ 52) : ∃ x : F64, x.IsFinite ∧ x.val = m * 2 ^ (-1074 : ℤ) := by
  by_cases h1 : m = 2 ^ 52
  · exact exists_normal (by omega) (by omega) (by omega) (by omega)
  · obtain ⟨x, hx, hv⟩ := exists_magN (n := m) (by omega)
    refine ⟨x, hx, ?_⟩
    rw [hv]
    unfold magN
    have d1 : m / 2 ^ 52 = 0 := by omega
    have d2 : m % 2 ^ 52 = m := by omega
    rw [d1, d2]
    norm_num

/-! ### nearest numbers -/

theorem Nearest.exact {q : ℚ} {x y : F64} (h : Nearest q x) (hy : y.IsFinite) (hq : y.val = q) : x.val = q := by
  have := h.2 y hy
  rw [hq, sub_self, abs_zero] at this
  have := abs_nonpos_iff.mp this
  linarith

theorem Nearest.mono {q r : ℚ} {x y : F64} (hx : Nearest q x) (hy : Nearest r y) (h : q < r) : x.val ≤ y.val := by
  by_contra hc
  push Not at hc
  have h1 := hx.2 y hy.1
  have h2 := hy.2 x hx.1
  have s1 := sq_le_sq.mpr h1
  have s2 := sq_le_sq.mpr h2
  nlinarith

/-- there is a number as near as half a unit in the last place -/
theorem exists_close_pos {q : ℚ} (h0 : 0 ≤ q) (h : q ≤ largest) : ∃ x : F64, x.IsFinite ∧ |x.val - q| ≤ 2 ^ (-53 : ℤ) * q + 2 ^ (-1075 : ℤ) := by
  by_cases hs : q < 2 ^ (-1022 : ℤ)
  · -- subnormal
    have hr := abs_sub_round (q * 2 ^ (1074 : ℤ))
    have hb : q * 2 ^ (1074 : ℤ) < 2 ^ 52 := by
      calc q * 2 ^ (1074 : ℤ) < 2 ^ (-1022 : ℤ) * 2 ^ (1074 : ℤ) := by
            apply mul_lt_mul_of_pos_right hs; positivity
        _ = 2 ^ 52 := by rw [← zpow_add₀ (by norm_num)]; norm_num
    have hb0 : 0 ≤ q * 2 ^ (1074 : ℤ) := by positivity
    have r0 : 0 ≤ round (q * 2 ^ (1074 : ℤ)) := by
      have := (abs_le.mp hr).2
      generalize q * 2 ^ (1074 : ℤ) = t at *
      have h1 : (-1 : ℚ) < (round t : ℚ) := by linarith
      have h2 : (-1 : ℤ) < round t := by exact_mod_cast h1
      omega
    have r1 : round (q * 2 ^ (1074 : ℤ)) ≤ 2 ^ 52 := by
      have := (abs_le.mp hr).1
      generalize q * 2 ^ (1074 : ℤ) = t at *
      have h1 : (round t : ℚ) < 2 ^ 52 + 1 := by linarith
      have h2 : round t < 2 ^ 52 + 1 := by exact_mod_cast h1
      omega
    generalize round (q * 2 ^ (1074 : ℤ)) = r at hr r0 r1
    obtain ⟨m, rfl⟩ := Int.eq_ofNat_of_zero_le r0
    obtain ⟨x, hx, hv⟩ := exists_subnormal (m := m) (by omega)
    refine ⟨x, hx, ?_⟩
    rw [hv]
    have e1 : (m : ℚ) * 2 ^ (-1074 : ℤ) - q = -((q * 2 ^ (1074 : ℤ) - m) * 2 ^ (-1074 : ℤ)) := by
      have : q = q * 2 ^ (1074 : ℤ) * 2 ^ (-1074 : ℤ) := by rw [mul_assoc, ← zpow_add₀ (by norm_num)]; norm_num
      linear_combination -this
    rw [e1, abs_neg, abs_mul, abs_of_pos (by positivity : (0 : ℚ) < 2 ^ (-1074 : ℤ))]
    have e2 : (2 : ℚ) ^ (-1075 : ℤ) = 1 / 2 * 2 ^ (-1074 : ℤ) := by
      rw [show (-1075 : ℤ) = -1074 + -1 by norm_num, zpow_add₀ (by norm_num)]; norm_num [mul_comm]
    rw [e2]
    have : (0 : ℚ) ≤ 2 ^ (-53 : ℤ) * q := by positivity
    have h3 : |q * 2 ^ (1074 : ℤ) - (m : ℚ)| * 2 ^ (-1074 : ℤ) ≤ 1 / 2 * 2 ^ (-1074 : ℤ) := by
      apply mul_le_mul_of_nonneg_right _ (by positivity)
      exact_mod_cast hr
    exact le_trans h3 (le_add_of_nonneg_left this)
  · push Not at hs
    have hq : 0 < q := lt_of_lt_of_le (by positivity) hs
    -- the binade
    have k1 := Int.zpow_log_le_self (b := 2) (by norm_num) hq
    have k2 := Int.lt_zpow_succ_log_self (b := 2) (by norm_num) q
    push_cast at k1 k2
    have k3 : -1022 ≤ Int.log 2 q := by
      rw [← Int.log_zpow (R := ℚ) (b := 2) (by norm_num) (-1022)]
      exact Int.log_mono_right (by positivity) (by exact_mod_cast hs)
    have k4 : Int.log 2 q ≤ 1023 := by
      by_contra hc
      push Not at hc
      have : (2 : ℚ) ^ (1024 : ℤ) ≤ q := le_trans (zpow_le_zpow_right₀ (by norm_num) (by omega)) k1
      have h2 : largest < 2 ^ (1024 : ℤ) := by
        unfold largest
        rw [show (1024 : ℤ) = 53 + 971 by norm_num, zpow_add₀ (by norm_num)]
        apply mul_lt_mul_of_pos_right _ (by positivity)
        norm_num
      linarith
    generalize Int.log 2 q = k at k1 k2 k3 k4
    have hr := abs_sub_round (q * 2 ^ (52 - k))
    have b1 : (2 : ℚ) ^ 52 ≤ q * 2 ^ (52 - k) := by
      calc (2 : ℚ) ^ 52 = 2 ^ k * 2 ^ (52 - k) := by rw [← zpow_add₀ (by norm_num)]; norm_num
        _ ≤ q * 2 ^ (52 - k) := mul_le_mul_of_nonneg_right k1 (by positivity)
    have b2 : q * 2 ^ (52 - k) < 2 ^ 53 := by
      calc q * 2 ^ (52 - k) < 2 ^ (k + 1) * 2 ^ (52 - k) := mul_lt_mul_of_pos_right k2 (by positivity)
        _ = 2 ^ 53 := by rw [← zpow_add₀ (by norm_num), show k + 1 + (52 - k) = 53 by ring]; norm_num
    have r1 : (2 : ℤ) ^ 52 ≤ round (q * 2 ^ (52 - k)) := by
      have := (abs_le.mp hr).2
      have h1 : (2 ^ 52 - 1 : ℚ) < (round (q * 2 ^ (52 - k)) : ℚ) := by linarith
      have h2 : (2 : ℤ) ^ 52 - 1 < round (q * 2 ^ (52 - k)) := by exact_mod_cast h1
      omega
    have r2 : round (q * 2 ^ (52 - k)) ≤ 2 ^ 53 := by
      have := (abs_le.mp hr).1
      have h1 : (round (q * 2 ^ (52 - k)) : ℚ) < 2 ^ 53 + 1 := by linarith
      have h2 : round (q * 2 ^ (52 - k)) < 2 ^ 53 + 1 := by exact_mod_cast h1
      omega
    have r3 : k = 1023 → round (q * 2 ^ (52 - k)) < 2 ^ 53 := by
      rintro rfl
      have : q * 2 ^ (52 - 1023 : ℤ) ≤ 2 ^ 53 - 1 := by
        calc q * 2 ^ (52 - 1023 : ℤ) ≤ largest * 2 ^ (52 - 1023 : ℤ) := mul_le_mul_of_nonneg_right h (by positivity)
          _ = 2 ^ 53 - 1 := by
            unfold largest
            rw [mul_assoc, ← zpow_add₀ (by norm_num)]
            norm_num
      have h2 := (abs_le.mp hr).1
      generalize q * 2 ^ (52 - 1023 : ℤ) = t at *
      have h1 : (round t : ℚ) < 2 ^ 53 := by linarith
      exact_mod_cast h1
    generalize round (q * 2 ^ (52 - k)) = r at hr r1 r2 r3
    obtain ⟨m, rfl⟩ := Int.eq_ofNat_of_zero_le (show 0 ≤ r by omega)
    have hx : ∃ x : F64, x.IsFinite ∧ x.val = m * 2 ^ (k - 52) := by
      by_cases hm : m = 2 ^ 53
      · have hk : k ≠ 1023 := fun hk => by have := r3 hk; omega
        obtain ⟨x, hx, hv⟩ := exists_normal (m := 2 ^ 52) (e := k - 51) (by omega) (by omega) (by omega) (by omega)
        refine ⟨x, hx, ?_⟩
        rw [hv, hm, show k - 51 = (k - 52) + 1 by ring, zpow_add₀ (by norm_num)]
        push_cast
        ring
      · exact exists_normal (by omega) (by omega) (by omega) (by omega)
    obtain ⟨x, hx, hv⟩ := hx
    refine ⟨x, hx, ?_⟩
    rw [hv]
    have e1 : (m : ℚ) * 2 ^ (k - 52) - q = -((q * 2 ^ (52 - k) - m) * 2 ^ (k - 52)) := by
      have : q = q * 2 ^ (52 - k) * 2 ^ (k - 52) := by rw [mul_assoc, ← zpow_add₀ (by norm_num)]; norm_num
      linear_combination -this
    rw [e1, abs_neg, abs_mul, abs_of_pos (by positivity : (0 : ℚ) < 2 ^ (k - 52))]
    have h3 : |q * 2 ^ (52 - k) - (m : ℚ)| * 2 ^ (k - 52) ≤ 1 / 2 * 2 ^ (k - 52) := by
      apply mul_le_mul_of_nonneg_right _ (by positivity)
      exact_mod_cast hr
    have h4 : (1 : ℚ) / 2 * 2 ^ (k - 52) ≤ 2 ^ (-53 : ℤ) * q := by
      calc (1 : ℚ) / 2 * 2 ^ (k - 52) = 2 ^ (-53 : ℤ) * 2 ^ k := by
            rw [show k - 52 = (-52 : ℤ) + k by ring, zpow_add₀ (by norm_num), ← mul_assoc]
            congr 1
            norm_num
        _ ≤ 2 ^ (-53 : ℤ) * q := mul_le_mul_of_nonneg_left k1 (by positivity)
    have h5 : (0 : ℚ) < 2 ^ (-1075 : ℤ) := by positivity
    exact le_trans (le_trans h3 h4) (le_add_of_nonneg_right h5.le)

theorem exists_close {q : ℚ} (h : |q| ≤ largest) : ∃ x : F64, x.IsFinite ∧ |x.val - q| ≤ 2 ^ (-53 : ℤ) * |q| + 2 ^ (-1075 : ℤ) := by
  rcases le_total 0 q with h0 | h0
  · rw [abs_of_nonneg h0] at h ⊢
    exact exists_close_pos h0 h
  · rw [abs_of_nonpos h0] at h ⊢
    obtain ⟨x, hx, hv⟩ := exists_close_pos (q := -q) (by linarith) h
    refine ⟨flip x, flip_finite hx, ?_⟩
    rw [flip_val, show -x.val - q = -(x.val - -q) by ring, abs_neg]
    exact hv

/-- the error of rounding -/
theorem Nearest.error {q : ℚ} {x : F64} (h : Nearest q x) (hq : |q| ≤ largest) :
    |x.val - q| ≤ 2 ^ (-53 : ℤ) * |q| + 2 ^ (-1075 : ℤ) := by
  obtain ⟨y, hy, hv⟩ := exists_close hq
  exact le_trans (h.2 y hy) hv

/-- rounding has a result -/
theorem exists_nearest (q : ℚ) : ∃ x, Nearest q x := by
  classical
  obtain ⟨x, hx, h⟩ := Finset.exists_min_image (Finset.univ.filter fun x : Fin (2 ^ 64) => F64.IsFinite (BitVec.ofFin x))
    (fun x => |F64.val (BitVec.ofFin x) - q|) ⟨0, by rw [Finset.mem_filter]; exact ⟨Finset.mem_univ _, by unfold IsFinite; decide⟩⟩
  refine ⟨BitVec.ofFin x, (Finset.mem_filter.mp hx).2, fun y hy => ?_⟩
  have := h y.toFin (by simp; exact hy)
  exact this

/-! ### integers -/

theorem isInt_iff (x : F64) (n : ℤ) : x.IsInt n ↔ x.IsFinite ∧ x.val = n := by
  have hm : ∀ k : Nat, x.sig * 2 ^ (max x.bexp 1) = k * 2 ^ 1075 ↔ x.mag = k := by
    intro k
    unfold mag
    rw [zpow_sub₀ (by norm_num), zpow_natCast, ← mul_div_assoc, div_eq_iff (by positivity), show (1075 : ℤ) = (1075 : ℕ) by rfl,
      zpow_natCast]
    generalize max x.bexp 1 = a
    generalize (1075 : ℕ) = b
    constructor
    · intro h; exact_mod_cast h
    · intro h; exact_mod_cast h
  unfold IsInt IsFinite val
  rw [hm]
  have h0 := mag_nonneg x
  constructor
  · rintro ⟨h1, h2, h3⟩
    refine ⟨h1, ?_⟩
    cases hn : x.neg
    · simp only [hn, Bool.false_eq_true, if_false] at h3 ⊢
      rw [h2]
      have : ((n.natAbs : ℤ) : ℚ) = n := by rw [Int.natAbs_of_nonneg h3]
      exact (Int.cast_natCast _).symm.trans this
    · simp only [hn, if_true] at h3 ⊢
      rw [h2]
      have : ((n.natAbs : ℤ) : ℚ) = -n := by rw [Int.ofNat_natAbs_of_nonpos h3]; push_cast; rfl
      have h4 : (n.natAbs : ℚ) = -n := (Int.cast_natCast _).symm.trans this
      rw [h4, neg_neg]
  · rintro ⟨h1, h2⟩
    cases hn : x.neg
    · simp only [hn, Bool.false_eq_true, if_false] at h2 ⊢
      have h3 : 0 ≤ n := by
        have : (0 : ℚ) ≤ n := by rw [← h2]; exact h0
        exact_mod_cast this
      refine ⟨h1, ?_, h3⟩
      rw [h2]
      have : ((n.natAbs : ℤ) : ℚ) = n := by rw [Int.natAbs_of_nonneg h3]
      exact ((Int.cast_natCast _).symm.trans this).symm
    · simp only [hn, if_true] at h2 ⊢
      have h3 : n ≤ 0 := by
        have : (n : ℚ) ≤ 0 := by rw [← h2]; linarith
        exact_mod_cast this
      refine ⟨h1, ?_, h3⟩
      have : ((n.natAbs : ℤ) : ℚ) = -n := by rw [Int.ofNat_natAbs_of_nonpos h3]; push_cast; rfl
      have h4 : (n.natAbs : ℚ) = -n := (Int.cast_natCast _).symm.trans this
      rw [h4, ← h2, neg_neg]

theorem exists_int_of_lt {n : Nat} (h : n < 2 ^ 53) : ∃ x : F64, x.IsFinite ∧ x.val = n := by
  by_cases h0 : n = 0
  · exact ⟨0#64, by unfold IsFinite; decide, by subst h0; norm_num [val, mag, sig, frac, bexp, neg]⟩
  · have l1 := Nat.log2_self_le h0
    have l2 := Nat.lt_log2_self (n := n)
    have l3 : n.log2 < 53 := (Nat.log2_lt h0).mpr h
    obtain ⟨x, hx, hv⟩ := exists_normal (m := n * 2 ^ (52 - n.log2)) (e := -((52 - n.log2 : Nat) : ℤ))
      (by
        calc 2 ^ 52 = 2 ^ n.log2 * 2 ^ (52 - n.log2) := by rw [← pow_add]; congr 1; omega
          _ ≤ n * 2 ^ (52 - n.log2) := Nat.mul_le_mul_right _ l1)
      (by
        calc n * 2 ^ (52 - n.log2) < 2 ^ (n.log2 + 1) * 2 ^ (52 - n.log2) := Nat.mul_lt_mul_of_pos_right l2 (by positivity)
          _ = 2 ^ 53 := by rw [← pow_add]; congr 1; omega) (by omega) (by omega)
    refine ⟨x, hx, ?_⟩
    rw [hv]
    push_cast
    rw [mul_assoc, ← zpow_natCast (2 : ℚ), ← zpow_add₀ (by norm_num), add_neg_cancel, zpow_zero, mul_one]

/-- a finite number has an integral floor that is a number -/
theorem exists_floor (x : F64) (hx : x.IsFinite) : ∃ y : F64, y.IsFinite ∧ y.val = ⌊x.val⌋ := by
  by_cases hb : 1075 ≤ x.bexp
  · refine ⟨x, hx, ?_⟩
    have hm : x.mag = ((x.sig * 2 ^ (x.bexp - 1075) : Nat) : ℤ) := by
      unfold mag
      rw [show ((max x.bexp 1 : Nat) - 1075 : ℤ) = ((x.bexp - 1075 : Nat) : ℤ) by omega, zpow_natCast]
      push_cast
      rfl
    unfold val
    rw [hm]
    split
    · rw [← Int.cast_neg, Int.floor_intCast]
    · rw [Int.floor_intCast]
  · have hs : x.sig < 2 ^ 53 := by unfold sig frac; split <;> omega
    have hm : x.mag ≤ 2 ^ 52 := by
      unfold mag
      calc (x.sig : ℚ) * 2 ^ ((max x.bexp 1 : Nat) - 1075 : ℤ) ≤ 2 ^ 53 * 2 ^ (-1 : ℤ) := by
            apply mul_le_mul
            · exact_mod_cast hs.le
            · exact zpow_le_zpow_right₀ (by norm_num) (by omega)
            · positivity
            · positivity
        _ = 2 ^ 52 := by norm_num
    have hm0 := mag_nonneg x
    have h1 : -(2 ^ 52 : ℤ) ≤ ⌊x.val⌋ := by
      rw [Int.le_floor]
      push_cast
      unfold val
      split <;> linarith
    have h2 : ⌊x.val⌋ ≤ (2 ^ 52 : ℤ) := by
      have : ((⌊x.val⌋ : ℤ) : ℚ) ≤ 2 ^ 52 := by
        refine le_trans (Int.floor_le _) ?_
        unfold val
        split <;> linarith
      exact_mod_cast this
    generalize ⌊x.val⌋ = n at h1 h2
    rcases le_total 0 n with h0 | h0
    · obtain ⟨m, rfl⟩ := Int.eq_ofNat_of_zero_le h0
      obtain ⟨y, hy, hv⟩ := exists_int_of_lt (n := m) (by omega)
      exact ⟨y, hy, by rw [hv, Int.cast_natCast]⟩
    · obtain ⟨m, hm⟩ := Int.eq_ofNat_of_zero_le (show 0 ≤ -n by omega)
      obtain ⟨y, hy, hv⟩ := exists_int_of_lt (n := m) (by omega)
      refine ⟨flip y, flip_finite hy, ?_⟩
      rw [flip_val, hv, show n = -(m : ℤ) by omega]
      push_cast
      rfl

end F64

/-- there is arithmetic as IEEE 754 demands -/
theorem exists_ieee : ∃ ar : FArith, ar.Ieee := by
  choose r hr using F64.exists_nearest
  classical
  refine ⟨{ sub := fun x y => r (x.val - y.val), mul := fun x y => r (x.val * y.val), div := fun x y => r (x.val / y.val)
            floor := fun x => if h : x.IsFinite then (F64.exists_floor x h).choose else x
            ofU32 := fun n => r n }, ?_⟩
  refine ⟨fun _ _ _ _ _ => hr _, fun _ _ _ _ _ => hr _, fun _ _ _ _ _ _ => hr _, ?_, ?_⟩
  · intro x h
    simp only [h, dif_pos]
    exact (F64.exists_floor x h).choose_spec
  · intro n hn
    obtain ⟨y, hy, hv⟩ := F64.exists_int_of_lt (n := n) (by omega)
    exact ⟨(hr n).1, (hr n).exact hy hv⟩

namespace F64

end F64
end Geozero
