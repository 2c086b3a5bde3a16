import Verif.Lemmas.Float
import Verif.Spec.Float32

/-
Rounding to the nearest single precision number, as in Lemmas/Float.lean.
-/

namespace Geozero
namespace F32

/-- the magnitude of the pattern `n` without its sign -/
def magN (n : Nat) : ℚ := (if n / 2 ^ 23 = 0 then (n % 2 ^ 23 : Nat) else (2 ^ 23 + n % 2 ^ 23 : Nat)) * 2 ^ ((max (n / 2 ^ 23) 1 : Nat) - 150 : ℤ)

theorem mag_eq (x : F32) : x.mag = magN (x.toNat % 2 ^ 31) := by
  have h1 : x.toNat % 2 ^ 31 / 2 ^ 23 = x.bexp := by unfold bexp; omega
  have h2 : x.toNat % 2 ^ 31 % 2 ^ 23 = x.frac := by unfold frac; omega
  unfold mag magN sig
  rw [h1, h2]

theorem magN_succ (n : Nat) : magN n < magN (n + 1) := by
  unfold magN
  by_cases h : (n + 1) % 2 ^ 23 = 0
  · -- next binade
    have h1 : n % 2 ^ 23 = 2 ^ 23 - 1 := by omega
    have h2 : (n + 1) / 2 ^ 23 = n / 2 ^ 23 + 1 := by omega
    rw [h, h1, h2]
    by_cases h0 : n / 2 ^ 23 = 0
    · rw [h0]
      norm_num
    · rw [if_neg h0, if_neg (by omega)]
      have e1 : max (n / 2 ^ 23) 1 = n / 2 ^ 23 := by omega
      have e2 : max (n / 2 ^ 23 + 1) 1 = n / 2 ^ 23 + 1 := by omega
      rw [e1, e2]
      generalize n / 2 ^ 23 = k
      have : ((k + 1 : Nat) - 150 : ℤ) = (k - 150 : ℤ) + 1 := by push_cast; ring
      rw [this, zpow_add₀ (by norm_num)]
      have hp : (0 : ℚ) < 2 ^ ((k : ℤ) - 150) := by positivity
      norm_num
      nlinarith
  · have h1 : (n + 1) / 2 ^ 23 = n / 2 ^ 23 := by omega
    have h2 : (n + 1) % 2 ^ 23 = n % 2 ^ 23 + 1 := by omega
    rw [h1, h2]
    have hp : (0 : ℚ) < 2 ^ ((max (n / 2 ^ 23) 1 : Nat) - 150 : ℤ) := by positivity
    apply mul_lt_mul_of_pos_right _ hp
    split
    · push_cast; linarith
    · push_cast; linarith

theorem magN_strictMono : StrictMono magN := strictMono_nat_of_lt_succ magN_succ

theorem magN_zero : magN 0 = 0 := by norm_num [magN]

theorem mag_nonneg (x : F32) : 0 ≤ x.mag := by
  rw [mag_eq, ← magN_zero]
  exact magN_strictMono.monotone (Nat.zero_le _)

/-- equal values are equal patterns, or both zero -/
theorem val_inj {x y : F32} (h : x.val = y.val) : x = y ∨ (x.val = 0 ∧ y.val = 0) := by
  unfold val neg at h ⊢
  have hx := mag_nonneg x
  have hy := mag_nonneg y
  by_cases h1 : 2 ^ 31 ≤ x.toNat <;> by_cases h2 : 2 ^ 31 ≤ y.toNat <;>
    simp only [h1, h2, decide_true, decide_false, if_true, if_false, Bool.false_eq_true, neg_inj] at h ⊢
  · left
    rw [mag_eq, mag_eq] at h
    have := magN_strictMono.injective h
    apply BitVec.eq_of_toNat_eq
    have := x.isLt
    have := y.isLt
    omega
  · right
    have a : x.mag = 0 := by linarith
    have b : y.mag = 0 := by linarith
    exact ⟨by rw [a, neg_zero], b⟩
  · right
    have a : x.mag = 0 := by linarith
    have b : y.mag = 0 := by linarith
    exact ⟨a, by rw [b, neg_zero]⟩
  · left
    rw [mag_eq, mag_eq] at h
    have := magN_strictMono.injective h
    apply BitVec.eq_of_toNat_eq
    have := x.isLt
    have := y.isLt
    omega

/-- with the sign changed -/
def flip (x : F32) : F32 := BitVec.ofNat 32 (x.toNat % 2 ^ 31 + (if 2 ^ 31 ≤ x.toNat then 0 else 2 ^ 31))

theorem flip_toNat (x : F32) : (flip x).toNat = x.toNat % 2 ^ 31 + (if 2 ^ 31 ≤ x.toNat then 0 else 2 ^ 31) := by
  unfold flip
  rw [BitVec.toNat_ofNat]
  split <;> omega

theorem flip_finite {x : F32} (h : x.IsFinite) : (flip x).IsFinite := by
  unfold IsFinite bexp at *
  rw [flip_toNat]
  split <;> omega

theorem flip_val (x : F32) : (flip x).val = -x.val := by
  have hm : (flip x).mag = x.mag := by
    rw [mag_eq, mag_eq, flip_toNat]
    congr 1
    split <;> omega
  have hn : (flip x).neg = !x.neg := by
    unfold neg
    rw [flip_toNat]
    have := x.isLt
    by_cases h : 2 ^ 31 ≤ x.toNat
    · simp only [h, if_true, decide_true, Bool.not_true, decide_eq_false_iff_not]; omega
    · simp only [h, if_false, decide_false, Bool.not_false, decide_eq_true_eq]; omega
  unfold val
  rw [hm, hn]
  cases x.neg <;> simp

/-- a magnitude below that of infinity is the value of a finite pattern -/
theorem exists_magN {n : Nat} (h : n < 255 * 2 ^ 23) : ∃ x : F32, x.IsFinite ∧ x.val = magN n := by
  refine ⟨BitVec.ofNat 32 n, ?_, ?_⟩
  · unfold IsFinite bexp
    rw [BitVec.toNat_ofNat]
    omega
  · unfold val neg
    rw [mag_eq, BitVec.toNat_ofNat]
    have h1 : n % 2 ^ 32 = n := by omega
    have h2 : n % 2 ^ 31 = n := by omega
    rw [h1, h2, if_neg]
    simp; omega

/-- numbers with a significand of at most 24 bits are representable -/
theorem exists_normal {m : Nat} {e : ℤ} (h1 : 2 ^ 23 ≤ m) (h2 : m < 2 ^ 24) (h3 : -149 ≤ e) (h4 : e ≤ 104) :
    ∃ x : F32, x.IsFinite ∧ x.val = m * 2 ^ e := by
  obtain ⟨k, hk⟩ : ∃ k : Nat, (k : ℤ) = e + 150 := ⟨(e + 150).toNat, by omega⟩
  have hn : (k * 2 ^ 23 + (m - 2 ^ 23)) < 255 * 2 ^ 23 := by omega
  obtain ⟨x, hx, hv⟩ := exists_magN hn
  refine ⟨x, hx, ?_⟩
  rw [hv]
  unfold magN
  have d1 : (k * 2 ^ 23 + (m - 2 ^ 23)) / 2 ^ 23 = k := by omega
  have d2 : (k * 2 ^ 23 + (m - 2 ^ 23)) % 2 ^ 23 = m - 2 ^ 23 := by omega
  have d3 : max k 1 = k := by omega
  have d4 : 2 ^ 23 + (m - 2 ^ 23) = m := by omega
  have d5 : (k : ℤ) - 150 = e := by omega
  rw [d1, d2, d3, if_neg (by omega), d4, d5]

theorem exists_subnormal {m : Nat} (h : m ≤ 2 ^ 23) : ∃ x : F32, x.IsFinite ∧ x.val = m * 2 ^ (-149 : ℤ) := by
  by_cases h1 : m = 2 ^ 23
  · exact exists_normal (by omega) (by omega) (by omega) (by omega)
  · obtain ⟨x, hx, hv⟩ := exists_magN (n := m) (by omega)
    refine ⟨x, hx, ?_⟩
    rw [hv]
    unfold magN
    have d1 : m / 2 ^ 23 = 0 := by omega
    have d2 : m % 2 ^ 23 = m := by omega
    rw [d1, d2]
    norm_num

/-! ### nearest numbers -/

theorem Nearest.exact {q : ℚ} {x y : F32} (h : Nearest q x) (hy : y.IsFinite) (hq : y.val = q) : x.val = q := by
  have := h.2 y hy
  rw [hq, sub_self, abs_zero] at this
  have := abs_nonpos_iff.mp this
  linarith

theorem Nearest.mono {q r : ℚ} {x y : F32} (hx : Nearest q x) (hy : Nearest r y) (h : q < r) : x.val ≤ y.val := by
  by_contra hc
  push Not at hc
  have h1 := hx.2 y hy.1
  have h2 := hy.2 x hx.1
  have s1 := sq_le_sq.mpr h1
  have s2 := sq_le_sq.mpr h2
  nlinarith

/-- there is a number as near as half a unit in the last place -/
theorem exists_close_pos {q : ℚ} (h0 : 0 ≤ q) (h : q ≤ largest) : ∃ x : F32, x.IsFinite ∧ |x.val - q| ≤ 2 ^ (-24 : ℤ) * q + 2 ^ (-150 : ℤ) := by
  by_cases hs : q < 2 ^ (-126 : ℤ)
  · -- subnormal
    have hr := abs_sub_round (q * 2 ^ (149 : ℤ))
    have hb : q * 2 ^ (149 : ℤ) < 2 ^ 23 := by
      calc q * 2 ^ (149 : ℤ) < 2 ^ (-126 : ℤ) * 2 ^ (149 : ℤ) := by
            apply mul_lt_mul_of_pos_right hs; positivity
        _ = 2 ^ 23 := by rw [← zpow_add₀ (by norm_num)]; norm_num
    have hb0 : 0 ≤ q * 2 ^ (149 : ℤ) := by positivity
    have r0 : 0 ≤ round (q * 2 ^ (149 : ℤ)) := by
      have := (abs_le.mp hr).2
      generalize q * 2 ^ (149 : ℤ) = t at *
      have h1 : (-1 : ℚ) < (round t : ℚ) := by linarith
      have h2 : (-1 : ℤ) < round t := by exact_mod_cast h1
      omega
    have r1 : round (q * 2 ^ (149 : ℤ)) ≤ 2 ^ 23 := by
      have := (abs_le.mp hr).1
      generalize q * 2 ^ (149 : ℤ) = t at *
      have h1 : (round t : ℚ) < 2 ^ 23 + 1 := by linarith
      have h2 : round t < 2 ^ 23 + 1 := by exact_mod_cast h1
      omega
    generalize round (q * 2 ^ (149 : ℤ)) = r at hr r0 r1
    obtain ⟨m, rfl⟩ := Int.eq_ofNat_of_zero_le r0
    obtain ⟨x, hx, hv⟩ := exists_subnormal (m := m) (by omega)
    refine ⟨x, hx, ?_⟩
    rw [hv]
    have e1 : (m : ℚ) * 2 ^ (-149 : ℤ) - q = -((q * 2 ^ (149 : ℤ) - m) * 2 ^ (-149 : ℤ)) := by
      have : q = q * 2 ^ (149 : ℤ) * 2 ^ (-149 : ℤ) := by rw [mul_assoc, ← zpow_add₀ (by norm_num)]; norm_num
      linear_combination -this
    rw [e1, abs_neg, abs_mul, abs_of_pos (by positivity : (0 : ℚ) < 2 ^ (-149 : ℤ))]
    have e2 : (2 : ℚ) ^ (-150 : ℤ) = 1 / 2 * 2 ^ (-149 : ℤ) := by
      rw [show (-150 : ℤ) = -149 + -1 by norm_num, zpow_add₀ (by norm_num)]; norm_num [mul_comm]
    rw [e2]
    have : (0 : ℚ) ≤ 2 ^ (-24 : ℤ) * q := by positivity
    have h3 : |q * 2 ^ (149 : ℤ) - (m : ℚ)| * 2 ^ (-149 : ℤ) ≤ 1 / 2 * 2 ^ (-149 : ℤ) := by
      apply mul_le_mul_of_nonneg_right _ (by positivity)
      exact_mod_cast hr
    exact le_trans h3 (le_add_of_nonneg_left this)
  · push Not at hs
    have hq : 0 < q := lt_of_lt_of_le (by positivity) hs
    -- the binade
    have k1 := Int.zpow_log_le_self (b := 2) (by norm_num) hq
    have k2 := Int.lt_zpow_succ_log_self (b := 2) (by norm_num) q
    push_cast at k1 k2
    have k3 : -126 ≤ Int.log 2 q := by
      rw [← Int.log_zpow (R := ℚ) (b := 2) (by norm_num) (-126)]
      exact Int.log_mono_right (by positivity) (by exact_mod_cast hs)
    have k4 : Int.log 2 q ≤ 127 := by
      by_contra hc
      push Not at hc
      have : (2 : ℚ) ^ (128 : ℤ) ≤ q := le_trans (zpow_le_zpow_right₀ (by norm_num) (by omega)) k1
      have h2 : largest < 2 ^ (128 : ℤ) := by
        unfold largest
        rw [show (128 : ℤ) = 24 + 104 by norm_num, zpow_add₀ (by norm_num)]
        apply mul_lt_mul_of_pos_right _ (by positivity)
        norm_num
      linarith
    generalize Int.log 2 q = k at k1 k2 k3 k4
    have hr := abs_sub_round (q * 2 ^ (23 - k))
    have b1 : (2 : ℚ) ^ 23 ≤ q * 2 ^ (23 - k) := by
      calc (2 : ℚ) ^ 23 = 2 ^ k * 2 ^ (23 - k) := by rw [← zpow_add₀ (by norm_num)]; norm_num
        _ ≤ q * 2 ^ (23 - k) := mul_le_mul_of_nonneg_right k1 (by positivity)
    have b2 : q * 2 ^ (23 - k) < 2 ^ 24 := by
      calc q * 2 ^ (23 - k) < 2 ^ (k + 1) * 2 ^ (23 - k) := mul_lt_mul_of_pos_right k2 (by positivity)
        _ = 2 ^ 24 := by rw [← zpow_add₀ (by norm_num), show k + 1 + (23 - k) = 24 by ring]; norm_num
    have r1 : (2 : ℤ) ^ 23 ≤ round (q * 2 ^ (23 - k)) := by
      have := (abs_le.mp hr).2
      have h1 : (2 ^ 23 - 1 : ℚ) < (round (q * 2 ^ (23 - k)) : ℚ) := by linarith
      have h2 : (2 : ℤ) ^ 23 - 1 < round (q * 2 ^ (23 - k)) := by exact_mod_cast h1
      omega
    have r2 : round (q * 2 ^ (23 - k)) ≤ 2 ^ 24 := by
      have := (abs_le.mp hr).1
      have h1 : (round (q * 2 ^ (23 - k)) : ℚ) < 2 ^ 24 + 1 := by linarith
      have h2 : round (q * 2 ^ (23 - k)) < 2 ^ 24 + 1 := by exact_mod_cast h1
      omega
    have r3 : k = 127 → round (q * 2 ^ (23 - k)) < 2 ^ 24 := by
      rintro rfl
      have : q * 2 ^ (23 - 127 : ℤ) ≤ 2 ^ 24 - 1 := by
        calc q * 2 ^ (23 - 127 : ℤ) ≤ largest * 2 ^ (23 - 127 : ℤ) := mul_le_mul_of_nonneg_right h (by positivity)
          _ = 2 ^ 24 - 1 := by
            unfold largest
            rw [mul_assoc, ← zpow_add₀ (by norm_num)]
            norm_num
      have h2 := (abs_le.mp hr).1
      generalize q * 2 ^ (23 - 127 : ℤ) = t at *
      have h1 : (round t : ℚ) < 2 ^ 24 := by linarith
      exact_mod_cast h1
    generalize round (q * 2 ^ (23 - k)) = r at hr r1 r2 r3
    obtain ⟨m, rfl⟩ := Int.eq_ofNat_of_zero_le (show 0 ≤ r by omega)
    have hx : ∃ x : F32, x.IsFinite ∧ x.val = m * 2 ^ (k - 23) := by
      by_cases hm : m = 2 ^ 24
      · have hk : k ≠ 127 := fun hk => by have := r3 hk; omega
        obtain ⟨x, hx, hv⟩ := exists_normal (m := 2 ^ 23) (e := k - 22) (by omega) (by omega) (by omega) (by omega)
        refine ⟨x, hx, ?_⟩
        rw [hv, hm, show k - 22 = (k - 23) + 1 by ring, zpow_add₀ (by norm_num)]
        push_cast
        ring
      · exact exists_normal (by omega) (by omega) (by omega) (by omega)
    obtain ⟨x, hx, hv⟩ := hx
    refine ⟨x, hx, ?_⟩
    rw [hv]
    have e1 : (m : ℚ) * 2 ^ (k - 23) - q = -((q * 2 ^ (23 - k) - m) * 2 ^ (k - 23)) := by
      have : q = q * 2 ^ (23 - k) * 2 ^ (k - 23) := by rw [mul_assoc, ← zpow_add₀ (by norm_num)]; norm_num
      linear_combination -this
    rw [e1, abs_neg, abs_mul, abs_of_pos (by positivity : (0 : ℚ) < 2 ^ (k - 23))]
    have h3 : |q * 2 ^ (23 - k) - (m : ℚ)| * 2 ^ (k - 23) ≤ 1 / 2 * 2 ^ (k - 23) := by
      apply mul_le_mul_of_nonneg_right _ (by positivity)
      exact_mod_cast hr
    have h4 : (1 : ℚ) / 2 * 2 ^ (k - 23) ≤ 2 ^ (-24 : ℤ) * q := by
      calc (1 : ℚ) / 2 * 2 ^ (k - 23) = 2 ^ (-24 : ℤ) * 2 ^ k := by
            rw [show k - 23 = (-23 : ℤ) + k by ring, zpow_add₀ (by norm_num), ← mul_assoc]
            congr 1
            norm_num
        _ ≤ 2 ^ (-24 : ℤ) * q := mul_le_mul_of_nonneg_left k1 (by positivity)
    have h5 : (0 : ℚ) < 2 ^ (-150 : ℤ) := by positivity
    exact le_trans (le_trans h3 h4) (le_add_of_nonneg_right h5.le)

theorem exists_close {q : ℚ} (h : |q| ≤ largest) : ∃ x : F32, x.IsFinite ∧ |x.val - q| ≤ 2 ^ (-24 : ℤ) * |q| + 2 ^ (-150 : ℤ) := by
  rcases le_total 0 q with h0 | h0
  · rw [abs_of_nonneg h0] at h ⊢
    exact exists_close_pos h0 h
  · rw [abs_of_nonpos h0] at h ⊢
    obtain ⟨x, hx, hv⟩ := exists_close_pos (q := -q) (by linarith) h
    refine ⟨flip x, flip_finite hx, ?_⟩
    rw [flip_val, show -x.val - q = -(x.val - -q) by ring, abs_neg]
    exact hv

/-- the error of rounding -/
theorem Nearest.error {q : ℚ} {x : F32} (h : Nearest q x) (hq : |q| ≤ largest) :
    |x.val - q| ≤ 2 ^ (-24 : ℤ) * |q| + 2 ^ (-150 : ℤ) := by
  obtain ⟨y, hy, hv⟩ := exists_close hq
  exact le_trans (h.2 y hy) hv

/-- rounding has a result -/
theorem exists_nearest (q : ℚ) : ∃ x, Nearest q x := by
  classical
  obtain ⟨x, hx, h⟩ := Finset.exists_min_image (Finset.univ.filter fun x : Fin (2 ^ 32) => F32.IsFinite (BitVec.ofFin x))
    (fun x => |F32.val (BitVec.ofFin x) - q|) ⟨0, by rw [Finset.mem_filter]; exact ⟨Finset.mem_univ _, by unfold IsFinite; decide⟩⟩
  refine ⟨BitVec.ofFin x, (Finset.mem_filter.mp hx).2, fun y hy => ?_⟩
  have := h y.toFin (by simp; exact hy)
  exact this

end F32
end Geozero
