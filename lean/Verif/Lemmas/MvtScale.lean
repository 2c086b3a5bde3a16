import Verif.Lemmas.Float
import Verif.Spec.MvtScale

/-
The scaling of coordinates to a tile, with arithmetic that rounds.
-/

namespace Geozero
namespace F64

theorem val_zero : F64.val 0#64 = 0 := by norm_num [val, mag, sig, frac, bexp, neg]

theorem finite_zero : F64.IsFinite 0#64 := by unfold IsFinite; decide

theorem Nearest.nonneg {q : ℚ} {x : F64} (h : Nearest q x) (hq : 0 ≤ q) : 0 ≤ x.val := by
  rcases hq.eq_or_lt with h0 | h0
  · rw [h.exact finite_zero (by rw [val_zero]; exact h0), ← h0]
  · have hz : Nearest 0 0#64 := ⟨finite_zero, fun y _ => by rw [val_zero]; simp⟩
    have := hz.mono h h0
    rwa [val_zero] at this

/-- `as i32` of a whole number -/
theorem toI32_of_int {x : F64} {n : ℤ} (hx : x.IsFinite) (hv : x.val = n) : x.toI32.toInt = max (-2 ^ 31) (min n (2 ^ 31 - 1)) := by
  obtain ⟨h1, h2, h3, h4⟩ := ((isInt_iff x n).mpr ⟨hx, hv⟩).truncTo
  rw [toI32_finite h1, truncAbs_eq h2 h3, clampI32_toInt]
  cases hn : x.neg <;> simp only [hn, if_true, Bool.false_eq_true, if_false] at h4 ⊢ <;> omega

/-- the error of the multiplier -/
theorem mult_error {ε W e s m : ℚ} (hε : 0 ≤ ε) (hε' : ε ≤ 1 / 16) (hW : 0 < W) (he : 0 < e) (hs : |s - W| ≤ 2 * ε * W)
    (hm : |m - e / s| ≤ 2 * ε * (e / s)) : |m - e / W| ≤ 8 * ε * (e / W) := by
  obtain ⟨s1, s2⟩ := abs_le.mp hs
  obtain ⟨m1, m2⟩ := abs_le.mp hm
  have hs0 : 0 < s := by nlinarith
  have hk : 0 < e / W := by positivity
  have k1 : e / s * s = e / W * W := by field_simp
  have k2 : 0 < e / s := by positivity
  generalize e / s = a at *
  generalize e / W = k at *
  -- a * s = k * W
  have a1 : a * (1 - 2 * ε) ≤ k := by
    have : a * (W * (1 - 2 * ε)) ≤ k * W := by rw [← k1]; apply mul_le_mul_of_nonneg_left _ k2.le; linarith
    nlinarith
  have a2 : k ≤ a * (1 + 2 * ε) := by
    have : k * W ≤ a * (W * (1 + 2 * ε)) := by rw [← k1]; apply mul_le_mul_of_nonneg_left _ k2.le; linarith
    nlinarith
  rw [abs_le]
  constructor
  · -- k * (1 - 8ε) ≤ m
    have : a * (1 - 2 * ε) ≤ m := by linarith
    have h2 : k * (1 - 8 * ε) ≤ a * (1 - 2 * ε) := by
      by_cases h8 : 1 - 8 * ε ≤ 0
      · have : 0 ≤ a * (1 - 2 * ε) := mul_nonneg k2.le (by linarith)
        nlinarith
      · push Not at h8
        have h3 : k * (1 - 8 * ε) ≤ a * (1 + 2 * ε) * (1 - 8 * ε) := mul_le_mul_of_nonneg_right a2 h8.le
        have h4 : (1 + 2 * ε) * (1 - 8 * ε) ≤ 1 - 2 * ε := by nlinarith
        have h5 : a * ((1 + 2 * ε) * (1 - 8 * ε)) ≤ a * (1 - 2 * ε) := mul_le_mul_of_nonneg_left h4 k2.le
        linarith
    linarith
  · have : m ≤ a * (1 + 2 * ε) := by linarith
    have h2 : a * (1 + 2 * ε) ≤ k * (1 + 8 * ε) := by
      have h3 : a * (1 - 2 * ε) * (1 + 8 * ε) ≤ k * (1 + 8 * ε) := mul_le_mul_of_nonneg_right a1 (by linarith)
      have h4 : 1 + 2 * ε ≤ (1 - 2 * ε) * (1 + 8 * ε) := by nlinarith
      have h5 : a * (1 + 2 * ε) ≤ a * ((1 - 2 * ε) * (1 + 8 * ε)) := mul_le_mul_of_nonneg_left h4 k2.le
      linarith
    linarith

/-- the error of the product -/
theorem prod_error {ε η D k d m p : ℚ} (hε : 0 ≤ ε) (hε' : ε ≤ 1 / 16) (hη : 0 ≤ η) (hk : 0 < k) (hm : |m - k| ≤ 8 * ε * k)
    (hd : |d - D| ≤ ε * |D| + η) (hp : |p - d * m| ≤ ε * |d * m| + η) :
    |p - D * k| ≤ 12 * ε * (|D| * k) + 4 * η * k + η := by
  obtain ⟨m1, m2⟩ := abs_le.mp hm
  have hm0 : 0 ≤ m := by nlinarith
  have hm2 : m ≤ 2 * k := by nlinarith
  have hD := abs_nonneg D
  have e1 : |d * m - D * k| ≤ 10 * ε * (|D| * k) + 2 * η * k := by
    have : d * m - D * k = (d - D) * m + D * (m - k) := by ring
    rw [this]
    refine le_trans (abs_add_le _ _) ?_
    rw [abs_mul, abs_mul, abs_of_nonneg hm0]
    have h1 : |d - D| * m ≤ (ε * |D| + η) * (2 * k) :=
      mul_le_mul hd hm2 hm0 (by positivity)
    have h2 : |D| * |m - k| ≤ |D| * (8 * ε * k) := mul_le_mul_of_nonneg_left hm hD
    nlinarith
  have hDk : 0 ≤ |D| * k := mul_nonneg hD hk.le
  have e2 : |d * m| ≤ 2 * (|D| * k) + 2 * η * k := by
    have h1 : |d * m| ≤ |d * m - D * k| + |D * k| := by
      have := abs_add_le (d * m - D * k) (D * k)
      rwa [sub_add_cancel] at this
    rw [abs_mul D k, abs_of_pos hk] at h1
    nlinarith
  have e3 : |p - D * k| ≤ |p - d * m| + |d * m - D * k| := by
    have := abs_add_le (p - d * m) (d * m - D * k)
    rwa [sub_add_sub_cancel] at this
  have e4 : ε * |d * m| ≤ ε * (2 * (|D| * k) + 2 * η * k) := mul_le_mul_of_nonneg_left e2 hε
  have e5 : ε * (2 * η * k) ≤ 2 * η * k := by
    have : 0 ≤ η * k := by positivity
    nlinarith
  nlinarith

end F64

open F64

/-- what `MvtWriter` does to one ordinate (mvt_writer.rs:96-97, 160-161), before the conversion to `i32` -/
def tileProd (ar : FArith) (extent : Nat) (l r x : F64) : F64 := ar.mul (ar.sub x l) (ar.div (ar.ofU32 extent) (ar.sub r l))

structure AxisSteps (ar : FArith) (extent : Nat) (l r x : F64) : Prop where
  finite : (tileProd ar extent l r x).IsFinite
  pos : 0 < (ar.div (ar.ofU32 extent) (ar.sub r l)).val
  subNear : Nearest (x.val - l.val) (ar.sub x l)
  mulNear : Nearest ((ar.sub x l).val * (ar.div (ar.ofU32 extent) (ar.sub r l)).val) (tileProd ar extent l r x)
  widthNear : Nearest (r.val - l.val) (ar.sub r l)
  divNear : Nearest (extent / (ar.sub r l).val) (ar.div (ar.ofU32 extent) (ar.sub r l))
  close : |(tileProd ar extent l r x).val - (x.val - l.val) * (extent / (r.val - l.val))| ≤
    2 ^ (-49 : ℤ) * |(x.val - l.val) * (extent / (r.val - l.val))| + 2 ^ (-600 : ℤ)

theorem pow_le_largest {n : ℤ} (h : n ≤ 1023) : (2 : ℚ) ^ n ≤ largest := by
  calc (2 : ℚ) ^ n ≤ 2 ^ (1023 : ℤ) := zpow_le_zpow_right₀ (by norm_num) h
    _ = 2 ^ (52 : ℤ) * 2 ^ (971 : ℤ) := by rw [← zpow_add₀ (by norm_num)]; norm_num
    _ ≤ largest := by
      unfold largest
      apply mul_le_mul_of_nonneg_right _ (by positivity)
      norm_num

theorem axisSteps {ar : FArith} (ha : ar.Ieee) {extent : Nat} (h0 : 0 < extent) (h1 : extent < 2 ^ 32) {l r x : F64} (hl : l.OnMap)
    (hr : r.OnMap) (hx : x.OnMap) (hw : 2 ^ (-400 : ℤ) ≤ r.val - l.val) : AxisSteps ar extent l r x := by
  have L1 : ∀ y : F64, y.OnMap → |y.val - l.val| ≤ 2 ^ (501 : ℤ) := by
    intro y hy
    have a := abs_sub y.val l.val
    have b := hy.2
    have c := hl.2
    have : (2 : ℚ) ^ (501 : ℤ) = 2 ^ 500 + 2 ^ 500 := by
      rw [show (501 : ℤ) = 500 + 1 by norm_num, zpow_add₀ (by norm_num), zpow_one, show (2 : ℚ) ^ (500 : ℤ) = 2 ^ 500 from rfl]
      ring
    rw [this]
    exact le_trans a (add_le_add b c)
  have hwn := ha.sub r l hr.1 hl.1 (le_trans (L1 r hr) (pow_le_largest (by norm_num)))
  have hsn := ha.sub x l hx.1 hl.1 (le_trans (L1 x hx) (pow_le_largest (by norm_num)))
  obtain ⟨hef, hev⟩ := ha.ofU32 extent h1
  have hW0 : 0 < r.val - l.val := lt_of_lt_of_le (by positivity) hw
  have hWle : r.val - l.val ≤ 2 ^ (501 : ℤ) := le_trans (le_abs_self _) (L1 r hr)
  -- rounding errors as variables
  have tiny : ∀ a : ℚ, (2 : ℚ) ^ (-1022 : ℤ) ≤ a → 2 ^ (-53 : ℤ) * a + 2 ^ (-1075 : ℤ) ≤ 2 * 2 ^ (-53 : ℤ) * a := by
    intro a h
    have : (2 : ℚ) ^ (-1075 : ℤ) = 2 ^ (-53 : ℤ) * 2 ^ (-1022 : ℤ) := by rw [← zpow_add₀ (by norm_num)]; norm_num
    rw [this]
    have hp : (0 : ℚ) < 2 ^ (-53 : ℤ) := by positivity
    have := mul_le_mul_of_nonneg_left h hp.le
    linarith
  have hε : (0 : ℚ) ≤ 2 ^ (-53 : ℤ) := by positivity
  have hε' : (2 : ℚ) ^ (-53 : ℤ) ≤ 1 / 16 := by norm_num
  have e1 : |(ar.sub r l).val - (r.val - l.val)| ≤ 2 * 2 ^ (-53 : ℤ) * (r.val - l.val) := by
    have := hwn.error (le_trans (L1 r hr) (pow_le_largest (by norm_num)))
    rw [abs_of_pos hW0] at this
    exact le_trans this (tiny _ (le_trans (zpow_le_zpow_right₀ (by norm_num) (by norm_num)) hw))
  have hs0 : 0 < (ar.sub r l).val := by
    obtain ⟨a, b⟩ := abs_le.mp e1
    generalize (2 : ℚ) ^ (-53 : ℤ) = ε at *
    nlinarith
  have hs1 : (ar.sub r l).val ≤ 2 ^ (502 : ℤ) := by
    obtain ⟨a, b⟩ := abs_le.mp e1
    have : (2 : ℚ) ^ (502 : ℤ) = 2 * 2 ^ (501 : ℤ) := by
      rw [show (502 : ℤ) = 1 + 501 by norm_num, zpow_add₀ (by norm_num), zpow_one]
    rw [this]
    have hh := mul_le_mul_of_nonneg_right hε' hW0.le
    generalize (2 : ℚ) ^ (-53 : ℤ) = ε at *
    generalize (2 : ℚ) ^ (501 : ℤ) = B at *
    linarith only [hh, a, b, hWle, hW0]
  have hs2 : (2 : ℚ) ^ (-401 : ℤ) ≤ (ar.sub r l).val := by
    obtain ⟨a, b⟩ := abs_le.mp e1
    have : (2 : ℚ) ^ (-400 : ℤ) = 2 * 2 ^ (-401 : ℤ) := by
      rw [show (-400 : ℤ) = 1 + -401 by norm_num, zpow_add₀ (by norm_num), zpow_one]
    rw [this] at hw
    have hp : (0 : ℚ) < 2 ^ (-401 : ℤ) := by positivity
    generalize (2 : ℚ) ^ (-53 : ℤ) = ε at *
    generalize (2 : ℚ) ^ (-401 : ℤ) = B at *
    nlinarith
  have hE0 : (1 : ℚ) ≤ extent := by exact_mod_cast h0
  have hE1 : (extent : ℚ) ≤ 2 ^ (32 : ℤ) := by
    have : (extent : ℚ) < 2 ^ 32 := by exact_mod_cast h1
    exact this.le
  have hq1 : extent / (ar.sub r l).val ≤ 2 ^ (433 : ℤ) := by
    rw [div_le_iff₀ hs0]
    calc (extent : ℚ) ≤ 2 ^ (32 : ℤ) := hE1
      _ = 2 ^ (433 : ℤ) * 2 ^ (-401 : ℤ) := by rw [← zpow_add₀ (by norm_num)]; norm_num
      _ ≤ 2 ^ (433 : ℤ) * (ar.sub r l).val := mul_le_mul_of_nonneg_left hs2 (by positivity)
  have hq2 : (2 : ℚ) ^ (-502 : ℤ) ≤ extent / (ar.sub r l).val := by
    rw [le_div_iff₀ hs0]
    calc (2 : ℚ) ^ (-502 : ℤ) * (ar.sub r l).val ≤ 2 ^ (-502 : ℤ) * 2 ^ (502 : ℤ) := mul_le_mul_of_nonneg_left hs1 (by positivity)
      _ = 1 := by rw [← zpow_add₀ (by norm_num)]; norm_num
      _ ≤ extent := hE0
  have hq0 : 0 < extent / (ar.sub r l).val := lt_of_lt_of_le (by positivity) hq2
  have hql : |(ar.ofU32 extent).val / (ar.sub r l).val| ≤ largest := by
    rw [hev, abs_of_pos hq0]
    exact le_trans hq1 (pow_le_largest (by norm_num))
  have hdn := ha.div (ar.ofU32 extent) (ar.sub r l) hef hwn.1 hs0.ne' hql
  have e2 := hdn.error hql
  rw [hev, abs_of_pos hq0] at e2
  replace e2 := le_trans e2 (tiny _ (le_trans (zpow_le_zpow_right₀ (by norm_num) (by norm_num)) hq2))
  have e3 := mult_error hε hε' hW0 (lt_of_lt_of_le one_pos hE0) e1 e2
  have hk0 : 0 < (extent : ℚ) / (r.val - l.val) := div_pos (lt_of_lt_of_le one_pos hE0) hW0
  have hk1 : (extent : ℚ) / (r.val - l.val) ≤ 2 ^ (432 : ℤ) := by
    rw [div_le_iff₀ hW0]
    calc (extent : ℚ) ≤ 2 ^ (32 : ℤ) := hE1
      _ = 2 ^ (432 : ℤ) * 2 ^ (-400 : ℤ) := by rw [← zpow_add₀ (by norm_num)]; norm_num
      _ ≤ 2 ^ (432 : ℤ) * (r.val - l.val) := mul_le_mul_of_nonneg_left hw (by positivity)
  have hm0 : 0 < (ar.div (ar.ofU32 extent) (ar.sub r l)).val := by
    obtain ⟨a, b⟩ := abs_le.mp e3
    generalize (2 : ℚ) ^ (-53 : ℤ) = ε at *
    nlinarith
  have hm1 : (ar.div (ar.ofU32 extent) (ar.sub r l)).val ≤ 2 ^ (433 : ℤ) := by
    obtain ⟨a, b⟩ := abs_le.mp e3
    have : (2 : ℚ) ^ (433 : ℤ) = 2 * 2 ^ (432 : ℤ) := by
      rw [show (433 : ℤ) = 1 + 432 by norm_num, zpow_add₀ (by norm_num), zpow_one]
    rw [this]
    have hh := mul_le_mul_of_nonneg_right hε' hk0.le
    generalize (2 : ℚ) ^ (432 : ℤ) = B at *
    generalize (2 : ℚ) ^ (-53 : ℤ) = ε at *
    linarith only [hh, a, b, hk1, hk0]
  have e4 := hsn.error (le_trans (L1 x hx) (pow_le_largest (by norm_num)))
  have hd1 : |(ar.sub x l).val| ≤ 2 ^ (503 : ℤ) := by
    have h2 := abs_add_le ((ar.sub x l).val - (x.val - l.val)) (x.val - l.val)
    rw [sub_add_cancel] at h2
    have h3 := L1 x hx
    have h4 : (2 : ℚ) ^ (-1075 : ℤ) ≤ 2 ^ (501 : ℤ) := zpow_le_zpow_right₀ (by norm_num) (by norm_num)
    have : (2 : ℚ) ^ (503 : ℤ) = 4 * 2 ^ (501 : ℤ) := by
      rw [show (503 : ℤ) = 2 + 501 by norm_num, zpow_add₀ (by norm_num)]; norm_num
    rw [this]
    have h5 := abs_nonneg (x.val - l.val)
    have hh := mul_le_mul_of_nonneg_right hε' h5
    generalize (2 : ℚ) ^ (-53 : ℤ) = ε at *
    generalize (2 : ℚ) ^ (-1075 : ℤ) = η at *
    generalize (2 : ℚ) ^ (501 : ℤ) = B at *
    linarith only [hh, h2, h3, h4, h5, e4]
  have hpl : |(ar.sub x l).val * (ar.div (ar.ofU32 extent) (ar.sub r l)).val| ≤ largest := by
    rw [abs_mul, abs_of_pos hm0]
    refine le_trans (mul_le_mul hd1 hm1 hm0.le (by positivity)) ?_
    rw [← zpow_add₀ (by norm_num)]
    exact pow_le_largest (by norm_num)
  have hpn := ha.mul (ar.sub x l) (ar.div (ar.ofU32 extent) (ar.sub r l)) hsn.1 hdn.1 hpl
  have e5 := hpn.error hpl
  refine ⟨hpn.1, hm0, hsn, hpn, hwn, by rw [hev] at hdn; exact hdn, ?_⟩
  have e6 := prod_error hε hε' (by positivity) hk0 e3 e4 e5
  rw [abs_mul, abs_of_pos hk0]
  have hq : 0 ≤ |x.val - l.val| * ((extent : ℚ) / (r.val - l.val)) := mul_nonneg (abs_nonneg _) hk0.le
  refine le_trans e6 ?_
  have c1 : (2 : ℚ) ^ (-49 : ℤ) = 16 * 2 ^ (-53 : ℤ) := by
    rw [show (-49 : ℤ) = 4 + -53 by norm_num, zpow_add₀ (by norm_num)]; norm_num
  have c2 : 4 * (2 : ℚ) ^ (-1075 : ℤ) * (extent / (r.val - l.val)) ≤ 4 * 2 ^ (-1075 : ℤ) * 2 ^ (432 : ℤ) :=
    mul_le_mul_of_nonneg_left hk1 (by positivity)
  have c3 : 4 * (2 : ℚ) ^ (-1075 : ℤ) * 2 ^ (432 : ℤ) = 2 ^ (-641 : ℤ) := by
    rw [mul_assoc, ← zpow_add₀ (by norm_num), show (4 : ℚ) = 2 ^ (2 : ℤ) by norm_num, ← zpow_add₀ (by norm_num)]; norm_num
  have c4 : (2 : ℚ) ^ (-641 : ℤ) + 2 ^ (-1075 : ℤ) ≤ 2 ^ (-600 : ℤ) := by
    have a : (2 : ℚ) ^ (-1075 : ℤ) ≤ 2 ^ (-641 : ℤ) := zpow_le_zpow_right₀ (by norm_num) (by norm_num)
    have b : (2 : ℚ) ^ (-640 : ℤ) ≤ 2 ^ (-600 : ℤ) := zpow_le_zpow_right₀ (by norm_num) (by norm_num)
    have c : (2 : ℚ) ^ (-640 : ℤ) = 2 * 2 ^ (-641 : ℤ) := by
      rw [show (-640 : ℤ) = 1 + -641 by norm_num, zpow_add₀ (by norm_num), zpow_one]
    generalize (2 : ℚ) ^ (-640 : ℤ) = A at *
    generalize (2 : ℚ) ^ (-641 : ℤ) = B at *
    generalize (2 : ℚ) ^ (-1075 : ℤ) = C at *
    generalize (2 : ℚ) ^ (-600 : ℤ) = D at *
    linarith
  rw [c1]
  rw [c3] at c2
  generalize |x.val - l.val| * ((extent : ℚ) / (r.val - l.val)) = Q at *
  generalize 4 * (2 : ℚ) ^ (-1075 : ℤ) * (extent / (r.val - l.val)) = T at *
  generalize (2 : ℚ) ^ (-53 : ℤ) = ε at *
  generalize (2 : ℚ) ^ (-1075 : ℤ) = η at *
  generalize (2 : ℚ) ^ (-641 : ℤ) = B at *
  generalize (2 : ℚ) ^ (-600 : ℤ) = C at *
  nlinarith

/-- scaling keeps the order -/
theorem tileProd_mono {ar : FArith} (ha : ar.Ieee) {extent : Nat} (h0 : 0 < extent) (h1 : extent < 2 ^ 32) {l r x y : F64}
    (hl : l.OnMap) (hr : r.OnMap) (hx : x.OnMap) (hy : y.OnMap) (hw : 2 ^ (-400 : ℤ) ≤ r.val - l.val) (h : x.val ≤ y.val) :
    (tileProd ar extent l r x).val ≤ (tileProd ar extent l r y).val := by
  have sx := axisSteps ha h0 h1 hl hr hx hw
  have sy := axisSteps ha h0 h1 hl hr hy hw
  have hd : (ar.sub x l).val ≤ (ar.sub y l).val := by
    rcases h.eq_or_lt with he | hlt
    · rcases val_inj he with rfl | ⟨z1, z2⟩
      · exact le_refl _
      · have a := sx.subNear.exact (flip_finite hl.1) (by rw [flip_val, z1, zero_sub])
        have b := sy.subNear.exact (flip_finite hl.1) (by rw [flip_val, z2, zero_sub])
        rw [a, b, he]
    · exact sx.subNear.mono sy.subNear (by linarith)
  rcases hd.eq_or_lt with he | hlt
  · rcases val_inj he with he | ⟨z1, z2⟩
    · unfold tileProd; rw [he]
    · have a := sx.mulNear.exact finite_zero (by rw [val_zero, z1, zero_mul])
      have b := sy.mulNear.exact finite_zero (by rw [val_zero, z2, zero_mul])
      rw [a, b, z1, z2]
  · exact sx.mulNear.mono sy.mulNear (mul_lt_mul_of_pos_right hlt sx.pos)

/-- one ordinate of `transform` before the sign is turned -/
theorem tileOrd_toInt {ar : FArith} (ha : ar.Ieee) {extent : Nat} {l r x : F64} (hs : AxisSteps ar extent l r x) :
    (ar.floor (tileProd ar extent l r x)).toI32.toInt = max (-2 ^ 31) (min ⌊(tileProd ar extent l r x).val⌋ (2 ^ 31 - 1)) := by
  obtain ⟨h1, h2⟩ := ha.floor _ hs.finite
  exact toI32_of_int h1 h2

theorem satSub_toInt (a b : Int32) : (satSubI32 a b).toInt = max (-2 ^ 31) (min (a.toInt - b.toInt) (2 ^ 31 - 1)) := by
  unfold satSubI32
  rw [clampI32_toInt]

/-- the error of one ordinate -/
theorem tile_close {ar : FArith} {extent : Nat} {l r x : F64} (hs : AxisSteps ar extent l r x)
    (hq : |tileDistance extent l r x| ≤ 2 ^ 30) :
    |(tileProd ar extent l r x).val - tileDistance extent l r x| ≤ 2 ^ (-18 : ℤ) := by
  refine le_trans hs.close ?_
  unfold tileDistance at hq
  have c1 : (2 : ℚ) ^ (-600 : ℤ) ≤ 2 ^ (-19 : ℤ) := zpow_le_zpow_right₀ (by norm_num) (by norm_num)
  have c2 : (2 : ℚ) ^ (-49 : ℤ) * |(x.val - l.val) * (extent / (r.val - l.val))| ≤ 2 ^ (-49 : ℤ) * 2 ^ 30 :=
    mul_le_mul_of_nonneg_left hq (by positivity)
  have c3 : (2 : ℚ) ^ (-49 : ℤ) * 2 ^ 30 = 2 ^ (-19 : ℤ) := by norm_num
  have c4 : (2 : ℚ) ^ (-18 : ℤ) = 2 ^ (-19 : ℤ) + 2 ^ (-19 : ℤ) := by norm_num
  rw [c4]
  rw [c3] at c2
  exact add_le_add c2 c1

/-- exact if all steps are -/
theorem tile_exact {ar : FArith} {extent : Nat} {l r x : F64} (hs : AxisSteps ar extent l r x)
    (hw : ∃ y : F64, y.IsFinite ∧ y.val = r.val - l.val) (hm : ∃ y : F64, y.IsFinite ∧ y.val = extent / (r.val - l.val))
    (hd : ∃ y : F64, y.IsFinite ∧ y.val = x.val - l.val) (hq : ∃ y : F64, y.IsFinite ∧ y.val = tileDistance extent l r x) :
    (tileProd ar extent l r x).val = tileDistance extent l r x := by
  obtain ⟨w, w1, w2⟩ := hw
  obtain ⟨m, m1, m2⟩ := hm
  obtain ⟨d, d1, d2⟩ := hd
  obtain ⟨q, q1, q2⟩ := hq
  have a1 := hs.widthNear.exact w1 w2
  have a2 := hs.divNear.exact m1 (by rw [a1, m2])
  have a3 := hs.subNear.exact d1 d2
  have a4 := hs.mulNear.exact q1 (by rw [q2, a2, a3, a1]; rfl)
  rw [a4, a3, a2, a1]; rfl

/-- from inside the bounds to inside the tile -/
theorem tile_inside {ar : FArith} {extent : Nat} (he : extent ≤ 2 ^ 30) {l r x : F64} (hs : AxisSteps ar extent l r x)
    (hw : 0 < r.val - l.val) (h1 : l.val ≤ x.val) (h2 : x.val ≤ r.val) :
    0 ≤ ⌊(tileProd ar extent l r x).val⌋ ∧ ⌊(tileProd ar extent l r x).val⌋ ≤ extent := by
  have hd := hs.subNear.nonneg (sub_nonneg.mpr h1)
  have hp := hs.mulNear.nonneg (mul_nonneg hd hs.pos.le)
  have hE : (0 : ℚ) ≤ extent := Nat.cast_nonneg _
  have q0 : 0 ≤ tileDistance extent l r x := mul_nonneg (sub_nonneg.mpr h1) (div_nonneg hE hw.le)
  have q1 : tileDistance extent l r x ≤ extent := by
    unfold tileDistance
    rw [mul_div_assoc', div_le_iff₀ hw, mul_comm]
    exact mul_le_mul_of_nonneg_left (by linarith) hE
  have hE2 : (extent : ℚ) ≤ 2 ^ 30 := by exact_mod_cast he
  have hc := tile_close hs (by rw [abs_of_nonneg q0]; linarith)
  refine ⟨Int.floor_nonneg.mpr hp, ?_⟩
  have : (tileProd ar extent l r x).val < extent + 1 := by
    have := (abs_le.mp hc).2
    have : (2 : ℚ) ^ (-18 : ℤ) < 1 := by norm_num
    linarith
  have : ⌊(tileProd ar extent l r x).val⌋ < (extent : ℤ) + 1 := by
    rw [Int.floor_lt]; push_cast; exact this
  omega

theorem int32_extent {extent : Nat} (h : extent ≤ 2 ^ 30) : (Int32.ofInt extent).toInt = extent :=
  Int32.toInt_ofInt_of_le (by omega) (by omega)

/-- every position of the tile geometry is the position of a coordinate -/
theorem mem_closedUp {α : Type} {P : α → Prop} {r : List α} (h : ∀ a ∈ r, P a) (same : α → α → Prop)
    [∀ a b, Decidable (same a b)] : ∀ a ∈ closedUp same r, P a := by
  intro a ha
  unfold closedUp at ha
  split at ha
  · rename_i c d hc hd
    split at ha
    · exact h a ha
    · rcases List.mem_append.mp ha with ha | ha
      · exact h a ha
      · rw [List.mem_singleton.mp ha]; exact h _ (List.mem_of_head? hc)
  · exact h a ha

theorem mem_tilePos {P : IXY → Prop} {tr : F64 → F64 → IXY} {cs : List Coord} (h : ∀ c ∈ cs, P (tr c.x c.y)) :
    ∀ p ∈ tilePos tr cs, P p := by
  intro p hp
  obtain ⟨c, hc, rfl⟩ := List.mem_map.mp hp
  exact h c hc

theorem mem_tilePoly {P : IXY → Prop} {tr : F64 → F64 → IXY} {rings : List (List Coord)}
    (h : ∀ c ∈ rings.flatten, P (tr c.x c.y)) : ∀ p ∈ (tilePoly tr rings).rings.flatten, P p := by
  have hr : ∀ r ∈ rings, ∀ p ∈ closedUp Eq (tilePos tr r), P p := fun r hr =>
    mem_closedUp (mem_tilePos fun c hc => h c (List.mem_flatten.mpr ⟨r, hr, hc⟩)) Eq
  intro p hp
  obtain ⟨q, hq, hpq⟩ := List.mem_flatten.mp hp
  cases rings with
  | nil =>
    simp only [tilePoly, IPoly.rings, List.mem_cons, List.not_mem_nil, or_false] at hq
    subst hq; cases hpq
  | cons e is =>
    simp only [tilePoly, IPoly.rings] at hq
    rcases List.mem_cons.mp hq with rfl | hq
    · exact hr e List.mem_cons_self p hpq
    · obtain ⟨r, hm, rfl⟩ := List.mem_map.mp hq
      exact hr r (List.mem_cons_of_mem _ hm) p hpq

mutual
theorem mem_positions {P : IXY → Prop} {tr : F64 → F64 → IXY} (g : Geom) (r : MvtGeom) (hr : g.tile tr = some r)
    (h : ∀ c ∈ g.coords, P (tr c.x c.y)) : ∀ p ∈ r.positions, P p := by
  cases g with
  | point c => simp only [Geom.tile, Option.some.injEq] at hr; subst hr; simpa [MvtGeom.positions, Geom.coords] using h
  | lineString cs => simp only [Geom.tile, Option.some.injEq] at hr; subst hr; exact mem_tilePos h
  | multiPoint cs => simp only [Geom.tile, Option.some.injEq] at hr; subst hr; exact mem_tilePos h
  | polygon rings => simp only [Geom.tile, Option.some.injEq] at hr; subst hr; exact mem_tilePoly h
  | multiLineString ls =>
    simp only [Geom.tile, Option.some.injEq] at hr; subst hr
    intro p hp
    simp only [MvtGeom.positions] at hp
    obtain ⟨q, hq, hpq⟩ := List.mem_flatten.mp hp
    obtain ⟨l, hl, rfl⟩ := List.mem_map.mp hq
    exact mem_tilePos (fun c hc => h c (List.mem_flatten.mpr ⟨l, hl, hc⟩)) p hpq
  | multiPolygon ps =>
    simp only [Geom.tile, Option.some.injEq] at hr; subst hr
    intro p hp
    simp only [MvtGeom.positions] at hp
    obtain ⟨q, hq, hpq⟩ := List.mem_flatMap.mp hp
    obtain ⟨l, hl, rfl⟩ := List.mem_map.mp hq
    exact mem_tilePoly (fun c hc => h c (List.mem_flatMap.mpr ⟨l, hl, hc⟩)) p hpq
  | collection gs =>
    simp only [Geom.tile, Option.map_eq_some_iff] at hr
    obtain ⟨rs, hrs, rfl⟩ := hr
    exact mem_positionsList gs rs hrs h
  | _ => simp [Geom.tile] at hr

theorem mem_positionsList {P : IXY → Prop} {tr : F64 → F64 → IXY} (gs : List Geom) (rs : List MvtGeom)
    (hr : Geom.tileList tr gs = some rs) (h : ∀ c ∈ Geom.coordsList gs, P (tr c.x c.y)) :
    ∀ p ∈ MvtGeom.positionsList rs, P p := by
  cases gs with
  | nil => simp only [Geom.tileList, Option.some.injEq] at hr; subst hr; simp [MvtGeom.positionsList]
  | cons g gs =>
    simp only [Geom.tileList] at hr
    split at hr
    · rename_i r rs' h1 h2
      cases hr
      intro p hp
      simp only [MvtGeom.positionsList, List.mem_append] at hp
      simp only [Geom.coordsList, List.mem_append] at h
      rcases hp with hp | hp
      · exact mem_positions g r h1 (fun c hc => h c (Or.inl hc)) p hp
      · exact mem_positionsList gs rs' h2 (fun c hc => h c (Or.inr hc)) p hp
    · cases hr
end

end Geozero
