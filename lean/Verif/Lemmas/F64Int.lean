import Verif.Spec.Mvt

/- Helper lemmas: `f64 as i32` and `f64::from(i32)` on bit patterns. -/

namespace Geozero
namespace F64

theorem not_nan_of_bexp {x : F64} (h : x.bexp ≠ 2047) : x.isNaN = false := by
  unfold isNaN bexp at *
  simp only [decide_eq_false_iff_not]
  omega

theorem frac_lt (x : F64) : x.frac < 2 ^ 52 := by unfold frac; omega

theorem sig_lt (x : F64) : x.sig < 2 ^ 53 := by
  have := x.frac_lt
  unfold sig
  split <;> omega

theorem sig_ge {x : F64} (h : x.bexp ≠ 0) : 2 ^ 52 ≤ x.sig := by
  unfold sig; rw [if_neg h]; omega

theorem IsInt.truncTo {x : F64} {n : Int} (h : x.IsInt n) : x.TruncTo n := by
  obtain ⟨h1, h2, h3⟩ := h
  refine ⟨h1, Nat.le_of_eq h2.symm, ?_, h3⟩
  rw [h2]
  exact Nat.mul_lt_mul_of_pos_right (Nat.lt_succ_self _) (Nat.two_pow_pos _)

theorem truncAbs_eq {x : F64} {a : Nat} (h1 : a * 2 ^ 1075 ≤ x.sig * 2 ^ (max x.bexp 1))
    (h2 : x.sig * 2 ^ (max x.bexp 1) < (a + 1) * 2 ^ 1075) : x.truncAbs = a := by
  unfold truncAbs
  have hp : ∀ n, 0 < 2 ^ n := fun n => Nat.two_pow_pos n
  split
  · rename_i h
    rw [Nat.max_eq_left (by omega)] at h1 h2
    have he : 2 ^ x.bexp = 2 ^ (x.bexp - 1075) * 2 ^ 1075 := by rw [← Nat.pow_add]; congr 1; omega
    rw [he, ← Nat.mul_assoc] at h1 h2
    have h1' := Nat.le_of_mul_le_mul_right h1 (hp 1075)
    have h2' := Nat.lt_of_mul_lt_mul_right h2
    omega
  · rename_i h
    have he : (2 : Nat) ^ 1075 = 2 ^ (1075 - max x.bexp 1) * 2 ^ (max x.bexp 1) := by
      rw [← Nat.pow_add]; congr 1; omega
    rw [he, ← Nat.mul_assoc] at h1 h2
    have h1' := Nat.le_of_mul_le_mul_right h1 (hp _)
    have h2' := Nat.lt_of_mul_lt_mul_right h2
    exact Nat.div_eq_of_lt_le h1' h2'

theorem clampI32_toInt (n : Int) : (clampI32 n).toInt = max (-2 ^ 31) (min n (2 ^ 31 - 1)) := by
  unfold clampI32
  rw [Int32.toInt_ofInt_of_le] <;> omega

theorem clampI32_of_in {n : Int} (h : InI32 n) : (clampI32 n).toInt = n := by
  rw [clampI32_toInt]
  unfold InI32 at h
  omega

theorem toI32_finite {x : F64} (h : x.bexp ≠ 2047) :
    x.toI32 = clampI32 (if x.neg then -(x.truncAbs : Int) else x.truncAbs) := by
  unfold toI32
  rw [not_nan_of_bexp h]
  simp [h]

theorem TruncTo.toI32 {x : F64} {n : Int} (h : x.TruncTo n) (hn : InI32 n) : x.toI32.toInt = n := by
  obtain ⟨h1, h2, h3, h4⟩ := h
  rw [toI32_finite h1, truncAbs_eq h2 h3]
  have : (if x.neg then -(n.natAbs : Int) else n.natAbs) = n := by
    split at h4 <;> simp_all <;> omega
  rw [this, clampI32_of_in hn]

/-- every finite pattern truncates to some integer -/
theorem exists_truncTo {x : F64} (h : x.bexp ≠ 2047) :
    x.TruncTo (if x.neg then -(x.truncAbs : Int) else x.truncAbs) := by
  have hp : ∀ n, 0 < 2 ^ n := fun n => Nat.two_pow_pos n
  have hb : x.truncAbs * 2 ^ 1075 ≤ x.sig * 2 ^ (max x.bexp 1) ∧
      x.sig * 2 ^ (max x.bexp 1) < (x.truncAbs + 1) * 2 ^ 1075 := by
    unfold truncAbs
    split
    · rename_i h
      rw [Nat.max_eq_left (by omega)]
      have he : 2 ^ x.bexp = 2 ^ (x.bexp - 1075) * 2 ^ 1075 := by rw [← Nat.pow_add]; congr 1; omega
      rw [he, ← Nat.mul_assoc]
      exact ⟨Nat.le_refl _, Nat.mul_lt_mul_of_pos_right (Nat.lt_succ_self _) (hp _)⟩
    · rename_i h
      have he : (2 : Nat) ^ 1075 = 2 ^ (1075 - max x.bexp 1) * 2 ^ (max x.bexp 1) := by
        rw [← Nat.pow_add]; congr 1; omega
      rw [he, ← Nat.mul_assoc, ← Nat.mul_assoc]
      refine ⟨Nat.mul_le_mul_right _ (Nat.div_mul_le_self _ _), Nat.mul_lt_mul_of_pos_right ?_ (hp _)⟩
      have := Nat.lt_mul_div_succ x.sig (hp (1075 - max x.bexp 1))
      rw [Nat.mul_comm]
      exact this
  refine ⟨h, ?_, ?_, ?_⟩
  · split <;> simpa using hb.1
  · split <;> simpa using hb.2
  · split <;> omega

theorem ofI32_zero {v : Int32} (h : v.toInt = 0) : ofI32 v = 0#64 := by
  simp [ofI32, h]

/-- the parts of `f64::from(v)` -/
theorem ofI32_parts {v : Int32} (h : v.toInt ≠ 0) :
    (ofI32 v).neg = decide (v.toInt < 0) ∧ (ofI32 v).bexp = 1023 + v.toInt.natAbs.log2 ∧
      (ofI32 v).sig = v.toInt.natAbs * 2 ^ (52 - v.toInt.natAbs.log2) ∧ v.toInt.natAbs.log2 ≤ 31 := by
  have hv1 := v.le_toInt
  have hv2 := v.toInt_lt
  generalize hi : v.toInt = i at *
  have ha : i.natAbs ≠ 0 := by omega
  have hl1 := Nat.log2_self_le ha
  have hl2 := Nat.lt_log2_self (n := i.natAbs)
  have hl : i.natAbs.log2 ≤ 31 := by
    refine Nat.le_of_lt_succ ((Nat.log2_lt ha).mpr ?_)
    omega
  generalize hlog : i.natAbs.log2 = l at *
  generalize haa : i.natAbs = a at *
  have hp : 2 ^ l * 2 ^ (52 - l) = 2 ^ 52 := by rw [← Nat.pow_add]; congr 1; omega
  have hm1 : 2 ^ 52 ≤ a * 2 ^ (52 - l) := by rw [← hp]; exact Nat.mul_le_mul_right _ hl1
  have hm2 : a * 2 ^ (52 - l) < 2 ^ 53 := by
    have : 2 ^ (l + 1) * 2 ^ (52 - l) = 2 ^ 53 := by rw [← Nat.pow_add]; congr 1; omega
    rw [← this]
    exact Nat.mul_lt_mul_of_pos_right hl2 (Nat.two_pow_pos _)
  generalize hm : a * 2 ^ (52 - l) = m at *
  have ht : (ofI32 v).toNat = (if i < 0 then 2 ^ 63 else 0) + (1023 + l) * 2 ^ 52 + (m - 2 ^ 52) := by
    simp only [ofI32, hi, haa, hlog, hm, if_neg ha, BitVec.toNat_ofNat]
    apply Nat.mod_eq_of_lt
    split <;> omega
  refine ⟨?_, ?_, ?_, hl⟩
  · unfold neg; rw [ht, decide_eq_decide]; split <;> omega
  · unfold bexp; rw [ht]; split <;> omega
  · have hb : (ofI32 v).bexp ≠ 0 := by unfold bexp; rw [ht]; split <;> omega
    unfold sig frac; rw [if_neg hb, ht]; split <;> omega

/-- `f64::from(v)` is the integer `v` -/
theorem isInt_ofI32 (v : Int32) : (ofI32 v).IsInt v.toInt := by
  by_cases h : v.toInt = 0
  · rw [ofI32_zero h, h]
    exact ⟨by decide, by decide +kernel, by decide⟩
  · obtain ⟨h1, h2, h3, h4⟩ := ofI32_parts h
    refine ⟨by omega, ?_, ?_⟩
    · rw [h2, h3, Nat.max_eq_left (by omega), Nat.mul_assoc, ← Nat.pow_add]
      congr 2; omega
    · rw [h1]; by_cases hn : v.toInt < 0 <;> simp [hn] <;> omega

theorem ext_parts {x y : F64} (h1 : x.neg = y.neg) (h2 : x.bexp = y.bexp) (h3 : x.frac = y.frac) : x = y := by
  apply BitVec.eq_of_toNat_eq
  unfold neg at h1
  rw [decide_eq_decide] at h1
  unfold bexp at h2
  unfold frac at h3
  have := x.isLt
  have := y.isLt
  omega

theorem IsInt.normal {x : F64} {n : Int} (h : x.IsInt n) (hn : n ≠ 0) : x.bexp ≠ 0 := by
  intro hb
  obtain ⟨_, h2, _⟩ := h
  rw [hb] at h2
  have := x.sig_lt
  have h1 : 1 * 2 ^ 1075 ≤ n.natAbs * 2 ^ 1075 := Nat.mul_le_mul_right _ (by omega)
  have h3 : x.sig * 2 ^ (max 0 1) < 2 ^ 53 * 2 := by
    rw [show max 0 1 = 1 from rfl]; omega
  have h4 : (2 : Nat) ^ 53 * 2 ≤ 1 * 2 ^ 1075 := by decide +kernel
  omega

theorem isInt_unique {x y : F64} {n : Int} (hx : x.IsInt n) (hy : y.IsInt n) (hn : n ≠ 0) : x = y := by
  have hbx := hx.normal hn
  have hby := hy.normal hn
  obtain ⟨_, h2, h3⟩ := hx
  obtain ⟨_, k2, k3⟩ := hy
  rw [Nat.max_eq_left (by omega)] at h2 k2
  have key : ∀ {a b : F64}, a.bexp ≠ 0 → b.bexp ≠ 0 → a.sig * 2 ^ a.bexp = b.sig * 2 ^ b.bexp → a.bexp ≤ b.bexp → a.bexp = b.bexp := by
    intro a b ha hb h hle
    apply Nat.le_antisymm hle
    refine Nat.le_of_not_lt fun hlt => ?_
    have h1 : 2 ^ 52 * 2 ^ (a.bexp + 1) ≤ b.sig * 2 ^ b.bexp :=
      Nat.mul_le_mul (sig_ge hb) (Nat.pow_le_pow_right (by omega) hlt)
    have h2 : a.sig * 2 ^ a.bexp < 2 ^ 53 * 2 ^ a.bexp := Nat.mul_lt_mul_of_pos_right a.sig_lt (Nat.two_pow_pos _)
    rw [Nat.pow_succ] at h1
    omega
  have he : x.bexp = y.bexp := by
    rcases Nat.le_total x.bexp y.bexp with h | h
    · exact key hbx hby (h2.trans k2.symm) h
    · exact (key hby hbx (k2.trans h2.symm) h).symm
  have hs : x.sig = y.sig := by
    rw [he] at h2
    exact Nat.eq_of_mul_eq_mul_right (Nat.two_pow_pos _) (h2.trans k2.symm)
  refine ext_parts ?_ he ?_
  · cases hxn : x.neg <;> cases hyn : y.neg <;> simp [hxn, hyn] at h3 k3 ⊢ <;> omega
  · unfold sig at hs; rw [if_neg hbx, if_neg hby] at hs; omega

theorem isInt_zero {x : F64} (h : x.IsInt 0) : x = 0#64 ∨ x = negZero := by
  obtain ⟨h1, h2, h3⟩ := h
  simp only [Int.natAbs_zero, Nat.zero_mul] at h2
  have hs : x.sig = 0 := by
    rcases Nat.mul_eq_zero.mp h2 with h | h
    · exact h
    · exact absurd h (Nat.ne_of_gt (Nat.two_pow_pos _))
  have hb : x.bexp = 0 := by
    refine Decidable.byContradiction fun hb => ?_
    have := sig_ge hb
    omega
  have hf : x.frac = 0 := by unfold sig at hs; rwa [if_pos hb] at hs
  cases hn : x.neg with
  | false => exact Or.inl (ext_parts (by rw [hn]; decide) (by rw [hb]; decide) (by rw [hf]; decide))
  | true => exact Or.inr (ext_parts (by rw [hn]; decide) (by rw [hb]; decide) (by rw [hf]; decide))

/-- a whole number in range, not `-0.0`, survives `as i32` and `f64::from` bit for bit -/
theorem ofI32_toI32 {x : F64} {n : Int} (h : x.IsInt n) (hn : InI32 n) (hz : x ≠ negZero) : ofI32 x.toI32 = x := by
  have ht := h.truncTo.toI32 hn
  by_cases h0 : n = 0
  · subst h0
    rw [ofI32_zero ht]
    rcases isInt_zero h with h | h
    · exact h.symm
    · exact absurd h hz
  · have := isInt_ofI32 x.toI32
    rw [ht] at this
    exact isInt_unique this h h0

end F64

/-! ### base64 -/

theorem b64Char_val : ∀ n, n < 64 → b64Val (b64Char n) = some n ∧ b64Char n ≠ '=' := by decide +kernel

theorem b64Decode_base64 (bs : List Byte) : b64Decode (base64 bs) = some bs := by
  have hb : ∀ b : Byte, b.toNat < 256 := fun b => b.toNat_lt
  have hu : ∀ (b : Byte) n, n = b.toNat → UInt8.ofNat n = b := by intro b n h; subst h; simp
  fun_induction base64 bs with
  | case1 => rfl
  | case2 a =>
    have := hb a
    simp only [b64Decode, and_self, if_true, (b64Char_val (a.toNat / 4) (by omega)).1,
      (b64Char_val (a.toNat % 4 * 16) (by omega)).1, Option.bind_eq_bind, Option.bind_some]
    rw [if_pos (by omega)]
    congr 2
    exact hu a _ (by omega)
  | case3 a b =>
    have := hb a
    have := hb b
    have hne := (b64Char_val (b.toNat % 16 * 4) (by omega)).2
    simp only [b64Decode, hne, false_and, if_false, if_true, (b64Char_val (a.toNat / 4) (by omega)).1,
      (b64Char_val (a.toNat % 4 * 16 + b.toNat / 16) (by omega)).1, (b64Char_val (b.toNat % 16 * 4) (by omega)).1,
      Option.bind_eq_bind, Option.bind_some]
    rw [if_pos (by omega), hu a _ (by omega), hu b _ (by omega)]
  | case4 a b c rest ih =>
    have := hb a
    have := hb b
    have := hb c
    have hne := (b64Char_val (c.toNat % 64) (by omega)).2
    have hx := (b64Char_val (a.toNat / 4) (by omega)).1
    have hy := (b64Char_val (a.toNat % 4 * 16 + b.toNat / 16) (by omega)).1
    have hz := (b64Char_val (b.toNat % 16 * 4 + c.toNat / 64) (by omega)).1
    have hw := (b64Char_val (c.toNat % 64) (by omega)).1
    cases hr : base64 rest with
    | nil =>
      rw [hr] at ih
      have hrest : rest = [] := by simpa [b64Decode] using ih.symm
      simp only [b64Decode, hne, and_false, if_false, hx, hy, hz, hw, Option.bind_eq_bind, Option.bind_some]
      rw [hu a _ (by omega), hu b _ (by omega), hu c _ (by omega), hrest]
    | cons t ts =>
      rw [hr] at ih
      simp only [b64Decode, hx, hy, hz, hw, ih, Option.bind_eq_bind, Option.bind_some]
      rw [hu a _ (by omega), hu b _ (by omega), hu c _ (by omega)]

end Geozero
