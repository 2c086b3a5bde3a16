import Verif.Lemmas.Float32
import Verif.Lemmas.MvtScale
import Verif.Spec.Compress

/-
Errors when differences are added up.
-/

namespace Geozero
namespace Spec
open F64

/-- the error of the n-th sum, if each difference and each addition is off by `c` -/
def sumErr (c : ℚ) (n : Nat) : ℚ := c * n * (1 + 2 * n * 2 ^ (-53 : ℤ))

theorem sumErr_nonneg {c : ℚ} (hc : 0 ≤ c) (n : Nat) : 0 ≤ sumErr c n := by unfold sumErr; positivity

theorem sumErr_le {c : ℚ} (hc : 0 ≤ c) {n : Nat} (hn : n ≤ 2 ^ 32) : sumErr c n ≤ 2 * n * c := by
  unfold sumErr
  have h1 : (n : ℚ) ≤ 2 ^ 32 := by exact_mod_cast hn
  have h2 : 2 * (n : ℚ) * 2 ^ (-53 : ℤ) ≤ 1 := by
    calc 2 * (n : ℚ) * 2 ^ (-53 : ℤ) ≤ 2 * 2 ^ 32 * 2 ^ (-53 : ℤ) := by
          apply mul_le_mul_of_nonneg_right _ (by positivity); linarith
      _ ≤ 1 := by norm_num
  have h3 : 0 ≤ c * n := by positivity
  nlinarith

theorem sumErr_step {η M u t : ℚ} (hη : 0 ≤ η) (hM : 0 ≤ M) (ht : 0 ≤ t) (hu : u = 2 ^ (-53 : ℤ)) {n : Nat} (hn : n ≤ 2 ^ 32) :
    (sumErr (η + u * M + t) n + η) * (1 + u) + u * M + t ≤ sumErr (η + u * M + t) (n + 1) := by
  unfold sumErr
  rw [← hu]
  have hu0 : 0 ≤ u := by rw [hu]; positivity
  have h1 : (n : ℚ) ≤ 2 ^ 32 := by exact_mod_cast hn
  have h0 : (0 : ℚ) ≤ n := Nat.cast_nonneg _
  have hs : 2 * (n : ℚ) * u ≤ 1 := by
    rw [hu]
    calc 2 * (n : ℚ) * 2 ^ (-53 : ℤ) ≤ 2 * 2 ^ 32 * 2 ^ (-53 : ℤ) := by
          apply mul_le_mul_of_nonneg_right _ (by positivity); linarith
      _ ≤ 1 := by norm_num
  have hc : 0 ≤ η + u * M + t := by positivity
  have hc2 : u * M + t ≤ (u * M + t) * (1 + u) := by
    have : 0 ≤ (u * M + t) * u := by positivity
    linarith
  push_cast
  have key : ((n : ℚ) * (1 + 2 * n * u) + 1) * (1 + u) ≤ (n + 1) * (1 + 2 * (n + 1) * u) := by
    have e : (n + 1) * (1 + 2 * (n + 1) * u) - ((n : ℚ) * (1 + 2 * n * u) + 1) * (1 + u) = u * (3 * n + 1 - 2 * n * u * n) := by ring
    have : 0 ≤ u * (3 * n + 1 - 2 * n * u * n) := by
      apply mul_nonneg hu0
      nlinarith
    linarith
  have k2 := mul_le_mul_of_nonneg_left key hc
  have e1 : (η + u * M + t) * (((n : ℚ) * (1 + 2 * n * u) + 1) * (1 + u))
      = ((η + u * M + t) * n * (1 + 2 * n * u) + η) * (1 + u) + (u * M + t) * (1 + u) := by ring
  have e2 : (η + u * M + t) * ((n + 1) * (1 + 2 * (n + 1) * u)) = (η + u * M + t) * (n + 1) * (1 + 2 * (n + 1) * u) := by ring
  rw [e1, e2] at k2
  linarith

/-- the constant of the errors -/
def stepErr (η M : ℚ) : ℚ := η + 2 ^ (-53 : ℤ) * M + 2 ^ (-1075 : ℤ)

/-- one addition -/
theorem ord_step {fo : FOps} (hf : fo.Ieee) {η M : ℚ} (hη : 0 ≤ η) (hη' : η ≤ 2 ^ 900) (hM : 0 ≤ M) (hM' : M ≤ 2 ^ 900) {p v w : F64}
    {δ : F32} {n : Nat} (hn : n ≤ 2 ^ 32) (hv : OrdUpTo M v) (hw : w.IsFinite) (he : |w.val - p.val| ≤ sumErr (stepErr η M) n)
    (hs : OrdStep η p v δ) : (fo.add w (fo.of32 δ)).IsFinite ∧
      |(fo.add w (fo.of32 δ)).val - v.val| ≤ sumErr (stepErr η M) (n + 1) := by
  obtain ⟨d1, d2⟩ := hf.of32 δ hs.1
  have hc : 0 ≤ stepErr η M := by unfold stepErr; positivity
  have h1 : |w.val + δ.val - v.val| ≤ sumErr (stepErr η M) n + η := by
    have := abs_add_le (w.val - p.val) (δ.val - (v.val - p.val))
    rw [show w.val - p.val + (δ.val - (v.val - p.val)) = w.val + δ.val - v.val by ring] at this
    linarith [hs.2]
  have h2 : |w.val + δ.val| ≤ sumErr (stepErr η M) n + η + M := by
    have := abs_add_le (w.val + δ.val - v.val) v.val
    rw [sub_add_cancel] at this
    linarith [hv.2]
  have hlarge : sumErr (stepErr η M) n + η + M ≤ largest := by
    have a := sumErr_le hc hn
    have b : (n : ℚ) ≤ 2 ^ 32 := by exact_mod_cast hn
    have c1 : stepErr η M ≤ 3 * 2 ^ 900 := by
      unfold stepErr
      have c2 : (2 : ℚ) ^ (-1075 : ℤ) ≤ 1 := zpow_le_one_of_nonpos₀ (by norm_num) (by norm_num)
      have c3 : (1 : ℚ) ≤ 2 ^ 900 := one_le_pow₀ (by norm_num)
      have c4 : (2 : ℚ) ^ (-53 : ℤ) * M ≤ M := by
        have : (2 : ℚ) ^ (-53 : ℤ) ≤ 1 := by norm_num
        nlinarith
      generalize (2 : ℚ) ^ 900 = B at *
      generalize (2 : ℚ) ^ (-1075 : ℤ) = T at *
      linarith
    have c5 : 2 * (n : ℚ) * stepErr η M ≤ 2 * 2 ^ 32 * (3 * 2 ^ 900) :=
      mul_le_mul (by linarith) c1 hc (by positivity)
    have c6 : 2 * 2 ^ 32 * (3 * 2 ^ 900) + 2 * 2 ^ 900 ≤ (2 : ℚ) ^ (1000 : ℤ) := by
      have e : (2 : ℚ) ^ (1000 : ℤ) = 2 ^ 100 * 2 ^ 900 := by
        rw [show (2 : ℚ) ^ (1000 : ℤ) = 2 ^ (1000 : ℕ) from rfl, ← pow_add]
      rw [e]
      have c3 : (0 : ℚ) < 2 ^ 900 := by positivity
      generalize (2 : ℚ) ^ 900 = B at *
      norm_num
      linarith only [c3]
    refine le_trans ?_ (pow_le_largest (n := 1000) (by norm_num))
    refine le_trans ?_ c6
    generalize (2 : ℚ) ^ 900 = B at *
    linarith
  have ha := hf.add w (fo.of32 δ) hw d1 (by rw [d2]; exact le_trans h2 hlarge)
  refine ⟨ha.1, ?_⟩
  have he2 := ha.error (by rw [d2]; exact le_trans h2 hlarge)
  rw [d2] at he2
  refine le_trans ?_ (sumErr_step (t := 2 ^ (-1075 : ℤ)) hη hM (by positivity) rfl hn)
  have h3 := abs_add_le ((fo.add w (fo.of32 δ)).val - (w.val + δ.val)) (w.val + δ.val - v.val)
  rw [sub_add_sub_cancel] at h3
  have h4 : (2 : ℚ) ^ (-53 : ℤ) * |w.val + δ.val| ≤ 2 ^ (-53 : ℤ) * (sumErr (stepErr η M) n + η + M) :=
    mul_le_mul_of_nonneg_left h2 (by positivity)
  unfold stepErr at *
  generalize (2 : ℚ) ^ (-53 : ℤ) = u at *
  generalize (2 : ℚ) ^ (-1075 : ℤ) = T at *
  nlinarith

/-- x, y and z are finite -/
def CoordFinite (c : Coord) : Prop := c.x.IsFinite ∧ c.y.IsFinite ∧ ∀ z, c.z = some z → z.IsFinite

theorem coord_step {fo : FOps} (hf : fo.Ieee) {η M : ℚ} (hη : 0 ≤ η) (hη' : η ≤ 2 ^ 900) (hM : 0 ≤ M) (hM' : M ≤ 2 ^ 900)
    {p v w : Coord} {δ : Delta} {n : Nat} (hn : n ≤ 2 ^ 32) (hv : UpTo M v) (hw : CoordFinite w)
    (he : Near (sumErr (stepErr η M) n) { w with m := p.m } p) (hs : DeltaStep (OrdStep η) p v δ) :
    CoordFinite (δ.apply fo w) ∧ Near (sumErr (stepErr η M) (n + 1)) (δ.apply fo w) v := by
  obtain ⟨e1, e2, e3, -⟩ := he
  obtain ⟨s1, s2, s3, s4⟩ := hs
  obtain ⟨x1, x2⟩ := ord_step hf hη hη' hM hM' hn hv.1 hw.1 e1 s1
  obtain ⟨y1, y2⟩ := ord_step hf hη hη' hM hM' hn hv.2.1 hw.2.1 e2 s2
  cases hz : w.z with
  | none =>
    rw [show ({ w with m := p.m } : Coord).z = _ from hz] at e3
    cases hp : p.z with
    | some a => rw [hp] at e3; exact e3.elim
    | none =>
      rw [hp] at s3
      cases hvz : v.z with
      | some a => rw [hvz] at s3; exact s3.elim
      | none =>
        rw [hvz] at s3
        cases hd : δ.z with
        | some a => rw [hd] at s3; exact s3.elim
        | none =>
          refine ⟨⟨x1, y1, ?_⟩, x2, y2, ?_, s4⟩
          · simp [Delta.apply, hz]
          · simp [Delta.apply, hz, hvz]
  | some a =>
    rw [show ({ w with m := p.m } : Coord).z = _ from hz] at e3
    cases hp : p.z with
    | none => rw [hp] at e3; exact e3.elim
    | some b =>
      rw [hp] at s3 e3
      cases hvz : v.z with
      | none => rw [hvz] at s3; exact s3.elim
      | some c =>
        rw [hvz] at s3
        cases hd : δ.z with
        | none => rw [hd] at s3; exact s3.elim
        | some d =>
          rw [hd] at s3
          obtain ⟨z1, z2⟩ := ord_step hf hη hη' hM hM' hn (hv.2.2 _ hvz) (hw.2.2 _ hz) e3 s3
          refine ⟨⟨x1, y1, ?_⟩, x2, y2, ?_, s4⟩
          · simp only [Delta.apply, hz, hd]; intro z h; cases h; exact z1
          · simp only [Delta.apply, hz, hvz, hd]; exact z2

theorem inner_near {fo : FOps} (hf : fo.Ieee) {η M : ℚ} (hη : 0 ≤ η) (hη' : η ≤ 2 ^ 900) (hM : 0 ≤ M) (hM' : M ≤ 2 ^ 900)
    (vs : List Coord) : ∀ (p w : Coord) (δs : List Delta) (n : Nat), n + vs.length ≤ 2 ^ 32 → (∀ v ∈ vs, UpTo M v) →
    CoordFinite w → Near (sumErr (stepErr η M) n) { w with m := p.m } p → DeltasOf (OrdStep η) p vs δs →
    (inner fo w δs).length = vs.length ∧ ∀ (i : Nat) (v : Coord), vs[i]? = some v →
      ∃ u, (inner fo w δs)[i]? = some u ∧ Near (sumErr (stepErr η M) (n + i + 1)) u v := by
  induction vs with
  | nil =>
    intro p w δs n hn hv hw he hd
    cases δs with
    | nil => exact ⟨rfl, by simp⟩
    | cons δ δs => exact hd.elim
  | cons v vs ih =>
    intro p w δs n hn hv hw he hd
    cases δs with
    | nil => exact hd.elim
    | cons δ δs =>
      simp only [List.length_cons] at hn
      obtain ⟨h1, h2⟩ := coord_step hf hη hη' hM hM' (by omega) (hv v (by simp)) hw he hd.1
      have h2' : Near (sumErr (stepErr η M) (n + 1)) { δ.apply fo w with m := v.m } v := ⟨h2.1, h2.2.1, h2.2.2.1, rfl⟩
      obtain ⟨i1, i2⟩ := ih v _ δs (n + 1) (by omega) (fun u hu => hv u (by simp [hu])) h1 h2' hd.2
      refine ⟨by simp [inner, i1], ?_⟩
      intro i u hu
      cases i with
      | zero => simp only [List.getElem?_cons_zero, Option.some.injEq] at hu; subst hu; exact ⟨_, rfl, h2⟩
      | succ i =>
        simp only [List.getElem?_cons_succ] at hu
        obtain ⟨u', h3, h4⟩ := i2 i u hu
        exact ⟨u', by simpa [inner] using h3, by rw [show n + (i + 1) + 1 = n + 1 + i + 1 by omega]; exact h4⟩

theorem near_self (ε : ℚ) (hε : 0 ≤ ε) (c : Coord) : Near ε c c := by
  refine ⟨by simpa using hε, by simpa using hε, ?_, rfl⟩
  cases c.z <;> simp [hε]

/-- the stored differences are exact: nothing is lost -/
theorem inner_exact {fo : FOps} (hf : fo.Ieee) {M : ℚ} (hM : M ≤ largest) (vs : List Coord) :
    ∀ (p w : Coord) (δs : List Delta), (∀ v ∈ vs, UpTo M v) → CoordFinite w → Near 0 { w with m := p.m } p → DeltasOf (OrdStep 0) p vs δs →
    (inner fo w δs).length = vs.length ∧ ∀ (i : Nat) (v : Coord), vs[i]? = some v →
      ∃ u, (inner fo w δs)[i]? = some u ∧ Near 0 u v := by
  have ord : ∀ {p v w : F64} {δ : F32}, OrdUpTo M v → w.IsFinite → |w.val - p.val| ≤ 0 → OrdStep 0 p v δ →
      (fo.add w (fo.of32 δ)).IsFinite ∧ |(fo.add w (fo.of32 δ)).val - v.val| ≤ 0 := by
    intro p v w δ hv hw he hs
    obtain ⟨d1, d2⟩ := hf.of32 δ hs.1
    have a := abs_nonpos_iff.mp he
    have b := abs_nonpos_iff.mp hs.2
    have e : w.val + (fo.of32 δ).val = v.val := by rw [d2]; linarith
    have hn := hf.add w (fo.of32 δ) hw d1 (by rw [e]; exact le_trans hv.2 hM)
    refine ⟨hn.1, ?_⟩
    rw [hn.exact hv.1 e.symm, e]; simp
  induction vs with
  | nil =>
    intro p w δs hv hw he hd
    cases δs with
    | nil => exact ⟨rfl, by simp⟩
    | cons δ δs => exact hd.elim
  | cons v vs ih =>
    intro p w δs hv hw he hd
    cases δs with
    | nil => exact hd.elim
    | cons δ δs =>
      have key : CoordFinite (δ.apply fo w) ∧ Near 0 (δ.apply fo w) v := by
        have hv := hv v (by simp)
        obtain ⟨e1, e2, e3, -⟩ := he
        obtain ⟨s1, s2, s3, s4⟩ := hd.1
        obtain ⟨x1, x2⟩ := ord hv.1 hw.1 e1 s1
        obtain ⟨y1, y2⟩ := ord hv.2.1 hw.2.1 e2 s2
        cases hz : w.z with
        | none =>
          rw [show ({ w with m := p.m } : Coord).z = _ from hz] at e3
          cases hp : p.z with
          | some a => rw [hp] at e3; exact e3.elim
          | none =>
            rw [hp] at s3
            cases hvz : v.z with
            | some a => rw [hvz] at s3; exact s3.elim
            | none =>
              rw [hvz] at s3
              cases hd : δ.z with
              | some a => rw [hd] at s3; exact s3.elim
              | none =>
                refine ⟨⟨x1, y1, ?_⟩, x2, y2, ?_, s4⟩
                · simp [Delta.apply, hz]
                · simp [Delta.apply, hz, hvz]
        | some a =>
          rw [show ({ w with m := p.m } : Coord).z = _ from hz] at e3
          cases hp : p.z with
          | none => rw [hp] at e3; exact e3.elim
          | some b =>
            rw [hp] at s3 e3
            cases hvz : v.z with
            | none => rw [hvz] at s3; exact s3.elim
            | some c =>
              rw [hvz] at s3
              cases hd : δ.z with
              | none => rw [hd] at s3; exact s3.elim
              | some d =>
                rw [hd] at s3
                obtain ⟨z1, z2⟩ := ord (hv.2.2 _ hvz) (hw.2.2 _ hz) e3 s3
                refine ⟨⟨x1, y1, ?_⟩, x2, y2, ?_, s4⟩
                · simp only [Delta.apply, hz, hd]; intro z h; cases h; exact z1
                · simp only [Delta.apply, hz, hvz, hd]; exact z2
      have h2' : Near 0 { δ.apply fo w with m := v.m } v := ⟨key.2.1, key.2.2.1, key.2.2.2.1, rfl⟩
      obtain ⟨i1, i2⟩ := ih v _ δs (fun u hu => hv u (by simp [hu])) key.1 h2' hd.2
      refine ⟨by simp [inner, i1], ?_⟩
      intro i u hu
      cases i with
      | zero => simp only [List.getElem?_cons_zero, Option.some.injEq] at hu; subst hu; exact ⟨_, rfl, key.2⟩
      | succ i =>
        simp only [List.getElem?_cons_succ] at hu
        obtain ⟨u', h3, h4⟩ := i2 i u hu
        exact ⟨u', by simpa [inner] using h3, h4⟩

end Spec

/-- numbers with a significand of at most 24 bits -/
theorem F64.exists_dyadic {m : Nat} {e : ℤ} (h : m < 2 ^ 24) (h3 : -149 ≤ e) (h4 : e ≤ 104) :
    ∃ x : F64, x.IsFinite ∧ x.val = m * 2 ^ e := by
  by_cases h0 : m = 0
  · exact ⟨0#64, F64.finite_zero, by rw [F64.val_zero, h0]; simp⟩
  · have k1 : m.log2 < 24 := by rw [Nat.log2_lt h0]; exact h
    have k2 := Nat.log2_self_le h0
    have k3 : m < 2 ^ (m.log2 + 1) := Nat.lt_log2_self
    generalize m.log2 = k at *
    have e1 : 2 ^ 52 = 2 ^ k * 2 ^ (52 - k) := by rw [← pow_add]; congr 1; omega
    have e2 : 2 ^ 53 = 2 ^ (k + 1) * 2 ^ (52 - k) := by rw [← pow_add]; congr 1; omega
    obtain ⟨x, hx, hv⟩ := F64.exists_normal (m := m * 2 ^ (52 - k)) (e := e - (52 - k : ℕ))
      (by rw [e1]; exact Nat.mul_le_mul_right _ k2) (by rw [e2]; exact Nat.mul_lt_mul_of_pos_right k3 (by positivity)) (by omega) (by omega)
    refine ⟨x, hx, ?_⟩
    rw [hv]
    push_cast
    rw [mul_assoc, ← zpow_natCast (2 : ℚ) (52 - k), ← zpow_add₀ (by norm_num)]
    congr 2
    ring

/-- there are such operations -/
theorem exists_fops_ieee : ∃ fo : FOps, fo.Ieee := by
  have h1 : ∀ x : F32, ∃ y : F64, x.IsFinite → y.IsFinite ∧ y.val = x.val := by
    intro x
    by_cases hx : x.IsFinite
    · have hs : x.sig < 2 ^ 24 := by
        unfold F32.sig F32.frac
        split <;> omega
      have hb : x.bexp < 255 := by
        have : x.bexp ≠ 255 := hx
        have : x.bexp < 2 ^ 8 := Nat.mod_lt _ (by norm_num)
        omega
      obtain ⟨y, hy, hv⟩ := F64.exists_dyadic (m := x.sig) (e := (max x.bexp 1 : Nat) - 150) hs (by omega) (by omega)
      by_cases hn : x.neg
      · exact ⟨F64.flip y, fun _ => ⟨F64.flip_finite hy, by rw [F64.flip_val, hv, F32.val, if_pos hn]; rfl⟩⟩
      · exact ⟨y, fun _ => ⟨hy, by rw [hv, F32.val, if_neg hn]; rfl⟩⟩
    · exact ⟨0#64, fun h => absurd h hx⟩
  choose f hf using h1
  have h2 : ∀ q : ℚ, ∃ x, F64.Nearest q x := F64.exists_nearest
  choose g hg using h2
  exact ⟨⟨f, fun x y => g (x.val + y.val)⟩, hf, fun x y _ _ _ => hg _⟩

end Geozero
