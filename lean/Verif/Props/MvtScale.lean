import Verif.Lemmas.MvtScale
import Verif.Props.Mvt

/-
C80: scaling coordinates into a tile.  The arithmetic rounds (`FArith.Ieee`); the theorems say how far that can move a position.
-/

namespace Geozero
open F64 Prog

section
variable {ar : FArith} (ha : ar.Ieee) {extent : Nat} {l b r t : F64} (hb : TileBox extent l b r t)
include ha hb

/-- the writer can be made, and its two ordinates -/
theorem scaled_ok : ∃ cfg, MvtConfig.scaled ar extent l b r t = .ok cfg ∧ ∀ x y : F64, x.OnMap → y.OnMap →
    ∃ p q : ℚ, p = (tileProd ar extent l r x).val ∧ q = (tileProd ar extent b t y).val ∧
      (cfg.transform ar x y).x.toInt = max (-2 ^ 31) (min ⌊p⌋ (2 ^ 31 - 1)) ∧
      (cfg.transform ar x y).y.toInt = max (-2 ^ 31) (min (extent - max (-2 ^ 31) (min ⌊q⌋ (2 ^ 31 - 1))) (2 ^ 31 - 1)) := by
  have he : extent < 2 ^ 32 := by have := hb.small; omega
  refine ⟨_, if_neg hb.pos.ne', fun x y hx hy => ⟨_, _, rfl, rfl, ?_, ?_⟩⟩
  · exact tileOrd_toInt ha (axisSteps ha hb.pos he hb.leftOnMap hb.rightOnMap hx hb.wide)
  · simp only [MvtConfig.transform, if_true]
    rw [satSub_toInt, int32_extent hb.small,
      ← tileOrd_toInt ha (axisSteps ha hb.pos he hb.bottomOnMap hb.topOnMap hy hb.high)]
    rfl

/-- A position is at most 2^-18 of a unit away from where it belongs, before it is rounded down: the column is the floor of a number
that close to the exact distance from the left edge, and the row is as far above the lower edge. -/
theorem C80_accuracy (x y : F64) (hx : x.OnMap) (hy : y.OnMap) (h1 : |tileDistance extent l r x| ≤ 2 ^ 29)
    (h2 : |tileDistance extent b t y| ≤ 2 ^ 29) :
    ∃ cfg, MvtConfig.scaled ar extent l b r t = .ok cfg ∧ ∃ p q : ℚ,
      |p - tileDistance extent l r x| ≤ 2 ^ (-18 : ℤ) ∧ |q - tileDistance extent b t y| ≤ 2 ^ (-18 : ℤ) ∧
      (cfg.transform ar x y).x.toInt = ⌊p⌋ ∧ (cfg.transform ar x y).y.toInt = extent - ⌊q⌋ := by
  have he : extent < 2 ^ 32 := by have := hb.small; omega
  have hs := hb.small
  obtain ⟨cfg, hc, h⟩ := scaled_ok ha hb
  obtain ⟨p, q, hp, hq, tx, ty⟩ := h x y hx hy
  have c1 := tile_close (axisSteps ha hb.pos he hb.leftOnMap hb.rightOnMap hx hb.wide) (le_trans h1 (by norm_num))
  have c2 := tile_close (axisSteps ha hb.pos he hb.bottomOnMap hb.topOnMap hy hb.high) (le_trans h2 (by norm_num))
  rw [← hp] at c1
  rw [← hq] at c2
  have bnd : ∀ p d : ℚ, |d| ≤ 2 ^ 29 → |p - d| ≤ 2 ^ (-18 : ℤ) → -2 ^ 29 - 1 ≤ ⌊p⌋ ∧ ⌊p⌋ ≤ 2 ^ 29 + 1 := by
    intro p d hd hpd
    have k : (2 : ℚ) ^ (-18 : ℤ) ≤ 1 := by norm_num
    obtain ⟨a1, a2⟩ := abs_le.mp hd
    obtain ⟨b1, b2⟩ := abs_le.mp hpd
    constructor
    · rw [Int.le_floor]; push_cast; linarith
    · have : ⌊p⌋ < 2 ^ 29 + 2 := by rw [Int.floor_lt]; push_cast; linarith
      omega
  obtain ⟨u1, u2⟩ := bnd _ _ h1 c1
  obtain ⟨v1, v2⟩ := bnd _ _ h2 c2
  refine ⟨cfg, hc, p, q, c1, c2, ?_, ?_⟩
  · rw [tx]; omega
  · rw [ty]; omega

/-- If the width and the height of the tile, the size of a unit, and the distances of the coordinate from the edges, in the units of
the coordinates and of the tile, are numbers a double can represent, then the position is exact. -/
theorem C80_exact (x y : F64) (hx : x.OnMap) (hy : y.OnMap) (h1 : |tileDistance extent l r x| ≤ 2 ^ 29)
    (h2 : |tileDistance extent b t y| ≤ 2 ^ 29)
    (hr : ∀ q ∈ [r.val - l.val, t.val - b.val, extent / (r.val - l.val), extent / (t.val - b.val), x.val - l.val, y.val - b.val,
      tileDistance extent l r x, tileDistance extent b t y], ∃ z : F64, z.IsFinite ∧ z.val = q) :
    ∃ cfg, MvtConfig.scaled ar extent l b r t = .ok cfg ∧
      (cfg.transform ar x y).x.toInt = ⌊tileDistance extent l r x⌋ ∧
      (cfg.transform ar x y).y.toInt = extent - ⌊tileDistance extent b t y⌋ := by
  have he : extent < 2 ^ 32 := by have := hb.small; omega
  have hs := hb.small
  simp only [List.forall_mem_cons, List.not_mem_nil, false_implies, implies_true, and_true] at hr
  obtain ⟨r1, r2, r3, r4, r5, r6, r7, r8⟩ := hr
  obtain ⟨cfg, hc, h⟩ := scaled_ok ha hb
  obtain ⟨p, q, hp, hq, tx, ty⟩ := h x y hx hy
  have c1 := tile_exact (axisSteps ha hb.pos he hb.leftOnMap hb.rightOnMap hx hb.wide) r1 r3 r5 r7
  have c2 := tile_exact (axisSteps ha hb.pos he hb.bottomOnMap hb.topOnMap hy hb.high) r2 r4 r6 r8
  rw [← hp] at c1
  rw [← hq] at c2
  have bnd : ∀ d : ℚ, |d| ≤ 2 ^ 29 → -2 ^ 29 - 1 ≤ ⌊d⌋ ∧ ⌊d⌋ ≤ 2 ^ 29 + 1 := by
    intro d hd
    obtain ⟨a1, a2⟩ := abs_le.mp hd
    constructor
    · rw [Int.le_floor]; push_cast; linarith
    · have : ⌊d⌋ < 2 ^ 29 + 2 := by rw [Int.floor_lt]; push_cast; linarith
      omega
  obtain ⟨u1, u2⟩ := bnd _ h1
  obtain ⟨v1, v2⟩ := bnd _ h2
  refine ⟨cfg, hc, ?_, ?_⟩
  · rw [tx, c1]; omega
  · rw [ty, c2]; omega

/-- Order is kept: what is not further right does not get further right, and what is not further up does not get further up (rows
count downwards), wherever the coordinates are. -/
theorem C80_order (x y x' y' : F64) (hx : x.OnMap) (hy : y.OnMap) (hx' : x'.OnMap) (hy' : y'.OnMap) :
    ∃ cfg, MvtConfig.scaled ar extent l b r t = .ok cfg ∧
      (x.val ≤ x'.val → (cfg.transform ar x y).x.toInt ≤ (cfg.transform ar x' y').x.toInt) ∧
      (y.val ≤ y'.val → (cfg.transform ar x' y').y.toInt ≤ (cfg.transform ar x y).y.toInt) := by
  have he : extent < 2 ^ 32 := by have := hb.small; omega
  obtain ⟨cfg, hc, h⟩ := scaled_ok ha hb
  obtain ⟨p, q, hp, hq, tx, ty⟩ := h x y hx hy
  obtain ⟨p', q', hp', hq', tx', ty'⟩ := h x' y' hx' hy'
  refine ⟨cfg, hc, fun hl => ?_, fun hl => ?_⟩
  · have := tileProd_mono ha hb.pos he hb.leftOnMap hb.rightOnMap hx hx' hb.wide hl
    rw [← hp, ← hp'] at this
    have := Int.floor_le_floor this
    rw [tx, tx']; omega
  · have := tileProd_mono ha hb.pos he hb.bottomOnMap hb.topOnMap hy hy' hb.high hl
    rw [← hq, ← hq'] at this
    have := Int.floor_le_floor this
    rw [ty, ty']; omega

/-- What lies within the bounds (edges included) lies within the tile (edges included). -/
theorem C80_inside (x y : F64) (hx : x.OnMap) (hy : y.OnMap) (h1 : l.val ≤ x.val) (h2 : x.val ≤ r.val) (h3 : b.val ≤ y.val)
    (h4 : y.val ≤ t.val) :
    ∃ cfg, MvtConfig.scaled ar extent l b r t = .ok cfg ∧
      0 ≤ (cfg.transform ar x y).x.toInt ∧ (cfg.transform ar x y).x.toInt ≤ extent ∧
      0 ≤ (cfg.transform ar x y).y.toInt ∧ (cfg.transform ar x y).y.toInt ≤ extent := by
  have he : extent < 2 ^ 32 := by have := hb.small; omega
  have hs := hb.small
  obtain ⟨cfg, hc, h⟩ := scaled_ok ha hb
  obtain ⟨p, q, hp, hq, tx, ty⟩ := h x y hx hy
  have pos : (0 : ℚ) < 2 ^ (-400 : ℤ) := by positivity
  have c1 := tile_inside hs (axisSteps ha hb.pos he hb.leftOnMap hb.rightOnMap hx hb.wide) (lt_of_lt_of_le pos hb.wide) h1 h2
  have c2 := tile_inside hs (axisSteps ha hb.pos he hb.bottomOnMap hb.topOnMap hy hb.high) (lt_of_lt_of_le pos hb.high) h3 h4
  rw [← hp] at c1
  rw [← hq] at c2
  refine ⟨cfg, hc, ?_, ?_, ?_, ?_⟩
  · rw [tx]; omega
  · rw [tx]; omega
  · rw [ty]; omega
  · rw [ty]; omega

/-- The lower left corner of the bounds is exactly the lower left corner of the tile (column 0, row `extent`). -/
theorem C80_corner : ∃ cfg, MvtConfig.scaled ar extent l b r t = .ok cfg ∧
    (cfg.transform ar l b).x.toInt = 0 ∧ (cfg.transform ar l b).y.toInt = extent := by
  have he : extent < 2 ^ 32 := by have := hb.small; omega
  have hs := hb.small
  obtain ⟨cfg, hc, h⟩ := scaled_ok ha hb
  obtain ⟨p, q, hp, hq, tx, ty⟩ := h l b hb.leftOnMap hb.bottomOnMap
  have z : ∀ {lo up : F64}, AxisSteps ar extent lo up lo → (tileProd ar extent lo up lo).val = 0 := by
    intro lo up s
    have a := s.subNear.exact finite_zero (by rw [val_zero, sub_self])
    have c := s.mulNear.exact finite_zero (by rw [val_zero, a, sub_self, zero_mul])
    rw [c, a, sub_self, zero_mul]
  have c1 := z (axisSteps ha hb.pos he hb.leftOnMap hb.rightOnMap hb.leftOnMap hb.wide)
  have c2 := z (axisSteps ha hb.pos he hb.bottomOnMap hb.topOnMap hb.bottomOnMap hb.high)
  rw [← hp] at c1
  rw [← hq] at c2
  refine ⟨cfg, hc, ?_, ?_⟩
  · rw [tx, c1]; simp
  · rw [ty, c2]; simp; omega

/-- The upper right corner of the bounds is the upper right corner of the tile (column `extent`, row 0) or one unit off.
Missing: that it is never one unit off, which is false (`C80_right_edge_false`). -/
theorem C80_right_edge_partial : ∃ cfg, MvtConfig.scaled ar extent l b r t = .ok cfg ∧
    ((cfg.transform ar r t).x.toInt = extent ∨ (cfg.transform ar r t).x.toInt = extent - 1) ∧
    ((cfg.transform ar r t).y.toInt = 0 ∨ (cfg.transform ar r t).y.toInt = 1) := by
  have pos : (0 : ℚ) < 2 ^ (-400 : ℤ) := by positivity
  have w0 := lt_of_lt_of_le pos hb.wide
  have h0 := lt_of_lt_of_le pos hb.high
  have d1 : tileDistance extent l r r = extent := by unfold tileDistance; field_simp
  have d2 : tileDistance extent b t t = extent := by unfold tileDistance; field_simp
  have hs := hb.small
  obtain ⟨cfg, hc, h⟩ := scaled_ok ha hb
  obtain ⟨p, q, hp, hq, tx, ty⟩ := h r t hb.rightOnMap hb.topOnMap
  have he : extent < 2 ^ 32 := by omega
  have hE : |(extent : ℚ)| ≤ 2 ^ 30 := by rw [abs_of_nonneg (Nat.cast_nonneg _)]; exact_mod_cast hs
  have c1 := tile_close (axisSteps ha hb.pos he hb.leftOnMap hb.rightOnMap hb.rightOnMap hb.wide) (by rw [d1]; exact hE)
  have c2 := tile_close (axisSteps ha hb.pos he hb.bottomOnMap hb.topOnMap hb.topOnMap hb.high) (by rw [d2]; exact hE)
  rw [← hp, d1] at c1
  rw [← hq, d2] at c2
  have bnd : ∀ p : ℚ, |p - extent| ≤ 2 ^ (-18 : ℤ) → (extent : ℤ) - 1 ≤ ⌊p⌋ ∧ ⌊p⌋ ≤ extent := by
    intro p hp
    obtain ⟨a1, a2⟩ := abs_le.mp hp
    have k : (2 : ℚ) ^ (-18 : ℤ) < 1 := by norm_num
    constructor
    · rw [Int.le_floor]; push_cast; linarith
    · have : ⌊p⌋ < (extent : ℤ) + 1 := by rw [Int.floor_lt]; push_cast; linarith
      omega
  obtain ⟨u1, u2⟩ := bnd p c1
  obtain ⟨v1, v2⟩ := bnd q c2
  have := hb.pos
  refine ⟨cfg, hc, ?_, ?_⟩
  · rw [tx]; omega
  · rw [ty]; omega

/-- For whole geometries: `to_mvt` on a source of a geometry within the bounds makes a feature all of whose positions lie within the
tile. -/
theorem C80_feature_inside (sz : ElemSizes) (src : Prog Unit) (bs rest : List Byte) (g : Geom) (pre : List Ev)
    (hpre : pre = [] ∨ ∃ s, pre = [.srid s]) (hrun : run false src bs = (pre ++ g.events false 0, .ok ((), rest)))
    (hk : g.TileKind) (hbud : g.Budget sz)
    (hin : ∀ c ∈ g.coords, c.x.OnMap ∧ c.y.OnMap ∧ l.val ≤ c.x.val ∧ c.x.val ≤ r.val ∧ b.val ≤ c.y.val ∧ c.y.val ≤ t.val)
    (f : MvtFeature) (hf : toMvtScaled ar sz extent l b r t src bs = .ok f) :
    ∀ p ∈ f.geometry.positions, 0 ≤ p.x.toInt ∧ p.x.toInt ≤ extent ∧ 0 ≤ p.y.toInt ∧ p.y.toInt ≤ extent := by
  obtain ⟨cfg, hc, -⟩ := scaled_ok ha hb
  unfold toMvtScaled at hf
  simp only [hc] at hf
  obtain ⟨m, hm⟩ := MvtWriter.tile_of_kind (cfg.transform ar) g hk
  have hdraw : g.Drawable (cfg.transform ar) := by
    by_contra hn
    rw [C38_rejects sz _ src bs rest g pre hpre hrun hk hbud hn] at hf
    cases hf
  rw [C37_any_transform sz _ src bs rest g m pre hpre hrun hm hbud hdraw] at hf
  cases hf
  refine mem_positions (P := fun p => 0 ≤ p.x.toInt ∧ p.x.toInt ≤ extent ∧ 0 ≤ p.y.toInt ∧ p.y.toInt ≤ extent) g m hm ?_
  intro c hcm
  obtain ⟨i1, i2, i3, i4, i5, i6⟩ := hin c hcm
  obtain ⟨cfg', hc', h⟩ := C80_inside ha hb c.x c.y i1 i2 i3 i4 i5 i6
  rw [hc] at hc'
  cases hc'
  exact h

end

/-! Witnesses -/

private def z0 : F64 := 0#64
/-- 49.0 -/
private def f49 : F64 := 0x4048800000000000#64
/-- 64.0 -/
private def f64' : F64 := 0x4050000000000000#64
/-- 33.5 -/
private def f33h : F64 := 0x4040C00000000000#64

private theorem v49 : f49.IsFinite ∧ f49.val = 49 := by
  refine ⟨by unfold F64.IsFinite; decide, ?_⟩
  norm_num [val, mag, sig, frac, bexp, neg, f49]

private theorem v64 : f64'.IsFinite ∧ f64'.val = 64 := by
  refine ⟨by unfold F64.IsFinite; decide, ?_⟩
  norm_num [val, mag, sig, frac, bexp, neg, f64']

private theorem v33h : f33h.IsFinite ∧ f33h.val = 67 / 2 := by
  refine ⟨by unfold F64.IsFinite; decide, ?_⟩
  norm_num [val, mag, sig, frac, bexp, neg, f33h]

private theorem v0 : z0.IsFinite ∧ z0.val = 0 := ⟨finite_zero, val_zero⟩

private theorem onMap {x : F64} {q : ℚ} (h : x.IsFinite ∧ x.val = q) (h0 : 0 ≤ q) (h1 : q ≤ 64) : x.OnMap := by
  refine ⟨h.1, ?_⟩
  rw [h.2, abs_of_nonneg h0]
  exact le_trans h1 (le_trans (by norm_num : (64 : ℚ) ≤ 2 ^ 6) (pow_le_pow_right₀ (by norm_num) (by norm_num)))

private theorem box49 : TileBox 4096 z0 z0 f49 f49 := by
  have k : (2 : ℚ) ^ (-400 : ℤ) ≤ f49.val - z0.val := by
    rw [v49.2, v0.2]
    exact le_trans (zpow_le_one_of_nonpos₀ (by norm_num) (by norm_num)) (by norm_num)
  exact ⟨by norm_num, by norm_num, onMap v0 (by norm_num) (by norm_num), onMap v0 (by norm_num) (by norm_num),
    onMap v49 (by norm_num) (by norm_num), onMap v49 (by norm_num) (by norm_num), k, k⟩

private theorem box64 : TileBox 4096 z0 z0 f64' f64' := by
  have k : (2 : ℚ) ^ (-400 : ℤ) ≤ f64'.val - z0.val := by
    rw [v64.2, v0.2]
    exact le_trans (zpow_le_one_of_nonpos₀ (by norm_num) (by norm_num)) (by norm_num)
  exact ⟨by norm_num, by norm_num, onMap v0 (by norm_num) (by norm_num), onMap v0 (by norm_num) (by norm_num),
    onMap v64 (by norm_num) (by norm_num), onMap v64 (by norm_num) (by norm_num), k, k⟩

/-- non-vacuity: there is such arithmetic, there are such bounds, and 33.5 lies within them, at distance 2144 -/
example : (∃ ar : FArith, ar.Ieee) ∧ TileBox 4096 z0 z0 f64' f64' ∧ f33h.OnMap ∧ tileDistance 4096 z0 f64' f33h = 2144 ∧
    z0.val ≤ f33h.val ∧ f33h.val ≤ f64'.val := by
  refine ⟨exists_ieee, box64, onMap v33h (by norm_num) (by norm_num), ?_, ?_, ?_⟩
  · rw [tileDistance, v33h.2, v0.2, v64.2]; norm_num
  · rw [v33h.2, v0.2]; norm_num
  · rw [v33h.2, v64.2]; norm_num

/-- non-vacuity of `C80_exact`: 33.5 in a tile of width 64 has column 2144 and row 1952, with every such arithmetic -/
example (ar : FArith) (ha : ar.Ieee) : ∃ cfg, MvtConfig.scaled ar 4096 z0 z0 f64' f64' = .ok cfg ∧
    (cfg.transform ar f33h f33h).x.toInt = 2144 ∧ (cfg.transform ar f33h f33h).y.toInt = 1952 := by
  have hd : tileDistance 4096 z0 f64' f33h = 2144 := by rw [tileDistance, v33h.2, v0.2, v64.2]; norm_num
  have hm := onMap v33h (by norm_num) (by norm_num)
  have := C80_exact ha box64 f33h f33h hm hm (by rw [hd]; norm_num) (by rw [hd]; norm_num) ?_
  · obtain ⟨cfg, h1, h2, h3⟩ := this
    rw [hd] at h2 h3
    refine ⟨cfg, h1, by rw [h2]; norm_num, by rw [h3]; norm_num⟩
  · have i : ∀ n : Nat, n < 2 ^ 53 → ∃ z : F64, z.IsFinite ∧ z.val = n := fun n hn => exists_int_of_lt hn
    have e1 := i 64 (by norm_num)
    have e2 := i 2144 (by norm_num)
    simp only [List.forall_mem_cons, List.not_mem_nil, false_implies, implies_true, and_true, hd, v64.2, v33h.2, v0.2, sub_zero]
    norm_num at e1 e2 ⊢
    exact ⟨e1, ⟨f33h, v33h⟩, e2⟩

/-- non-vacuity of `C80_feature_inside`: a line within the bounds, from a geo-types source, with whatever arithmetic -/
example (ar : FArith) : ∃ (sz : ElemSizes) (f : MvtFeature) (g : Geom),
    toMvtScaled ar sz 4096 z0 z0 f64' f64' (geoProcessGeom (.lineString [⟨f33h, f49⟩, ⟨f49, f33h⟩])) [] = .ok f ∧
    run false (geoProcessGeom (.lineString [⟨f33h, f49⟩, ⟨f49, f33h⟩])) [] = (g.events false 0, .ok ((), [])) ∧
    g.TileKind ∧ g.coords.length = 2 := by
  have h := C37_any_transform ⟨8, 24, 48, 56⟩ (MvtConfig.transform ar ⟨4096, true, z0, z0,
      ar.div (ar.ofU32 4096) (ar.sub f64' z0), ar.div (ar.ofU32 4096) (ar.sub f64' z0)⟩)
    (geoProcessGeom (.lineString [⟨f33h, f49⟩, ⟨f49, f33h⟩])) [] []
    (.lineString [⟨f33h, f49, none, none⟩, ⟨f49, f33h, none, none⟩]) _ [] (Or.inl rfl) rfl rfl
    (by simp [Geom.Budget, Within]) (by simp [Geom.Drawable])
  exact ⟨⟨8, 24, 48, 56⟩, _, .lineString [⟨f33h, f49, none, none⟩, ⟨f49, f33h, none, none⟩], h, rfl, trivial, rfl⟩

/-- The upper right corner can be one unit off, with every IEEE arithmetic: with bounds 0, 0, 49, 49 and extent 4096, the corner
(49, 49) gets column 4095 and row 1.  (4096/49 is rounded down, and 49 times that is rounded to less than 4096.) -/
theorem C80_right_edge_false (ar : FArith) (ha : ar.Ieee) : TileBox 4096 z0 z0 f49 f49 ∧
    ∃ cfg, MvtConfig.scaled ar 4096 z0 z0 f49 f49 = .ok cfg ∧
      (cfg.transform ar f49 f49).x.toInt = 4095 ∧ (cfg.transform ar f49 f49).y.toInt = 1 := by
  refine ⟨box49, ?_⟩
  obtain ⟨cfg, hc, h⟩ := scaled_ok ha box49
  obtain ⟨p, q, hp, hq, tx, ty⟩ := h f49 f49 box49.rightOnMap box49.topOnMap
  have s := axisSteps ha (extent := 4096) (by norm_num) (by norm_num) box49.leftOnMap box49.rightOnMap box49.rightOnMap box49.wide
  have hw : (ar.sub f49 z0).val = 49 := by
    rw [s.widthNear.exact v49.1 (by rw [v49.2, v0.2]; norm_num), v49.2, v0.2]; norm_num
  -- the multiplier
  have hm : (ar.div (ar.ofU32 4096) (ar.sub f49 z0)).val = magN 0x4054e5e0a72f0539 := by
    have hn := s.divNear
    rw [hw] at hn
    have hpos := s.pos
    generalize ar.div (ar.ofU32 4096) (ar.sub f49 z0) = m at *
    have hv : m.val = magN (m.toNat % 2 ^ 63) := by
      unfold val at hpos ⊢
      split at hpos
      · have := mag_nonneg m; linarith
      · rw [if_neg (by assumption), mag_eq]
    obtain ⟨c, c1, c2⟩ := exists_magN (n := 0x4054e5e0a72f0539) (by norm_num)
    have hle := hn.2 c c1
    rw [c2, hv] at hle
    have vals : magN 0x4054e5e0a72f0539 = 5882252574524729 / 2 ^ 46 ∧ magN 0x4054e5e0a72f0538 = 5882252574524728 / 2 ^ 46 ∧
        magN 0x4054e5e0a72f053a = 5882252574524730 / 2 ^ 46 := by
      refine ⟨?_, ?_, ?_⟩ <;> norm_num [magN]
    rw [vals.1] at hle
    have hle2 : |(5882252574524729 : ℚ) / 2 ^ 46 - (4096 : ℕ) / 49| ≤ 1 / 2 ^ 47 := by rw [abs_le]; constructor <;> norm_num
    obtain ⟨b1, b2⟩ := abs_le.mp (le_trans hle hle2)
    have lt1 : m.toNat % 2 ^ 63 < 0x4054e5e0a72f053a := by
      rw [← magN_strictMono.lt_iff_lt, vals.2.2]
      norm_num at b1 b2 ⊢; linarith
    have lt2 : 0x4054e5e0a72f0538 < m.toNat % 2 ^ 63 := by
      rw [← magN_strictMono.lt_iff_lt, vals.2.1]
      norm_num at b1 b2 ⊢; linarith
    rw [hv]; congr 1; omega
  have vm : magN 0x4054e5e0a72f0539 = 5882252574524729 / 2 ^ 46 := by norm_num [magN]
  have hn := s.mulNear
  rw [hw, hm, vm] at hn
  obtain ⟨c, c1, c2⟩ := exists_magN (n := 0x40afffffffffffff) (by norm_num)
  have vc : magN 0x40afffffffffffff = 4096 - 1 / 2 ^ 41 := by norm_num [magN]
  have hle := hn.2 c c1
  rw [c2, vc] at hle
  have hP : 4095 ≤ (tileProd ar 4096 z0 f49 f49).val ∧ (tileProd ar 4096 z0 f49 f49).val < 4096 := by
    generalize (tileProd ar 4096 z0 f49 f49).val = P at *
    have hle2 : |(4096 - 1 / 2 ^ 41 : ℚ) - 49 * (5882252574524729 / 2 ^ 46)| < 4096 - 49 * (5882252574524729 / 2 ^ 46) := by
      rw [abs_lt]; constructor <;> norm_num
    obtain ⟨b1, b2⟩ := abs_lt.mp (lt_of_le_of_lt hle hle2)
    constructor
    · norm_num at b1 ⊢; linarith
    · linarith
  have hfl : ⌊(tileProd ar 4096 z0 f49 f49).val⌋ = 4095 := by
    rw [Int.floor_eq_iff]; push_cast; constructor <;> linarith [hP.1, hP.2]
  refine ⟨cfg, hc, ?_, ?_⟩
  · rw [tx, hp, hfl]; norm_num
  · rw [ty, hq, hfl]; norm_num

/-- With an extent of 2^31 the lower left corner gets a negative row: the extent wraps around when it is converted to `i32`. -/
theorem C80_extent_false (ar : FArith) (ha : ar.Ieee) : ∃ cfg, MvtConfig.scaled ar (2 ^ 31) z0 z0 f64' f64' = .ok cfg ∧
    (cfg.transform ar z0 z0).x.toInt = 0 ∧ (cfg.transform ar z0 z0).y.toInt = -2147483648 := by
  have s := axisSteps ha (extent := 2 ^ 31) (by norm_num) (by norm_num) box64.leftOnMap box64.rightOnMap box64.leftOnMap box64.wide
  have a := s.subNear.exact finite_zero (by rw [val_zero, sub_self])
  have c := s.mulNear.exact finite_zero (by rw [val_zero, a, sub_self, zero_mul])
  rw [a, sub_self, zero_mul] at c
  have hx : (ar.floor (tileProd ar (2 ^ 31) z0 f64' z0)).toI32.toInt = 0 := by rw [tileOrd_toInt ha s, c]; simp
  refine ⟨_, if_neg (by norm_num), hx, ?_⟩
  have he : (Int32.ofInt ((2 ^ 31 : Nat) : ℤ)).toInt = -2147483648 := by decide
  show (satSubI32 (Int32.ofInt ((2 ^ 31 : Nat) : ℤ)) (ar.floor (tileProd ar (2 ^ 31) z0 f64' z0)).toI32).toInt = _
  rw [satSub_toInt, he, hx]
  norm_num

end Geozero
