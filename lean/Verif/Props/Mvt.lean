import Verif.Lemmas.Mvt
import Verif.Props.GeoTypes

/-
C37, C38, C39, C49, C50 and the vector tile part of C27.
-/

namespace Geozero
open Prog Spec

/-! ### C37 -/

/-- what `to_mvt…` returns for a source delivering the stream of `g` -/
private theorem toMvt_eq (sz : ElemSizes) (tr : F64 → F64 → IXY) (src : Prog Unit) (bs rest : List Byte) (g : Geom)
    (r : MvtGeom) (pre : List Ev) (hpre : pre = [] ∨ ∃ s, pre = [.srid s])
    (hrun : run false src bs = (pre ++ g.events false 0, .ok ((), rest)))
    (hr : g.tile tr = some r) (hb : g.Budget sz) :
    (g.Drawable tr → toMvt sz tr src bs = .ok { geometry := r, properties := [] }) ∧
    (¬ g.Drawable tr → toMvt sz tr src bs = .error (.mvt "TooFewCoordinates")) := by
  have hfe : feed (MvtWriter.step sz tr) {} (run false src bs).1 = feed (MvtWriter.step sz tr) {} (g.events false 0) := by
    rw [hrun]
    rcases hpre with rfl | ⟨s, rfl⟩ <;> rfl
  have hg := MvtWriter.feed_geom sz tr g {} r 0 ⟨rfl, rfl, rfl⟩ hr hb
  refine ⟨fun hd => ?_, fun hd => ?_⟩
  · rw [hg.1 hd] at hfe
    unfold toMvt
    rw [interp_of_feed_ok (MvtWriter.proc sz tr) false (fun _ => rfl) src _ _ bs hfe, hrun]
    rfl
  · rw [hg.2 hd] at hfe
    have := interp_of_feed_error (MvtWriter.proc sz tr) false (fun _ => rfl) src {} bs _ hfe
    unfold toMvt
    rcases hi : interp (MvtWriter.proc sz tr) src {} bs with ⟨w, evs, res⟩
    rw [hi] at this
    simp only at this
    subst this
    rfl

/-- `to_mvt` (whatever its tile bounds) and `to_mvt_unscaled` produce the tile geometry with every coordinate
transformed by the same function `tr`, the same parts in the same order, rings closed, and no properties. -/
theorem C37_any_transform (sz : ElemSizes) (tr : F64 → F64 → IXY) (src : Prog Unit) (bs rest : List Byte) (g : Geom)
    (r : MvtGeom) (pre : List Ev) (hpre : pre = [] ∨ ∃ s, pre = [.srid s])
    (hrun : run false src bs = (pre ++ g.events false 0, .ok ((), rest)))
    (hr : g.tile tr = some r) (hb : g.Budget sz) (hd : g.Drawable tr) :
    toMvt sz tr src bs = .ok { geometry := r, properties := [] } :=
  (toMvt_eq sz tr src bs rest g r pre hpre hrun hr hb).1 hd

/-- Writing a geometry whose coordinates are whole numbers with the unscaled writer and reading the tile feature back
delivers exactly the stream of the geometry. -/
theorem C37_unscaled_roundtrip (ar : FArith) (sz : ElemSizes) (src : Prog Unit) (bs rest : List Byte) (g : Geom)
    (pre : List Ev) (hpre : pre = [] ∨ ∃ s, pre = [.srid s])
    (hrun : run false src bs = (pre ++ g.events false 0, .ok ((), rest)))
    (hk : g.TileKind) (hx : ∀ c ∈ g.coords, c.TileExact) (hc : g.RingsClosed) (hb : g.Budget sz)
    (hd : g.Drawable truncXY) :
    ∃ f, toMvtUnscaled ar sz src bs = .ok f ∧ f.properties = [] ∧
      ∀ multi bs', run multi (mvtProcessGeom f) bs' = (g.events multi 0, .ok ((), bs')) := by
  obtain ⟨r, hr⟩ := MvtWriter.tile_of_kind truncXY g hk
  refine ⟨{ geometry := r, properties := [] }, ?_, rfl, ?_⟩
  · exact C37_any_transform sz truncXY src bs rest g r pre hpre hrun hr hb hd
  · intro multi bs'
    have hden := denote_tile g r hr hx hc hd
    have hmin : r.Tile := by
      have hf := (MvtWriter.feed_geom sz truncXY g {} r 0 ⟨rfl, rfl, rfl⟩ hr hb).1 hd
      have hinv := MvtWriter.Inv.feed (sz := sz) (tr := truncXY) ((g.events false 0).map FEv.geom) MvtWriter.Inv.initial
        (by rw [MvtWriter.feed_geomEvs]; exact hf)
      exact (hinv.geoms r (by simp [MvtWriter.finish])).tile
    rw [mvtProcessGeom, run_mvtGeometry multi 0 bs' r hmin, hden]

/-- In particular from WKB: decode, encode to a tile feature, read back. -/
theorem C37_wkb (ar : FArith) (fo : FOps) (sz : ElemSizes) (d : Dims) (e : Endian) (g : Geom) (bs rest : List Byte)
    (h : OgcWkb d e g bs) (hl : g.levels ≤ 128) (hk : g.TileKind) (hx : ∀ c ∈ g.coords, c.TileExact)
    (hc : g.RingsClosed) (hb : g.Budget sz) (hd : g.Drawable truncXY) :
    ∃ f, mvtFromWkb ar sz fo .wkb (bs ++ rest) = .ok f ∧ f.properties = [] ∧
      ∀ multi bs', run multi (mvtProcessGeom f) bs' = (g.events multi 0, .ok ((), bs')) :=
  C37_unscaled_roundtrip ar sz _ (bs ++ rest) rest g [.srid none] (Or.inr ⟨_, rfl⟩)
    (C06_wkb_decodes fo d e g bs rest false h hl) hk hx hc hb hd

/-- Coordinates that are not whole numbers are rounded towards zero. -/
theorem C37_rounding (x : F64) (n : Int) (h : x.TruncTo n) (hn : InI32 n) : (F64.ofI32 x.toI32).IsInt n := by
  have := F64.isInt_ofI32 x.toI32
  rwa [h.toI32 hn] at this

/-- Every finite number rounds to some integer, so the previous theorem covers all of them in range. -/
theorem C37_rounding_total (x : F64) (h : x.bexp ≠ 2047) : ∃ n, x.TruncTo n := ⟨_, F64.exists_truncTo h⟩

/-- Out of range the nearest representable position is taken. -/
theorem C37_saturates (x : F64) (n : Int) (h : x.TruncTo n) :
    (2147483647 < n → x.toI32.toInt = 2147483647) ∧ (n < -2147483648 → x.toI32.toInt = -2147483648) := by
  obtain ⟨h1, h2, h3, h4⟩ := h
  rw [F64.toI32_finite h1, F64.truncAbs_eq h2 h3, F64.clampI32_toInt]
  cases hn : x.neg <;> simp only [hn, if_true, Bool.false_eq_true, if_false] at h4 ⊢ <;> omega

/-- NaN becomes 0 and the infinities become the two ends of the range. -/
theorem C37_rounding_special (x : F64) (h : x.bexp = 2047) :
    (x.frac ≠ 0 → x.toI32.toInt = 0) ∧
    (x.frac = 0 → x.neg = false → x.toI32.toInt = 2147483647) ∧
    (x.frac = 0 → x.neg = true → x.toI32.toInt = -2147483648) := by
  have hx := x.isLt
  have hm : x.toNat % 2 ^ 63 = x.bexp * 2 ^ 52 + x.frac := by unfold F64.bexp F64.frac; omega
  have hf : x.frac < 2 ^ 52 := Nat.mod_lt _ (by decide)
  have hn : x.isNaN = decide (x.frac ≠ 0) := by
    unfold F64.isNaN; rw [hm, h]; simp only [ne_eq, decide_eq_decide]; omega
  unfold F64.toI32
  rw [hn, h]
  refine ⟨fun h0 => ?_, fun h0 hs => ?_, fun h0 hs => ?_⟩
  · simp [h0]
  · simp [h0, hs, F64.clampI32_toInt]; omega
  · simp [h0, hs, F64.clampI32_toInt]; omega

example : (F64.toI32 0x7FF0000000000001#64).toInt = 0 ∧ (F64.toI32 0xFFF0000000000000#64).toInt = -2147483648 := by
  decide

/-- A tile of extent 0 is refused. -/
theorem C37_extent (ar : FArith) (sz : ElemSizes) (l b r t : F64) (src : Prog Unit) (bs : List Byte) :
    toMvtScaled ar sz 0 l b r t src bs = .error (.mvt "InvalidExtent") := rfl

/-- A writer without scaling can be made for every extent but 0, and its layers have that extent. -/
theorem C37_extent_unscaled (extent : Nat) :
    (extent = 0 → MvtConfig.unscaled extent = .error (.mvt "InvalidExtent")) ∧
    (extent ≠ 0 → ∃ cfg, MvtConfig.unscaled extent = .ok cfg ∧
      ∀ w name, (MvtWriter.layer cfg w name).extent = extent) := by
  refine ⟨fun h => by simp [MvtConfig.unscaled, h], fun h => ⟨_, if_neg h, fun _ _ => rfl⟩⟩

/-- The same for a writer with scaling. -/
theorem C37_extent_scaled (ar : FArith) (extent : Nat) (l b r t : F64) (h : extent ≠ 0) :
    ∃ cfg, MvtConfig.scaled ar extent l b r t = .ok cfg ∧ ∀ w name, (MvtWriter.layer cfg w name).extent = extent :=
  ⟨_, if_neg h, fun _ _ => rfl⟩

example : ∃ cfg, MvtConfig.unscaled 4096 = .ok cfg ∧ cfg.extent = 4096 := ⟨_, rfl, rfl⟩

private def f0 : F64 := 0#64
private def f25 : F64 := 0x4039000000000000#64
private def f17 : F64 := 0x4031000000000000#64
private def fm3 : F64 := 0xC008000000000000#64
/-- 25.75 -/
private def f25_75 : F64 := 0x4039C00000000000#64

private def szT : ElemSizes := ⟨8, 24, 48, 56⟩

private def sampleT : Geom := .collection [.point ⟨f25, f17, none, none⟩, .multiLineString [[⟨f0, f0, none, none⟩, ⟨fm3, f25, none, none⟩]],
  .polygon [[⟨f0, f0, none, none⟩, ⟨f25, f0, none, none⟩, ⟨f25, f17, none, none⟩, ⟨f0, f0, none, none⟩]]]

private theorem int0 : f0.IsInt 0 := ⟨by decide, by decide +kernel, by decide⟩
private theorem int25 : f25.IsInt 25 := ⟨by decide, by decide +kernel, by decide⟩
private theorem int17 : f17.IsInt 17 := ⟨by decide, by decide +kernel, by decide⟩
private theorem intm3 : fm3.IsInt (-3) := ⟨by decide, by decide +kernel, by decide⟩

/-- non-vacuity: a point, a line and a polygon in a collection meet the hypotheses of the round trip -/
example : sampleT.TileKind ∧ (∀ c ∈ sampleT.coords, c.TileExact) ∧ sampleT.RingsClosed ∧ sampleT.Budget szT ∧
    sampleT.Drawable truncXY := by
  have e0 : ∃ n, f0.IsInt n ∧ InI32 n ∧ f0 ≠ F64.negZero := ⟨0, int0, ⟨by decide, by decide⟩, by decide⟩
  have e25 : ∃ n, f25.IsInt n ∧ InI32 n ∧ f25 ≠ F64.negZero := ⟨25, int25, ⟨by decide, by decide⟩, by decide⟩
  have e17 : ∃ n, f17.IsInt n ∧ InI32 n ∧ f17 ≠ F64.negZero := ⟨17, int17, ⟨by decide, by decide⟩, by decide⟩
  have em3 : ∃ n, fm3.IsInt n ∧ InI32 n ∧ fm3 ≠ F64.negZero := ⟨-3, intm3, ⟨by decide, by decide⟩, by decide⟩
  refine ⟨⟨trivial, trivial, trivial, trivial⟩, ?_, ⟨trivial, trivial, ?_, trivial⟩, ?_, ⟨trivial, ?_, ⟨by simp, ?_⟩, trivial⟩⟩
  · intro c hc
    simp only [sampleT, Geom.coords, Geom.coordsList, List.flatten_cons, List.flatten_nil, List.append_nil, List.cons_append,
      List.nil_append, List.mem_cons, List.not_mem_nil, or_false] at hc
    rcases hc with rfl | rfl | rfl | rfl | rfl | rfl | rfl
    · exact ⟨e25, e17, rfl, rfl⟩
    · exact ⟨e0, e0, rfl, rfl⟩
    · exact ⟨em3, e25, rfl, rfl⟩
    · exact ⟨e0, e0, rfl, rfl⟩
    · exact ⟨e25, e0, rfl, rfl⟩
    · exact ⟨e25, e17, rfl, rfl⟩
    · exact ⟨e0, e0, rfl, rfl⟩
  · intro r hr
    simp only [List.mem_cons, List.not_mem_nil, or_false] at hr
    subst hr; rfl
  · simp [sampleT, Geom.Budget, Geom.BudgetList, Within, szT]
  · intro l hl
    simp only [List.mem_cons, List.not_mem_nil, or_false] at hl
    subst hl; decide
  · intro r hr
    simp only [List.mem_cons, List.not_mem_nil, or_false] at hr
    subst hr; decide +kernel

/-- 25.75 rounds to 25, and 25 is what a reader of the tile gets -/
example : f25_75.TruncTo 25 ∧ F64.ofI32 f25_75.toI32 = f25 := by
  refine ⟨⟨by decide, by decide +kernel, by decide +kernel, by decide⟩, by decide +kernel⟩

/-! ### C38 -/

/-- Whatever calls the writer receives, in whatever order: every feature of the layer satisfies the minimum — lines with
at least two positions, polygons with at least one ring, rings closed and with at least three positions before the closing
one — and so does the single feature it can be turned into.
Partial: the positions of a ring need not be distinct (`C38_distinct_false`). -/
theorem C38_output_minimal_partial (sz : ElemSizes) (tr : F64 → F64 → IXY) (cfg : MvtConfig) (name : Text)
    (evs : List FEv) (w : MvtWriter) (h : feed (MvtWriter.fproc sz tr).step {} evs = .ok w) :
    (∀ f ∈ (MvtWriter.layer cfg w name).features, f.geometry.Minimal) ∧
    (∀ f, w.intoFeature = .ok f → f.geometry.Minimal) := by
  have hinv := MvtWriter.Inv.feed evs MvtWriter.Inv.initial h
  refine ⟨hinv.features, fun f hf => ?_⟩
  unfold MvtWriter.intoFeature at hf
  split at hf
  · cases hf
  · rename_i g hg
    cases hf
    exact hinv.take.2 g hg

/-- The same for the results of `to_mvt`, `to_mvt_unscaled` and `from_wkb`: for every source, of which nothing is
assumed, and every input. -/
theorem C38_feature_minimal_partial (sz : ElemSizes) (tr : F64 → F64 → IXY) (src : Prog Unit) (bs : List Byte)
    (f : MvtFeature) (h : toMvt sz tr src bs = .ok f) : f.geometry.Minimal := by
  unfold toMvt at h
  rcases hi : interp (MvtWriter.proc sz tr) src {} bs with ⟨w, evs, res⟩
  rw [hi] at h
  cases res with
  | error e => cases h
  | ok a =>
    simp only at h
    rcases interp_spec (MvtWriter.proc sz tr) src {} bs with h1 | ⟨pre, ev, x', _, _, _, h4⟩
    · rw [hi] at h1
      have hf : feed (MvtWriter.fproc sz tr).step {} (evs.map FEv.geom) = .ok w := by
        rw [MvtWriter.feed_geomEvs]; exact h1
      have hinv := MvtWriter.Inv.feed _ MvtWriter.Inv.initial hf
      unfold MvtWriter.intoFeature at h
      split at h
      · cases h
      · rename_i g hg
        cases h
        exact hinv.take.2 g hg
    · rw [hi] at h4
      cases h4

/-- A geometry below the minimum is refused with `TooFewCoordinates`, wherever in it the offending line or ring is. -/
theorem C38_rejects (sz : ElemSizes) (tr : F64 → F64 → IXY) (src : Prog Unit) (bs rest : List Byte) (g : Geom)
    (pre : List Ev) (hpre : pre = [] ∨ ∃ s, pre = [.srid s])
    (hrun : run false src bs = (pre ++ g.events false 0, .ok ((), rest)))
    (hk : g.TileKind) (hb : g.Budget sz) (hd : ¬ g.Drawable tr) :
    toMvt sz tr src bs = .error (.mvt "TooFewCoordinates") := by
  obtain ⟨r, hr⟩ := MvtWriter.tile_of_kind tr g hk
  exact (toMvt_eq sz tr src bs rest g r pre hpre hrun hr hb).2 hd

/-- non-vacuity: a collection whose second member is a line of one position -/
example : (Geom.collection [.point ⟨f25, f17, none, none⟩, .lineString [⟨f25, f17, none, none⟩]]).TileKind ∧
    ¬ (Geom.collection [.point ⟨f25, f17, none, none⟩, .lineString [⟨f25, f17, none, none⟩]]).Drawable truncXY :=
  ⟨⟨trivial, trivial, trivial⟩, fun h => by have := h.2.1; simp [Geom.Drawable] at this⟩

/-- The full claim fails: a ring going back and forth between two positions is accepted, so a polygon of the output can
have a ring with fewer than three distinct positions. -/
theorem C38_distinct_false : ∃ (src : Prog Unit) (f : MvtFeature) (p : IPoly) (a b : IXY),
    toMvt szT truncXY src [] = .ok f ∧ f.geometry = .polygon p ∧ ∀ q ∈ p.exterior, q = a ∨ q = b := by
  let pa : XY := ⟨f25, f17⟩
  let pb : XY := ⟨f0, f0⟩
  let ca : Coord := ⟨f25, f17, none, none⟩
  let cb : Coord := ⟨f0, f0, none, none⟩
  refine ⟨geoProcessGeom (.polygon ⟨[pa, pb, pa, pb, pa], []⟩), ⟨.polygon (tilePoly truncXY [[ca, cb, ca, cb, ca]]), []⟩,
    _, ⟨25, 17⟩, ⟨0, 0⟩, C37_any_transform szT truncXY _ [] [] (.polygon [[ca, cb, ca, cb, ca]]) _ [] (Or.inl rfl) rfl rfl
      ?_ ⟨by simp, ?_⟩, rfl, by decide +kernel⟩
  · simp [Geom.Budget, Within, szT]
  · intro r hr
    simp only [List.mem_cons, List.not_mem_nil, or_false] at hr
    subst hr; decide +kernel

set_option maxRecDepth 4000 in
/-- It also fails for a ring that had distinct coordinates: 0.25, 0.5, 0.75 and so on all become position 0. -/
theorem C38_collapsed_false : ∃ (src : Prog Unit) (f : MvtFeature) (p : IPoly),
    toMvt szT truncXY src [] = .ok f ∧ f.geometry = .polygon p ∧ ∀ q ∈ p.exterior, q = ⟨0, 0⟩ := by
  refine ⟨geoProcessGeom (.polygon ⟨[⟨0x3FD0000000000000#64, f0⟩, ⟨0x3FE0000000000000#64, f0⟩,
    ⟨0x3FE8000000000000#64, 0x3FE8000000000000#64⟩, ⟨f0, 0x3FE0000000000000#64⟩, ⟨0x3FD0000000000000#64, f0⟩], []⟩),
    ⟨.polygon ⟨[⟨0, 0⟩, ⟨0, 0⟩, ⟨0, 0⟩, ⟨0, 0⟩, ⟨0, 0⟩], []⟩, []⟩, ⟨[⟨0, 0⟩, ⟨0, 0⟩, ⟨0, 0⟩, ⟨0, 0⟩, ⟨0, 0⟩], []⟩, by rfl, rfl,
    by decide⟩

/-! ### C39 -/

/-- Each value is stored as a tile value of the kind for its type, with the same content (dates, JSON as text; bytes as
base64 text). -/
theorem C39_stored (v : ColVal) : v.mvt.kind = some v.tileKind ∧ v.mvt.content = v.content.map Content.tile := by
  cases v <;> simp [ColVal.mvt, MvtValue.kind, ColVal.tileKind, MvtValue.content, ColVal.content, Content.tile]

/-- The base64 text decodes to the bytes. -/
theorem C39_binary (bs : List Byte) : ∃ t, (ColVal.binary bs).mvt = .string t ∧ b64Decode t = some bs :=
  ⟨_, rfl, b64Decode_base64 bs⟩

/-- The reader delivers the content of every tile value, and nothing for a null value. -/
theorem C39_read (v : MvtValue) : v.column.bind ColVal.content = v.content ∧ (v.column = none ↔ v = .null) := by
  cases v <;> simp [MvtValue.column, MvtValue.content, ColVal.content]

/-- So a value written to a tile and read back keeps its content: the same number, boolean or text. -/
theorem C39_roundtrip (v : ColVal) : v.mvt.column.bind ColVal.content = v.content.map Content.tile := by
  rw [(C39_read v.mvt).1, (C39_stored v).2]

example : (ColVal.byte (-5)).mvt.column = some (.long (-5)) ∧ (ColVal.binary [255, 0, 65, 1]).mvt = .string (txt "/wBBAQ==") := by
  decide +kernel

/-! ### C49 -/

/-- A layer holds exactly the features that have a geometry, in order, each with its tile geometry and all its
properties in order with their values; features without geometry are left out. -/
theorem C49_layer (sz : ElemSizes) (tr : F64 → F64 → IXY) (cfg : MvtConfig) (name : Text) (ds : Option Text)
    (fs : List Feat) (ms : List (Option MvtFeature)) (h : TileFeatures sz tr fs ms) :
    ∃ w, feed (MvtWriter.fproc sz tr).step {} (datasetEvs ds fs) = .ok w ∧
      MvtWriter.layer cfg w name = { name, extent := cfg.extent, features := ms.flatMap Option.toList } := by
  obtain ⟨ps, hps⟩ := MvtWriter.feed_feats sz tr fs ms h {} 0 ⟨⟨rfl, rfl, rfl⟩, rfl, rfl⟩
  refine ⟨{ features := [] ++ ms.flatMap Option.toList, properties := ps }, ?_, ?_⟩
  · unfold datasetEvs
    rw [feed_cons]
    show feed (MvtWriter.fproc sz tr).step {} _ = _
    rw [feed_append, hps]
    rfl
  · simp [MvtWriter.layer]

/-- non-vacuity: a feature with a point and a property, and one without geometry -/
example : TileFeatures szT truncXY
    [{ props := some [(0, txt "a", .int 7)], geom := some (Geom.events false 3 (.point ⟨f25, f17, none, none⟩)) },
     { props := none, geom := none }]
    [some { geometry := .point (truncXY f25 f17), properties := [(txt "a", .sint 7)] }, none] :=
  .cons _ _ _ _ (.keep (.point ⟨f25, f17, none, none⟩) 3 _ rfl rfl trivial trivial)
    (.cons _ _ _ _ (.skip (Or.inl rfl)) .nil)

/-- Reading a layer delivers one dataset with the layer's name and every feature in order: properties (all but null ones)
under their names in order, and the geometry. -/
theorem C49_read (env : FProg.Env) (l : MvtLayer) (h : ∀ f ∈ l.features, f.geometry.Tile) (bs : List Byte) :
    FProg.run env (mvtProcess l) bs
      = (datasetEvs (some l.name) (l.features.map (MvtFeature.feat env.multi)), .ok ((), bs)) := by
  unfold mvtProcess
  simp only [FProg.bind_eq, FProg.run_call_bind]
  rw [FProg.run_bind_ok (run_mvtFeatures env l.features h 0 bs)]
  simp [datasetEvs]

/-- values that keep their kind when read and written again -/
def MvtValue.Stable : MvtValue → Prop
  | .int _ | .null => False
  | _ => True

/-- Reading a layer into an unscaled writer gives the same features again. -/
theorem C49_roundtrip (sz : ElemSizes) (l : MvtLayer) (cfg : MvtConfig) (name : Text)
    (hm : ∀ f ∈ l.features, f.geometry.Minimal) (hb : ∀ f ∈ l.features, f.geometry.denote.Budget sz)
    (hv : ∀ f ∈ l.features, ∀ p ∈ f.properties, p.2.Stable) :
    ∃ w, (FProg.interp (MvtWriter.fproc sz truncXY) (mvtProcess l) {} []).1 = w ∧
      (FProg.interp (MvtWriter.fproc sz truncXY) (mvtProcess l) {} []).2.2 = .ok ((), []) ∧
      (MvtWriter.layer cfg w name).features = l.features := by
  have hprops : ∀ (ps : List (Text × MvtValue)) (i : Nat), (∀ p ∈ ps, p.2.Stable) →
      (tileProps i ps).map (fun p => (p.2.1, p.2.2.mvt)) = ps := by
    intro ps
    induction ps with
    | nil => intro i _; rfl
    | cons p ps ih =>
      intro i h
      obtain ⟨n, v⟩ := p
      have hs : v.Stable := h (n, v) (by simp)
      have := ih (i + 1) (fun p hp => h p (by simp [hp]))
      cases v <;> first | exact hs.elim | simpa [tileProps, MvtValue.column, ColVal.mvt] using this
  have hfs : ∀ fs : List MvtFeature, (∀ f ∈ fs, f.geometry.Minimal) → (∀ f ∈ fs, f.geometry.denote.Budget sz) →
      (∀ f ∈ fs, ∀ p ∈ f.properties, p.2.Stable) →
      TileFeatures sz truncXY (fs.map (MvtFeature.feat false)) (fs.map some) := by
    intro fs
    induction fs with
    | nil => intro _ _ _; exact .nil
    | cons f fs ih =>
      intro h1 h2 h3
      refine .cons _ _ _ _ ?_ (ih (fun f hf => h1 f (by simp [hf])) (fun f hf => h2 f (by simp [hf]))
        (fun f hf => h3 f (by simp [hf])))
      have ht := tile_denote f.geometry (h1 f (by simp))
      have := TileFeature.keep (sz := sz) (tr := truncXY) (f := f.feat false) f.geometry.denote 0 f.geometry rfl ht.1
        (h2 f (by simp)) ht.2
      simp only [MvtFeature.feat, Option.getD_some] at this
      rw [hprops f.properties 0 (h3 f (by simp))] at this
      exact this
  obtain ⟨w, h1, h2⟩ := C49_layer sz truncXY cfg name (some l.name) _ _ (hfs l.features hm hb hv)
  have hrun := C49_read {} l (fun f hf => (hm f hf).tile) []
  have := FProg.interp_of_feed_ok (MvtWriter.agrees sz truncXY) (mvtProcess l) {} w trivial []
    (by rw [hrun]; exact h1)
  refine ⟨w, by rw [this], by rw [this, hrun], ?_⟩
  rw [h2]
  simp only
  induction l.features with
  | nil => rfl
  | cons f fs ih => simp only [List.map_cons, List.flatMap_cons, ih]; rfl

/-- non-vacuity: a layer with one feature of each sort -/
example : ∀ f ∈ [(⟨.lineString [⟨1, 2⟩, ⟨3, 4⟩], [(txt "a", .sint 5)]⟩ : MvtFeature), ⟨.point ⟨-1, 0⟩, []⟩],
    f.geometry.Minimal ∧ f.geometry.denote.Budget szT ∧ ∀ p ∈ f.properties, p.2.Stable := by
  intro f hf
  simp only [List.mem_cons, List.not_mem_nil, or_false] at hf
  rcases hf with rfl | rfl
  · refine ⟨by simp [MvtGeom.Minimal, MvtGeom.All], by simp [MvtGeom.denote, Geom.Budget, Within, szT], ?_⟩
    intro p hp
    simp only [List.mem_cons, List.not_mem_nil, or_false] at hp
    subst hp; trivial
  · exact ⟨trivial, trivial, by simp⟩

/-! ### C27 -/

/-- Reading a layer makes its calls in the documented order, against every processor. -/
theorem C27_mvt (l : MvtLayer) : (mvtProcess l).FollowsContract := by
  apply FProg.follows_of_obeys
  refine FProg.Obeys.call_bind (s' := .dataset 0) rfl ?_
  refine FProg.Obeys.bind (FProg.Obeys.forIdx (fun i => .dataset i) ?_ 0 l.features) ?_
  · intro i f
    refine FProg.Obeys.call_bind (s' := .feature i false false) (if_pos rfl) ?_
    refine FProg.Obeys.call_bind (s' := .props i false) rfl ?_
    refine FProg.Obeys.bind (FProg.Obeys.forIdx (fun _ => .props i false) ?_ 0 _) ?_
    · intro j p
      unfold mvtProperty
      cases p.2.column with
      | none => exact rfl
      | some v => exact FProg.Obeys.call rfl
    · rintro - t rfl
      refine FProg.Obeys.call_bind (s' := .feature i true false) rfl ?_
      refine FProg.Obeys.call_bind (s' := .geom i true) rfl ?_
      refine FProg.Obeys.bind (FProg.Obeys.lift _ i true) ?_
      rintro - t rfl
      refine FProg.Obeys.call_bind (s' := .feature i true true) rfl ?_
      exact FProg.Obeys.call (if_pos rfl)
  · rintro - t rfl
    exact FProg.Obeys.call rfl

/-! ### C50 -/

/-- Decoding any bytes in any WKB dialect into a tile feature returns a feature or an error: it never panics (not even a
debug assertion fails). -/
theorem C50_mvt_from_wkb_never_panics (ar : FArith) (fo : FOps) (sz : ElemSizes) (d : WkbDialect) (bs : List Byte)
    (e : Err) (h : mvtFromWkb ar sz fo d bs = .error e) : e.isPanic = false := by
  have h : toMvt sz truncXY (processWkbTypeGeom fo d) bs = .error e := h
  have hr := interp_run (MvtWriter.proc sz truncXY) false (fun _ => rfl) (processWkbTypeGeom fo d) {} bs
  have hpre : ∃ srid g, (run false (processWkbTypeGeom fo d) bs).1.map looseEv
      <+: (Ev.srid srid :: Geom.events false 0 g).map looseEv := by
    rcases hrun : run false (processWkbTypeGeom fo d) bs with ⟨evs, r⟩
    cases r with
    | ok a =>
      obtain ⟨⟨⟩, rest⟩ := a
      by_cases hd : d = .spatiaLite
      · subst hd
        obtain ⟨srid, g, _, h2⟩ := C08_spatialite_success_loose fo false bs rest evs hrun
        exact ⟨srid, g, by rw [h2]; exact List.prefix_refl _⟩
      · obtain ⟨srid, g, _, h2⟩ := C08_success_is_one_geometry fo d hd false bs rest evs hrun
        exact ⟨srid, g, by rw [h2]; exact List.prefix_refl _⟩
    | error e =>
      by_cases hd : d = .spatiaLite
      · subst hd
        exact C09_spatialite_failure_loose fo false bs evs e hrun
      · obtain ⟨srid, g, h2⟩ := C09_failure_is_prefix fo d hd false bs evs e hrun
        exact ⟨srid, g, h2.map _⟩
  unfold toMvt at h
  rcases hi : interp (MvtWriter.proc sz truncXY) (processWkbTypeGeom fo d) {} bs with ⟨w, evs, r⟩
  rw [hi] at h
  cases r with
  | ok a =>
    simp only [MvtWriter.intoFeature] at h
    split at h
    · cases h; rfl
    · cases h
  | error x =>
    simp only [Except.error.injEq] at h
    subst h
    rcases interp_spec (MvtWriter.proc sz truncXY) (processWkbTypeGeom fo d) {} bs with h1 | ⟨pre, ev, x', h1, h2, h3, h4⟩
    · obtain ⟨_, hb⟩ := hr.2 h1
      rw [hi] at hb
      exact C10_reader_never_panics fo d false bs _ x (Prod.ext rfl hb.symm)
    · rw [hi] at h4
      simp only [Except.error.injEq] at h4
      subst h4
      obtain ⟨srid, g, hg⟩ := hpre
      have hfe : feed (MvtWriter.step sz truncXY) {}
          (interp (MvtWriter.proc sz truncXY) (processWkbTypeGeom fo d) {} bs).2.1 = .error x := by
        rw [h1, feed_append]
        have h2' : feed (MvtWriter.step sz truncXY) {} pre = _ := h2
        rw [h2']
        simp only [feed]
        have h3' : MvtWriter.step sz truncXY _ ev = _ := h3
        rw [h3']
      exact MvtWriter.prefix_no_panic sz truncXY g srid _ ((hr.1.map _).trans hg) x hfe

/-- non-vacuity: errors do occur, for instance on an empty input -/
example (ar : FArith) (fo : FOps) (sz : ElemSizes) (d : WkbDialect) : mvtFromWkb ar sz fo d [] = .error .io := by
  cases d <;> rfl

end Geozero
