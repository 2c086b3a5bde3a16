import Verif.Lemmas.GeoTypes
import Verif.Props.WkbWrite
import Verif.Props.WkbAny

/-
C15-C18: geo-types geometries.
-/

namespace Geozero
open Prog Spec WkbWriter

/-! ### C15 -/

/-- The reader delivers the event stream of the geometry, to any processor. -/
theorem C15_geo_reader_stream (g : GeoGeom) (multi : Bool) (bs : List Byte) :
    run multi (geoProcessGeom g) bs = (g.denote.events multi 0, .ok ((), bs)) :=
  run_geoGeomN multi 0 bs g

/-- The normalised value denotes the same geometry. -/
theorem C15_normal_same_geometry (g : GeoGeom) : g.normal.denote = g.denote := normal_denote g

/-- Reading a geo-types geometry into a fresh `GeoWriter` succeeds, `take_geometry` returns the geometry,
normalised, and the writer is empty again. -/
theorem C15_geo_round_trip (sz : ElemSizes) (g : GeoGeom) (hc : g.Closed) (hb : g.denote.Budget sz)
    (bs : List Byte) :
    ∃ w evs, interp (GeoWriter.proc sz) (geoProcessGeom g) {} bs = (w, evs, .ok ((), bs)) ∧
      w.takeGeometry = (some g.normal, {}) := by
  have hr := C15_geo_reader_stream g false bs
  have hf := GeoWriter.feed_geom sz g.denote {} g.normal 0 ⟨rfl, rfl, rfl⟩ (geo_denote g hc) hb
  refine ⟨_, _, interp_of_feed_ok (GeoWriter.proc sz) false (fun _ => rfl) _ _ _ bs (by rw [hr]; exact hf) |>.trans
    (by rw [hr]), rfl⟩

/-- `to_geo` returns the normalised geometry. -/
theorem C15_to_geo (sz : ElemSizes) (g : GeoGeom) (hc : g.Closed) (hb : g.denote.Budget sz) :
    toGeo sz (geoProcessGeom g) [] = .ok g.normal := by
  obtain ⟨w, evs, h, ht⟩ := C15_geo_round_trip sz g hc hb []
  unfold toGeo
  rw [h]
  simp only [ht]

/-- A writer that already holds geometries appends the new one: `take_geometry` then gives a collection of
everything received, in order. -/
theorem C15_geo_writer_appends (sz : ElemSizes) (w : GeoWriter) (hi : w.Idle) (hcol : w.collections = [])
    (g : GeoGeom) (hc : g.Closed) (hb : g.denote.Budget sz) :
    feed (GeoWriter.step sz) w (g.denote.events false 0) = .ok { w with geoms := w.geoms ++ [g.normal] } := by
  rw [GeoWriter.feed_geom sz g.denote w g.normal 0 hi (geo_denote g hc) hb]
  simp [GeoWriter.finish, hcol]

/-- What `take_geometry` returns after the streams of any number of geometries: nothing, the geometry, or the
collection of all of them in order; the writer is empty again afterwards. -/
theorem C15_take_geometry (sz : ElemSizes) (gs : List GeoGeom) (hc : ∀ g ∈ gs, g.Closed)
    (hb : ∀ g ∈ gs, g.denote.Budget sz) :
    ∃ w, feed (GeoWriter.step sz) {} (gs.flatMap fun g => g.denote.events false 0) = .ok w ∧
      w.takeGeometry = (match gs.map GeoGeom.normal with
        | [] => none
        | [g] => some g
        | all => some (.collection all), {}) := by
  have key : ∀ (gs : List GeoGeom), (∀ g ∈ gs, g.Closed) → (∀ g ∈ gs, g.denote.Budget sz) → ∀ acc : List GeoGeom,
      feed (GeoWriter.step sz) { geoms := acc } (gs.flatMap fun g => g.denote.events false 0)
        = .ok { geoms := acc ++ gs.map GeoGeom.normal } := by
    intro gs
    induction gs with
    | nil => intro _ _ acc; simp
    | cons g gs ih =>
      intro hc hb acc
      rw [List.flatMap_cons, feed_append, C15_geo_writer_appends sz { geoms := acc } ⟨rfl, rfl, rfl⟩ rfl g
        (hc g (by simp)) (hb g (by simp))]
      simp only
      rw [ih (fun x hx => hc x (by simp [hx])) (fun x hx => hb x (by simp [hx])) (acc ++ [g.normal])]
      simp
  refine ⟨_, key gs hc hb [], ?_⟩
  simp only [List.nil_append, GeoWriter.takeGeometry]
  cases gs.map GeoGeom.normal with
  | nil => rfl
  | cons a l => cases l <;> rfl

/-- Without the budget hypothesis C15 is **false**: a line string of more than 1048576 coordinates
(of 16 bytes each) is refused. -/
theorem C15_large_line_false (sz : ElemSizes) (hz : sz.coord = 16) (cs : List XY) (h : 1048576 < cs.length) :
    toGeo sz (geoProcessGeom (.lineString cs)) [] = .error (.geometry "preallocation budget") := by
  have hr := C15_geo_reader_stream (.lineString cs) false []
  have hf : feed (GeoWriter.step sz) {} (run false (geoProcessGeom (.lineString cs)) []).1
      = .error (.geometry "preallocation budget") := by
    rw [hr]
    simp only [GeoGeom.denote, Geom.events, lineEvs, bracket, feed_cons, GeoWriter.step, GeoWriter.gbegin,
      GeoWriter.debugAssert, Option.isNone_none, if_true, boundedVec, validateCapacity, saturatingMul,
      maxPreallocBytes, usizeMax, List.length_map, hz]
    rw [if_pos (by omega)]
  have := interp_of_feed_error (GeoWriter.proc sz) false (fun _ => rfl) (geoProcessGeom (.lineString cs)) {} []
    _ hf
  unfold toGeo
  split
  · rename_i h1; rw [h1] at this; cases this
  · rename_i h1; rw [h1] at this; simpa using this

/-- one, two and three as f64 patterns -/
private def f1 : F64 := 0x3FF0000000000000#64
private def f2 : F64 := 0x4000000000000000#64
private def f3 : F64 := 0x4008000000000000#64

/-- sizes on a 64-bit target -/
private def sz64 : ElemSizes := ⟨16, 24, 48, 56⟩

private def sample : GeoGeom := .collection [.rect ⟨f1, f1⟩ ⟨f2, f3⟩, .collection [.point ⟨f1, f2⟩, .line ⟨f1, f1⟩ ⟨f2, f2⟩],
  .polygon ⟨[⟨f1, f1⟩, ⟨f2, f1⟩, ⟨f2, f2⟩, ⟨f1, f1⟩], []⟩, .triangle ⟨f1, f1⟩ ⟨f2, f1⟩ ⟨f1, f3⟩]

/-- non-vacuity -/
example : sample.Closed ∧ sample.denote.Budget sz64 := by
  refine ⟨?_, ?_⟩
  · simp only [sample, GeoGeom.Closed, GeoGeom.ClosedList, GPoly.Closed]
    decide +kernel
  · have h1 : rectRing ⟨f1, f1⟩ ⟨f2, f3⟩ = [⟨f2, f1⟩, ⟨f2, f3⟩, ⟨f1, f3⟩, ⟨f1, f1⟩, ⟨f2, f1⟩] := by decide +kernel
    have h2 : triangleRing ⟨f1, f1⟩ ⟨f2, f1⟩ ⟨f1, f3⟩ = [⟨f1, f1⟩, ⟨f2, f1⟩, ⟨f1, f3⟩, ⟨f1, f1⟩] := by decide +kernel
    simp [sample, GeoGeom.denote, GeoGeom.denoteList, Geom.Budget, Geom.BudgetList, GPoly.rings, h1, h2, Within, sz64]

/-! ### C16 -/

/-- Whatever the bytes and the dialect, decoding to geo-types returns a geometry or an error: it never
panics (not even a debug assertion fails). -/
theorem C16_from_wkb_never_panics (fo : FOps) (sz : ElemSizes) (d : WkbDialect) (bs : List Byte) (e : Err)
    (h : geoFromWkb fo sz d bs = .error e) : e.isPanic = false := by
  have hr := interp_run (GeoWriter.proc sz) false (fun _ => rfl) (processWkbTypeGeom fo d) {} bs
  have hpre : ∃ srid g, (run false (processWkbTypeGeom fo d) bs).1.map looseEv
      <+: (Ev.srid srid :: Geom.events false 0 g).map looseEv := by
    rcases hrun : run false (processWkbTypeGeom fo d) bs with ⟨evs, r⟩
    cases r with
    | ok a =>
      obtain ⟨⟨⟩, rest⟩ := a
      by_cases hd : d = .spatiaLite
      · subst hd
        obtain ⟨srid, g, _, h2⟩ := C08_spatialite_success_loose fo false bs rest evs hrun
        exact ⟨srid, g, by rw [h2]; exact List.prefix_refl _⟩
      · obtain ⟨srid, g, _, h2⟩ := C08_success_is_one_geometry fo d hd false bs rest evs hrun
        exact ⟨srid, g, by rw [h2]; exact List.prefix_refl _⟩
    | error e =>
      by_cases hd : d = .spatiaLite
      · subst hd
        exact C09_spatialite_failure_loose fo false bs evs e hrun
      · obtain ⟨srid, g, h2⟩ := C09_failure_is_prefix fo d hd false bs evs e hrun
        exact ⟨srid, g, h2.map _⟩
  unfold geoFromWkb at h
  rcases hi : interp (GeoWriter.proc sz) (processWkbTypeGeom fo d) {} bs with ⟨w, evs, r⟩
  rw [hi] at h
  cases r with
  | ok a =>
    simp only at h
    split at h
    · cases h
    · cases h; rfl
  | error x =>
    simp only [Except.error.injEq] at h
    subst h
    rcases interp_spec (GeoWriter.proc sz) (processWkbTypeGeom fo d) {} bs with h1 | ⟨pre, ev, x', h1, h2, h3, h4⟩
    · obtain ⟨_, hb⟩ := hr.2 h1
      rw [hi] at hb
      exact C10_reader_never_panics fo d false bs _ x (Prod.ext rfl hb.symm)
    · rw [hi] at h4
      simp only [Except.error.injEq] at h4
      subst h4
      obtain ⟨srid, g, hg⟩ := hpre
      have hfe : feed (GeoWriter.step sz) {} (interp (GeoWriter.proc sz) (processWkbTypeGeom fo d) {} bs).2.1
          = .error x := by
        rw [h1, feed_append]
        have h2' : feed (GeoWriter.step sz) {} pre = _ := h2
        rw [h2']
        simp only [feed]
        have h3' : GeoWriter.step sz _ ev = _ := h3
        rw [h3']
      exact GeoWriter.prefix_no_panic sz {} ⟨rfl, rfl, rfl⟩ g srid _ ((hr.1.map _).trans hg) x hfe

/-- non-vacuity: errors do occur, for instance on an empty input -/
example (fo : FOps) (sz : ElemSizes) (d : WkbDialect) : geoFromWkb fo sz d [] = .error .io := by
  cases d <;> rfl

/-- ... and an empty point inside a collection is refused, not a panic -/
example (fo : FOps) : geoFromWkb fo sz64 .wkb ([1] ++ encU32 .le 1 ++ List.replicate 16 0xFF)
    = .error (.geometry "empty Point") := by rfl

/-! ### C17 -/

/-- decoding what a reader delivers as the stream of a representable geometry -/
private theorem geoFromWkb_ok (fo : FOps) (sz : ElemSizes) (dl : WkbDialect) (h : Geom) (r : GeoGeom)
    (bs rest : List Byte) (srid : Option Int) (hg : h.geo = some r) (hb : h.Budget sz)
    (hrun : run false (processWkbTypeGeom fo dl) bs = (.srid srid :: h.events false 0, .ok ((), rest))) :
    geoFromWkb fo sz dl bs = .ok r := by
  have hf : feed (GeoWriter.step sz) {} (run false (processWkbTypeGeom fo dl) bs).1
      = .ok (GeoWriter.finish {} r) := by
    rw [hrun]
    simp only [feed_cons, GeoWriter.step]
    exact GeoWriter.feed_geom sz h {} r 0 ⟨rfl, rfl, rfl⟩ hg hb
  unfold geoFromWkb
  rw [interp_of_feed_ok (GeoWriter.proc sz) false (fun _ => rfl) _ _ _ bs hf, hrun]
  rfl

/-- What a dialect can store besides the geometry: 32-bit SRIDs (MySQL: not negative), and for GeoPackage
an envelope of no or four values (the envelope dimensions are not set by `to_gpkg_wkb`). -/
def HeaderOk : WkbDialect → Option Int → List F64 → Prop
  | .wkb, _, _ => True
  | .ewkb, srid, _ => ∀ v ∈ srid, isI32 v
  | .geopackage, srid, env => (∀ v ∈ srid, isI32 v) ∧ (env.length = 0 ∨ env.length = 4)
  | .mySQL, srid, _ => ∀ v ∈ srid, isI32 v ∧ 0 ≤ v
  | .spatiaLite, _, _ => False

/-- Encoding a geo-types geometry as WKB, EWKB, GeoPackage or MySQL WKB, with any dimensions, and decoding
it gives the geometry back, normalised. -/
theorem C17_geo_wkb_geo (fo : FOps) (sz : ElemSizes) (hz : sz.Pos) (dl : WkbDialect) (d : Dims)
    (srid : Option Int) (env : List F64) (hh : HeaderOk dl srid env) (g : GeoGeom) (hc : g.Closed)
    (hb : g.denote.Budget sz) (hn : g.denote.hasNaNPoint = false) (hl : g.denote.levels ≤ 128) :
    ∃ bytes, toWkbDialect (geoProcessGeom g) dl d srid env = .ok bytes ∧
      geoFromWkb fo sz dl bytes = .ok g.normal := by
  have hr := C15_geo_reader_stream g d.multi []
  have hf := denote_fits sz hz g hb
  have he := denote_noEmpty g
  have hgeo : (g.denote.stored d).geo = some g.normal := by rw [stored_geo d g hn, geo_denote g hc]
  have hbud := stored_budget d sz g hb
  have hlev : (g.denote.stored d).levels ≤ 128 := by rw [Geom.levels_stored]; exact hl
  have fin : ∀ (w : WkbWriter) (s : Option Int),
      feed WkbWriter.step (WkbWriter.withOpts dl d srid env) (.srid none :: g.denote.events d.multi 0) = .ok w →
      (∃ rest, run false (processWkbTypeGeom fo dl) w.out
        = (.srid s :: (g.denote.stored d).events false 0, .ok ((), rest))) →
      ∃ bytes, toWkbDialect (geoProcessGeom g) dl d srid env = .ok bytes ∧
        geoFromWkb fo sz dl bytes = .ok g.normal := by
    rintro w s h1 ⟨rest, h2⟩
    exact ⟨w.out, toWkbDialect_ok hr h1, geoFromWkb_ok fo sz dl _ _ w.out rest s hgeo hbud h2⟩
  cases dl with
  | wkb =>
    obtain ⟨w, h1, h2⟩ := C07_wkb_writer_conforms d srid none env _ hf he
    have h3 := C06_wkb_decodes fo d .le _ w.out [] false h2 hlev
    rw [List.append_nil] at h3
    exact fin w _ h1 ⟨_, h3⟩
  | ewkb =>
    obtain ⟨w, h1, h2⟩ := C07_ewkb_writer_conforms d srid none env _ hf he
    have h3 := C06_ewkb_decodes fo d .le srid hh _ w.out [] false h2 hlev
    rw [List.append_nil] at h3
    exact fin w _ h1 ⟨_, h3⟩
  | geopackage =>
    have henv : EnvelopeCode (envelopeCodeOf env {}) env.length := by
      rcases hh.2 with h | h
      · simp [List.length_eq_zero_iff.mp h, envelopeCodeOf, EnvelopeCode]
      · have : env ≠ [] := by intro h0; simp [h0] at h
        simp [this, h, envelopeCodeOf, EnvelopeCode]
    have hs' : isI32 (srid.getD 0) := by
      cases srid with
      | none => decide
      | some v => exact hh.1 v rfl
    obtain ⟨w, h1, h2⟩ := C07_gpkg_writer_conforms d d srid none env {} false false _ henv hf he
    have h3 := C06_gpkg_decodes_partial fo d .le _ hs' env _ w.out [] false h2 hlev
    rw [List.append_nil] at h3
    exact fin w _ h1 ⟨_, h3⟩
  | mySQL =>
    obtain ⟨w, h1, h2⟩ := C07_mysql_writer_conforms d srid none env _ (fun v hv => (hh v hv).2) hf he
    have hlt : (srid.getD 0).toNat < 2 ^ 31 := by
      cases srid with
      | none => decide
      | some v =>
        have := hh v rfl
        unfold isI32 at this
        simp only [Option.getD_some]
        omega
    have h3 := C06_mysql_decodes fo d _ hlt _ w.out [] false h2 hlev
    rw [List.append_nil] at h3
    exact fin w _ h1 ⟨_, h3⟩
  | spatiaLite => exact absurd hh id

/-- SpatiaLite: for the geometries of `C05_spatialite_round_trip_partial` (everything but a single polygon,
rectangle or triangle on its own). -/
theorem C17_geo_spatialite_geo_partial (fo : FOps) (sz : ElemSizes) (hz : sz.Pos) (d : Dims) (srid : Option Int)
    (hs : ∀ v ∈ srid, isI32 v) (env : List F64) (henv : env.length = 0 ∨ env.length = 4) (g : GeoGeom)
    (hsafe : slSafe g.denote = true) (hc : g.Closed) (hb : g.denote.Budget sz)
    (hn : g.denote.hasNaNPoint = false) (hl : g.denote.levels ≤ 128) :
    ∃ bytes, toWkbDialect (geoProcessGeom g) .spatiaLite d srid env = .ok bytes ∧
      geoFromWkb fo sz .spatiaLite bytes = .ok g.normal := by
  have hr := C15_geo_reader_stream g d.multi []
  have hgeo : (g.denote.stored d).geo = some g.normal := by rw [stored_geo d g hn, geo_denote g hc]
  obtain ⟨w, h1, h2⟩ := C07_spatialite_writer_conforms_partial d srid none env g.denote henv hsafe
    (denote_fits sz hz g hb) (denote_noEmpty g)
  have hs' : isI32 (srid.getD 0) := by
    cases srid with
    | none => decide
    | some v => exact hs v rfl
  have h3 := C06_spatialite_decodes fo d .le _ hs' _ _ w.out [] false h2 (by rw [Geom.levels_stored]; exact hl)
  rw [List.append_nil] at h3
  exact ⟨w.out, toWkbDialect_ok hr h1,
    geoFromWkb_ok fo sz .spatiaLite _ _ w.out _ _ hgeo (stored_budget d sz g hb) h3⟩

/-- non-vacuity -/
example : sz64.Pos ∧ HeaderOk .geopackage (some 4326) [] ∧ sample.denote.hasNaNPoint = false ∧
    sample.denote.levels ≤ 128 ∧ slSafe sample.denote = true := by
  refine ⟨by simp [ElemSizes.Pos, sz64], ⟨by simp [isI32], Or.inl rfl⟩, by decide, by decide, by decide⟩

/-! ### C18 -/

/-- The size check accepts a capacity exactly when its exact product with the element size is within
16 MiB, for every capacity and element size a `usize` can hold: saturation never lets a large one pass. -/
theorem C18_validate_capacity_exact (size capacity : Nat) :
    (validateCapacity size capacity = .ok () ↔ capacity * size ≤ 16 * 1024 * 1024) ∧
    (validateCapacity size capacity ≠ .ok () → ∃ m, validateCapacity size capacity = .error (.geometry m)) := by
  unfold validateCapacity saturatingMul maxPreallocBytes usizeMax
  by_cases h : capacity * size ≤ 16777216
  · rw [if_neg (by omega)]
    simp
    omega
  · rw [if_pos (by omega)]
    simp
    omega

/-- A reservation that is made reserves exactly the announced number of elements and at most 16 MiB. -/
theorem C18_reserved_bytes_bounded (α : Type) (size capacity : Nat) (v : List α) (bytes : Nat)
    (h : boundedVec α size capacity = .ok (v, bytes)) :
    v = [] ∧ bytes = capacity * size ∧ bytes ≤ 16 * 1024 * 1024 := by
  unfold boundedVec at h
  have := (C18_validate_capacity_exact size capacity).1
  split at h
  · rename_i h1
    cases h
    exact ⟨rfl, rfl, this.mp h1⟩
  · cases h

/-- the element size that counts for a geometry kind -/
def announcedSize (sz : ElemSizes) : GKind → Option Nat
  | .multiPoint | .lineString => some sz.coord
  | .multiLineString | .polygon => some sz.line
  | .multiPolygon => some sz.poly
  | .collection => some sz.geom
  | _ => none

/-- Whatever state the writer is in: an announced size above the budget is an error (the state is not
changed), whichever kind of geometry announces it. -/
theorem C18_announced_size_rejected (sz : ElemSizes) (w : GeoWriter) (k : GKind) (tagged : Bool) (n idx size : Nat)
    (hs : announcedSize sz k = some size) (hn : 16 * 1024 * 1024 < n * size) :
    ∃ e, GeoWriter.step sz w (.gbegin k tagged n idx) = .error e := by
  have hv : ∀ α : Type, boundedVec α size n = .error (.geometry "preallocation budget") := by
    intro α
    unfold boundedVec validateCapacity saturatingMul maxPreallocBytes usizeMax
    rw [if_pos (by omega)]
  cases k <;> simp only [announcedSize, Option.some.injEq, reduceCtorEq] at hs <;> subst hs <;>
    simp only [GeoWriter.step, GeoWriter.gbegin, GeoWriter.debugAssert, hv] <;> (try split) <;> exact ⟨_, rfl⟩

/-- ... and one within the budget is accepted by an idle writer. -/
theorem C18_announced_size_accepted (sz : ElemSizes) (w : GeoWriter) (hi : w.Idle) (k : GKind) (tagged : Bool)
    (n idx size : Nat) (hs : announcedSize sz k = some size) (hn : n * size ≤ 16 * 1024 * 1024) :
    ∃ w', GeoWriter.step sz w (.gbegin k tagged n idx) = .ok w' := by
  have hv : ∀ α : Type, boundedVec α size n = .ok ([], n * size) := fun α => GeoWriter.boundedVec_ok hn
  obtain ⟨h1, h2, h3⟩ := hi
  cases k <;> simp only [announcedSize, Option.some.injEq, reduceCtorEq] at hs <;> subst hs <;>
    simp only [GeoWriter.step, GeoWriter.gbegin, GeoWriter.debugAssert, hv, h1, h2, h3, Option.isNone_none, if_true] <;>
    exact ⟨_, rfl⟩

/-- non-vacuity: the boundary for 16-byte coordinates -/
example : validateCapacity 16 1048576 = .ok () ∧ validateCapacity 16 1048577 ≠ .ok () ∧
    validateCapacity 16 (2 ^ 64 - 1) ≠ .ok () := by
  simp [validateCapacity, saturatingMul, maxPreallocBytes, usizeMax]

end Geozero
