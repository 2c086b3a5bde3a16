import Verif.Props.WkbRead

/-
C01-C05, C07: the WKB writers, and writing followed by reading.
-/

namespace Geozero
open Spec Prog WkbWriter

/-- The writer accepts the `srid` call every reader makes first, and ignores it. -/
private theorem feed_srid (w : WkbWriter) (s : Option Int) (evs : List Ev) :
    feed step w (.srid s :: evs) = feed step w evs := rfl

private theorem foot_nil {w : WkbWriter} (h : w.dialect ≠ .spatiaLite) : foot w = [] := by
  simp [foot, h]

/-! ### C07: the output is an encoding of the specification -/

/-- Plain WKB. -/
theorem C07_wkb_writer_conforms (d : Dims) (srid s : Option Int) (env : List F64) (g : Geom)
    (hf : g.Fits) (he : g.hasEmptyPoint = false) :
    ∃ w, feed step (withOpts .wkb d srid env) (.srid s :: g.events d.multi 0) = .ok w ∧
      OgcWkb d .le (g.stored d) w.out := by
  have hg : Good d .wkb (withOpts .wkb d srid env) := ⟨rfl, rfl, rfl, Or.inr rfl⟩
  obtain ⟨b, h1, bb, rfl, hb⟩ := emits_geom g _ _ _ 0 rfl (HdrStep.later hg (geomType g)) hg hf he
    (Or.inl (foot_nil (by simp [withOpts, withExtendedOpts, started])))
  refine ⟨_, h1, Geom.stored_hasDims d g, laterHdr .wkb d (geomType g), bb, ?_, ?_, hb⟩
  · rw [foot_nil (by simp [withOpts, withExtendedOpts, started])]; simp [WkbWriter.put, withOpts, withExtendedOpts]
  · rw [← geomType_toU32 d g]; exact laterHdr_spec .wkb d (geomType g)

/-- EWKB: the SRID is in the outermost header only. -/
theorem C07_ewkb_writer_conforms (d : Dims) (srid s : Option Int) (env : List F64) (g : Geom)
    (hf : g.Fits) (he : g.hasEmptyPoint = false) :
    ∃ w, feed step (withOpts .ewkb d srid env) (.srid s :: g.events d.multi 0) = .ok w ∧
      Ewkb d .le srid (g.stored d) w.out := by
  obtain ⟨b, h1, bb, rfl, hb⟩ := emits_geom (dl := .ewkb) g _ _ _ 0 rfl
    (hdrStep_ewkb d srid env (geomType g)) good_started hf he (Or.inl (foot_nil (by simp [withOpts, withExtendedOpts, started])))
  refine ⟨_, h1, Geom.stored_hasDims d g, bb, hb, ?_⟩
  rw [foot_nil (by simp [withOpts, withExtendedOpts, started]), ← geomType_toU32 d g]
  simp [WkbWriter.put, withOpts, withExtendedOpts, started]

/-- GeoPackage envelope code of the dimensions given for the envelope. -/
def envelopeCodeOf (env : List F64) (ed : Dims) : Nat :=
  if env = [] then 0 else 1 + (if ed.z then 1 else 0) + (if ed.m then 2 else 0)

/-- GeoPackage, with the extended constructor; the number of envelope values must agree with the
envelope dimensions given. -/
theorem C07_gpkg_writer_conforms (d rd : Dims) (srid s : Option Int) (env : List F64) (ed : Dims)
    (x y : Bool) (g : Geom) (henv : EnvelopeCode (envelopeCodeOf env ed) env.length)
    (hf : g.Fits) (he : g.hasEmptyPoint = false) :
    ∃ w, feed step (withExtendedOpts .geopackage d rd srid env ed x y) (.srid s :: g.events d.multi 0) = .ok w ∧
      Gpkg d .le .le (srid.getD 0) env (g.stored d) w.out := by
  obtain ⟨b, h1, bb, rfl, hb⟩ := emits_geom (dl := .geopackage) g _ _ _ 0 rfl
    (hdrStep_gpkg d rd srid env ed x y (geomType g)) good_started hf he (Or.inl (foot_nil (by simp [withOpts, withExtendedOpts, started])))
  refine ⟨_, h1, _, _, ?_, ⟨0, envelopeCodeOf env ed, x, y, henv, rfl⟩,
    Geom.stored_hasDims d g, _, bb, rfl, rfl, hb⟩
  rw [foot_nil (by simp [withOpts, withExtendedOpts, started]), ← geomType_toU32 d g]
  have hflags : gpkgFlags (withExtendedOpts .geopackage d rd srid env ed x y)
      = (if Endian.le = .le then 1 else 0) + 2 * envelopeCodeOf env ed + (if y then 16 else 0)
          + (if x then 32 else 0) := by
    simp only [gpkgFlags, withExtendedOpts, envelopeCodeOf]
    cases env with
    | nil => cases x <;> cases y <;> simp
    | cons a as => cases ed.z <;> cases ed.m <;> cases x <;> cases y <;> simp
  rw [hflags]
  simp [WkbWriter.put, withExtendedOpts, started]

/-- MySQL, with a non-negative SRID or none. -/
theorem C07_mysql_writer_conforms (d : Dims) (srid s : Option Int) (env : List F64) (g : Geom)
    (hs : ∀ v ∈ srid, 0 ≤ v) (hf : g.Fits) (he : g.hasEmptyPoint = false) :
    ∃ w, feed step (withOpts .mySQL d srid env) (.srid s :: g.events d.multi 0) = .ok w ∧
      MySql d (srid.getD 0).toNat (g.stored d) w.out := by
  obtain ⟨b, h1, bb, rfl, hb⟩ := emits_geom (dl := .mySQL) g _ _ _ 0 rfl
    (hdrStep_mysql d srid env (geomType g) hs) good_started hf he (Or.inl (foot_nil (by simp [withOpts, withExtendedOpts, started])))
  refine ⟨_, h1, _, ?_, Geom.stored_hasDims d g, _, bb, rfl, rfl, hb⟩
  rw [foot_nil (by simp [withOpts, withExtendedOpts, started]), ← geomType_toU32 d g]
  simp [WkbWriter.put, withOpts, withExtendedOpts, started]

/-- SpatiaLite: points, line strings, circular strings, and every multi-geometry or collection of
anything.  Missing: non-empty polygons, triangles, compound curves, curve polygons, polyhedral surfaces
and TINs as the *outermost* geometry (see `C05_spatialite_polygon_false`). -/
theorem C07_spatialite_writer_conforms_partial (d : Dims) (srid s : Option Int) (env : List F64) (g : Geom)
    (henv : env.length = 0 ∨ env.length = 4) (hsafe : slSafe g = true)
    (hf : g.Fits) (he : g.hasEmptyPoint = false) :
    ∃ w, feed step (withOpts .spatiaLite d srid env) (.srid s :: g.events d.multi 0) = .ok w ∧
      SpatiaLite d .le (srid.getD 0) (if env = [] then [F64.zero, F64.zero, F64.zero, F64.zero] else env)
        (g.stored d) w.out := by
  obtain ⟨b, h1, bb, rfl, hb⟩ := emits_geom (dl := .spatiaLite) g _ _ _ 0 rfl
    (hdrStep_spatialite d srid env (geomType g)) good_started hf he (Or.inr hsafe)
  refine ⟨_, h1, ?_, Geom.stored_hasDims d g, bb, hb, ?_⟩
  · rcases henv with h | h
    · simp [List.length_eq_zero_iff.mp h]
    · have : env ≠ [] := by intro h0; simp [h0] at h
      simp [this, h]
  · rw [← geomType_toU32 d g]
    simp [WkbWriter.put, withOpts, withExtendedOpts, started, foot]

/-! ### C01-C05: writing, then reading -/

/-- C01.  A geometry with the writer's dimensions comes back with exactly its events, and the reader
consumes exactly what was written. -/
theorem C01_wkb_round_trip (fo : FOps) (d : Dims) (srid s : Option Int) (env : List F64) (g : Geom)
    (hf : g.Fits) (he : g.hasEmptyPoint = false) (hd : AllCoords (HasDims d) g)
    (hn : g.hasNaNPoint = false) (hl : g.levels ≤ 128) :
    ∃ w, feed step (withOpts .wkb d srid env) (.srid s :: g.events d.multi 0) = .ok w ∧
      ∀ multi rest, run multi (processWkbTypeGeom fo .wkb) (w.out ++ rest)
        = (.srid none :: g.events multi 0, .ok ((), rest)) := by
  obtain ⟨w, h1, h2⟩ := C07_wkb_writer_conforms d srid s env g hf he
  rw [Geom.stored_eq d g hd hn] at h2
  exact ⟨w, h1, fun multi rest => C06_wkb_decodes fo d .le g w.out rest multi h2 hl⟩

/-- C01 for geometries of other dimensions or with NaN points: what comes back is the stored form
(missing z, m filled with 0, superfluous ones dropped, an all-NaN point read as an empty point). -/
theorem C01_wkb_round_trip_stored (fo : FOps) (d : Dims) (srid s : Option Int) (env : List F64) (g : Geom)
    (hf : g.Fits) (he : g.hasEmptyPoint = false) (hl : g.levels ≤ 128) :
    ∃ w, feed step (withOpts .wkb d srid env) (.srid s :: g.events d.multi 0) = .ok w ∧
      ∀ multi rest, run multi (processWkbTypeGeom fo .wkb) (w.out ++ rest)
        = (.srid none :: (g.stored d).events multi 0, .ok ((), rest)) := by
  obtain ⟨w, h1, h2⟩ := C07_wkb_writer_conforms d srid s env g hf he
  exact ⟨w, h1, fun multi rest => C06_wkb_decodes fo d .le _ w.out rest multi h2
    (by rw [Geom.levels_stored]; exact hl)⟩

/-- C02.  EWKB, including every SRID and its absence. -/
theorem C02_ewkb_round_trip (fo : FOps) (d : Dims) (srid s : Option Int) (hs : ∀ v ∈ srid, isI32 v)
    (env : List F64) (g : Geom) (hf : g.Fits) (he : g.hasEmptyPoint = false) (hd : AllCoords (HasDims d) g)
    (hn : g.hasNaNPoint = false) (hl : g.levels ≤ 128) :
    ∃ w, feed step (withOpts .ewkb d srid env) (.srid s :: g.events d.multi 0) = .ok w ∧
      (∀ multi rest, run multi (processWkbTypeGeom fo .ewkb) (w.out ++ rest)
        = (.srid srid :: g.events multi 0, .ok ((), rest))) ∧
      wkbSrid .ewkb w.out = srid ∧ wkbDims .ewkb w.out = { z := d.z, m := d.m } := by
  obtain ⟨w, h1, h2⟩ := C07_ewkb_writer_conforms d srid s env g hf he
  rw [Geom.stored_eq d g hd hn] at h2
  have h3 := C12_ewkb_introspection d .le srid hs g w.out [] h2
  rw [List.append_nil] at h3
  exact ⟨w, h1, fun multi rest => C06_ewkb_decodes fo d .le srid hs g w.out rest multi h2 hl, h3.2, h3.1⟩

/-- C03.  GeoPackage with any SRID, envelope and flags; an absent SRID is stored as 0. -/
theorem C03_gpkg_round_trip (fo : FOps) (d rd : Dims) (srid s : Option Int) (hs : ∀ v ∈ srid, isI32 v)
    (env : List F64) (ed : Dims) (x y : Bool) (henv : EnvelopeCode (envelopeCodeOf env ed) env.length)
    (g : Geom) (hf : g.Fits) (he : g.hasEmptyPoint = false) (hd : AllCoords (HasDims d) g)
    (hn : g.hasNaNPoint = false) (hl : g.levels ≤ 128) :
    ∃ w, feed step (withExtendedOpts .geopackage d rd srid env ed x y) (.srid s :: g.events d.multi 0) = .ok w ∧
      (∀ multi rest, run multi (processWkbTypeGeom fo .geopackage) (w.out ++ rest)
        = (.srid (some (srid.getD 0)) :: g.events multi 0, .ok ((), rest))) ∧
      wkbSrid .geopackage w.out = some (srid.getD 0) ∧
      wkbDims .geopackage w.out = { z := d.z, m := d.m } ∧
      (∃ info, headerResult (topHeader .geopackage) w.out = some info ∧ info.envelope = env) := by
  obtain ⟨w, h1, h2⟩ := C07_gpkg_writer_conforms d rd srid s env ed x y g henv hf he
  have hs' : isI32 (srid.getD 0) := by
    cases srid with
    | none => decide
    | some v => exact hs v rfl
  rw [Geom.stored_eq d g hd hn] at h2
  have h3 := C12_gpkg_introspection d .le .le _ hs' env g w.out [] h2
  rw [List.append_nil] at h3
  refine ⟨w, h1, fun multi rest => C06_gpkg_decodes_partial fo d .le _ hs' env g w.out rest multi h2 hl,
    h3.2, h3.1, ?_⟩
  obtain ⟨hb, wb, hw, hhb, hc, hb2, bb, rfl, hhb2, hbody⟩ := h2
  unfold ogcHeader at hhb2
  subst hhb2
  have := run_readGpkgHeader d .le .le _ hs' env hb hhb (typeCode g) (typeCode_le g) false bb
  rw [← hw] at this
  exact ⟨_, headerResult_of this, rfl⟩

/-- C04.  MySQL with a non-negative SRID; an absent SRID is stored as 0. -/
theorem C04_mysql_round_trip (fo : FOps) (d : Dims) (srid s : Option Int) (hs : ∀ v ∈ srid, isI32 v ∧ 0 ≤ v)
    (env : List F64) (g : Geom) (hf : g.Fits) (he : g.hasEmptyPoint = false) (hd : AllCoords (HasDims d) g)
    (hn : g.hasNaNPoint = false) (hl : g.levels ≤ 128) :
    ∃ w, feed step (withOpts .mySQL d srid env) (.srid s :: g.events d.multi 0) = .ok w ∧
      (∀ multi rest, run multi (processWkbTypeGeom fo .mySQL) (w.out ++ rest)
        = (.srid (some (srid.getD 0)) :: g.events multi 0, .ok ((), rest))) ∧
      wkbSrid .mySQL w.out = some (srid.getD 0) := by
  obtain ⟨w, h1, h2⟩ := C07_mysql_writer_conforms d srid s env g (fun v hv => (hs v hv).2) hf he
  have hlt : (srid.getD 0).toNat < 2 ^ 31 ∧ ((srid.getD 0).toNat : Int) = srid.getD 0 := by
    cases srid with
    | none => decide
    | some v =>
      have := hs v rfl
      unfold isI32 at this
      simp only [Option.getD_some]
      omega
  rw [Geom.stored_eq d g hd hn] at h2
  have h3 := C12_mysql_introspection d _ hlt.1 g w.out [] h2
  rw [List.append_nil, hlt.2] at h3
  refine ⟨w, h1, fun multi rest => ?_, h3.2⟩
  have := C06_mysql_decodes fo d _ hlt.1 g w.out rest multi h2 hl
  rw [hlt.2] at this
  exact this

/-- C04.  A negative SRID cannot be represented: the first geometry call fails with the SRID error (so the
stream is rejected) before any byte is written. -/
theorem C04_mysql_negative_srid (d : Dims) (v : Int) (hv : v < 0) (env : List F64) (g : Geom)
    (s : Option Int) (he : g.hasEmptyPoint = false) :
    feed step (withOpts .mySQL d (some v) env) (.srid s :: g.events d.multi 0) = .error (.srid v) ∧
    (withOpts .mySQL d (some v) env).out = [] := by
  have hv' : ¬ 0 ≤ v := by omega
  refine ⟨?_, rfl⟩
  cases g <;>
    simp [Geom.events, lineEvs, circEvs, polyEvs, triEvs, bracket, feed, step, gbegin, headerAndSize,
      writeHeader, writeMysqlHeader, withOpts, withExtendedOpts, nests, hv', Geom.hasEmptyPoint] at he ⊢

/-- C05.  SpatiaLite, for the outermost geometries of `slSafe`; an absent SRID and 0 are the same.
Missing: the geometries excluded by `slSafe`, for which it is false. -/
theorem C05_spatialite_round_trip_partial (fo : FOps) (d : Dims) (srid s : Option Int)
    (hs : ∀ v ∈ srid, isI32 v) (env : List F64) (henv : env.length = 0 ∨ env.length = 4)
    (g : Geom) (hsafe : slSafe g = true) (hf : g.Fits) (he : g.hasEmptyPoint = false)
    (hd : AllCoords (HasDims d) g) (hn : g.hasNaNPoint = false) (hl : g.levels ≤ 128) :
    ∃ w, feed step (withOpts .spatiaLite d srid env) (.srid s :: g.events d.multi 0) = .ok w ∧
      (∀ multi rest, run multi (processWkbTypeGeom fo .spatiaLite) (w.out ++ rest)
        = (.srid (if srid.getD 0 = 0 then none else srid) :: g.events multi 0, .ok ((), 0xFE :: rest))) := by
  obtain ⟨w, h1, h2⟩ := C07_spatialite_writer_conforms_partial d srid s env g henv hsafe hf he
  have hs' : isI32 (srid.getD 0) := by
    cases srid with
    | none => decide
    | some v => exact hs v rfl
  rw [Geom.stored_eq d g hd hn] at h2
  refine ⟨w, h1, fun multi rest => ?_⟩
  rw [C06_spatialite_decodes fo d .le _ hs' _ g w.out rest multi h2 hl]
  cases srid <;> simp

private def sq (a : Nat) : List Coord :=
  [⟨BitVec.ofNat 64 a, 0#64, none, none⟩, ⟨0#64, 0#64, none, none⟩]

private def holed : Geom := .polygon [sq 1, sq 2]

private def outOf (r : Except Err WkbWriter) : List Byte :=
  match r with
  | .ok w => w.out
  | .error _ => []

/-- C05 is **false** of the code for a polygon with a hole: the writer puts an end mark after each ring,
and the reader does not get the polygon back. -/
theorem C05_spatialite_polygon_false :
    ¬ ∀ (fo : FOps) (g : Geom), g.Fits → g.hasEmptyPoint = false → AllCoords (HasDims {}) g →
        g.hasNaNPoint = false → g.levels ≤ 128 →
        ∃ w, feed step (withOpts .spatiaLite {} none []) (g.events false 0) = .ok w ∧
          (run false (processWkbTypeGeom fo .spatiaLite) w.out).1 = .srid none :: g.events false 0 := by
  intro h
  obtain ⟨w, h1, h2⟩ := h ⟨fun _ => 0#64, fun a _ => a⟩ holed
    (by simp [holed, sq, Geom.Fits, Geom.Lens]) (by decide) (by simp [holed, sq, AllCoords, HasDims]) (by decide)
    (by decide)
  have : w.out = outOf (feed step (withOpts .spatiaLite {} none []) (holed.events false 0)) := by
    rw [h1]; rfl
  rw [this] at h2
  exact absurd h2 (by decide +kernel)

private theorem feed_emptyPoint (w : WkbWriter) (evs : List Ev) (idx : Nat) (h : Ev.emptyPoint idx ∈ evs) :
    ∃ e, feed step w evs = .error e := by
  induction evs generalizing w with
  | nil => simp at h
  | cons ev evs ih =>
    simp only [feed]
    cases hs : step w ev with
    | error e => exact ⟨e, rfl⟩
    | ok w' =>
      rcases List.mem_cons.mp h with rfl | h
      · simp [step] at hs
      · exact ih w' h

private theorem mem_evList {α : Type} (f : Nat → α → List Ev) (xs : List α) (x : α) (hx : x ∈ xs) (i : Nat)
    (P : Ev → Prop) (h : ∀ j, ∃ e ∈ f j x, P e) : ∃ e ∈ evList f i xs, P e := by
  induction xs generalizing i with
  | nil => simp at hx
  | cons y ys ih =>
    simp only [evList, List.mem_append]
    rcases List.mem_cons.mp hx with rfl | hx
    · obtain ⟨e, he, hp⟩ := h i; exact ⟨e, Or.inl he, hp⟩
    · obtain ⟨e, he, hp⟩ := ih hx (i + 1); exact ⟨e, Or.inr he, hp⟩

private theorem events_emptyPoint (multi : Bool) (g : Geom) (h : g.hasEmptyPoint = true) :
    ∀ idx, ∃ e ∈ g.events multi idx, ∃ i, e = Ev.emptyPoint i := by
  induction g using Geom.ind with
  | emptyPoint => intro idx; exact ⟨_, by simp [Geom.events], idx, rfl⟩
  | collection gs ih =>
    intro idx
    have : ∃ g ∈ gs, g.hasEmptyPoint = true := by
      apply Classical.byContradiction
      intro hn
      have : Geom.hasEmptyPointList gs = false := (hasEmptyPointList_iff gs).mpr fun g hg => by
        cases hh : g.hasEmptyPoint with
        | false => rfl
        | true => exact absurd ⟨g, hg, hh⟩ hn
      rw [Geom.hasEmptyPoint, this] at h
      exact absurd h (by simp)
    obtain ⟨g, hg, hge⟩ := this
    obtain ⟨e, he, hp⟩ := mem_evList (Geom.events multi) gs g hg 0 (fun e => ∃ i, e = Ev.emptyPoint i)
      (ih g hg hge)
    refine ⟨e, ?_, hp⟩
    rw [events_collection]
    simp [bracket, he]
  | _ => simp [Geom.hasEmptyPoint] at h

/-- An empty point anywhere makes every WKB writer fail, whatever its state and dialect: never does the
writer report success for a geometry it cannot represent. -/
theorem C07_writer_rejects_empty_point (w : WkbWriter) (g : Geom) (multi : Bool) (idx : Nat)
    (h : g.hasEmptyPoint = true) : ∃ e, feed step w (g.events multi idx) = .error e := by
  obtain ⟨e, he, i, rfl⟩ := events_emptyPoint multi g h idx
  exact feed_emptyPoint w _ i he

example : (Geom.collection [.point ⟨1#64, 2#64, none, none⟩, .emptyPoint]).hasEmptyPoint = true := rfl

/-! ### Non-vacuity -/

private def demo : Geom :=
  .collection [.point ⟨1#64, 2#64, some 3#64, none⟩, .polygon [[⟨1#64, 2#64, some 3#64, none⟩], []],
    .collection [.multiCurve [.compound [.circ [⟨7#64, 2#64, some 3#64, none⟩]], .seg (.line [])]]]

example : demo.Fits ∧ demo.hasEmptyPoint = false ∧ AllCoords (HasDims { z := true }) demo ∧
    demo.hasNaNPoint = false ∧ demo.levels ≤ 128 ∧ slSafe demo = true := by
  refine ⟨?_, by decide, ?_, by decide, by decide, rfl⟩
  · simp [demo, Geom.Fits, Geom.Lens, Geom.LensList, Geom.Lens.CurveLens, Geom.Lens.SegLens]
  · simp [demo, AllCoords, AllCoordsList, AllCoords.CurveCoords, AllCoords.SegCoords, HasDims]

example : EnvelopeCode (envelopeCodeOf [0#64, 0#64, 0#64, 0#64, 0#64, 0#64] { z := true }) 6 := by
  simp [EnvelopeCode, envelopeCodeOf]
example : ∀ v ∈ (some 4326 : Option Int), isI32 v ∧ 0 ≤ v := by simp [isI32]

end Geozero
