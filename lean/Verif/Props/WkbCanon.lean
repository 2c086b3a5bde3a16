import Verif.Lemmas.WkbCanon
import Verif.Lemmas.WkbCanonFits
import Verif.Props.SlAccept
import Verif.Props.WkbAccept
import Verif.Props.WkbWrite
import Verif.Props.WkbAny
import Verif.Props.Chain

/-
C79: converting arbitrary WKB bytes to WKB of any dialect gives the canonical encoding, and a detour changes nothing.
-/

namespace Geozero
open Prog Spec WkbWriter

private theorem canon_foot {w : WkbWriter} (h : w.dialect ≠ .spatiaLite) : foot w = [] := by simp [foot, h]

/-- The writer writes exactly the canonical encoding of the geometry with the dimensions asked for. -/
theorem C79_writer_exact (dl : WkbDialect) (d : Dims) (srid : Option Int) (env : List F64) (g : Geom)
    (he : g.hasEmptyPoint = false) (hw : Writable dl srid g) (s : Option Int) :
    ∃ w, feed step (withOpts dl d srid env) (.srid s :: g.events d.multi 0) = .ok w ∧
      w.out = canonical dl d srid env (g.map (Coord.conform d)) := by
  show ∃ w, feed step (withOpts dl d srid env) (g.events d.multi 0) = .ok w ∧ _
  cases dl with
  | wkb =>
    have hg : Good d .wkb (withOpts .wkb d srid env) := ⟨rfl, rfl, rfl, Or.inr rfl⟩
    obtain ⟨b, h1, rfl⟩ := puts_geom g _ _ _ 0 rfl (HdrStep.later hg (geomType g)) hg he (Or.inl (canon_foot (by simp [withOpts, withExtendedOpts])))
    refine ⟨_, h1, ?_⟩
    rw [canon_foot (by simp [withOpts, withExtendedOpts]), laterHdr_eq, geomType_map (Coord.conform d)]
    simp [put, withOpts, withExtendedOpts, canonical, headerLe, memberHeaderLe]
  | ewkb =>
    obtain ⟨b, h1, rfl⟩ := puts_geom (dl := .ewkb) g _ _ _ 0 rfl (hdrStep_ewkb d srid env (geomType g)) good_started he
      (Or.inl (canon_foot (by simp [withOpts, withExtendedOpts, started])))
    refine ⟨_, h1, ?_⟩
    rw [canon_foot (by simp [withOpts, withExtendedOpts, started]), geomType_map (Coord.conform d)]
    simp [put, withOpts, withExtendedOpts, started, canonical, headerLe, orderMark]
  | geopackage =>
    obtain ⟨b, h1, rfl⟩ := puts_geom (dl := .geopackage) g _ _ _ 0 rfl (hdrStep_gpkg d d srid env {} false false (geomType g))
      good_started he (Or.inl (canon_foot (by simp [withExtendedOpts, started])))
    refine ⟨_, h1, ?_⟩
    rw [canon_foot (by simp [withExtendedOpts, started]), geomType_map (Coord.conform d)]
    cases env <;>
    simp [put, withExtendedOpts, started, canonical, headerLe, orderMark, gpkgFlags] <;> rfl
  | mySQL =>
    obtain ⟨b, h1, rfl⟩ := puts_geom (dl := .mySQL) g _ _ _ 0 rfl (hdrStep_mysql d srid env (geomType g) (hw.1 rfl)) good_started he
      (Or.inl (canon_foot (by simp [withOpts, withExtendedOpts, started])))
    refine ⟨_, h1, ?_⟩
    rw [canon_foot (by simp [withOpts, withExtendedOpts, started]), geomType_map (Coord.conform d)]
    simp [put, withOpts, withExtendedOpts, started, canonical, headerLe, orderMark]
  | spatiaLite =>
    obtain ⟨b, h1, rfl⟩ := puts_geom (dl := .spatiaLite) g _ _ _ 0 rfl (hdrStep_spatialite d srid env (geomType g)) good_started he
      (Or.inr (hw.2 rfl))
    refine ⟨_, h1, ?_⟩
    rw [geomType_map (Coord.conform d)]
    simp [put, withOpts, withExtendedOpts, started, canonical, headerLe, orderMark, foot]

/-! ### conversions of bytes -/

private theorem toWkb_eq (v : GeoSource) (dl : WkbDialect) (d : Dims) (s : Option Int) (env : List F64) :
    v.toWkbDialect dl d s env = (outcome WkbWriter.proc v.prog (withOpts dl d s env) v.bytes).map WkbWriter.out := by
  unfold GeoSource.toWkbDialect GeoSource.writeWkb outcome
  rcases interp WkbWriter.proc v.prog (withOpts dl d s env) v.bytes with ⟨w, es, _ | _⟩ <;> rfl

/-- a conversion of bytes that can be read -/
private theorem toWkb_feed {v : GeoSource} {dl : WkbDialect} {d : Dims} {s : Option Int} {env : List F64} {evs : List Ev}
    {rest : List Byte} (hr : run d.multi v.prog v.bytes = (evs, .ok ((), rest))) :
    v.toWkbDialect dl d s env = (feed step (withOpts dl d s env) evs).map WkbWriter.out := by
  rw [toWkb_eq, outcome_eq WkbWriter.proc d.multi (fun w => w.readDims = d) (fun s h => by simp [WkbWriter.proc, h])
    (fun s e s' h hs => by rw [← h]; exact WkbWriter.step_readDims hs) v.prog _ rfl v.bytes rest evs hr]
  rfl

/-- a conversion that succeeds has read its input to the end -/
private theorem toWkb_ok_run {v : GeoSource} {dl : WkbDialect} {d : Dims} {s : Option Int} {env : List F64} {out : List Byte}
    (h : v.toWkbDialect dl d s env = .ok out) : ∃ evs rest, run d.multi v.prog v.bytes = (evs, .ok ((), rest)) := by
  have h2 := interp_run_inv WkbWriter.proc d.multi (fun w => w.readDims = d) (fun s h => by simp [WkbWriter.proc, h])
    (fun s e s' h hs => by rw [← h]; exact WkbWriter.step_readDims hs) v.prog (withOpts dl d s env) rfl v.bytes
  rcases interp_spec WkbWriter.proc v.prog (withOpts dl d s env) v.bytes with h1 | ⟨pre, e, x, -, -, -, hr⟩
  · obtain ⟨ha, hb⟩ := h2.2 h1
    rw [toWkb_eq, outcome] at h
    rcases hi : interp WkbWriter.proc v.prog (withOpts dl d s env) v.bytes with ⟨w, es, e | ⟨⟨⟩, rest⟩⟩
    · rw [hi] at h; cases h
    · rw [hi] at ha hb
      exact ⟨es, rest, Prod.ext ha.symm hb.symm⟩
  · rw [toWkb_eq, outcome] at h
    rcases hi : interp WkbWriter.proc v.prog (withOpts dl d s env) v.bytes with ⟨w, es, r⟩
    rw [hi] at hr h
    simp only at hr
    subst hr
    cases h

/-- what a reader makes of accepted bytes, as far as a writer can tell -/
private theorem accepted_feed (fo : FOps) (sd : WkbDialect) (g : Geom) (used rest : List Byte) (h : Accepted fo sd g used)
    (hl : g.levels ≤ 128) (multi : Bool) : ∃ s evs, run multi (processWkbTypeGeom fo sd) (used ++ rest) = (evs, .ok ((), rest)) ∧
      ∀ w, feed step w evs = feed step w (.srid s :: g.events multi 0) := by
  cases sd with
  | wkb => exact ⟨_, _, (C76_wkb_accepts_exactly fo multi _ rest _).mpr ⟨g, used, rfl, h, hl, rfl⟩, fun _ => rfl⟩
  | ewkb =>
    obtain ⟨s, h⟩ := h
    exact ⟨_, _, (C76_ewkb_accepts_exactly fo multi _ rest _).mpr ⟨s, g, used, rfl, h, hl, rfl⟩, fun _ => rfl⟩
  | geopackage =>
    obtain ⟨s, h⟩ := h
    exact ⟨_, _, (C76_gpkg_accepts_exactly fo multi _ rest _).mpr ⟨s, g, used, rfl, h, hl, rfl⟩, fun _ => rfl⟩
  | mySQL =>
    obtain ⟨s, h⟩ := h
    exact ⟨_, _, (C76_mysql_accepts_exactly fo multi _ rest _).mpr ⟨s, g, used, rfl, h, hl, rfl⟩, fun _ => rfl⟩
  | spatiaLite =>
    obtain ⟨s, h | ⟨sg, h, hh, rfl⟩⟩ := h
    · exact ⟨_, _, C76_spatialite_accepts fo multi s g used rest h hl, fun _ => rfl⟩
    rw [meant_levels] at hl
    exact ⟨_, _, (C76_spatialite_accepts_exactly fo multi _ rest _).mpr ⟨s, sg, used, rfl, h, hl, rfl⟩,
      fun w => feed_idx wkb_idx _ _ (by simp only [List.map_cons, geom_idx multi sg hh 0]; rfl) w⟩

/-- Whatever bytes a reader accepts: a conversion to any dialect gives the canonical encoding of the geometry, with the
dimensions, SRID and envelope asked for.  Nothing else of the input matters: not its byte orders, not its header, its flags or
its envelope, not the codes of members that are not looked at, not whether line strings are compressed, and not what follows. -/
theorem C79_transcode (fo : FOps) (sd : WkbDialect) (g : Geom) (used rest : List Byte) (h : Accepted fo sd g used)
    (hl : g.levels ≤ 128) (he : g.hasEmptyPoint = false) (dl : WkbDialect) (d : Dims) (srid : Option Int) (env : List F64)
    (hw : Writable dl srid g) :
    (GeoSource.ofWkb fo sd (used ++ rest)).toWkbDialect dl d srid env =
      .ok (canonical dl d srid env (g.map (Coord.conform d))) := by
  obtain ⟨s, evs, h1, h2⟩ := accepted_feed fo sd g used rest h hl d.multi
  obtain ⟨w, h3, h4⟩ := C79_writer_exact dl d srid env g he hw s
  rw [toWkb_feed (v := GeoSource.ofWkb fo sd (used ++ rest)) h1, h2, h3, ← h4]
  rfl

/-- If the geometry has an empty point, no conversion succeeds. -/
theorem C79_empty_point_refused (fo : FOps) (sd : WkbDialect) (g : Geom) (used rest : List Byte) (h : Accepted fo sd g used)
    (hl : g.levels ≤ 128) (he : g.hasEmptyPoint = true) (dl : WkbDialect) (d : Dims) (srid : Option Int) (env : List F64) :
    ∃ e, (GeoSource.ofWkb fo sd (used ++ rest)).toWkbDialect dl d srid env = .error e := by
  obtain ⟨s, evs, h1, h2⟩ := accepted_feed fo sd g used rest h hl d.multi
  obtain ⟨e, h3⟩ := C07_writer_rejects_empty_point (withOpts dl d srid env) g d.multi 0 he
  refine ⟨e, ?_⟩
  rw [toWkb_feed (v := GeoSource.ofWkb fo sd (used ++ rest)) h1, h2]
  show (feed step (withOpts dl d srid env) (g.events d.multi 0)).map WkbWriter.out = _
  rw [h3]
  rfl

/-- Between the four dialects other than SpatiaLite the conversion is known exactly, for any bytes: it succeeds if and only if
the input starts with an accepted encoding of a geometry without empty points (and MySQL is not asked to write a negative
SRID), and the output is then the canonical encoding. -/
theorem C79_transcode_exact (fo : FOps) (sd dl : WkbDialect) (hsd : sd ≠ .spatiaLite) (hdl : dl ≠ .spatiaLite) (bs : List Byte)
    (d : Dims) (srid : Option Int) (env : List F64) (out : List Byte) :
    (GeoSource.ofWkb fo sd bs).toWkbDialect dl d srid env = .ok out ↔
      ∃ g used rest, bs = used ++ rest ∧ Accepted fo sd g used ∧ g.levels ≤ 128 ∧ g.hasEmptyPoint = false ∧
        (dl = .mySQL → ∀ s ∈ srid, 0 ≤ s) ∧ out = canonical dl d srid env (g.map (Coord.conform d)) := by
  constructor
  · intro h
    obtain ⟨evs, rest, hr⟩ := toWkb_ok_run h
    have hacc : ∃ g used, bs = used ++ rest ∧ Accepted fo sd g used ∧ g.levels ≤ 128 := by
      cases sd with
      | wkb => obtain ⟨g, u, h1, h2, h3, -⟩ := (C76_wkb_accepts_exactly fo _ bs rest evs).mp hr; exact ⟨g, u, h1, h2, h3⟩
      | ewkb => obtain ⟨s, g, u, h1, h2, h3, -⟩ := (C76_ewkb_accepts_exactly fo _ bs rest evs).mp hr; exact ⟨g, u, h1, ⟨s, h2⟩, h3⟩
      | geopackage =>
        obtain ⟨s, g, u, h1, h2, h3, -⟩ := (C76_gpkg_accepts_exactly fo _ bs rest evs).mp hr; exact ⟨g, u, h1, ⟨s, h2⟩, h3⟩
      | mySQL => obtain ⟨s, g, u, h1, h2, h3, -⟩ := (C76_mysql_accepts_exactly fo _ bs rest evs).mp hr; exact ⟨g, u, h1, ⟨s, h2⟩, h3⟩
      | spatiaLite => exact absurd rfl hsd
    obtain ⟨g, used, rfl, hA, hl⟩ := hacc
    have he : g.hasEmptyPoint = false := by
      cases he : g.hasEmptyPoint with
      | false => rfl
      | true =>
        obtain ⟨e, h'⟩ := C79_empty_point_refused fo sd g used rest hA hl he dl d srid env
        rw [h'] at h
        cases h
    have hs : dl = .mySQL → ∀ s ∈ srid, 0 ≤ s := by
      rintro rfl s hs
      apply Classical.byContradiction
      intro hn
      obtain ⟨s', evs', h1, h2⟩ := accepted_feed fo sd g used rest hA hl d.multi
      rw [toWkb_feed (v := GeoSource.ofWkb fo sd (used ++ rest)) h1, h2, Option.mem_def.mp hs,
        (C04_mysql_negative_srid d s (by omega) env g s' he).1] at h
      cases h
    refine ⟨g, used, rest, rfl, hA, hl, he, hs, ?_⟩
    rw [C79_transcode fo sd g used rest hA hl he dl d srid env ⟨hs, fun h => absurd h hdl⟩] at h
    cases h
    rfl
  · rintro ⟨g, used, rest, rfl, hA, hl, he, hs, rfl⟩
    exact C79_transcode fo sd g used rest hA hl he dl d srid env ⟨hs, fun h => absurd h hdl⟩

/-! ### detours -/

theorem conform_conform {d1 d2 : Dims} (hz : d2.z = true → d1.z = true) (hm : d2.m = true → d1.m = true) (c : Coord) :
    (c.conform d1).conform d2 = c.conform d2 := by
  unfold Coord.conform
  cases h1 : d1.z <;> cases h2 : d1.m <;> cases h3 : d2.z <;> cases h4 : d2.m <;> simp_all

private theorem seg_mapmap (f f' : Coord → Coord) (s : Seg) : (s.map f').map f = s.map (fun c => f (f' c)) := by
  cases s <;> simp [Seg.map]

private theorem curve_mapmap (f f' : Coord → Coord) (s : Curve) : (s.map f').map f = s.map (fun c => f (f' c)) := by
  cases s <;> simp [Curve.map, seg_mapmap]

private theorem surface_mapmap (f f' : Coord → Coord) (s : Surface) : (s.map f').map f = s.map (fun c => f (f' c)) := by
  cases s <;> simp [Surface.map, curve_mapmap]

theorem Geom.map_map' (f f' : Coord → Coord) (g : Geom) : (g.map f').map f = g.map (fun c => f (f' c)) := by
  induction g using Geom.ind with
  | collection gs ih =>
    simp only [Geom.map, mapList_eq, List.map_map, Geom.collection.injEq]
    exact List.map_congr_left ih
  | _ => simp [Geom.map, seg_mapmap, curve_mapmap, surface_mapmap]

private theorem noParts_map (f : Coord → Coord) (g : Geom) : NoParts (g.map f) ↔ NoParts g := by
  cases g <;> simp [NoParts, Geom.map]

private theorem slSafe_of_noParts {g : Geom} (h : NoParts g) : slSafe g = true := by
  cases g <;> simp_all [NoParts, slSafe]

private theorem hasEmptyPoint_map (f : Coord → Coord) (g : Geom) : (g.map f).hasEmptyPoint = g.hasEmptyPoint := by
  induction g using Geom.ind with
  | collection gs ih =>
    simp only [Geom.map, mapList_eq, Geom.hasEmptyPoint]
    induction gs with
    | nil => rfl
    | cons g gs ihl =>
      simp only [List.map_cons, Geom.hasEmptyPointList, ih g (List.mem_cons_self ..),
        ihl fun g' h' => ih g' (List.mem_cons_of_mem _ h')]
  | _ => rfl

/-- an all-NaN point is stored as an empty one -/
private theorem nanEmpty_hasEmpty (g : Geom) : g.nanEmpty.hasEmptyPoint = (g.hasEmptyPoint || g.hasNaNPoint) := by
  induction g using Geom.ind with
  | collection gs ih =>
    simp only [Geom.nanEmpty, nanEmptyList_eq, Geom.hasEmptyPoint, Geom.hasNaNPoint]
    induction gs with
    | nil => rfl
    | cons g gs ihl =>
      simp only [List.map_cons, Geom.hasEmptyPointList, Geom.hasNaNPointList, ih g (List.mem_cons_self ..),
        ihl fun g' h' => ih g' (List.mem_cons_of_mem _ h')]
      cases g.hasEmptyPoint <;> cases g.hasNaNPoint <;> simp
  | point c =>
    by_cases h : AllNaN c <;> simp [Geom.nanEmpty, Geom.hasEmptyPoint, Geom.hasNaNPoint, h]
  | _ => rfl

/-- What was written is accepted again, as the geometry with the dimensions asked for, its all-NaN points being empty. -/
theorem C79_canonical_is_accepted (fo : FOps) (dl : WkbDialect) (d : Dims) (srid : Option Int) (env : List F64) (g : Geom)
    (he : g.hasEmptyPoint = false) (hf : g.Fits) (hw : Writable dl srid g) (hh : HeaderFits dl srid env) :
    ∃ used rest, canonical dl d srid env (g.map (Coord.conform d)) = used ++ rest ∧ Accepted fo dl (g.stored d) used := by
  obtain ⟨w, h1, h2⟩ := C79_writer_exact dl d srid env g he hw none
  rw [← h2]
  have key : ∀ {w'}, feed step (withOpts dl d srid env) (.srid none :: g.events d.multi 0) = .ok w' → w'.out = w.out := by
    intro w' h; rw [h1] at h; cases h; rfl
  have hd : isI32 (srid.getD 0) := by
    cases srid with
    | none => decide
    | some s => exact hh.1 s rfl
  cases dl with
  | wkb =>
    obtain ⟨w', h3, h4⟩ := C07_wkb_writer_conforms d srid none env g hf he
    rw [key h3] at h4
    exact ⟨_, [], (List.append_nil _).symm, (C76_standard_is_accepted d .le _ _).1 h4⟩
  | ewkb =>
    obtain ⟨w', h3, h4⟩ := C07_ewkb_writer_conforms d srid none env g hf he
    rw [key h3] at h4
    exact ⟨_, [], (List.append_nil _).symm, srid, (C76_standard_is_accepted d .le _ _).2.1 srid hh.1 h4⟩
  | geopackage =>
    obtain ⟨w', h3, h4⟩ := C07_gpkg_writer_conforms d d srid none env {} false false g (by
      rcases hh.2 (Or.inl rfl) with h | h
      · simp [List.length_eq_zero_iff.mp h, envelopeCodeOf, EnvelopeCode]
      · have : env ≠ [] := by intro h0; simp [h0] at h
        simp [this, h, envelopeCodeOf, EnvelopeCode]) hf he
    rw [key h3] at h4
    exact ⟨_, [], (List.append_nil _).symm, _, (C76_standard_is_accepted d .le _ _).2.2.1 _ env hd h4⟩
  | mySQL =>
    obtain ⟨w', h3, h4⟩ := C07_mysql_writer_conforms d srid none env g (hw.1 rfl) hf he
    rw [key h3] at h4
    have hlt : (srid.getD 0).toNat < 2 ^ 31 := by
      unfold isI32 at hd
      omega
    exact ⟨_, [], (List.append_nil _).symm, _, (C76_standard_is_accepted d .le _ _).2.2.2.1 _ hlt h4⟩
  | spatiaLite =>
    obtain ⟨w', h3, h4⟩ := C07_spatialite_writer_conforms_partial d srid none env g (hh.2 (Or.inr rfl))
      (slSafe_of_noParts (hw.2 rfl)) hf he
    rw [key h3] at h4
    obtain ⟨used, h5, h6⟩ := (C76_standard_is_accepted d .le _ _).2.2.2.2 _ _ hd h4
    exact ⟨used, _, h5, _, Or.inl h6⟩

private theorem accepted_fits (fo : FOps) (dl : WkbDialect) (g : Geom) (bs : List Byte) (h : Accepted fo dl g bs) :
    g.Fits ∧ g.hasNaNPoint = false := by
  cases dl with
  | wkb => obtain ⟨f, _, bb, -, -, h⟩ := h; exact bodyIn_fits _ g f bb h
  | ewkb => obtain ⟨_, f, _, bb, -, -, h⟩ := h; exact bodyIn_fits _ g f bb h
  | geopackage => obtain ⟨_, _, _, _, _, _, _, bb, -, -, -, -, h, -⟩ := h; exact bodyIn_fits _ g _ bb h
  | mySQL => obtain ⟨_, f, _, bb, -, -, -, h, -⟩ := h; exact bodyIn_fits _ g f bb h
  | spatiaLite =>
    obtain ⟨_, ⟨-, _, f, bb, -, h, -⟩ | ⟨sg, ⟨-, _, f, bb, -, h, -⟩, -, rfl⟩⟩ := h
    · exact bodyIn_fits _ g f bb h
    · exact Sl.meant_fits fo _ sg f bb h

/-- A detour.  The bytes are converted to some dialect first, and the result to another one with no other dimensions.  If no
point is all NaN in the first dimensions, this is as good as a direct conversion; if one is, the second conversion fails. -/
theorem C79_detour (fo : FOps) (sd : WkbDialect) (g : Geom) (used rest : List Byte) (h : Accepted fo sd g used)
    (hl : g.levels ≤ 128) (he : g.hasEmptyPoint = false)
    (dl1 : WkbDialect) (d1 : Dims) (srid1 : Option Int) (env1 : List F64) (hw1 : Writable dl1 srid1 g) (hh : HeaderFits dl1 srid1 env1)
    (dl2 : WkbDialect) (d2 : Dims) (srid2 : Option Int) (env2 : List F64) (hw2 : Writable dl2 srid2 g)
    (hz : d2.z = true → d1.z = true) (hm : d2.m = true → d1.m = true) :
    ∃ mid, (GeoSource.ofWkb fo sd (used ++ rest)).toWkbDialect dl1 d1 srid1 env1 = .ok mid ∧
      ((g.map (Coord.conform d1)).hasNaNPoint = false →
        (GeoSource.ofWkb fo dl1 mid).toWkbDialect dl2 d2 srid2 env2 =
          (GeoSource.ofWkb fo sd (used ++ rest)).toWkbDialect dl2 d2 srid2 env2) ∧
      ((g.map (Coord.conform d1)).hasNaNPoint = true →
        ∃ e, (GeoSource.ofWkb fo dl1 mid).toWkbDialect dl2 d2 srid2 env2 = .error e) := by
  obtain ⟨used', rest', h1, h2⟩ := C79_canonical_is_accepted fo dl1 d1 srid1 env1 g he (accepted_fits fo sd g used h).1 hw1 hh
  have hl' : (g.stored d1).levels ≤ 128 := by rw [Geom.levels_stored]; exact hl
  refine ⟨_, C79_transcode fo sd g used rest h hl he dl1 d1 srid1 env1 hw1, fun hn => ?_, fun hn => ?_⟩
  · have hst : g.stored d1 = g.map (Coord.conform d1) := Geom.nanEmpty_self _ hn
    rw [hst] at h2 hl'
    rw [h1, C79_transcode fo dl1 _ used' rest' h2 hl' (by rw [hasEmptyPoint_map]; exact he) dl2 d2 srid2 env2
      ⟨hw2.1, fun h => (noParts_map _ _).mpr (hw2.2 h)⟩, C79_transcode fo sd g used rest h hl he dl2 d2 srid2 env2 hw2, Geom.map_map']
    simp only [conform_conform hz hm]
  · rw [h1]
    refine C79_empty_point_refused fo dl1 _ used' rest' h2 hl' ?_ dl2 d2 srid2 env2
    rw [Geom.stored, nanEmpty_hasEmpty, hn, Bool.or_true]

/-- The dimensions `d` have everything the geometry has. -/
private theorem keeps_noNaN (d : Dims) (g : Geom)
    (hd : AllCoords (fun c => (c.z.isSome = true → d.z = true) ∧ (c.m.isSome = true → d.m = true)) g) (hn : g.hasNaNPoint = false) :
    (g.map (Coord.conform d)).hasNaNPoint = false := by
  induction g using Geom.ind with
  | point c =>
    have hn' : ¬ AllNaN c := by simpa [Geom.hasNaNPoint] using hn
    simp only [Geom.map, Geom.hasNaNPoint, decide_eq_false_iff_not]
    intro hc
    apply hn'
    obtain ⟨x, y, z, m⟩ := c
    obtain ⟨h1, h2⟩ : (z.isSome = true → d.z = true) ∧ (m.isSome = true → d.m = true) := hd
    unfold AllNaN Coord.conform at *
    cases z <;> cases m <;> cases h3 : d.z <;> cases h4 : d.m <;> simp_all
  | collection gs ih =>
    simp only [Geom.map, mapList_eq, Geom.hasNaNPoint]
    refine (hasNaNPointList_iff _).mpr fun g' hg' => ?_
    obtain ⟨g, hg, rfl⟩ := List.mem_map.mp hg'
    exact ih g hg ((allCoordsList_iff _ _).mp hd g hg) ((hasNaNPointList_iff gs).mp hn g hg)
  | _ => rfl

/-- A detour through a dialect with all the dimensions of the geometry is always as good as a direct conversion. -/
theorem C79_detour_keeping_dimensions (fo : FOps) (sd : WkbDialect) (g : Geom) (used rest : List Byte) (h : Accepted fo sd g used)
    (hl : g.levels ≤ 128) (he : g.hasEmptyPoint = false)
    (dl1 : WkbDialect) (d1 : Dims) (srid1 : Option Int) (env1 : List F64) (hw1 : Writable dl1 srid1 g) (hh : HeaderFits dl1 srid1 env1)
    (hd : AllCoords (fun c => (c.z.isSome = true → d1.z = true) ∧ (c.m.isSome = true → d1.m = true)) g)
    (dl2 : WkbDialect) (d2 : Dims) (srid2 : Option Int) (env2 : List F64) (hw2 : Writable dl2 srid2 g)
    (hz : d2.z = true → d1.z = true) (hm : d2.m = true → d1.m = true) :
    ∃ mid, (GeoSource.ofWkb fo sd (used ++ rest)).toWkbDialect dl1 d1 srid1 env1 = .ok mid ∧
      (GeoSource.ofWkb fo dl1 mid).toWkbDialect dl2 d2 srid2 env2 =
        (GeoSource.ofWkb fo sd (used ++ rest)).toWkbDialect dl2 d2 srid2 env2 := by
  obtain ⟨mid, h1, h2, -⟩ := C79_detour fo sd g used rest h hl he dl1 d1 srid1 env1 hw1 hh dl2 d2 srid2 env2 hw2 hz hm
  exact ⟨mid, h1, h2 (keeps_noNaN d1 g hd (accepted_fits fo sd g used h).2)⟩

/-- Converting the result once more, in the same way, changes no byte, if the dimensions have everything the geometry has.
Missing: fewer dimensions, where it can fail, see `C79_again_false`. -/
theorem C79_again_partial (fo : FOps) (sd : WkbDialect) (g : Geom) (used rest : List Byte) (h : Accepted fo sd g used)
    (hl : g.levels ≤ 128) (he : g.hasEmptyPoint = false) (dl : WkbDialect) (d : Dims) (srid : Option Int) (env : List F64)
    (hw : Writable dl srid g) (hh : HeaderFits dl srid env)
    (hd : AllCoords (fun c => (c.z.isSome = true → d.z = true) ∧ (c.m.isSome = true → d.m = true)) g) :
    ∃ mid, (GeoSource.ofWkb fo sd (used ++ rest)).toWkbDialect dl d srid env = .ok mid ∧
      (GeoSource.ofWkb fo dl mid).toWkbDialect dl d srid env = .ok mid := by
  obtain ⟨mid, h1, h2⟩ := C79_detour_keeping_dimensions fo sd g used rest h hl he dl d srid env hw hh hd dl d srid env hw id id
  exact ⟨mid, h1, by rw [h2, h1]⟩

/-! ### where it fails -/

private def nan : F64 := 0x7ff8000000000000#64

private def nanZ : List Byte := (1 :: encU32 .le 1001) ++ (encF64 .le nan ++ encF64 .le nan ++ encF64 .le 1#64)

private theorem nanZ_accepted (fo : FOps) : Accepted fo .wkb (.point ⟨nan, nan, some 1#64, none⟩) nanZ :=
  ⟨⟨.le, true, false⟩, _, _, rfl, ⟨1, 1001, by decide, rfl, rfl, by unfold ThousandsDims; decide, rfl⟩,
    by simp [AllNaN, F64.isNaN, nan], ⟨rfl, rfl⟩, by simp [Spec.coordBytes]⟩

/-- That what was written can be converted again is **false** of the code when dimensions are dropped: a point whose x and y are NaN
and whose z is a number is written to two-dimensional WKB without complaint, and is an empty point there, which no conversion takes. -/
theorem C79_again_false (fo : FOps) :
    ∃ mid, (GeoSource.ofWkb fo .wkb nanZ).toWkbDialect .wkb {} none [] = .ok mid ∧
      ∃ e, (GeoSource.ofWkb fo .wkb mid).toWkbDialect .wkb {} none [] = .error e := by
  have h := C79_detour fo .wkb _ nanZ [] (nanZ_accepted fo) (by decide) rfl .wkb {} none [] ⟨by simp, by simp⟩ ⟨by simp, by simp⟩
    .wkb {} none [] ⟨by simp, by simp⟩ id id
  rw [List.append_nil] at h
  obtain ⟨mid, h1, -, h2⟩ := h
  exact ⟨mid, h1, h2 (by simp [Geom.map, Geom.hasNaNPoint, Coord.conform, AllNaN, F64.isNaN, nan])⟩

/-- That every conversion gives the canonical encoding of what is read is **false** of the code for SpatiaLite input in which a
compressed line string announces one vertex: two are read, and the WKB that is written announces one and has two, so a reader
finds one vertex and 16 more bytes. -/
theorem C79_dishonest_spatialite_false (fo : FOps) :
    ∃ out, (GeoSource.ofWkb fo .spatiaLite compressedBlob).toWkbDialect .wkb {} none [] = .ok out ∧
      (run false (processWkbTypeGeom fo .spatiaLite) compressedBlob).1 =
        [.srid (some 4326), .gbegin .lineString true 1 0, .xy 0#64 0#64 0, .xy 0#64 0#64 1, .gend .lineString true 0] ∧
      run false (processWkbTypeGeom fo .wkb) out =
        (.srid none :: (Geom.lineString [⟨0#64, 0#64, none, none⟩]).events false 0, .ok ((), List.replicate 16 0)) := by
  have h : (GeoSource.ofWkb fo .spatiaLite compressedBlob).toWkbDialect .wkb {} none [] =
      .ok ((1 :: encU32 .le 2) ++ encU32 .le 1 ++ List.replicate 32 0) := by
    rw [toWkb_feed (v := GeoSource.ofWkb fo .spatiaLite compressedBlob) (d := {}) (C08_spatialite_compressed_false fo)]
    rfl
  refine ⟨_, h, by rw [C08_spatialite_compressed_false fo], ?_⟩
  simp only [processWkbTypeGeom, processTop, bind_eq]
  rfl

/-! ### the hypotheses can be met -/

/-- a big endian EWKB collection of a polygon with a hole and a curve -/
private def exCanon : Geom :=
  .collection [.polygon [[⟨1#64, 2#64, some 3#64, none⟩], []], .multiCurve [.compound [.circ [⟨7#64, 2#64, some 3#64, none⟩]]]]

private theorem exCanon_accepted (fo : FOps) : ∃ used, Accepted fo .ewkb exCanon used := by
  obtain ⟨used, _, _, h⟩ := C79_canonical_is_accepted fo .ewkb { z := true } (some 4326) [] exCanon rfl
    (by simp [exCanon, Geom.Fits, Geom.Lens, Geom.LensList, Geom.Lens.CurveLens, Geom.Lens.SegLens]) ⟨by simp, by simp⟩ ⟨by simp; decide, by simp⟩
  rw [Geom.stored_eq _ _ (by simp [exCanon, AllCoords, AllCoordsList, AllCoords.CurveCoords, AllCoords.SegCoords, HasDims]) rfl] at h
  exact ⟨used, h⟩

/-- from EWKB to GeoPackage with an envelope, and from there to MySQL -/
example (fo : FOps) : ∃ used, Accepted fo .ewkb exCanon used ∧ exCanon.levels ≤ 128 ∧ exCanon.hasEmptyPoint = false ∧
    Writable .geopackage (some (-1)) exCanon ∧ HeaderFits .geopackage (some (-1)) [1#64, 2#64, 3#64, 4#64] ∧
    Writable .mySQL (some 4326) exCanon ∧
    AllCoords (fun c => (c.z.isSome = true → true = true) ∧ (c.m.isSome = true → false = true)) exCanon := by
  obtain ⟨used, h⟩ := exCanon_accepted fo
  exact ⟨used, h, by decide, rfl, ⟨by simp, by simp⟩, ⟨by simp; decide, by simp⟩, ⟨by simp, by simp⟩,
    by simp [exCanon, AllCoords, AllCoordsList, AllCoords.CurveCoords, AllCoords.SegCoords]⟩

/-- the canonical encoding of a point with m in each dialect -/
example : canonical .ewkb { m := true } (some 1) [] (.point ⟨1#64, 2#64, none, some 3#64⟩)
    = [1, 1, 0, 0, 0x60, 1, 0, 0, 0, 1, 0, 0, 0, 0, 0, 0, 0, 2, 0, 0, 0, 0, 0, 0, 0, 3, 0, 0, 0, 0, 0, 0, 0] := by decide
example : canonical .wkb { m := true } (some 1) [] (.multiPoint [⟨1#64, 2#64, none, some 3#64⟩])
    = [1, 0xD4, 7, 0, 0, 1, 0, 0, 0, 1, 0xD1, 7, 0, 0,
        1, 0, 0, 0, 0, 0, 0, 0, 2, 0, 0, 0, 0, 0, 0, 0, 3, 0, 0, 0, 0, 0, 0, 0] := by decide

end Geozero
