import Verif.Spec.Db
import Verif.Model.Db
import Verif.Lemmas.GeoTypes
import Verif.Props.WkbWrite

/-
Lemmas for the database bindings.
-/

namespace Geozero
open Prog Spec

theorem cat_mem {α : Type} {R : α → List Byte → Prop} {xs : List α} :
    ∀ {bs : List Byte}, Cat R xs bs → ∀ x ∈ xs, ∃ b, R x b := by
  induction xs with
  | nil => intro _ _ x hx; cases hx
  | cons y ys ih =>
    rintro bs ⟨b1, b2, -, h1, h2⟩ x hx
    rcases List.mem_cons.mp hx with rfl | hx
    · exact ⟨b1, h1⟩
    · exact ih h2 x hx

theorem points_len {cs : List Coord} {e : Endian} {bs : List Byte} (h : PointsBody cs e bs) :
    cs.length < 2 ^ 32 := h.1

theorem rings_len {rs : List (List Coord)} {e : Endian} {bs : List Byte} (h : RingsBody rs e bs) :
    rs.length < 2 ^ 32 ∧ ∀ l ∈ rs, l.length < 2 ^ 32 := by
  obtain ⟨h1, bb, -, h2⟩ := h
  exact ⟨h1, fun l hl => points_len (cat_mem h2 l hl).choose_spec⟩

theorem seg_len {H : HeaderSpec} {e : Endian} {s : Seg} {bs : List Byte} (h : SegRel H e s bs) :
    Geom.Lens.SegLens (· < 2 ^ 32) s := by
  cases s <;> obtain ⟨_, _, _, -, -, h⟩ := h <;> exact points_len h

theorem compound_len {H : HeaderSpec} {e : Endian} {ss : List Seg} {bs : List Byte} (h : CompoundBody H ss e bs) :
    ss.length < 2 ^ 32 ∧ ∀ s ∈ ss, Geom.Lens.SegLens (· < 2 ^ 32) s := by
  obtain ⟨h1, bb, -, h2⟩ := h
  exact ⟨h1, fun l hl => seg_len (cat_mem h2 l hl).choose_spec⟩

theorem curve_len {H : HeaderSpec} {e : Endian} {c : Curve} {bs : List Byte} (h : CurveRel H e c bs) :
    Geom.Lens.CurveLens (· < 2 ^ 32) c := by
  cases c with
  | seg s => exact seg_len h
  | compound ss => obtain ⟨_, _, _, -, -, h⟩ := h; exact compound_len h

theorem curves_len {H : HeaderSpec} {e : Endian} {cs : List Curve} {bs : List Byte} (h : CurvesBody H cs e bs) :
    cs.length < 2 ^ 32 ∧ ∀ c ∈ cs, Geom.Lens.CurveLens (· < 2 ^ 32) c := by
  obtain ⟨h1, bb, -, h2⟩ := h
  exact ⟨h1, fun l hl => curve_len (cat_mem h2 l hl).choose_spec⟩

theorem surface_len {H : HeaderSpec} {e : Endian} {s : Surface} {bs : List Byte} (h : SurfaceRel H e s bs) :
    Geom.Lens.SurfaceLens (· < 2 ^ 32) s := by
  cases s <;> obtain ⟨_, _, _, -, -, h⟩ := h
  · exact rings_len h
  · exact curves_len h

theorem polys_len {H : HeaderSpec} {code : Nat} {e : Endian} {ps : List (List (List Coord))} {bs : List Byte}
    (h : Counted e (fun p => Nested H e code (RingsBody p)) ps bs) :
    ps.length < 2 ^ 32 ∧ ∀ p ∈ ps, p.length < 2 ^ 32 ∧ ∀ l ∈ p, l.length < 2 ^ 32 := by
  obtain ⟨h1, bb, -, h2⟩ := h
  refine ⟨h1, fun l hl => ?_⟩
  obtain ⟨_, _, _, _, -, -, h3⟩ := cat_mem h2 l hl
  exact rings_len h3

/-- A geometry that has an encoding has counts that fit, and no all-NaN point. -/
theorem body_fits (d : Dims) (H : HeaderSpec) (g : Geom) :
    ∀ (e : Endian) (bs : List Byte), Body d H g e bs → g.Fits ∧ g.hasNaNPoint = false := by
  unfold Geom.Fits
  refine Geom.ind (P := fun g => ∀ (e : Endian) (bs : List Byte), Body d H g e bs →
    g.Lens (· < 2 ^ 32) ∧ g.hasNaNPoint = false) ?_ ?_ ?_ ?_ ?_ ?_ ?_ ?_ ?_ ?_ ?_ ?_ ?_ ?_ ?_ ?_ g
  case refine_1 => intro e bs _; exact ⟨trivial, rfl⟩
  case refine_2 => intro c e bs h; exact ⟨trivial, by simp [Geom.hasNaNPoint, h.1]⟩
  case refine_7 =>
    rintro ls e bs ⟨h1, bb, -, h2⟩
    refine ⟨⟨h1, fun l hl => ?_⟩, rfl⟩
    obtain ⟨_, _, _, _, -, -, h3⟩ := cat_mem h2 l hl
    exact points_len h3
  case refine_15 =>
    rintro ls e bs ⟨h1, bb, -, h2⟩
    exact ⟨⟨h1, fun l hl => surface_len (cat_mem h2 l hl).choose_spec⟩, rfl⟩
  case refine_16 =>
    rintro gs ih e bs ⟨h1, bb, -, h2⟩
    have key : ∀ (gs : List Geom), (∀ g ∈ gs, ∀ (e : Endian) (bs : List Byte), Body d H g e bs →
        g.Lens (· < 2 ^ 32) ∧ g.hasNaNPoint = false) → ∀ bb, Bodies d H gs e bb →
        Geom.LensList (· < 2 ^ 32) gs ∧ Geom.hasNaNPointList gs = false := by
      intro gs
      induction gs with
      | nil => intro _ _ _; exact ⟨trivial, rfl⟩
      | cons g gs ihl =>
        rintro hg bb ⟨b1, b2, -, ⟨e', hb, bb', -, -, h3⟩, h4⟩
        obtain ⟨h5, h6⟩ := hg g (by simp) _ _ h3
        obtain ⟨h7, h8⟩ := ihl (fun g' hg' => hg g' (by simp [hg'])) _ h4
        exact ⟨⟨h5, h7⟩, by simp [Geom.hasNaNPointList, h6, h8]⟩
    obtain ⟨h3, h4⟩ := key gs ih bb h2
    exact ⟨⟨h1, h3⟩, h4⟩
  all_goals intro a e bs h; refine ⟨?_, rfl⟩
  · exact h.1
  · exact points_len h
  · exact points_len h
  · exact compound_len h
  · exact curves_len h
  · exact rings_len h
  · exact rings_len h
  · exact curves_len h
  · exact polys_len h
  · exact polys_len h
  · exact polys_len h

/-- What `process_geom`, `dims()` and `srid()` of the reader types do with a blob that holds a geometry. -/
theorem holds_read (fo : FOps) (dl : WkbDialect) (z m : Bool) (srid : Option Int) (g : Geom) (bs : List Byte)
    (h : Holds dl { z, m } srid g bs) (hl : g.levels ≤ 128) :
    (∀ multi, run multi (processWkbTypeGeom fo dl) bs
      = (.srid srid :: g.events multi 0, .ok ((), if dl = .spatiaLite then [0xFE] else []))) ∧
    wkbDims dl bs = { z, m } ∧ wkbSrid dl bs = srid ∧ g.Fits ∧ g.hasNaNPoint = false ∧
    AllCoords (HasDims { z, m }) g := by
  cases dl with
  | wkb =>
    obtain ⟨rfl, e, h⟩ := h
    obtain ⟨hc, _, bb, -, -, hb⟩ := id h
    refine ⟨fun multi => ?_, ?_, ?_, (body_fits _ _ _ _ _ hb).1, (body_fits _ _ _ _ _ hb).2, hc⟩
    · simpa using C06_wkb_decodes fo _ e g bs [] multi h hl
    · simpa using (C12_wkb_introspection _ e g bs [] h).1
    · rfl
  | ewkb =>
    obtain ⟨hs, e, h⟩ := h
    obtain ⟨hc, bb, hb, -⟩ := id h
    refine ⟨fun multi => ?_, ?_, ?_, (body_fits _ _ _ _ _ hb).1, (body_fits _ _ _ _ _ hb).2, hc⟩
    · simpa using C06_ewkb_decodes fo _ e srid hs g bs [] multi h hl
    · simpa using (C12_ewkb_introspection _ e srid hs g bs [] h).1
    · simpa using (C12_ewkb_introspection _ e srid hs g bs [] h).2
  | geopackage =>
    obtain ⟨e, s, env, rfl, hs, h⟩ := h
    obtain ⟨_, _, -, -, hc, _, bb, -, -, hb⟩ := id h
    refine ⟨fun multi => ?_, ?_, ?_, (body_fits _ _ _ _ _ hb).1, (body_fits _ _ _ _ _ hb).2, hc⟩
    · simpa using C06_gpkg_decodes_partial fo _ e s hs env g bs [] multi h hl
    · simpa using (C12_gpkg_introspection _ e e s hs env g bs [] h).1
    · simpa using (C12_gpkg_introspection _ e e s hs env g bs [] h).2
  | mySQL =>
    obtain ⟨n, rfl, hs, h⟩ := h
    obtain ⟨_, -, hc, _, bb, -, -, hb⟩ := id h
    refine ⟨fun multi => ?_, ?_, ?_, (body_fits _ _ _ _ _ hb).1, (body_fits _ _ _ _ _ hb).2, hc⟩
    · simpa using C06_mysql_decodes fo _ n hs g bs [] multi h hl
    · simpa using (C12_mysql_introspection _ n hs g bs [] h).1
    · simpa using (C12_mysql_introspection _ n hs g bs [] h).2
  | spatiaLite =>
    obtain ⟨e, s, mbr, rfl, hs, h⟩ := h
    obtain ⟨_, hc, bb, hb, -⟩ := id h
    refine ⟨fun multi => ?_, ?_, ?_, (body_fits _ _ _ _ _ hb).1, (body_fits _ _ _ _ _ hb).2, hc⟩
    · simpa using C06_spatialite_decodes fo _ e s hs mbr g bs [] multi h hl
    · simpa using (C12_spatialite_introspection _ e s hs mbr g bs [] h).1
    · simpa using (C12_spatialite_introspection _ e s hs mbr g bs [] h).2

/-- The writer's output, for a source whose calls the writer accepts. -/
theorem writeWkb_ok {v : GeoSource} {dl : WkbDialect} {d : Dims} {srid : Option Int} {env : List F64}
    {evs : List Ev} {rest : List Byte} {w : WkbWriter} (hr : run d.multi v.prog v.bytes = (evs, .ok ((), rest)))
    (hf : feed WkbWriter.step (WkbWriter.withOpts dl d srid env) evs = .ok w) :
    v.writeWkb dl d srid env = (w.out, .ok ()) := by
  unfold GeoSource.writeWkb
  rw [interp_of_feed_ok_inv WkbWriter.proc d.multi (fun w => w.readDims = d)
    (fun s h => by simp [WkbWriter.proc, h]) (fun s e s' h hs => by rw [← h]; exact WkbWriter.step_readDims hs)
    v.prog _ w rfl v.bytes (by rw [hr]; exact hf), hr]

/-- Two blobs whose reads deliver the same calls, up to the SRID, decode to the same value. -/
theorem geoFromWkb_congr (fo : FOps) (sz : ElemSizes) (dl dl' : WkbDialect) (bs bs' rest rest' : List Byte)
    (s s' : Option Int) (evs : List Ev)
    (h : run false (processWkbTypeGeom fo dl) bs = (.srid s :: evs, .ok ((), rest)))
    (h' : run false (processWkbTypeGeom fo dl') bs' = (.srid s' :: evs, .ok ((), rest'))) :
    geoFromWkb fo sz dl bs = geoFromWkb fo sz dl' bs' := by
  have hfeed : ∀ t : Option Int, feed (GeoWriter.step sz) {} (.srid t :: evs) = feed (GeoWriter.step sz) {} evs :=
    fun t => rfl
  unfold geoFromWkb
  cases hf : feed (GeoWriter.step sz) {} evs with
  | ok w =>
    rw [interp_of_feed_ok (GeoWriter.proc sz) false (fun _ => rfl) _ _ w bs (by rw [h]; exact (hfeed s).trans hf), h,
      interp_of_feed_ok (GeoWriter.proc sz) false (fun _ => rfl) _ _ w bs' (by rw [h']; exact (hfeed s').trans hf), h']
  | error x =>
    have h1 := interp_of_feed_error (GeoWriter.proc sz) false (fun _ => rfl) _ {} bs x
      (by rw [h]; exact (hfeed s).trans hf)
    have h2 := interp_of_feed_error (GeoWriter.proc sz) false (fun _ => rfl) _ {} bs' x
      (by rw [h']; exact (hfeed s').trans hf)
    rcases hi : interp (GeoWriter.proc sz) (processWkbTypeGeom fo dl) {} bs with ⟨w, ev, r⟩
    rcases hi' : interp (GeoWriter.proc sz) (processWkbTypeGeom fo dl') {} bs' with ⟨w', ev', r'⟩
    rw [hi] at h1
    rw [hi'] at h2
    simp only at h1 h2
    subst h1 h2
    rfl

end Geozero
