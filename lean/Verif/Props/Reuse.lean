import Verif.Lemmas.Reuse
import Verif.Lemmas.WktParse
import Verif.Props.GeoTypes

/-
C82: what a writer was used for before does not change what comes next.
-/

namespace Geozero
open Prog Spec

theorem Prog.interp_keeps {α σ τ : Type} (P : Proc σ) (f : σ → τ) (h : ∀ s e s', P.step s e = .ok s' → f s' = f s) (p : Prog α)
    (s : σ) (bs : List Byte) : f (interp P p s bs).1 = f s := by
  induction p generalizing s bs with
  | ret a => rfl
  | fail e => rfl
  | read k ih =>
    cases bs with
    | nil => rfl
    | cons b bs => exact ih b s bs
  | emit e k ih =>
    simp only [interp]
    cases hs : P.step s e with
    | error x => rfl
    | ok s' => exact (ih s' bs).trans (h s e s' hs)
  | askMulti k ih => exact ih _ s bs

/-! ### writers that hold a geometry -/

theorem feed_srids {σ : Type} (st : σ → Ev → Except Err σ) (h : ∀ w s, st w (.srid s) = .ok w) (w : σ)
    (ss : List (Option Int)) (evs : List Ev) : feed st w (ss.map Ev.srid ++ evs) = feed st w evs := by
  induction ss with
  | nil => rfl
  | cons s ss ih => simpa [feed_cons, h] using ih

private theorem geoAgain_new (sz : ElemSizes) (u : Use) : (geoAgain sz {} u).2 = toGeo sz u.1 u.2 := by
  unfold geoAgain toGeo
  rcases interp (GeoWriter.proc sz) u.1 {} u.2 with ⟨w, evs, r | r⟩ <;> rfl

private theorem geoAgain_ok (sz : ElemSizes) (u : Use) (g : Geom) (r : GeoGeom) (hu : Delivers false u g) (hr : g.geo = some r)
    (hb : g.Budget sz) : geoAgain sz {} u = ({}, .ok r) := by
  obtain ⟨ss, rest, hu⟩ := hu
  have hf := GeoWriter.feed_geom sz g {} r 0 ⟨rfl, rfl, rfl⟩ hr hb
  have h := interp_of_feed_ok (GeoWriter.proc sz) false (fun _ => rfl) u.1 {} _ u.2
    (by rw [hu, feed_srids _ fun _ _ => rfl]; exact hf)
  unfold geoAgain
  rw [h, hu]
  rfl

/-- C82, `GeoWriter`.  One writer for any number of sources that deliver geometries geo-types can hold, and for a last source
of any kind, taking the geometry after each: every result is that of `to_geo`, which makes a new writer.
Missing: a source that failed before (`C82_geo_types_false`). -/
theorem C82_geo_types_partial (sz : ElemSizes) (us : List Use)
    (hus : ∀ u ∈ us, ∃ g r, Delivers false u g ∧ g.geo = some r ∧ g.Budget sz) (u : Use) :
    geoResults sz {} (us ++ [u]) = (us ++ [u]).map fun u => toGeo sz u.1 u.2 := by
  induction us with
  | nil => simp [geoResults, geoAgain_new]
  | cons v vs ih =>
    obtain ⟨g, r, h1, h2, h3⟩ := hus v (by simp)
    have h := geoAgain_ok sz v g r h1 h2 h3
    have h' := geoAgain_new sz v
    rw [h] at h'
    simp only [List.cons_append, geoResults, List.map_cons, h, ← h', ih fun u hu => hus u (by simp [hu])]

/-- C82 fails for `GeoWriter` after an error: a truncated WKB collection, then a point.  The point ends up in the collection that
was begun before, and there is no geometry to take. -/
theorem C82_geo_types_false (fo : FOps) (sz : ElemSizes) (hsz : sz.geom ≤ 2 ^ 20) :
    geoResults sz {} [(processWkbTypeGeom fo .wkb, [1, 7, 0, 0, 0, 1, 0, 0, 0]), (geoProcessGeom (.point ⟨0#64, 0#64⟩), [])] =
        [.error .io, .error (.geometry "Missing Geometry")] ∧
      toGeo sz (geoProcessGeom (.point ⟨0#64, 0#64⟩)) [] = .ok (.point ⟨0#64, 0#64⟩) := by
  have hv : boundedVec GeoGeom sz.geom 1 = .ok ([], 1 * sz.geom) :=
    GeoWriter.boundedVec_ok (by unfold Within; omega)
  have hr : run false (processWkbTypeGeom fo .wkb) [1, 7, 0, 0, 0, 1, 0, 0, 0] = ([.srid none, .gbegin .collection true 1 0], .error .io) :=
    rfl
  have h1 : interp (GeoWriter.proc sz) (processWkbTypeGeom fo .wkb) {} [1, 7, 0, 0, 0, 1, 0, 0, 0] =
      ({ collections := [[]] }, [.srid none, .gbegin .collection true 1 0], .error .io) := by
    rw [interp_of_feed_ok (GeoWriter.proc sz) false (fun _ => rfl) (processWkbTypeGeom fo .wkb) {} { collections := [[]] } _
      (by rw [hr]; simp [feed, GeoWriter.proc, GeoWriter.step, GeoWriter.gbegin, hv]), hr]
  constructor
  · simp only [geoResults, geoAgain, h1]
    rfl
  · rfl

/-- C82, `GeosWriter`.  Whatever the writer was used for before, also if that failed (`w` is any state): a source that delivers
its SRID and a point, line string, polygon or multi of these which the library accepts gives what a new writer gives.
Missing: sources that do not deliver an SRID, which get the SRID of an earlier one (`C82_geos_srid_false`), and other kinds of
geometries. -/
theorem C82_geos_partial (lib : GeosLib) (w : GeosWriter) (u : Use) (rest : List Byte) (s : Option Int) (g : Geom) (t : GeosGeom)
    (hu : run false u.1 u.2 = (.srid s :: g.events false 0, .ok ((), rest))) (hg : g.geos = some t) (ha : lib.accepts g)
    (hs : g.Short) : geosAgain lib w u = .ok (t, s.getD 0) ∧ toGeos lib u.1 u.2 = .ok (t, s.getD 0) := by
  have key : ∀ w, geosAgain lib w u = .ok (t, s.getD 0) := by
    intro w
    obtain ⟨w', h1, h2, h3, _⟩ := GeosWriter.feed_geom lib g t hg ha hs 0 { w with srid := s }
    have h := interp_of_feed_ok (GeosWriter.proc lib) false (fun _ => rfl) u.1 w w' u.2 (by rw [hu]; exact h1)
    unfold geosAgain
    rw [h, hu]
    simp [h2, h3]
  exact ⟨key w, key {}⟩

/-- without an SRID the geometry is still the same -/
theorem C82_geos_geometry_partial (lib : GeosLib) (w : GeosWriter) (u : Use) (rest : List Byte) (g : Geom) (t : GeosGeom)
    (hu : run false u.1 u.2 = (g.events false 0, .ok ((), rest))) (hg : g.geos = some t) (ha : lib.accepts g)
    (hs : g.Short) : (geosAgain lib w u).map Prod.fst = .ok t ∧ toGeos lib u.1 u.2 = .ok (t, 0) := by
  have key : ∀ w, geosAgain lib w u = .ok (t, w.srid.getD 0) := by
    intro w
    obtain ⟨w', h1, h2, h3, _⟩ := GeosWriter.feed_geom lib g t hg ha hs 0 w
    have h := interp_of_feed_ok (GeosWriter.proc lib) false (fun _ => rfl) u.1 w w' u.2 (by rw [hu]; exact h1)
    unfold geosAgain
    rw [h, hu]
    simp [h2, h3]
  exact ⟨by rw [key w]; rfl, key {}⟩

/-- C82 fails for the SRID of `GeosWriter`: an EWKB point with an SRID, then a geo-types point, which has none.  The second gets
the SRID of the first. -/
theorem C82_geos_srid_false (lib : GeosLib) (fo : FOps) :
    geosAgain lib ((GeosWriter.proc lib).after {} [(processWkbTypeGeom fo .ewkb, [1, 1, 0, 0, 32, 230, 16, 0, 0] ++ List.replicate 16 0)])
        (geoProcessGeom (.point ⟨0#64, 0#64⟩), []) = .ok (.point [⟨0#64, 0#64, none⟩], 4326) ∧
      toGeos lib (geoProcessGeom (.point ⟨0#64, 0#64⟩)) [] = .ok (.point [⟨0#64, 0#64, none⟩], 0) := by
  constructor <;> rfl

/-- C82, `GdalWriter`.  The same for any state `w` and any source that delivers a point, line string, polygon or multi of these.
Missing: other kinds. -/
theorem C82_gdal_partial (w : GdalWriter) (u : Use) (g : Geom) (hb : g.Basic) (hu : Delivers false u g) :
    gdalAgain w u = .ok (g.map Coord.flat).ogr ∧ toGdal u.1 u.2 = .ok (g.map Coord.flat).ogr := by
  obtain ⟨ss, rest, hu⟩ := hu
  have key : ∀ w, gdalAgain w u = .ok (g.map Coord.flat).ogr := by
    intro w
    obtain ⟨w', h1, h2⟩ := GdalWriter.feed_basic GdalWriter.like_step g hb 0 w
    have h := interp_of_feed_ok GdalWriter.proc false (fun _ => rfl) u.1 w w' u.2
      (by rw [hu, feed_srids _ fun _ _ => rfl]; exact h1)
    unfold gdalAgain
    rw [h, hu]
    simp [h2]
  exact ⟨key w, key {}⟩

/-! ### writers of text and bytes -/

private theorem svg_after (fo : SvgNum) (us : List Use) (ts : List Text)
    (h : (us.map fun u => toSvg fo u.1 u.2) = ts.map .ok) (t0 : Text) :
    ((SvgWriter.gproc fo).after ((SvgWriter.new false).before t0) us).out = t0 ++ ts.flatten := by
  induction us generalizing ts t0 with
  | nil =>
    cases ts with
    | nil => simp [Prog.Proc.after, SvgWriter.before, SvgWriter.new]
    | cons t ts => cases h
  | cons u us ih =>
    obtain ⟨t, ts, rfl⟩ : ∃ t ts', ts = t :: ts' := by cases ts with
      | nil => cases h
      | cons t ts => exact ⟨t, ts, rfl⟩
    simp only [List.map_cons, List.cons.injEq] at h
    obtain ⟨hu, h⟩ := h
    simp only [Prog.Proc.after]
    rw [(SvgWriter.blind_geom fo t0).interp]
    have hk := Prog.interp_keeps (SvgWriter.gproc fo) (fun w : SvgWriter => { w with out := [] })
      (fun s e s' hs => by
        simp only [SvgWriter.gproc] at hs
        unfold SvgWriter.geomStep at hs
        split at hs <;> cases hs <;> rfl) u.1 (SvgWriter.new false) u.2
    have ht : (interp (SvgWriter.gproc fo) u.1 (SvgWriter.new false) u.2).1.out = t := by
      unfold toSvg at hu
      revert hu
      rcases interp (SvgWriter.gproc fo) u.1 (SvgWriter.new false) u.2 with ⟨w, evs, r | r⟩
      · intro hu; cases hu
      · intro hu; cases hu; rfl
    have hw : (interp (SvgWriter.gproc fo) u.1 (SvgWriter.new false) u.2).1 = (SvgWriter.new false).before t := by
      revert hk ht
      generalize (interp (SvgWriter.gproc fo) u.1 (SvgWriter.new false) u.2).1 = w
      intro hk ht
      obtain ⟨o, a, b, c, d⟩ := w
      simp only [SvgWriter.new, SvgWriter.mk.injEq, true_and] at hk ht
      simp [SvgWriter.before, SvgWriter.new, hk, ht]
    rw [hw]
    have := ih ts h (t0 ++ t)
    simpa [SvgWriter.before, SvgWriter.new] using this

/-- C82, `SvgWriter`.  The text written for any sources, one after the other, is their SVG texts one after the other. -/
theorem C82_svg (fo : SvgNum) (us : List Use) (ts : List Text) (h : (us.map fun u => toSvg fo u.1 u.2) = ts.map .ok) :
    ((SvgWriter.gproc fo).after (SvgWriter.new false) us).out = ts.flatten :=
  svg_after fo us ts h []

private theorem json_after (num : F64 → Text) (us : List Use) (ts : List Text)
    (h : (us.map fun u => toJson num u.1 u.2) = ts.map .ok) (t0 : Text) :
    ((GeoJsonWriter.geomProc num).after (({} : GeoJsonWriter).before t0) us).out = t0 ++ ts.flatten := by
  induction us generalizing ts t0 with
  | nil =>
    cases ts with
    | nil => simp [Prog.Proc.after, GeoJsonWriter.before]
    | cons t ts => cases h
  | cons u us ih =>
    obtain ⟨t, ts, rfl⟩ : ∃ t ts', ts = t :: ts' := by cases ts with
      | nil => cases h
      | cons t ts => exact ⟨t, ts, rfl⟩
    simp only [List.map_cons, List.cons.injEq] at h
    obtain ⟨hu, h⟩ := h
    simp only [Prog.Proc.after]
    rw [(GeoJsonWriter.blind_geom num t0).interp]
    have hk := Prog.interp_keeps (GeoJsonWriter.geomProc num) (fun w : GeoJsonWriter => w.dims)
      (fun s e s' hs => by
        simp only [GeoJsonWriter.geomProc] at hs
        cases hs
        cases e <;> simp only [GeoJsonWriter.geomStep, GeoJsonWriter.comma] <;> (repeat' split) <;> rfl) u.1 {} u.2
    have ht : (interp (GeoJsonWriter.geomProc num) u.1 {} u.2).1.out = t := by
      unfold toJson at hu
      revert hu
      rcases interp (GeoJsonWriter.geomProc num) u.1 {} u.2 with ⟨w, evs, r | r⟩
      · intro hu; cases hu
      · intro hu; cases hu; rfl
    have hw : (interp (GeoJsonWriter.geomProc num) u.1 {} u.2).1 = ({} : GeoJsonWriter).before t := by
      revert hk ht
      generalize (interp (GeoJsonWriter.geomProc num) u.1 {} u.2).1 = w
      intro hk ht
      obtain ⟨d, o⟩ := w
      simp_all [GeoJsonWriter.before]
    rw [hw]
    have := ih ts h (t0 ++ t)
    simpa [GeoJsonWriter.before] using this

/-- C82, `GeoJsonWriter`.  The same for GeoJSON texts. -/
theorem C82_geojson (num : F64 → Text) (us : List Use) (ts : List Text)
    (h : (us.map fun u => toJson num u.1 u.2) = ts.map .ok) :
    ((GeoJsonWriter.geomProc num).after {} us).out = ts.flatten :=
  json_after num us ts h []

/-- C82, `SvgWriter` with data sets and the feature methods: after anything written before (`w` is any state), a source appends
what it writes with a new writer of the same settings, and succeeds or fails like that. -/
theorem C82_svg_features (fo : SvgNum) (w : SvgWriter) (src : FProg Unit) (bs : List Byte) :
    (FProg.interp (SvgWriter.proc fo) src w bs).1.out =
        w.out ++ (FProg.interp (SvgWriter.proc fo) src { w with out := [] } bs).1.out ∧
      (FProg.interp (SvgWriter.proc fo) src w bs).2 = (FProg.interp (SvgWriter.proc fo) src { w with out := [] } bs).2 := by
  have hb := (SvgWriter.blind fo w.out).interp src { w with out := [] } bs
  rw [show ({ w with out := [] } : SvgWriter).before w.out = w by obtain ⟨o, i, v, st, z⟩ := w; simp [SvgWriter.before]] at hb
  rw [hb]
  exact ⟨rfl, rfl⟩

/-- The same for data sets and the feature methods: whatever was written before (`w` is any state). -/
theorem C82_geojson_features (fmt : Fmt) (w : GeoJsonWriter) (hw : w.dims = {}) (src : FProg Unit) (bs : List Byte) (t : Text)
    (h : processToJson fmt src bs = .ok t) :
    (FProg.interp (GeoJsonWriter.proc fmt) src w bs).1.out = w.out ++ t := by
  have hb := (GeoJsonWriter.blind fmt w.out).interp src {} bs
  rw [show ({} : GeoJsonWriter).before w.out = w by obtain ⟨d, o⟩ := w; simp_all [GeoJsonWriter.before]] at hb
  rw [hb]
  unfold processToJson at h
  revert h
  rcases FProg.interp (GeoJsonWriter.proc fmt) src {} bs with ⟨w, evs, r | r⟩
  · intro h; cases h
  · intro h; cases h; rfl

private theorem wkt_srids (num : F64 → Text) (w : WktWriter) (ss : List (Option Int)) (evs : List Ev) :
    ∃ s, feed (WktWriter.step num) w (ss.map Ev.srid ++ evs) = feed (WktWriter.step num) { w with srid := s } evs := by
  induction ss generalizing w with
  | nil => exact ⟨w.srid, rfl⟩
  | cons s ss ih =>
    obtain ⟨s', h⟩ := ih { w with srid := w.srid.or s }
    exact ⟨s', by simpa [feed_cons, WktWriter.step] using h⟩

private theorem wkt_use (num : F64 → Text) (w : WktWriter) (hw : w.dialect = .wkt) (u : Use) (g : Geom)
    (hu : Delivers w.dims.multi u g) :
    ∃ w' evs rest, interp (WktWriter.proc num) u.1 w u.2 = (w', evs, .ok ((), rest)) ∧ w'.out = w.out ++ wkt num w.dims.multi g := by
  obtain ⟨ss, rest, hu⟩ := hu
  obtain ⟨s, hs⟩ := wkt_srids num w ss (g.events w.dims.multi 0)
  rw [WktWriter.feed_geom] at hs
  have h := interp_of_feed_ok_inv (WktWriter.proc num) w.dims.multi (fun v => v.dims = w.dims)
    (fun v hv => by simp [WktWriter.proc, hv])
    (WktWriter.step_dims num w.dims) u.1 w _ rfl u.2 (by rw [hu]; exact hs)
  rw [hu] at h
  exact ⟨_, _, _, h, by simp [WktWriter.header, hw, WktWriter.put, WktWriter.sepOf]⟩

/-- C82, `WktWriter` of the dialect WKT.  Whatever was written before, also if that failed (`w` is any state): the text of the
geometry is appended. -/
theorem C82_wkt (num : F64 → Text) (w : WktWriter) (hw : w.dialect = .wkt) (u : Use) (g : Geom) (hu : Delivers w.dims.multi u g)
    (srid : Option Int) :
    ∃ t, toWktWithOpts num u.1 .wkt w.dims srid u.2 = .ok t ∧
      (interp (WktWriter.proc num) u.1 w u.2).1.out = w.out ++ t := by
  refine ⟨wkt num w.dims.multi g, ?_, ?_⟩
  · obtain ⟨w', evs, rest, h1, h2⟩ := wkt_use num (WktWriter.withOpts .wkt w.dims srid) rfl u g hu
    unfold toWktWithOpts
    rw [h1]
    simpa [WktWriter.withOpts] using h2
  · obtain ⟨w', evs, rest, h1, h2⟩ := wkt_use num w hw u g hu
    rw [h1]
    exact h2

/-- C82 fails for the dialect EWKT: only the first geometry gets the SRID. -/
theorem C82_ewkt_false (num : F64 → Text) : ∃ t,
    toWktWithOpts num (geoProcessGeom (.point ⟨0#64, 0#64⟩)) .ewkt {} (some 4326) [] = .ok (txt "SRID=4326;" ++ t) ∧
    ((WktWriter.proc num).after (WktWriter.withOpts .ewkt {} (some 4326))
      [(geoProcessGeom (.point ⟨0#64, 0#64⟩), []), (geoProcessGeom (.point ⟨0#64, 0#64⟩), [])]).out =
      txt "SRID=4326;" ++ t ++ t := by
  refine ⟨txt "POINT(" ++ (num 0#64 ++ txt " " ++ num 0#64) ++ txt ")", ?_, ?_⟩
  · rfl
  · have h : ((WktWriter.proc num).after (WktWriter.withOpts .ewkt {} (some 4326))
        [(geoProcessGeom (.point ⟨0#64, 0#64⟩), []), (geoProcessGeom (.point ⟨0#64, 0#64⟩), [])]).out =
        (((((((txt "SRID=4326;" ++ txt "POINT") ++ txt "(") ++ (num 0#64 ++ txt " " ++ num 0#64)) ++ txt ")") ++ txt "POINT") ++
          txt "(") ++ (num 0#64 ++ txt " " ++ num 0#64)) ++ txt ")" := rfl
    rw [h, show txt "POINT(" = txt "POINT" ++ txt "(" from rfl]
    simp only [List.append_assoc]

/-- the state of a WKB writer after a geometry is the state before, with the bytes appended -/
private theorem wkb_use (d : Dims) (srid : Option Int) (env : List F64) (src : Prog Unit) (g : Geom)
    (hu : Delivers d.multi (src, []) g) (hf : g.Fits) (he : g.hasEmptyPoint = false) :
    ∃ b, toWkbDialect src .wkb d srid env = .ok b ∧
      (interp WkbWriter.proc src (WkbWriter.withOpts .wkb d srid env) []).1 = (WkbWriter.withOpts .wkb d srid env).put b := by
  obtain ⟨ss, rest, hu⟩ := hu
  have hg : WkbWriter.Good d .wkb (WkbWriter.withOpts .wkb d srid env) := ⟨rfl, rfl, rfl, .inr rfl⟩
  obtain ⟨b, hb, _⟩ := WkbWriter.emits_geom g (WkbWriter.withOpts .wkb d srid env) _ _ 0 rfl (.later hg _) hg hf he (.inl rfl)
  have h := interp_of_feed_ok_inv WkbWriter.proc d.multi (fun v => v.readDims = d)
    (fun v hv => by simp [WkbWriter.proc, hv]) (fun v e v' hv h => (WkbWriter.step_readDims h).trans hv) src _ _ rfl []
    (by rw [hu, feed_srids _ fun _ _ => rfl]; exact hb)
  refine ⟨b, ?_, by rw [h]⟩
  unfold toWkbDialect
  rw [h, hu]
  simp [WkbWriter.put, WkbWriter.withOpts, WkbWriter.withExtendedOpts]

private theorem wkb_after (d : Dims) (srid : Option Int) (env : List F64) (ss : List (Prog Unit))
    (hs : ∀ s ∈ ss, ∃ g, Delivers d.multi (s, []) g ∧ g.Fits ∧ g.hasEmptyPoint = false) (ts : List (List Byte))
    (h : (ss.map fun s => toWkbDialect s .wkb d srid env) = ts.map .ok) (b0 : List Byte) :
    (WkbWriter.proc.after ((WkbWriter.withOpts .wkb d srid env).before b0) (ss.map (·, []))).out = b0 ++ ts.flatten := by
  induction ss generalizing ts b0 with
  | nil =>
    cases ts with
    | nil => simp [Prog.Proc.after, WkbWriter.before, WkbWriter.withOpts, WkbWriter.withExtendedOpts]
    | cons t ts => cases h
  | cons u us ih =>
    obtain ⟨t, ts, rfl⟩ : ∃ t ts', ts = t :: ts' := by cases ts with
      | nil => cases h
      | cons t ts => exact ⟨t, ts, rfl⟩
    simp only [List.map_cons, List.cons.injEq] at h
    obtain ⟨hu, h⟩ := h
    obtain ⟨g, h1, h2, h3⟩ := hs u (by simp)
    obtain ⟨b, hb, hw⟩ := wkb_use d srid env u g h1 h2 h3
    rw [hu] at hb
    cases hb
    simp only [List.map_cons, Prog.Proc.after]
    rw [(WkbWriter.blind b0).interp, hw]
    have := ih (fun s h => hs s (by simp [h])) ts h (b0 ++ t)
    simpa [WkbWriter.before, WkbWriter.put, WkbWriter.withOpts, WkbWriter.withExtendedOpts] using this

/-- C82, `WkbWriter` of the dialect WKB.  The bytes written for geometries one after the other are their WKB one after the
other. -/
theorem C82_wkb (d : Dims) (srid : Option Int) (env : List F64) (ss : List (Prog Unit))
    (hs : ∀ s ∈ ss, ∃ g, Delivers d.multi (s, []) g ∧ g.Fits ∧ g.hasEmptyPoint = false) (ts : List (List Byte))
    (h : (ss.map fun s => toWkbDialect s .wkb d srid env) = ts.map .ok) :
    (WkbWriter.proc.after (WkbWriter.withOpts .wkb d srid env) (ss.map (·, []))).out = ts.flatten :=
  wkb_after d srid env ss hs ts h []

/-- C82 fails for the other dialects: the header with the SRID is written once, before the first geometry. -/
theorem C82_wkb_dialects_false (dialect : WkbDialect) (hd : dialect ≠ .wkb) : ∃ t,
    toWkbDialect (geoProcessGeom (.point ⟨0#64, 0#64⟩)) dialect {} (some 4326) [] = .ok t ∧
    (WkbWriter.proc.after (WkbWriter.withOpts dialect {} (some 4326) [])
      [(geoProcessGeom (.point ⟨0#64, 0#64⟩), []), (geoProcessGeom (.point ⟨0#64, 0#64⟩), [])]).out ≠ t ++ t := by
  cases dialect
  · exact absurd rfl hd
  all_goals exact ⟨_, rfl, by decide +kernel⟩

/-! ### non-vacuity -/

/-- a polygon with a hole and a collection, and a source that is not a geometry at all, for `C82_geo_types_partial` -/
private def reusePolygon : GeoGeom :=
  .polygon ⟨[⟨0#64, 0#64⟩, ⟨1#64, 0#64⟩, ⟨1#64, 1#64⟩, ⟨0#64, 0#64⟩], [[⟨2#64, 2#64⟩, ⟨3#64, 2#64⟩, ⟨2#64, 2#64⟩]]⟩

example (sz : ElemSizes) (h : sz.coord ≤ 2 ^ 10 ∧ sz.line ≤ 2 ^ 10 ∧ sz.geom ≤ 2 ^ 10) (u : Use) :
    geoResults sz {} [(geoProcessGeom reusePolygon, []), (geoProcessGeom (.collection [.point ⟨0#64, 0#64⟩, reusePolygon]), []), u] =
      [.ok reusePolygon, .ok (.collection [.point ⟨0#64, 0#64⟩, reusePolygon]), toGeo sz u.1 u.2] := by
  have b1 : reusePolygon.denote.Budget sz := by
    simp [reusePolygon, GeoGeom.denote, GPoly.rings, Geom.Budget, Within]
    omega
  have b2 : (GeoGeom.collection [.point ⟨0#64, 0#64⟩, reusePolygon]).denote.Budget sz := by
    simp [reusePolygon, GeoGeom.denote, GeoGeom.denoteList, GPoly.rings, Geom.Budget, Geom.BudgetList, Within]
    omega
  have c1 : reusePolygon.Closed := by
    simp only [reusePolygon, GeoGeom.Closed, GPoly.Closed]
    intro r hr
    simp only [List.mem_cons, List.not_mem_nil, or_false] at hr
    rcases hr with rfl | rfl <;> simp [Closes, XY.Same] <;> decide
  have c2 : (GeoGeom.collection [.point ⟨0#64, 0#64⟩, reusePolygon]).Closed := ⟨trivial, c1, trivial⟩
  refine (C82_geo_types_partial sz [(geoProcessGeom reusePolygon, []),
    (geoProcessGeom (.collection [.point ⟨0#64, 0#64⟩, reusePolygon]), [])] ?_ u).trans ?_
  · intro v hv
    simp only [List.mem_cons, List.not_mem_nil, or_false] at hv
    rcases hv with rfl | rfl
    · exact ⟨_, _, ⟨[], [], rfl⟩, geo_denote _ c1, b1⟩
    · exact ⟨_, _, ⟨[], [], rfl⟩, geo_denote _ c2, b2⟩
  · have h1 := C15_to_geo sz _ c1 b1
    have h2 := C15_to_geo sz _ c2 b2
    simp only [List.cons_append, List.nil_append, List.map_cons, List.map_nil, h1, h2]
    rfl

example (lib : GeosLib) (w : GeosWriter) :
    geosAgain lib w (.emit (.srid (some 4326)) (geoProcessGeom (.multiPoint [⟨0#64, 1#64⟩, ⟨2#64, 3#64⟩])), []) =
      .ok (.multiPoint [[⟨0#64, 1#64, none⟩], [⟨2#64, 3#64, none⟩]], 4326) :=
  (C82_geos_partial lib w _ [] (some 4326) (GeoGeom.multiPoint [⟨0#64, 1#64⟩, ⟨2#64, 3#64⟩]).denote _ rfl rfl trivial
    (by simp [GeoGeom.denote, Geom.Short])).1

example (w : GdalWriter) : gdalAgain w (geoProcessGeom reusePolygon, []) = .ok (reusePolygon.denote.map Coord.flat).ogr :=
  (C82_gdal_partial w _ reusePolygon.denote trivial ⟨[], [], rfl⟩).1

example (fo : SvgNum) : ((SvgWriter.gproc fo).after (SvgWriter.new false)
    [(geoProcessGeom (.point ⟨0#64, 1#64⟩), []), (geoProcessGeom (.lineString [⟨2#64, 3#64⟩]), [])]).out =
    [txt "<path d=\"M " ++ (fo.num 0#64 ++ txt " " ++ fo.num 1#64 ++ txt " ") ++ txt "Z\"/>",
      txt "<path d=\"" ++ (fo.num 2#64 ++ txt " " ++ fo.num 3#64 ++ txt " ") ++ txt "\"/>"].flatten :=
  C82_svg fo _ _ rfl

example (fo : SvgNum) (w : SvgWriter) :
    (FProg.interp (SvgWriter.proc fo) (FProg.emit (.dsBegin none) (FProg.emit .dsEnd (.ret ()))) w []).1.out =
      w.out ++ (({ w with out := [] } : SvgWriter).datasetBegin fo none).out ++ txt "\n</g>\n</svg>" := by
  rw [(C82_svg_features fo w _ []).1, List.append_assoc]
  rfl

example (num : F64 → Text) : ((GeoJsonWriter.geomProc num).after {}
    [(geoProcessGeom (.point ⟨0#64, 1#64⟩), []), (geoProcessGeom (.lineString [⟨2#64, 3#64⟩]), [])]).out =
    [txt "{\"type\": \"Point\", \"coordinates\": " ++ (txt "[" ++ num 0#64 ++ txt "," ++ num 1#64 ++ txt "]") ++ txt "}",
      txt "{\"type\": \"LineString\", \"coordinates\": [" ++ (txt "[" ++ num 2#64 ++ txt "," ++ num 3#64 ++ txt "]") ++
        txt "]}"].flatten :=
  C82_geojson num _ _ rfl

example (num : F64 → Text) (w : WktWriter) (hw : w.dialect = .wkt) (hd : w.dims = {}) :
    ∃ t, toWktWithOpts num (geoProcessGeom reusePolygon) .wkt w.dims none [] = .ok t ∧
      (interp (WktWriter.proc num) (geoProcessGeom reusePolygon) w []).1.out = w.out ++ t :=
  C82_wkt num w hw (geoProcessGeom reusePolygon, []) reusePolygon.denote ⟨[], [], by rw [hd]; rfl⟩ none

example : ∃ t1 t2, (WkbWriter.proc.after (WkbWriter.withOpts .wkb {} none [])
    [(geoProcessGeom (.point ⟨0#64, 1#64⟩), []), (geoProcessGeom reusePolygon, [])]).out = [t1, t2].flatten ∧ t1.length = 21 := by
  refine ⟨_, _, C82_wkb {} none [] [geoProcessGeom (.point ⟨0#64, 1#64⟩), geoProcessGeom reusePolygon] ?_ [_, _] rfl, rfl⟩
  intro s hs
  simp only [List.mem_cons, List.not_mem_nil, or_false] at hs
  rcases hs with rfl | rfl
  · exact ⟨(GeoGeom.point ⟨0#64, 1#64⟩).denote, ⟨[], [], rfl⟩, by simp [GeoGeom.denote, Geom.Fits, Geom.Lens], rfl⟩
  · exact ⟨reusePolygon.denote, ⟨[], [], rfl⟩, by simp [reusePolygon, GeoGeom.denote, GPoly.rings, Geom.Fits, Geom.Lens], rfl⟩

end Geozero
