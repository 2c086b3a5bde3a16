import Verif.Spec.Chain
import Verif.Props.RoundTrip
import Verif.Props.WkbWrite
import Verif.Props.SlRoundTrip
import Verif.Props.Geos
import Verif.Props.Gdal
import Verif.Props.GeoTypes

/-
C70: converting in several steps is converting in one.
-/

namespace Geozero.Chain

open Geozero Prog Spec

theorem slSingle_of_onePart {g : Geom} (h : OnePart g) : WkbWriter.slSingle g = true := by
  cases g <;> simp_all [OnePart, WkbWriter.slSingle]

/-- without z and m a geometry is delivered to a two-dimensional processor as it is -/
theorem events_flat (f : Coord → Coord) (hf : ∀ c, (f c).x = c.x ∧ (f c).y = c.y) (g : Geom) (hb : g.Basic) (i : Nat) :
    (g.map f).events false i = g.events false i := by
  have hc : ∀ (cs : List Coord) (j : Nat), evList (coordEvs false) j (cs.map f) = evList (coordEvs false) j cs := by
    intro cs
    induction cs with
    | nil => intro j; rfl
    | cons c cs ih => intro j; simp [evList, coordEvs, coordEv, ih, (hf c).1, (hf c).2]
  have hl : ∀ (ls : List (List Coord)) (j : Nat), evList (lineEvs false false) j (ls.map (List.map f)) =
      evList (lineEvs false false) j ls := by
    intro ls
    induction ls with
    | nil => intro j; rfl
    | cons l ls ih => intro j; simp [evList, lineEvs, bracket, hc, ih]
  have hp : ∀ (ps : List (List (List Coord))) (j : Nat), evList (polyEvs false false) j (ps.map (List.map (List.map f))) =
      evList (polyEvs false false) j ps := by
    intro ps
    induction ps with
    | nil => intro j; rfl
    | cons p ps ih => intro j; simp [evList, polyEvs, bracket, hl, ih]
  cases g <;> simp_all [Geom.Basic, Geom.map, Geom.events, bracket, lineEvs, polyEvs, coordEvs, coordEv]

theorem convert_wkb (T : Tools) (s : Source) (g : Geom) (hs : s.Delivers g) (hg : Planar g) (d : WkbDialect) (srid : Option Int)
    (env : List F64) (h : T.Holds g (.wkb d srid env)) :
    ∃ s', T.convert s (.wkb d srid env) = .ok s' ∧ s'.Delivers g := by
  obtain ⟨pre, rest, hpre, hrun⟩ := hs
  obtain ⟨hh, hf, hl⟩ := h
  obtain ⟨h1, h2, h3⟩ := hg
  have main : ∀ w v r', feed WkbWriter.step (WkbWriter.withOpts d {} srid env) (.srid none :: g.events false 0) = .ok w →
      run false (processWkbTypeGeom T.floats d) w.out = (.srid v :: g.events false 0, .ok ((), r')) →
      ∃ s', T.convert s (.wkb d srid env) = .ok s' ∧ s'.Delivers g := by
    intro w v r' hw hr
    have hw' : feed WkbWriter.step (WkbWriter.withOpts d {} srid env) (pre ++ g.events false 0) = .ok w := by
      rcases hpre with rfl | ⟨v, rfl⟩ <;> exact hw
    have hm : ∀ w : WkbWriter, w.readDims = {} → WkbWriter.proc.multi w = false := by
      intro w h; simp [WkbWriter.proc, h]; rfl
    refine ⟨⟨processWkbTypeGeom T.floats d, w.out⟩, ?_, [.srid v], r', .inr ⟨v, rfl⟩, hr⟩
    simp only [Tools.convert]
    rw [interp_of_feed_ok_inv WkbWriter.proc false (fun w => w.readDims = {}) hm (fun w e w2 hw h => (WkbWriter.step_readDims h).trans hw) s.read _ w rfl s.input
      (by rw [hrun]; exact hw'), hrun]
  have hdd : ({} : Dims).multi = false := rfl
  cases d with
  | wkb =>
    obtain ⟨w, a, b⟩ := C01_wkb_round_trip T.floats {} srid none env g hf h2 h1 h3 hl
    exact main w none [] a (by simpa using b false [])
  | ewkb =>
    obtain ⟨w, a, b, -⟩ := C02_ewkb_round_trip T.floats {} srid none hh env g hf h2 h1 h3 hl
    exact main w _ [] a (by simpa using b false [])
  | geopackage =>
    obtain ⟨w, a, b, -⟩ := C03_gpkg_round_trip T.floats {} {} srid none hh.1 env {} false false
      (by rcases hh.2 with h | h <;> cases env <;> simp_all [envelopeCodeOf, EnvelopeCode]) g hf h2 h1 h3 hl
    exact main w _ [] a (by simpa using b false [])
  | mySQL =>
    obtain ⟨w, a, b, -⟩ := C04_mysql_round_trip T.floats {} srid none hh env g hf h2 h1 h3 hl
    exact main w _ [] a (by simpa using b false [])
  | spatiaLite =>
    obtain ⟨w, k, a, b⟩ := C05_spatialite_single_part_partial T.floats {} srid none hh.1 env hh.2.1 g (slSingle_of_onePart hh.2.2)
      hf h2 h1 h3 hl
    exact main w _ _ a (by simpa using b false [])

theorem convert_geo (T : Tools) (s : Source) (g : Geom) (hs : s.Delivers g) (h : T.Holds g .geoTypes) :
    ∃ s', T.convert s .geoTypes = .ok s' ∧ s'.Delivers g := by
  obtain ⟨pre, rest, hpre, hrun⟩ := hs
  obtain ⟨⟨v, hc, rfl⟩, hb⟩ := h
  have hf := GeoWriter.feed_geom T.sizes v.denote {} v.normal 0 ⟨rfl, rfl, rfl⟩ (geo_denote v hc) hb
  have hf' : feed (GeoWriter.proc T.sizes).step {} (run false s.read s.input).1 = .ok (({} : GeoWriter).finish v.normal) := by
    rw [hrun]
    rcases hpre with rfl | ⟨x, rfl⟩ <;> exact hf
  refine ⟨⟨geoProcessGeom v.normal, []⟩, ?_, [], [], .inl rfl, ?_⟩
  · simp only [Tools.convert, toGeo]
    rw [interp_of_feed_ok (GeoWriter.proc T.sizes) false (fun _ => rfl) s.read {} _ s.input hf', hrun]
    rfl
  · simp only [List.nil_append]
    rw [C15_geo_reader_stream, C15_normal_same_geometry]

theorem convert_geos (T : Tools) (s : Source) (g : Geom) (hs : s.Delivers g) (hg : Planar g) (h : T.Holds g .geos) :
    ∃ s', T.convert s .geos = .ok s' ∧ s'.Delivers g := by
  obtain ⟨pre, rest, hpre, hrun⟩ := hs
  obtain ⟨h1, h2, h3⟩ := h
  cases ht : g.geos with
  | none => exact absurd ht h1
  | some t =>
    obtain ⟨x, hx⟩ : ∃ x, toGeos T.geos s.read s.input = .ok (t, x) := by
      rcases hpre with rfl | ⟨v, rfl⟩
      · exact ⟨_, C53_to_geos_partial T.geos s.read s.input rest none g t (.inr ⟨rfl, hrun⟩) ht h2 h3⟩
      · exact ⟨_, C53_to_geos_partial T.geos s.read s.input rest v g t (.inl hrun) ht h2 h3⟩
    have hne : t.NoEmptyPoint := by
      cases g <;> simp only [Geom.geos] at ht
      all_goals first
        | (cases ht; done)
        | (cases ht; simp [GeosGeom.NoEmptyPoint]; done)
        | (rename_i ps; cases ps <;> simp at ht; subst ht; trivial; done)
        | (split at ht
           · cases ht; trivial
           · cases ht)
    refine ⟨⟨geosProcessGeom t, []⟩, by simp only [Tools.convert, hx]; rfl, [], [], .inl rfl, ?_⟩
    simp only [List.nil_append]
    rw [C53_reader_partial t hne false [], C53_same_geometry g t ht]
    rw [Geom.map_self (P := HasDims {}) (fun c hc => ?_) g hg.flat]
    obtain ⟨cx, cy, cz, cm⟩ := c
    simp only [HasDims, Option.isSome_eq_false_iff, Option.isNone_iff_eq_none] at hc
    simp [hc.1, hc.2]

theorem convert_gdal (T : Tools) (s : Source) (g : Geom) (hs : s.Delivers g) (h : T.Holds g .gdal) :
    ∃ s', T.convert s .gdal = .ok s' ∧ s'.Delivers g := by
  obtain ⟨pre, rest, hpre, hrun⟩ := hs
  have hb : g.Basic := h
  have hx : toGdal s.read s.input = .ok (g.map Coord.flat).ogr := by
    rcases hpre with rfl | ⟨v, rfl⟩
    · exact C54_to_gdal_partial s.read s.input rest none g hb (.inr hrun)
    · exact C54_to_gdal_partial s.read s.input rest v g hb (.inl hrun)
  have hb' : (g.map Coord.flat).Basic := by cases g <;> simp_all [Geom.Basic, Geom.map]
  have he : (g.map Coord.flat).hasEmptyPoint = false := by cases g <;> simp_all [Geom.Basic, Geom.map, Geom.hasEmptyPoint]
  refine ⟨⟨ogrProcessGeom T.ogrBlank (g.map Coord.flat).ogr, []⟩, by simp only [Tools.convert, hx]; rfl, [], [], .inl rfl, ?_⟩
  simp only [List.nil_append]
  rw [C54_reads_every_kind T.ogrBlank _ he false [], events_flat Coord.ogrXYZ (fun c => ⟨rfl, rfl⟩) _ hb',
    events_flat Coord.flat (fun c => ⟨rfl, rfl⟩) _ hb]

theorem convert_wkt (T : Tools) (hT : UnderstandsWkt T.numbers T.wktParser) (s : Source) (g : Geom) (hs : s.Delivers g)
    (h : T.Holds g .wkt) : ∃ s', T.convert s .wkt = .ok s' ∧ s'.Delivers g := by
  obtain ⟨pre, rest, hpre, hrun⟩ := hs
  obtain ⟨t, h1, h2⟩ := C66_wkt T.numbers T.wktParser hT s.read g h s.input rest pre hpre hrun
  exact ⟨⟨processWktText T.wktParser t, []⟩, by simp only [Tools.convert, h1]; rfl, [], [], .inl rfl, h2 false []⟩

theorem convert_geojson (T : Tools) (s : Source) (g : Geom) (hs : s.Delivers g) (hg : Planar g) (h : T.Holds g .geoJson) :
    ∃ s', T.convert s .geoJson = .ok s' ∧ s'.Delivers g := by
  obtain ⟨pre, rest, hpre, hrun⟩ := hs
  obtain ⟨t, h1, h2, h3⟩ := C67_geometry_process_geom_partial T.gjParser T.numbers.num g h.1 hg.noEmpty s.read s.input rest pre hpre
    hrun
  obtain ⟨v, h4, h5⟩ := h3 (h.2 t h2)
  exact ⟨⟨processGeoJsonGeom v, []⟩, by simp only [Tools.convert, h1, h4]; rfl, [], [], .inl rfl, h5 false []⟩

/-- One conversion: if the format can hold the geometry, converting succeeds and reading the result delivers it again. -/
theorem C70_one_step (T : Tools) (hT : UnderstandsWkt T.numbers T.wktParser) (s : Source) (g : Geom) (hs : s.Delivers g)
    (hg : Planar g) (f : Format) (hf : T.Holds g f) : ∃ s', T.convert s f = .ok s' ∧ s'.Delivers g := by
  cases f with
  | wkb d srid env => exact convert_wkb T s g hs hg d srid env hf
  | wkt => exact convert_wkt T hT s g hs hf
  | geoJson => exact convert_geojson T s g hs hg hf
  | geoTypes => exact convert_geo T s g hs hf
  | geos => exact convert_geos T s g hs hg hf
  | gdal => exact convert_gdal T s g hs hf

/-- Any number of conversions between formats that can hold the geometry, in any order: the last result delivers what the first
source did. -/
theorem C70_chain (T : Tools) (hT : UnderstandsWkt T.numbers T.wktParser) (s : Source) (g : Geom) (hs : s.Delivers g)
    (hg : Planar g) (fs : List Format) (hf : ∀ f ∈ fs, T.Holds g f) : ∃ s', T.chain s fs = .ok s' ∧ s'.Delivers g := by
  induction fs generalizing s with
  | nil => exact ⟨s, rfl, hs⟩
  | cons f fs ih =>
    obtain ⟨s1, h1, h2⟩ := C70_one_step T hT s g hs hg f (hf f (by simp))
    obtain ⟨s2, h3, h4⟩ := ih s1 h2 fun f' h' => hf f' (by simp [h'])
    exact ⟨s2, by simp only [Tools.chain, h1, h3], h4⟩

theorem interp_of_feed_error_inv {α σ : Type} (P : Proc σ) (multi : Bool) (I : σ → Prop) (hm : ∀ s, I s → P.multi s = multi)
    (hI : ∀ s e s', I s → P.step s e = .ok s' → I s') (p : Prog α) (s : σ) (hs : I s) (bs : List Byte) (x : Err)
    (h : feed P.step s (run multi p bs).1 = .error x) : (interp P p s bs).2.2 = .error x := by
  have h2 := interp_run_inv P multi I hm hI p s hs bs
  rcases interp_spec P p s bs with h1 | ⟨pre, e, x', he, hp, hx, hr⟩
  · rw [(h2.2 h1).1, h] at h1
    cases h1
  · obtain ⟨t, ht⟩ := h2.1
    rw [← ht, he, List.append_assoc, feed_append, hp] at h
    simp only [List.singleton_append, feed, hx, Except.error.injEq] at h
    rw [hr, h]

/-- Two sources of the same geometry give the same result in every processor that is two-dimensional and ignores SRIDs (as long
as it is in a state with `I`): both succeed and leave it in the same state, or both fail with the same error. -/
theorem C70_same_result {σ : Type} (P : Proc σ) (I : σ → Prop) (hm : ∀ x, I x → P.multi x = false)
    (hI : ∀ x e x', I x → P.step x e = .ok x' → I x') (hsr : ∀ x v, I x → P.step x (.srid v) = .ok x)
    (s s' : Source) (g : Geom) (h : s.Delivers g) (h' : s'.Delivers g) (x : σ) (hx : I x) :
    (∃ y es es' v v', interp P s.read x s.input = (y, es, .ok v) ∧ interp P s'.read x s'.input = (y, es', .ok v')) ∨
    ∃ e, (interp P s.read x s.input).2.2 = .error e ∧ (interp P s'.read x s'.input).2.2 = .error e := by
  have key : ∀ s : Source, s.Delivers g → feed P.step x (run false s.read s.input).1 = feed P.step x (g.events false 0) ∧
      ∃ es v, run false s.read s.input = (es, .ok v) := by
    intro s ⟨pre, rest, hpre, hrun⟩
    rw [hrun]
    refine ⟨?_, _, _, rfl⟩
    rcases hpre with rfl | ⟨v, rfl⟩
    · rfl
    · simp only [List.cons_append, List.nil_append, feed_cons, hsr x v hx]
  obtain ⟨a1, es, v, a2⟩ := key s h
  obtain ⟨b1, es', v', b2⟩ := key s' h'
  cases hfeed : feed P.step x (g.events false 0) with
  | ok y =>
    left
    have c1 := interp_of_feed_ok_inv P false I hm hI s.read x y hx s.input (by rw [a1, hfeed])
    have c2 := interp_of_feed_ok_inv P false I hm hI s'.read x y hx s'.input (by rw [b1, hfeed])
    exact ⟨y, es, es', v, v', by rw [c1, a2], by rw [c2, b2]⟩
  | error e =>
    right
    exact ⟨e, interp_of_feed_error_inv P false I hm hI s.read x hx s.input e (by rw [a1, hfeed]),
      interp_of_feed_error_inv P false I hm hI s'.read x hx s'.input e (by rw [b1, hfeed])⟩

/-- So a detour through any formats that can hold the geometry changes neither the GeoJSON, nor the WKT, nor the SVG, nor the
geo-types value that is made in the end. -/
theorem C70_detour (T : Tools) (hT : UnderstandsWkt T.numbers T.wktParser) (s : Source) (g : Geom) (hs : s.Delivers g)
    (hg : Planar g) (fs : List Format) (hf : ∀ f ∈ fs, T.Holds g f) :
    ∃ s', T.chain s fs = .ok s' ∧
      (∀ num, toJson num s'.read s'.input = toJson num s.read s.input) ∧
      (∀ num, toWktWithOpts num s'.read .wkt {} none s'.input = toWktWithOpts num s.read .wkt {} none s.input) ∧
      (∀ fo, toSvg fo s'.read s'.input = toSvg fo s.read s.input) ∧
      (∀ sz, toGeo sz s'.read s'.input = toGeo sz s.read s.input) := by
  obtain ⟨s', h1, h2⟩ := C70_chain T hT s g hs hg fs hf
  have fin : ∀ {σ β : Type} (P : Proc σ) (x : σ) (out : σ → Except Err β) (res : σ × List Ev × Except Err (Unit × List Byte) → Except Err β),
      (∀ y es v, res (y, es, .ok v) = out y) → (∀ r e, r.2.2 = .error e → res r = .error e) → (I : σ → Prop) → I x →
      (∀ x, I x → P.multi x = false) → (∀ x e x', I x → P.step x e = .ok x' → I x') →
      (∀ x v, I x → P.step x (.srid v) = .ok x) →
      res (interp P s'.read x s'.input) = res (interp P s.read x s.input) := by
    intro σ β P x out res r1 r2 I hx hm hI hsr
    rcases C70_same_result P I hm hI hsr s s' g hs h2 x hx with ⟨y, es, es', v, v', a, b⟩ | ⟨e, a, b⟩
    · rw [a, b, r1, r1]
    · rw [r2 _ e a, r2 _ e b]
  have wkt : ∀ (num : F64 → Text) (s : Source), s.Delivers g → toWktWithOpts num s.read .wkt {} none s.input = .ok (wkt num false g) := by
    intro num s ⟨pre, rest, hpre, hrun⟩
    have hfeed : ∃ w, feed (WktWriter.step num) (WktWriter.withOpts .wkt {} none) (pre ++ g.events false 0) = .ok w ∧
        w.out = Spec.wkt num false g := by
      rcases hpre with rfl | ⟨v, rfl⟩
      · obtain ⟨w, h1, h2⟩ := C19_wkt_writer_sequence num .wkt {} none g []
        simp only [evList, List.append_nil, List.map_cons, List.map_nil, commaSep] at h1 h2
        exact ⟨w, h1, by simpa [show ({} : Dims).multi = false from rfl] using h2⟩
      · obtain ⟨w, h1, h2⟩ := C19_wkt_writer_prints num .wkt {} none v g
        exact ⟨w, h1, by simpa [show ({} : Dims).multi = false from rfl] using h2⟩
    obtain ⟨w, a, b⟩ := hfeed
    rw [toWktWithOpts, interp_of_feed_ok_inv (WktWriter.proc num) false (fun w => w.dims = {})
      (fun w h => by simp [WktWriter.proc, h]; rfl) (WktWriter.step_dims num {}) s.read _ w rfl s.input (by rw [hrun]; exact a), hrun]
    simp only [b]
  refine ⟨s', h1, fun num => ?_, fun num => by rw [wkt num s' h2, wkt num s hs], fun fo => ?_, fun sz => ?_⟩
  · exact fin (GeoJsonWriter.geomProc num) {} (fun w => .ok w.out) (fun | (w, _, .ok _) => .ok w.out | (_, _, .error e) => .error e)
      (fun _ _ _ => rfl) (fun ⟨_, _, r⟩ e h => by cases h; rfl) (fun w => w.dims = {}) rfl
      (fun x hx => by show x.dims.multi = false; rw [hx]; rfl) (fun x e x' hx h => by
        simp only [GeoJsonWriter.geomProc, Except.ok.injEq] at h
        subst h
        rw [GeoJsonWriter.geomStep_text]
        exact hx) (fun _ _ _ => rfl)
  · exact fin (SvgWriter.gproc fo) (SvgWriter.new false) (fun w => .ok w.out) svgResult (fun _ _ _ => rfl)
      (fun ⟨_, _, r⟩ e h => by cases h; rfl) (fun _ => True) trivial (fun _ _ => rfl) (fun _ _ _ _ _ => trivial) (fun _ _ _ => rfl)
  · exact fin (GeoWriter.proc sz) {} (fun w => match w.takeGeometry.1 with
        | some g => .ok g
        | none => .error (.geometry "Missing Geometry"))
      (fun | (w, _, .ok _) => (match w.takeGeometry.1 with
              | some g => .ok g
              | none => .error (.geometry "Missing Geometry"))
           | (_, _, .error e) => .error e)
      (fun _ _ _ => rfl) (fun ⟨_, _, r⟩ e h => by cases h; rfl) (fun _ => True) trivial (fun _ _ => rfl) (fun _ _ _ _ _ => trivial)
      (fun _ _ _ => rfl)

/-- a polygon every format can hold, tools that meet the hypotheses, and a chain through all formats -/
example : ∃ (T : Tools) (s : Source) (g : Geom) (fs : List Format), UnderstandsWkt T.numbers T.wktParser ∧ s.Delivers g ∧ Planar g ∧
    (∀ f ∈ fs, T.Holds g f) ∧ fs = [.wkb .wkb none [], .wkt, .wkb .ewkb (some 4326) [], .geoJson, .wkb .mySQL (some 4326) [],
      .geoTypes, .wkb .geopackage (some (-1)) [0#64, 1#64, 2#64, 3#64], .geos, .wkb .spatiaLite (some 4326) [], .gdal, .wkt] := by
  obtain ⟨parse, hparse⟩ := exists_wktParser decimalBits
  obtain ⟨P, hnum, -, -, hacc⟩ := exists_gjParser (fun t => BitVec.ofInt 64 ((decimal t).getD 0)) (fun _ => []) id (fun _ _ => .refl _)
  have hd : ∀ x : F64, x ∈ [0#64, 9#64] → decimalBits.num x = intText x.toNat := by
    intro x hx
    simp only [List.mem_cons, List.not_mem_nil, or_false] at hx
    rcases hx with rfl | rfl <;> decide +kernel
  let v : GeoGeom := .polygon { exterior := [⟨0#64, 0#64⟩, ⟨9#64, 0#64⟩, ⟨0#64, 9#64⟩, ⟨0#64, 0#64⟩], interiors := [] }
  let T : Tools := ⟨decimalBits, parse, P, ⟨16, 24, 24, 64⟩, exLib, ⟨fun _ => 0#64, fun a _ => a⟩, ⟨0#64, 0#64, 0#64⟩⟩
  refine ⟨T, ⟨geoProcessGeom v, []⟩, v.denote, _, hparse, ⟨[], [], .inl rfl, C15_geo_reader_stream v false []⟩, ?_, ?_, rfl⟩
  · constructor
    · simp [v, GeoGeom.denote, GPoly.rings, AllCoords, HasDims, XY.coord]
    · rfl
    · rfl
  · have hg : ∀ p : Coord → Prop, (∀ x y, x ∈ [0#64, 9#64] → y ∈ [0#64, 9#64] → p ⟨x, y, none, none⟩) → v.denote.IsGeoJson p := by
      intro p hp
      refine .polygon ?_
      intro l hl c hc
      have : l = [⟨0#64, 0#64, none, none⟩, ⟨9#64, 0#64, none, none⟩, ⟨0#64, 9#64, none, none⟩, ⟨0#64, 0#64, none, none⟩] := by
        simpa [v, GPoly.rings, XY.coord] using hl
      subst this
      simp only [List.mem_cons, List.not_mem_nil, or_false] at hc
      rcases hc with rfl | rfl | rfl | rfl <;> exact hp _ _ (by simp) (by simp)
    have hfit : v.denote.Fits ∧ v.denote.levels ≤ 128 := by
      simp [v, GeoGeom.denote, GPoly.rings, Geom.Fits, Geom.Lens, Geom.levels]
    have hwkt : T.Holds v.denote .wkt := hg _ fun x y hx hy => by
      simp only [List.mem_cons, List.not_mem_nil, or_false] at hx hy
      rcases hx with rfl | rfl <;> rcases hy with rfl | rfl <;> simp [Recoverable, F64.isNaN]
    intro f hf
    simp only [List.mem_cons, List.not_mem_nil, or_false] at hf
    rcases hf with rfl | rfl | rfl | rfl | rfl | rfl | rfl | rfl | rfl | rfl | rfl
    · exact ⟨trivial, hfit⟩
    · exact hwkt
    · exact ⟨by simp [HeaderFits, isI32], hfit⟩
    · refine ⟨hg _ fun x y hx hy => ?_, fun t _ => hacc t⟩
      have hn : ∀ x : F64, x ∈ [0#64, 9#64] → Json.IsNumber (decimalBits.num x) ∧ P.num (decimalBits.num x) = x := by
        intro x hx
        rw [hd x hx]
        exact ⟨GeoJsonWriter.isNumber_intText _, by simp [hnum, decimal_intText]⟩
      exact ⟨⟨hn x hx, hn y hy, by simp⟩, rfl, rfl⟩
    · exact ⟨by simp [HeaderFits, isI32], hfit⟩
    · refine ⟨⟨v, ?_, rfl⟩, ?_⟩
      · simp [v, GeoGeom.Closed, GPoly.Closed, Closes, XY.Same]; decide
      · simp [v, GeoGeom.denote, GPoly.rings, Geom.Budget, T, Within]
    · exact ⟨by simp [HeaderFits, isI32], hfit⟩
    · refine ⟨by simp [v, GeoGeom.denote, GPoly.rings, Geom.geos], ?_, ?_⟩
      · simp [v, GeoGeom.denote, GPoly.rings, T, GeosLib.accepts, GeosLib.acceptsPoly, exLib]
      · simp [v, GeoGeom.denote, GPoly.rings, Geom.Short]
    · exact ⟨by simp [HeaderFits, isI32, OnePart, v, GeoGeom.denote, GPoly.rings], hfit⟩
    · trivial
    · exact hwkt

end Geozero.Chain
