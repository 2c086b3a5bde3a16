import Verif.Lemmas.Geos
import Verif.Props.GeoTypes
import Verif.Props.Wkt

/-
Properties of the GEOS conversions: C53 (faithful or an error), C45 (collections).
-/

namespace Geozero
open Prog

/-- C53, reading.  The calls made for any GEOS geometry without empty points are the documented stream of the geometry it
denotes, with z values if the processor has a z dimension.
Missing: empty points, for which it is false (`C53_empty_point_false`). -/
theorem C53_reader_partial (g : GeosGeom) (h : g.NoEmptyPoint) (z : Bool) (bs : List Byte) :
    run z (geosProcessGeom g) bs = (g.denote.events z 0, .ok ((), bs)) :=
  run_geosGeomN z bs g 0 h

/-- a collection with all kinds of members -/
def exGeos : GeosGeom :=
  .collection [.point [⟨1#64, 2#64, some 3#64⟩], .multiPoint [[⟨1#64, 2#64, none⟩], [⟨3#64, 4#64, none⟩]],
    .polygon [⟨0#64, 0#64, none⟩] [[⟨1#64, 1#64, none⟩]], .collection [.linearRing []]]

example : exGeos.NoEmptyPoint := by simp [exGeos, GeosGeom.NoEmptyPoint, GeosGeom.NoEmptyPointList]

/-- conversion to WKT of a source that delivers a geometry, asking for `dimensions().z` -/
theorem toWktAskedZ_text (num : F64 → Text) (src : Prog Unit) (dialect : WktDialect) (dims : Dims) (srid : Option Int) (g : Geom)
    (h : run dims.z src [] = (g.events dims.z 0, .ok ((), []))) :
    toWktAskedZ num src dialect dims srid =
      .ok ((if dialect = .ewkt then Spec.sridPrefix srid else []) ++ Spec.wkt num dims.z g) := by
  have hf := WktWriter.feed_geom num dims.z g 0 (WktWriter.withOpts dialect dims srid)
  unfold toWktAskedZ
  rw [interp_of_feed_ok_inv ((WktWriter.proc num).askedZ fun w => w.dims) dims.z (fun w => w.dims = dims)
    (fun w hw => by simp [Proc.askedZ, hw]) (WktWriter.step_dims num dims) src _ _ rfl [] (by rw [h]; exact hf), h]
  simp only [Except.ok.injEq]
  cases dialect
  · simp [WktWriter.withOpts, WktWriter.header, WktWriter.put, WktWriter.sepOf]
  · cases srid with
    | none => simp [WktWriter.withOpts, WktWriter.header, WktWriter.put, WktWriter.sepOf, Spec.sridPrefix]
    | some v =>
      by_cases hv : v = 0 <;>
        simp [WktWriter.withOpts, WktWriter.header, WktWriter.put, WktWriter.sepOf, Spec.sridPrefix, hv]

/-- C53, GEOS to WKT: the text of the geometry, with its z values if and only if they are asked for; EWKT begins with the
SRID given.  Missing: empty points (`C53_empty_point_false`). -/
theorem C53_to_wkt_partial (num : F64 → Text) (g : GeosGeom) (h : g.NoEmptyPoint) (dialect : WktDialect) (dims : Dims)
    (srid : Option Int) :
    toWktAskedZ num (geosProcessGeom g) dialect dims srid =
      .ok ((if dialect = .ewkt then Spec.sridPrefix srid else []) ++ Spec.wkt num dims.z g.denote) :=
  toWktAskedZ_text num _ dialect dims srid g.denote (C53_reader_partial g h dims.z [])

example : toWktAskedZ (fun _ => txt "1") (geosProcessGeom (.point [⟨1#64, 2#64, some 3#64⟩])) .ewkt ⟨true, false, false, false⟩
    (some 4326) = .ok (txt "SRID=4326;POINT(1 1 1)") := by
  rw [C53_to_wkt_partial _ _ (by simp [GeosGeom.NoEmptyPoint])]
  have h : Spec.sridPrefix (some 4326) = txt "SRID=4326;" := by decide
  rw [h]
  simp [GeosGeom.denote, Spec.wkt, txt, Spec.tagged, Spec.wktCoord, Spec.parens, Spec.ordinates, Spec.blankSep, Spec.commaSep,
    F64.isNaN, GPos.coord]

/-- C53 fails for empty points: they are delivered as a point without a coordinate instead of `empty_point`, and
conversion to WKT gives `POINT()`. -/
theorem C53_empty_point_false (num : F64 → Text) :
    (∀ z bs, run z (geosProcessGeom (.point [])) bs ≠ ((GeosGeom.point []).denote.events z 0, .ok ((), bs))) ∧
    toWktAskedZ num (geosProcessGeom (.point [])) .wkt {} none = .ok (txt "POINT()") := by
  constructor
  · intro z bs h
    cases (Prod.ext_iff.mp h).1
  · rfl

private theorem toGeos_ok (lib : GeosLib) (src : Prog Unit) (bs rest : List Byte) (s : Option Int) (pre : List Ev) (g : Geom)
    (t : GeosGeom) (hpre : pre = [] ∧ s = none ∨ pre = [.srid s])
    (hsrc : run false src bs = (pre ++ g.events false 0, .ok ((), rest))) (hg : g.geos = some t) (ha : lib.accepts g)
    (hs : g.Short) : toGeos lib src bs = .ok (t, s.getD 0) := by
  obtain ⟨w', h1, h2, h3, _⟩ := GeosWriter.feed_geom lib g t hg ha hs 0 { srid := s }
  have hf : feed (GeosWriter.proc lib).step {} (run false src bs).1 = .ok w' := by
    rw [hsrc]
    rcases hpre with ⟨rfl, rfl⟩ | rfl
    · exact h1
    · exact h1
  unfold toGeos
  rw [interp_of_feed_ok (GeosWriter.proc lib) false (fun _ => rfl) src {} w' bs hf, hsrc]
  simp [h2, h3]

/-- C53, writing.  A source that delivers a point, line string, polygon or multi of these which the library accepts gives
that geometry in two dimensions, with the SRID delivered.
Missing: empty points (an error), curves, triangles, surfaces and collections (`C53_surface_false`, `C45_geos_false`). -/
theorem C53_to_geos_partial (lib : GeosLib) (src : Prog Unit) (bs rest : List Byte) (s : Option Int) (g : Geom) (t : GeosGeom)
    (hsrc : run false src bs = (.srid s :: g.events false 0, .ok ((), rest)) ∨
      s = none ∧ run false src bs = (g.events false 0, .ok ((), rest)))
    (hg : g.geos = some t) (ha : lib.accepts g) (hs : g.Short) : toGeos lib src bs = .ok (t, s.getD 0) := by
  rcases hsrc with h | ⟨rfl, h⟩
  · exact toGeos_ok lib src bs rest s [.srid s] g t (.inr rfl) h hg ha hs
  · exact toGeos_ok lib src bs rest none [] g t (.inl ⟨rfl, rfl⟩) h hg ha hs

/-- The result denotes the geometry without its z and m values. -/
theorem C53_same_geometry (g : Geom) (t : GeosGeom) (h : g.geos = some t) :
    t.denote = g.map fun c => { c with z := none, m := none } := by
  have hc : ∀ c : Coord, c.gpos.coord = { c with z := none, m := none } := fun _ => rfl
  cases g with
  | multiPolygon ps =>
    simp only [Geom.geos] at h
    split at h
    · rename_i hne
      cases h
      simp only [GeosGeom.denote, Geom.map, List.map_map, Geom.multiPolygon.injEq]
      apply List.map_congr_left
      intro rs hr
      have : rs ≠ [] := by simpa using List.all_eq_true.mp hne rs hr
      cases rs with
      | nil => exact absurd rfl this
      | cons r rs => simp [GSeq.coords, Function.comp_def, hc]
    · cases h
  | polygon rs =>
    cases rs with
    | nil => cases h
    | cons e is => cases h; simp [GeosGeom.denote, Geom.map, GSeq.coords, Function.comp_def, hc]
  | multiPoint cs =>
    cases h
    simp only [GeosGeom.denote, Geom.map, List.flatMap_map, Geom.multiPoint.injEq, GSeq.coords, List.map_cons, List.map_nil, hc]
    induction cs with
    | nil => rfl
    | cons c cs ih => simp [ih]
  | point c => cases h; simp [GeosGeom.denote, Geom.map, hc]
  | lineString cs => cases h; simp [GeosGeom.denote, Geom.map, GSeq.coords, Function.comp_def, hc]
  | multiLineString ls => cases h; simp [GeosGeom.denote, Geom.map, GSeq.coords, Function.comp_def, hc]
  | _ => cases h

/-- A geometry of one of these kinds which the library does not accept, or a polygon without rings, is an error. -/
theorem C53_rejected (lib : GeosLib) (src : Prog Unit) (bs rest : List Byte) (s : Option Int) (g : Geom) (hb : g.Basic)
    (hsrc : run false src bs = (.srid s :: g.events false 0, .ok ((), rest)))
    (hn : g.geos = none ∨ ¬ lib.accepts g) (hs : g.Short) :
    ∃ e, toGeos lib src bs = .error e ∧ (e = .geometry "CoordSeq missing" ∨ e = lib.err) := by
  obtain ⟨e, h1, h2⟩ := GeosWriter.feed_geom_err lib g hb hn hs 0 { srid := s }
  refine ⟨e, ?_, h2⟩
  have h := interp_of_feed_error (GeosWriter.proc lib) false (fun _ => rfl) src {} bs e (by rw [hsrc]; exact h1)
  unfold toGeos
  revert h
  rcases interp (GeosWriter.proc lib) src {} bs with ⟨w, evs', r⟩
  rintro rfl
  rfl

/-- An empty point, on its own or anywhere in a collection, is an error. -/
theorem C53_empty_point_rejected (lib : GeosLib) (src : Prog Unit) (bs : List Byte) (pre : List Ev) (g : Geom)
    (r : Except Err (Unit × List Byte)) (hsrc : run false src bs = (pre ++ g.events false 0, r)) (hg : g.hasEmptyPoint = true) :
    ∃ e, toGeos lib src bs = .error e := by
  obtain ⟨j, hj⟩ := emptyPoint_mem_events false g hg 0
  obtain ⟨x, hx⟩ := feed_mem_error (GeosWriter.proc lib).step (.emptyPoint j) (fun s => ⟨_, rfl⟩) (pre ++ g.events false 0)
    (List.mem_append.mpr (.inr hj)) {}
  have h := interp_of_feed_error (GeosWriter.proc lib) false (fun _ => rfl) src {} bs x (by rw [hsrc]; exact hx)
  refine ⟨x, ?_⟩
  unfold toGeos
  revert h
  rcases interp (GeosWriter.proc lib) src {} bs with ⟨w, evs', r⟩
  rintro rfl
  rfl

example : (Geom.collection [.point ⟨1#64, 2#64, none, none⟩, .collection [.emptyPoint]]).hasEmptyPoint = true := by decide

/-- the checks GEOS makes: a line string has no or at least two positions, a ring is closed with no or at least four -/
def exLib : GeosLib where
  lineOk cs := cs.length ≠ 1
  ringOk cs := cs.length = 0 || (3 < cs.length && cs.head? == cs.getLast?)
  polyOk e is := !e.isEmpty || is.all List.isEmpty
  err := .geometry "GEOS"
  outOfRange := .geometry "index out of range"
  blank := ⟨0#64, 0#64⟩

def exTriangle : List Coord :=
  [⟨0#64, 0#64, some 1#64, none⟩, ⟨9#64, 0#64, some 1#64, none⟩, ⟨0#64, 9#64, none, none⟩, ⟨0#64, 0#64, none, none⟩]

example : (∃ t, (Geom.multiPolygon [[exTriangle], [exTriangle, exTriangle]]).geos = some t) ∧
    exLib.accepts (.multiPolygon [[exTriangle], [exTriangle, exTriangle]]) ∧
    (Geom.multiPolygon [[exTriangle], [exTriangle, exTriangle]]).Short := by
  refine ⟨⟨_, rfl⟩, ?_, ?_⟩
  · simp only [GeosLib.accepts, GeosLib.acceptsPoly]
    decide
  · simp [Geom.Short, exTriangle]

example : (Geom.lineString [⟨0#64, 0#64, none, none⟩]).Basic ∧ ¬ exLib.accepts (.lineString [⟨0#64, 0#64, none, none⟩]) := by
  simp [Geom.Basic, GeosLib.accepts, exLib]

/-- C53 from WKB: whatever the bytes (every dialect but SpatiaLite), if the reader delivers such a geometry, `from_wkb`
gives it with the SRID of the blob; if the reader fails, so does `from_wkb`. -/
theorem C53_from_wkb_partial (lib : GeosLib) (fo : FOps) (d : WkbDialect) (hd : d ≠ .spatiaLite) (bs : List Byte) :
    (∃ s g rest, run false (processWkbTypeGeom fo d) bs = (.srid s :: g.events false 0, .ok ((), rest)) ∧
      ∀ t, g.geos = some t → lib.accepts g → g.Short → geosFromWkb lib fo d bs = .ok (t, s.getD 0)) ∨
    (∃ e, geosFromWkb lib fo d bs = .error e) := by
  cases hr : run false (processWkbTypeGeom fo d) bs with
  | mk evs r =>
    cases r with
    | ok p =>
      obtain ⟨⟨⟩, rest⟩ := p
      obtain ⟨s, g, _, rfl⟩ := C08_success_is_one_geometry fo d hd false bs rest evs hr
      exact .inl ⟨s, g, rest, rfl, fun t hg ha hs => toGeos_ok lib _ bs rest s [.srid s] g t (.inr rfl) hr hg ha hs⟩
    | error e =>
      right
      cases hf : feed (GeosWriter.step lib) {} evs with
      | ok w =>
        refine ⟨e, ?_⟩
        unfold geosFromWkb toGeos
        rw [interp_of_feed_ok (GeosWriter.proc lib) false (fun _ => rfl) _ {} w bs (by rw [hr]; exact hf), hr]
      | error x =>
        refine ⟨x, ?_⟩
        have h := interp_of_feed_error (GeosWriter.proc lib) false (fun _ => rfl) (processWkbTypeGeom fo d) {} bs x
          (by rw [hr]; exact hf)
        unfold geosFromWkb toGeos
        revert h
        rcases interp (GeosWriter.proc lib) (processWkbTypeGeom fo d) {} bs with ⟨w, evs', r⟩
        rintro rfl
        rfl

/-- C53 fails for geometries GEOS has no kind for: a polyhedral surface, multi surface, TIN or multi curve of line strings is
accepted and silently becomes POINT EMPTY. -/
theorem C53_surface_false (ps : List (List (List Coord))) (hs : ∀ rs ∈ ps, ∀ l ∈ rs, l.length < 2 ^ 32) (lib : GeosLib)
    (ha : ∀ rs ∈ ps, rs ≠ [] ∧ lib.acceptsPoly rs) :
    ∃ w, feed (GeosWriter.step lib) {} ((Geom.polyhedralSurface ps).events false 0) = .ok w ∧ w.geom.denote = .emptyPoint := by
  obtain ⟨cs, h⟩ := GeosWriter.feed_polysU lib ps hs ha 0 {}
  refine ⟨{ cs := cs, polys := ps.map fun rs => ((rs.headD []).map Coord.gpos, rs.tail.map (List.map Coord.gpos)) }, ?_, rfl⟩
  simp only [Geom.events, bracket, feed_cons, GeosWriter.step, GeosWriter.gbegin, feed_append, h]
  rfl

example : (∀ rs ∈ [[exTriangle]], ∀ l ∈ rs, l.length < 2 ^ 32) ∧ ∀ rs ∈ [[exTriangle]], rs ≠ [] ∧ exLib.acceptsPoly rs := by
  constructor
  · simp [exTriangle]
  · simp only [GeosLib.acceptsPoly]
    decide

/-- Members of a WKT multi point that are EMPTY are announced but not delivered (`C21_multipoint_empty_false`), so the GEOS
multi point gets points nobody asked for: here a fresh position. -/
theorem C53_multipoint_blank_false (lib : GeosLib) :
    toGeos lib (wktProcessGeom (.multiPoint [some ⟨1#64, 2#64, none, none⟩, none])) [] =
      .ok (.multiPoint [[⟨1#64, 2#64, none⟩], [⟨lib.blank.x, lib.blank.y, none⟩]], 0) := rfl

/-- C53, GEOS to GEOS: reading a geometry of one of the basic kinds without empty points into the writer gives the same
geometry without z; a linear ring becomes a line string. -/
theorem C53_round_trip_partial (lib : GeosLib) (g : GeosGeom) (h : g.NoEmptyPoint) (t : GeosGeom) (ht : g.denote.geos = some t)
    (ha : lib.accepts g.denote) (hs : g.denote.Short) :
    geosToGeos lib g = .ok (t, 0) ∧ t.denote = g.denote.map fun c => { c with z := none, m := none } :=
  ⟨toGeos_ok lib _ [] [] none [] g.denote t (.inl ⟨rfl, rfl⟩) (C53_reader_partial g h false []) ht ha hs,
    C53_same_geometry _ _ ht⟩

example : (GeosGeom.linearRing (exTriangle.map Coord.gpos)).NoEmptyPoint ∧
    exLib.accepts (GeosGeom.linearRing (exTriangle.map Coord.gpos)).denote ∧
    (GeosGeom.linearRing (exTriangle.map Coord.gpos)).denote.Short := by
  refine ⟨by simp [GeosGeom.NoEmptyPoint], ?_, by simp [GeosGeom.denote, Geom.Short, GSeq.coords, exTriangle]⟩
  simp only [GeosGeom.denote, GeosLib.accepts]
  decide

/-- C53, GEOS to WKB: with dimensions XY, XYZ or XYZM the bytes are the EWKB of the geometry. -/
theorem C53_to_ewkb_partial (g : GeosGeom) (h : g.NoEmptyPoint) (d : Dims) (hm : d.multi = d.z) (srid : Option Int)
    (env : List F64) (hf : g.denote.Fits) (he : g.denote.hasEmptyPoint = false) :
    ∃ bytes, toWkbAskedZ (geosProcessGeom g) .ewkb d srid env = .ok bytes ∧ Spec.Ewkb d .le srid (g.denote.stored d) bytes := by
  obtain ⟨w, h1, h2⟩ := C07_ewkb_writer_conforms d srid none env g.denote hf he
  refine ⟨w.out, ?_, h2⟩
  rw [hm] at h1
  have hr := C53_reader_partial g h d.z []
  unfold toWkbAskedZ
  rw [interp_of_feed_ok_inv (WkbWriter.proc.askedZ fun w => w.readDims) d.z (fun w => w.readDims = d)
    (fun w hw => by simp [Proc.askedZ, hw]) (fun s e s' h hs => by rw [← h]; exact WkbWriter.step_readDims hs)
    (geosProcessGeom g) _ w rfl [] (by rw [hr]; exact h1), hr]

example : (⟨true, true, false, false⟩ : Dims).multi = true ∧ ({} : Dims).multi = false ∧ exGeos.denote.hasEmptyPoint = false ∧
    exGeos.denote.Fits := by
  refine ⟨rfl, rfl, by simp [exGeos, GeosGeom.denote, GeosGeom.denoteList, GSeq.coords]; decide, ?_⟩
  simp [exGeos, GeosGeom.denote, GeosGeom.denoteList, GSeq.coords, Geom.Fits, Geom.Lens, Geom.LensList]

/-! ## C45: collections -/

/-- C45 for geo-types: a collection with any members, nested to any depth, keeps every member in order. -/
theorem C45_geo_types (sz : ElemSizes) (gs : List GeoGeom) (hc : (GeoGeom.collection gs).Closed)
    (hb : (GeoGeom.collection gs).denote.Budget sz) :
    toGeo sz (geoProcessGeom (.collection gs)) [] = .ok (.collection (gs.map GeoGeom.normal)) := by
  have h := C15_to_geo sz (.collection gs) hc hb
  have e : ∀ gs : List GeoGeom, GeoGeom.normalList gs = gs.map GeoGeom.normal := by
    intro gs
    induction gs with
    | nil => rfl
    | cons g gs ih => simp [GeoGeom.normalList, ih]
  simpa [GeoGeom.normal, e] using h

/-- C45 fails for GEOS: of a collection only the last member is kept, and an empty collection becomes POINT EMPTY. -/
theorem C45_geos_false (lib : GeosLib) (gs : List Geom) (last : Geom) (t : GeosGeom) (ht : last.geos = some t)
    (hall : ∀ g ∈ gs ++ [last], (∃ t, g.geos = some t) ∧ lib.accepts g ∧ g.Short) :
    (∃ w, feed (GeosWriter.step lib) {} ((Geom.collection (gs ++ [last])).events false 0) = .ok w ∧ w.geom = t) ∧
    ∃ w, feed (GeosWriter.step lib) {} ((Geom.collection []).events false 0) = .ok w ∧ w.geom = .point [] := by
  refine ⟨?_, ⟨{}, by simp [Geom.events, eventsList, feed, GeosWriter.step, GeosWriter.gbegin, GeosWriter.gend], rfl⟩⟩
  have key : ∀ (gs : List Geom) (i : Nat) (w : GeosWriter),
      (∀ g ∈ gs ++ [last], (∃ t, g.geos = some t) ∧ lib.accepts g ∧ g.Short) →
      ∃ w', feed (GeosWriter.step lib) w (evList (Geom.events false) i (gs ++ [last])) = .ok w' ∧ w'.geom = t := by
    intro gs
    induction gs with
    | nil =>
      intro i w hall
      obtain ⟨_, ha, hs⟩ := hall last (by simp)
      obtain ⟨w', h1, h2, _⟩ := GeosWriter.feed_geom lib last t ht ha hs i w
      exact ⟨w', by simpa [evList] using h1, h2⟩
    | cons g gs ih =>
      intro i w hall
      obtain ⟨⟨t', ht'⟩, ha, hs⟩ := hall g (by simp)
      obtain ⟨w', h1, _⟩ := GeosWriter.feed_geom lib g t' ht' ha hs i w
      obtain ⟨w'', h3, h4⟩ := ih (i + 1) w' fun g hg => hall g (by simp at hg ⊢; rcases hg with h | h <;> simp [h])
      refine ⟨w'', ?_, h4⟩
      simp only [List.cons_append, evList, feed_append, h1]
      exact h3
  obtain ⟨w', h1, h2⟩ := key gs 0 {} hall
  refine ⟨w', ?_, h2⟩
  rw [events_collection]
  simp only [bracket, feed_cons, GeosWriter.step, GeosWriter.gbegin, feed_append, h1]
  rfl

example : ∀ g ∈ [Geom.point ⟨1#64, 1#64, none, none⟩] ++ [Geom.point ⟨2#64, 2#64, none, none⟩],
    (∃ t, g.geos = some t) ∧ exLib.accepts g ∧ g.Short := by
  simp [Geom.geos, GeosLib.accepts, Geom.Short]

end Geozero
