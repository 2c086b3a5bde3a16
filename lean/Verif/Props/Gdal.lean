import Verif.Lemmas.Gdal
import Verif.Props.Geos

/-
Properties of the GDAL conversions: C54 (faithful or an error), C45 (collections), C55 (memory safety).
-/

namespace Geozero
open Prog

/-! ## C54: reading -/

/-- C54, reading.  For every tree of OGR geometries without empty points: if it denotes a geometry, the calls are its
documented stream, with z values if the processor has a z dimension; if a member has the wrong type or a type is unknown, the
result is a format error.  Missing: empty points, for which it is false (`C54_empty_point_false`). -/
theorem C54_reader_partial (blank : OgrPt) (t : OgrGeom) (h : t.NoEmptyPoint) (z : Bool) (bs : List Byte) :
    (∀ g, t.denote = some g → run z (ogrProcessGeom blank t) bs = (g.events z 0, .ok ((), bs))) ∧
    (t.denote = none → ∃ evs, run z (ogrProcessGeom blank t) bs = (evs, .error .geometryFormat)) :=
  ⟨fun g hg => (reads_geomN z blank t 0 h).1 g hg bs, fun hn => (reads_geomN z blank t 0 h).2 hn bs⟩

/-- a collection with a curve polygon, a TIN and a nested collection -/
def exOgr : Geom :=
  .collection [.point ⟨1#64, 2#64, some 3#64, none⟩,
    .curvePolygon [.seg (.circ [⟨0#64, 0#64, none, none⟩]), .compound [.line [⟨1#64, 1#64, none, none⟩], .circ []]],
    .tin [[[⟨0#64, 0#64, none, none⟩]]], .collection [.multiPoint [⟨5#64, 6#64, none, none⟩]]]

example : exOgr.ogr.NoEmptyPoint ∧ exOgr.ogr.denote ≠ none ∧ (OgrGeom.node (some .multiPolygon) [] [exOgr.ogr]).denote = none := by
  refine ⟨?_, by rw [denote_ogr]; simp, rfl⟩
  simp [exOgr, Geom.ogr, Geom.ogrList, OgrGeom.NoEmptyPoint, OgrGeom.NoEmptyPointList, Curve.ogr, Seg.ogr, ogrLine, ogrCirc, ogrTri]

private theorem noEmptyList_of {α : Type} (f : α → OgrGeom) (xs : List α) (h : ∀ x ∈ xs, (f x).NoEmptyPoint) :
    OgrGeom.NoEmptyPointList (xs.map f) := by
  induction xs with
  | nil => trivial
  | cons x xs ih => exact ⟨h x (by simp), ih fun x hx => h x (by simp [hx])⟩

private theorem noEmpty_line (cs : List Coord) : (ogrLine cs).NoEmptyPoint := ⟨by simp, trivial⟩
private theorem noEmpty_seg (s : Seg) : s.ogr.NoEmptyPoint := by cases s <;> exact ⟨by simp, trivial⟩
private theorem noEmpty_poly (rs : List (List Coord)) : (ogrPoly rs).NoEmptyPoint :=
  ⟨by simp, noEmptyList_of _ _ fun r _ => noEmpty_line r⟩
private theorem noEmpty_tri (rs : List (List Coord)) : (ogrTri rs).NoEmptyPoint :=
  ⟨by simp, noEmptyList_of _ _ fun r _ => noEmpty_line r⟩

private theorem noEmpty_curve (c : Curve) : c.ogr.NoEmptyPoint := by
  cases c with
  | seg s => exact noEmpty_seg s
  | compound ss => exact ⟨by simp, noEmptyList_of _ _ fun s _ => noEmpty_seg s⟩

private theorem noEmpty_surface (s : Surface) : s.ogr.NoEmptyPoint := by
  cases s with
  | polygon rs => exact noEmpty_poly rs
  | curvePolygon cs => exact ⟨by simp, noEmptyList_of _ _ fun c _ => noEmpty_curve c⟩

private theorem noEmpty_ogr (g : Geom) : g.hasEmptyPoint = false → g.ogr.NoEmptyPoint := by
  refine Geom.ind (P := fun g => g.hasEmptyPoint = false → g.ogr.NoEmptyPoint)
    ?_ ?_ ?_ ?_ ?_ ?_ ?_ ?_ ?_ ?_ ?_ ?_ ?_ ?_ ?_ ?_ g
  · intro h; simp [Geom.hasEmptyPoint] at h
  · intro c _; simp only [Geom.ogr]; exact ⟨by simp, trivial⟩
  · intro cs _; simp only [Geom.ogr]; exact ⟨by simp, noEmptyList_of _ _ fun c _ => ⟨by simp, trivial⟩⟩
  · intro cs _; simp only [Geom.ogr]; exact noEmpty_line cs
  · intro cs _; simp only [Geom.ogr]; exact ⟨by simp, trivial⟩
  · intro ss _; simp only [Geom.ogr]; exact ⟨by simp, noEmptyList_of _ _ fun s _ => noEmpty_seg s⟩
  · intro ls _; simp only [Geom.ogr]; exact ⟨by simp, noEmptyList_of _ _ fun l _ => noEmpty_line l⟩
  · intro cs _; simp only [Geom.ogr]; exact ⟨by simp, noEmptyList_of _ _ fun c _ => noEmpty_curve c⟩
  · intro rs _; simp only [Geom.ogr]; exact noEmpty_poly rs
  · intro rs _; simp only [Geom.ogr]; exact noEmpty_tri rs
  · intro cs _; simp only [Geom.ogr]; exact ⟨by simp, noEmptyList_of _ _ fun c _ => noEmpty_curve c⟩
  · intro ps _; simp only [Geom.ogr]; exact ⟨by simp, noEmptyList_of _ _ fun p _ => noEmpty_poly p⟩
  · intro ps _; simp only [Geom.ogr]; exact ⟨by simp, noEmptyList_of _ _ fun p _ => noEmpty_poly p⟩
  · intro ps _; simp only [Geom.ogr]; exact ⟨by simp, noEmptyList_of _ _ fun p _ => noEmpty_tri p⟩
  · intro ss _; simp only [Geom.ogr]; exact ⟨by simp, noEmptyList_of _ _ fun s _ => noEmpty_surface s⟩
  · intro gs ih h
    simp only [Geom.ogr]
    refine ⟨by simp, ?_⟩
    simp only [Geom.hasEmptyPoint] at h
    have key : ∀ gs : List Geom, (∀ g ∈ gs, g.hasEmptyPoint = false → g.ogr.NoEmptyPoint) → Geom.hasEmptyPointList gs = false →
        OgrGeom.NoEmptyPointList (Geom.ogrList gs) := by
      intro gs
      induction gs with
      | nil => intro _ _; trivial
      | cons g gs ih =>
        intro hg h
        simp only [Geom.hasEmptyPointList, Bool.or_eq_false_iff] at h
        exact ⟨hg g (by simp) h.1, ih (fun g hg' => hg g (by simp [hg'])) h.2⟩
    exact key gs ih h

/-- C54, reading: every geometry without empty points, of all sixteen kinds and nested to any depth, is read from its OGR
representation as its documented stream (missing z values are 0, m is lost). -/
theorem C54_reads_every_kind (blank : OgrPt) (g : Geom) (h : g.hasEmptyPoint = false) (z : Bool) (bs : List Byte) :
    run z (ogrProcessGeom blank g.ogr) bs = ((g.map Coord.ogrXYZ).events z 0, .ok ((), bs)) :=
  (C54_reader_partial blank g.ogr (noEmpty_ogr g h) z bs).1 _ (denote_ogr g)

example : exOgr.hasEmptyPoint = false := by decide

/-- C54, GDAL to WKT: the text of the geometry, with its z values if and only if they are asked for; EWKT begins with the
SRID given.  Missing: empty points (`C54_empty_point_false`). -/
theorem C54_to_wkt_partial (num : F64 → Text) (blank : OgrPt) (t : OgrGeom) (h : t.NoEmptyPoint) (g : Geom)
    (hg : t.denote = some g) (dialect : WktDialect) (dims : Dims) (srid : Option Int) :
    toWktAskedZ num (ogrProcessGeom blank t) dialect dims srid =
      .ok ((if dialect = .ewkt then Spec.sridPrefix srid else []) ++ Spec.wkt num dims.z g) :=
  toWktAskedZ_text num _ dialect dims srid g ((C54_reader_partial blank t h dims.z []).1 g hg)

/-- C54 fails for empty points: the reader delivers the position the library returns for them (0 0) instead of
`empty_point`. -/
theorem C54_empty_point_false :
    (∀ blank z bs, run z (ogrProcessGeom blank Geom.emptyPoint.ogr) bs ≠ (Geom.emptyPoint.events z 0, .ok ((), bs))) ∧
    toWktAskedZ (fun _ => txt "0") (ogrProcessGeom ⟨F64.zero, F64.zero, F64.zero⟩ Geom.emptyPoint.ogr) .wkt {} none =
      .ok (txt "POINT(0 0)") := by
  constructor
  · intro blank z bs h
    cases (Prod.ext_iff.mp h).1
  · rfl

/-! ## C54: writing -/

private theorem toGdal_ok (src : Prog Unit) (bs rest : List Byte) (pre : List Ev) (g : Geom) (hb : g.Basic)
    (hpre : pre = [] ∨ ∃ s, pre = [.srid s]) (hsrc : run false src bs = (pre ++ g.events false 0, .ok ((), rest))) :
    toGdal src bs = .ok (g.map Coord.flat).ogr := by
  obtain ⟨w', h1, h2⟩ := GdalWriter.feed_basic GdalWriter.like_step g hb 0 {}
  have hf : feed GdalWriter.proc.step {} (run false src bs).1 = .ok w' := by
    rw [hsrc]
    rcases hpre with rfl | ⟨s, rfl⟩ <;> exact h1
  unfold toGdal
  rw [interp_of_feed_ok GdalWriter.proc false (fun _ => rfl) src {} w' bs hf, hsrc]
  simp [h2]

/-- C54, writing.  A source that delivers a point, line string, polygon or multi of these gives the OGR geometry of it in two
dimensions (no SRID).  Missing: curves, triangles, surfaces and collections (`C54_circular_false`, `C45_gdal_false`); the
writer with other dimensions is not modelled. -/
theorem C54_to_gdal_partial (src : Prog Unit) (bs rest : List Byte) (s : Option Int) (g : Geom) (hb : g.Basic)
    (hsrc : run false src bs = (.srid s :: g.events false 0, .ok ((), rest)) ∨
      run false src bs = (g.events false 0, .ok ((), rest))) :
    toGdal src bs = .ok (g.map Coord.flat).ogr := by
  rcases hsrc with h | h
  · exact toGdal_ok src bs rest [.srid s] g hb (.inr ⟨s, rfl⟩) h
  · exact toGdal_ok src bs rest [] g hb (.inl rfl) h

/-- An empty point, on its own or anywhere in a collection, is an error. -/
theorem C54_empty_point_rejected (src : Prog Unit) (bs : List Byte) (pre : List Ev) (g : Geom)
    (r : Except Err (Unit × List Byte)) (hsrc : run false src bs = (pre ++ g.events false 0, r)) (hg : g.hasEmptyPoint = true) :
    ∃ e, toGdal src bs = .error e := by
  obtain ⟨j, hj⟩ := emptyPoint_mem_events false g hg 0
  obtain ⟨x, hx⟩ := feed_mem_error GdalWriter.proc.step (.emptyPoint j) (fun s => ⟨_, rfl⟩) (pre ++ g.events false 0)
    (List.mem_append.mpr (.inr hj)) {}
  have h := interp_of_feed_error GdalWriter.proc false (fun _ => rfl) src {} bs x (by rw [hsrc]; exact hx)
  refine ⟨x, ?_⟩
  unfold toGdal
  revert h
  rcases interp GdalWriter.proc src {} bs with ⟨w, evs', r⟩
  rintro rfl
  rfl

example : (Geom.collection [.point ⟨1#64, 2#64, none, none⟩, .collection [.emptyPoint]]).hasEmptyPoint = true := by decide

/-- The result denotes the same geometry, with z = 0. -/
theorem C54_same_geometry (g : Geom) :
    (g.map Coord.flat).ogr.denote = some (g.map fun c => { x := c.x, y := c.y, z := some F64.zero, m := none }) := by
  rw [denote_ogr]
  congr 1
  have hs : ∀ s : Seg, (s.map Coord.flat).map Coord.ogrXYZ = s.map fun c => { x := c.x, y := c.y, z := some F64.zero, m := none } := by
    intro s; cases s <;> simp [Seg.map, Function.comp_def, Coord.flat, Coord.ogrXYZ]
  have hc : ∀ c : Curve, (c.map Coord.flat).map Coord.ogrXYZ =
      c.map fun c => { x := c.x, y := c.y, z := some F64.zero, m := none } := by
    intro c; cases c <;> simp [Curve.map, hs, Function.comp_def]
  have hu : ∀ s : Surface, (s.map Coord.flat).map Coord.ogrXYZ =
      s.map fun c => { x := c.x, y := c.y, z := some F64.zero, m := none } := by
    intro s; cases s <;> simp [Surface.map, hc, Function.comp_def, Coord.flat, Coord.ogrXYZ]
  refine Geom.ind (P := fun g => (g.map Coord.flat).map Coord.ogrXYZ =
    g.map fun c => { x := c.x, y := c.y, z := some F64.zero, m := none }) ?_ ?_ ?_ ?_ ?_ ?_ ?_ ?_ ?_ ?_ ?_ ?_ ?_ ?_ ?_ ?_ g
  case refine_16 =>
    intro gs ih
    have key : ∀ gs : List Geom, (∀ g ∈ gs, (g.map Coord.flat).map Coord.ogrXYZ =
          g.map fun c => { x := c.x, y := c.y, z := some F64.zero, m := none }) →
        Geom.mapList Coord.ogrXYZ (Geom.mapList Coord.flat gs) =
          Geom.mapList (fun c => { x := c.x, y := c.y, z := some F64.zero, m := none }) gs := by
      intro gs
      induction gs with
      | nil => intro _; rfl
      | cons g gs ih => intro h; simp [Geom.mapList, h g (by simp), ih fun g hg => h g (by simp [hg])]
    simp [Geom.map, key gs ih]
  all_goals
    intros
    simp [Geom.map, Function.comp_def, hs, hc, hu, Coord.flat, Coord.ogrXYZ]

/-- C54 from WKB: whatever the bytes (every dialect but SpatiaLite), if the reader delivers such a geometry, `from_wkb` gives
it; if the reader fails, so does `from_wkb`. -/
theorem C54_from_wkb_partial (fo : FOps) (d : WkbDialect) (hd : d ≠ .spatiaLite) (bs : List Byte) :
    (∃ s, ∃ g : Geom, ∃ rest, run false (processWkbTypeGeom fo d) bs = (.srid s :: g.events false 0, .ok ((), rest)) ∧
      (g.Basic → gdalFromWkb fo d bs = .ok (g.map Coord.flat).ogr)) ∨
    (∃ e, gdalFromWkb fo d bs = .error e) := by
  cases hr : run false (processWkbTypeGeom fo d) bs with
  | mk evs r =>
    cases r with
    | ok p =>
      obtain ⟨⟨⟩, rest⟩ := p
      obtain ⟨s, g, _, rfl⟩ := C08_success_is_one_geometry fo d hd false bs rest evs hr
      exact .inl ⟨s, g, rest, rfl, fun hb => toGdal_ok _ bs rest [.srid s] g hb (.inr ⟨s, rfl⟩) hr⟩
    | error e =>
      right
      cases hf : feed GdalWriter.step {} evs with
      | ok w =>
        refine ⟨e, ?_⟩
        unfold gdalFromWkb toGdal
        rw [interp_of_feed_ok GdalWriter.proc false (fun _ => rfl) _ {} w bs (by rw [hr]; exact hf), hr]
      | error x =>
        refine ⟨x, ?_⟩
        have h := interp_of_feed_error GdalWriter.proc false (fun _ => rfl) (processWkbTypeGeom fo d) {} bs x
          (by rw [hr]; exact hf)
        unfold gdalFromWkb toGdal
        revert h
        rcases interp GdalWriter.proc (processWkbTypeGeom fo d) {} bs with ⟨w, evs', r⟩
        rintro rfl
        rfl

/-- the WKB of `LINESTRING(0 0, 1 1)` (little endian) -/
example (fo : FOps) : gdalFromWkb fo .wkb
    ([1, 2, 0, 0, 0, 2, 0, 0, 0] ++ List.replicate 16 0 ++ [0, 0, 0, 0, 0, 0, 0xf0, 0x3f] ++ [0, 0, 0, 0, 0, 0, 0xf0, 0x3f]) =
      .ok (ogrLine [⟨0#64, 0#64, none, none⟩, ⟨0x3ff0000000000000#64, 0x3ff0000000000000#64, none, none⟩]) := rfl

/-- C54 fails for curves: a circular string is accepted and becomes the point at its first coordinate (or POINT EMPTY). -/
theorem C54_circular_false (c : Coord) (cs : List Coord) :
    ∃ w, feed GdalWriter.step {} ((Geom.circularString (c :: cs)).events false 0) = .ok w ∧
      w.geom.denote = some (.point ⟨c.x, c.y, some F64.zero, none⟩) := by
  have key : ∀ (cs : List Coord) (i : Nat), i ≠ 0 → ∀ w : GdalWriter, w.geom = .node (some .point) [⟨c.x, c.y, F64.zero⟩] [] →
      feed GdalWriter.step w (evList (coordEvs false) i cs) = .ok w := by
    intro cs
    induction cs with
    | nil => intro i _ w _; rfl
    | cons d cs ih =>
      intro i hi w hw
      have hx : GdalWriter.step w (.xy d.x d.y i) = .ok w := by
        simp only [GdalWriter.step, GdalWriter.xy, GdalWriter.put, hw, OgrGeom.kind, GdalWriter.setPoint2d, hi, if_false]
        rw [← hw]
      simp only [evList, coordEvs, coordEv, Bool.false_eq_true, if_false, List.singleton_append, feed_cons, hx]
      exact ih (i + 1) (by omega) w hw
  refine ⟨{ geom := .node (some .point) [⟨c.x, c.y, F64.zero⟩] [] }, ?_, rfl⟩
  have hb : GdalWriter.step {} (.gbegin .circularString true (c :: cs).length 0) = .ok {} := rfl
  have hx : GdalWriter.step {} (.xy c.x c.y 0) = .ok { geom := .node (some .point) [⟨c.x, c.y, F64.zero⟩] [] } := rfl
  simp only [Geom.events, circEvs, bracket, feed_cons, hb, evList, coordEvs, coordEv, Bool.false_eq_true, if_false,
    List.singleton_append, List.cons_append, hx, feed_append]
  have hn : ∀ w : GdalWriter, feed GdalWriter.step w [] = .ok w := fun _ => rfl
  simp only [hn]
  rw [key cs (0 + 1) (by omega) { geom := .node (some .point) [⟨c.x, c.y, F64.zero⟩] [] } rfl]
  rfl

/-- C54, GDAL to GDAL: reading an OGR geometry of one of the basic kinds without empty points into the writer gives a geometry
that denotes the same, with z = 0. -/
theorem C54_round_trip_partial (blank : OgrPt) (t : OgrGeom) (h : t.NoEmptyPoint) (g : Geom) (hg : t.denote = some g) (hb : g.Basic) :
    ∃ t', toGdal (ogrProcessGeom blank t) [] = .ok t' ∧
      t'.denote = some (g.map fun c => { x := c.x, y := c.y, z := some F64.zero, m := none }) :=
  ⟨_, toGdal_ok _ [] [] [] g hb (.inl rfl) ((C54_reader_partial blank t h false []).1 g hg), C54_same_geometry g⟩

example : (OgrGeom.node (some .multiPoint) [] [.node (some .point) [⟨1#64, 2#64, 3#64⟩] []]).NoEmptyPoint ∧
    (OgrGeom.node (some .multiPoint) [] [.node (some .point) [⟨1#64, 2#64, 3#64⟩] []]).denote =
      some (.multiPoint [⟨1#64, 2#64, some 3#64, none⟩]) ∧ (Geom.multiPoint [⟨1#64, 2#64, some 3#64, none⟩]).Basic :=
  ⟨by simp [OgrGeom.NoEmptyPoint, OgrGeom.NoEmptyPointList], rfl, trivial⟩

/-- C54, GDAL to WKB: with dimensions XY, XYZ or XYZM the bytes are the EWKB of the geometry, curves included. -/
theorem C54_to_ewkb_partial (blank : OgrPt) (t : OgrGeom) (h : t.NoEmptyPoint) (g : Geom) (hg : t.denote = some g) (d : Dims)
    (hm : d.multi = d.z) (srid : Option Int) (env : List F64) (hf : g.Fits) (he : g.hasEmptyPoint = false) :
    ∃ bytes, toWkbAskedZ (ogrProcessGeom blank t) .ewkb d srid env = .ok bytes ∧ Spec.Ewkb d .le srid (g.stored d) bytes := by
  obtain ⟨w, h1, h2⟩ := C07_ewkb_writer_conforms d srid none env g hf he
  refine ⟨w.out, ?_, h2⟩
  rw [hm] at h1
  have hr := (C54_reader_partial blank t h d.z []).1 g hg
  unfold toWkbAskedZ
  rw [interp_of_feed_ok_inv (WkbWriter.proc.askedZ fun w => w.readDims) d.z (fun w => w.readDims = d)
    (fun w hw => by simp [Proc.askedZ, hw]) (fun s e s' h hs => by rw [← h]; exact WkbWriter.step_readDims hs)
    (ogrProcessGeom blank t) _ w rfl [] (by rw [hr]; exact h1), hr]

/-! ## C45: collections -/

/-- C45 fails for GDAL: of a collection only the last member is kept, and an empty collection becomes POINT EMPTY. -/
theorem C45_gdal_false (gs : List Geom) (last : Geom) (hall : ∀ g ∈ gs ++ [last], g.Basic) :
    (∃ w, feed GdalWriter.step {} ((Geom.collection (gs ++ [last])).events false 0) = .ok w ∧
      w.geom = (last.map Coord.flat).ogr) ∧
    ∃ w, feed GdalWriter.step {} ((Geom.collection []).events false 0) = .ok w ∧ w.geom.denote = some .emptyPoint := by
  refine ⟨?_, ⟨{}, rfl, rfl⟩⟩
  have key : ∀ (gs : List Geom) (i : Nat) (w : GdalWriter), (∀ g ∈ gs ++ [last], g.Basic) →
      ∃ w', feed GdalWriter.step w (evList (Geom.events false) i (gs ++ [last])) = .ok w' ∧
        w'.geom = (last.map Coord.flat).ogr := by
    intro gs
    induction gs with
    | nil =>
      intro i w hall
      obtain ⟨w', h1, h2⟩ := GdalWriter.feed_basic GdalWriter.like_step last (hall last (by simp)) i w
      exact ⟨w', by simpa [evList] using h1, h2⟩
    | cons g gs ih =>
      intro i w hall
      obtain ⟨w', h1, _⟩ := GdalWriter.feed_basic GdalWriter.like_step g (hall g (by simp)) i w
      obtain ⟨w'', h3, h4⟩ := ih (i + 1) w' fun g hg => hall g (by simp at hg ⊢; rcases hg with h | h <;> simp [h])
      refine ⟨w'', ?_, h4⟩
      simp only [List.cons_append, evList, feed_append, h1]
      exact h3
  obtain ⟨w', h1, h2⟩ := key gs 0 {} hall
  refine ⟨w', ?_, h2⟩
  rw [events_collection]
  simp only [bracket, feed_cons, GdalWriter.step, feed_append, h1]
  rfl

example : ∀ g ∈ [Geom.point ⟨1#64, 1#64, none, none⟩] ++ [Geom.polygon []], g.Basic := by simp [Geom.Basic]

/-! ## C55: memory safety -/

private theorem toGdal_error (src : Prog Unit) (bs : List Byte) (e : Err) (h : toGdal src bs = .error e) :
    (run false src bs).2 = .error e ∨ ∃ pre, pre <+: (run false src bs).1 ∧ feed GdalWriter.step {} pre = .error e := by
  have hr := interp_run GdalWriter.proc false (fun _ => rfl) src {} bs
  unfold toGdal at h
  rcases hi : interp GdalWriter.proc src {} bs with ⟨w, evs, r⟩
  rw [hi] at h
  cases r with
  | ok a => cases h
  | error x =>
    simp only [Except.error.injEq] at h
    subst h
    rcases interp_spec GdalWriter.proc src {} bs with h1 | ⟨pre, ev, x', h1, h2, h3, h4⟩
    · obtain ⟨_, hb⟩ := hr.2 h1
      rw [hi] at hb
      exact .inl hb.symm
    · rw [hi] at h4
      simp only [Except.error.injEq] at h4
      subst h4
      refine .inr ⟨_, hr.1, ?_⟩
      rw [h1, feed_append]
      have h2' : feed GdalWriter.step {} pre = _ := h2
      rw [h2']
      simp only [feed]
      have h3' : GdalWriter.step _ ev = _ := h3
      rw [h3']

/-- C55 is false: this WKB blob, GEOMETRYCOLLECTION(POLYGON((0 0)), POLYGON EMPTY, CIRCULARSTRING(0 0)), makes the GDAL writer
set a point of a ring of the first polygon after that polygon has been dropped. -/
theorem C55_use_after_free_false (fo : FOps) :
    gdalFromWkb fo .wkb ([1, 7, 0, 0, 0, 3, 0, 0, 0] ++
      ([1, 3, 0, 0, 0, 1, 0, 0, 0, 1, 0, 0, 0] ++ List.replicate 16 0) ++
      [1, 3, 0, 0, 0, 0, 0, 0, 0] ++
      ([1, 8, 0, 0, 0, 1, 0, 0, 0] ++ List.replicate 16 0)) = .error (.panic "use after free") := rfl

/-- C55 is false: GEOMETRYCOLLECTION(MULTIPOLYGON EMPTY, TRIANGLE((0 0))) subtracts 1 from the number of polygons, 0; without
overflow checks the library is then asked for member 2^64 - 1. -/
theorem C55_no_polygon_false (fo : FOps) :
    gdalFromWkb fo .wkb ([1, 7, 0, 0, 0, 2, 0, 0, 0] ++ [1, 6, 0, 0, 0, 0, 0, 0, 0] ++
      ([1, 17, 0, 0, 0, 1, 0, 0, 0, 1, 0, 0, 0] ++ List.replicate 16 0)) =
        .error (.panic "attempt to subtract with overflow") := rfl

/-- C55 without circular strings: whatever the bytes and the dialect, no call writes to a geometry that has been dropped, as
long as no circular string begins.
Missing: circular strings, for which it is false (`C55_use_after_free_false`). -/
theorem C55_no_use_after_free_partial (fo : FOps) (d : WkbDialect) (bs : List Byte)
    (hc : ∀ e ∈ (run false (processWkbTypeGeom fo d) bs).1, e.beginsCirc = false) :
    gdalFromWkb fo d bs ≠ .error (.panic "use after free") := by
  intro h
  have hpre : ∃ srid g, (run false (processWkbTypeGeom fo d) bs).1.map looseEv
      <+: (Ev.srid srid :: Geom.events false 0 g).map looseEv := by
    rcases hrun : run false (processWkbTypeGeom fo d) bs with ⟨evs, r⟩
    cases r with
    | ok a =>
      obtain ⟨⟨⟩, rest⟩ := a
      by_cases hd : d = .spatiaLite
      · subst hd
        obtain ⟨srid, g, _, h2⟩ := C08_spatialite_success_loose fo false bs rest evs hrun
        exact ⟨srid, g, by rw [h2]; exact List.prefix_refl _⟩
      · obtain ⟨srid, g, _, h2⟩ := C08_success_is_one_geometry fo d hd false bs rest evs hrun
        exact ⟨srid, g, by rw [h2]; exact List.prefix_refl _⟩
    | error e =>
      by_cases hd : d = .spatiaLite
      · subst hd
        exact C09_spatialite_failure_loose fo false bs evs e hrun
      · obtain ⟨srid, g, h2⟩ := C09_failure_is_prefix fo d hd false bs evs e hrun
        exact ⟨srid, g, h2.map _⟩
  rcases toGdal_error _ bs _ h with h1 | ⟨pre, h1, h2⟩
  · have := C10_reader_never_panics fo d false bs _ _ (Prod.ext rfl h1)
    simp [Err.isPanic] at this
  · obtain ⟨srid, g, hg⟩ := hpre
    have hok : GdalWriter.okFrom false (Ev.srid srid :: Geom.events false 0 g) = true := by
      simpa [GdalWriter.okFrom] using GdalWriter.Ok.geom false g 0 [] rfl
    have hpre : GdalWriter.okFrom false pre = true := by
      rw [← GdalWriter.okFrom_loose] at hok ⊢
      exact GdalWriter.okFrom_prefix ((h1.map _).trans hg) hok
    exact GdalWriter.feed_no_uaf pre false {} hpre (by simp) (fun e he => hc e (h1.subset he)) h2

/-- non-vacuity: a collection of two polygons and a triangle, which is added to the second polygon -/
example (fo : FOps) : (∀ e ∈ (run false (processWkbTypeGeom fo .wkb) ([1, 7, 0, 0, 0, 2, 0, 0, 0] ++
      [1, 3, 0, 0, 0, 0, 0, 0, 0] ++ ([1, 17, 0, 0, 0, 1, 0, 0, 0, 1, 0, 0, 0] ++ List.replicate 16 0))).1, e.beginsCirc = false) ∧
    gdalFromWkb fo .wkb ([1, 7, 0, 0, 0, 2, 0, 0, 0] ++ [1, 3, 0, 0, 0, 0, 0, 0, 0] ++
      ([1, 17, 0, 0, 0, 1, 0, 0, 0, 1, 0, 0, 0] ++ List.replicate 16 0)) = .ok (ogrPoly [[⟨0#64, 0#64, none, none⟩]]) := by
  refine ⟨?_, rfl⟩
  intro e he
  have h : ((run false (processWkbTypeGeom fo .wkb) ([1, 7, 0, 0, 0, 2, 0, 0, 0] ++
      [1, 3, 0, 0, 0, 0, 0, 0, 0] ++ ([1, 17, 0, 0, 0, 1, 0, 0, 0, 1, 0, 0, 0] ++ List.replicate 16 0))).1.all
        fun e => !e.beginsCirc) = true := rfl
  simpa using List.all_eq_true.mp h e he

/-- C55 for the basic kinds: a source that delivers a prefix of the stream of a geometry of the six basic kinds or of a
collection of such, nested to any depth, makes the writer panic or write to a dropped geometry never: an error is the
source's own or an ordinary one.  Missing: other kinds in collections (`C55_no_polygon_false`). -/
theorem C55_never_panics_partial (src : Prog Unit) (bs : List Byte) (s : Option Int) (g : Geom) (hp : g.Plain)
    (hsrc : (run false src bs).1 <+: .srid s :: g.events false 0) (e : Err) (h : toGdal src bs = .error e) :
    (run false src bs).2 = .error e ∨ e.isPanic = false := by
  rcases toGdal_error src bs e h with h1 | ⟨pre, h1, h2⟩
  · exact .inl h1
  · right
    obtain ⟨t, ht⟩ := h1.trans hsrc
    have hf : feed GdalWriter.step {} (Ev.srid s :: g.events false 0) = .error e := by
      rw [← ht, feed_append, h2]
    exact GdalWriter.feed_plain g hp 0 {} e hf

example : (Geom.collection [.multiPolygon [], .collection [.point ⟨0#64, 0#64, none, none⟩, .emptyPoint]]).Plain := by
  simp [Geom.Plain, Geom.PlainList]

end Geozero
