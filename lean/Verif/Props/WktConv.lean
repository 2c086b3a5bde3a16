import Verif.Props.Wkt
import Verif.Props.Db

/-
C46, continued: the provided methods of `ToWkt` and `FromWkb` for the WKT types.
C63: the dimensions asked for are the dimensions written.
-/

namespace Geozero
open Prog Spec

private theorem allCoords_iff_coords (P : Coord → Prop) (g : Geom) : AllCoords P g ↔ ∀ c ∈ g.coords, P c := by
  have seg : ∀ s : Seg, AllCoords.SegCoords P s ↔ ∀ c ∈ s.coords, P c := by
    intro s; cases s <;> simp [AllCoords.SegCoords, Seg.coords]
  have curve : ∀ s : Curve, AllCoords.CurveCoords P s ↔ ∀ c ∈ s.coords, P c := by
    intro s
    cases s with
    | seg s => simpa [AllCoords.CurveCoords, Curve.coords] using seg s
    | compound ss =>
      simp only [AllCoords.CurveCoords, Curve.coords, List.mem_flatMap, seg]
      exact ⟨fun h c ⟨s, hs, hc⟩ => h s hs c hc, fun h s hs c hc => h c ⟨s, hs, hc⟩⟩
  have curves : ∀ cs : List Curve, (∀ s ∈ cs, AllCoords.CurveCoords P s) ↔ ∀ c ∈ cs.flatMap Curve.coords, P c := by
    intro cs
    simp only [List.mem_flatMap, curve]
    exact ⟨fun h c ⟨s, hs, hc⟩ => h s hs c hc, fun h s hs c hc => h c ⟨s, hs, hc⟩⟩
  have lines : ∀ ls : List (List Coord), (∀ l ∈ ls, ∀ c ∈ l, P c) ↔ ∀ c ∈ ls.flatten, P c := by
    intro ls
    simp only [List.mem_flatten]
    exact ⟨fun h c ⟨s, hs, hc⟩ => h s hs c hc, fun h s hs c hc => h c ⟨s, hs, hc⟩⟩
  have polys : ∀ ls : List (List (List Coord)), (∀ p ∈ ls, ∀ l ∈ p, ∀ c ∈ l, P c)
      ↔ ∀ c ∈ ls.flatMap List.flatten, P c := by
    intro ls
    simp only [List.mem_flatMap, lines]
    exact ⟨fun h c ⟨s, hs, hc⟩ => h s hs c hc, fun h s hs c hc => h c ⟨s, hs, hc⟩⟩
  induction g using Geom.ind with
  | emptyPoint => simp [AllCoords, Geom.coords]
  | point c => simp [AllCoords, Geom.coords]
  | multiPoint cs => rfl
  | lineString cs => rfl
  | circularString cs => rfl
  | compoundCurve ss =>
    simp only [AllCoords, Geom.coords, List.mem_flatMap, seg]
    exact ⟨fun h c ⟨s, hs, hc⟩ => h s hs c hc, fun h s hs c hc => h c ⟨s, hs, hc⟩⟩
  | multiLineString ls => exact lines ls
  | multiCurve cs => exact curves cs
  | polygon ls => exact lines ls
  | triangle ls => exact lines ls
  | curvePolygon cs => exact curves cs
  | multiPolygon ps => exact polys ps
  | polyhedralSurface ps => exact polys ps
  | tin ps => exact polys ps
  | multiSurface ss =>
    have surf : ∀ s : Surface, AllCoords.SurfaceCoords P s ↔ ∀ c ∈ s.coords, P c := by
      intro s
      cases s with
      | polygon rs => exact lines rs
      | curvePolygon cs => exact curves cs
    simp only [AllCoords, Geom.coords, List.mem_flatMap, surf]
    exact ⟨fun h c ⟨s, hs, hc⟩ => h s hs c hc, fun h s hs c hc => h c ⟨s, hs, hc⟩⟩
  | collection gs ih =>
    simp only [AllCoords, Geom.coords, Geom.coordsList_eq, List.mem_flatMap]
    rw [allCoordsList_iff]
    exact ⟨fun h c ⟨s, hs, hc⟩ => (ih s hs).mp (h s hs) c hc, fun h s hs => (ih s hs).mpr fun c hc => h c ⟨s, hs, hc⟩⟩

/-- running a source without or with an SRID call into the text writer -/
private theorem toWktWithOpts_of (num : F64 → Text) (src : Prog Unit) (dialect : WktDialect) (dims : Dims)
    (srid : Option Int) (pre : List Ev) (s : Option Int) (g : Geom) (bs rest : List Byte)
    (hp : pre = [] ∧ s = none ∨ pre = [.srid s])
    (h : run dims.multi src bs = (pre ++ g.events dims.multi 0, .ok ((), rest))) :
    toWktWithOpts num src dialect dims srid bs
      = .ok ((if dialect = .ewkt then sridPrefix (srid.or s) else []) ++ wkt num dims.multi g) := by
  obtain ⟨w, h1, h2⟩ := C19_wkt_writer_prints num dialect dims srid s g
  have h3 : feed (WktWriter.step num) (WktWriter.withOpts dialect dims srid) (pre ++ g.events dims.multi 0) = .ok w := by
    rcases hp with ⟨rfl, rfl⟩ | rfl
    · have : WktWriter.step num (WktWriter.withOpts dialect dims srid) (.srid none)
          = .ok (WktWriter.withOpts dialect dims srid) := by
        simp [WktWriter.step, WktWriter.withOpts]
      simpa [feed, this] using h1
    · exact h1
  rw [toWktWithOpts, interp_of_feed_ok_inv (WktWriter.proc num) dims.multi (fun w => w.dims = dims)
    (fun w h => by simp [WktWriter.proc, h]) (WktWriter.step_dims num dims) src (WktWriter.withOpts dialect dims srid) w rfl bs
    (by rw [h]; exact h3), h]
  simp [h2]

/-- C46.  `to_wkt()` of any value that delivers a geometry is the two-dimensional text of the geometry; no SRID is
written. -/
theorem C46_to_wkt (num : F64 → Text) (v : GeoSource) (g : Geom) (hv : v.Delivers false g) :
    v.toWkt num = .ok (wkt num false g) := by
  obtain ⟨pre, rest, hp, hr⟩ := hv
  have : ∃ s, pre = [] ∧ s = none ∨ pre = [.srid s] := by
    rcases hp with rfl | ⟨s, rfl⟩
    · exact ⟨none, Or.inl ⟨rfl, rfl⟩⟩
    · exact ⟨s, Or.inr rfl⟩
  obtain ⟨s, hp⟩ := this
  have := toWktWithOpts_of num v.prog .wkt {} none pre s g v.bytes rest hp hr
  simpa [GeoSource.toWkt, GeoSource.toWktWithOpts, Dims.multi] using this

/-- C46.  `to_ewkt(srid)` is the text with all ordinates behind the prefix of the SRID given; without one, of the SRID
the value delivers. -/
theorem C46_to_ewkt (num : F64 → Text) (v : GeoSource) (g : Geom) (srid s : Option Int) (pre : List Ev) (rest : List Byte)
    (hp : pre = [] ∧ s = none ∨ pre = [.srid s])
    (hr : run true v.prog v.bytes = (pre ++ g.events true 0, .ok ((), rest))) :
    v.toEwkt num srid = .ok (sridPrefix (srid.or s) ++ wkt num true g) := by
  have := toWktWithOpts_of num v.prog .ewkt { z := true, m := true } srid pre s g v.bytes rest hp hr
  simpa [GeoSource.toEwkt, GeoSource.toWktWithOpts, Dims.multi] using this

/-- C46.  `to_wkt` and `to_ewkt` of geo-types values: the prefix is that of the argument. -/
theorem C46_geo_to_wkt (num : F64 → Text) (g : GeoGeom) (srid : Option Int) :
    (GeoSource.ofGeo g).toWkt num = .ok (wkt num false g.denote) ∧
    (GeoSource.ofGeo g).toEwkt num srid = .ok (sridPrefix srid ++ wkt num true g.denote) := by
  refine ⟨C46_to_wkt num _ _ (GeoSource.delivers_ofGeo g false), ?_⟩
  have := C46_to_ewkt num (GeoSource.ofGeo g) g.denote srid none [] [] (Or.inl ⟨rfl, rfl⟩)
    (C15_geo_reader_stream g true [])
  simpa using this

/-- C46.  Bytes holding a geometry in any of the five dialects, decoded as `Wkt`: its two-dimensional text. -/
theorem C46_wkt_from_wkb (num : F64 → Text) (fo : FOps) (dl : WkbDialect) (z m : Bool) (srid : Option Int) (g : Geom)
    (bs : List Byte) (h : Holds dl { z, m } srid g bs) (hl : g.levels ≤ 128) :
    wktFromWkb num fo dl bs = .ok (wkt num false g) := by
  have := C46_to_wkt_text num (processWkbTypeGeom fo dl) .wkt {} none srid g bs _
    ((holds_read fo dl z m srid g bs h hl).1 _)
  simpa [wktFromWkb, Dims.multi] using this

/-- C46.  Bytes holding a geometry in any of the five dialects, decoded as `Ewkt`: the text with all ordinates, behind
the SRID the bytes carry. -/
theorem C46_ewkt_from_wkb (num : F64 → Text) (fo : FOps) (dl : WkbDialect) (z m : Bool) (srid : Option Int) (g : Geom)
    (bs : List Byte) (h : Holds dl { z, m } srid g bs) (hl : g.levels ≤ 128) :
    ewktFromWkb num fo dl bs = .ok (sridPrefix srid ++ wkt num true g) := by
  have := C46_to_wkt_text num (processWkbTypeGeom fo dl) .ewkt { z := true, m := true } none srid g bs _
    ((holds_read fo dl z m srid g bs h hl).1 _)
  simpa [ewktFromWkb, Dims.multi] using this

/-- C46.  Hence nothing is lost: parsing the EWKT gives back the geometry and the SRID (0 is as good as none), for
geometries with z or without m, and without NaN ordinates.
Missing: XYM geometries and NaN ordinates, for which C20 is false. -/
theorem C46_ewkt_from_wkb_lossless_partial (N : NumText) (fo : FOps) (dl : WkbDialect) (z m : Bool) (hzm : m = true → z = true)
    (srid : Option Int) (g : Geom) (bs : List Byte) (h : Holds dl { z, m } srid g bs) (hl : g.levels ≤ 128)
    (hn : ∀ c ∈ g.coords, c.x.isNaN = false ∧ c.y.isNaN = false ∧ (∀ v ∈ c.z, F64.isNaN v = false) ∧
      (∀ v ∈ c.m, F64.isNaN v = false)) :
    ∃ t, ewktFromWkb N.num fo dl bs = .ok t ∧ parseEwkt N.parse t = some (srid.filter (· ≠ 0), g) := by
  refine ⟨_, C46_ewkt_from_wkb N.num fo dl z m srid g bs h hl, ?_⟩
  have hd := (holds_read fo dl z m srid g bs h hl).2.2.2.2.2
  have hrec : ∀ c ∈ g.coords, Recoverable true c := by
    intro c hc
    have hcd : HasDims { z, m } c := (allCoords_iff_coords _ g).mp hd c hc
    obtain ⟨h1, h2, h3, h4⟩ := hn c hc
    refine ⟨h1, h2, h3, h4, ?_, by simp⟩
    rw [hcd.1, hcd.2]
    exact hzm
  obtain ⟨w, h1, h2⟩ := C20_ewkt_parses_back_partial N { z := true, m := true } none srid g hrec
  obtain ⟨w', h1', h2'⟩ := C19_wkt_writer_prints N.num .ewkt { z := true, m := true } none srid g
  have : w = w' := by
    have e := h1.symm.trans h1'
    cases e
    rfl
  subst this
  rw [h2'] at h2
  simpa [Dims.multi] using h2

/-- hypotheses met by an EWKB point with SRID -/
example : Holds .ewkb {} (some 4326) (.point ⟨0#64, 0#64, none, none⟩)
    ([1] ++ encU32 .le 0x20000001 ++ encI32 .le 4326 ++ List.replicate 16 0) := by
  refine ⟨?_, .le, ?_, List.replicate 16 0, ?_, ?_⟩
  · intro s hs
    cases hs
    decide
  · simp [AllCoords, HasDims]
  · exact ⟨by decide, by decide⟩
  · decide

/-! ### C63: dimensions -/

/-- the coordinate with only the dimensions asked for -/
def Coord.only (d : Dims) (c : Coord) : Coord :=
  { c with z := if d.z then c.z else none, m := if d.m then c.m else none }

theorem wkt_map_coords (num : F64 → Text) (multi multi' : Bool) (P : Coord → Prop) (f : Coord → Coord)
    (hf : ∀ c, P c → wktCoord num multi (f c) = wktCoord num multi' c) (g : Geom) (hg : AllCoords P g) :
    wkt num multi (g.map f) = wkt num multi' g := by
  have line : ∀ cs : List Coord, (∀ c ∈ cs, P c) →
      (cs.map f).map (wktCoord num multi) = cs.map (wktCoord num multi') := by
    intro cs h
    rw [List.map_map]
    refine List.map_congr_left fun c hc => ?_
    rw [Function.comp, hf c (h c hc)]
  have wline : ∀ cs : List Coord, (∀ c ∈ cs, P c) → wktLine num multi (cs.map f) = wktLine num multi' cs := by
    intro cs h; simp only [wktLine, line cs h]
  have lines : ∀ ls : List (List Coord), (∀ l ∈ ls, ∀ c ∈ l, P c) →
      (ls.map (List.map f)).map (wktLine num multi) = ls.map (wktLine num multi') := by
    intro ls h
    rw [List.map_map]
    exact List.map_congr_left fun l hl => wline l (h l hl)
  have polys : ∀ ps : List (List (List Coord)), (∀ p ∈ ps, ∀ l ∈ p, ∀ c ∈ l, P c) →
      (ps.map (List.map (List.map f))).map (wktPoly num multi) = ps.map (wktPoly num multi') := by
    intro ps h
    rw [List.map_map]
    refine List.map_congr_left fun p hp => ?_
    simp only [Function.comp, wktPoly, lines p (h p hp)]
  have seg : ∀ s : Seg, AllCoords.SegCoords P s → wktSeg num multi (s.map f) = wktSeg num multi' s := by
    intro s h
    cases s with
    | line cs => exact wline cs h
    | circ cs => simp only [Seg.map, wktSeg, line cs h]
  have segs : ∀ ss : List Seg, (∀ s ∈ ss, AllCoords.SegCoords P s) →
      (ss.map (Seg.map f)).map (wktSeg num multi) = ss.map (wktSeg num multi') := by
    intro ss h
    rw [List.map_map]
    exact List.map_congr_left fun s hs => seg s (h s hs)
  have curve : ∀ c : Curve, AllCoords.CurveCoords P c → wktCurve num multi (c.map f) = wktCurve num multi' c := by
    intro c h
    cases c with
    | seg s => exact seg s h
    | compound ss => simp only [Curve.map, wktCurve, segs ss h]
  have curves : ∀ cs : List Curve, (∀ c ∈ cs, AllCoords.CurveCoords P c) →
      (cs.map (Curve.map f)).map (wktCurve num multi) = cs.map (wktCurve num multi') := by
    intro cs h
    rw [List.map_map]
    exact List.map_congr_left fun c hc => curve c (h c hc)
  induction g using Geom.ind with
  | emptyPoint => rfl
  | point c => simp only [Geom.map, wkt, hf c hg]
  | multiPoint cs => simp only [Geom.map, wkt, line cs hg]
  | lineString cs => simp only [Geom.map, wkt, line cs hg]
  | circularString cs => simp only [Geom.map, wkt, line cs hg]
  | compoundCurve ss => simp only [Geom.map, wkt, segs ss hg]
  | multiLineString ls => simp only [Geom.map, wkt, lines ls hg]
  | multiCurve cs => simp only [Geom.map, wkt, curves cs hg]
  | polygon rs => simp only [Geom.map, wkt, lines rs hg]
  | triangle rs => simp only [Geom.map, wkt, lines rs hg]
  | curvePolygon rs => simp only [Geom.map, wkt, curves rs hg]
  | multiPolygon ps => simp only [Geom.map, wkt, polys ps hg]
  | polyhedralSurface ps => simp only [Geom.map, wkt, polys ps hg]
  | tin ps => simp only [Geom.map, wkt, polys ps hg]
  | multiSurface ss =>
    simp only [Geom.map, wkt, List.map_map]
    congr 1
    refine List.map_congr_left fun s hs => ?_
    have h := hg s hs
    cases s with
    | polygon rs => simp only [Function.comp, Surface.map, wktSurface, wktPoly, lines rs h]
    | curvePolygon rs => simp only [Function.comp, Surface.map, wktSurface, curves rs h]
  | collection gs ih =>
    simp only [Geom.map, wkt]
    congr 1
    have hg' := (allCoordsList_iff P gs).mp hg
    clear hg
    induction gs with
    | nil => rfl
    | cons g gs ih2 =>
      simp only [Geom.mapList, wktList]
      rw [ih g (by simp) (hg' g (by simp)), ih2 (fun x hx => ih x (by simp [hx])) (fun x hx => hg' x (by simp [hx]))]

theorem allCoords_trivial (g : Geom) : AllCoords (fun _ => True) g := by
  rw [allCoords_iff_coords]; simp

/-- `to_wkt_ndim(dims)` as the code does it: two numbers per coordinate without dimensions beyond x, y, otherwise
every ordinate there is, whichever dimensions were asked for. -/
theorem C63_to_wkt_ndim_exact (num : F64 → Text) (v : GeoSource) (d : Dims) (g : Geom) (hv : v.Delivers d.multi g) :
    v.toWktNdim num d = .ok (wkt num d.multi g) := by
  obtain ⟨pre, rest, hp, hr⟩ := hv
  have : ∃ s, pre = [] ∧ s = none ∨ pre = [.srid s] := by
    rcases hp with rfl | ⟨s, rfl⟩
    · exact ⟨none, Or.inl ⟨rfl, rfl⟩⟩
    · exact ⟨s, Or.inr rfl⟩
  obtain ⟨s, hp⟩ := this
  have := toWktWithOpts_of num v.prog .wkt d none pre s g v.bytes rest hp hr
  simpa [GeoSource.toWktNdim, GeoSource.toWktWithOpts] using this

/-- C63.  `to_wkt_ndim(dims)` prints the geometry with exactly the dimensions asked for: for x, y only, for all four,
and whenever no coordinate has a dimension not asked for.
Missing: one of z and m asked for and the other present, for which it is false. -/
theorem C63_to_wkt_ndim_partial (num : F64 → Text) (v : GeoSource) (z m : Bool) (g : Geom)
    (hv : v.Delivers (z || m) g)
    (hd : z = m ∨ AllCoords (fun c => (c.z.isSome = true → z = true) ∧ (c.m.isSome = true → m = true)) g) :
    v.toWktNdim num { z, m } = .ok (wkt num true (g.map (Coord.only { z, m }))) := by
  have hmulti : ({ z, m } : Dims).multi = (z || m) := by simp [Dims.multi]
  rw [C63_to_wkt_ndim_exact num v { z, m } g (by rw [hmulti]; exact hv), hmulti]
  congr 1
  symm
  rcases hd with rfl | hd
  · refine wkt_map_coords num true _ (fun _ => True) _ (fun c _ => ?_) g (allCoords_trivial g)
    cases z
    · simp [wktCoord, ordinates, Coord.only]
    · simp [wktCoord, ordinates, Coord.only]
  · refine wkt_map_coords num true _ _ _ (fun c hc => ?_) g hd
    obtain ⟨x, y, cz, cm⟩ := c
    cases z <;> cases m <;> cases cz <;> cases cm <;> simp_all [wktCoord, ordinates, Coord.only]

/-- C63.  `to_wkt()` prints x and y, `to_ewkt` everything. -/
theorem C63_to_wkt_two_dimensions (num : F64 → Text) (v : GeoSource) (g : Geom) (hv : v.Delivers false g) :
    v.toWkt num = .ok (wkt num true (g.map (Coord.only {}))) := by
  rw [C46_to_wkt num v g hv]
  congr 1
  symm
  exact wkt_map_coords num true false (fun _ => True) _ (fun c _ => by simp [wktCoord, ordinates, Coord.only]) g
    (allCoords_trivial g)

/-- C63 is **false** of the code in general: asked for x, y, z of a point that also has m, it prints m too. -/
theorem C63_to_wkt_ndim_false (N : NumText) (fo : FOps) :
    ∃ (bs : List Byte) (g : Geom) (t : Text), Holds .wkb { z := true, m := true } none g bs ∧
      (GeoSource.ofWkb fo .wkb bs).toWktNdim N.num { z := true } = .ok t ∧
      t ≠ wkt N.num true (g.map (Coord.only { z := true })) := by
  refine ⟨[1] ++ encU32 .le 3001 ++ List.replicate 32 0, .point ⟨0#64, 0#64, some 0#64, some 0#64⟩,
    wkt N.num true (.point ⟨0#64, 0#64, some 0#64, some 0#64⟩), ?_, ?_, ?_⟩
  · refine ⟨rfl, .le, ⟨rfl, rfl⟩, [1] ++ encU32 .le 3001, List.replicate 32 0, rfl, rfl, by decide, by decide⟩
  · exact C63_to_wkt_ndim_exact N.num _ { z := true } _ ⟨[.srid none], [], Or.inr ⟨none, rfl⟩, by rfl⟩
  · intro h
    have := C20_wkt_injective_partial N true _ _ (by simp [Geom.coords, Recoverable, F64.isNaN])
      (by simp [Geom.map, Geom.coords, Recoverable, F64.isNaN, Coord.only]) h
    simp [Geom.map, Coord.only] at this

/-- hypotheses met: a geo-types point delivers itself, without z or m -/
example : (GeoSource.ofGeo (.point ⟨1#64, 2#64⟩)).Delivers true (.point ⟨1#64, 2#64, none, none⟩) ∧
    AllCoords (fun c => (c.z.isSome = true → true = true) ∧ (c.m.isSome = true → false = true))
      (.point ⟨1#64, 2#64, none, none⟩) :=
  ⟨GeoSource.delivers_ofGeo (.point ⟨1#64, 2#64⟩) true, by simp [AllCoords]⟩

end Geozero
