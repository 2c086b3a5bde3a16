import Verif.Spec.Gdal
import Verif.Lemmas.Geos
import Verif.Lemmas.WkbSat

/- Helper lemmas for GDAL. -/

namespace Geozero
open Prog

/-! ### reader -/

/-- A program that delivers `f y` if there is a result `y`, and otherwise stops with a format error. -/
def Reads {β : Type} (multi : Bool) (p : Prog Unit) (o : Option β) (f : β → List Ev) : Prop :=
  (∀ y, o = some y → ∀ bs, run multi p bs = (f y, .ok ((), bs))) ∧
  (o = none → ∀ bs, ∃ evs, run multi p bs = (evs, .error .geometryFormat))

theorem Reads.fail {β : Type} {multi : Bool} {f : β → List Ev} : Reads multi (.fail .geometryFormat) (none : Option β) f :=
  ⟨by simp, fun _ _ => ⟨[], rfl⟩⟩

theorem Reads.map {β γ : Type} {multi : Bool} {p : Prog Unit} {o : Option β} {f : β → List Ev} {g : β → γ} {f' : γ → List Ev}
    (h : Reads multi p o f) (hf : ∀ y, f' (g y) = f y) : Reads multi p (o.map g) f' := by
  refine ⟨fun y hy bs => ?_, fun hn bs => h.2 (by simpa using hn) bs⟩
  obtain ⟨x, rfl, rfl⟩ := Option.map_eq_some_iff.mp hy
  rw [hf]
  exact h.1 x rfl bs

theorem mapM_length {α β : Type} {d : α → Option β} {xs : List α} {ys : List β} (h : xs.mapM d = some ys) :
    ys.length = xs.length := by
  induction xs generalizing ys with
  | nil => simp at h; simp [h]
  | cons x xs ih =>
    rw [List.mapM_cons] at h
    cases hx : d x with
    | none => simp [hx] at h
    | some y =>
      cases hs : xs.mapM d with
      | none => simp [hx, hs] at h
      | some zs => simp [hx, hs] at h; simp [← h, ih hs]

theorem Reads.loop {α β : Type} {multi : Bool} {body : Nat → α → Prog Unit} {d : α → Option β} {f : Nat → β → List Ev}
    (xs : List α) (h : ∀ x ∈ xs, ∀ i, Reads multi (body i x) (d x) (f i)) (i : Nat) :
    Reads multi (forIdx body i xs) (xs.mapM d) (evList f i) := by
  induction xs generalizing i with
  | nil => exact ⟨fun y hy bs => by simp at hy; subst hy; rfl, by simp⟩
  | cons x xs ih =>
    obtain ⟨h1, h2⟩ := h x (by simp) i
    obtain ⟨i1, i2⟩ := ih (fun x hx => h x (by simp [hx])) (i + 1)
    rw [List.mapM_cons]
    cases hx : d x with
    | none =>
      refine ⟨by simp, fun _ bs => ?_⟩
      obtain ⟨evs, he⟩ := h2 hx bs
      exact ⟨evs, run_bind_err he⟩
    | some y =>
      cases hs : xs.mapM d with
      | none =>
        refine ⟨by simp, fun _ bs => ?_⟩
        obtain ⟨evs, he⟩ := i2 hs bs
        refine ⟨f i y ++ evs, ?_⟩
        show run multi (Prog.bind (body i x) fun _ => forIdx body (i + 1) xs) bs = _
        rw [run_bind_ok (h1 y hx bs), he]
      | some ys =>
        refine ⟨fun zs hz bs => ?_, by simp⟩
        simp at hz
        subst hz
        show run multi (Prog.bind (body i x) fun _ => forIdx body (i + 1) xs) bs = _
        rw [run_bind_ok (h1 y hx bs), i1 ys hs bs]
        simp [evList]

/-- begin, members, end -/
theorem Reads.block {α β : Type} {multi : Bool} {body : Nat → α → Prog Unit} {d : α → Option β} {f : Nat → β → List Ev}
    (k : GKind) (tagged : Bool) (idx : Nat) (xs : List α) (h : ∀ x ∈ xs, ∀ i, Reads multi (body i x) (d x) (f i)) :
    Reads multi (do emitEv (.gbegin k tagged xs.length idx); forIdx body 0 xs; emitEv (.gend k tagged idx))
      (xs.mapM d) (bracket k tagged idx f) := by
  obtain ⟨h1, h2⟩ := Reads.loop xs h 0
  refine ⟨fun ys hy bs => ?_, fun hn bs => ?_⟩
  · simp only [bind_eq, run_emitEv_bind]
    rw [run_bind_ok (h1 ys hy bs)]
    simp [Geozero.bracket, mapM_length hy]
  · obtain ⟨evs, he⟩ := h2 hn bs
    refine ⟨.gbegin k tagged xs.length idx :: evs, ?_⟩
    simp only [bind_eq, run_emitEv_bind]
    rw [run_bind_err he]

theorem ogrEv_eq (multi : Bool) (p : OgrPt) (i : Nat) : ogrEv multi p i = coordEv multi (OgrGeom.coord p) i := by
  cases multi <;> rfl

theorem run_ogrLinestring (multi tagged : Bool) (g : OgrGeom) (idx : Nat) (bs : List Byte) :
    run multi (ogrLinestring g tagged idx) bs = (lineEvs multi tagged idx g.coords, .ok ((), bs)) := by
  unfold ogrLinestring
  simp only [bind_eq, run_emitEv_bind, run_multiDim_bind, ogrEv_eq]
  rw [run_bind_ok (run_forIdx (f := fun i (c : OgrPt) => coordEvs multi i (OgrGeom.coord c)) g.pts
    (fun i c _ bs => by simp [coordEvs]) 0 bs)]
  simp [lineEvs, bracket, OgrGeom.coords, evList_map]

theorem run_ogrCircularstring (multi : Bool) (g : OgrGeom) (idx : Nat) (bs : List Byte) :
    run multi (ogrCircularstring g idx) bs = (circEvs multi idx g.coords, .ok ((), bs)) := by
  unfold ogrCircularstring
  simp only [bind_eq, run_emitEv_bind, run_multiDim_bind, ogrEv_eq]
  rw [run_bind_ok (run_forIdx (f := fun i (c : OgrPt) => coordEvs multi i (OgrGeom.coord c)) g.pts
    (fun i c _ bs => by simp [coordEvs]) 0 bs)]
  simp [circEvs, bracket, OgrGeom.coords, evList_map]

theorem Reads.one {β : Type} {multi : Bool} {p : Prog Unit} {y : β} {f : β → List Ev}
    (h : ∀ bs, run multi p bs = (f y, .ok ((), bs))) : Reads multi p (some y) f :=
  ⟨fun z hz bs => by cases hz; exact h bs, by simp⟩

theorem reads_seqMember (multi : Bool) (g : OgrGeom) (i : Nat) :
    Reads multi (ogrSeqMember i g) g.asLine (lineEvs multi false i) := by
  unfold ogrSeqMember OgrGeom.asLine
  split
  · exact .one (run_ogrLinestring multi false g i)
  · exact .fail

theorem reads_polygon (multi tagged : Bool) (g : OgrGeom) (i : Nat) :
    Reads multi (ogrPolygon g tagged i) g.rings (polyEvs multi tagged i) :=
  Reads.block .polygon tagged i g.members fun x _ j => reads_seqMember multi x j

theorem reads_triangle (multi tagged : Bool) (g : OgrGeom) (i : Nat) :
    Reads multi (ogrTriangle g tagged i) g.rings (triEvs multi tagged i) :=
  Reads.block .triangle tagged i g.members fun x _ j => reads_seqMember multi x j

theorem reads_polygonMember (multi : Bool) (g : OgrGeom) (i : Nat) :
    Reads multi (ogrPolygonMember i g) g.asPolygon (polyEvs multi false i) := by
  unfold ogrPolygonMember OgrGeom.asPolygon
  split
  · exact reads_polygon multi false g i
  · exact .fail

theorem reads_segment (multi : Bool) (g : OgrGeom) (i : Nat) :
    Reads multi (ogrSegment i g) g.asSeg (segEvs multi i) := by
  obtain ⟨k, ps, ms⟩ := g
  rcases k with _ | k
  · exact .fail
  · cases k
    case lineString => refine .one fun bs => ?_; exact run_ogrLinestring multi false _ i bs
    case circularString => refine .one fun bs => ?_; exact run_ogrCircularstring multi _ i bs
    all_goals exact .fail

theorem reads_compound (multi : Bool) (g : OgrGeom) (i : Nat) :
    Reads multi (ogrCompoundcurve g i) (g.members.mapM OgrGeom.asSeg) (bracket .compoundCurve true i (segEvs multi)) :=
  Reads.block .compoundCurve true i g.members fun x _ j => reads_segment multi x j

theorem reads_curve (multi : Bool) (g : OgrGeom) (i : Nat) :
    Reads multi (ogrCurve i g) g.asCurve (curveEvs multi i) := by
  obtain ⟨k, ps, ms⟩ := g
  rcases k with _ | k
  · exact .fail
  · cases k
    case lineString => refine .one fun bs => ?_; exact run_ogrLinestring multi false _ i bs
    case circularString => refine .one fun bs => ?_; exact run_ogrCircularstring multi _ i bs
    case compoundCurve => exact (reads_compound multi (.node _ ps ms) i).map (g := Curve.compound) fun _ => rfl
    all_goals exact .fail

theorem reads_curvepolygon (multi : Bool) (g : OgrGeom) (i : Nat) :
    Reads multi (ogrCurvepolygon g i) (g.members.mapM OgrGeom.asCurve) (bracket .curvePolygon true i (curveEvs multi)) :=
  Reads.block .curvePolygon true i g.members fun x _ j => reads_curve multi x j

theorem reads_surface (multi : Bool) (g : OgrGeom) (i : Nat) :
    Reads multi (ogrSurface i g) g.asSurface (surfaceEvs multi i) := by
  obtain ⟨k, ps, ms⟩ := g
  rcases k with _ | k
  · exact .fail
  · cases k
    case curvePolygon => exact (reads_curvepolygon multi (.node _ ps ms) i).map (g := Surface.curvePolygon) fun _ => rfl
    case polygon => exact (reads_polygon multi false (.node _ ps ms) i).map (g := Surface.polygon) fun _ => rfl
    all_goals exact .fail

theorem reads_pointMember (multi : Bool) (blank : OgrPt) (g : OgrGeom) (h : g.NoEmptyPoint) (i : Nat) :
    Reads multi (ogrPointMember blank i g) g.asPoint (coordEvs multi i) := by
  obtain ⟨k, ps, ms⟩ := g
  unfold ogrPointMember OgrGeom.asPoint
  simp only [OgrGeom.kind, OgrGeom.pts]
  by_cases hk : k = some .point
  · simp only [hk, if_true]
    have hne := h.1 hk
    cases ps with
    | nil => exact absurd rfl hne
    | cons p ps =>
      refine .one fun bs => ?_
      simp [ogrPoint, bind_eq, run_multiDim_bind, ogrEv_eq, coordEvs, OgrGeom.pts]
  · simp only [hk, if_false]
    exact .fail

theorem noEmptyPointList_mem {ms : List OgrGeom} (h : OgrGeom.NoEmptyPointList ms) : ∀ m ∈ ms, m.NoEmptyPoint := by
  induction ms with
  | nil => simp
  | cons m ms ih =>
    intro x hx
    rcases List.mem_cons.mp hx with rfl | hx
    · exact h.1
    · exact ih h.2 x hx

/-- what the reader does with any tree -/
theorem reads_geomN (multi : Bool) (blank : OgrPt) (g : OgrGeom) : ∀ idx, g.NoEmptyPoint →
    Reads multi (ogrGeomN blank idx g) g.denote (Geom.events multi idx) := by
  refine OgrGeom.rec
    (motive_1 := fun g => ∀ idx, g.NoEmptyPoint → Reads multi (ogrGeomN blank idx g) g.denote (Geom.events multi idx))
    (motive_2 := fun gs => ∀ i, OgrGeom.NoEmptyPointList gs →
      Reads multi (ogrMembers blank i gs) (OgrGeom.denoteList gs) (eventsList multi i)) ?_ ?_ ?_ g
  · intro k ps ms ih idx h
    have hm := noEmptyPointList_mem h.2
    cases k with
    | none => simpa only [ogrGeomN, OgrGeom.denote] using Reads.fail
    | some k =>
      cases k <;> simp only [ogrGeomN, OgrGeom.denote]
      case point =>
        have hne := h.1 rfl
        cases ps with
        | nil => exact absurd rfl hne
        | cons p ps =>
          refine .one fun bs => ?_
          have hp : run multi (ogrPoint blank (.node (some .point) (p :: ps) ms) 0) bs =
              ([coordEv multi (OgrGeom.coord p) 0], .ok ((), bs)) := by
            simp [ogrPoint, bind_eq, run_multiDim_bind, ogrEv_eq, OgrGeom.pts]
          simp only [bind_eq, run_emitEv_bind]
          rw [run_bind_ok hp]
          simp [Geom.events]
      case multiPoint =>
        exact (Reads.block .multiPoint true idx ms fun x hx j => reads_pointMember multi blank x (hm x hx) j).map
          fun _ => by simp [Geom.events]
      case lineString => exact .one fun bs => by simpa [Geom.events, OgrGeom.coords, OgrGeom.pts] using run_ogrLinestring multi true (.node _ ps ms) idx bs
      case multiLineString =>
        exact (Reads.block .multiLineString true idx ms fun x _ j => reads_seqMember multi x j).map
          fun _ => by simp [Geom.events]
      case polygon =>
        exact (reads_polygon multi true (.node _ ps ms) idx).map fun _ => by simp [Geom.events]
      case multiPolygon =>
        exact (Reads.block .multiPolygon true idx ms fun x _ j => reads_polygonMember multi x j).map
          fun _ => by simp [Geom.events]
      case collection =>
        obtain ⟨h1, h2⟩ := ih 0 h.2
        have hl : ∀ (ms : List OgrGeom) gs, OgrGeom.denoteList ms = some gs → gs.length = ms.length := by
          intro ms
          induction ms with
          | nil => intro gs h; simp [OgrGeom.denoteList] at h; simp [← h]
          | cons m ms ih =>
            intro gs h
            simp only [OgrGeom.denoteList] at h
            split at h
            · cases h
            · split at h
              · cases h
              · rename_i xs hxs
                cases h
                simp [ih xs hxs]
        refine ⟨fun y hy bs => ?_, fun hn bs => ?_⟩
        · obtain ⟨gs, hg, rfl⟩ := Option.map_eq_some_iff.mp hy
          simp only [bind_eq, run_emitEv_bind]
          rw [run_bind_ok (h1 gs hg bs)]
          simp [Geom.events, hl ms gs hg]
        · obtain ⟨evs, he⟩ := h2 (by simpa using hn) bs
          refine ⟨.gbegin .collection true ms.length idx :: evs, ?_⟩
          simp only [bind_eq, run_emitEv_bind]
          rw [run_bind_err he]
      case circularString => exact .one fun bs => by simpa [Geom.events, OgrGeom.coords, OgrGeom.pts] using run_ogrCircularstring multi (.node _ ps ms) idx bs
      case compoundCurve => exact (reads_compound multi (.node _ ps ms) idx).map fun _ => by simp [Geom.events]
      case curvePolygon => exact (reads_curvepolygon multi (.node _ ps ms) idx).map fun _ => by simp [Geom.events]
      case triangle => exact (reads_triangle multi true (.node _ ps ms) idx).map fun _ => by simp [Geom.events]
      case multiCurve =>
        exact (Reads.block .multiCurve true idx ms fun x _ j => reads_curve multi x j).map fun _ => by simp [Geom.events]
      case polyhedralSurface =>
        exact (Reads.block .polyhedralSurface true idx ms fun x _ j => reads_polygon multi false x j).map
          fun _ => by simp [Geom.events]
      case tin =>
        exact (Reads.block .tin true idx ms fun x _ j => reads_triangle multi false x j).map fun _ => by simp [Geom.events]
      case multiSurface =>
        exact (Reads.block .multiSurface true idx ms fun x _ j => reads_surface multi x j).map fun _ => by simp [Geom.events]
  · intro i _
    exact .one fun bs => by simp [ogrMembers, eventsList, run]
  · intro g gs ihg ihl i h
    obtain ⟨h1, h2⟩ := ihg i h.1
    obtain ⟨i1, i2⟩ := ihl (i + 1) h.2
    simp only [ogrMembers, OgrGeom.denoteList]
    cases hg : g.denote with
    | none =>
      refine ⟨by simp, fun _ bs => ?_⟩
      obtain ⟨evs, he⟩ := h2 hg bs
      exact ⟨evs, run_bind_err he⟩
    | some x =>
      cases hs : OgrGeom.denoteList gs with
      | none =>
        refine ⟨by simp, fun _ bs => ?_⟩
        obtain ⟨evs, he⟩ := i2 hs bs
        exact ⟨_, by rw [run_bind_ok (h1 x hg bs), he]⟩
      | some xs =>
        refine .one fun bs => ?_
        rw [run_bind_ok (h1 x hg bs), i1 xs hs bs]
        simp [eventsList]

/-! ### the representation denotes the geometry -/

theorem mapM_map_some {α β γ : Type} (d : β → Option γ) (r : α → β) (f : α → γ) (xs : List α)
    (h : ∀ x ∈ xs, d (r x) = some (f x)) : (xs.map r).mapM d = some (xs.map f) := by
  induction xs with
  | nil => rfl
  | cons x xs ih =>
    rw [List.map_cons, List.mapM_cons, h x (by simp), ih fun x hx => h x (by simp [hx])]
    rfl

theorem coord_ogr (c : Coord) : OgrGeom.coord c.ogr = c.ogrXYZ := rfl

theorem asLine_ogrLine (cs : List Coord) : (ogrLine cs).asLine = some (cs.map Coord.ogrXYZ) := by
  simp [ogrLine, OgrGeom.asLine, OgrGeom.kind, OgrGeom.coords, OgrGeom.pts, Function.comp_def, coord_ogr]

theorem rings_ogr (rs : List (List Coord)) : (rs.map ogrLine).mapM OgrGeom.asLine = some (rs.map (List.map Coord.ogrXYZ)) :=
  mapM_map_some _ _ _ rs fun r _ => asLine_ogrLine r

theorem asSeg_ogr (s : Seg) : s.ogr.asSeg = some (s.map Coord.ogrXYZ) := by
  cases s <;> simp [Seg.ogr, ogrLine, ogrCirc, OgrGeom.asSeg, OgrGeom.kind, OgrGeom.coords, OgrGeom.pts, Function.comp_def,
    coord_ogr, Seg.map]

theorem asCurve_ogr (c : Curve) : c.ogr.asCurve = some (c.map Coord.ogrXYZ) := by
  cases c with
  | seg s => cases s <;> simp [Curve.ogr, Seg.ogr, ogrLine, ogrCirc, OgrGeom.asCurve, OgrGeom.kind, OgrGeom.coords,
      OgrGeom.pts, Function.comp_def, coord_ogr, Seg.map, Curve.map]
  | compound ss =>
    simp [Curve.ogr, OgrGeom.asCurve, OgrGeom.kind, OgrGeom.members, Curve.map,
      mapM_map_some _ _ _ ss fun s _ => asSeg_ogr s]

theorem asSurface_ogr (s : Surface) : s.ogr.asSurface = some (s.map Coord.ogrXYZ) := by
  cases s with
  | polygon rs => simp [-List.mapM_map, Surface.ogr, ogrPoly, OgrGeom.asSurface, OgrGeom.kind, OgrGeom.rings, OgrGeom.members, rings_ogr, Surface.map]
  | curvePolygon cs =>
    simp [-List.mapM_map, Surface.ogr, OgrGeom.asSurface, OgrGeom.kind, OgrGeom.members, Surface.map,
      mapM_map_some _ _ _ cs fun s _ => asCurve_ogr s]

theorem denote_ogr (g : Geom) : g.ogr.denote = some (g.map Coord.ogrXYZ) := by
  refine Geom.ind (P := fun g => g.ogr.denote = some (g.map Coord.ogrXYZ)) ?_ ?_ ?_ ?_ ?_ ?_ ?_ ?_ ?_ ?_ ?_ ?_ ?_ ?_ ?_ ?_ g
  · simp [-List.mapM_map, Geom.ogr, OgrGeom.denote, Geom.map]
  · intro c; simp [-List.mapM_map, Geom.ogr, OgrGeom.denote, Geom.map, coord_ogr]
  · intro cs
    simp [-List.mapM_map, Geom.ogr, OgrGeom.denote, Geom.map, mapM_map_some OgrGeom.asPoint (fun c : Coord => .node (some .point) [c.ogr] [])
      Coord.ogrXYZ cs fun c _ => rfl]
  · intro cs; simp [-List.mapM_map, Geom.ogr, ogrLine, OgrGeom.denote, Geom.map, Function.comp_def, coord_ogr]
  · intro cs; simp [-List.mapM_map, Geom.ogr, ogrCirc, OgrGeom.denote, Geom.map, Function.comp_def, coord_ogr]
  · intro ss; simp [-List.mapM_map, Geom.ogr, OgrGeom.denote, Geom.map, mapM_map_some _ _ _ ss fun s _ => asSeg_ogr s]
  · intro ls; simp [-List.mapM_map, Geom.ogr, OgrGeom.denote, Geom.map, rings_ogr]
  · intro cs; simp [-List.mapM_map, Geom.ogr, OgrGeom.denote, Geom.map, mapM_map_some _ _ _ cs fun s _ => asCurve_ogr s]
  · intro rs; simp [-List.mapM_map, Geom.ogr, ogrPoly, OgrGeom.denote, Geom.map, rings_ogr]
  · intro rs; simp [-List.mapM_map, Geom.ogr, ogrTri, OgrGeom.denote, Geom.map, rings_ogr]
  · intro cs; simp [-List.mapM_map, Geom.ogr, OgrGeom.denote, Geom.map, mapM_map_some _ _ _ cs fun s _ => asCurve_ogr s]
  · intro ps
    simp [-List.mapM_map, Geom.ogr, OgrGeom.denote, Geom.map, mapM_map_some OgrGeom.asPolygon ogrPoly (List.map (List.map Coord.ogrXYZ)) ps
      fun rs _ => by simp [-List.mapM_map, ogrPoly, OgrGeom.asPolygon, OgrGeom.kind, OgrGeom.rings, OgrGeom.members, rings_ogr]]
  · intro ps
    simp [-List.mapM_map, Geom.ogr, OgrGeom.denote, Geom.map, mapM_map_some OgrGeom.rings ogrPoly (List.map (List.map Coord.ogrXYZ)) ps
      fun rs _ => by simp [-List.mapM_map, ogrPoly, OgrGeom.rings, OgrGeom.members, rings_ogr]]
  · intro ps
    simp [-List.mapM_map, Geom.ogr, OgrGeom.denote, Geom.map, mapM_map_some OgrGeom.rings ogrTri (List.map (List.map Coord.ogrXYZ)) ps
      fun rs _ => by simp [-List.mapM_map, ogrTri, OgrGeom.rings, OgrGeom.members, rings_ogr]]
  · intro ss; simp [-List.mapM_map, Geom.ogr, OgrGeom.denote, Geom.map, mapM_map_some _ _ _ ss fun s _ => asSurface_ogr s]
  · intro gs ih
    have key : ∀ gs : List Geom, (∀ g ∈ gs, g.ogr.denote = some (g.map Coord.ogrXYZ)) →
        OgrGeom.denoteList (Geom.ogrList gs) = some (Geom.mapList Coord.ogrXYZ gs) := by
      intro gs
      induction gs with
      | nil => intro _; rfl
      | cons g gs ih =>
        intro h
        simp [-List.mapM_map, Geom.ogrList, OgrGeom.denoteList, Geom.mapList, h g (by simp), ih fun g hg => h g (by simp [-List.mapM_map, hg])]
    simp [-List.mapM_map, Geom.ogr, OgrGeom.denote, Geom.map, key gs ih]

/-! ### writer -/

namespace GdalWriter

theorem ogr_flat (c : Coord) : c.flat.ogr = ⟨c.x, c.y, F64.zero⟩ := rfl

theorem setPt_end (ps : List OgrPt) (p : OgrPt) : setPt ps ps.length p = ps ++ [p] := by simp [setPt]

theorem modify_end {α : Type} (pre : List α) (x : α) (f : α → α) : (pre ++ [x]).modify pre.length f = pre ++ [f x] := by
  induction pre with
  | nil => rfl
  | cons a pre ih => simp [ih]

section basic

/-- the step function `S` handles the calls of readers like the two-dimensional writer, except that coordinate `c` is stored as
the OGR point for `k c` -/
structure Like (S : GdalWriter → Ev → Except Err GdalWriter) (multi : Bool) (k : Coord → Coord) : Prop where
  coord : ∀ w c i, S w (coordEv multi c i) = w.put i (k c).ogr
  begins : ∀ w k t n i, S w (.gbegin k t n i) = step w (.gbegin k t n i)
  ends : ∀ w k t i, S w (.gend k t i) = .ok w

theorem like_step : Like step false Coord.flat := ⟨fun _ _ _ => rfl, fun _ _ _ _ _ => rfl, fun _ _ _ _ => rfl⟩

variable {S : GdalWriter → Ev → Except Err GdalWriter} {multi : Bool} {f : Coord → Coord} (hS : Like S multi f)
include hS

theorem feed_pts_geom (w : GdalWriter) (k : GKind) (hk : k = .lineString) (done : List OgrPt) (ms : List OgrGeom)
    (cs : List Coord) (hw : w.geom = .node (some k) done ms) :
    feed S w (evList (coordEvs multi) done.length cs) =
      .ok { w with geom := .node (some k) (done ++ cs.map fun c => (f c).ogr) ms } := by
  induction cs generalizing done w with
  | nil => simp [evList, feed, ← hw]
  | cons c cs ih =>
    subst hk
    have h := ih { w with geom := .node (some .lineString) (done ++ [(f c).ogr]) ms } (done ++ [(f c).ogr]) rfl
    simp only [evList, coordEvs, List.singleton_append, feed_cons, hS.coord, put, hw,
      OgrGeom.kind, setPoint2d, setPt_end]
    simpa using h

theorem feed_pts_member (w : GdalWriter) (k : GKind) (hk : k = .multiLineString ∨ k = .polygon) (ps : List OgrPt)
    (pre : List OgrGeom) (done : List OgrPt) (cs : List Coord)
    (hw : w.geom = .node (some k) ps (pre ++ [.node (some .lineString) done []])) (hl : w.line = .member pre.length) :
    feed S w (evList (coordEvs multi) done.length cs) =
      .ok { w with geom := .node (some k) ps (pre ++ [.node (some .lineString) (done ++ cs.map fun c => (f c).ogr) []]) } := by
  induction cs generalizing done w with
  | nil => simp [evList, feed, ← hw]
  | cons c cs ih =>
    have h := ih { w with geom := .node (some k) ps (pre ++ [.node (some .lineString) (done ++ [(f c).ogr]) []]) }
      (done ++ [(f c).ogr]) rfl hl
    rcases hk with rfl | rfl <;>
    · simp only [evList, coordEvs, List.singleton_append, feed_cons, hS.coord, put, hw,
        OgrGeom.kind, setLine, hl, onMember, modify_end, setPoint2d, setPt_end]
      simpa [hl] using h

theorem feed_pts_ring (w : GdalWriter) (ps : List OgrPt)
    (pre : List OgrGeom) (pk : Option GKind) (pps : List OgrPt) (pre' : List OgrGeom) (done : List OgrPt) (cs : List Coord)
    (hw : w.geom = .node (some .multiPolygon) ps (pre ++ [.node pk pps (pre' ++ [.node (some .lineString) done []])]))
    (hl : w.line = .ring pre.length pre'.length) :
    feed S w (evList (coordEvs multi) done.length cs) =
      .ok { w with
        geom := .node (some .multiPolygon) ps
          (pre ++ [.node pk pps (pre' ++ [.node (some .lineString) (done ++ cs.map fun c => (f c).ogr) []])]) } := by
  induction cs generalizing done w with
  | nil => simp [evList, feed, ← hw]
  | cons c cs ih =>
    have h := ih { w with
        geom := .node (some .multiPolygon) ps
          (pre ++ [.node pk pps (pre' ++ [.node (some .lineString) (done ++ [(f c).ogr]) []])]) }
      (done ++ [(f c).ogr]) rfl hl
    simp only [evList, coordEvs, List.singleton_append, feed_cons, hS.coord, put, hw,
      OgrGeom.kind, setLine, hl, onMember, modify_end, setPoint2d, setPt_end]
    simpa [hl] using h

omit hS in
theorem ogrLine_map (cs : List Coord) : ogrLine (cs.map f) = .node (some .lineString) (cs.map fun c => (f c).ogr) [] := by
  simp [ogrLine, Function.comp_def]

theorem feed_line_member (w : GdalWriter) (k : GKind) (hk : k = .multiLineString ∨ k = .polygon) (ps : List OgrPt)
    (pre : List OgrGeom) (i : Nat) (cs : List Coord) (hw : w.geom = .node (some k) ps pre) :
    feed S w (lineEvs multi false i cs) =
      .ok { geom := .node (some k) ps (pre ++ [ogrLine (cs.map f)]), line := .member pre.length } := by
  have h := feed_pts_member hS { geom := .node (some k) ps (pre ++ [.node (some .lineString) [] []]), line := .member pre.length }
    k hk ps pre [] cs rfl rfl
  simp only [List.length_nil] at h
  have hb : S w (.gbegin .lineString false cs.length i) =
      .ok { geom := .node (some k) ps (pre ++ [.node (some .lineString) [] []]), line := .member pre.length } := by
    rcases hk with rfl | rfl <;>
      simp [hS.begins, step, linestringBegin, hw, OgrGeom.kind, addGeometry, empty, OgrGeom.members]
  simp only [lineEvs, bracket, feed_cons, hb, feed_append, h]
  simp [feed, hS.ends, ogrLine_map]

theorem feed_lines_member (k : GKind) (hk : k = .multiLineString ∨ k = .polygon) (ps : List OgrPt) (ls : List (List Coord))
    (w : GdalWriter) (pre : List OgrGeom) (i : Nat) (hw : w.geom = .node (some k) ps pre) :
    ∃ r, feed S w (evList (lineEvs multi false) i ls) =
      .ok { geom := .node (some k) ps (pre ++ ls.map fun l => ogrLine (l.map f)), line := r } := by
  induction ls generalizing w pre i with
  | nil => exact ⟨w.line, by simp [evList, feed, ← hw]⟩
  | cons l ls ih =>
    obtain ⟨r, hr⟩ := ih { geom := .node (some k) ps (pre ++ [ogrLine (l.map f)]), line := .member pre.length }
      (pre ++ [ogrLine (l.map f)]) (i + 1) rfl
    refine ⟨r, ?_⟩
    simp only [evList, feed_append, feed_line_member hS w k hk ps pre i l hw, hr]
    simp

theorem feed_line_ring (w : GdalWriter) (ps : List OgrPt) (pre : List OgrGeom) (pps : List OgrPt)
    (pre' : List OgrGeom) (i : Nat) (cs : List Coord)
    (hw : w.geom = .node (some .multiPolygon) ps (pre ++ [.node (some .polygon) pps pre'])) :
    feed S w (lineEvs multi false i cs) =
      .ok { geom := .node (some .multiPolygon) ps (pre ++ [.node (some .polygon) pps (pre' ++ [ogrLine (cs.map f)])])
            line := .ring pre.length pre'.length } := by
  have h := feed_pts_ring hS
    { geom := .node (some .multiPolygon) ps (pre ++ [.node (some .polygon) pps (pre' ++ [.node (some .lineString) [] []])])
      line := .ring pre.length pre'.length }
    ps pre (some .polygon) pps pre' [] cs rfl rfl
  simp only [List.length_nil] at h
  have hb : S w (.gbegin .lineString false cs.length i) =
      .ok { geom := .node (some .multiPolygon) ps (pre ++ [.node (some .polygon) pps (pre' ++ [.node (some .lineString) [] []])])
            line := .ring pre.length pre'.length } := by
    simp [hS.begins, step, linestringBegin, hw, OgrGeom.kind, addGeometry, empty, OgrGeom.members, onMember, modify_end]
  simp only [lineEvs, bracket, feed_cons, hb, feed_append, h]
  simp [feed, hS.ends, ogrLine_map]

theorem feed_lines_ring (ps : List OgrPt) (pre : List OgrGeom) (pps : List OgrPt) (ls : List (List Coord))
    (w : GdalWriter) (pre' : List OgrGeom) (i : Nat)
    (hw : w.geom = .node (some .multiPolygon) ps (pre ++ [.node (some .polygon) pps pre'])) :
    ∃ r, feed S w (evList (lineEvs multi false) i ls) =
      .ok { geom := .node (some .multiPolygon) ps
              (pre ++ [.node (some .polygon) pps (pre' ++ ls.map fun l => ogrLine (l.map f))])
            line := r } := by
  induction ls generalizing w pre' i with
  | nil => exact ⟨w.line, by simp [evList, feed, ← hw]⟩
  | cons l ls ih =>
    obtain ⟨r, hr⟩ := ih
      { geom := .node (some .multiPolygon) ps (pre ++ [.node (some .polygon) pps (pre' ++ [ogrLine (l.map f)])])
        line := .ring pre.length pre'.length } (pre' ++ [ogrLine (l.map f)]) (i + 1) rfl
    refine ⟨r, ?_⟩
    simp only [evList, feed_append, feed_line_ring hS w ps pre pps pre' i l hw, hr]
    simp

theorem feed_polys (ps : List OgrPt) (polys : List (List (List Coord))) (w : GdalWriter) (pre : List OgrGeom) (i : Nat)
    (hw : w.geom = .node (some .multiPolygon) ps pre) :
    ∃ r, feed S w (evList (polyEvs multi false) i polys) =
      .ok { geom := .node (some .multiPolygon) ps (pre ++ polys.map fun rs => ogrPoly (rs.map (List.map f)))
            line := r } := by
  induction polys generalizing w pre i with
  | nil => exact ⟨w.line, by simp [evList, feed, ← hw]⟩
  | cons rs polys ih =>
    obtain ⟨r, hr⟩ := feed_lines_ring hS ps pre [] rs
      { geom := .node (some .multiPolygon) ps (pre ++ [.node (some .polygon) [] []]), line := w.line } [] 0 rfl
    obtain ⟨r', hr'⟩ := ih
      { geom := .node (some .multiPolygon) ps (pre ++ [ogrPoly (rs.map (List.map f))]), line := r }
      (pre ++ [ogrPoly (rs.map (List.map f))]) (i + 1) rfl
    refine ⟨r', ?_⟩
    have hb : S w (.gbegin .polygon false rs.length i) =
        .ok { geom := .node (some .multiPolygon) ps (pre ++ [.node (some .polygon) [] []]), line := w.line } := by
      simp [hS.begins, step, polygonBegin, hw, addGeometry, empty, OgrGeom.kind]
    have he : ∀ w : GdalWriter, S w (.gend .polygon false i) = .ok w := fun w => hS.ends w _ _ _
    simp only [evList, polyEvs, bracket, feed_append, feed_cons, hb, hr, he, feed]
    have e : (OgrGeom.node (some .polygon) [] ([] ++ rs.map fun l => ogrLine (l.map f))) =
        ogrPoly (rs.map (List.map f)) := by simp [ogrPoly, Function.comp_def]
    rw [e, hr']
    simp

theorem feed_points (ps : List OgrPt) (cs : List Coord) (w : GdalWriter) (pre : List OgrGeom) (i : Nat)
    (hw : w.geom = .node (some .multiPoint) ps pre) :
    feed S w (evList (coordEvs multi) i cs) =
      .ok { w with geom := .node (some .multiPoint) ps (pre ++ cs.map fun c => .node (some .point) [(f c).ogr] []) } := by
  induction cs generalizing w pre i with
  | nil => simp [evList, feed, ← hw]
  | cons c cs ih =>
    have h := ih { w with geom := .node (some .multiPoint) ps (pre ++ [.node (some .point) [(f c).ogr] []]) }
      (pre ++ [.node (some .point) [(f c).ogr] []]) (i + 1) rfl
    simp only [evList, coordEvs, List.singleton_append, feed_cons, hS.coord, put, hw,
      OgrGeom.kind, setPoint2d, empty, if_true, addGeometry]
    simpa using h

/-- a geometry of one of the six basic kinds replaces whatever was there -/
theorem feed_basic (g : Geom) (hb : g.Basic) (idx : Nat) (w : GdalWriter) :
    ∃ w', feed S w (g.events multi idx) = .ok w' ∧ w'.geom = (g.map f).ogr := by
  cases g with
  | point c =>
    exact ⟨{ (w.replace (empty .point)) with geom := .node (some .point) [(f c).ogr] [] },
      by simp [Geom.events, feed_cons, feed, hS.coord, hS.begins, hS.ends, step, replace, put, empty, OgrGeom.kind, setPoint2d],
      by simp [Geom.map, Geom.ogr]⟩
  | multiPoint cs =>
    have h := feed_points hS [] cs (w.replace (empty .multiPoint)) [] 0 rfl
    have hs : S w (.gbegin .multiPoint true cs.length idx) = .ok (w.replace (empty .multiPoint)) := hS.begins _ _ _ _ _
    refine ⟨_, by simp only [Geom.events, bracket, feed_cons, hs, feed_append, h]; simp only [feed, hS.ends]; rfl, ?_⟩
    simp [Geom.map, Geom.ogr, Function.comp_def]
  | lineString cs =>
    have h := feed_pts_geom hS (w.replace (empty .lineString)) .lineString rfl [] [] cs rfl
    have hs : S w (.gbegin .lineString true cs.length idx) = .ok (w.replace (empty .lineString)) := hS.begins _ _ _ _ _
    simp only [List.length_nil] at h
    refine ⟨_, by simp only [Geom.events, lineEvs, bracket, feed_cons, hs, feed_append, h]; simp only [feed, hS.ends]; rfl, ?_⟩
    simp [Geom.map, Geom.ogr, ogrLine_map]
  | multiLineString ls =>
    obtain ⟨r, h⟩ := feed_lines_member hS .multiLineString (.inl rfl) [] ls (w.replace (empty .multiLineString)) [] 0 rfl
    have hs : S w (.gbegin .multiLineString true ls.length idx) = .ok (w.replace (empty .multiLineString)) := hS.begins _ _ _ _ _
    refine ⟨_, by simp only [Geom.events, bracket, feed_cons, hs, feed_append, h]; simp only [feed, hS.ends]; rfl, ?_⟩
    simp [Geom.map, Geom.ogr, Function.comp_def]
  | polygon rs =>
    obtain ⟨r, h⟩ := feed_lines_member hS .polygon (.inr rfl) [] rs (w.replace (empty .polygon)) [] 0 rfl
    have hs : S w (.gbegin .polygon true rs.length idx) = .ok (w.replace (empty .polygon)) := hS.begins _ _ _ _ _
    refine ⟨_, by simp only [Geom.events, polyEvs, bracket, feed_cons, hs, feed_append, h]; simp only [feed, hS.ends]; rfl, ?_⟩
    simp [Geom.map, Geom.ogr, ogrPoly, Function.comp_def]
  | multiPolygon ps =>
    obtain ⟨r, h⟩ := feed_polys hS [] ps (w.replace (empty .multiPolygon)) [] 0 rfl
    have hs : S w (.gbegin .multiPolygon true ps.length idx) = .ok (w.replace (empty .multiPolygon)) := hS.begins _ _ _ _ _
    refine ⟨_, by simp only [Geom.events, bracket, feed_cons, hs, feed_append, h]; simp only [feed, hS.ends]; rfl, ?_⟩
    simp [Geom.map, Geom.ogr, Function.comp_def]
  | _ => exact absurd hb (by simp [Geom.Basic])

end basic

/-! ### memory safety -/

/-- writing through a pointer to a dropped geometry -/
def uaf : Err := .panic "use after free"

/-- the calls may write a coordinate here -/
def MayWrite (w : GdalWriter) : Prop :=
  w.line ≠ .dangling ∨ w.geom.kind = some .point ∨ w.geom.kind = some .lineString ∨ w.geom.kind = some .multiPoint

theorem setPoint2d_kind (g : OgrGeom) (i : Nat) (p : OgrPt) : (setPoint2d g i p).kind = g.kind := by
  obtain ⟨k, ps, ms⟩ := g
  unfold setPoint2d
  split
  · rename_i h; cases h; split <;> rfl
  · rename_i h; cases h; rfl

theorem onMember_kind (g : OgrGeom) (i : Nat) (f : OgrGeom → OgrGeom) : (onMember i f g).kind = g.kind := by
  obtain ⟨k, ps, ms⟩ := g; rfl

theorem addGeometry_kind {g m g' : OgrGeom} (h : addGeometry g m = .ok g') : g'.kind = g.kind := by
  obtain ⟨k, ps, ms⟩ := g
  unfold addGeometry at h
  split at h
  rename_i e
  cases e
  split at h <;> first | (cases h; rfl) | cases h

theorem addGeometry_uaf (g m : OgrGeom) : addGeometry g m ≠ .error uaf := by
  obtain ⟨k, ps, ms⟩ := g
  unfold addGeometry
  intro h
  split at h
  split at h <;> first | (cases h; done) | (simp [ogrErr, uaf] at h)

theorem xy_mayWrite {w w' : GdalWriter} {x y : F64} {i : Nat} (hw : w.MayWrite) (h : w.xy x y i = .ok w') : w'.MayWrite := by
  unfold xy put at h
  split at h
  · cases h; simpa [MayWrite, setPoint2d_kind] using hw
  · cases h; simpa [MayWrite, setPoint2d_kind] using hw
  · split at h
    · rename_i hg; cases h; simpa [MayWrite, addGeometry_kind hg] using hw
    · cases h
  all_goals first
    | (cases h; done)
    | (unfold setLine at h
       split at h <;> first | (cases h; done) | (cases h; simpa [MayWrite, onMember_kind] using hw) | (cases h; exact hw))

theorem xy_uaf {w : GdalWriter} {x y : F64} {i : Nat} (hw : w.MayWrite) : w.xy x y i ≠ .error uaf := by
  intro h
  unfold xy put at h
  split at h
  · cases h
  · cases h
  · split at h
    · cases h
    · rename_i hg; cases h; exact addGeometry_uaf _ _ hg
  all_goals first
    | (simp [unsupported, uaf] at h; done)
    | (rename_i hk
       unfold setLine at h
       split at h <;> first | (cases h; done) | skip
       rename_i hl
       simp [MayWrite, hl, hk] at hw)

theorem linestringBegin_uaf (w : GdalWriter) (t : Bool) : w.linestringBegin t ≠ .error uaf := by
  intro h
  unfold linestringBegin at h
  split at h
  · cases h
  · split at h
    case h_1 | h_2 =>
      split at h
      · cases h
      · rename_i hg; cases h; exact addGeometry_uaf _ _ hg
    case h_3 =>
      split at h
      · simp [uaf] at h
      · split at h
        · cases h
        · rename_i hg; cases h; exact addGeometry_uaf _ _ hg
    case h_4 => simp [unsupported, uaf] at h

theorem linestringBegin_mayWrite {w w' : GdalWriter} {t : Bool} (h : w.linestringBegin t = .ok w') : w'.MayWrite := by
  unfold linestringBegin at h
  split at h
  · cases h; simp [MayWrite, replace, empty, OgrGeom.kind]
  · split at h
    case h_1 | h_2 =>
      split at h
      · cases h; simp [MayWrite]
      · cases h
    case h_3 =>
      split at h
      · cases h
      · split at h
        · cases h; simp [MayWrite]
        · cases h
    case h_4 => cases h

/-- Coordinates come only after the begin of a point, multi point, line string or circular string (and coordinates). -/
def okFrom : Bool → List Ev → Bool
  | _, [] => true
  | b, .xy _ _ _ :: es => b && okFrom b es
  | b, .coord _ _ _ _ _ _ _ :: es => b && okFrom b es
  | _, .gbegin k _ _ _ :: es =>
    okFrom (match k with | .point | .multiPoint | .lineString | .circularString => true | _ => false) es
  | _, .gend _ _ _ :: es => okFrom false es
  | _, .srid _ :: es => okFrom false es
  | _, .emptyPoint _ :: es => okFrom false es

theorem okFrom_mono (es : List Ev) (h : okFrom false es = true) : okFrom true es = true := by
  cases es with
  | nil => rfl
  | cons e es => cases e <;> simp_all [okFrom]

theorem okFrom_prefix {b : Bool} {es fs : List Ev} (hp : es <+: fs) (h : okFrom b fs = true) : okFrom b es = true := by
  obtain ⟨t, rfl⟩ := hp
  induction es generalizing b with
  | nil => rfl
  | cons e es ih =>
    cases e <;> simp only [List.cons_append, okFrom, Bool.and_eq_true] at h ⊢
    case xy | coord => exact ⟨h.1, ih h.2⟩
    all_goals exact ih h

theorem okFrom_loose (b : Bool) (es : List Ev) : okFrom b (es.map looseEv) = okFrom b es := by
  induction es generalizing b with
  | nil => rfl
  | cons e es ih =>
    cases e with
    | gbegin k t n i => cases k <;> simp [looseEv, okFrom, ih]
    | _ => simp [looseEv, okFrom, ih]

/-- the calls can stand where no coordinate may come next -/
def Ok (es : List Ev) : Prop := ∀ rest, okFrom false rest = true → okFrom false (es ++ rest) = true

theorem Ok.append {a b : List Ev} (ha : Ok a) (hb : Ok b) : Ok (a ++ b) := by
  intro rest h
  rw [List.append_assoc]
  exact ha _ (hb _ h)

theorem Ok.evList {α : Type} {f : Nat → α → List Ev} {xs : List α} (h : ∀ x ∈ xs, ∀ i, Ok (f i x)) (i : Nat) :
    Ok (Geozero.evList f i xs) := by
  induction xs generalizing i with
  | nil => exact fun _ h => h
  | cons x xs ih => exact (h x (by simp) i).append (ih (fun x hx => h x (by simp [hx])) (i + 1))

theorem Ok.bracket {α : Type} {k : GKind} {t : Bool} {idx : Nat} {f : Nat → α → List Ev} {xs : List α}
    (h : ∀ x ∈ xs, ∀ i, Ok (f i x)) : Ok (Geozero.bracket k t idx f xs) := by
  intro rest hr
  have := Ok.evList h 0 (.gend k t idx :: rest) (by simpa [okFrom] using hr)
  simp only [Geozero.bracket, List.cons_append, List.append_assoc, List.singleton_append, List.nil_append, okFrom]
  split
  all_goals first | exact this | exact okFrom_mono _ this

theorem okFrom_coords (multi : Bool) (cs : List Coord) (i : Nat) (rest : List Ev) (h : okFrom true rest = true) :
    okFrom true (Geozero.evList (coordEvs multi) i cs ++ rest) = true := by
  induction cs generalizing i with
  | nil => exact h
  | cons c cs ih => cases multi <;> simpa [Geozero.evList, coordEvs, coordEv, okFrom] using ih (i + 1)

theorem Ok.coords {k : GKind} (hk : k = .point ∨ k = .multiPoint ∨ k = .lineString ∨ k = .circularString) (multi t : Bool)
    (idx : Nat) (cs : List Coord) : Ok (Geozero.bracket k t idx (coordEvs multi) cs) := by
  intro rest hr
  have := okFrom_coords multi cs 0 (.gend k t idx :: rest) (by simpa [okFrom] using hr)
  rcases hk with rfl | rfl | rfl | rfl <;> simpa [Geozero.bracket, okFrom] using this

theorem Ok.line (multi t : Bool) (i : Nat) (cs : List Coord) : Ok (lineEvs multi t i cs) := Ok.coords (by simp) multi t i cs
theorem Ok.circ (multi : Bool) (i : Nat) (cs : List Coord) : Ok (circEvs multi i cs) := Ok.coords (by simp) multi true i cs
theorem Ok.poly (multi t : Bool) (i : Nat) (rs : List (List Coord)) : Ok (polyEvs multi t i rs) :=
  Ok.bracket fun r _ j => Ok.line multi false j r
theorem Ok.tri (multi t : Bool) (i : Nat) (rs : List (List Coord)) : Ok (triEvs multi t i rs) :=
  Ok.bracket fun r _ j => Ok.line multi false j r

theorem Ok.seg (multi : Bool) (i : Nat) (s : Seg) : Ok (segEvs multi i s) := by
  cases s
  · exact Ok.line multi false i _
  · exact Ok.circ multi i _

theorem Ok.curve (multi : Bool) (i : Nat) (c : Curve) : Ok (curveEvs multi i c) := by
  cases c
  · exact Ok.seg multi i _
  · exact Ok.bracket fun s _ j => Ok.seg multi j s

theorem Ok.surface (multi : Bool) (i : Nat) (s : Surface) : Ok (surfaceEvs multi i s) := by
  cases s
  · exact Ok.poly multi false i _
  · exact Ok.bracket fun s _ j => Ok.curve multi j s

theorem Ok.geom (multi : Bool) (g : Geom) : ∀ i, Ok (g.events multi i) := by
  refine Geom.ind (P := fun g => ∀ i, Ok (g.events multi i)) ?_ ?_ ?_ ?_ ?_ ?_ ?_ ?_ ?_ ?_ ?_ ?_ ?_ ?_ ?_ ?_ g
  · intro i rest h
    simpa [Geom.events, okFrom] using h
  · intro c i
    have := Ok.coords (k := .point) (by simp) multi true i [c]
    simpa [Geom.events, Geozero.bracket, Geozero.evList, coordEvs] using this
  · intro cs i; simpa only [Geom.events] using Ok.coords (by simp) multi true i cs
  · intro cs i; simpa only [Geom.events] using Ok.line multi true i cs
  · intro cs i; simpa only [Geom.events] using Ok.circ multi i cs
  · intro ss i; simpa only [Geom.events] using Ok.bracket fun s _ j => Ok.seg multi j s
  · intro ls i; simpa only [Geom.events] using Ok.bracket fun l _ j => Ok.line multi false j l
  · intro cs i; simpa only [Geom.events] using Ok.bracket fun c _ j => Ok.curve multi j c
  · intro rs i; simpa only [Geom.events] using Ok.poly multi true i rs
  · intro rs i; simpa only [Geom.events] using Ok.tri multi true i rs
  · intro cs i; simpa only [Geom.events] using Ok.bracket fun c _ j => Ok.curve multi j c
  · intro ps i; simpa only [Geom.events] using Ok.bracket fun p _ j => Ok.poly multi false j p
  · intro ps i; simpa only [Geom.events] using Ok.bracket fun p _ j => Ok.poly multi false j p
  · intro ps i; simpa only [Geom.events] using Ok.bracket fun p _ j => Ok.tri multi false j p
  · intro ss i; simpa only [Geom.events] using Ok.bracket fun s _ j => Ok.surface multi j s
  · intro gs ih i
    rw [events_collection]
    exact Ok.bracket fun g hg j => ih g hg j

theorem polygonBegin_uaf (w : GdalWriter) (t : Bool) : w.polygonBegin t ≠ .error uaf := by
  intro h
  simp only [polygonBegin] at h
  split at h
  · cases h
  · split at h
    · cases h
    · rename_i hg; cases h; exact addGeometry_uaf _ _ hg

theorem feed_no_uaf (es : List Ev) : ∀ (b : Bool) (w : GdalWriter), okFrom b es = true → (b = true → w.MayWrite) →
    (∀ e ∈ es, e.beginsCirc = false) → feed step w es ≠ .error uaf := by
  induction es with
  | nil => intro b w _ _ _ h; cases h
  | cons e es ih =>
    intro b w hok hw hc
    have hc' : ∀ e ∈ es, e.beginsCirc = false := fun e he => hc e (by simp [he])
    rw [feed_cons]
    cases e with
    | xy x y i =>
      simp only [okFrom, Bool.and_eq_true] at hok
      simp only [step]
      cases h : w.xy x y i with
      | ok w' => exact ih b w' hok.2 (fun hb => xy_mayWrite (hw hb) h) hc'
      | error e => intro he; cases he; exact xy_uaf (hw hok.1) h
    | coord x y z m t tm i =>
      simp only [okFrom, Bool.and_eq_true] at hok
      simp only [step]
      exact ih b w hok.2 hw hc'
    | srid s => simp only [okFrom] at hok; simp only [step]; exact ih false w hok (by simp) hc'
    | emptyPoint i => simp [step, uaf]
    | gend k t i => simp only [okFrom] at hok; simp only [step]; exact ih false w hok (by simp) hc'
    | gbegin k t n i =>
      have hk := hc (.gbegin k t n i) (by simp)
      cases k <;> simp only [okFrom] at hok <;> simp only [step]
      case circularString => simp [Ev.beginsCirc] at hk
      case point => exact ih true _ hok (fun _ => by simp [MayWrite, replace, empty, OgrGeom.kind]) hc'
      case multiPoint => exact ih true _ hok (fun _ => by simp [MayWrite, replace, empty, OgrGeom.kind]) hc'
      case lineString =>
        cases h : w.linestringBegin t with
        | ok w' => exact ih true w' hok (fun _ => linestringBegin_mayWrite h) hc'
        | error e => intro he; cases he; exact linestringBegin_uaf w t h
      case polygon =>
        cases h : w.polygonBegin t with
        | ok w' => exact ih false w' hok (by simp) hc'
        | error e => intro he; cases he; exact polygonBegin_uaf w t h
      all_goals exact ih false _ hok (by simp) hc'

theorem ok_absurd {P : Prop} {es : List Ev} {w : GdalWriter} {g : OgrGeom} {e : Err}
    (h : ∃ w', feed step w es = .ok w' ∧ w'.geom = g) (he : feed step w es = .error e) : P := by
  obtain ⟨w', h', _⟩ := h
  rw [h'] at he
  cases he

/-- nested collections of basic geometries are accepted, unless there is an empty point -/
theorem feed_plain (g : Geom) : g.Plain → ∀ (idx : Nat) (w : GdalWriter) (e : Err),
    feed step w (g.events false idx) = .error e → e.isPanic = false := by
  refine Geom.ind (P := fun g => g.Plain → ∀ (idx : Nat) (w : GdalWriter) (e : Err),
    feed step w (g.events false idx) = .error e → e.isPanic = false) ?_ ?_ ?_ ?_ ?_ ?_ ?_ ?_ ?_ ?_ ?_ ?_ ?_ ?_ ?_ ?_ g
  case refine_1 =>
    intro _ idx w e h
    simp only [Geom.events, feed_cons, step] at h
    cases h
    rfl
  case refine_16 =>
    intro gs ih hp idx w e h
    have key : ∀ gs : List Geom, Geom.PlainList gs → (∀ g ∈ gs, g.Plain → ∀ (idx : Nat) (w : GdalWriter) (e : Err),
        feed step w (g.events false idx) = .error e → e.isPanic = false) → ∀ i w e,
        feed step w (Geozero.evList (Geom.events false) i gs) = .error e → e.isPanic = false := by
      intro gs
      induction gs with
      | nil => intro _ _ i w e h; cases h
      | cons g gs ih =>
        intro hp hg i w e h
        simp only [Geozero.evList, feed_append] at h
        cases h1 : feed step w (g.events false i) with
        | ok w' => rw [h1] at h; exact ih hp.2 (fun g hg' => hg g (by simp [hg'])) (i + 1) w' e h
        | error e' => rw [h1] at h; cases h; exact hg g (by simp) hp.1 i w e h1
    rw [events_collection] at h
    simp only [Geozero.bracket, feed_cons, step, feed_append] at h
    cases h1 : feed step w (Geozero.evList (Geom.events false) 0 gs) with
    | ok w' => rw [h1] at h; cases h
    | error e' => rw [h1] at h; cases h; exact key gs hp ih 0 w e h1
  all_goals
    intro x hp idx w e h
    first
    | (simp [Geom.Plain] at hp; done)
    | exact ok_absurd (feed_basic like_step (.point x) trivial idx w) h
    | exact ok_absurd (feed_basic like_step (.multiPoint x) trivial idx w) h
    | exact ok_absurd (feed_basic like_step (.lineString x) trivial idx w) h
    | exact ok_absurd (feed_basic like_step (.multiLineString x) trivial idx w) h
    | exact ok_absurd (feed_basic like_step (.polygon x) trivial idx w) h
    | exact ok_absurd (feed_basic like_step (.multiPolygon x) trivial idx w) h

end GdalWriter

end Geozero
