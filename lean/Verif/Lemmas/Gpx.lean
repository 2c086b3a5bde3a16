import Verif.Spec.Gpx
import Verif.Lemmas.GeoTypes
import Verif.Lemmas.Features

/- Helper lemmas for the GPX reader. -/

namespace Geozero
open Prog

/-- the calls of a wrapped waypoint -/
def gpxWpEvs (i : Nat) (p : XY) : List Ev := [.gbegin .point true 1 i, .xy p.x p.y 0, .gend .point true i]

/-- the calls of a segment or route -/
def gpxLineEvs (i : Nat) (s : List XY) : List Ev := if s = [] then [] else lineEvs false false i (s.map XY.coord)

/-- the calls of a track -/
def gpxTrackEvs (i : Nat) (t : List (List XY)) : List Ev :=
  if t = [] then [] else .gbegin .multiLineString true t.length i :: (evList gpxLineEvs 0 t ++ [.gend .multiLineString true i])

/-- the calls of a document -/
def gpxEvs (d : GpxDoc) : List Ev :=
  .gbegin .collection true (d.waypoints.length + d.tracks.length + d.routes.length) 0 ::
    (evList gpxWpEvs 0 d.waypoints ++ (evList gpxTrackEvs d.waypoints.length d.tracks ++
      (gpxTrackEvs (d.waypoints.length + d.tracks.length) d.routes ++ [.gend .collection true 0])))

theorem run_gpxWaypoints (multi : Bool) (ps : List XY) (i : Nat) (bs : List Byte) :
    run multi (gpxWaypointsIter true ps i) bs = (evList gpxWpEvs i ps, .ok (i + ps.length, bs)) := by
  induction ps generalizing i with
  | nil => rfl
  | cons p ps ih =>
    simp only [gpxWaypointsIter, if_true, bind_eq, run_emitEv_bind, bind_assoc, ih, evList, gpxWpEvs, List.length_cons,
      List.cons_append, List.nil_append]
    simp only [Nat.add_comm, Nat.add_left_comm]

theorem run_gpxPoints (multi : Bool) (ps : List XY) (i : Nat) (bs : List Byte) :
    run multi (gpxWaypointsIter false ps i) bs = (evList (coordEvs false) i (ps.map XY.coord), .ok (i + ps.length, bs)) := by
  induction ps generalizing i with
  | nil => rfl
  | cons p ps ih =>
    simp only [gpxWaypointsIter, Bool.false_eq_true, if_false, bind_eq, run_emitEv_bind, ih, evList, coordEvs,
      List.length_cons, List.map_cons, List.cons_append, List.nil_append]
    simp only [coordEv, Bool.false_eq_true, if_false, XY.coord, Nat.add_comm, Nat.add_left_comm]

theorem run_gpxTrackSegment (multi : Bool) (s : List XY) (i : Nat) (bs : List Byte) :
    run multi (gpxTrackSegment s i) bs = (gpxLineEvs i s, .ok ((), bs)) := by
  unfold gpxTrackSegment gpxLineEvs
  cases s with
  | nil => rfl
  | cons p ps =>
    simp only [List.isEmpty_cons, Bool.false_eq_true, if_false, bind_eq, run_emitEv_bind, reduceCtorEq]
    rw [run_bind_ok (run_gpxPoints multi (p :: ps) 0 bs)]
    simp [lineEvs, bracket]

theorem run_gpxRoute (multi : Bool) (s : List XY) (i : Nat) (bs : List Byte) :
    run multi (gpxRoute s i) bs = (gpxLineEvs i s, .ok ((), bs)) := run_gpxTrackSegment multi s i bs

theorem run_gpxTrackSegments (multi : Bool) (t : List (List XY)) (i : Nat) (bs : List Byte) :
    run multi (gpxTrackSegments t i) bs = (gpxTrackEvs i t, .ok ((), bs)) := by
  unfold gpxTrackSegments gpxTrackEvs
  cases t with
  | nil => rfl
  | cons s ss =>
    simp only [List.isEmpty_cons, Bool.false_eq_true, if_false, bind_eq, run_emitEv_bind, reduceCtorEq]
    rw [run_bind_ok (run_forIdx (f := gpxLineEvs) (s :: ss) (fun i x _ bs => run_gpxTrackSegment multi x i bs) 0 bs)]
    simp

theorem run_gpxTopTracks (multi : Bool) (ts : List (List (List XY))) (i : Nat) (bs : List Byte) :
    run multi (gpxTopTracks ts i) bs = (evList gpxTrackEvs i ts, .ok (i + ts.length, bs)) := by
  induction ts generalizing i with
  | nil => rfl
  | cons t ts ih =>
    simp only [gpxTopTracks, bind_eq]
    rw [run_bind_ok (run_gpxTrackSegments multi t i bs), ih]
    simp only [evList, List.length_cons, Nat.add_comm, Nat.add_left_comm]

theorem run_gpxTopRoutes (multi : Bool) (rs : List (List XY)) (i : Nat) (bs : List Byte) :
    ∃ j, run multi (gpxTopRoutes rs i) bs = (gpxTrackEvs i rs, .ok (j, bs)) := by
  unfold gpxTopRoutes gpxTrackEvs
  cases rs with
  | nil => exact ⟨i, rfl⟩
  | cons s ss =>
    refine ⟨i + 1, ?_⟩
    simp only [List.isEmpty_cons, Bool.false_eq_true, if_false, bind_eq, run_emitEv_bind, reduceCtorEq]
    rw [run_bind_ok (run_forIdx (f := gpxLineEvs) (s :: ss) (fun i x _ bs => run_gpxRoute multi x i bs) 0 bs)]
    simp [run]

theorem run_readGpx (multi : Bool) (d : GpxDoc) (bs : List Byte) :
    run multi (readGpx (.ok d)) bs = (gpxEvs d, .ok ((), bs)) := by
  have hw : run multi (gpxTopWaypoints d 0) bs = (evList gpxWpEvs 0 d.waypoints, .ok (d.waypoints.length, bs)) := by
    unfold gpxTopWaypoints
    cases h : d.waypoints with
    | nil => rfl
    | cons p ps => simpa using run_gpxWaypoints multi (p :: ps) 0 bs
  obtain ⟨j, hr⟩ := run_gpxTopRoutes multi d.routes (d.waypoints.length + d.tracks.length) bs
  simp only [readGpx, bind_eq, run_emitEv_bind]
  rw [run_bind_ok hw, run_bind_ok (run_gpxTopTracks multi d.tracks d.waypoints.length bs), run_bind_ok hr]
  simp [gpxEvs]

/-! ### counting -/

theorem begunAt_coords (l d : Nat) (cs : List Coord) (i : Nat) (rest : List Ev) :
    begunAt l d (evList (coordEvs false) i cs ++ rest) = begunAt l d rest := by
  induction cs generalizing i with
  | nil => rfl
  | cons c cs ih => simp [evList, coordEvs, coordEv, begunAt, ih]

theorem begunAt_line (d : Nat) (hd : 1 < d) (i : Nat) (s : List XY) (rest : List Ev) :
    begunAt 1 d (gpxLineEvs i s ++ rest) = begunAt 1 d rest := by
  unfold gpxLineEvs
  split
  · rfl
  · have : d ≠ 1 := by omega
    simp [lineEvs, bracket, begunAt, begunAt_coords, this]

theorem begunAt_lines (d : Nat) (hd : 1 < d) (i : Nat) (ss : List (List XY)) (rest : List Ev) :
    begunAt 1 d (evList gpxLineEvs i ss ++ rest) = begunAt 1 d rest := by
  induction ss generalizing i with
  | nil => rfl
  | cons s ss ih => simp only [evList, List.append_assoc, begunAt_line d hd, ih]

theorem begunAt_track (i : Nat) (t : List (List XY)) (rest : List Ev) :
    begunAt 1 1 (gpxTrackEvs i t ++ rest) = (if t = [] then [] else [i]) ++ begunAt 1 1 rest := by
  unfold gpxTrackEvs
  split
  · rfl
  · simp only [List.cons_append, begunAt, if_true, List.append_assoc, begunAt_lines _ (by omega : 1 < 1 + 1),
      Nat.add_sub_cancel, List.nil_append]

theorem begunAt_tracks (i : Nat) (ts : List (List (List XY))) (rest : List Ev) :
    begunAt 1 1 (evList gpxTrackEvs i ts ++ rest) =
      ((enumFrom i ts).filter fun p => !p.2.isEmpty).map Prod.fst ++ begunAt 1 1 rest := by
  induction ts generalizing i with
  | nil => rfl
  | cons t ts ih =>
    simp only [evList, List.append_assoc, begunAt_track, ih, enumFrom]
    cases t <;> simp

theorem begunAt_wps (i : Nat) (ps : List XY) (rest : List Ev) :
    begunAt 1 1 (evList gpxWpEvs i ps ++ rest) = List.range' i ps.length ++ begunAt 1 1 rest := by
  induction ps generalizing i with
  | nil => rfl
  | cons p ps ih =>
    simp only [evList, gpxWpEvs, List.cons_append, List.nil_append, begunAt, if_true, Nat.add_sub_cancel, ih,
      List.length_cons, List.range'_succ]

theorem begunAt_gpx (d : GpxDoc) :
    begunAt 1 0 (gpxEvs d) = List.range' 0 d.waypoints.length ++
      (((enumFrom d.waypoints.length d.tracks).filter fun p => !p.2.isEmpty).map Prod.fst ++
        if d.routes = [] then [] else [d.waypoints.length + d.tracks.length]) := by
  simp only [gpxEvs, begunAt, Nat.zero_ne_one, if_false, Nat.zero_add, begunAt_wps, begunAt_tracks, begunAt_track,
    List.append_nil]

/-! ### points -/

theorem evPoints_append (a b : List Ev) : evPoints (a ++ b) = evPoints a ++ evPoints b := by
  induction a with
  | nil => rfl
  | cons e es ih => cases e <;> simp [evPoints, ih]

theorem evPoints_coords (cs : List XY) (i : Nat) : evPoints (evList (coordEvs false) i (cs.map XY.coord)) = cs := by
  induction cs generalizing i with
  | nil => rfl
  | cons c cs ih => simp [evList, coordEvs, coordEv, evPoints, ih, XY.coord]

theorem evPoints_line (i : Nat) (s : List XY) : evPoints (gpxLineEvs i s) = s := by
  unfold gpxLineEvs
  split
  · simp [*, evPoints]
  · simp [lineEvs, bracket, evPoints, evPoints_append, evPoints_coords]

theorem evPoints_evList {α : Type} (f : Nat → α → List Ev) (g : α → List XY) (h : ∀ i x, evPoints (f i x) = g x) (i : Nat)
    (xs : List α) : evPoints (evList f i xs) = xs.flatMap g := by
  induction xs generalizing i with
  | nil => rfl
  | cons x xs ih => simp [evList, evPoints_append, h, ih]

theorem evPoints_track (i : Nat) (t : List (List XY)) : evPoints (gpxTrackEvs i t) = t.flatten := by
  unfold gpxTrackEvs
  split
  · simp [*, evPoints]
  · simp [evPoints, evPoints_append, evPoints_evList _ _ evPoints_line]

theorem evPoints_gpx (d : GpxDoc) : evPoints (gpxEvs d) = d.points := by
  have hw : ∀ i x, evPoints (gpxWpEvs i x) = [x] := fun _ _ => rfl
  have ht : (d.tracks.map List.flatten).flatten = d.tracks.flatten.flatten := by
    induction d.tracks with
    | nil => rfl
    | cons t ts ih => simp [ih]
  simp [gpxEvs, evPoints, evPoints_append, evPoints_evList _ _ hw, evPoints_evList _ _ evPoints_track, evPoints_track,
    GpxDoc.points, List.flatMap_def, ht]
  induction d.waypoints with
  | nil => rfl
  | cons p ps ih => simp [ih]

/-! ### balance -/

theorem balanced_coords (st : List (GKind × Bool × Nat)) (cs : List Coord) (i : Nat) (rest : List Ev) :
    balanced st (evList (coordEvs false) i cs ++ rest) = balanced st rest := by
  induction cs generalizing i with
  | nil => rfl
  | cons c cs ih => simp [evList, coordEvs, coordEv, balanced, ih]

theorem balanced_evList {α : Type} {f : Nat → α → List Ev}
    (h : ∀ st i x rest, balanced st (f i x ++ rest) = balanced st rest) (st : List (GKind × Bool × Nat)) (i : Nat)
    (xs : List α) (rest : List Ev) : balanced st (evList f i xs ++ rest) = balanced st rest := by
  induction xs generalizing i with
  | nil => rfl
  | cons x xs ih => simp only [evList, List.append_assoc, h, ih]

theorem balanced_line (st : List (GKind × Bool × Nat)) (i : Nat) (s : List XY) (rest : List Ev) :
    balanced st (gpxLineEvs i s ++ rest) = balanced st rest := by
  unfold gpxLineEvs
  split
  · rfl
  · simp [lineEvs, bracket, balanced, balanced_coords]

theorem balanced_track (st : List (GKind × Bool × Nat)) (i : Nat) (t : List (List XY)) (rest : List Ev) :
    balanced st (gpxTrackEvs i t ++ rest) = balanced st rest := by
  unfold gpxTrackEvs
  split
  · rfl
  · simp [balanced, balanced_evList balanced_line]

theorem balanced_gpx (d : GpxDoc) : balanced [] (gpxEvs d) = true := by
  have hw : ∀ st i x rest, balanced st (gpxWpEvs i x ++ rest) = balanced st rest := by
    intro st i x rest
    simp [gpxWpEvs, balanced]
  simp [gpxEvs, balanced, balanced_evList hw, balanced_evList balanced_track, balanced_track]

/-! ### full documents -/

theorem gpxLine_full {i : Nat} {s : List XY} (h : s ≠ []) : gpxLineEvs i s = lineEvs false false i (s.map XY.coord) := by
  simp [gpxLineEvs, h]

theorem evList_congr {α : Type} {f g : Nat → α → List Ev} (xs : List α) (h : ∀ i x, x ∈ xs → f i x = g i x) (i : Nat) :
    evList f i xs = evList g i xs := by
  induction xs generalizing i with
  | nil => rfl
  | cons x xs ih =>
    simp only [evList, h i x (by simp)]
    rw [ih fun i y hy => h i y (by simp [hy])]

theorem evList_append {α : Type} (f : Nat → α → List Ev) (i : Nat) (a b : List α) :
    evList f i (a ++ b) = evList f i a ++ evList f (i + a.length) b := by
  induction a generalizing i with
  | nil => rfl
  | cons x xs ih =>
    simp only [List.cons_append, evList, ih, List.append_assoc, List.length_cons]
    congr 3
    omega

theorem gpxTrack_full {i : Nat} {t : List (List XY)} (h : t ≠ []) (hs : ∀ s ∈ t, s ≠ []) :
    gpxTrackEvs i t = Geom.events false i (.multiLineString (t.map (List.map XY.coord))) := by
  simp only [gpxTrackEvs, h, if_false, Geom.events, bracket, List.length_map, evList_map]
  rw [evList_congr t fun i s hm => gpxLine_full (hs s hm)]

theorem gpxEvs_full (d : GpxDoc) (h : d.Full) : gpxEvs d = d.geom.events false 0 := by
  obtain ⟨ht, hr, hl⟩ := h
  unfold GpxDoc.geom
  rw [events_collection]
  simp only [gpxEvs, bracket, evList_append, evList_map, List.append_assoc, List.length_append, List.length_map,
    Nat.zero_add]
  rw [evList_congr (f := gpxTrackEvs) d.tracks fun i t hm => gpxTrack_full (ht t hm).1 (ht t hm).2]
  have hw : evList gpxWpEvs 0 d.waypoints = evList (fun j (p : XY) => Geom.events false j (.point p.coord)) 0 d.waypoints :=
    evList_congr _ (fun i p _ => by simp [gpxWpEvs, Geom.events, coordEv, XY.coord]) 0
  rw [hw]
  cases hd : d.routes with
  | nil => simp [gpxTrackEvs, evList]
  | cons r rs =>
    rw [hd] at hr hl
    have : rs = [] := by
      cases rs with
      | nil => rfl
      | cons _ _ => simp only [List.length_cons] at hl; omega
    subst this
    rw [gpxTrack_full (by simp) hr]
    simp [evList, Nat.add_assoc]

end Geozero
