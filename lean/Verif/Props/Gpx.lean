import Verif.Lemmas.Gpx
import Verif.Props.Wkt

/-
Properties of the GPX reader: C43, and C27 for it.
-/

namespace Geozero
open Prog Spec

/-- C43 for documents without empty tracks, segments or routes and with at most one route: whatever the processor's
dimensions, the calls are those of the two-dimensional geometry collection of the waypoints, the tracks and the routes,
in this order; sizes and indices are those of the documented event streams.
Missing: documents with empty parts or several routes, for which the property is false (`C43_size_false`). -/
theorem C43_gpx_partial (d : GpxDoc) (hd : d.Full) (multi : Bool) (bs : List Byte) :
    run multi (readGpx (.ok d)) bs = (d.geom.events false 0, .ok ((), bs)) := by
  rw [run_readGpx, gpxEvs_full d hd]

/-- a document with waypoints, tracks of one and two segments, and a route -/
def exGpx : GpxDoc :=
  { waypoints := [⟨1#64, 2#64⟩, ⟨3#64, 4#64⟩]
    tracks := [[[⟨1#64, 1#64⟩, ⟨2#64, 2#64⟩]], [[⟨5#64, 5#64⟩], [⟨6#64, 6#64⟩, ⟨7#64, 7#64⟩]]]
    routes := [[⟨8#64, 8#64⟩, ⟨9#64, 9#64⟩]] }

example : exGpx.Full := by simp [GpxDoc.Full, exGpx]
example : (exGpx.geom.events false 0).length = 29 := by decide +kernel

private theorem filter_len {α : Type} (ts : List (List α)) (i : Nat) :
    ((enumFrom i ts).filter fun p => !p.2.isEmpty).length ≤ ts.length ∧
    (((enumFrom i ts).filter fun p => !p.2.isEmpty).length = ts.length ↔ ∀ t ∈ ts, t ≠ []) := by
  induction ts generalizing i with
  | nil => simp [enumFrom]
  | cons t ts ih =>
    have h1 := (ih (i + 1)).1
    have h2 := (ih (i + 1)).2
    cases t with
    | nil =>
      simp only [enumFrom, List.filter_cons, List.isEmpty_nil, Bool.not_true, Bool.false_eq_true, if_false,
        List.length_cons, List.mem_cons]
      refine ⟨by omega, ⟨fun h => by omega, fun h => absurd rfl (h [] (.inl rfl))⟩⟩
    | cons x xs =>
      simp only [enumFrom, List.filter_cons, List.isEmpty_cons, Bool.not_false, if_true, List.length_cons]
      refine ⟨by omega, ?_⟩
      rw [Nat.add_right_cancel_iff, h2]
      simp

private theorem filter_all {α : Type} (ts : List (List α)) (h : ∀ t ∈ ts, t ≠ []) (i : Nat) :
    ((enumFrom i ts).filter fun p => !p.2.isEmpty).map Prod.fst = List.range' i ts.length := by
  induction ts generalizing i with
  | nil => rfl
  | cons t ts ih =>
    have ht : t ≠ [] := h t (by simp)
    cases t with
    | nil => exact absurd rfl ht
    | cons x xs => simp [enumFrom, List.range'_succ, ih fun t hm => h t (by simp [hm])]

/-- C43, exactly when it holds: the collection announces as many members as it delivers if and only if no track is
without segments and there is at most one route. -/
theorem C43_size_iff (d : GpxDoc) (multi : Bool) (bs : List Byte) :
    gpxAnnounced (run multi (readGpx (.ok d)) bs).1 = some (begunAt 1 0 (run multi (readGpx (.ok d)) bs).1).length ↔
      (∀ t ∈ d.tracks, t ≠ []) ∧ d.routes.length ≤ 1 := by
  have h := filter_len d.tracks d.waypoints.length
  simp only [run_readGpx, begunAt_gpx, List.length_append, List.length_map, List.length_range']
  rw [← h.2]
  have h1 := h.1
  simp only [gpxEvs, gpxAnnounced, Option.some.injEq]
  cases d.routes with
  | nil => simp only [if_true, List.length_nil]; omega
  | cons r rs => simp only [reduceCtorEq, if_false, List.length_cons, List.length_nil]; omega

/-- C43: then the members are also numbered 0, 1, 2, ... -/
theorem C43_indices_partial (d : GpxDoc) (ht : ∀ t ∈ d.tracks, t ≠ []) (multi : Bool) (bs : List Byte) :
    begunAt 1 0 (run multi (readGpx (.ok d)) bs).1 =
      List.range (d.waypoints.length + d.tracks.length + if d.routes = [] then 0 else 1) := by
  simp only [run_readGpx, begunAt_gpx, filter_all _ ht, List.range_eq_range']
  rw [← List.append_assoc, show List.range' 0 d.waypoints.length ++ List.range' d.waypoints.length d.tracks.length
      = List.range' 0 (d.waypoints.length + d.tracks.length) by
    rw [← List.range'_append]; simp]
  split
  · simp
  · rw [List.range'_concat]; simp

example : ∀ t ∈ exGpx.tracks, t ≠ [] := by simp [exGpx]
example : begunAt 1 0 (run true (readGpx (.ok exGpx)) []).1 = [0, 1, 2, 3, 4] := by decide +kernel

/-- C43 fails: two routes are announced as two members but delivered as one, and a track without segments is announced
but not delivered; the index of what follows then skips a number. -/
theorem C43_size_false :
    (∃ d : GpxDoc, gpxAnnounced (run false (readGpx (.ok d)) []).1 = some 2 ∧
      begunAt 1 0 (run false (readGpx (.ok d)) []).1 = [0]) ∧
    (∃ d : GpxDoc, gpxAnnounced (run false (readGpx (.ok d)) []).1 = some 2 ∧
      begunAt 1 0 (run false (readGpx (.ok d)) []).1 = [1]) :=
  ⟨⟨{ routes := [[⟨0#64, 0#64⟩], [⟨1#64, 1#64⟩]] }, by decide⟩, ⟨{ tracks := [[], [[⟨0#64, 0#64⟩]]] }, by decide⟩⟩

/-- For every document: all its positions are delivered, each once, in the order waypoints, tracks, routes. -/
theorem C43_all_points (d : GpxDoc) (multi : Bool) (bs : List Byte) :
    evPoints (run multi (readGpx (.ok d)) bs).1 = d.points := by
  rw [run_readGpx, evPoints_gpx]

example : exGpx.points.length = 9 := by decide

/-- For every document: the reader succeeds, every begin call has its end call with the same index, properly nested. -/
theorem C43_balanced (d : GpxDoc) (multi : Bool) (bs : List Byte) :
    balanced [] (run multi (readGpx (.ok d)) bs).1 = true ∧ (run multi (readGpx (.ok d)) bs).2 = .ok ((), bs) := by
  rw [run_readGpx]
  exact ⟨balanced_gpx d, rfl⟩

/-- A document the parser rejects is rejected with the parser's message before any call is made. -/
theorem C43_rejected {σ : Type} (P : Proc σ) (s : σ) (msg : String) (bs : List Byte) :
    interp P (readGpx (.error msg)) s bs = (s, [], .error (.geometry msg)) := rfl

/-- C43 to WKT: for a document without empty parts and with at most one route the text is the WKT of its geometry,
whatever the dimensions of the writer. -/
theorem C43_wkt_partial (num : F64 → Text) (dims : Dims) (d : GpxDoc) (hd : d.Full) (bs : List Byte) :
    toWktWithOpts num (readGpx (.ok d)) .wkt dims none bs = .ok (wkt num false d.geom) := by
  have hf := WktWriter.feed_geom num false d.geom 0 (WktWriter.withOpts .wkt dims none)
  unfold toWktWithOpts
  rw [interp_of_feed_ok_inv (WktWriter.proc num) dims.multi (fun w => w.dims = dims) (fun w hw => by rw [← hw]; rfl)
      (fun w e w' hw h => WktWriter.step_dims num dims w e w' hw h) (readGpx (.ok d)) _ _ rfl bs
      (by rw [C43_gpx_partial d hd]; exact hf), C43_gpx_partial d hd]
  simp [WktWriter.withOpts, WktWriter.header, WktWriter.put, WktWriter.sepOf]

/-- An empty first segment makes the WKT of a document malformed: nothing is written for the segment, but the segment
after it is preceded by a comma. -/
theorem C43_empty_segment_wkt_false (num : F64 → Text) :
    ∃ (d : GpxDoc) (t : Text), toWktWithOpts num (readGpx (.ok d)) .wkt {} none [] = .ok t ∧
      (txt "GEOMETRYCOLLECTION(MULTILINESTRING(,(").isPrefixOf t = true :=
  ⟨{ tracks := [[[], [⟨0#64, 0#64⟩]]] }, _, rfl, rfl⟩

/-- C27 fails for GPX: `GpxReader::process` delivers a bare geometry without dataset and feature calls. -/
theorem C27_gpx_false (d : GpxDoc) : ¬ (gpxProcess (.ok d)).FollowsContract := by
  intro h
  have := (h Unit { step := fun _ _ => .ok () } () []).1
  revert this
  unfold PartialDataset
  intro h
  cases h

end Geozero
