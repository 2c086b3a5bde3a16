import Verif.Spec.Stream
import Verif.Lemmas.Db
import Verif.Props.Reuse
import Verif.Props.WkbWrite
import Verif.Props.SlCompressed

/-
C83: geometries one after the other in one stream.
-/

namespace Geozero
open Prog

private theorem item_run (fo : FOps) (multi : Bool) (i : StreamItem) (hi : i.Sound) (hd : i.dialect ≠ .spatiaLite) (rest : List Byte) :
    run multi (processWkbTypeGeom fo i.dialect) (i.bytes ++ rest) = (i.calls multi, .ok ((), rest)) := by
  have h := (holds_read fo i.dialect i.z i.m i.srid i.geom i.bytes hi.1 hi.2).1 multi
  rw [if_neg hd] at h
  exact run_append multi _ i.bytes rest h

/-- C83.  Blobs of WKB, EWKB, GeoPackage and MySQL, in any mixture and any number, one after the other in one stream and followed by
anything: reading once for each delivers each geometry with its SRID, and stops behind the last. -/
theorem C83_stream (fo : FOps) (multi : Bool) (items : List StreamItem) (rest : List Byte)
    (h : ∀ i ∈ items, i.Sound ∧ i.dialect ≠ .spatiaLite) :
    run multi (readEach fo (items.map (·.dialect))) (items.flatMap (·.bytes) ++ rest) = (items.flatMap (·.calls multi), .ok ((), rest)) := by
  induction items with
  | nil => rfl
  | cons i items ih =>
    obtain ⟨hi, hd⟩ := h i (by simp)
    have ih := ih fun j hj => h j (by simp [hj])
    simp only [List.map_cons, readEach, bind_eq, List.flatMap_cons, List.append_assoc]
    rw [run_bind_ok (item_run fo multi i hi hd _), ih]

/-- At the end of the stream the next read is an I/O error without a call, so that a loop over the geometries ends. -/
theorem C83_end (fo : FOps) (multi : Bool) (d : WkbDialect) : run multi (processWkbTypeGeom fo d) [] = ([], .error .io) := by
  cases d <;> rfl

/-- A stream that is cut anywhere: the geometries that are complete are all delivered, then a beginning of the calls for the one that is cut,
then an I/O error. -/
theorem C83_stream_cut (fo : FOps) (multi : Bool) (items : List StreamItem)
    (h : ∀ i ∈ items, i.Sound ∧ i.dialect ≠ .spatiaLite) (k : Nat) (hk : k < (items.flatMap (·.bytes)).length) :
    ∃ whole cut later pre, items = whole ++ cut :: later ∧ (whole.flatMap (·.bytes)).length ≤ k ∧
      k < ((whole ++ [cut]).flatMap (·.bytes)).length ∧ pre <+: cut.calls multi ∧
      run multi (readEach fo (items.map (·.dialect))) ((items.flatMap (·.bytes)).take k) = (whole.flatMap (·.calls multi) ++ pre, .error .io) := by
  induction items generalizing k with
  | nil => simp at hk
  | cons i items ih =>
    obtain ⟨hi, hd⟩ := h i (by simp)
    simp only [List.map_cons, readEach, bind_eq, List.flatMap_cons]
    by_cases hki : k < i.bytes.length
    · obtain ⟨used, hu, hr, hc⟩ := run_consumed multi (processWkbTypeGeom fo i.dialect) i.bytes
        (by have := item_run fo multi i hi hd []; rwa [List.append_nil] at this)
      rw [List.append_nil] at hu
      subst hu
      obtain ⟨pre, hp, hr⟩ := hc k hki
      refine ⟨[], i, items, pre, rfl, by simp, by simpa using hki, hp, ?_⟩
      rw [List.take_append_of_le_length (by omega), run_bind_err hr]
      rfl
    · obtain ⟨whole, cut, later, pre, h1, h2, h3, h4, h5⟩ := ih (fun j hj => h j (by simp [hj])) (k - i.bytes.length)
        (by simp only [List.flatMap_cons, List.length_append] at hk; omega)
      refine ⟨i :: whole, cut, later, pre, by rw [h1]; rfl, ?_, ?_, h4, ?_⟩
      · simp only [List.flatMap_cons, List.length_append]; omega
      · simp only [List.cons_append, List.flatMap_cons, List.length_append] at h3 ⊢; omega
      · rw [List.take_append, List.take_of_length_le (by omega), run_bind_ok (item_run fo multi i hi hd _), h5]
        simp

/-- C83 fails for SpatiaLite: the reader leaves the end marker of the first blob unread, so that the second read fails always, without a call. -/
theorem C83_spatialite_false (fo : FOps) (multi : Bool) (i : StreamItem) (hi : i.Sound) (hd : i.dialect = .spatiaLite) (more : List Byte) :
    run multi (readEach fo [.spatiaLite, .spatiaLite]) (i.bytes ++ more) = (i.calls multi, .error .geometryFormat) := by
  have h := (holds_read fo i.dialect i.z i.m i.srid i.geom i.bytes hi.1 hi.2).1 multi
  rw [if_pos hd, hd] at h
  simp only [readEach, bind_eq]
  rw [run_bind_ok (run_append multi _ i.bytes more h)]
  rw [run_bind_err (evs := []) (e := .geometryFormat) rfl]
  simp [StreamItem.calls]

/-- SpatiaLite blobs can be read one after the other if the stream is moved on by one byte after each. -/
theorem C83_spatialite_skipping_partial (fo : FOps) (multi : Bool) (items : List StreamItem) (rest : List Byte)
    (h : ∀ i ∈ items, i.Sound ∧ i.dialect = .spatiaLite) :
    run multi (readEachSkipping fo (items.map (·.dialect))) (items.flatMap (·.bytes) ++ rest) =
      (items.flatMap (·.calls multi), .ok ((), rest)) := by
  induction items with
  | nil => rfl
  | cons i items ih =>
    obtain ⟨hi, hd⟩ := h i (by simp)
    have ih := ih fun j hj => h j (by simp [hj])
    have h := (holds_read fo i.dialect i.z i.m i.srid i.geom i.bytes hi.1 hi.2).1 multi
    rw [if_pos hd] at h
    simp only [List.map_cons, readEachSkipping, bind_eq, List.flatMap_cons, List.append_assoc]
    rw [run_bind_ok (run_append multi _ i.bytes _ h)]
    show (_ ++ (run multi (readEachSkipping fo _) _).1, (run multi (readEachSkipping fo _) _).2) = _
    rw [show ([] : List Byte).append (items.flatMap (·.bytes) ++ rest) = items.flatMap (·.bytes) ++ rest from rfl, ih]
    rfl

private theorem written (fo : FOps) (d : Dims) (srid : Option Int) (env : List F64) (src : Prog Unit) (g : Geom)
    (hu : Delivers d.multi (src, []) g) (hf : g.Fits) (he : g.hasEmptyPoint = false) (hl : g.levels ≤ 128) :
    ∃ b, toWkbDialect src .wkb d srid env = .ok b ∧ ∀ multi rest, run multi (processWkbTypeGeom fo .wkb) (b ++ rest) =
      (.srid none :: (g.stored d).events multi 0, .ok ((), rest)) := by
  obtain ⟨ss, rest, hu⟩ := hu
  obtain ⟨w, h1, h2⟩ := C01_wkb_round_trip_stored fo d srid none env g hf he hl
  have h := interp_of_feed_ok_inv WkbWriter.proc d.multi (fun v => v.readDims = d)
    (fun v hv => by simp [WkbWriter.proc, hv]) (fun v e v' hv h => (WkbWriter.step_readDims h).trans hv) src
    (WkbWriter.withOpts .wkb d srid env) w rfl []
    (by rw [hu, feed_srids _ fun _ _ => rfl]; exact h1)
  refine ⟨w.out, ?_, h2⟩
  unfold toWkbDialect
  rw [h, hu]

/-- C83, written with one `WkbWriter` of the dialect WKB and dimensions `d`: geometries from any sources are all read back, in the dimensions
of the writer (`Geom.stored`, the geometry itself if it has these dimensions already, `Geom.stored_eq`). -/
theorem C83_one_writer (fo : FOps) (d : Dims) (srid : Option Int) (env : List F64) (gs : List (Prog Unit × Geom)) (multi : Bool)
    (h : ∀ s ∈ gs, Delivers d.multi (s.1, []) s.2 ∧ s.2.Fits ∧ s.2.hasEmptyPoint = false ∧ s.2.levels ≤ 128) :
    run multi (readEach fo (gs.map fun _ => .wkb)) (WkbWriter.proc.after (WkbWriter.withOpts .wkb d srid env) (gs.map fun s => (s.1, []))).out =
      (gs.flatMap fun s => .srid none :: (s.2.stored d).events multi 0, .ok ((), [])) := by
  have key : ∀ gs : List (Prog Unit × Geom),
      (∀ s ∈ gs, Delivers d.multi (s.1, []) s.2 ∧ s.2.Fits ∧ s.2.hasEmptyPoint = false ∧ s.2.levels ≤ 128) →
      ∃ ts : List (List Byte), (gs.map fun s => toWkbDialect s.1 .wkb d srid env) = ts.map .ok ∧
        run multi (readEach fo (gs.map fun _ => .wkb)) ts.flatten =
          (gs.flatMap fun s => .srid none :: (s.2.stored d).events multi 0, .ok ((), [])) := by
    intro gs
    induction gs with
    | nil => exact fun _ => ⟨[], rfl, rfl⟩
    | cons s gs ih =>
      intro h
      obtain ⟨ts, h1, h2⟩ := ih fun t ht => h t (by simp [ht])
      obtain ⟨hu, hf, he, hl⟩ := h s (by simp)
      obtain ⟨b, h3, h4⟩ := written fo d srid env s.1 s.2 hu hf he hl
      refine ⟨b :: ts, by simp only [List.map_cons, h1, h3], ?_⟩
      simp only [List.map_cons, readEach, bind_eq, List.flatMap_cons, List.flatten_cons]
      rw [run_bind_ok (h4 multi _), h2]
  obtain ⟨ts, h1, h2⟩ := key gs h
  have := C82_wkb d srid env (gs.map (·.1)) (fun s hs => by
    obtain ⟨t, ht, rfl⟩ := List.mem_map.mp hs
    obtain ⟨hu, hf, he, -⟩ := h t ht
    exact ⟨t.2, hu, hf, he⟩) ts (by rw [← h1, List.map_map]; rfl)
  rw [List.map_map] at this
  rw [← h2, ← this]
  rfl

/-- With one `WkbWriter` of the dialect EWKB the second geometry is read back without its SRID. -/
theorem C83_one_ewkb_writer_false (fo : FOps) :
    let point : Use := (geoProcessGeom (.point ⟨1#64, 2#64⟩), [])
    run false (readEach fo [.ewkb, .ewkb]) (WkbWriter.proc.after (WkbWriter.withOpts .ewkb {} (some 4326) []) [point, point]).out =
      ([.srid (some 4326)] ++ (Geom.point ⟨1#64, 2#64, none, none⟩).events false 0 ++
       [.srid none] ++ (Geom.point ⟨1#64, 2#64, none, none⟩).events false 0, .ok ((), [])) := by
  rfl

/-- With one `WkbWriter` of the dialects GeoPackage and MySQL the second geometry cannot be read back at all. -/
theorem C83_one_header_writer_false (fo : FOps) (d : WkbDialect) (hd : d = .geopackage ∨ d = .mySQL) :
    let point : Use := (geoProcessGeom (.point ⟨1#64, 2#64⟩), [])
    run false (readEach fo [d, d]) (WkbWriter.proc.after (WkbWriter.withOpts d {} (some 4326) []) [point, point]).out =
      ([.srid (some 4326)] ++ (Geom.point ⟨1#64, 2#64, none, none⟩).events false 0, .error .geometryFormat) := by
  rcases hd with rfl | rfl <;> rfl

/-! ### non-vacuity -/

private def ewkbItem : StreamItem :=
  ⟨.ewkb, false, false, some 4326, .point ⟨0#64, 0#64, none, none⟩,
    [1] ++ encU32 .le 0x20000001 ++ encI32 .le 4326 ++ List.replicate 16 0⟩

private def wkbItem : StreamItem :=
  ⟨.wkb, false, false, none, .lineString [], [0] ++ encU32 .be 2 ++ encU32 .be 0⟩

private theorem sound : ∀ i ∈ [ewkbItem, wkbItem, ewkbItem], i.Sound ∧ i.dialect ≠ .spatiaLite := by
  have h1 : ewkbItem.Sound := by
    refine ⟨⟨?_, .le, ?_, List.replicate 16 0, ?_, ?_⟩, by decide⟩
    · intro s hs
      cases hs
      decide
    · simp [ewkbItem, Spec.AllCoords, Spec.HasDims]
    · exact ⟨by decide, by decide⟩
    · decide
  have h2 : wkbItem.Sound := by
    refine ⟨⟨rfl, .be, by simp [wkbItem, Spec.AllCoords], [0] ++ encU32 .be 2, encU32 .be 0, rfl, rfl, ?_⟩, by decide⟩
    exact ⟨by decide, [], rfl, rfl⟩
  intro i hi
  simp only [List.mem_cons, List.not_mem_nil, or_false] at hi
  rcases hi with rfl | rfl | rfl
  · exact ⟨h1, by decide⟩
  · exact ⟨h2, by decide⟩
  · exact ⟨h1, by decide⟩

example (fo : FOps) (multi : Bool) :
    run multi (readEach fo [.ewkb, .wkb, .ewkb]) (ewkbItem.bytes ++ wkbItem.bytes ++ ewkbItem.bytes ++ [7]) =
      (ewkbItem.calls multi ++ wkbItem.calls multi ++ ewkbItem.calls multi, .ok ((), [7])) := by
  show run multi (readEach fo [ewkbItem.dialect, wkbItem.dialect, ewkbItem.dialect]) _ = _
  simpa using C83_stream fo multi [ewkbItem, wkbItem, ewkbItem] [7] sound

example : 30 < ([ewkbItem, wkbItem, ewkbItem].flatMap (·.bytes)).length := by decide

example : (⟨.spatiaLite, false, false, some 4326, .point ⟨0#64, 0#64, none, none⟩, slPointBlob⟩ : StreamItem).Sound :=
  ⟨slPointBlob_holds, by decide⟩

example (d : Dims) (srid : Option Int) (env : List F64) (fo : FOps) (multi : Bool) : ∃ evs,
    run multi (readEach fo [.wkb, .wkb]) (WkbWriter.proc.after (WkbWriter.withOpts .wkb d srid env)
      [(geoProcessGeom (.point ⟨1#64, 2#64⟩), []), (geoProcessGeom (.point ⟨3#64, 4#64⟩), [])]).out = (evs, .ok ((), [])) :=
  ⟨_, C83_one_writer fo d srid env [(geoProcessGeom (.point ⟨1#64, 2#64⟩), .point ⟨1#64, 2#64, none, none⟩),
    (geoProcessGeom (.point ⟨3#64, 4#64⟩), .point ⟨3#64, 4#64, none, none⟩)] multi (by
      intro s hs
      simp only [List.mem_cons, List.not_mem_nil, or_false] at hs
      rcases hs with rfl | rfl <;>
        exact ⟨⟨[], [], by cases d.multi <;> rfl⟩, by simp [Geom.Fits, Geom.Lens], rfl, by decide⟩)⟩

end Geozero
