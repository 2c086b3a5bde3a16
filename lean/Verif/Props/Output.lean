import Verif.Lemmas.OutputWriters
import Verif.Props.GeoFeature
import Verif.Lemmas.Mvt
import Verif.Spec.Shp
import Verif.Model.Gpx

/-
C69: A refused write is reported, and what was written is the beginning of the output.
-/

namespace Geozero
open Spec Out

/-! ### sources -/

theorem FProg.NoOk.propagates {α : Type} {p : FProg α} (h : p.NoOk) : Propagates p := by
  induction p with
  | ret a => trivial
  | fail e => trivial
  | read k ih => exact fun b => ih b (h b)
  | emit e k ih => exact ih h
  | emitOk e k ih => exact h.elim
  | prop i n v k ih => exact fun b => ih b (h b)
  | ask k ih => exact fun b d => ih b d (h b d)

theorem noOk_gjFeature (i : Nat) (f : GjFeature) : (gjSingleFeature i f).NoOk :=
  .bind (.call _) fun _ => .bind (by
    split
    · exact .bind (.call _) fun _ => .bind (noOk_gjProps _) fun _ => .bind (noOk_gjGeometry _ _) fun _ => .call _
    · trivial) fun _ => .call _

theorem noOk_geojson : (v : GeoJsonValue) → (processGeoJson v).NoOk
  | .featureCollection fs => noOk_gjCollection fs
  | .feature f => noOk_gjFeature 0 f
  | .geometry _ => .lift _

theorem noOk_shpCoord (coords : List XY) (zs ms : List F64) (a b c : Bool) (i j : Nat) :
    (shpCoord coords zs ms a b c i j).NoOk := by
  unfold shpCoord
  split
  · trivial
  · split
    · split <;> first | trivial | exact .call _
    · exact .call _

theorem noOk_shpPart (coords : List XY) (zs ms : List F64) (a b c : Bool) (i : Nat) (w : Nat × Nat) :
    (shpPart coords zs ms a b c i w).NoOk := by
  unfold shpPart
  split
  · trivial
  · exact .bind (.call _) fun _ => .bind (.forIdx (fun _ _ => noOk_shpCoord _ _ _ _ _ _ _ _) _ _) fun _ => .call _

theorem noOk_shape (ar : ShpArith) (s : ShpShape) : (s.process ar).NoOk := by
  cases s with
  | null => trivial
  | patch => trivial
  | point x y z m =>
    refine .bind (.call _) fun _ => .bind (fun b d => ?_) fun _ => .call _
    cases b <;> exact .call _
  | multipoint cs zs ms =>
    intro b d
    exact .bind (.call _) fun _ => .bind (.forIdx (fun _ _ => noOk_shpCoord _ _ _ _ _ _ _ _) _ _) fun _ => .call _
  | multipart p pi cs zs ms =>
    intro b d
    cases p with
    | true =>
      simp only [if_true]
      split
      · trivial
      · exact .bind (.call _) fun _ => .bind (.forIdx (fun _ _ => .bind (.call _) fun _ =>
          .bind (.forIdx (fun _ _ => noOk_shpPart _ _ _ _ _ _ _ _) _ _) fun _ => .call _) _ _) fun _ => .call _
    | false =>
      exact .bind (.call _) fun _ => .bind (.forIdx (fun _ _ => noOk_shpPart _ _ _ _ _ _ _ _) _ _) fun _ => .call _

theorem noOk_shapes (ar : ShpArith) (len n pos : Nat) : (shapesLoop ar len n pos).NoOk := by
  induction n generalizing pos with
  | zero => trivial
  | succ n ih =>
    refine .bind ?_ fun r => ?_
    · unfold shapeNext
      split
      · trivial
      · exact .bind (.bind (.lift _) fun r => .bind (noOk_shape ar _) fun _ => trivial) fun _ =>
          .bind (.lift _) fun _ => trivial
    · cases r with
      | none => trivial
      | some pos => exact ih pos

/-- The sources that drop no error: every source of a geometry (WKB, WKT, geo-types, GEOS, GDAL, ...), GeoJSON, lines of
GeoJSON, CSV, GPX, the layers of vector tiles, the shapes of a shapefile. -/
theorem C69_sources :
    (∀ (α : Type) (p : Prog α), Propagates (FProg.lift p)) ∧
    (∀ v, Propagates (readGeoJson v)) ∧
    (∀ fs, Propagates (readGeoJsonFc fs)) ∧
    (∀ lines, Propagates (readGeoJsonLines lines)) ∧
    (∀ parse dec column text, Propagates (readCsv parse dec column text)) ∧
    (∀ parsed, Propagates (gpxProcess parsed)) ∧
    (∀ l, Propagates (mvtProcess l)) ∧
    (∀ ar, Propagates (shpGeometries ar)) := by
  refine ⟨fun α p => (FProg.NoOk.lift p).propagates, fun v => ?_, fun fs => ?_, fun l => (noOk_gjLines l).propagates,
    fun parse dec column text => (noOk_csv _ _ _ _).propagates, fun p => (FProg.NoOk.lift _).propagates,
    fun l => (noOk_mvtProcess l).propagates, fun ar => ?_⟩
  · cases v with
    | error e => trivial
    | ok v => exact (noOk_geojson v).propagates
  · refine (FProg.NoOk.forIdx (fun i f => ?_) 0 fs).propagates
    cases f with
    | error e => trivial
    | ok f => exact noOk_gjFeature i f
  · exact (FProg.NoOk.bind (.lift _) fun _ => .bind (.lift _) fun _ => noOk_shapes ar _ _ _).propagates

/-! ### writers -/

theorem Out.Refines.faithful {γ σ α : Type} {o : Out γ σ} {P : FProc σ} {out : σ → γ} (R : o.Refines P out)
    (p : FProg α) (hp : Propagates p) (s : σ) (h0 : o.enc (out s) = []) (bs : List Byte) :
    Faithful (o.convert p s bs) (FProg.interp P p s bs).2.2 (o.enc (out (FProg.interp P p s bs).1)) := by
  obtain ⟨ps, h1, h2⟩ := reports R p hp s h0 bs
  refine ⟨ps, h2, h2.complete, ?_, h1⟩
  rw [h2 _ Output.vec [], Output.offer_vec]
  rfl

/-- GeoJSON: whatever the source (that drops no errors) and the output -/
theorem C69_geojson (fmt : Fmt) {α : Type} (src : FProg α) (hp : Propagates src) (w : GeoJsonWriter) (h0 : w.out = [])
    (bs : List Byte) :
    Faithful ((GeoJsonWriter.output fmt).convert src w bs) (FProg.interp (GeoJsonWriter.proc fmt) src w bs).2.2
      (utf8Bytes (FProg.interp (GeoJsonWriter.proc fmt) src w bs).1.out) :=
  (GeoJsonWriter.refines fmt).faithful src hp w (by show utf8Bytes w.out = []; rw [h0]; rfl) bs

/-- lines of GeoJSON -/
theorem C69_geojson_lines (fmt : Fmt) {α : Type} (src : FProg α) (hp : Propagates src) (w : GeoJsonLineWriter)
    (h0 : w.inner.out = []) (bs : List Byte) :
    Faithful ((GeoJsonLineWriter.output fmt).convert src w bs) (FProg.interp (GeoJsonLineWriter.proc fmt) src w bs).2.2
      (utf8Bytes (FProg.interp (GeoJsonLineWriter.proc fmt) src w bs).1.inner.out) :=
  (GeoJsonLineWriter.refines fmt).faithful src hp w (by show utf8Bytes w.inner.out = []; rw [h0]; rfl) bs

/-- WKT and EWKT -/
theorem C69_wkt (num : F64 → Text) {α : Type} (src : FProg α) (hp : Propagates src) (w : WktWriter) (h0 : w.out = [])
    (bs : List Byte) :
    Faithful ((WktWriter.output num).convert src w bs) (FProg.interp (wktFProc num) src w bs).2.2
      (utf8Bytes (FProg.interp (wktFProc num) src w bs).1.out) :=
  (WktWriter.refines num).faithful src hp w (by show utf8Bytes w.out = []; rw [h0]; rfl) bs

/-- SVG -/
theorem C69_svg (fo : SvgNum) {α : Type} (src : FProg α) (hp : Propagates src) (w : SvgWriter) (h0 : w.out = [])
    (bs : List Byte) :
    Faithful ((SvgWriter.output fo).convert src w bs) (FProg.interp (SvgWriter.proc fo) src w bs).2.2
      (utf8Bytes (FProg.interp (SvgWriter.proc fo) src w bs).1.out) :=
  (SvgWriter.refines fo).faithful src hp w (by show utf8Bytes w.out = []; rw [h0]; rfl) bs

theorem interp_lift_wkb {α : Type} (p : Prog α) (w : WkbWriter) (bs : List Byte) :
    (FProg.interp WkbWriter.fproc (FProg.lift p) w bs).1 = (Prog.interp WkbWriter.proc p w bs).1 ∧
    (FProg.interp WkbWriter.fproc (FProg.lift p) w bs).2.2 = (Prog.interp WkbWriter.proc p w bs).2.2 := by
  induction p generalizing w bs with
  | ret a => exact ⟨rfl, rfl⟩
  | fail e => exact ⟨rfl, rfl⟩
  | read k ih =>
    cases bs with
    | nil => exact ⟨rfl, rfl⟩
    | cons b bs => exact ih b w bs
  | emit e k ih =>
    simp only [FProg.lift, FProg.interp, Prog.interp, WkbWriter.fproc, WkbWriter.proc]
    cases WkbWriter.step w e with
    | error x => exact ⟨rfl, rfl⟩
    | ok w' => exact ih w' bs
  | askMulti k ih => exact ih _ w bs

/-- WKB in any of its dialects, from any source of a geometry -/
theorem C69_wkb {α : Type} (src : Prog α) (w : WkbWriter) (h0 : w.out = []) (bs : List Byte) :
    Faithful (WkbWriter.output.convert (FProg.lift src) w bs) (Prog.interp WkbWriter.proc src w bs).2.2
      (Prog.interp WkbWriter.proc src w bs).1.out := by
  obtain ⟨h1, h2⟩ := interp_lift_wkb src w bs
  rw [← h1, ← h2]
  exact WkbWriter.refines.faithful _ (FProg.NoOk.lift src).propagates w h0 bs

/-- an output with room for `n` bytes holds what it takes, and so does a `Vec<u8>`, so `Complete` speaks of them -/
example (n : Nat) : (Output.room n).Holds id := by
  intro d p; simp only [Output.room]; split <;> simp
example : Output.vec.Holds id := fun _ _ => rfl

/-- a point written to an output with room for 10 bytes -/
example : (WkbWriter.output.convert (FProg.lift (geoProcessGeom (.point ⟨0#64, 0#64⟩))) (WkbWriter.new .wkb) []
    (Output.room 10) []) = ([1, 1, 0, 0, 0, 0, 0, 0, 0, 0], .error .io) := rfl

/-! ### shapefiles -/

/-- Reading the features of a shapefile drops the errors of most calls (`.ok()`): on an output that refuses everything,
the conversion of a file without records to GeoJSON reports success. -/
theorem C69_shapefile_false : ∃ (file : List Byte) (ar : ShpArith) (fmt : Fmt) (v : Unit × List Byte),
    (GeoJsonWriter.output fmt).convert (shpFeatures ar []) {} file (Output.room 0) [] = ([], .ok v) ∧
    ((GeoJsonWriter.output fmt).convert (shpFeatures ar []) {} file Output.vec []).1 ≠ [] :=
  ⟨EsriHeader 50 1000 1 (List.replicate 20 0) (List.replicate 8 F64.zero), ⟨fun a _ => a, fun a _ => a, fun a _ => a, id, F64.zero⟩,
    ⟨fun _ => [], fun _ => []⟩, ((), []), rfl, by decide +kernel⟩

/-! ### buffers -/

theorem flushBuf_content {δ : Type} {O : Output δ} {content : δ → List Byte} (h : O.Holds content) (d : δ) (buf : List Byte) :
    content (flushBuf O d buf).1 ++ (flushBuf O d buf).2.1 = content d ++ buf ∧
    (∃ w, w <+: buf ∧ content (flushBuf O d buf).1 = content d ++ w) ∧
    ((flushBuf O d buf).2.2 = true → content (flushBuf O d buf).1 = content d ++ buf ∧ (flushBuf O d buf).2.1 = []) := by
  unfold flushBuf
  by_cases hb : buf = []
  · simp [hb]
  · simp only [if_neg hb]
    have := h d buf
    rcases hw : O.write d buf with ⟨d', _ | k⟩
    · rw [hw] at this; simp only at this; simp [this]
    · rw [hw] at this
      simp only at this
      simp only [this, List.append_assoc, List.take_append_drop, true_and]
      exact ⟨⟨_, List.take_prefix k buf, rfl⟩, by simp⟩

/-- a `BufWriter` holds what its output holds and what is in its buffer -/
theorem buffered_holds {δ : Type} (cap : Nat) {O : Output δ} {content : δ → List Byte} (h : O.Holds content) :
    (buffered cap O).Holds fun st => content st.1 ++ st.2 := by
  intro st p
  simp only [buffered]
  by_cases h1 : st.2.length + p.length < cap
  · simp [if_pos h1]
  · simp only [if_neg h1]
    by_cases h2 : st.2.length + p.length > cap
    · simp only [if_pos h2]
      obtain ⟨f1, -, f3⟩ := flushBuf_content h st.1 st.2
      rcases hf : flushBuf O st.1 st.2 with ⟨d, buf, _ | _⟩
      · rw [hf] at f1; simpa using f1
      · rw [hf] at f1 f3
        obtain ⟨g1, g2⟩ := f3 rfl
        simp only at g1 g2
        subst g2
        by_cases h3 : cap ≤ p.length
        · simp only [if_pos h3, List.append_nil, h d p, g1]
        · simp only [if_neg h3, g1]; simp
    · simp only [if_neg h2]
      by_cases h3 : cap ≤ p.length
      · have : st.2 = [] := List.length_eq_zero_iff.mp (by omega)
        simp only [if_pos h3, this, List.append_nil, h st.1 p]
      · simp only [if_neg h3]; simp

theorem flushBuf_length {δ : Type} (O : Output δ) (d : δ) (buf : List Byte) :
    (flushBuf O d buf).2.1.length ≤ buf.length ∧ ((flushBuf O d buf).2.2 = true → (flushBuf O d buf).2.1 = []) := by
  unfold flushBuf
  by_cases hb : buf = []
  · simp [hb]
  · simp only [if_neg hb]
    rcases O.write d buf with ⟨d', _ | k⟩ <;> simp

/-- what the output behind a `BufWriter` holds only grows -/
theorem buffered_grows {δ : Type} (cap : Nat) {O : Output δ} {content : δ → List Byte} (h : O.Holds content)
    (ps : List (List Byte)) (st : δ × List Byte) :
    ∃ x, content ((buffered cap O).offer st ps).1.1 = content st.1 ++ x := by
  have wr : ∀ (st : δ × List Byte) (p : List Byte), ∃ x, content ((buffered cap O).write st p).1.1 = content st.1 ++ x := by
    intro st p
    simp only [buffered]
    by_cases h1 : st.2.length + p.length < cap
    · exact ⟨[], by simp [if_pos h1]⟩
    · simp only [if_neg h1]
      by_cases h2 : st.2.length + p.length > cap
      · simp only [if_pos h2]
        obtain ⟨-, ⟨w, -, f2⟩, -⟩ := flushBuf_content h st.1 st.2
        rcases hf : flushBuf O st.1 st.2 with ⟨d, buf, _ | _⟩
        · rw [hf] at f2; exact ⟨w, f2⟩
        · rw [hf] at f2
          simp only at f2
          by_cases h3 : cap ≤ p.length
          · simp only [if_pos h3, h d p, f2, List.append_assoc]; exact ⟨_, rfl⟩
          · simp only [if_neg h3, f2]; exact ⟨w, rfl⟩
      · simp only [if_neg h2]
        by_cases h3 : cap ≤ p.length
        · simp only [if_pos h3, h st.1 p]; exact ⟨_, rfl⟩
        · simp only [if_neg h3]; exact ⟨[], by simp⟩
  induction ps generalizing st with
  | nil => exact ⟨[], by simp [Output.offer]⟩
  | cons p ps ih =>
    simp only [Output.offer]
    by_cases hp : p = []
    · simp only [if_pos hp]; exact ih st
    · simp only [if_neg hp]
      obtain ⟨x, hx⟩ := wr st p
      rcases hw : (buffered cap O).write st p with ⟨st', _ | k⟩
      · rw [hw] at hx
        obtain ⟨y, hy⟩ := ih st'
        exact ⟨x ++ y, by rw [hy, hx, List.append_assoc]⟩
      · rw [hw] at hx; exact ⟨x, hx⟩

/-- the buffer never outgrows its capacity -/
theorem buffered_length {δ : Type} (cap : Nat) (O : Output δ) (ps : List (List Byte)) (st : δ × List Byte)
    (h : st.2.length ≤ cap) : ((buffered cap O).offer st ps).1.2.length ≤ cap := by
  have wr : ∀ (st : δ × List Byte) (p : List Byte), st.2.length ≤ cap → ((buffered cap O).write st p).1.2.length ≤ cap := by
    intro st p h
    simp only [buffered]
    by_cases h1 : st.2.length + p.length < cap
    · simp only [if_pos h1, List.length_append]; omega
    · simp only [if_neg h1]
      obtain ⟨f1, f2⟩ := flushBuf_length O st.1 st.2
      by_cases h2 : st.2.length + p.length > cap
      · simp only [if_pos h2]
        rcases hf : flushBuf O st.1 st.2 with ⟨d, buf, _ | _⟩
        · rw [hf] at f1; simp only at f1 ⊢; omega
        · rw [hf] at f1 f2
          have g := f2 rfl
          simp only at g
          subst g
          by_cases h3 : cap ≤ p.length
          · simp [if_pos h3]
          · simp only [if_neg h3, List.nil_append]; omega
      · simp only [if_neg h2]
        by_cases h3 : cap ≤ p.length
        · simp only [if_pos h3]; omega
        · simp only [if_neg h3, List.length_append]; omega
  induction ps generalizing st with
  | nil => exact h
  | cons p ps ih =>
    simp only [Output.offer]
    by_cases hp : p = []
    · simp only [if_pos hp]; exact ih st h
    · simp only [if_neg hp]
      have := wr st p h
      rcases hw : (buffered cap O).write st p with ⟨st', _ | k⟩
      · rw [hw] at this; exact ih st' this
      · rw [hw] at this; exact this

/-- pieces that fit in the buffer are taken without asking the output -/
theorem buffered_small {δ : Type} (cap : Nat) (O : Output δ) (ps : List (List Byte)) (st : δ × List Byte)
    (h : st.2.length + ps.flatten.length < cap) : (buffered cap O).offer st ps = ((st.1, st.2 ++ ps.flatten), true) := by
  induction ps generalizing st with
  | nil => simp [Output.offer]
  | cons p ps ih =>
    simp only [List.flatten_cons, List.length_append] at h
    simp only [Output.offer]
    by_cases hp : p = []
    · simp only [if_pos hp, hp, List.flatten_cons, List.nil_append]; exact ih st (by omega)
    · simp only [if_neg hp]
      have : (buffered cap O).write st p = ((st.1, st.2 ++ p), none) := by
        simp only [buffered]; rw [if_pos (by omega)]
      rw [this]
      simp only
      rw [ih _ (by simp only [List.length_append]; omega)]
      simp

/-- The command writes through a `BufWriter` which is dropped without being flushed.  What the destination gets is still the
beginning of the output, and an error is reported if what is missing is more than the buffer holds; if the command reports
success and the destination takes the last write, everything is there. -/
theorem C69_buffered_partial {β : Type} {conv : {δ : Type} → Output δ → δ → δ × Except Err β} {outcome : Except Err β}
    {text : List Byte} (hc : Faithful conv outcome text) {δ : Type} (O : Output δ) {content : δ → List Byte}
    (hO : O.Holds content) (d : δ) :
    ((throughBuffer conv O d).2 = outcome ∨ (throughBuffer conv O d).2 = .error .io) ∧
    ∃ written missing, written ++ missing = (conv Output.vec []).1 ∧
      content (throughBuffer conv O d).1 = content d ++ written ∧
      (∀ v, (throughBuffer conv O d).2 = .ok v → written ++ missing = text ∧ missing.length ≤ 8192 ∧
        ((flushBuf O (conv (buffered 8192 O) (d, [])).1.1 (conv (buffered 8192 O) (d, [])).1.2).2.2 = true →
          missing = [])) := by
  obtain ⟨ps, h1, -, h3, h4⟩ := hc
  rw [h3]
  unfold throughBuffer
  simp only [h1 _ (buffered 8192 O) (d, [])]
  obtain ⟨w, g1, g2, g3⟩ := (buffered_holds 8192 hO).offer ps (d, [])
  have len := buffered_length 8192 O ps (d, []) (by simp)
  refine ⟨by cases ((buffered 8192 O).offer (d, []) ps).2 <;> simp, ?_⟩
  generalize hst : (buffered 8192 O).offer (d, []) ps = st at g2 g3 len ⊢
  obtain ⟨⟨d', buf⟩, ok⟩ := st
  simp only [List.append_nil] at g2 g3 len ⊢
  obtain ⟨-, ⟨u, f1, f2⟩, f3⟩ := flushBuf_content hO d' buf
  obtain ⟨x, hx⟩ := buffered_grows 8192 hO ps (d, [])
  rw [hst] at hx
  simp only at hx
  have hxw : x ++ buf = w := by
    rw [hx, List.append_assoc] at g2; exact List.append_cancel_left g2
  obtain ⟨y, rfl⟩ := f1
  obtain ⟨z, hz⟩ := g1
  refine ⟨x ++ u, y ++ z, ?_, ?_, ?_⟩
  · rw [← hz, ← hxw]; simp
  · show content (flushBuf O d' (u ++ y)).1 = _
    rw [f2, hx, List.append_assoc]
  · intro v hv
    cases ok with
    | false => simp at hv
    | true =>
      have hw := g3 rfl
      simp only [if_true] at hv
      have hz0 : z = [] := by
        have := congrArg List.length hz
        rw [hw] at this
        simpa using this
      subst hz0
      refine ⟨?_, by simp only [List.append_nil]; simp only [List.length_append] at len; omega, fun hf => ?_⟩
      · rw [← h4 v hv, ← hz, ← hxw]; simp
      · obtain ⟨k1, -⟩ := f3 hf
        rw [f2] at k1
        have := List.append_cancel_left k1
        simpa using this

theorem flushBuf_takes {δ : Type} {O : Output δ} {content : δ → List Byte} {T : List Byte}
    (hT : ∀ d p, content d ++ p <+: T → (O.write d p).2 = none) (d : δ) (buf : List Byte) (h : content d ++ buf <+: T) :
    (flushBuf O d buf).2.2 = true := by
  unfold flushBuf
  by_cases hb : buf = []
  · simp [hb]
  · simp only [if_neg hb]
    have := hT d buf h
    rcases hw : O.write d buf with ⟨d', _ | k⟩
    · rfl
    · rw [hw] at this; cases this

/-- a `BufWriter` in front of an output that has room for everything takes everything -/
theorem buffered_takes {δ : Type} (cap : Nat) {O : Output δ} {content : δ → List Byte} (hO : O.Holds content) {T : List Byte}
    (hT : ∀ d p, content d ++ p <+: T → (O.write d p).2 = none) (ps : List (List Byte)) (st : δ × List Byte)
    (h : content st.1 ++ st.2 ++ ps.flatten = T) : ((buffered cap O).offer st ps).2 = true := by
  have wr : ∀ (st : δ × List Byte) (p : List Byte), content st.1 ++ st.2 ++ p <+: T → ((buffered cap O).write st p).2 = none := by
    intro st p h
    have hpre : content st.1 ++ st.2 <+: T := (List.prefix_append _ p).trans h
    simp only [buffered]
    by_cases h1 : st.2.length + p.length < cap
    · simp [if_pos h1]
    · simp only [if_neg h1]
      by_cases h2 : st.2.length + p.length > cap
      · simp only [if_pos h2]
        have ft := flushBuf_takes hT st.1 st.2 hpre
        obtain ⟨-, -, f3⟩ := flushBuf_content hO st.1 st.2
        obtain ⟨g1, g2⟩ := f3 ft
        rcases hf : flushBuf O st.1 st.2 with ⟨d, buf, ok⟩
        rw [hf] at ft g1 g2
        simp only at ft g1 g2
        subst ft g2
        by_cases h3 : cap ≤ p.length
        · simp only [if_pos h3]; exact hT d p (by rw [g1]; exact h)
        · simp [if_neg h3]
      · simp only [if_neg h2]
        by_cases h3 : cap ≤ p.length
        · have h0 : st.2 = [] := List.length_eq_zero_iff.mp (by omega)
          simp only [if_pos h3]
          exact hT st.1 p (by rw [h0, List.append_nil] at h; exact h)
        · simp [if_neg h3]
  induction ps generalizing st with
  | nil => rfl
  | cons p ps ih =>
    simp only [Output.offer]
    by_cases hp : p = []
    · simp only [if_pos hp]; exact ih st (by simpa [hp] using h)
    · simp only [if_neg hp]
      have hw := wr st p ⟨ps.flatten, by rw [← h]; simp⟩
      have hh := buffered_holds cap hO st p
      rw [hw] at hh
      rcases hs : (buffered cap O).write st p with ⟨st', r⟩
      rw [hs] at hw hh
      simp only at hw hh
      subst hw
      exact ih st' (by rw [hh, ← h]; simp)

/-- On a destination that has room for everything the buffer changes nothing: the outcome is the same as in memory, and
everything is there, although the buffer is never flushed explicitly. -/
theorem C69_buffered_complete {β : Type} {conv : {δ : Type} → Output δ → δ → δ × Except Err β} {outcome : Except Err β}
    {text : List Byte} (hc : Faithful conv outcome text) {δ : Type} (O : Output δ) {content : δ → List Byte}
    (hO : O.Holds content) (d : δ)
    (hroom : ∀ d' p, content d' ++ p <+: content d ++ (conv Output.vec []).1 → (O.write d' p).2 = none) :
    (throughBuffer conv O d).2 = outcome ∧
    content (throughBuffer conv O d).1 = content d ++ (conv Output.vec []).1 ∧
    ∀ v, outcome = .ok v → content (throughBuffer conv O d).1 = content d ++ text := by
  obtain ⟨ps, h1, -, h3, h4⟩ := hc
  rw [h3] at hroom ⊢
  have ht := buffered_takes 8192 hO hroom ps (d, []) (by simp)
  obtain ⟨w, g1, g2, g3⟩ := (buffered_holds 8192 hO).offer ps (d, [])
  have hw := g3 ht
  subst hw
  have key : content (throughBuffer conv O d).1 = content d ++ ps.flatten := by
    unfold throughBuffer dropBuffered
    simp only [h1 _ (buffered 8192 O) (d, [])]
    simp only [List.append_nil] at g2
    obtain ⟨-, -, f3⟩ := flushBuf_content hO ((buffered 8192 O).offer (d, []) ps).1.1 ((buffered 8192 O).offer (d, []) ps).1.2
    rw [(f3 (flushBuf_takes hroom _ _ (by rw [g2]; exact List.prefix_refl _))).1, g2]
  refine ⟨?_, key, fun v hv => by rw [key, h4 v hv]⟩
  unfold throughBuffer
  simp only [h1 _ (buffered 8192 O) (d, []), ht, if_true]

/-- a disk with enough room is such a destination -/
example (n : Nat) (full : List Byte) (h : full.length ≤ n) :
    ∀ d' p, id d' ++ p <+: id [] ++ full → ((Output.room n).write d' p).2 = none := by
  intro d' p hp
  have := hp.length_le
  simp only [id, List.nil_append, List.length_append] at this
  simp only [Output.room]
  rw [if_pos (by omega)]

/-- In particular every output smaller than the buffer is reported as a success, even if the destination takes nothing. -/
theorem C69_buffered_small {β : Type} {conv : {δ : Type} → Output δ → δ → δ × Except Err β} {outcome : Except Err β}
    {text : List Byte} (hc : Faithful conv outcome text) (hs : (conv Output.vec []).1.length < 8192) {δ : Type}
    (O : Output δ) (d : δ) :
    (throughBuffer conv O d).2 = outcome ∧
    (throughBuffer conv O d).1 = (flushBuf O d (conv Output.vec []).1).1 := by
  obtain ⟨ps, h1, -, h3, -⟩ := hc
  rw [h3] at hs
  unfold throughBuffer
  simp only [h3, h1 _ (buffered 8192 O) (d, [])]
  rw [buffered_small 8192 O ps (d, []) (by simpa using hs)]
  exact ⟨rfl, rfl⟩

/-- converting a GeoJSON document to a file on a full disk: the command succeeds, the file is empty -/
theorem C69_cli_false : ∃ (fmt : Fmt) (doc : GeoJsonValue),
    (throughBuffer ((GeoJsonWriter.output fmt).convert (processGeoJson doc) {} []) (Output.room 0) []) = ([], .ok ((), [])) ∧
    ((GeoJsonWriter.output fmt).convert (processGeoJson doc) {} [] Output.vec []).1 ≠ [] := by
  refine ⟨⟨fun _ => [], fun _ => []⟩, .featureCollection [], ?_, by decide +kernel⟩
  rfl

/-! ### CSV -/

theorem sendChunks_holds {δ : Type} {O : Output δ} {content : δ → List Byte} (h : O.Holds content) (cs : List (List Byte))
    (d : δ) : (∃ w, content (sendChunks O d cs).1 = content d ++ w ∧ w <+: cs.flatten) ∧
      ((sendChunks O d cs).2 = none → content (sendChunks O d cs).1 = content d ++ cs.flatten) := by
  induction cs generalizing d with
  | nil => exact ⟨⟨[], by simp [sendChunks]⟩, fun _ => by simp [sendChunks]⟩
  | cons c cs ih =>
    simp only [sendChunks]
    by_cases hc : c = []
    · simp only [if_pos hc, hc, List.flatten_cons, List.nil_append]; exact ih d
    · simp only [if_neg hc]
      have := h d c
      rcases hw : O.write d c with ⟨d', _ | k⟩
      · rw [hw] at this
        simp only at this
        obtain ⟨⟨w, h1, h2⟩, h3⟩ := ih d'
        simp only [List.flatten_cons]
        refine ⟨⟨c ++ w, by rw [h1, this]; simp, (List.prefix_append_right_inj c).mpr h2⟩, fun hn => ?_⟩
        rw [h3 hn, this]; simp
      · rw [hw] at this
        simp only at this
        exact ⟨⟨_, this, by rw [List.flatten_cons]; exact (List.take_prefix k c).trans (List.prefix_append c _)⟩, by simp⟩

theorem csvBuffered_offer {δ : Type} (B : CsvBuf) {O : Output δ} {content : δ → List Byte} (h : O.Holds content)
    (ps : List (List Byte)) (st : δ × List Byte) (hok : ((csvBuffered B O).offer st ps).2 = true) :
    content ((csvBuffered B O).offer st ps).1.1 ++ ((csvBuffered B O).offer st ps).1.2 =
      content st.1 ++ st.2 ++ ps.flatten ∧ ∃ x, content ((csvBuffered B O).offer st ps).1.1 = content st.1 ++ x := by
  induction ps generalizing st with
  | nil => simp [Output.offer]
  | cons p ps ih =>
    simp only [Output.offer] at hok ⊢
    by_cases hp : p = []
    · simp only [if_pos hp, hp, List.flatten_cons, List.nil_append] at hok ⊢; exact ih st hok
    · simp only [if_neg hp] at hok ⊢
      obtain ⟨⟨w, s1, -⟩, s2⟩ := sendChunks_holds h (B.fill st.2 p).1 st.1
      cases hs : (sendChunks O st.1 (B.fill st.2 p).1).2 with
      | some c =>
        have : (csvBuffered B O).write st p = (((sendChunks O st.1 (B.fill st.2 p).1).1, c), some 0) := by
          simp only [csvBuffered]
          rw [show sendChunks O st.1 (B.fill st.2 p).1 = ((sendChunks O st.1 (B.fill st.2 p).1).1, some c) from
            Prod.ext rfl hs]
        rw [this] at hok
        simp at hok
      | none =>
        have : (csvBuffered B O).write st p = (((sendChunks O st.1 (B.fill st.2 p).1).1, (B.fill st.2 p).2), none) := by
          simp only [csvBuffered]
          rw [show sendChunks O st.1 (B.fill st.2 p).1 = ((sendChunks O st.1 (B.fill st.2 p).1).1, none) from
            Prod.ext rfl hs]
        rw [this] at hok ⊢
        simp only at hok ⊢
        obtain ⟨i1, y, i2⟩ := ih _ hok
        have e := B.exact st.2 p
        refine ⟨?_, w ++ y, by rw [i2, s1]; simp⟩
        rw [i1, s2 hs]
        simp only [List.append_assoc, List.flatten_cons]
        rw [← List.append_assoc _ _ ps.flatten, e]
        simp

theorem csvBuffered_small {δ : Type} (B : CsvBuf) (O : Output δ) (ps : List (List Byte)) (st : δ × List Byte)
    (h : st.2.length + ps.flatten.length ≤ 8192) : (csvBuffered B O).offer st ps = ((st.1, st.2 ++ ps.flatten), true) := by
  induction ps generalizing st with
  | nil => simp [Output.offer]
  | cons p ps ih =>
    simp only [List.flatten_cons, List.length_append] at h
    simp only [Output.offer]
    by_cases hp : p = []
    · simp only [if_pos hp, hp, List.flatten_cons, List.nil_append]; exact ih st (by omega)
    · simp only [if_neg hp]
      have : (csvBuffered B O).write st p = ((st.1, st.2 ++ p), none) := by
        simp only [csvBuffered, B.small st.2 p (by omega), sendChunks]
      rw [this]
      simp only
      rw [ih _ (by simp only [List.length_append]; omega)]
      simp

theorem CsvWriter.reports {α : Type} (fmt : Fmt) (enc : CsvEnc) (dims : Dims) (src : FProg α) (hp : Propagates src)
    (bs : List Byte) :
    Faithful ((CsvWriter.output fmt enc).convert src (CsvWriter.withDims dims, []) bs)
      (FProg.interp (CsvWriter.proc fmt) src (CsvWriter.withDims dims) bs).2.2
      (enc.text (FProg.interp (CsvWriter.proc fmt) src (CsvWriter.withDims dims) bs).1.rows
        (FProg.interp (CsvWriter.proc fmt) src (CsvWriter.withDims dims) bs).1.cur) := by
  have hf := (CsvWriter.sentRefines fmt enc).faithful src hp (CsvWriter.withDims dims, []) rfl bs
  obtain ⟨h1, h2, h3⟩ := (CsvWriter.sim fmt enc).interp src hp (CsvWriter.withDims dims, []) rfl bs
  simp only at h1 h3
  rw [h1, h3, ← h2]
  exact hf

/-- CSV: if the conversion succeeds, the output holds the beginning of the text; all of it if it takes the last write, which
happens when the writer is dropped. -/
theorem C69_csv_partial {α : Type} (fmt : Fmt) (enc : CsvEnc) (B : CsvBuf) (dims : Dims) (src : FProg α)
    (hp : Propagates src) (bs : List Byte) {δ : Type} (O : Output δ) {content : δ → List Byte} (hO : O.Holds content) (d : δ) :
    ((CsvWriter.convert fmt enc B dims src bs O d).2 =
        (FProg.interp (CsvWriter.proc fmt) src (CsvWriter.withDims dims) bs).2.2 ∨
      (CsvWriter.convert fmt enc B dims src bs O d).2 = .error .io) ∧
    ∀ v, (CsvWriter.convert fmt enc B dims src bs O d).2 = .ok v → ∃ written missing,
      written ++ missing = enc.text (FProg.interp (CsvWriter.proc fmt) src (CsvWriter.withDims dims) bs).1.rows
        (FProg.interp (CsvWriter.proc fmt) src (CsvWriter.withDims dims) bs).1.cur ∧
      content (CsvWriter.convert fmt enc B dims src bs O d).1 = content d ++ written ∧
      ((sendChunks O ((CsvWriter.output fmt enc).convert src (CsvWriter.withDims dims, []) bs (csvBuffered B O) (d, [])).1.1
        [((CsvWriter.output fmt enc).convert src (CsvWriter.withDims dims, []) bs (csvBuffered B O) (d, [])).1.2]).2 = none →
        missing = []) := by
  obtain ⟨ps, h1, -, -, h4⟩ := CsvWriter.reports fmt enc dims src hp bs
  unfold CsvWriter.convert
  simp only [h1 _ (csvBuffered B O) (d, [])]
  refine ⟨by cases ((csvBuffered B O).offer (d, []) ps).2 <;> simp, fun v hv => ?_⟩
  cases hok : ((csvBuffered B O).offer (d, []) ps).2 with
  | false => rw [hok] at hv; simp at hv
  | true =>
    rw [hok, if_pos rfl] at hv
    obtain ⟨g1, x, g2⟩ := csvBuffered_offer B hO ps (d, []) hok
    generalize hst : ((csvBuffered B O).offer (d, []) ps).1 = st at g1 g2 ⊢
    obtain ⟨d', buf⟩ := st
    simp only [List.append_nil] at g1 g2 ⊢
    obtain ⟨⟨u, s1, y, s3⟩, s2⟩ := sendChunks_holds hO [buf] d'
    simp only [List.flatten_cons, List.flatten_nil, List.append_nil] at s3 s2
    have hx : x ++ buf = ps.flatten := by
      rw [g2, List.append_assoc] at g1; exact List.append_cancel_left g1
    refine ⟨x ++ u, y, ?_, ?_, fun hn => ?_⟩
    · rw [← h4 v hv, ← hx, ← s3]; simp
    · show content (sendChunks O d' [buf]).1 = _
      rw [s1, g2, List.append_assoc]
    · have := s2 hn
      rw [s1] at this
      have hu := List.append_cancel_left this
      rw [← s3] at hu
      simpa using hu

theorem sendChunks_takes {δ : Type} {O : Output δ} {content : δ → List Byte} (hO : O.Holds content) {T : List Byte}
    (hT : ∀ d p, content d ++ p <+: T → (O.write d p).2 = none) (cs : List (List Byte)) (d : δ)
    (h : content d ++ cs.flatten <+: T) : (sendChunks O d cs).2 = none := by
  induction cs generalizing d with
  | nil => rfl
  | cons c cs ih =>
    simp only [sendChunks]
    by_cases hc : c = []
    · simp only [if_pos hc]; exact ih d (by simpa [hc] using h)
    · simp only [if_neg hc]
      rw [List.flatten_cons, ← List.append_assoc] at h
      have hw := hT d c ((List.prefix_append _ _).trans h)
      have hh := hO d c
      rw [hw] at hh
      rcases hs : O.write d c with ⟨d', r⟩
      rw [hs] at hw hh
      simp only at hw hh
      subst hw
      exact ih d' (by rw [hh]; exact h)

theorem csvBuffered_takes {δ : Type} (B : CsvBuf) {O : Output δ} {content : δ → List Byte} (hO : O.Holds content)
    {T : List Byte} (hT : ∀ d p, content d ++ p <+: T → (O.write d p).2 = none) (ps : List (List Byte)) (st : δ × List Byte)
    (h : content st.1 ++ st.2 ++ ps.flatten = T) : ((csvBuffered B O).offer st ps).2 = true := by
  induction ps generalizing st with
  | nil => rfl
  | cons p ps ih =>
    simp only [Output.offer]
    by_cases hp : p = []
    · simp only [if_pos hp]; exact ih st (by simpa [hp] using h)
    · simp only [if_neg hp]
      have e := B.exact st.2 p
      have e2 : content st.1 ++ (B.fill st.2 p).1.flatten ++ (B.fill st.2 p).2 ++ ps.flatten = T := by
        rw [← h, List.flatten_cons, List.append_assoc (content st.1), e]; simp
      have hs := sendChunks_takes hO hT (B.fill st.2 p).1 st.1 ⟨(B.fill st.2 p).2 ++ ps.flatten, by rw [← e2]; simp⟩
      have hh := (sendChunks_holds hO (B.fill st.2 p).1 st.1).2 hs
      have : (csvBuffered B O).write st p = (((sendChunks O st.1 (B.fill st.2 p).1).1, (B.fill st.2 p).2), none) := by
        simp only [csvBuffered]
        rw [show sendChunks O st.1 (B.fill st.2 p).1 = ((sendChunks O st.1 (B.fill st.2 p).1).1, none) from
          Prod.ext rfl hs]
      rw [this]
      exact ih _ (by simp only [hh]; exact e2)

/-- CSV on an output that has room for everything: the outcome is the same as in memory, and everything is there. -/
theorem C69_csv_complete {α : Type} (fmt : Fmt) (enc : CsvEnc) (B : CsvBuf) (dims : Dims) (src : FProg α)
    (hp : Propagates src) (bs : List Byte) (v : α × List Byte)
    (hv : (FProg.interp (CsvWriter.proc fmt) src (CsvWriter.withDims dims) bs).2.2 = .ok v)
    {δ : Type} (O : Output δ) {content : δ → List Byte} (hO : O.Holds content) (d : δ)
    (hroom : ∀ d' p, content d' ++ p <+: content d ++
        enc.text (FProg.interp (CsvWriter.proc fmt) src (CsvWriter.withDims dims) bs).1.rows
          (FProg.interp (CsvWriter.proc fmt) src (CsvWriter.withDims dims) bs).1.cur → (O.write d' p).2 = none) :
    (CsvWriter.convert fmt enc B dims src bs O d).2 = .ok v ∧
    content (CsvWriter.convert fmt enc B dims src bs O d).1 = content d ++
      enc.text (FProg.interp (CsvWriter.proc fmt) src (CsvWriter.withDims dims) bs).1.rows
        (FProg.interp (CsvWriter.proc fmt) src (CsvWriter.withDims dims) bs).1.cur := by
  obtain ⟨ps, h1, -, -, h4⟩ := CsvWriter.reports fmt enc dims src hp bs
  rw [← h4 v hv] at hroom ⊢
  have ht := csvBuffered_takes B hO hroom ps (d, []) (by simp)
  obtain ⟨g1, -⟩ := csvBuffered_offer B hO ps (d, []) ht
  simp only [List.append_nil] at g1
  unfold CsvWriter.convert
  simp only [h1 _ (csvBuffered B O) (d, []), ht, if_true]
  refine ⟨hv, ?_⟩
  have := (sendChunks_holds hO [((csvBuffered B O).offer (d, []) ps).1.2] ((csvBuffered B O).offer (d, []) ps).1.1).2
    (sendChunks_takes hO hroom _ _ (by simp [g1]))
  simp only [dropCsv]
  rw [this]
  simpa using g1

/-- Every CSV output that fits in the buffer of `csv::Writer` is reported as a success, even if the output takes nothing:
the only write happens when the writer is dropped, and its error is dropped, too. -/
theorem C69_csv_small {α : Type} (fmt : Fmt) (enc : CsvEnc) (B : CsvBuf) (dims : Dims) (src : FProg α)
    (hp : Propagates src) (bs : List Byte) (v : α × List Byte)
    (hv : (FProg.interp (CsvWriter.proc fmt) src (CsvWriter.withDims dims) bs).2.2 = .ok v)
    (hs : (enc.text (FProg.interp (CsvWriter.proc fmt) src (CsvWriter.withDims dims) bs).1.rows
        (FProg.interp (CsvWriter.proc fmt) src (CsvWriter.withDims dims) bs).1.cur).length ≤ 8192)
    {δ : Type} (O : Output δ) (d : δ) :
    (CsvWriter.convert fmt enc B dims src bs O d).2 = .ok v ∧
    (CsvWriter.convert fmt enc B dims src bs O d).1 = (sendChunks O d
      [enc.text (FProg.interp (CsvWriter.proc fmt) src (CsvWriter.withDims dims) bs).1.rows
        (FProg.interp (CsvWriter.proc fmt) src (CsvWriter.withDims dims) bs).1.cur]).1 := by
  obtain ⟨ps, h1, -, -, h4⟩ := CsvWriter.reports fmt enc dims src hp bs
  rw [← h4 v hv] at hs ⊢
  unfold CsvWriter.convert
  simp only [h1 _ (csvBuffered B O) (d, [])]
  rw [csvBuffered_small B O ps (d, []) (by simpa using hs)]
  exact ⟨hv, rfl⟩

/-- an encoding: fields separated by commas, records ended by line breaks (the quotes of the real one are left out) -/
def plainCsv : CsvEnc where
  field before f := (if before = [] then [] else [0x2C]) ++ utf8Bytes f
  stop _ := [0x0A]

/-- a buffer: everything is written as soon as something does not fit -/
def plainBuf : CsvBuf where
  fill b p := if b.length + p.length ≤ 8192 then ([], b ++ p) else ([b ++ p], [])
  exact b p := by split <;> simp
  small b p h := by rw [if_pos h]

/-- one point with one property, as CSV, on a full disk: success, and nothing is written -/
theorem C69_csv_false : ∃ (fmt : Fmt) (src : FProg Unit), Propagates src ∧
    (CsvWriter.convert fmt plainCsv plainBuf {} src [] (Output.room 0) []) = ([], .ok ((), [])) ∧
    (CsvWriter.convert fmt plainCsv plainBuf {} src [] Output.vec []).1 =
      utf8Bytes (txt "geometry,name\nPOINT(0 0),A\n") := by
  refine ⟨⟨fun _ => txt "0", fun _ => txt "0"⟩, featureProcess (.prop 0 (txt "name") (.string (txt "A")) fun b => .ret b)
    (geoProcessGeom (.point ⟨0#64, 0#64⟩)) 0, ?_, rfl, by decide +kernel⟩
  exact (FProg.NoOk.bind (.call _) fun _ => .bind (.call _) fun _ => .bind
    (show FProg.NoOk (FProg.prop 0 _ _ fun b => FProg.ret b) from fun _ => trivial) fun _ => .bind (.call _) fun _ => .bind (.call _) fun _ => .bind (.lift _) fun _ => .bind (.call _) fun _ => .call _).propagates

end Geozero
