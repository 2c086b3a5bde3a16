import Verif.Spec.ToCsv
import Verif.Props.Csv
import Verif.Props.Output
import Verif.Props.ShpConv

/-
C84: converting vector tile layers, GeoJSON collections and newline-delimited GeoJSON to CSV.  The conversion gives the table of
the features exactly if they make one table; otherwise it fails.
-/

namespace Geozero
open Spec

/-- the attributes with their positions, without the null ones -/
private def numbered : Nat → List (Text × Option ColVal) → List PropRec
  | _, [] => []
  | i, (n, some v) :: ps => (i, n, v) :: numbered (i + 1) ps
  | i, (_, none) :: ps => numbered (i + 1) ps

private theorem numbered_values (ps : List (Text × Option ColVal)) (i : Nat) :
    (numbered i ps).map Prod.snd = ps.filterMap fun p => p.2.map fun v => (p.1, v) := by
  induction ps generalizing i with
  | nil => rfl
  | cons p ps ih => obtain ⟨n, _ | v⟩ := p <;> simp [numbered, ih]

private theorem numbered_ge (ps : List (Text × Option ColVal)) (i : Nat) : ∀ q ∈ numbered i ps, i ≤ q.1 := by
  induction ps generalizing i with
  | nil => intro q hq; simp [numbered] at hq
  | cons p ps ih =>
    intro q hq
    obtain ⟨n, _ | v⟩ := p
    · have := ih (i + 1) q hq; omega
    · rcases List.mem_cons.1 hq with rfl | hq
      · exact Nat.le_refl _
      · have := ih (i + 1) q hq; omega

private theorem numbered_increasing (ps : List (Text × Option ColVal)) (i : Nat) : Increasing (numbered i ps) := by
  induction ps generalizing i with
  | nil => exact .nil
  | cons p ps ih =>
    obtain ⟨n, _ | v⟩ := p
    · exact ih (i + 1)
    · exact .cons (fun q hq => numbered_ge ps (i + 1) q hq) (ih (i + 1))

private theorem numbered_fills (vs : List (Text × ColVal)) (nulls : List Text) (i : Nat) :
    numbered i (vs.map (fun p => (p.1, some p.2)) ++ nulls.map fun n => (n, none)) = enumFrom i vs := by
  induction vs generalizing i with
  | nil =>
    show numbered i (nulls.map fun n => (n, none)) = []
    induction nulls generalizing i with
    | nil => rfl
    | cons n ns ih => exact ih (i + 1)
  | cons v vs ih => simp [numbered, enumFrom, ih]

/-- without gaps between the positions, only the attributes at the end are null -/
private theorem fills_of_numbered (ps : List (Text × Option ColVal)) (i : Nat)
    (h : numbered i ps = enumFrom i ((numbered i ps).map Prod.snd)) :
    ∃ nulls : List Text, ps = ((numbered i ps).map Prod.snd).map (fun p => (p.1, some p.2)) ++ nulls.map fun n => (n, none) := by
  induction ps generalizing i with
  | nil => exact ⟨[], rfl⟩
  | cons p ps ih =>
    obtain ⟨n, _ | v⟩ := p
    · simp only [numbered] at h ⊢
      cases hn : numbered (i + 1) ps with
      | nil =>
        obtain ⟨ns, hns⟩ := ih (i + 1) (by rw [hn]; rfl)
        rw [hn] at hns
        exact ⟨n :: ns, by simpa using hns⟩
      | cons q qs =>
        exfalso
        rw [hn] at h
        have hq := numbered_ge ps (i + 1) q (by rw [hn]; simp)
        simp only [List.map_cons, enumFrom, List.cons.injEq] at h
        have := congrArg Prod.fst h.1
        simp at this
        omega
    · simp only [numbered, List.map_cons, enumFrom, List.cons.injEq, true_and] at h
      obtain ⟨ns, hns⟩ := ih (i + 1) h
      refine ⟨ns, ?_⟩
      simp only [numbered, List.map_cons, List.cons_append]
      rw [← hns]

/-- the calls for a feature -/
private structure Calls (s : SrcFeature) (f : Feat) : Prop where
  props : f.props.getD [] = numbered 0 s.attrs
  geom : f.geom.getD [] = [] ∧ s.geom = none ∨ ∃ g i, s.geom = some g ∧ f.geom = some (g.events false i)

private theorem Calls.names {s : SrcFeature} {f : Feat} (h : Calls s f) :
    (f.props.getD []).map (fun p => p.2.1) = s.values.map Prod.fst := by
  have := congrArg (List.map Prod.fst) (numbered_values s.attrs 0)
  rw [List.map_map] at this
  rw [h.props]
  exact this

private theorem Calls.display (fmt : Fmt) {s : SrcFeature} {f : Feat} (h : Calls s f) :
    (f.props.getD []).map (fun p => p.2.2.display fmt) = s.values.map fun p => p.2.display fmt := by
  have := congrArg (List.map fun p => ColVal.display fmt p.2) (numbered_values s.attrs 0)
  rw [List.map_map] at this
  rw [h.props]
  exact this

private theorem Calls.column (fmt : Fmt) {s : SrcFeature} {f : Feat} (h : Calls s f) (k : WktWriter) (h0 : k.out = []) (hc : k.Calm) :
    feed (CsvWriter.geomStep fmt.f64) k (f.geom.getD []) =
      .ok { k with out := s.column fmt } := by
  unfold SrcFeature.column
  rcases h.geom with ⟨h1, h2⟩ | ⟨g, i, h1, h2⟩
  · rw [h1, h2]
    cases k
    simp_all
  · rw [h1, h2]
    exact CsvWriter.feed_geom_column fmt.f64 false g i k h0 hc

private inductive CallsAll : List SrcFeature → List Feat → Prop
  | nil : CallsAll [] []
  | cons {s : SrcFeature} {f : Feat} {ss : List SrcFeature} {fs : List Feat} (h : Calls s f) (hs : CallsAll ss fs) :
      CallsAll (s :: ss) (f :: fs)

private theorem fits_enum (vs : List (Text × ColVal)) (pre : List Text) (i : Nat) (hi : i = pre.length) :
    CsvWriter.Fits (txt "geometry" :: (pre ++ vs.map Prod.fst)) (enumFrom i vs) := by
  induction vs generalizing i pre with
  | nil => intro p hp; simp [enumFrom] at hp
  | cons v vs ih =>
    intro p hp
    simp only [enumFrom, List.mem_cons] at hp
    rcases hp with rfl | hp
    · subst hi; simp
    · have := ih (pre ++ [v.1]) (i + 1) (by simp [hi])
      rw [List.append_assoc] at this
      exact this p hp

private theorem later_ok (fmt : Fmt) (names : List Text) (ss : List SrcFeature) (fs : List Feat) (h : CallsAll ss fs) (i : Nat)
    (w : CsvWriter) (hr : w.Ready) (hw : w.written = true) (hh : w.headers = txt "geometry" :: names)
    (hc : w.count = some (names.length + 1)) (hs : ∀ s ∈ ss, s.Fills names) :
    feed (CsvWriter.step fmt) w (featEvs i fs) = .ok { w with rows := w.rows ++ ss.map (SrcFeature.record fmt) } := by
  induction h generalizing i w with
  | nil => simp [featEvs]
  | @cons s f ss fs h hss ih =>
    obtain ⟨vs, nulls, hvs, ha⟩ := hs s (by simp)
    have hp : f.props.getD [] = enumFrom 0 vs := by rw [h.props, ha, numbered_fills]
    have hnames := h.names
    have hfit : CsvWriter.Fits w.headers (f.props.getD []) := by
      rw [hh, hp, ← hvs]; simpa using fits_enum vs [] 0 rfl
    have hv : s.values = vs := by
      have h1 := numbered_values s.attrs 0
      rw [ha, numbered_fills] at h1
      unfold SrcFeature.values
      rw [ha, ← h1]
      have : ∀ (xs : List (Text × ColVal)) (i : Nat), (enumFrom i xs).map Prod.snd = xs := by
        intro xs
        induction xs with
        | nil => intro i; rfl
        | cons x xs ih => intro i; simp [enumFrom, ih]
      exact this vs 0
    have hlen : (f.props.getD []).length = names.length := by
      have := congrArg List.length hnames
      simpa [hv, ← hvs] using this
    simp only [featEvs, feed_append]
    rw [CsvWriter.feed_later fmt i f w hr hw (by rw [hc, hlen]) hfit _ (h.column fmt w.wkt hr.out hr.calm)]
    refine (ih (i + 1) { w with rows := w.rows ++ [s.column fmt ::
        (f.props.getD []).map (fun p => p.2.2.display fmt)] }
      ⟨hr.cur, hr.props, hr.out, hr.calm⟩ hw hh hc (fun q hq => hs q (by simp [hq]))).trans ?_
    simp [SrcFeature.record, h.display fmt]

private theorem later_bad (fmt : Fmt) (names : List Text) (ss : List SrcFeature) (fs : List Feat) (h : CallsAll ss fs) (i : Nat)
    (w w' : CsvWriter) (hb : CsvWriter.Between w names) (hf : feed (CsvWriter.step fmt) w (featEvs i fs) = .ok w') :
    ∀ s ∈ ss, s.Fills names := by
  induction h generalizing i w with
  | nil => intro s hs; simp at hs
  | @cons s f ss fs h hss ih =>
    simp only [featEvs, feed_append] at hf
    cases h1 : feed (CsvWriter.step fmt) w (f.evs i) with
    | error e => rw [h1] at hf; cases hf
    | ok w1 =>
      rw [h1] at hf
      obtain ⟨hb', hn, hix⟩ := CsvWriter.later_inv fmt i f (by rw [h.props]; exact numbered_increasing _ _) w w1 names hb h1
      intro q hq
      rcases List.mem_cons.1 hq with rfl | hq
      · rw [h.props] at hix hn
        obtain ⟨nulls, hnulls⟩ := fills_of_numbered _ 0 hix
        exact ⟨_, nulls, by rw [List.map_map]; exact hn, hnulls⟩
      · exact ih (i + 1) w1 hb' hf q hq

private theorem feed_table (fmt : Fmt) (name : Option Text) (ss : List SrcFeature) (fs : List Feat) (h : CallsAll ss fs) :
    (OneTable ss → ∃ w, feed (CsvWriter.step fmt) (CsvWriter.withDims {}) (datasetEvs name fs) = .ok w ∧
      w.rows = csvTable fmt ss ∧ w.cur = []) ∧
    (¬ OneTable ss → ∃ e, feed (CsvWriter.step fmt) (CsvWriter.withDims {}) (datasetEvs name fs) = .error e) := by
  have hc : (CsvWriter.withDims {}).wkt.Calm := by
    rw [WktWriter.calm_iff]; simp [CsvWriter.withDims, WktWriter.withOpts]
  have hready : (CsvWriter.withDims {}).Ready := ⟨rfl, rfl, rfl, hc⟩
  simp only [datasetEvs, feed_cons, CsvWriter.step]
  rw [if_pos (by rfl)]
  simp only []
  cases h with
  | nil => exact ⟨fun _ => ⟨_, rfl, rfl, rfl⟩, fun h => absurd trivial h⟩
  | @cons s f ss fs h hs =>
    have hlen : (f.props.getD []).length = (s.values.map Prod.fst).length := by simpa using congrArg List.length h.names
    have h1 := CsvWriter.feed_first fmt 0 f (CsvWriter.withDims {}) hready rfl rfl rfl _ (h.column fmt _ rfl hc)
    obtain ⟨w, h1, hr, hw, hh, hcount, hrows⟩ : ∃ w, feed (CsvWriter.step fmt) (CsvWriter.withDims {}) (f.evs 0) = .ok w ∧
        w.Ready ∧ w.written = true ∧ w.headers = txt "geometry" :: s.values.map Prod.fst ∧
        w.count = some ((s.values.map Prod.fst).length + 1) ∧
        w.rows = [txt "geometry" :: s.values.map Prod.fst, s.record fmt] :=
      ⟨_, h1, ⟨rfl, rfl, rfl, hc⟩, rfl, by simp only [h.names], by simp only [hlen],
        by simp [CsvWriter.withDims, SrcFeature.record, h.names, h.display fmt]⟩
    simp only [featEvs, feed_append, h1]
    refine ⟨fun ht => ?_, fun ht => ?_⟩
    · rw [later_ok fmt _ ss fs hs (0 + 1) w hr hw hh hcount ht]
      exact ⟨_, rfl, by simp [csvTable, hrows], hr.cur⟩
    · have hb := CsvWriter.first_inv fmt 0 f (CsvWriter.withDims {}) w rfl rfl rfl rfl h1
      rw [h.names] at hb
      cases h2 : feed (CsvWriter.step fmt) w (featEvs (0 + 1) fs) with
      | error e => exact ⟨e, rfl⟩
      | ok w' => exact absurd (later_bad fmt _ ss fs hs (0 + 1) w w' hb h2) ht

private theorem to_csv (fmt : Fmt) (enc : List (List Text) → List Text → Text) (src : FProg Unit) (hno : src.NoOk) (bs : List Byte)
    (name : Option Text) (ss : List SrcFeature) (fs : List Feat) (h : CallsAll ss fs)
    (hrun : FProg.run {} src bs = (datasetEvs name fs, .ok ((), bs))) :
    (OneTable ss → processToCsv fmt enc src bs = .ok (enc (csvTable fmt ss) [])) ∧
    (¬ OneTable ss → ∃ e, processToCsv fmt enc src bs = .error e) := by
  have ha : FProg.Agrees (CsvWriter.proc fmt) {} (fun w => w.wkt.dims = {}) := agrees_csv_dims fmt {}
  obtain ⟨h1, h2⟩ := feed_table fmt name ss fs h
  refine ⟨fun ht => ?_, fun ht => ?_⟩
  · obtain ⟨w, hw, hr, hcur⟩ := h1 ht
    rw [processToCsv, FProg.interp_of_feed_ok ha src _ w rfl bs (by rw [hrun]; exact hw), hrun, ← hr, ← hcur]
  · obtain ⟨e, he⟩ := h2 ht
    have := FProg.interp_of_feed_error ha src hno (CsvWriter.withDims {}) rfl bs e (by rw [hrun]; exact he)
    refine ⟨e, ?_⟩
    rw [processToCsv]
    generalize FProg.interp (CsvWriter.proc fmt) src (CsvWriter.withDims {}) bs = r at this
    obtain ⟨a, b, c⟩ := r
    simp only at this
    subst this
    rfl

private theorem calls_all {α : Type} (s : α → SrcFeature) (f : α → Feat) (xs : List α) (h : ∀ x ∈ xs, Calls (s x) (f x)) :
    CallsAll (xs.map s) (xs.map f) := by
  induction xs with
  | nil => exact .nil
  | cons x xs ih => exact .cons (h x (by simp)) (ih fun y hy => h y (by simp [hy]))

/-- Vector tile layer to CSV: the table of its features if they make one table, otherwise an error. -/
theorem C84_mvt (fmt : Fmt) (enc : List (List Text) → List Text → Text) (l : MvtLayer) (h : ∀ f ∈ l.features, f.geometry.Tile)
    (bs : List Byte) :
    (OneTable (l.features.map MvtFeature.src) → processToCsv fmt enc (mvtProcess l) bs =
      .ok (enc (csvTable fmt (l.features.map MvtFeature.src)) [])) ∧
    (¬ OneTable (l.features.map MvtFeature.src) → ∃ e, processToCsv fmt enc (mvtProcess l) bs = .error e) := by
  refine to_csv fmt enc _ (noOk_mvtProcess l) bs (some l.name) _ _ (calls_all _ (MvtFeature.feat false) l.features fun f _ => ⟨?_, ?_⟩)
    (C49_read {} l h bs)
  · have : ∀ (ps : List (Text × MvtValue)) (i : Nat), tileProps i ps = numbered i (ps.map fun p => (p.1, p.2.column)) := by
      intro ps
      induction ps with
      | nil => intro i; rfl
      | cons p ps ih =>
        intro i
        simp only [tileProps, List.map_cons]
        cases p.2.column <;> simp [numbered, ih]
    exact this f.properties 0
  · exact .inr ⟨_, 0, rfl, rfl⟩

private theorem gj_calls (f : GjFeature) (idx : Nat) : Calls f.src (f.feat false idx) := by
  refine ⟨?_, ?_⟩
  · have : ∀ (ps : List (Text × GjVal)) (i : Nat),
        ((enumFrom i ps).filterMap fun p => p.2.2.column.map fun v => (p.1, p.2.1, v)) =
          numbered i (ps.map fun p => (p.1, p.2.column)) := by
      intro ps
      induction ps with
      | nil => intro i; rfl
      | cons p ps ih =>
        intro i
        simp only [enumFrom, List.map_cons, List.filterMap_cons]
        cases p.2.column <;> simp [numbered, ih]
    simp only [GjFeature.feat, GjFeature.src]
    cases f.properties with
    | none => rfl
    | some ps => exact this ps 0
  · simp only [GjFeature.feat, GjFeature.src]
    cases f.geometry with
    | none => exact .inl ⟨rfl, rfl⟩
    | some g => exact .inr ⟨_, _, rfl, rfl⟩

/-- GeoJSON feature collection to CSV: the table of its features if they make one table, otherwise an error. -/
theorem C84_geojson (fmt : Fmt) (enc : List (List Text) → List Text → Text) (fs : List GjFeature) (h : ∀ f ∈ fs, f.Ok)
    (bs : List Byte) :
    (OneTable (fs.map GjFeature.src) → processToCsv fmt enc (processGeoJson (.featureCollection fs)) bs =
      .ok (enc (csvTable fmt (fs.map GjFeature.src)) [])) ∧
    (¬ OneTable (fs.map GjFeature.src) → ∃ e, processToCsv fmt enc (processGeoJson (.featureCollection fs)) bs = .error e) := by
  refine to_csv fmt enc _ (noOk_gjCollection fs) bs none _ _ ?_ (C26_feature_collection {} fs h bs)
  have : ∀ (fs : List GjFeature) (i : Nat), CallsAll (fs.map GjFeature.src) ((enumFrom i fs).map fun p => p.2.feat false p.1) := by
    intro fs
    induction fs with
    | nil => intro i; exact .nil
    | cons f fs ih => intro i; exact .cons (gj_calls f i) (ih (i + 1))
  exact this fs 0

/-- Newline-delimited GeoJSON whose lines are features to CSV: the table of the features if they make one table, otherwise an error. -/
theorem C84_geojson_lines (fmt : Fmt) (enc : List (List Text) → List Text → Text) (fs : List GjFeature) (h : ∀ f ∈ fs, f.Ok)
    (bs : List Byte) :
    (OneTable (fs.map GjFeature.src) → processToCsv fmt enc (readGeoJsonLines (fs.map fun f => .ok (.feature f))) bs =
      .ok (enc (csvTable fmt (fs.map GjFeature.src)) [])) ∧
    (¬ OneTable (fs.map GjFeature.src) → ∃ e,
      processToCsv fmt enc (readGeoJsonLines (fs.map fun f => .ok (.feature f))) bs = .error e) :=
  to_csv fmt enc _ (noOk_gjLines _) bs none _ _ (calls_all _ _ fs fun f _ => gj_calls f 0) (C26_feature_lines {} fs h bs)

/-- non-vacuity: two features make one table although the second has a null value after the others, and the first may have null
values anywhere -/
private def exTable : List GjFeature :=
  [⟨some [(txt "n", .null), (txt "a", .bool true), (txt "b", .i64 5)], some (.point [0#64, 0#64])⟩,
   ⟨some [(txt "a", .bool false), (txt "b", .string (txt "x")), (txt "c", .null)], none⟩]

example : (∀ f ∈ exTable, f.Ok) ∧ OneTable (exTable.map GjFeature.src) := by
  refine ⟨?_, ?_⟩
  · intro f hf
    simp only [exTable, List.mem_cons, List.not_mem_nil, or_false] at hf
    rcases hf with rfl | rfl
    · intro g hg; cases hg; exact .point (by simp)
    · intro g hg; cases hg
  · intro g hg
    simp only [List.map_cons, List.map_nil, List.mem_cons, List.not_mem_nil, or_false] at hg
    subst hg
    exact ⟨[(txt "a", .bool false), (txt "b", .string (txt "x"))], [txt "c"], rfl, rfl⟩

/-- non-vacuity of the second half: a null value before another one, in the second feature -/
example : ¬ OneTable (([⟨some [(txt "a", .bool true), (txt "b", .i64 5)], none⟩,
    ⟨some [(txt "a", .null), (txt "b", .i64 6)], none⟩] : List GjFeature).map GjFeature.src) := by
  intro h
  obtain ⟨vs, nulls, h1, h2⟩ := h (GjFeature.src ⟨some [(txt "a", .null), (txt "b", .i64 6)], none⟩) (by simp)
  cases vs with
  | nil => exact absurd h1 (by decide)
  | cons v vs =>
    simp only [GjFeature.src, Option.getD_some, List.map_cons, List.cons_append, List.cons.injEq] at h2
    have := congrArg Prod.snd h2.1
    simp [GjVal.column] at this

/-- The error can be a panic: two tile features with the same attributes, of which the first is null in both. -/
theorem C84_null_panics_false (fmt : Fmt) (enc : List (List Text) → List Text → Text) : ∃ (l : MvtLayer) (m : String),
    (∀ f ∈ l.features, f.geometry.Tile) ∧ (∀ f ∈ l.features, f.properties.map Prod.fst = [txt "a", txt "b"]) ∧
    processToCsv fmt enc (mvtProcess l) [] = .error (.panic m) :=
  ⟨{ name := [], extent := 4096,
     features := [{ geometry := .multiPoint [], properties := [(txt "a", .null), (txt "b", .bool true)] },
       { geometry := .multiPoint [], properties := [(txt "a", .null), (txt "b", .bool true)] }] }, _,
    by simp [MvtGeom.Tile, MvtGeom.All], by simp, rfl⟩

end Geozero
