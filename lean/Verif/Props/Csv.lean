import Verif.Lemmas.Csv
import Verif.Props.Wkt

/-
C28 (CSV writer), C29 (CSV reader), and the CSV part of C27 (order of calls).
-/

namespace Geozero
open Spec

/-! ## C28 -/

/-- A row of a table: one value per column, maybe a geometry (delivered with some index), and the way it is delivered:
geometry before or after the properties, properties section left out when there are no columns, geometry section there but
empty when there is no geometry. -/
structure CsvRow where
  vals : List ColVal
  geom : Option (Nat × Geom) := none
  geomFirst : Bool := false
  noProps : Bool := false
  noGeomSection : Bool := true

/-- the feature delivered for a row -/
def CsvRow.feat (multi : Bool) (names : List Text) (r : CsvRow) : Feat where
  props := if r.noProps then none else some (enumFrom 0 (names.zip r.vals))
  geom := match r.geom with
    | some g => some (g.2.events multi g.1)
    | none => if r.noGeomSection then none else some []
  geomFirst := r.geomFirst

/-- the record expected for a row: the WKT of the geometry (empty if there is none), then the printed values -/
def CsvRow.record (fmt : Fmt) (multi : Bool) (r : CsvRow) : List Text :=
  (match r.geom with | none => [] | some g => wkt fmt.f64 multi g.2) :: r.vals.map (ColVal.display fmt)

/-- the row fits the columns -/
structure CsvRow.Ok (names : List Text) (r : CsvRow) : Prop where
  vals : r.vals.length = names.length
  noProps : r.noProps = true → names = []

private theorem enum_names (names : List Text) (vals : List ColVal) (h : vals.length = names.length) (i : Nat) :
    (enumFrom i (names.zip vals)).map (fun p => p.2.1) = names ∧
    (enumFrom i (names.zip vals)).map (fun p => p.2.2) = vals := by
  induction names generalizing i vals with
  | nil =>
    cases vals with
    | nil => exact ⟨rfl, rfl⟩
    | cons v vs => simp at h
  | cons n ns ih =>
    cases vals with
    | nil => simp at h
    | cons v vs =>
      simp only [List.length_cons, Nat.add_right_cancel_iff] at h
      have := ih vs h (i + 1)
      simp only [List.zip_cons_cons, enumFrom, List.map_cons, this, and_self]

private theorem enum_fits (names : List Text) (vals : List ColVal) (pre : List Text) (i : Nat) (hi : i = pre.length) :
    CsvWriter.Fits (txt "geometry" :: (pre ++ names)) (enumFrom i (names.zip vals)) := by
  induction names generalizing i vals pre with
  | nil => intro p hp; simp [enumFrom] at hp
  | cons n ns ih =>
    cases vals with
    | nil => intro p hp; simp [enumFrom] at hp
    | cons v vs =>
      intro p hp
      simp only [List.zip_cons_cons, enumFrom, List.mem_cons] at hp
      rcases hp with rfl | hp
      · subst hi; simp
      · have := ih vs (pre ++ [n]) (i + 1) (by simp [hi])
        rw [List.append_assoc] at this
        exact this p hp

private theorem row_props (fmt : Fmt) (multi : Bool) (names : List Text) (r : CsvRow) (hr : r.Ok names) :
    ((r.feat multi names).props.getD []).map (fun p => p.2.1) = names ∧
    ((r.feat multi names).props.getD []).map (fun p => p.2.2.display fmt) = r.vals.map (ColVal.display fmt) ∧
    CsvWriter.Fits (txt "geometry" :: names) ((r.feat multi names).props.getD []) := by
  unfold CsvRow.feat
  by_cases hn : r.noProps = true
  · have h0 := hr.noProps hn
    subst h0
    have hv : r.vals = [] := List.length_eq_zero_iff.mp hr.vals
    simp only [hn, if_true, Option.getD_none, hv, List.map_nil, true_and]
    intro p hp
    simp at hp
  · have h := enum_names names r.vals hr.vals 0
    have hd : (enumFrom 0 (names.zip r.vals)).map (fun p => p.2.2.display fmt) = r.vals.map (ColVal.display fmt) := by
      have h2 := congrArg (List.map (ColVal.display fmt)) h.2
      rw [List.map_map] at h2
      exact h2
    simp only [hn, Bool.false_eq_true, if_false, Option.getD_some]
    exact ⟨h.1, hd, by simpa using enum_fits names r.vals [] 0 rfl⟩

private theorem row_geom (fmt : Fmt) (multi : Bool) (names : List Text) (r : CsvRow) (k : WktWriter)
    (h0 : k.out = []) (hc : k.Calm) :
    feed (CsvWriter.geomStep fmt.f64) k ((r.feat multi names).geom.getD []) =
      .ok { k with out := match r.geom with | none => [] | some g => wkt fmt.f64 multi g.2 } := by
  unfold CsvRow.feat
  cases hg : r.geom with
  | none =>
    cases k
    cases hs : r.noGeomSection <;> simp_all
  | some g => exact CsvWriter.feed_geom_column fmt.f64 multi g.2 g.1 k h0 hc

private theorem later_rows (fmt : Fmt) (multi : Bool) (names : List Text) (rs : List CsvRow) (i : Nat) (w : CsvWriter)
    (hr : w.Ready) (hw : w.written = true) (hh : w.headers = txt "geometry" :: names)
    (hc : w.count = some (names.length + 1)) (hrs : ∀ r ∈ rs, r.Ok names) :
    feed (CsvWriter.step fmt) w (featEvs i (rs.map (CsvRow.feat multi names))) =
      .ok { w with rows := w.rows ++ rs.map (CsvRow.record fmt multi) } := by
  induction rs generalizing i w with
  | nil => simp [featEvs]
  | cons r rs ih =>
    obtain ⟨h1, h2, h3⟩ := row_props fmt multi names r (hrs r (by simp))
    have hlen : ((r.feat multi names).props.getD []).length = names.length := by
      simpa using congrArg List.length h1
    simp only [List.map_cons, featEvs, feed_append]
    rw [CsvWriter.feed_later fmt i (r.feat multi names) w hr hw (by rw [hc, hlen]) (by rw [hh]; exact h3) _
      (row_geom fmt multi names r w.wkt hr.out hr.calm)]
    refine (ih (i + 1) { w with rows := w.rows ++ [(match r.geom with | none => [] | some g => wkt fmt.f64 multi g.2) ::
        ((r.feat multi names).props.getD []).map (fun p => p.2.2.display fmt)] }
      ⟨hr.cur, hr.props, hr.out, hr.calm⟩ hw hh hc (fun q hq => hrs q (by simp [hq]))).trans ?_
    simp [CsvRow.record, h2]

/-- For every dataset whose features all have the same column names in the same order: the writer accepts it and writes
one header record `geometry, names..` and then exactly one record per feature, in order, with the WKT of its geometry
and its printed values.  (A dataset without features gets no header record.) -/
theorem C28_csv_writer (fmt : Fmt) (dims : Dims) (name : Option Text) (names : List Text) (rs : List CsvRow)
    (hrs : ∀ r ∈ rs, r.Ok names) :
    ∃ w, feed (CsvWriter.step fmt) (CsvWriter.withDims dims)
        (datasetEvs name (rs.map (CsvRow.feat dims.multi names))) = .ok w ∧
      w.rows = (if rs = [] then [] else (txt "geometry" :: names) :: rs.map (CsvRow.record fmt dims.multi)) ∧
      w.cur = [] := by
  have hc : (CsvWriter.withDims dims).wkt.Calm := by
    rw [WktWriter.calm_iff]; simp [CsvWriter.withDims, WktWriter.withOpts]
  have hready : (CsvWriter.withDims dims).Ready := ⟨rfl, rfl, rfl, hc⟩
  simp only [datasetEvs, feed_cons, CsvWriter.step]
  rw [if_pos (by rfl)]
  simp only []
  cases rs with
  | nil => exact ⟨_, rfl, rfl, rfl⟩
  | cons r rs =>
    obtain ⟨h1, h2, h3⟩ := row_props fmt dims.multi names r (hrs r (by simp))
    have hlen : ((r.feat dims.multi names).props.getD []).length = names.length := by
      simpa using congrArg List.length h1
    simp only [List.map_cons, featEvs, feed_append]
    rw [CsvWriter.feed_first fmt 0 (r.feat dims.multi names) (CsvWriter.withDims dims) hready rfl rfl rfl _
      (row_geom fmt dims.multi names r _ rfl hc)]
    simp only [h1, h2, hlen]
    have hl := later_rows fmt dims.multi names rs (0 + 1)
      { CsvWriter.withDims dims with
        rows := (CsvWriter.withDims dims).rows ++ [txt "geometry" :: names,
          (match r.geom with | none => [] | some g => wkt fmt.f64 dims.multi g.2) :: r.vals.map (ColVal.display fmt)],
        count := some (names.length + 1), headers := txt "geometry" :: names, written := true }
      ⟨rfl, rfl, rfl, hc⟩ rfl rfl rfl (fun q hq => hrs q (by simp [hq]))
    rw [hl]
    exact ⟨_, rfl, by simp [CsvRow.record, CsvWriter.withDims], rfl⟩

/-- Every record has as many fields as the header. -/
theorem C28_rectangular (fmt : Fmt) (dims : Dims) (name : Option Text) (names : List Text) (rs : List CsvRow)
    (hrs : ∀ r ∈ rs, r.Ok names) (w : CsvWriter)
    (h : feed (CsvWriter.step fmt) (CsvWriter.withDims dims)
        (datasetEvs name (rs.map (CsvRow.feat dims.multi names))) = .ok w) :
    ∀ row ∈ w.rows, row.length = names.length + 1 := by
  obtain ⟨w', h1, h2, -⟩ := C28_csv_writer fmt dims name names rs hrs
  rw [h1] at h
  cases h
  intro row hrow
  rw [h2] at hrow
  split at hrow
  · simp at hrow
  · rcases List.mem_cons.mp hrow with rfl | hrow
    · rfl
    · obtain ⟨r, hr, rfl⟩ := List.mem_map.mp hrow
      simp [CsvRow.record, (hrs r hr).vals]

/-! ### other names are never written -/

/-- indices of the properties of a feature go up -/
def Increasing (ps : List PropRec) : Prop := ps.Pairwise fun p q => p.1 < q.1

private theorem head_le (ps : List PropRec) (a : Nat) (p : PropRec) (hs : Increasing (p :: ps))
    (hb : ∀ q ∈ p :: ps, q.1 < a + (p :: ps).length) : p.1 ≤ a := by
  induction ps generalizing a p with
  | nil => have := hb p (by simp); simp at this; omega
  | cons q ps ih =>
    have hs' : Increasing (q :: ps) := (List.pairwise_cons.mp hs).2
    have := ih (a + 1) q hs' (fun r hr => by
      have := hb r (by simp only [List.mem_cons] at hr ⊢; exact Or.inr hr)
      simp only [List.length_cons] at this ⊢; omega)
    have hpq := (List.pairwise_cons.mp hs).1 q (by simp)
    omega

private theorem names_of_fits (ps : List PropRec) (hs : Increasing ps) (names : List Text) (a : Nat)
    (hl : names.length = a + ps.length) (ha : ∀ p ∈ ps, a ≤ p.1)
    (hf : ∀ p ∈ ps, names[p.1]? = some p.2.1) : ps.map (fun p => p.2.1) = names.drop a ∧ ps = enumFrom a (ps.map Prod.snd) := by
  induction ps generalizing a with
  | nil => simp at hl; simp [hl, enumFrom]
  | cons p ps ih =>
    have hb : ∀ q ∈ p :: ps, q.1 < a + (p :: ps).length := by
      intro q hq
      have := hf q hq
      obtain ⟨h, -⟩ := List.getElem?_eq_some_iff.mp this
      omega
    have hle := head_le ps a p hs hb
    have hge := ha p (by simp)
    have he : p.1 = a := by omega
    have hpf := hf p (by simp)
    rw [he] at hpf
    obtain ⟨h, hx⟩ := List.getElem?_eq_some_iff.mp hpf
    have := ih (List.pairwise_cons.mp hs).2 (a + 1) (by simp only [List.length_cons] at hl; omega)
      (fun q hq => by have := (List.pairwise_cons.mp hs).1 q hq; omega) (fun q hq => hf q (by simp [hq]))
    refine ⟨by rw [List.map_cons, this.1, List.drop_eq_getElem_cons h, hx], ?_⟩
    rw [List.map_cons, enumFrom, ← this.2, ← he]

private theorem geom_inv (fmt : Fmt) (f : Feat) (w w' : CsvWriter) (h : feed (CsvWriter.step fmt) w f.geomPart = .ok w') :
    ∃ k, w' = { w with wkt := k } := by
  unfold Feat.geomPart at h
  cases hg : f.geom with
  | none => rw [hg] at h; cases h; exact ⟨w.wkt, rfl⟩
  | some es =>
    rw [hg] at h
    simp only [feed_cons, CsvWriter.step] at h
    split at h
    · rename_i heq
      split at heq
      · cases heq
      · cases heq
        rw [feed_append, CsvWriter.feed_geomEvs] at h
        split at h
        · rename_i heq
          split at heq
          · cases heq
          · cases heq; cases h; exact ⟨_, rfl⟩
        · cases h
    · cases h

private theorem props_inv (fmt : Fmt) (f : Feat) (w w' : CsvWriter) (h0 : w.props = [])
    (h : feed (CsvWriter.step fmt) w f.propsPart = .ok w') :
    w' = CsvWriter.withProps fmt w (f.props.getD []) ∧
      (w.written = true → CsvWriter.Fits w.headers (f.props.getD [])) := by
  have key : w.written = true → CsvWriter.Fits w.headers (f.props.getD []) := by
    intro hw
    cases hp : f.props with
    | none => intro p hp; simp at hp
    | some ps =>
      unfold Feat.propsPart at h
      rw [hp] at h
      simp only [feed_cons, CsvWriter.step, h0, if_true, feed_append] at h
      cases hx : feed (CsvWriter.step fmt) w (propEvs ps) with
      | error e => rw [hx] at h; cases h
      | ok w1 => exact CsvWriter.feed_props_later_inv fmt ps w w1 hw hx
  rw [CsvWriter.feed_propsPart fmt f w h0 key] at h
  cases h
  exact ⟨rfl, key⟩

private theorem feat_inv (fmt : Fmt) (i : Nat) (f : Feat) (w w' : CsvWriter)
    (h : feed (CsvWriter.step fmt) w (f.evs i) = .ok w') :
    (∃ k, CsvWriter.featureEnd { CsvWriter.withProps fmt w (f.props.getD []) with wkt := k } = .ok w') ∧
      (w.written = true → CsvWriter.Fits w.headers (f.props.getD [])) := by
  have hlast : ∀ (x : CsvWriter), feed (CsvWriter.step fmt) x [.ftEnd i] = x.featureEnd := by
    intro x
    simp only [feed, CsvWriter.step]
    cases x.featureEnd <;> rfl
  unfold Feat.evs at h
  rw [feed_cons] at h
  simp only [CsvWriter.step] at h
  by_cases h0 : w.props = []
  · rw [if_pos h0] at h
    simp only [feed_append] at h
    cases hg : f.geomFirst with
    | false =>
      rw [hg] at h
      simp only [Bool.false_eq_true, if_false, feed_append] at h
      cases h1 : feed (CsvWriter.step fmt) w f.propsPart with
      | error e => rw [h1] at h; cases h
      | ok w1 =>
        rw [h1] at h
        obtain ⟨rfl, hf⟩ := props_inv fmt f w w1 h0 h1
        simp only at h
        cases h2 : feed (CsvWriter.step fmt) (CsvWriter.withProps fmt w (f.props.getD [])) f.geomPart with
        | error e => rw [h2] at h; cases h
        | ok w2 =>
          rw [h2] at h
          obtain ⟨k, rfl⟩ := geom_inv fmt f _ w2 h2
          simp only [hlast] at h
          exact ⟨⟨k, h⟩, hf⟩
    | true =>
      rw [hg] at h
      simp only [if_true, feed_append] at h
      cases h1 : feed (CsvWriter.step fmt) w f.geomPart with
      | error e => rw [h1] at h; cases h
      | ok w1 =>
        rw [h1] at h
        obtain ⟨k, rfl⟩ := geom_inv fmt f _ w1 h1
        simp only at h
        cases h2 : feed (CsvWriter.step fmt) { w with wkt := k } f.propsPart with
        | error e => rw [h2] at h; cases h
        | ok w2 =>
          rw [h2] at h
          obtain ⟨rfl, hf⟩ := props_inv fmt f { w with wkt := k } w2 h0 h2
          simp only [hlast] at h
          exact ⟨⟨k, h⟩, hf⟩
  · rw [if_neg h0] at h; cases h

/-- the writer after some features of a dataset -/
structure CsvWriter.Between (w : CsvWriter) (names : List Text) : Prop where
  written : w.written = true
  headers : w.headers = txt "geometry" :: names
  count : w.count = some (names.length + 1)
  cur : w.cur = []

theorem CsvWriter.first_inv (fmt : Fmt) (i : Nat) (f : Feat) (w w' : CsvWriter) (hw : w.written = false)
    (hh : w.headers = [txt "geometry"]) (hc : w.count = none) (hcur : w.cur = [])
    (h : feed (CsvWriter.step fmt) w (f.evs i) = .ok w') :
    CsvWriter.Between w' ((f.props.getD []).map fun p => p.2.1) := by
  obtain ⟨⟨k, hk⟩, -⟩ := feat_inv fmt i f w w' h
  simp only [CsvWriter.featureEnd, CsvWriter.writeHeader, CsvWriter.withProps, hw, Bool.false_eq_true, if_false,
    CsvWriter.writeFields, CsvWriter.terminate, hc, hcur, hh, CsvWriter.writeRow, CsvWriter.writeField,
    List.nil_append, List.length_append, List.length_map, List.length_cons, List.length_nil] at hk
  split at hk
  · cases hk
  · rename_i heq
    cases hk
    split at heq
    · cases heq
      exact ⟨rfl, rfl, by simp [Nat.add_comm], rfl⟩
    · cases heq

theorem CsvWriter.later_inv (fmt : Fmt) (i : Nat) (f : Feat) (hinc : Increasing (f.props.getD [])) (w w' : CsvWriter)
    (names : List Text) (hb : CsvWriter.Between w names) (h : feed (CsvWriter.step fmt) w (f.evs i) = .ok w') :
    CsvWriter.Between w' names ∧ (f.props.getD []).map (fun p => p.2.1) = names ∧
      (f.props.getD []) = enumFrom 0 ((f.props.getD []).map Prod.snd) := by
  obtain ⟨⟨k, hk⟩, hf⟩ := feat_inv fmt i f w w' h
  have hf := hf hb.written
  simp only [CsvWriter.featureEnd, CsvWriter.writeHeader, CsvWriter.withProps, hb.written, if_true,
    CsvWriter.terminate, hb.count, hb.cur, CsvWriter.writeRow, CsvWriter.writeField, CsvWriter.writeFields,
    List.nil_append, List.length_append, List.length_map, List.length_cons, List.length_nil] at hk
  split at hk
  · cases hk
  · rename_i heq
    cases hk
    split at heq
    · rename_i hlen
      cases heq
      refine ⟨⟨rfl, hb.headers, rfl, rfl⟩, ?_⟩
      have := names_of_fits (f.props.getD []) hinc names 0 (by omega) (fun _ _ => Nat.zero_le _) (by
        intro p hp
        have := hf p hp
        rw [hb.headers] at this
        simpa using this)
      simpa using this
    · cases heq

/-- A dataset the writer accepts (property indices going up inside each feature, anything else arbitrary): all its
features have the same names in the same order.  So a feature with other names is never written misaligned; the writer
panics or returns an error instead. -/
theorem C28_never_misaligned (fmt : Fmt) (dims : Dims) (name : Option Text) (fs : List Feat)
    (hinc : ∀ f ∈ fs, Increasing (f.props.getD [])) (w : CsvWriter)
    (h : feed (CsvWriter.step fmt) (CsvWriter.withDims dims) (datasetEvs name fs) = .ok w) :
    ∃ names, ∀ f ∈ fs, (f.props.getD []).map (fun p => p.2.1) = names := by
  simp only [datasetEvs, feed_cons, CsvWriter.step] at h
  rw [if_pos (by rfl)] at h
  simp only [] at h
  cases fs with
  | nil => exact ⟨[], by simp⟩
  | cons f fs =>
    refine ⟨(f.props.getD []).map fun p => p.2.1, ?_⟩
    simp only [featEvs, feed_append] at h
    cases h1 : feed (CsvWriter.step fmt) (CsvWriter.withDims dims) (f.evs 0) with
    | error e => rw [h1] at h; cases h
    | ok w1 =>
      rw [h1] at h
      simp only at h
      have hb := CsvWriter.first_inv fmt 0 f (CsvWriter.withDims dims) w1 rfl rfl rfl rfl h1
      generalize hn : ((f.props.getD []).map fun p => p.2.1) = names at hb
      intro q hq
      rcases List.mem_cons.mp hq with rfl | hq
      · exact hn
      · have rest : ∀ (fs : List Feat) (i : Nat) (w1 w2 : CsvWriter), (∀ f ∈ fs, Increasing (f.props.getD [])) →
            CsvWriter.Between w1 names → feed (CsvWriter.step fmt) w1 (featEvs i fs) = .ok w2 →
            ∀ f ∈ fs, (f.props.getD []).map (fun p => p.2.1) = names := by
          intro fs
          induction fs with
          | nil => intro _ _ _ _ _ _ f hf; simp at hf
          | cons f fs ih =>
            intro i w1 w2 hi hb h f' hf'
            simp only [featEvs, feed_append] at h
            cases h1 : feed (CsvWriter.step fmt) w1 (f.evs i) with
            | error e => rw [h1] at h; cases h
            | ok w3 =>
              rw [h1] at h
              obtain ⟨hb', hnames, -⟩ := CsvWriter.later_inv fmt i f (hi f (by simp)) w1 w3 names hb h1
              rcases List.mem_cons.mp hf' with rfl | hf'
              · exact hnames
              · exact ih (i + 1) w3 w2 (fun f hf => hi f (by simp [hf])) hb' h f' hf'
        cases h2 : feed (CsvWriter.step fmt) w1 (featEvs (0 + 1) fs) with
        | error e => rw [h2] at h; cases h
        | ok w2 => exact rest fs _ w1 w2 (fun f hf => hinc f (by simp [hf])) hb h2 q hq

/-- With property indices that do not go up, a row can be misaligned without any error. -/
theorem C28_unordered_indices_false (fmt : Fmt) :
    ∃ w, feed (CsvWriter.step fmt) (CsvWriter.withDims {})
        (datasetEvs none [⟨some [(0, txt "a", .string (txt "1")), (1, txt "b", .string (txt "2"))], none, false⟩,
          ⟨some [(1, txt "b", .string (txt "4")), (0, txt "a", .string (txt "3"))], none, false⟩]) = .ok w ∧
      w.rows = [[txt "geometry", txt "a", txt "b"], [[], txt "1", txt "2"], [[], txt "4", txt "3"]] :=
  ⟨_, rfl, rfl⟩

/-- A dataset without features leaves the writer as it was, so the next dataset is written as if it were the first. -/
theorem C28_after_empty_dataset (fmt : Fmt) (dims : Dims) (name name' : Option Text) (fs : List Feat) :
    feed (CsvWriter.step fmt) (CsvWriter.withDims dims) (datasetEvs name [] ++ datasetEvs name' fs) =
      feed (CsvWriter.step fmt) (CsvWriter.withDims dims) (datasetEvs name' fs) := rfl

/-- Datasets written one after the other by the same writer, with features that have geometries and no properties: one header
record for all of them, then one record per feature.
Missing: datasets with properties, for which it is false (`C28_second_dataset_false`). -/
theorem C28_several_datasets_partial (fmt : Fmt) (dims : Dims) (ds : List (Option Text × List CsvRow))
    (hrs : ∀ d ∈ ds, ∀ r ∈ d.2, r.Ok []) :
    ∃ w, feed (CsvWriter.step fmt) (CsvWriter.withDims dims)
        (ds.flatMap fun d => datasetEvs d.1 (d.2.map (CsvRow.feat dims.multi []))) = .ok w ∧
      w.rows = (if (ds.flatMap (·.2)) = [] then [] else
        [txt "geometry"] :: (ds.flatMap (·.2)).map (CsvRow.record fmt dims.multi)) ∧
      w.cur = [] := by
  have hc : (CsvWriter.withDims dims).wkt.Calm := by
    rw [WktWriter.calm_iff]; simp [CsvWriter.withDims, WktWriter.withOpts]
  -- after the first record
  have later : ∀ (ds : List (Option Text × List CsvRow)) (w : CsvWriter), w.Ready → w.written = true →
      w.headers = [txt "geometry"] → w.count = some 1 → (∀ d ∈ ds, ∀ r ∈ d.2, r.Ok []) →
      feed (CsvWriter.step fmt) w (ds.flatMap fun d => datasetEvs d.1 (d.2.map (CsvRow.feat dims.multi []))) =
        .ok { w with rows := w.rows ++ (ds.flatMap (·.2)).map (CsvRow.record fmt dims.multi) } := by
    intro ds
    induction ds with
    | nil => intro w _ _ _ _ _; simp
    | cons d ds ih =>
      intro w hr hw hh hcnt hok
      have one : feed (CsvWriter.step fmt) w (datasetEvs d.1 (d.2.map (CsvRow.feat dims.multi []))) =
          .ok { w with rows := w.rows ++ d.2.map (CsvRow.record fmt dims.multi) } := by
        simp only [datasetEvs, feed_cons, CsvWriter.step, if_pos hh, feed_append]
        rw [later_rows fmt dims.multi [] d.2 0 w hr hw hh hcnt (hok d (by simp))]
        simp [CsvWriter.step, ← hh]
      rw [List.flatMap_cons, feed_append, one]
      refine (ih { w with rows := w.rows ++ d.2.map (CsvRow.record fmt dims.multi) } ⟨hr.cur, hr.props, hr.out, hr.calm⟩ hw hh
        hcnt (fun d' hd' => hok d' (by simp [hd']))).trans ?_
      simp
  induction ds with
  | nil => exact ⟨_, rfl, rfl, rfl⟩
  | cons d ds ih =>
    obtain ⟨name, rs⟩ := d
    cases rs with
    | nil => exact ih fun d' hd' => hrs d' (by simp [hd'])
    | cons r rs =>
      obtain ⟨h1, h2, h3⟩ := row_props fmt dims.multi [] r (hrs (name, r :: rs) (by simp) r (by simp))
      have hlen : ((r.feat dims.multi []).props.getD []).length = 0 := by simpa using congrArg List.length h1
      have one : feed (CsvWriter.step fmt) (CsvWriter.withDims dims)
          (datasetEvs name ((r :: rs).map (CsvRow.feat dims.multi []))) =
          .ok { CsvWriter.withDims dims with
            rows := [txt "geometry"] :: (r :: rs).map (CsvRow.record fmt dims.multi), count := some 1,
            headers := [txt "geometry"], written := true } := by
        simp only [datasetEvs, feed_cons, CsvWriter.step]
        rw [if_pos (by rfl)]
        simp only [List.map_cons, featEvs, feed_append]
        rw [CsvWriter.feed_first fmt 0 (r.feat dims.multi []) (CsvWriter.withDims dims) ⟨rfl, rfl, rfl, hc⟩ rfl rfl rfl _
          (row_geom fmt dims.multi [] r _ rfl hc)]
        simp only [h1, h2, hlen]
        rw [later_rows fmt dims.multi [] rs (0 + 1)
          { CsvWriter.withDims dims with
            rows := (CsvWriter.withDims dims).rows ++ [[txt "geometry"],
              (match r.geom with | none => [] | some g => wkt fmt.f64 dims.multi g.2) :: r.vals.map (ColVal.display fmt)],
            count := some (0 + 1), headers := [txt "geometry"], written := true }
          ⟨rfl, rfl, rfl, hc⟩ rfl rfl rfl (fun q hq => hrs (name, r :: rs) (by simp) q (by simp [hq]))]
        simp only [CsvWriter.withDims, CsvRow.record, List.nil_append, List.cons_append, List.map_cons]
        rfl
      rw [List.flatMap_cons, feed_append, one]
      refine ⟨_, later ds { CsvWriter.withDims dims with
            rows := [txt "geometry"] :: (r :: rs).map (CsvRow.record fmt dims.multi), count := some 1,
            headers := [txt "geometry"], written := true }
        ⟨rfl, rfl, rfl, hc⟩ rfl rfl rfl (fun d' hd' => hrs d' (by simp [hd'])), by simp, rfl⟩

example : ∀ d ∈ [((none : Option Text), ([⟨[], some (0, .point ⟨0#64, 0#64, none, none⟩), false, true, false⟩] : List CsvRow)),
    (some (txt "b"), [⟨[], none, false, false, true⟩])], ∀ r ∈ d.2, r.Ok [] := by
  intro d hd
  rcases List.mem_cons.mp hd with rfl | hd
  · intro r hr; rw [List.mem_singleton.mp hr]; exact ⟨rfl, by simp⟩
  · rw [List.mem_singleton.mp hd]; intro r hr; rw [List.mem_singleton.mp hr]; exact ⟨rfl, by simp⟩

/-- A `CsvWriter` cannot take a second dataset with properties: `dataset_end` forgets the header names but not that a
record has been written, so the first property panics. -/
theorem C28_second_dataset_false (fmt : Fmt) :
    ∃ m, feed (CsvWriter.step fmt) (CsvWriter.withDims {})
        (datasetEvs none [⟨some [(0, txt "a", .string (txt "1"))], none, false⟩] ++
          datasetEvs none [⟨some [(0, txt "a", .string (txt "2"))], none, false⟩]) = .error (.panic m) :=
  ⟨_, rfl⟩

-- two features, the second with a geometry delivered at index 5
example (fmt : Fmt) : ∀ r ∈ ([⟨[.string (txt "x")], none, false, false, false⟩,
    ⟨[.bool true], some (5, .lineString []), true, false, true⟩] : List CsvRow), r.Ok [txt "name"] := by
  intro r hr
  rcases List.mem_cons.mp hr with rfl | hr
  · exact ⟨rfl, by simp⟩
  · rcases List.mem_cons.mp hr with rfl | hr
    · exact ⟨rfl, by simp⟩
    · simp at hr

/-! ## C29 -/

/-- a table: column names before and after the geometry column, and rows split the same way -/
structure CsvTable where
  pre : List Text
  column : Text
  post : List Text
  rows : List (List Text × Text × List Text)

/-- header record -/
def CsvTable.headers (t : CsvTable) : List Text := t.pre ++ t.column :: t.post

/-- rectangular, and the geometry column is the first with its name -/
structure CsvTable.Ok (t : CsvTable) : Prop where
  first : t.column ∉ t.pre
  rows : ∀ r ∈ t.rows, r.1.length = t.pre.length ∧ r.2.2.length = t.post.length

/-- the feature of a row: the other columns in order, numbered 0, 1, ..., as strings; the geometry of the geometry
field unless that is empty -/
def CsvTable.feat (t : CsvTable) (multi : Bool) (geometry : Text → Geom) (r : List Text × Text × List Text) : Feat where
  props := some (enumFrom 0 ((t.pre ++ t.post).zip ((r.1 ++ r.2.2).map ColVal.string)))
  geom := if r.2.1 = [] then none else some ((geometry r.2.1).events multi 0)

private theorem findIdx_column (pre post : List Text) (c : Text) (h : c ∉ pre) :
    (pre ++ c :: post).findIdx? (· == c) = some pre.length := by
  induction pre with
  | nil => simp [List.findIdx?_cons]
  | cons x xs ih =>
    simp only [List.mem_cons, not_or] at h
    have hx : (x == c) = false := by simpa using fun e : x = c => h.1 e.symm
    simp only [List.cons_append, List.findIdx?_cons, hx, Bool.false_eq_true, if_false, ih h.2, Option.map_some,
      List.length_cons]

private theorem pairs_eq (pre post : List Text) (c : Text) (vpre vpost : List Text) (v : Text)
    (h1 : vpre.length = pre.length) (h2 : vpost.length = post.length) :
    csvPairs (pre ++ c :: post) (vpre ++ v :: vpost) pre.length = (pre ++ post).zip (vpre ++ vpost) := by
  have gen : ∀ (pre vpre : List Text) (i k : Nat), vpre.length = pre.length → k = i + pre.length →
      (((((pre ++ c :: post).zip (vpre ++ v :: vpost)).zipIdx i).filter fun p => p.2 != k).map Prod.fst) =
        (pre ++ post).zip (vpre ++ vpost) := by
    intro pre
    induction pre with
    | nil =>
      intro vpre i k hl hk
      cases vpre with
      | cons a b => simp at hl
      | nil =>
        simp only [List.nil_append, List.zip_cons_cons, List.zipIdx_cons, List.filter_cons]
        simp only [List.length_nil, Nat.add_zero] at hk
        subst hk
        simp only [bne_self_eq_false, Bool.false_eq_true, if_false]
        have : ∀ (l : List (Text × Text)) (j : Nat), k < j → ((l.zipIdx j).filter fun p => p.2 != k).map Prod.fst = l := by
          intro l
          induction l with
          | nil => intro j _; rfl
          | cons x xs ih =>
            intro j hj
            have : (j != k) = true := by simp; omega
            simp only [List.zipIdx_cons, List.filter_cons, this, if_true, List.map_cons, ih (j + 1) (by omega)]
        exact this _ _ (by omega)
    | cons x xs ih =>
      intro vpre i k hl hk
      cases vpre with
      | nil => simp at hl
      | cons y ys =>
        simp only [List.length_cons] at hl hk
        have : (i != k) = true := by simp; omega
        simp only [List.cons_append, List.zip_cons_cons, List.zipIdx_cons, List.filter_cons, this, if_true,
          List.map_cons, ih ys (i + 1) k (by omega) (by omega)]
  exact gen pre vpre 0 pre.length h1 (by omega)

private theorem run_props (env : FProg.Env) (ps : List (Text × Text)) (i : Nat) (bs : List Byte) :
    FProg.run env (FProg.forIdx csvProperty i ps) bs =
      (propEvs (enumFrom i (ps.map fun p => (p.1, ColVal.string p.2))), .ok ((), bs)) := by
  induction ps generalizing i with
  | nil => rfl
  | cons p ps ih =>
    simp only [FProg.forIdx, csvProperty, FProg.run_call_bind]
    rw [ih (i + 1)]
    rfl

private theorem zip_map_string (a b : List Text) :
    (a.zip b).map (fun p => (p.1, ColVal.string p.2)) = a.zip (b.map ColVal.string) := by
  rw [List.zip_map_right]
  rfl

private theorem run_feature (parse : Text → Except Err WktGeom) (geometry : Text → Geom) (t : CsvTable) (ht : t.Ok)
    (env : FProg.Env) (r : List Text × Text × List Text) (hr : r ∈ t.rows)
    (hg : r.2.1 ≠ [] → ∃ g, parse r.2.1 = .ok g ∧ g.NoEmptyMember ∧ g.denote = geometry r.2.1) (i : Nat)
    (bs : List Byte) :
    FProg.run env (csvFeature parse t.headers t.pre.length i (.ok (r.1 ++ r.2.1 :: r.2.2))) bs =
      ((t.feat env.multi geometry r).evs i, .ok ((), bs)) := by
  obtain ⟨h1, h2⟩ := ht.rows r hr
  simp only [csvFeature, FProg.bind_eq, FProg.run_call_bind, CsvTable.headers]
  rw [pairs_eq t.pre t.post t.column r.1 r.2.2 r.2.1 h1 h2, FProg.run_bind_ok (run_props env _ 0 bs)]
  simp only [FProg.run_call_bind, zip_map_string]
  have hget : (r.1 ++ r.2.1 :: r.2.2)[t.pre.length]? = some r.2.1 := by
    rw [← h1]; simp
  unfold csvGeometryPart
  rw [hget]
  by_cases hemp : r.2.1 = []
  · simp [hemp, FProg.ret_bind, CsvTable.feat, Feat.evs, Feat.propsPart, Feat.geomPart]
  · obtain ⟨g, hp, hne, hd⟩ := hg hemp
    have hemp' : r.2.1.isEmpty = false := by
      cases h : r.2.1 with
      | nil => exact absurd h hemp
      | cons a b => rfl
    have hrun : FProg.run env (FProg.lift (wktProcessGeom g)) bs =
        ((g.denote.events env.multi 0).map FEv.geom, .ok ((), bs)) := by
      rw [FProg.run_lift, wktProcessGeom, run_wktGeomN env.multi g hne 0 bs]
    simp only [hemp', Bool.false_eq_true, if_false, csvGeometry, hp, FProg.bind_eq, FProg.bind_assoc,
      FProg.run_call_bind]
    rw [FProg.run_bind_ok hrun]
    simp [CsvTable.feat, Feat.evs, Feat.propsPart, Feat.geomPart, hemp, hd]

/-- For every table with a geometry column (at whichever position) and whatever the processor answers: one feature per
record in order, whose properties are exactly the other columns (indices 0, 1, ..., header names, values as strings) and
whose geometry is that of the geometry field. -/
theorem C29_csv_reader (parse : Text → Except Err WktGeom) (geometry : Text → Geom) (t : CsvTable) (ht : t.Ok)
    (hg : ∀ r ∈ t.rows, r.2.1 ≠ [] → ∃ g, parse r.2.1 = .ok g ∧ g.NoEmptyMember ∧ g.denote = geometry r.2.1)
    (env : FProg.Env) (bs : List Byte) :
    FProg.run env (processCsvFeatures parse (.ok t.headers) (t.rows.map fun r => .ok (r.1 ++ r.2.1 :: r.2.2)) t.column) bs
      = (datasetEvs none (t.rows.map (t.feat env.multi geometry)), .ok ((), bs)) := by
  simp only [processCsvFeatures, FProg.bind_eq, FProg.run_call_bind]
  have hidx : t.headers.findIdx? (· == t.column) = some t.pre.length := findIdx_column t.pre t.post t.column ht.first
  rw [hidx]
  simp only
  have hloop : ∀ (rs : List (List Text × Text × List Text)) (i : Nat), (∀ r ∈ rs, r ∈ t.rows) →
      FProg.run env (FProg.forIdx (csvFeature parse t.headers t.pre.length) i
        (rs.map fun r => .ok (r.1 ++ r.2.1 :: r.2.2))) bs =
      (featEvs i (rs.map (t.feat env.multi geometry)), .ok ((), bs)) := by
    intro rs
    induction rs with
    | nil => intro i _; rfl
    | cons r rs ih =>
      intro i hmem
      have hr : r ∈ t.rows := hmem r (by simp)
      simp only [List.map_cons, FProg.forIdx]
      rw [FProg.run_bind_ok (run_feature parse geometry t ht env r hr (hg r hr) i bs),
        ih (i + 1) (fun q hq => hmem q (by simp [hq]))]
      rfl
  rw [FProg.run_bind_ok (hloop t.rows 0 (fun _ h => h))]
  simp [datasetEvs]

/-- Without a column of that name the reader fails with `ColumnNotFound` and delivers no feature. -/
theorem C29_no_geometry_column (parse : Text → Except Err WktGeom) (headers : List Text)
    (records : List (Except Err (List Text))) (column : Text) (h : column ∉ headers) (env : FProg.Env) (bs : List Byte) :
    FProg.run env (processCsvFeatures parse (.ok headers) records column) bs =
      ([.dsBegin none], .error .columnNotFound) := by
  have : headers.findIdx? (· == column) = none := by
    rw [List.findIdx?_eq_none_iff]
    intro x hx
    simpa using fun e : x = column => h (e ▸ hx)
  simp only [processCsvFeatures, FProg.bind_eq, FProg.run_call_bind, this]
  rfl

-- a table with the geometry in the middle column
example : (⟨[txt "a"], txt "g", [txt "b"], [([txt "1"], txt "POINT EMPTY", [txt "2"])]⟩ : CsvTable).Ok :=
  ⟨by decide, by simp⟩

/-! ## C27 for CSV -/

/-- Whatever headers, records (also malformed ones), WKT parser and processor: the calls made are in the documented
order, and if the reader succeeds they are a complete dataset. -/
theorem C27_csv (parse : Text → Except Err WktGeom) (headers : Except Err (List Text))
    (records : List (Except Err (List Text))) (column : Text) :
    (processCsvFeatures parse headers records column).FollowsContract := by
  apply FProg.follows_of_obeys
  unfold processCsvFeatures
  cases headers with
  | error e => trivial
  | ok headers =>
    refine FProg.Obeys.call_bind (s' := .dataset 0) rfl ?_
    cases headers.findIdx? (· == column) with
    | none => trivial
    | some gi =>
      refine FProg.Obeys.bind (FProg.Obeys.forIdx (fun i => .dataset i) ?_ 0 records) ?_
      · intro i r
        cases r with
        | error e => trivial
        | ok r =>
          refine FProg.Obeys.call_bind (s' := .feature i false false) (if_pos rfl) ?_
          refine FProg.Obeys.call_bind (s' := .props i false) rfl ?_
          refine FProg.Obeys.bind (FProg.Obeys.forIdx (fun _ => .props i false) ?_ 0 _) ?_
          · intro j p
            exact FProg.Obeys.call rfl
          · rintro - t rfl
            refine FProg.Obeys.call_bind (s' := .feature i true false) rfl ?_
            refine FProg.Obeys.bind (Q := fun _ t => ∃ g, t = .feature i true g) ?_ ?_
            · unfold csvGeometryPart
              cases r[gi]? with
              | none => trivial
              | some field =>
                by_cases hf : field.isEmpty = true
                · simp only [hf, if_true]; exact ⟨false, rfl⟩
                · simp only [hf, Bool.false_eq_true, if_false]
                  refine FProg.Obeys.call_bind (s' := .geom i true) rfl ?_
                  refine FProg.Obeys.bind (Q := fun _ t => t = .geom i true) ?_ ?_
                  · unfold csvGeometry
                    cases parse field with
                    | error e => trivial
                    | ok g => exact FProg.Obeys.lift _ i true
                  · rintro - t rfl
                    exact ⟨_, rfl, true, rfl⟩
            · rintro - t ⟨g, rfl⟩
              cases g <;> exact FProg.Obeys.call (if_pos rfl)
      · rintro - t rfl
        exact FProg.Obeys.call rfl

/-! ## C47 -/

/-- the member calls of a geometry collection -/
private theorem run_members (parse : Text → Except Err WktGeom) (geometry : Text → Geom) (t : CsvTable) (ht : t.Ok)
    (hg : ∀ r ∈ t.rows, ∃ g, parse r.2.1 = .ok g ∧ g.NoEmptyMember ∧ g.denote = geometry r.2.1) (multi : Bool)
    (bs : List Byte) (rs : List (List Text × Text × List Text)) (i : Nat) (hmem : ∀ r ∈ rs, r ∈ t.rows) :
    Prog.run multi (forIdx (csvGeomRecord parse t.pre.length) i (rs.map fun r => .ok (r.1 ++ r.2.1 :: r.2.2))) bs =
      ((if i = 0 ∧ rs ≠ [] then [Ev.gbegin .collection true 1 0] else []) ++
        evList (fun j r => (geometry r.2.1).events multi j) i rs, .ok ((), bs)) := by
  induction rs generalizing i with
  | nil => simp [forIdx, evList, Prog.run]
  | cons r rs ih =>
    have hr : r ∈ t.rows := hmem r (by simp)
    obtain ⟨g, hp, hne, hd⟩ := hg r hr
    have hget : (r.1 ++ r.2.1 :: r.2.2)[t.pre.length]? = some r.2.1 := by
      rw [← (ht.rows r hr).1]; simp
    have hbody : Prog.run multi (csvGeomRecord parse t.pre.length i (.ok (r.1 ++ r.2.1 :: r.2.2))) bs =
        ((if i = 0 then [Ev.gbegin .collection true 1 0] else []) ++ (geometry r.2.1).events multi i, .ok ((), bs)) := by
      simp only [csvGeomRecord, hget, hp]
      by_cases h0 : i = 0
      · simp only [h0, if_true, Prog.run_emitEv_bind, run_wktGeomN multi g hne, hd]
        rfl
      · simp only [h0, if_false, List.nil_append, ← hd]
        exact run_wktGeomN multi g hne i bs
    simp only [List.map_cons, forIdx]
    rw [Prog.run_bind_ok hbody, ih (i + 1) (fun q hq => hmem q (by simp [hq]))]
    simp [evList]

/-- The geometry-only CSV reader: for every table with a geometry column, the geometries of the records in order, as
members 0, 1, ... of one collection.
Missing for the full property: the size announced is 1 whatever the number of records. -/
theorem C47_csv_collection_partial (parse : Text → Except Err WktGeom) (geometry : Text → Geom) (t : CsvTable) (ht : t.Ok)
    (hg : ∀ r ∈ t.rows, ∃ g, parse r.2.1 = .ok g ∧ g.NoEmptyMember ∧ g.denote = geometry r.2.1) (multi : Bool)
    (bs : List Byte) :
    Prog.run multi (processCsvGeom parse (.ok t.headers) (t.rows.map fun r => .ok (r.1 ++ r.2.1 :: r.2.2)) t.column) bs =
      (.gbegin .collection true (if t.rows = [] then 0 else 1) 0 ::
        (evList (Geom.events multi) 0 (t.rows.map fun r => geometry r.2.1) ++ [.gend .collection true 0]),
        .ok ((), bs)) := by
  have hidx : t.headers.findIdx? (· == t.column) = some t.pre.length := findIdx_column t.pre t.post t.column ht.first
  simp only [processCsvGeom, hidx]
  rw [Prog.run_bind_ok (run_members parse geometry t ht hg multi bs t.rows 0 (fun _ h => h)), evList_map]
  cases t.rows with
  | nil => simp [evList]
  | cons r rs => simp [Prog.bind]

/-- At most one record: exactly the calls of the collection of the geometries. -/
theorem C47_csv_short (parse : Text → Except Err WktGeom) (geometry : Text → Geom) (t : CsvTable) (ht : t.Ok)
    (hg : ∀ r ∈ t.rows, ∃ g, parse r.2.1 = .ok g ∧ g.NoEmptyMember ∧ g.denote = geometry r.2.1) (multi : Bool)
    (bs : List Byte) (h1 : t.rows.length ≤ 1) :
    Prog.run multi (processCsvGeom parse (.ok t.headers) (t.rows.map fun r => .ok (r.1 ++ r.2.1 :: r.2.2)) t.column) bs =
      ((Geom.collection (t.rows.map fun r => geometry r.2.1)).events multi 0, .ok ((), bs)) := by
  rw [C47_csv_collection_partial parse geometry t ht hg multi bs, events_collection, bracket]
  cases h : t.rows with
  | nil => rfl
  | cons r rs =>
    rw [h] at h1
    have : rs = [] := List.length_eq_zero_iff.mp (by simp only [List.length_cons] at h1; omega)
    subst this
    rfl

/-- Two records: the collection is announced with one member. -/
theorem C47_csv_size_false :
    Prog.run false (processCsvGeom (fun _ => .ok (.point none)) (.ok [txt "g"])
        [.ok [txt "POINT EMPTY"], .ok [txt "POINT EMPTY"]] (txt "g")) [] ≠
      ((Geom.collection [.emptyPoint, .emptyPoint]).events false 0, .ok ((), [])) := by
  have : Prog.run false (processCsvGeom (fun _ => .ok (.point none)) (.ok [txt "g"])
        [.ok [txt "POINT EMPTY"], .ok [txt "POINT EMPTY"]] (txt "g")) [] =
      ([.gbegin .collection true 1 0, .emptyPoint 0, .emptyPoint 1, .gend .collection true 0], .ok ((), [])) := rfl
  rw [this]
  intro h
  have := congrArg Prod.fst h
  revert this
  decide

end Geozero
