import Verif.Spec.RoundTrip
import Verif.Props.ShpConv
import Verif.Props.Csv

/-
C66 (text written as WKT or CSV is read back), C67 (GeoJSON is read back).
-/

namespace Geozero
open Spec Json

/-! ## C66 -/

/-- the coordinates of a geometry of the seven types -/
private theorem geojson_coords {p : Coord → Prop} {g : Geom} (h : g.IsGeoJson p) : ∀ c ∈ g.coords, p c := by
  induction h with
  | emptyPoint => simp [Geom.coords]
  | point h => simpa [Geom.coords] using h
  | multiPoint h => simpa [Geom.coords] using h
  | lineString h => simpa [Geom.coords] using h
  | multiLineString h => simpa [Geom.coords] using fun c l hl hc => h l hl c hc
  | polygon h => simpa [Geom.coords] using fun c l hl hc => h l hl c hc
  | multiPolygon h =>
    intro c hc
    simp only [Geom.coords, List.mem_flatMap, List.mem_flatten] at hc
    obtain ⟨q, hq, l, hl, hc⟩ := hc
    exact h q hq l hl c hc
  | collection _ ih =>
    intro c hc
    simp only [Geom.coords, Geom.coordsList_eq, List.mem_flatMap] at hc
    obtain ⟨g, hg, hc⟩ := hc
    exact ih g hg c hc

private theorem parse_wkt (N : NumText) {multi : Bool} {g : Geom} (hg : g.IsGeoJson (Recoverable multi)) :
    parseWkt N.parse (wkt N.num multi g) = some g := by
  have := parseGeom_ok N multi g (geojson_coords hg) _ (Nat.le_refl _) []
  simp only [List.append_nil] at this
  simp [parseWkt, this]

/-- WKT of a two-dimensional geometry is read back: whatever delivers a geometry of one of the seven simple feature types without
NaN (after at most an SRID), the WKT made of it is read as that geometry. -/
theorem C66_wkt (N : NumText) (parse : Text → Except Err WktGeom) (hp : UnderstandsWkt N parse) (src : Prog Unit) (g : Geom)
    (hg : g.IsGeoJson (Recoverable false)) (bs rest : List Byte) (pre : List Ev) (hpre : pre = [] ∨ ∃ s, pre = [.srid s])
    (hsrc : Prog.run false src bs = (pre ++ g.events false 0, .ok ((), rest))) :
    ∃ t, toWktWithOpts N.num src .wkt {} none bs = .ok t ∧
      ∀ multi bs', Prog.run multi (processWktText parse t) bs' = (g.events multi 0, .ok ((), bs')) := by
  have hfeed : ∃ w, feed (WktWriter.step N.num) (WktWriter.withOpts .wkt {} none) (pre ++ g.events false 0) = .ok w ∧
      w.out = wkt N.num false g := by
    rcases hpre with rfl | ⟨s, rfl⟩
    · obtain ⟨w, h1, h2⟩ := C19_wkt_writer_sequence N.num .wkt {} none g []
      simp only [evList, List.append_nil, List.map_cons, List.map_nil, commaSep] at h1 h2
      exact ⟨w, h1, by simpa [show ({} : Dims).multi = false from rfl] using h2⟩
    · obtain ⟨w, h1, h2⟩ := C19_wkt_writer_prints N.num .wkt {} none s g
      exact ⟨w, h1, by simpa [show ({} : Dims).multi = false from rfl] using h2⟩
  obtain ⟨w, h1, h2⟩ := hfeed
  have hm : ∀ w : WktWriter, w.dims = {} → (WktWriter.proc N.num).multi w = false := by
    intro w h; simp [WktWriter.proc, h]; rfl
  refine ⟨w.out, ?_, ?_⟩
  · rw [toWktWithOpts, Prog.interp_of_feed_ok_inv (WktWriter.proc N.num) false (fun w => w.dims = {}) hm
      (WktWriter.step_dims N.num {}) src _ w rfl bs (by rw [hsrc]; exact h1), hsrc]
  · intro multi bs'
    obtain ⟨v, hv, hne, hd⟩ := hp _ g (parse_wkt N hg) hg
    rw [h2]
    simp only [processWktText, hv]
    rw [C21_wkt_reader_stream_partial multi v hne, hd]

/-- there is such a parser -/
theorem exists_wktParser (N : NumText) : ∃ parse, UnderstandsWkt N parse := by
  classical
  have key : ∀ (g : Geom), g.IsGeoJson (Recoverable false) → ∃ w : WktGeom, w.NoEmptyMember ∧ w.denote = g := by
    intro g hg
    induction hg with
    | emptyPoint => exact ⟨.point none, by simp [WktGeom.NoEmptyMember], by simp [WktGeom.denote]⟩
    | @point c _ => exact ⟨.point (some c), by simp [WktGeom.NoEmptyMember], by simp [WktGeom.denote]⟩
    | @multiPoint cs _ => exact ⟨.multiPoint (cs.map some), by simp [WktGeom.NoEmptyMember], by simp [WktGeom.denote]⟩
    | @lineString cs _ => exact ⟨.lineString cs, by simp [WktGeom.NoEmptyMember], by simp [WktGeom.denote]⟩
    | @multiLineString ls _ => exact ⟨.multiLineString ls, by simp [WktGeom.NoEmptyMember], by simp [WktGeom.denote]⟩
    | @polygon rs _ => exact ⟨.polygon rs, by simp [WktGeom.NoEmptyMember], by simp [WktGeom.denote]⟩
    | @multiPolygon ps _ => exact ⟨.multiPolygon ps, by simp [WktGeom.NoEmptyMember], by simp [WktGeom.denote]⟩
    | @collection gs _ ih =>
      have : ∃ ws, WktGeom.NoEmptyMemberList ws ∧ WktGeom.denoteList ws = gs := by
        rename_i hcol
        clear hcol
        induction gs with
        | nil => exact ⟨[], by simp [WktGeom.NoEmptyMemberList], by simp [WktGeom.denoteList]⟩
        | cons g gs ihg =>
          obtain ⟨w, h1, h2⟩ := ih g (by simp)
          obtain ⟨ws, h3, h4⟩ := ihg fun g hg => ih g (by simp [hg])
          exact ⟨w :: ws, by simp [WktGeom.NoEmptyMemberList, h1, h3], by simp [WktGeom.denoteList, h2, h4]⟩
      obtain ⟨ws, h1, h2⟩ := this
      exact ⟨.collection ws, by simpa [WktGeom.NoEmptyMember] using h1, by simp [WktGeom.denote, h2]⟩
  refine ⟨fun t => match parseWkt N.parse t with
    | none => .error (.geometry "")
    | some g => if h : g.IsGeoJson (Recoverable false) then .ok (key g h).choose else .error (.geometry ""), ?_⟩
  intro t g ht hg
  refine ⟨(key g hg).choose, ?_, (key g hg).choose_spec⟩
  simp [ht, hg]

/-! ### CSV -/

/-- the feature read back for a row: every printed value as a string, the geometry with index 0 -/
def CsvRow.back (fmt : Fmt) (multi : Bool) (names : List Text) (r : CsvRow) : Feat where
  props := some (enumFrom 0 (names.zip (r.vals.map fun v => .string (v.display fmt))))
  geom := r.geom.map fun g => g.2.events multi 0

/-- Features written as CSV are read back: for every source of at least one feature, all with the same column names in the same
order and with two-dimensional geometries of the simple feature types (or none), `to_csv` succeeds, and reading the text with the
geometry column `geometry` delivers the same features in order: the same names, every value as its printed text, the same
geometries, to processors of any dimensions. -/
theorem C66_csv_partial (N : NumText) (fmt : Fmt) (hN : fmt.f64 = N.num) (parse : Text → Except Err WktGeom)
    (hp : UnderstandsWkt N parse) (enc : List (List Text) → List Text → Text)
    (dec : Text → Except Err (List Text) × List (Except Err (List Text))) (hc : DecodesCsv enc dec) (name : Option Text)
    (names : List Text) (rs : List CsvRow) (hne : rs ≠ []) (hrs : ∀ r ∈ rs, r.Ok names)
    (hg : ∀ r ∈ rs, ∀ g, r.geom = some g → g.2.IsGeoJson (Recoverable false)) (src : FProg Unit) (bs rest : List Byte)
    (hsrc : FProg.run {} src bs = (datasetEvs name (rs.map (CsvRow.feat false names)), .ok ((), rest))) :
    ∃ t, processToCsv fmt enc src bs = .ok t ∧
      ∀ env bs', FProg.run env (readCsv parse dec (txt "geometry") t) bs' =
        (datasetEvs none (rs.map (CsvRow.back fmt env.multi names)), .ok ((), bs')) := by
  obtain ⟨w, h1, h2, h3⟩ := C28_csv_writer fmt {} name names rs hrs
  rw [if_neg hne] at h2
  refine ⟨enc w.rows w.cur, ?_, ?_⟩
  · have ha : FProg.Agrees (CsvWriter.proc fmt) {} (fun w => w.wkt.dims = {}) := agrees_csv_dims fmt {}
    rw [processToCsv, FProg.interp_of_feed_ok ha src _ w rfl bs (by rw [hsrc]; exact h1), hsrc]
  · intro env bs'
    have hd := hc (txt "geometry" :: names) (rs.map (CsvRow.record fmt false)) (by simp) (by
      intro q hq
      obtain ⟨r, hr, rfl⟩ := List.mem_map.mp hq
      simp [CsvRow.record, (hrs r hr).vals])
    rw [h2, h3]
    rw [readCsv, show ({} : Dims).multi = false from rfl, hd]
    simp only
    let tab : CsvTable := { pre := [], column := txt "geometry", post := names, rows := rs.map fun r =>
      ([], (match r.geom with | none => [] | some g => wkt fmt.f64 false g.2), r.vals.map (ColVal.display fmt)) }
    have hnonempty : ∀ g : Geom, wkt fmt.f64 false g ≠ [] := by
      intro g
      cases g <;> simp [wkt, tagged, txt]
    have hread := C29_csv_reader parse (fun t => (parseWkt N.parse t).getD .emptyPoint) tab ⟨by simp [tab], by
        intro q hq
        obtain ⟨r, hr, rfl⟩ := List.mem_map.mp hq
        simp [tab, (hrs r hr).vals]⟩ (by
        intro q hq hne
        obtain ⟨r, hr, rfl⟩ := List.mem_map.mp hq
        cases hrg : r.geom with
        | none => simp [hrg] at hne
        | some g =>
          simp only [hN]
          have hw := parse_wkt N (hg r hr g hrg)
          obtain ⟨v, hv⟩ := hp _ g.2 hw (hg r hr g hrg)
          exact ⟨v, hv.1, hv.2.1, by rw [hv.2.2, hw]; rfl⟩) env bs'
    have e1 : (tab.rows.map fun r => (Except.ok (r.1 ++ r.2.1 :: r.2.2) : Except Err (List Text))) =
        (rs.map (CsvRow.record fmt false)).map .ok := by
      simp only [tab, CsvRow.record, List.map_map]
      refine List.map_congr_left fun r _ => ?_
      cases hrg : r.geom <;> simp [hrg, CsvRow.record]
    have e2 : tab.rows.map (tab.feat env.multi fun t => (parseWkt N.parse t).getD .emptyPoint) =
        rs.map (CsvRow.back fmt env.multi names) := by
      simp only [tab, List.map_map]
      refine List.map_congr_left fun r hr => ?_
      simp only [Function.comp_apply, CsvTable.feat, CsvRow.back, List.nil_append, List.map_map]
      cases hrg : r.geom with
      | none => rfl
      | some g =>
        simp only [hnonempty, if_false, Option.map_some]
        rw [hN, parse_wkt N (hg r hr g hrg)]
        rfl
    rw [e1, e2] at hread
    exact hread

/-! #### a codec: every field in quotes, quotes doubled (RFC 4180) -/

/-- a field with its quotes doubled -/
def quoteField (f : Text) : Text := f.flatMap fun c => if c = '"' then ['"', '"'] else [c]

/-- fields in quotes, separated by commas, ended by a line feed -/
def quoteRecord : List Text → Text
  | [] => ['\n']
  | [f] => '"' :: (quoteField f ++ ['"', '\n'])
  | f :: fs => '"' :: (quoteField f ++ ('"' :: ',' :: quoteRecord fs))

/-- read it: inside quotes or not, the field so far, the record so far -/
def unquote : Bool → Text → List Text → Text → List (List Text)
  | _, _, _, [] => []
  | true, cur, row, '"' :: '"' :: t => unquote true (cur ++ ['"']) row t
  | true, cur, row, c :: t => if c = '"' then unquote false cur row t else unquote true (cur ++ [c]) row t
  | false, cur, row, c :: t =>
    if c = '"' then unquote true cur row t
    else if c = ',' then unquote false [] (row ++ [cur]) t
    else (row ++ [cur]) :: unquote false [] [] t

private theorem unquote_field (f cur : Text) (row : List Text) (c : Char) (hc : c ≠ '"') (t : Text) :
    unquote true cur row (quoteField f ++ '"' :: c :: t) = unquote false (cur ++ f) row (c :: t) := by
  induction f generalizing cur with
  | nil =>
    simp only [quoteField, List.flatMap_nil, List.nil_append, List.append_nil]
    rw [unquote]
    · simp
    · intro t' _ h; cases h; exact hc rfl
  | cons d f ih =>
    by_cases hd : d = '"'
    · subst hd
      have : quoteField ('"' :: f) ++ '"' :: c :: t = '"' :: '"' :: (quoteField f ++ '"' :: c :: t) := by simp [quoteField]
      rw [this, unquote, ih]
      simp
    · have : quoteField (d :: f) ++ '"' :: c :: t = d :: (quoteField f ++ '"' :: c :: t) := by simp [quoteField, hd]
      rw [this, unquote, if_neg hd, ih]
      · simp
      · rintro t' h _; exact hd h

private theorem unquote_record (fs : List Text) (hne : fs ≠ []) (row : List Text) (t : Text) :
    unquote false [] row (quoteRecord fs ++ t) = (row ++ fs) :: unquote false [] [] t := by
  induction fs generalizing row with
  | nil => exact absurd rfl hne
  | cons f fs ih =>
    cases fs with
    | nil =>
      have : quoteRecord [f] ++ t = '"' :: (quoteField f ++ '"' :: '\n' :: t) := by simp [quoteRecord]
      rw [this, unquote, if_pos rfl, unquote_field f [] row '\n' (by decide), unquote, if_neg (by decide), if_neg (by decide)]
      simp
    | cons g gs =>
      have : quoteRecord (f :: g :: gs) ++ t = '"' :: (quoteField f ++ '"' :: ',' :: (quoteRecord (g :: gs) ++ t)) := by
        simp [quoteRecord]
      rw [this, unquote, if_pos rfl, unquote_field f [] row ',' (by decide), unquote, if_neg (by decide), if_pos rfl,
        ih (by simp)]
      simp

/-- there is a codec for CSV; it can also be such that the empty text has no headers and no records -/
theorem exists_csvCodec : ∃ enc dec, DecodesCsv enc dec ∧ dec (enc [] []) = (.ok [], []) := by
  refine ⟨fun rows _ => rows.flatMap quoteRecord, fun t => match unquote false [] [] t with
    | [] => (.ok [], [])
    | h :: rows => (.ok h, rows.map .ok), ?_, by simp [unquote]⟩
  intro h rows hne hrows
  have key : ∀ rows : List (List Text), (∀ r ∈ rows, r ≠ []) → unquote false [] [] (rows.flatMap quoteRecord) = rows := by
    intro rows
    induction rows with
    | nil => intro _; simp [unquote]
    | cons r rows ih =>
      intro hr
      rw [List.flatMap_cons, unquote_record r (hr r (by simp)), ih fun q hq => hr q (by simp [hq])]
      simp
  have := key (h :: rows) (by
    intro r hr
    rcases List.mem_cons.mp hr with rfl | hr
    · exact hne
    · intro h0
      have := hrows r hr
      rw [h0] at this
      exact hne (List.length_eq_zero_iff.mp this.symm))
  simp only [this]

/-- A dataset without features becomes a text without header, which is not read back. -/
theorem C66_csv_no_features_false (fmt : Fmt) (parse : Text → Except Err WktGeom) (enc : List (List Text) → List Text → Text)
    (dec : Text → Except Err (List Text) × List (Except Err (List Text))) (hempty : dec (enc [] []) = (.ok [], [])) (name : Option Text) :
    ∃ t, processToCsv fmt enc (do FProg.call (.dsBegin name); FProg.call .dsEnd) [] = .ok t ∧
      ∀ env, FProg.run env (readCsv parse dec (txt "geometry") t) [] = ([.dsBegin none], .error .columnNotFound) := by
  refine ⟨enc [] [], rfl, fun env => ?_⟩
  rw [readCsv, hempty]
  exact C29_no_geometry_column parse [] [] _ (by simp) env []

-- two rows, values with a line break and a quote, the second row without a geometry, delivered geometry first: all the
-- hypotheses can be met
example : ∃ (N : NumText) (fmt : Fmt) (parse : Text → Except Err WktGeom) (enc : List (List Text) → List Text → Text)
    (dec : Text → Except Err (List Text) × List (Except Err (List Text))) (names : List Text) (rs : List CsvRow)
    (src : FProg Unit), fmt.f64 = N.num ∧ UnderstandsWkt N parse ∧ DecodesCsv enc dec ∧ rs.length = 2 ∧ (∀ r ∈ rs, r.Ok names) ∧
      (∀ r ∈ rs, ∀ g, r.geom = some g → g.2.IsGeoJson (Recoverable false)) ∧ names ≠ [] ∧ (∃ r ∈ rs, r.geom.isSome) ∧
      FProg.run {} src [] = (datasetEvs none (rs.map (CsvRow.feat false names)), .ok ((), [])) := by
  obtain ⟨parse, hp⟩ := exists_wktParser decimalBits
  obtain ⟨enc, dec, hc, -⟩ := exists_csvCodec
  let rs : List CsvRow := [{ vals := [.string (txt "a\nb\"")], geom := some (7, .polygon [[⟨1#64, 2#64, none, none⟩]]) },
    { vals := [.long 3], geomFirst := true }]
  refine ⟨decimalBits, { f64 := decimalBits.num, f32 := fun _ => [] }, parse, enc, dec, [txt "c"], rs,
    (datasetEvs none (rs.map (CsvRow.feat false [txt "c"]))).foldr FProg.emit (.ret ()), rfl, hp, hc, rfl, ?_, ?_, by simp,
    ⟨_, List.mem_cons_self, rfl⟩, rfl⟩
  · intro r hr
    simp only [rs, List.mem_cons, List.not_mem_nil, or_false] at hr
    rcases hr with rfl | rfl <;> exact ⟨rfl, by simp⟩
  · intro r hr g hg
    simp only [rs, List.mem_cons, List.not_mem_nil, or_false] at hr
    rcases hr with rfl | rfl
    · cases hg
      exact .polygon (by simp [Recoverable, F64.isNaN])
    · cases hg

-- a source for C66_wkt: a line with an SRID
example : Prog.run false (do Prog.emitEv (.srid (some 4326)); wktProcessGeom (.lineString [⟨1#64, 2#64, none, none⟩])) [] =
    ([.srid (some 4326)] ++ (Geom.lineString [⟨1#64, 2#64, none, none⟩]).events false 0, .ok ((), [])) := rfl

/-! ## C67 -/

open Rfc7946

private theorem arrayOf_map {α β γ : Type} (R : β → γ → Prop) (f : α → β) (h : α → γ) (xs : List α)
    (hx : ∀ x ∈ xs, R (f x) (h x)) : ArrayOf R (xs.map f) (xs.map h) := by
  induction xs with
  | nil => trivial
  | cons x xs ih => exact ⟨hx x (by simp), ih fun y hy => hx y (by simp [hy])⟩

/-- the numbers written for a coordinate -/
private def posOf (multi : Bool) (c : Coord) : List F64 := [c.x, c.y] ++ (if multi then c.z.toList else [])

/-- a coordinate that can be written: numbers are read back, no more dimensions than are written -/
private def Fine (fmt : Fmt) (num : Text → F64) (multi : Bool) (c : Coord) : Prop :=
  c.AllOrds (fun x => num (fmt.f64 x) = x) multi ∧ c.m = none ∧ (multi = false → c.z = none)

private theorem pos_back {fmt : Fmt} {num : Text → F64} {multi : Bool} {c : Coord} (h : Fine fmt num multi c) :
    IsPosition num (position fmt.f64 multi c) (posOf multi c) ∧ posCoord (posOf multi c) = c ∧ 2 ≤ (posOf multi c).length := by
  obtain ⟨⟨hx, hy, hz⟩, hm, hd⟩ := h
  obtain ⟨x, y, z, m⟩ := c
  simp only at hx hy hz hm hd
  subst hm
  cases multi with
  | false =>
    have := hd rfl
    subst this
    exact ⟨⟨[fmt.f64 x, fmt.f64 y], rfl, by simp, by simp [posOf, hx, hy]⟩, rfl, by simp [posOf]⟩
  | true =>
    cases z with
    | none => exact ⟨⟨[fmt.f64 x, fmt.f64 y], rfl, by simp, by simp [posOf, hx, hy]⟩, rfl, by simp [posOf]⟩
    | some z => exact ⟨⟨[fmt.f64 x, fmt.f64 y, fmt.f64 z], rfl, by simp, by simp [posOf, hx, hy, hz]⟩, rfl, by simp [posOf]⟩

mutual
/-- the value read for a geometry -/
private def gjOf (multi : Bool) : Geom → GjGeom
  | .point c => .point (posOf multi c)
  | .multiPoint cs => .multiPoint (cs.map (posOf multi))
  | .lineString cs => .lineString (cs.map (posOf multi))
  | .multiLineString ls => .multiLineString (ls.map (List.map (posOf multi)))
  | .polygon rs => .polygon (rs.map (List.map (posOf multi)))
  | .multiPolygon ps => .multiPolygon (ps.map (List.map (List.map (posOf multi))))
  | .collection gs => .collection (gjOfs multi gs)
  | _ => .point []

private def gjOfs (multi : Bool) : List Geom → List GjGeom
  | [] => []
  | g :: gs => gjOf multi g :: gjOfs multi gs
end

private theorem line_back {fmt : Fmt} {num : Text → F64} {multi : Bool} {cs : List Coord} (h : ∀ c ∈ cs, Fine fmt num multi c) :
    IsPositions num (Rfc7946.positions fmt.f64 multi cs) (cs.map (posOf multi)) ∧ (cs.map (posOf multi)).map posCoord = cs ∧
      ∀ p ∈ cs.map (posOf multi), 2 ≤ p.length := by
  refine ⟨⟨_, rfl, arrayOf_map _ _ _ _ fun c hc => (pos_back (h c hc)).1⟩, ?_, ?_⟩
  · rw [List.map_map]
    exact (List.map_congr_left fun c hc => (pos_back (h c hc)).2.1).trans (List.map_id' cs)
  · intro p hp
    obtain ⟨c, hc, rfl⟩ := List.mem_map.mp hp
    exact (pos_back (h c hc)).2.2

private theorem rings_back {fmt : Fmt} {num : Text → F64} {multi : Bool} {ls : List (List Coord)}
    (h : ∀ l ∈ ls, ∀ c ∈ l, Fine fmt num multi c) :
    IsRings num (rings fmt.f64 multi ls) (ls.map (List.map (posOf multi))) ∧
      (ls.map (List.map (posOf multi))).map (List.map posCoord) = ls ∧
      ∀ l ∈ ls.map (List.map (posOf multi)), ∀ p ∈ l, 2 ≤ p.length := by
  refine ⟨⟨_, rfl, arrayOf_map _ _ _ _ fun l hl => (line_back (h l hl)).1⟩, ?_, ?_⟩
  · rw [List.map_map]
    exact (List.map_congr_left fun c hc => (line_back (h c hc)).2.1).trans (List.map_id' ls)
  · intro p hp
    obtain ⟨c, hc, rfl⟩ := List.mem_map.mp hp
    exact (line_back (h c hc)).2.2

private theorem polys_back {fmt : Fmt} {num : Text → F64} {multi : Bool} {ps : List (List (List Coord))}
    (h : ∀ q ∈ ps, ∀ l ∈ q, ∀ c ∈ l, Fine fmt num multi c) :
    IsPolygons num (.arr (ps.map (rings fmt.f64 multi))) (ps.map (List.map (List.map (posOf multi)))) ∧
      (ps.map (List.map (List.map (posOf multi)))).map (List.map (List.map posCoord)) = ps ∧
      ∀ q ∈ ps.map (List.map (List.map (posOf multi))), ∀ l ∈ q, ∀ p ∈ l, 2 ≤ p.length := by
  refine ⟨⟨_, rfl, arrayOf_map _ _ _ _ fun l hl => (rings_back (h l hl)).1⟩, ?_, ?_⟩
  · rw [List.map_map]
    exact (List.map_congr_left fun c hc => (rings_back (h c hc)).2.1).trans (List.map_id' ps)
  · intro p hp
    obtain ⟨c, hc, rfl⟩ := List.mem_map.mp hp
    exact (rings_back (h c hc)).2.2

private theorem has_coords (type : String) (c : Json) : HasCoordinates (object type "coordinates" c) type c :=
  ⟨_, rfl, by simp [Distinct, txt], by simp [member, List.lookup], by
    have : (txt "coordinates" == txt "type") = false := by decide
    simp [member, List.lookup, this]⟩

private theorem geom_back {fmt : Fmt} {num : Text → F64} {multi : Bool} {g : Geom} (h : g.IsGeoJson (Fine fmt num multi))
    (he : g.hasEmptyPoint = false) :
    IsGeometry num (geometry fmt.f64 multi g) (gjOf multi g) ∧ (gjOf multi g).geom = g ∧ (gjOf multi g).Ok := by
  induction h with
  | emptyPoint => simp [Geom.hasEmptyPoint] at he
  | point h =>
    have hp := pos_back h
    simp only [gjOf, geometry, IsGeometry, GjGeom.geom, hp.2.1, true_and]
    exact ⟨⟨_, has_coords _ _, hp.1⟩, .point hp.2.2⟩
  | multiPoint h =>
    have hp := line_back h
    simp only [gjOf, geometry, IsGeometry, GjGeom.geom, hp.2.1, true_and]
    exact ⟨⟨_, has_coords _ _, hp.1⟩, .multiPoint hp.2.2⟩
  | lineString h =>
    have hp := line_back h
    simp only [gjOf, geometry, IsGeometry, GjGeom.geom, hp.2.1, true_and]
    exact ⟨⟨_, has_coords _ _, hp.1⟩, .lineString hp.2.2⟩
  | multiLineString h =>
    have hp := rings_back h
    simp only [gjOf, geometry, IsGeometry, GjGeom.geom, hp.2.1, true_and]
    exact ⟨⟨_, has_coords _ _, hp.1⟩, .multiLineString hp.2.2⟩
  | polygon h =>
    have hp := rings_back h
    simp only [gjOf, geometry, IsGeometry, GjGeom.geom, hp.2.1, true_and]
    exact ⟨⟨_, has_coords _ _, hp.1⟩, .polygon hp.2.2⟩
  | multiPolygon h =>
    have hp := polys_back h
    simp only [gjOf, geometry, IsGeometry, GjGeom.geom, hp.2.1, true_and]
    exact ⟨⟨_, has_coords _ _, hp.1⟩, .multiPolygon hp.2.2⟩
  | @collection gs hgs ih =>
    simp only [Geom.hasEmptyPoint] at he
    have key : IsGeometries num (gs.map (geometry fmt.f64 multi)) (gjOfs multi gs) ∧ (gjOfs multi gs).map GjGeom.geom = gs ∧
        ∀ v ∈ gjOfs multi gs, v.Ok := by
      clear hgs
      induction gs with
      | nil => simp [gjOfs, IsGeometries]
      | cons g gs ihg =>
        simp only [Geom.hasEmptyPointList, Bool.or_eq_false_iff] at he
        obtain ⟨h1, h2, h3⟩ := ih g (by simp) he.1
        obtain ⟨k1, k2, k3⟩ := ihg (fun g hg => ih g (by simp [hg])) he.2
        refine ⟨by simp only [List.map_cons, gjOfs, IsGeometries]; exact ⟨h1, k1⟩, by simp [gjOfs, h2, k2], ?_⟩
        intro v hv
        simp only [gjOfs, List.mem_cons] at hv
        rcases hv with rfl | hv
        · exact h3
        · exact k3 v hv
    simp only [gjOf, geometry, IsGeometry, GjGeom.geom, key.2.1, true_and]
    refine ⟨⟨_, _, rfl, by simp [Distinct, txt], by simp [member, List.lookup], ?_, key.1⟩, .collection key.2.2⟩
    have : (txt "geometries" == txt "type") = false := by decide
    simp [member, List.lookup, this]

/-! ### values -/

private theorem intText_ne_minus_zero (i : Int) : intText i ≠ txt "-0" := by
  intro h
  have h1 := decimal_intText i
  rw [h] at h1
  have h2 : decimal (txt "-0") = some 0 := by decide
  rw [h2] at h1
  have : i = 0 := by simpa using h1.symm
  subst this
  revert h
  decide +kernel

private theorem int_back (num : Text → F64) (ser : Json → Text) (i : Int) (h1 : -(2 ^ 63) ≤ i) (h2 : i < 2 ^ 64) :
    ∃ cv, (propVal num ser (.num (intText i))).column = some cv ∧ cv.content = some (.int i) := by
  simp only [propVal, decimal_intText]
  rw [if_neg (intText_ne_minus_zero i)]
  by_cases h : -(2 ^ 63) ≤ i ∧ i < 2 ^ 63
  · rw [if_pos h]
    refine ⟨_, rfl, ?_⟩
    simp only [ColVal.content]
    rw [Int64.toInt_ofInt_of_le (by simpa using h.1) (by simpa using h.2)]
  · rw [if_neg h, if_pos ⟨by omega, h2⟩]
    refine ⟨_, rfl, ?_⟩
    simp only [ColVal.content]
    have : (UInt64.ofNat i.toNat).toNat = i.toNat := by
      rw [UInt64.toNat_ofNat_of_lt']
      show i.toNat < 2 ^ 64
      omega
    rw [this]
    congr 2
    omega

private theorem float_back (num : Text → F64) (ser : Json → Text) (lit : Text) :
    ∃ cv, (propVal num ser (.num lit)).column = some cv ∧ (cv.content = some (.float64 (num lit)) ∨
      ∃ n, decimal lit = some n ∧ cv.content = some (.int n)) := by
  cases hd : decimal lit with
  | none => simp only [propVal, hd]; exact ⟨_, rfl, .inl rfl⟩
  | some n =>
    by_cases h0 : lit = txt "-0"
    · simp only [propVal, hd, h0, if_true]; exact ⟨_, rfl, .inl rfl⟩
    · simp only [propVal, hd]
      rw [if_neg h0]
      by_cases h : -(2 ^ 63) ≤ n ∧ n < 2 ^ 63
      · rw [if_pos h]
        refine ⟨_, rfl, .inr ⟨n, rfl, ?_⟩⟩
        simp only [ColVal.content]
        rw [Int64.toInt_ofInt_of_le (by simpa using h.1) (by simpa using h.2)]
      · rw [if_neg h]
        by_cases h' : 0 ≤ n ∧ n < 2 ^ 64
        · rw [if_pos h']
          refine ⟨_, rfl, .inr ⟨n, rfl, ?_⟩⟩
          simp only [ColVal.content]
          have : (UInt64.ofNat n.toNat).toNat = n.toNat := by
            rw [UInt64.toNat_ofNat_of_lt']
            show n.toNat < 2 ^ 64
            omega
          rw [this]
          congr 2
          omega
        · rw [if_neg h']
          exact ⟨_, rfl, .inl rfl⟩

private theorem value_back (fmt : Fmt) (decode : Text → Json) (num : Text → F64)
    (ser : Json → Text) (v : ColVal) (hv : v.Printable fmt decode) (hj : v.isNullJson decode = false) :
    ∃ cv c c', (propVal num ser (v.toJson fmt decode)).column = some cv ∧ v.content = some c ∧ cv.content = some c' ∧
      c.BackAs fmt num ser decode c' := by
  have hint : ∀ i : Int, -(2 ^ 63) ≤ i → i < 2 ^ 64 → v.content = some (.int i) →
      ∃ cv c c', (propVal num ser (v.toJson fmt decode)).column = some cv ∧ v.content = some c ∧ cv.content = some c' ∧
        c.BackAs fmt num ser decode c' := by
    intro i h1 h2 h
    obtain ⟨cv, h3, h4⟩ := int_back num ser i h1 h2
    exact ⟨cv, _, _, by simpa [ColVal.toJson, h, Content.toJson] using h3, h, h4, rfl⟩
  cases v with
  | byte v => exact hint _ (by have := Int8.le_toInt v; omega) (by have := Int8.toInt_lt v; omega) rfl
  | ubyte v => exact hint _ (by omega) (by have := UInt8.toNat_lt v; omega) rfl
  | bool b => exact ⟨_, _, _, rfl, rfl, rfl, rfl⟩
  | short v => exact hint _ (by have := Int16.le_toInt v; omega) (by have := Int16.toInt_lt v; omega) rfl
  | ushort v => exact hint _ (by omega) (by have := UInt16.toNat_lt v; omega) rfl
  | int v => exact hint _ (by have := Int32.le_toInt v; omega) (by have := Int32.toInt_lt v; omega) rfl
  | uint v => exact hint _ (by omega) (by have := UInt32.toNat_lt v; omega) rfl
  | long v => exact hint _ (by have := Int64.le_toInt v; omega) (by have := Int64.toInt_lt v; omega) rfl
  | ulong v => exact hint _ (by omega) (by have := UInt64.toNat_lt v; omega) rfl
  | float x =>
    obtain ⟨cv, h1, h2⟩ := float_back num ser (fmt.f32 x)
    rcases h2 with h2 | ⟨n, hn, h2⟩
    · exact ⟨cv, _, _, h1, rfl, h2, .inl rfl⟩
    · exact ⟨cv, _, _, h1, rfl, h2, .inr ⟨n, hn, rfl⟩⟩
  | double x =>
    obtain ⟨cv, h1, h2⟩ := float_back num ser (fmt.f64 x)
    rcases h2 with h2 | ⟨n, hn, h2⟩
    · exact ⟨cv, _, _, h1, rfl, h2, .inl rfl⟩
    · exact ⟨cv, _, _, h1, rfl, h2, .inr ⟨n, hn, rfl⟩⟩
  | string t => exact ⟨_, _, _, rfl, rfl, rfl, rfl⟩
  | json t =>
    have e : (ColVal.json t).toJson fmt decode = decode t := rfl
    rw [e]
    cases hd : decode t with
    | arr xs => exact ⟨_, _, _, rfl, rfl, rfl, by simp [Content.BackAs, hd]⟩
    | obj ms => exact ⟨_, _, _, rfl, rfl, rfl, by simp [Content.BackAs, hd]⟩
    | null => simp [ColVal.isNullJson, hd] at hj
    | bool b => exact ⟨_, _, _, rfl, rfl, rfl, by simp [Content.BackAs, hd]⟩
    | num l =>
      obtain ⟨cv, h1, h2⟩ := float_back num ser l
      rcases h2 with h2 | ⟨n, hn, h2⟩
      · exact ⟨cv, _, _, h1, rfl, h2, by simp [Content.BackAs, hd]⟩
      · exact ⟨cv, _, _, h1, rfl, h2, by simp only [Content.BackAs, hd]; exact .inr ⟨n, hn, rfl⟩⟩
    | str l => exact ⟨_, _, _, rfl, rfl, rfl, by simp [Content.BackAs, hd]⟩
  | dateTime t => exact ⟨_, _, _, rfl, rfl, rfl, rfl⟩
  | binary b => exact absurd hv (by simp [ColVal.Printable])

/-! ### features -/

private theorem geojson_mono {p q : Coord → Prop} {g : Geom} (h : g.IsGeoJson p) (hpq : ∀ c, p c → q c) : g.IsGeoJson q := by
  induction h with
  | emptyPoint => exact .emptyPoint
  | point h => exact .point (hpq _ h)
  | multiPoint h => exact .multiPoint fun c hc => hpq _ (h c hc)
  | lineString h => exact .lineString fun c hc => hpq _ (h c hc)
  | multiLineString h => exact .multiLineString fun l hl c hc => hpq _ (h l hl c hc)
  | polygon h => exact .polygon fun l hl c hc => hpq _ (h l hl c hc)
  | multiPolygon h => exact .multiPolygon fun q hq l hl c hc => hpq _ (h q hq l hl c hc)
  | collection _ ih => exact .collection ih

private theorem perm_map {α β : Type} (f : α → β) {l m : List β} (h : l.Perm m) : ∀ xs : List α, m = xs.map f →
    ∃ ys : List α, ys.Perm xs ∧ l = ys.map f := by
  induction h with
  | nil => intro xs hx; exact ⟨[], by rw [List.map_eq_nil_iff.mp hx.symm], rfl⟩
  | cons a _ ih =>
    intro xs hx
    cases xs with
    | nil => simp at hx
    | cons x xs =>
      simp only [List.map_cons, List.cons.injEq] at hx
      obtain ⟨ys, h1, h2⟩ := ih xs hx.2
      exact ⟨x :: ys, h1.cons x, by simp [h2, hx.1]⟩
  | swap a b l =>
    intro xs hx
    match xs, hx with
    | x :: y :: xs, hx =>
      simp only [List.map_cons, List.cons.injEq] at hx
      exact ⟨y :: x :: xs, .swap x y xs, by simp [hx.1, hx.2.1, hx.2.2]⟩
    | [], hx => simp at hx
    | [x], hx => simp at hx
  | trans _ _ ih1 ih2 =>
    intro xs hx
    obtain ⟨ys, h1, h2⟩ := ih2 xs hx
    obtain ⟨zs, h3, h4⟩ := ih1 ys h2
    exact ⟨zs, h3.trans h1, h4⟩

/-- the value read for a feature -/
private def featOf (P : GjParser) (fmt : Fmt) (decode : Text → Json) (multi : Bool) (ps : List (Text × ColVal)) (g : Geom) : GjFeature where
  properties := some ((P.order (ps.map fun p => (p.1, p.2.toJson fmt decode))).map fun p => (p.1, propVal P.num P.ser p.2))
  geometry := some (gjOf multi g)

private theorem null_gone (fmt : Fmt) (decode : Text → Json) (num : Text → F64) (ser : Json → Text) (v : ColVal)
    (h : v.isNullJson decode = true) : (propVal num ser (v.toJson fmt decode)).column = none := by
  unfold ColVal.isNullJson at h
  split at h
  · rename_i t
    split at h
    · rename_i hd
      show (propVal num ser (decode t)).column = none
      rw [hd]; rfl
    · cases h
  · cases h

private theorem props_back (fmt : Fmt) (decode : Text → Json) (num : Text → F64)
    (ser : Json → Text) (ps : List (Text × ColVal)) (hv : ∀ p ∈ ps, p.2.Printable fmt decode) :
    ArrayOf (fun (q : PropRec) (p : (Text × ColVal) × Nat) => q.1 = p.2 ∧ q.2.1 = p.1.1 ∧
      ∃ c c', p.1.2.content = some c ∧ q.2.2.content = some c' ∧ c.BackAs fmt num ser decode c')
      (gjProps (ps.map fun p => (p.1, propVal num ser (p.2.toJson fmt decode))))
      (ps.zipIdx.filter fun p => !p.1.2.isNullJson decode) := by
  have key : ∀ (ps : List (Text × ColVal)) (k : Nat),
      (∀ p ∈ ps, p.2.Printable fmt decode) → ∀ qs,
      qs = (enumFrom k (ps.map fun p => (p.1, propVal num ser (p.2.toJson fmt decode)))).filterMap
        (fun p => p.2.2.column.map fun v => ((p.1, p.2.1, v) : PropRec)) →
      ArrayOf (fun (q : PropRec) (p : (Text × ColVal) × Nat) => q.1 = p.2 ∧ q.2.1 = p.1.1 ∧
        ∃ c c', p.1.2.content = some c ∧ q.2.2.content = some c' ∧ c.BackAs fmt num ser decode c') qs
        ((ps.zipIdx k).filter fun p => !p.1.2.isNullJson decode) := by
    intro ps
    induction ps with
    | nil => rintro k _ qs rfl; exact trivial
    | cons p ps ih =>
      rintro k hv qs rfl
      have ih := ih (k + 1) (fun q hq => hv q (by simp [hq])) _ rfl
      cases hn : p.2.isNullJson decode with
      | true =>
        simp only [List.map_cons, enumFrom, List.filterMap_cons, null_gone fmt decode num ser p.2 hn, Option.map_none,
          List.zipIdx_cons, List.filter_cons, hn, Bool.not_true, Bool.false_eq_true, if_false]
        exact ih
      | false =>
        obtain ⟨cv, c, c', h1, h2, h3, h4⟩ := value_back fmt decode num ser p.2 (hv p (by simp)) hn
        simp only [List.map_cons, enumFrom, List.filterMap_cons, h1, Option.map_some,
          List.zipIdx_cons, List.filter_cons, hn, Bool.not_false, if_true]
        exact ⟨⟨rfl, rfl, c, c', h2, h3, h4⟩, ih⟩
  exact key ps 0 hv _ rfl

private theorem feature_back (P : GjParser) (fmt : Fmt) (decode : Text → Json) (multi : Bool)
    (d : FeatureData) (ps : List (Text × ColVal)) (g : Geom) (hd : d.Carried fmt decode P.num multi ps g) :
    IsFeature P.num P.ser P.order (feature fmt decode multi d) (featOf P fmt decode multi ps g) ∧
      (featOf P fmt decode multi ps g).Ok ∧
      ∀ m i, FeatureData.Back fmt P.num P.ser decode ps (g.events m i) ((featOf P fmt decode multi ps g).feat m i) := by
  have hfine : g.IsGeoJson (Fine fmt P.num multi) := by
    refine geojson_mono hd.type fun c hc =>
      ⟨⟨hc.1.1.2, hc.1.2.1.2, fun hm z hz => (hc.1.2.2 hm z hz).2⟩, hc.2.1, hc.2.2⟩
  have hb := geom_back hfine hd.noEmpty
  obtain ⟨ps', hperm, hord⟩ := perm_map (fun p : Text × ColVal => (p.1, p.2.toJson fmt decode))
    (P.order_perm (ps.map fun p => (p.1, p.2.toJson fmt decode)) (by
      rw [Distinct, List.map_map]; exact hd.nodup)) ps rfl
  refine ⟨?_, ?_, ?_⟩
  · have e1 : (txt "geometry" == txt "type") = false := by decide
    have e2 : (txt "properties" == txt "type") = false := by decide
    have e3 : (txt "properties" == txt "geometry") = false := by decide
    have e4 : (txt "geometry" == txt "properties") = false := by decide
    refine ⟨_, .obj (ps.map fun p => (p.1, p.2.toJson fmt decode)), geometry fmt.f64 multi g, rfl, ?_, ?_, ?_, ?_, ?_, ?_⟩
    · cases hf : d.geomFirst <;> simp [Distinct, propsMember, geomMember, hd.props, hd.geom, txt]
    · simp [member, List.lookup]
    · cases hf : d.geomFirst <;> simp [member, List.lookup, propsMember, geomMember, hd.props, hd.geom, e2, e3]
    · cases hf : d.geomFirst <;> simp [member, List.lookup, propsMember, geomMember, hd.props, hd.geom, e1, e4]
    · exact ⟨_, rfl, rfl⟩
    · exact hb.1
  · intro v hv
    cases hv
    exact hb.2.2
  · intro m i
    have hp := props_back fmt decode P.num P.ser ps' fun p hp => hd.vals p (hperm.mem_iff.mp hp)
    refine ⟨by simp [GjFeature.feat, featOf, hb.2.1], _, ps', rfl, hperm, ?_⟩
    rw [hord, List.map_map]
    exact hp

/-- Features written as GeoJSON are read back: for every source of features that GeoJSON can carry, whatever the dimensions of the
writer, the text is read by any parser of RFC 7946 as the same features, in order: the same geometries (to processors of any
dimensions), the same properties, maybe in another order.  What comes back of a value is told by `Content.BackAs`.
For embedded JSON arrays and objects the parser's own printing is read back; embedded nulls do not come back.  Empty points and
features without properties or geometry section are not GeoJSON, see below. -/
theorem C67_feature_collection_partial (P : GjParser) (fmt : Fmt) (decode : Text → Json)
    (dims : Dims) (name : Option Text) (hn : ∀ n, name = some n → PlainText n ∧ '"' ∉ n) (ds : List FeatureData)
    (hd : ∀ d ∈ ds, ∃ ps g, d.Carried fmt decode P.num dims.multi ps g) (src : FProg Unit) (bs rest : List Byte)
    (hsrc : FProg.run { multi := dims.multi, dims := dims } src bs =
      (datasetEvs name (ds.map (FeatureData.feat dims.multi)), .ok ((), rest))) :
    ∃ w evs, FProg.interp (GeoJsonWriter.proc fmt) src { dims := dims } bs = (w, evs, .ok ((), rest)) ∧
      (P.accepts w.out → ∀ env bs', ∃ fs, FProg.run env (readGeoJson (P.parse w.out)) bs' = (datasetEvs none fs, .ok ((), bs')) ∧
        fs.length = ds.length ∧
        ∀ (i : Nat) (d : FeatureData), ds[i]? = some d → ∃ ps g f, d.Carried fmt decode P.num dims.multi ps g ∧ fs[i]? = some f ∧
          FeatureData.Back fmt P.num P.ser decode ps (g.events env.multi i) f) := by
  obtain ⟨w, h1, h2⟩ := C24_feature_collection_partial fmt decode dims.multi name ds hn (by
    intro d h
    obtain ⟨ps, g, hc⟩ := hd d h
    refine ⟨?_, ?_, ?_⟩
    · intro qs hq; rw [hc.props] at hq; cases hq; exact hc.names
    · intro qs hq; rw [hc.props] at hq; cases hq; exact hc.vals
    · intro q hq; rw [hc.geom] at hq; cases hq; exact geojson_mono hc.type fun c hc =>
      ⟨hc.1.1.1, hc.1.2.1.1, fun hm z hz => (hc.1.2.2 hm z hz).1⟩) dims
  refine ⟨w, _, by rw [FProg.interp_of_feed_ok (agrees_geojson_dims fmt dims) src { dims := dims } w rfl bs
    (by rw [hsrc]; exact h1), hsrc], ?_⟩
  intro hacc env bs'
  let f : FeatureData → GjFeature := fun d => featOf P fmt decode dims.multi (d.props.getD []) (d.geom.getD .emptyPoint)
  have hf : ∀ d ∈ ds, ∃ ps g, d.Carried fmt decode P.num dims.multi ps g ∧ f d = featOf P fmt decode dims.multi ps g := by
    intro d h
    obtain ⟨ps, g, hc⟩ := hd d h
    exact ⟨ps, g, hc, by simp [f, hc.props, hc.geom]⟩
  have hparse : P.parse w.out = .ok (.featureCollection (ds.map f)) := by
    refine P.collection _ _ _ hacc h2 ⟨_, ds.map (feature fmt decode dims.multi), rfl, ?_, ?_, ?_, ?_⟩
    · cases name <;> simp [Distinct, txt]
    · simp [member, List.lookup]
    · have e1 : (txt "features" == txt "type") = false := by decide
      have e2 : (txt "features" == txt "name") = false := by decide
      cases name <;> simp [member, List.lookup, e1, e2]
    · refine arrayOf_map _ _ _ _ fun d h => ?_
      obtain ⟨ps, g, hc, hfd⟩ := hf d h
      rw [hfd]
      exact (feature_back P fmt decode dims.multi d ps g hc).1
  have hok : ∀ v ∈ ds.map f, v.Ok := by
    intro v hv
    obtain ⟨d, h, rfl⟩ := List.mem_map.mp hv
    obtain ⟨ps, g, hc, hfd⟩ := hf d h
    rw [hfd]
    exact (feature_back P fmt decode dims.multi d ps g hc).2.1
  refine ⟨_, by rw [hparse]; exact C26_feature_collection env _ hok bs', ?_, ?_⟩
  · have : ∀ (l : List GjFeature) k, (enumFrom k l).length = l.length := by
      intro l
      induction l with
      | nil => intro k; rfl
      | cons x l ih => intro k; simp [enumFrom, ih]
    simp [this]
  · intro i d hi
    have hmem : d ∈ ds := List.mem_of_getElem? hi
    obtain ⟨ps, g, hc, hfd⟩ := hf d hmem
    have hget : ∀ (l : List GjFeature) k i v, l[i]? = some v → (enumFrom k l)[i]? = some (k + i, v) := by
      intro l
      induction l with
      | nil => intro k i v h; simp at h
      | cons x l ih =>
        intro k i v h
        cases i with
        | zero => simpa [enumFrom] using h
        | succ i =>
          simp only [List.getElem?_cons_succ] at h
          simp only [enumFrom, List.getElem?_cons_succ, ih (k + 1) i v h]
          congr 2
          omega
    refine ⟨ps, g, (f d).feat env.multi i, hc, ?_, ?_⟩
    · rw [List.getElem?_map, hget (ds.map f) 0 i (f d) (by simp [hi])]
      simp
    · rw [hfd]
      exact (feature_back P fmt decode dims.multi d ps g hc).2.2 env.multi i

/-- `to_json` of features and reading it again. -/
theorem C67_to_json_partial (P : GjParser) (fmt : Fmt) (decode : Text → Json)
    (name : Option Text) (hn : ∀ n, name = some n → PlainText n ∧ '"' ∉ n) (ds : List FeatureData)
    (hd : ∀ d ∈ ds, ∃ ps g, d.Carried fmt decode P.num false ps g) (src : FProg Unit) (bs rest : List Byte)
    (hsrc : FProg.run {} src bs = (datasetEvs name (ds.map (FeatureData.feat false)), .ok ((), rest))) :
    ∃ t, processToJson fmt src bs = .ok t ∧
      (P.accepts t → ∀ env bs', ∃ fs, FProg.run env (readGeoJson (P.parse t)) bs' = (datasetEvs none fs, .ok ((), bs')) ∧
        fs.length = ds.length ∧
        ∀ (i : Nat) (d : FeatureData), ds[i]? = some d → ∃ ps g f, d.Carried fmt decode P.num false ps g ∧ fs[i]? = some f ∧
          FeatureData.Back fmt P.num P.ser decode ps (g.events env.multi i) f) := by
  obtain ⟨w, evs, h1, h2⟩ := C67_feature_collection_partial P fmt decode {} name hn ds hd src bs rest hsrc
  exact ⟨w.out, by rw [processToJson, h1], h2⟩

/-- `to_json` of a geometry and reading it again: the same geometry, also from a source that starts with an SRID. -/
theorem C67_geometry_partial (P : GjParser) (num : F64 → Text) (g : Geom)
    (hg : g.IsGeoJson fun c => c.AllOrds (fun x => IsNumber (num x) ∧ P.num (num x) = x) false ∧ c.z = none ∧ c.m = none)
    (he : g.hasEmptyPoint = false) (src : Prog Unit) (bs rest : List Byte) (pre : List Ev)
    (hpre : pre = [] ∨ ∃ s, pre = [.srid s]) (hsrc : Prog.run false src bs = (pre ++ g.events false 0, .ok ((), rest))) :
    ∃ t, toJson num src bs = .ok t ∧ (P.accepts t → ∀ env bs',
      FProg.run env (readGeoJson (P.parse t)) bs' = ((g.events env.multi 0).map FEv.geom, .ok ((), bs'))) := by
  obtain ⟨t, h1, h2⟩ := C48_to_json num src bs rest g pre hpre hsrc (geojson_mono hg fun c hc => ⟨hc.1.1.1, hc.1.2.1.1, by simp⟩)
  refine ⟨t, h1, fun hacc env bs' => ?_⟩
  have hb := geom_back (fmt := { f32 := fun _ => [], f64 := num }) (num := P.num) (multi := false) (g := g)
    (geojson_mono hg fun c hc => ⟨⟨hc.1.1.2, hc.1.2.1.2, by simp⟩, hc.2.2, fun _ => hc.2.1⟩) he
  rw [P.geometry t _ _ hacc h2 hb.1]
  simp only [readGeoJson]
  rw [C26_geometry env _ hb.2.2, hb.2.1]

/-- The same for `process_geom` of the GeoJSON text. -/
theorem C67_geometry_process_geom_partial (P : GjParser) (num : F64 → Text) (g : Geom)
    (hg : g.IsGeoJson fun c => c.AllOrds (fun x => IsNumber (num x) ∧ P.num (num x) = x) false ∧ c.z = none ∧ c.m = none)
    (he : g.hasEmptyPoint = false) (src : Prog Unit) (bs rest : List Byte) (pre : List Ev)
    (hpre : pre = [] ∨ ∃ s, pre = [.srid s]) (hsrc : Prog.run false src bs = (pre ++ g.events false 0, .ok ((), rest))) :
    ∃ t, toJson num src bs = .ok t ∧ IsText t (geometry num false g) ∧ (P.accepts t → ∃ v, P.parse t = .ok v ∧ ∀ multi bs',
      Prog.run multi (processGeoJsonGeom v) bs' = (g.events multi 0, .ok ((), bs'))) := by
  obtain ⟨t, h1, h2⟩ := C48_to_json num src bs rest g pre hpre hsrc (geojson_mono hg fun c hc => ⟨hc.1.1.1, hc.1.2.1.1, by simp⟩)
  have hb := geom_back (fmt := { f32 := fun _ => [], f64 := num }) (num := P.num) (multi := false) (g := g)
    (geojson_mono hg fun c hc => ⟨⟨hc.1.1.2, hc.1.2.1.2, by simp⟩, hc.2.2, fun _ => hc.2.1⟩) he
  refine ⟨t, h1, h2, fun hacc => ⟨_, P.geometry t _ _ hacc h2 hb.1, fun multi bs' => ?_⟩⟩
  simp only [processGeoJsonGeom]
  rw [run_gjGeomN multi hb.2.2 0 bs', hb.2.1]

/-! ### lines -/

private theorem bufLinesFrom_line (l t : Text) (hl : '\n' ∉ l) (hr : (cur ++ l).getLast? ≠ some '\r') :
    bufLinesFrom cur (l ++ '\n' :: t) = (cur ++ l) :: bufLinesFrom [] t := by
  induction l generalizing cur with
  | nil =>
    simp only [List.append_nil] at hr
    simp [bufLinesFrom, hr]
  | cons c l ih =>
    simp only [List.mem_cons, not_or] at hl
    simp only [List.cons_append, bufLinesFrom]
    rw [if_neg (fun h => hl.1 h.symm), ih hl.2 (by simpa using hr)]
    simp

private theorem bufLines_lines (ls : List Text) (h : ∀ l ∈ ls, '\n' ∉ l ∧ l.getLast? ≠ some '\r') :
    bufLines (ls.map (· ++ txt "\n")).flatten = ls := by
  induction ls with
  | nil => rfl
  | cons l ls ih =>
    have h1 := h l (by simp)
    have := bufLinesFrom_line (cur := []) l (ls.map (· ++ txt "\n")).flatten h1.1 (by simpa using h1.2)
    simp only [List.map_cons, List.flatten_cons, bufLines, List.append_assoc]
    rw [show txt "\n" = ['\n'] from rfl] at this ⊢
    simp only [List.cons_append, List.nil_append] at this ⊢
    rw [this]
    congr 1
    exact ih fun l hl => h l (by simp [hl])

private def lineItem (d : FeatureData) : LineItem :=
  .feature (d.props.map (enumFrom 0)) (d.geom.map fun g => (0, g)) d.geomFirst

private theorem lineItem_evs (multi : Bool) (d : FeatureData) (i : Nat) : (lineItem d).evs multi i = (d.feat multi).evs i := by
  simp only [lineItem, LineItem.evs, FeatureData.feat, Option.map_map]
  rfl

private theorem lineItem_text (fmt : Fmt) (multi : Bool) (d : FeatureData) {p : Coord → Prop}
    (hg : ∀ g, d.geom = some g → g.IsGeoJson p) :
    GeoJsonWriter.textOf fmt ((lineItem d).evs multi 0) = GeoJsonWriter.featText fmt multi d := by
  have h1 := GeoJsonWriter.feed_feat fmt multi d hg 0 {}
  rw [GeoJsonWriter.feed_text] at h1
  simp only [GeoJsonWriter.featSep] at h1
  rw [lineItem_evs]
  simpa [GeoJsonWriter.put] using h1

private theorem feed_lines (fmt : Fmt) (multi : Bool) (ds : List FeatureData) {p : Coord → Prop}
    (hg : ∀ d ∈ ds, ∀ g, d.geom = some g → g.IsGeoJson p) (i : Nat) (w : GeoJsonWriter) :
    feed (GeoJsonLineWriter.step fmt) ⟨0, w⟩ (featEvs i (ds.map (FeatureData.feat multi))) =
      .ok ⟨0, w.put ((ds.map (GeoJsonWriter.featText fmt multi)).map (· ++ txt "\n")).flatten⟩ := by
  induction ds generalizing i w with
  | nil => simp [featEvs]
  | cons d ds ih =>
    simp only [List.map_cons, featEvs, feed_append, ← lineItem_evs]
    rw [GeoJsonLineWriter.feed_item fmt multi (lineItem d) trivial i w, lineItem_text fmt multi d (hg d (by simp))]
    simp only
    have := ih (fun e he => hg e (by simp [he])) (i + 1) (w.put (GeoJsonWriter.featText fmt multi d ++ txt "\n"))
    rw [this]
    simp

private theorem line_dims (fmt : Fmt) (s s' : GeoJsonLineWriter) (e : FEv) (h : GeoJsonLineWriter.step fmt s e = .ok s') :
    s'.inner.dims = s.inner.dims := by
  have hend : ∀ w w' : GeoJsonLineWriter, w.endContext = .ok w' → w'.inner.dims = w.inner.dims := by
    intro w w' h
    unfold GeoJsonLineWriter.endContext at h
    split at h
    · cases h
    · split at h <;> cases h <;> rfl
  have hcomma : ∀ (w : GeoJsonLineWriter) i, (w.comma i).inner.dims = w.inner.dims := by
    intro w i
    unfold GeoJsonLineWriter.comma
    split <;> rfl
  have hin : ∀ (w : GeoJsonWriter) e, (w.geomStep fmt.f64 e).dims = w.dims := by
    intro w e
    rw [GeoJsonWriter.geomStep_text]
    rfl
  cases e with
  | geom e =>
    simp only [GeoJsonLineWriter.step] at h
    cases e with
    | srid _ => cases h; rfl
    | xy x y idx => cases h; exact hin _ _
    | coord x y z m t tm idx => cases h; exact hin _ _
    | emptyPoint idx =>
      rw [hend _ _ h]
      simp only [hin, GeoJsonLineWriter.beginContext, hcomma]
    | gbegin k tagged size idx =>
      simp only [GeoJsonLineWriter.geomStep] at h
      split at h
      · cases h
        simp only [hin, GeoJsonLineWriter.beginContext, hcomma]
      · cases h; rfl
    | gend k tagged idx =>
      simp only [GeoJsonLineWriter.geomStep] at h
      split at h
      · rw [hend _ _ h]
        exact hin _ _
      · cases h; rfl
  | ftEnd idx =>
    simp only [GeoJsonLineWriter.step, GeoJsonWriter.step_text] at h
    rw [hend _ _ h]
    rfl
  | _ =>
    simp only [GeoJsonLineWriter.step, GeoJsonWriter.step_text] at h
    cases h
    rfl

/-- Features written as line-delimited GeoJSON are read back, under the conditions of `C67_feature_collection_partial` and if embedded
JSON has no line breaks (the geometries are delivered with index 0). -/
theorem C67_lines_partial (P : GjParser) (fmt : Fmt) (decode : Text → Json) (h32 : ∀ x, '\n' ∉ fmt.f32 x) (h64 : ∀ x, '\n' ∉ fmt.f64 x)
    (dims : Dims) (name : Option Text) (ds : List FeatureData)
    (hd : ∀ d ∈ ds, ∃ ps g, d.Carried fmt decode P.num dims.multi ps g)
    (hnl : ∀ d ∈ ds, ∀ ps, d.props = some ps → ∀ p ∈ ps, ∀ t, p.2 = .json t → '\n' ∉ t) (src : FProg Unit) (bs rest : List Byte)
    (hsrc : FProg.run { multi := dims.multi, dims := dims } src bs =
      (datasetEvs name (ds.map (FeatureData.feat dims.multi)), .ok ((), rest))) :
    ∃ w evs, FProg.interp (GeoJsonLineWriter.proc fmt) src { inner := { dims := dims } } bs = (w, evs, .ok ((), rest)) ∧
      ((∀ l ∈ bufLines w.inner.out, P.accepts l) → ∀ env bs', ∃ fs,
        FProg.run env (readGeoJsonLinesText P.parse w.inner.out) bs' = (datasetEvs none fs, .ok ((), bs')) ∧
        fs.length = ds.length ∧
        ∀ (i : Nat) (d : FeatureData), ds[i]? = some d → ∃ ps g f, d.Carried fmt decode P.num dims.multi ps g ∧ fs[i]? = some f ∧
          FeatureData.Back fmt P.num P.ser decode ps (g.events env.multi 0) f) := by
  have hpr : ∀ d ∈ ds, d.Printable fmt decode dims.multi := by
    intro d h
    obtain ⟨ps, g, hc⟩ := hd d h
    refine ⟨?_, ?_, ?_⟩
    · intro qs hq; rw [hc.props] at hq; cases hq; exact hc.names
    · intro qs hq; rw [hc.props] at hq; cases hq; exact hc.vals
    · intro q hq; rw [hc.geom] at hq; cases hq; exact geojson_mono hc.type fun c hc =>
      ⟨hc.1.1.1, hc.1.2.1.1, fun hm z hz => (hc.1.2.2 hm z hz).1⟩
  have hplain : ∀ t : Text, PlainText t → '\n' ∉ t := fun t h hm => absurd (h _ hm).2 (by decide)
  have hline : ∀ l ∈ ds.map (GeoJsonWriter.featText fmt dims.multi), '\n' ∉ l ∧ l.getLast? ≠ some '\r' := by
    intro l hl
    obtain ⟨d, h, rfl⟩ := List.mem_map.mp hl
    obtain ⟨ps, g, hc⟩ := hd d h
    refine ⟨?_, ?_⟩
    · rw [← lineItem_text fmt dims.multi d (hpr d h).geom]
      refine GeoJsonLineWriter.item_newline fmt h32 h64 dims.multi _ ?_
      intro q hq
      simp only [hc.props, Option.map_some, Option.getD_some] at hq
      have hmem : ∀ (l : List (Text × ColVal)) k, q ∈ enumFrom k l → q.2 ∈ l := by
        intro l
        induction l with
        | nil => intro k h; simp [enumFrom] at h
        | cons x l ih =>
          intro k h
          rcases List.mem_cons.mp h with rfl | h
          · simp
          · exact List.mem_cons_of_mem _ (ih _ h)
      have hq := hmem _ _ hq
      refine ⟨hplain _ (hc.names _ hq), ?_⟩
      have hv := hc.vals _ hq
      obtain ⟨i, n, v⟩ := q
      cases v with
      | string t => exact hplain _ hv
      | dateTime t => exact hplain _ hv
      | json t => exact hnl d h ps hc.props _ hq t rfl
      | _ => trivial
    · rw [GeoJsonWriter.featText, ← List.append_assoc, List.getLast?_append]
      simp [txt]
  have hfeed : feed (GeoJsonLineWriter.step fmt) { inner := { dims := dims } }
      (datasetEvs name (ds.map (FeatureData.feat dims.multi))) =
      .ok ⟨0, { dims := dims, out := ((ds.map (GeoJsonWriter.featText fmt dims.multi)).map (· ++ txt "\n")).flatten }⟩ := by
    rw [datasetEvs, C25_dataset_frame, feed_lines fmt dims.multi ds (fun d h => (hpr d h).geom)]
    simp [GeoJsonWriter.put]
  have hagr : FProg.Agrees (GeoJsonLineWriter.proc fmt) { multi := dims.multi, dims := dims } (fun w => w.inner.dims = dims) := by
    refine ⟨?_, ?_, ?_, ?_⟩
    · intro s hs; show s.inner.dims.multi = _; rw [hs]
    · intro s hs; exact hs
    · intro s e _; rfl
    · intro s e s' hs h
      exact (line_dims fmt s s' e h).trans hs
  refine ⟨_, _, by rw [FProg.interp_of_feed_ok hagr src _ _ rfl bs (by rw [hsrc]; exact hfeed), hsrc], ?_⟩
  simp only [readGeoJsonLinesText]
  rw [bufLines_lines _ hline]
  intro hacc env bs'
  let f : FeatureData → GjFeature := fun d => featOf P fmt decode dims.multi (d.props.getD []) (d.geom.getD .emptyPoint)
  have hf : ∀ d ∈ ds, ∃ ps g, d.Carried fmt decode P.num dims.multi ps g ∧ f d = featOf P fmt decode dims.multi ps g := by
    intro d h
    obtain ⟨ps, g, hc⟩ := hd d h
    exact ⟨ps, g, hc, by simp [f, hc.props, hc.geom]⟩
  have hparse : (ds.map (GeoJsonWriter.featText fmt dims.multi)).map P.parse = (ds.map f).map fun f => .ok (.feature f) := by
    simp only [List.map_map]
    refine List.map_congr_left fun d h => ?_
    obtain ⟨ps, g, hc, hfd⟩ := hf d h
    simp only [Function.comp_apply, hfd]
    exact P.feature _ _ _ (hacc _ (List.mem_map_of_mem h))
      (GeoJsonWriter.isText_value (GeoJsonWriter.isValue_feat fmt decode dims.multi d (hpr d h)))
      (feature_back P fmt decode dims.multi d ps g hc).1
  rw [hparse]
  refine ⟨_, C26_feature_lines env _ ?_ bs', by simp, ?_⟩
  · intro v hv
    obtain ⟨d, h, rfl⟩ := List.mem_map.mp hv
    obtain ⟨ps, g, hc, hfd⟩ := hf d h
    rw [hfd]
    exact (feature_back P fmt decode dims.multi d ps g hc).2.1
  · intro i d hi
    obtain ⟨ps, g, hc, hfd⟩ := hf d (List.mem_of_getElem? hi)
    refine ⟨ps, g, (f d).feat env.multi 0, hc, by simp [hi], ?_⟩
    rw [hfd]
    exact (feature_back P fmt decode dims.multi d ps g hc).2.2 env.multi 0

/-! ### there are such parsers -/

private theorem arrayOf_unique {α β : Type} {R : β → α → Prop} (hR : ∀ j x y, R j x → R j y → x = y) :
    ∀ js xs ys, ArrayOf R js xs → ArrayOf R js ys → xs = ys
  | [], [], [], _, _ => rfl
  | j :: js, x :: xs, y :: ys, h, h' => by rw [hR j x y h.1 h'.1, arrayOf_unique hR js xs ys h.2 h'.2]
  | [], [], _ :: _, _, h => h.elim
  | [], _ :: _, _, h, _ => h.elim
  | _ :: _, [], _, h, _ => h.elim
  | _ :: _, _ :: _, [], _, h => h.elim

private theorem position_unique (num : Text → F64) (j : Json) (p q : List F64) : IsPosition num j p → IsPosition num j q → p = q := by
  rintro ⟨l, rfl, -, rfl⟩ ⟨l', h, -, rfl⟩
  have : l = l' := by
    simp only [Json.arr.injEq] at h
    exact (List.map_inj_right (by intro a b h; cases h; rfl)).mp h
  rw [this]

private theorem positions_unique (num : Text → F64) (j : Json) (p q) : IsPositions num j p → IsPositions num j q → p = q := by
  rintro ⟨l, rfl, h⟩ ⟨l', h0, h'⟩
  cases h0
  exact arrayOf_unique (position_unique num) _ _ _ h h'

private theorem rings_unique (num : Text → F64) (j : Json) (p q) : IsRings num j p → IsRings num j q → p = q := by
  rintro ⟨l, rfl, h⟩ ⟨l', h0, h'⟩
  cases h0
  exact arrayOf_unique (positions_unique num) _ _ _ h h'

private theorem polygons_unique (num : Text → F64) (j : Json) (p q) : IsPolygons num j p → IsPolygons num j q → p = q := by
  rintro ⟨l, rfl, h⟩ ⟨l', h0, h'⟩
  cases h0
  exact arrayOf_unique (rings_unique num) _ _ _ h h'

/-- the type of an object -/
private def typeOf : Json → Option Json
  | .obj ms => member ms "type"
  | _ => none

private theorem coords_unique {j : Json} {s : String} {c c' : Json} (h : HasCoordinates j s c) (h' : HasCoordinates j s c') :
    c = c' := by
  obtain ⟨ms, rfl, -, -, h1⟩ := h
  obtain ⟨ms', h0, -, -, h2⟩ := h'
  cases h0
  rw [h1] at h2
  exact Option.some.inj h2

/-- the name of the type of a geometry -/
private def typeName : GjGeom → String
  | .point _ => "Point"
  | .multiPoint _ => "MultiPoint"
  | .lineString _ => "LineString"
  | .multiLineString _ => "MultiLineString"
  | .polygon _ => "Polygon"
  | .multiPolygon _ => "MultiPolygon"
  | .collection _ => "GeometryCollection"

private theorem typeOf_geometry (num : Text → F64) (j : Json) (g : GjGeom) (h : IsGeometry num j g) :
    typeOf j = some (.str (txt (typeName g))) := by
  cases g <;> simp only [IsGeometry] at h
  case collection gs =>
    obtain ⟨ms, js, rfl, -, h, -⟩ := h
    exact h
  all_goals
    obtain ⟨c, ⟨ms, rfl, -, h, -⟩, -⟩ := h
    exact h

private theorem txt_inj {a b : String} (h : txt a = txt b) : a = b := by
  have := congrArg String.ofList h
  simpa [txt] using this

mutual
private theorem geometry_unique (num : Text → F64) (j : Json) (g g' : GjGeom) (h : IsGeometry num j g) (h' : IsGeometry num j g') :
    g = g' := by
  have ht : typeName g = typeName g' := by
    have := (typeOf_geometry num j g h).symm.trans (typeOf_geometry num j g' h')
    exact txt_inj (by simpa using this)
  cases g <;> cases g' <;> first | (exfalso; revert ht; simp [typeName]; done) | simp only [IsGeometry] at h h'
  case point.point =>
    obtain ⟨c, hc, h⟩ := h
    obtain ⟨c', hc', h'⟩ := h'
    rw [coords_unique hc' hc] at h'
    rw [position_unique num _ _ _ h h']
  case multiPoint.multiPoint =>
    obtain ⟨c, hc, h⟩ := h
    obtain ⟨c', hc', h'⟩ := h'
    rw [coords_unique hc' hc] at h'
    rw [positions_unique num _ _ _ h h']
  case lineString.lineString =>
    obtain ⟨c, hc, h⟩ := h
    obtain ⟨c', hc', h'⟩ := h'
    rw [coords_unique hc' hc] at h'
    rw [positions_unique num _ _ _ h h']
  case multiLineString.multiLineString =>
    obtain ⟨c, hc, h⟩ := h
    obtain ⟨c', hc', h'⟩ := h'
    rw [coords_unique hc' hc] at h'
    rw [rings_unique num _ _ _ h h']
  case polygon.polygon =>
    obtain ⟨c, hc, h⟩ := h
    obtain ⟨c', hc', h'⟩ := h'
    rw [coords_unique hc' hc] at h'
    rw [rings_unique num _ _ _ h h']
  case multiPolygon.multiPolygon =>
    obtain ⟨c, hc, h⟩ := h
    obtain ⟨c', hc', h'⟩ := h'
    rw [coords_unique hc' hc] at h'
    rw [polygons_unique num _ _ _ h h']
  case collection.collection gs gs' =>
    obtain ⟨ms, js, rfl, -, -, h1, h2⟩ := h
    obtain ⟨ms', js', h0, -, -, h1', h2'⟩ := h'
    cases h0
    rw [h1] at h1'
    simp only [Option.some.injEq, Json.arr.injEq] at h1'
    subst h1'
    rw [geometries_unique num js gs gs' h2 h2']

private theorem geometries_unique (num : Text → F64) (js : List Json) (gs gs' : List GjGeom) (h : IsGeometries num js gs)
    (h' : IsGeometries num js gs') : gs = gs' := by
  match js, gs, gs' with
  | [], [], [] => rfl
  | j :: js, g :: gs, g' :: gs' =>
    simp only [IsGeometries] at h h'
    rw [geometry_unique num j g g' h.1 h'.1, geometries_unique num js gs gs' h.2 h'.2]
  | [], [], _ :: _ => simp [IsGeometries] at h'
  | [], _ :: _, _ => simp [IsGeometries] at h
  | _ :: _, [], _ => simp [IsGeometries] at h
  | _ :: _, _ :: _, [] => simp [IsGeometries] at h'
end

private theorem feature_unique (num : Text → F64) (ser : Json → Text) (order : List (Text × Json) → List (Text × Json)) (j : Json)
    (f f' : GjFeature) (h : IsFeature num ser order j f) (h' : IsFeature num ser order j f') : f = f' := by
  obtain ⟨ms, pj, gj, rfl, -, -, h1, h2, h3, h4⟩ := h
  obtain ⟨ms', pj', gj', h0, -, -, h1', h2', h3', h4'⟩ := h'
  cases h0
  rw [h1] at h1'
  rw [h2] at h2'
  cases h1'
  cases h2'
  obtain ⟨p, g⟩ := f
  obtain ⟨p', g'⟩ := f'
  have hp : p = p' := by
    cases p with
    | none =>
      cases p' with
      | none => rfl
      | some q =>
        simp only at h3 h3'
        obtain ⟨_, h, -⟩ := h3'
        rw [h3] at h
        cases h
    | some q =>
      simp only at h3
      obtain ⟨pms, hj, hq⟩ := h3
      cases p' with
      | none =>
        simp only at h3'
        rw [hj] at h3'
        cases h3'
      | some q' =>
        simp only at h3'
        obtain ⟨pms', hj', hq'⟩ := h3'
        rw [hj] at hj'
        cases hj'
        rw [hq, hq']
  have hnull : ∀ v, ¬ IsGeometry num .null v := by
    intro v hv
    have := typeOf_geometry num _ v hv
    simp [typeOf] at this
  have hg : g = g' := by
    cases g with
    | none =>
      simp only at h4
      subst h4
      cases g' with
      | none => rfl
      | some q => exact absurd h4' (hnull q)
    | some q =>
      cases g' with
      | none =>
        simp only at h4'
        subst h4'
        exact absurd h4 (hnull q)
      | some q' => rw [geometry_unique num _ _ _ h4 h4']
  rw [hp, hg]

/-- what a JSON value is as GeoJSON -/
private def IsGeoJsonValue (num : Text → F64) (ser : Json → Text) (order : List (Text × Json) → List (Text × Json)) (j : Json) :
    GeoJsonValue → Prop
  | .featureCollection fs => IsFeatureCollection num ser order j fs
  | .feature f => IsFeature num ser order j f
  | .geometry g => IsGeometry num j g

private theorem value_unique (num : Text → F64) (ser : Json → Text) (order : List (Text × Json) → List (Text × Json)) (j : Json)
    (v v' : GeoJsonValue) (h : IsGeoJsonValue num ser order j v) (h' : IsGeoJsonValue num ser order j v') : v = v' := by
  have hfc : ∀ fs, IsFeatureCollection num ser order j fs → typeOf j = some (.str (txt "FeatureCollection")) := by
    rintro fs ⟨ms, js, rfl, -, h, -⟩; exact h
  have hf : ∀ f, IsFeature num ser order j f → typeOf j = some (.str (txt "Feature")) := by
    rintro fs ⟨ms, pj, gj, rfl, -, h, -⟩; exact h
  have hne : ∀ g s, (s = "FeatureCollection" ∨ s = "Feature") → typeName g ≠ s := by
    rintro g s (rfl | rfl) <;> cases g <;> simp [typeName]
  have hg : ∀ g s, IsGeometry num j g → typeOf j = some (.str (txt s)) → ¬ (s = "FeatureCollection" ∨ s = "Feature") := by
    intro g s hg hs hc
    have := (typeOf_geometry num j g hg).symm.trans hs
    exact hne g s hc (txt_inj (by simpa using this))
  have hff : typeOf j = some (.str (txt "FeatureCollection")) → typeOf j = some (.str (txt "Feature")) → False := by
    intro h1 h2
    rw [h1] at h2
    simp only [Option.some.injEq, Json.str.injEq] at h2
    exact absurd (txt_inj h2) (by decide)
  cases v with
  | featureCollection fs =>
    cases v' with
    | featureCollection fs' =>
      obtain ⟨ms, js, rfl, -, -, h1, h2⟩ := h
      obtain ⟨ms', js', h0, -, -, h1', h2'⟩ := h'
      cases h0
      rw [h1] at h1'
      simp only [Option.some.injEq, Json.arr.injEq] at h1'
      subst h1'
      rw [arrayOf_unique (feature_unique num ser order) _ _ _ h2 h2']
    | feature f => exact (hff (hfc _ h) (hf _ h')).elim
    | geometry g => exact (hg _ _ h' (hfc _ h) (.inl rfl)).elim
  | feature f =>
    cases v' with
    | featureCollection fs' => exact (hff (hfc _ h') (hf _ h)).elim
    | feature f' => rw [feature_unique num ser order j f f' h h']
    | geometry g => exact (hg _ _ h' (hf _ h) (.inr rfl)).elim
  | geometry g =>
    cases v' with
    | featureCollection fs' => exact (hg _ _ h (hfc _ h') (.inl rfl)).elim
    | feature f' => exact (hg _ _ h (hf _ h') (.inr rfl)).elim
    | geometry g' => rw [geometry_unique num j g g' h h']

/-- a parser, for any way to read numbers, to print values and to order properties -/
theorem exists_gjParser (num : Text → F64) (ser : Json → Text) (order : List (Text × Json) → List (Text × Json))
    (ho : ∀ ms, Distinct ms → (order ms).Perm ms) :
    ∃ P : GjParser, P.num = num ∧ P.ser = ser ∧ P.order = order ∧ ∀ t, P.accepts t := by
  classical
  let parse : Text → Except Err GeoJsonValue := fun t =>
    if h : ∃ v j, IsText t j ∧ IsGeoJsonValue num ser order j v then .ok h.choose else .error (.geometry "")
  have key : ∀ t j v, IsText t j → IsGeoJsonValue num ser order j v → parse t = .ok v := by
    intro t j v ht hv
    have hex : ∃ v j, IsText t j ∧ IsGeoJsonValue num ser order j v := ⟨v, j, ht, hv⟩
    simp only [parse, dif_pos hex]
    obtain ⟨j', ht', hv'⟩ := hex.choose_spec
    have : j' = j := by
      have a := parse_complete ht
      rw [parse_complete ht'] at a
      exact Option.some.inj a
    subst this
    rw [value_unique num ser order _ _ _ hv' hv]
  exact ⟨⟨num, ser, order, fun _ => True, parse, ho, fun t j fs _ h1 h2 => key t j _ h1 h2, fun t j f _ h1 h2 => key t j _ h1 h2,
    fun t j g _ h1 h2 => key t j _ h1 h2⟩, rfl, rfl, rfl, fun _ => trivial⟩

/-- Not proved because false: a float that is printed without a decimal point (`1.0` is printed as `1`) comes back as an integer. -/
theorem C67_float_type_false (P : GjParser) (fmt : Fmt) (x : F64) (n : Nat) (hn : n < 2 ^ 63) (hx : fmt.f64 x = intText n) :
    ∃ (d : FeatureData) (ps : List (Text × ColVal)) (g : Geom), d.Carried fmt (fun _ => .null) P.num false ps g ∧ ps = [(txt "a", .double x)] ∧
      ∃ t, processToJson fmt ((datasetEvs none [FeatureData.feat false d]).foldr FProg.emit (.ret ())) [] = .ok t ∧
        (P.accepts t → FProg.run {} (readGeoJson (P.parse t)) [] =
          (datasetEvs none [{ props := some [(0, txt "a", .long (Int64.ofInt n))], geom := some (g.events false 0) }],
            .ok ((), []))) := by
  let d : FeatureData := { props := some [(txt "a", .double x)], geom := some (.multiPoint []) }
  have hnum : IsNumber (fmt.f64 x) := by rw [hx]; exact GeoJsonWriter.isNumber_intText _
  have hc : d.Carried fmt (fun _ => .null) P.num false [(txt "a", .double x)] (.multiPoint []) :=
    ⟨rfl, rfl, by simp [PlainText, txt], by simp, by simp [ColVal.Printable, hnum], .multiPoint (by simp), rfl⟩
  refine ⟨d, _, _, hc, rfl, ?_⟩
  obtain ⟨w, h1, h2⟩ := C24_feature_collection_partial fmt (fun _ => .null) false none [d] (by simp) (by
    intro d' h
    obtain rfl := List.mem_singleton.mp h
    refine ⟨?_, ?_, ?_⟩
    · intro qs hq; cases hq; exact hc.names
    · intro qs hq; cases hq; exact hc.vals
    · intro q hq; cases hq; exact .multiPoint (by simp)) {}
  have hsrc : FProg.run {} ((datasetEvs none [FeatureData.feat false d]).foldr FProg.emit (.ret ())) [] =
    (datasetEvs none [FeatureData.feat false d], .ok ((), [])) := rfl
  refine ⟨w.out, by rw [processToJson, FProg.interp_of_feed_ok (agrees_geojson_dims fmt {}) _ _ w rfl []
    (by rw [show ({ multi := ({} : Dims).multi, dims := {} } : FProg.Env) = {} from rfl, hsrc]; exact h1)]; rfl, fun hacc => ?_⟩
  have hparse := P.collection _ _ [featOf P fmt (fun _ => .null) false [(txt "a", .double x)] (.multiPoint [])] hacc h2 ⟨_, [feature fmt (fun _ => .null) false d], rfl, by simp [Distinct, txt],
    by simp [member, List.lookup], by
      have e1 : (txt "features" == txt "type") = false := by decide
      simp [member, List.lookup, e1], And.intro (feature_back P fmt (fun _ => .null) false d _ _ hc).1 (show ArrayOf _ [] [] from trivial)⟩
  rw [hparse]
  have ho : P.order [(txt "a", Json.num (fmt.f64 x))] = [(txt "a", Json.num (fmt.f64 x))] :=
    List.perm_singleton.mp (P.order_perm _ (by simp [Distinct]))
  have hj : (ColVal.double x).toJson fmt (fun _ => .null) = .num (fmt.f64 x) := rfl
  simp only [readGeoJson]
  rw [C26_feature_collection {} _ (by simpa using (feature_back P fmt (fun _ => .null) false d _ _ hc).2.1) []]
  have hv : propVal P.num P.ser (.num (fmt.f64 x)) = .i64 (Int64.ofInt n) := by
    simp only [propVal, hx, decimal_intText]
    rw [if_neg (intText_ne_minus_zero _), if_pos ⟨by omega, by omega⟩]
  simp only [featOf, List.map_cons, List.map_nil, hj, ho, hv, enumFrom]
  simp [GjFeature.feat, gjOf, GjGeom.geom, gjProps, enumFrom, GjVal.column]

/-- Not proved because false: a property with an embedded JSON null does not come back. -/
theorem C67_embedded_null_false (P : GjParser) (fmt : Fmt) :
    ∃ (d : FeatureData) (g : Geom), d.Carried fmt (fun _ => .null) P.num false [(txt "a", .json (txt "null"))] g ∧
      ∃ t, processToJson fmt ((datasetEvs none [FeatureData.feat false d]).foldr FProg.emit (.ret ())) [] = .ok t ∧
        (P.accepts t → FProg.run {} (readGeoJson (P.parse t)) [] =
          (datasetEvs none [{ props := some [], geom := some (g.events false 0) }], .ok ((), []))) := by
  let d : FeatureData := { props := some [(txt "a", .json (txt "null"))], geom := some (.multiPoint []) }
  have hnull : IsText (txt "null") .null := ⟨[], txt "null", [], GeoJsonWriter.isWs_nil, .null, GeoJsonWriter.isWs_nil, rfl⟩
  have hc : d.Carried fmt (fun _ => .null) P.num false [(txt "a", .json (txt "null"))] (.multiPoint []) :=
    ⟨rfl, rfl, by simp [PlainText, txt], by simp, by
      intro p hp; obtain rfl := List.mem_singleton.mp hp; exact hnull, .multiPoint (by simp), rfl⟩
  refine ⟨d, _, hc, ?_⟩
  obtain ⟨w, h1, h2⟩ := C24_feature_collection_partial fmt (fun _ => .null) false none [d] (by simp) (by
    intro d' h
    obtain rfl := List.mem_singleton.mp h
    refine ⟨?_, ?_, ?_⟩
    · intro qs hq; cases hq; exact hc.names
    · intro qs hq; cases hq; exact hc.vals
    · intro q hq; cases hq; exact .multiPoint (by simp)) {}
  have hsrc : FProg.run {} ((datasetEvs none [FeatureData.feat false d]).foldr FProg.emit (.ret ())) [] =
    (datasetEvs none [FeatureData.feat false d], .ok ((), [])) := rfl
  refine ⟨w.out, by rw [processToJson, FProg.interp_of_feed_ok (agrees_geojson_dims fmt {}) _ _ w rfl []
    (by rw [show ({ multi := ({} : Dims).multi, dims := {} } : FProg.Env) = {} from rfl, hsrc]; exact h1)]; rfl, fun hacc => ?_⟩
  have hparse := P.collection _ _ [featOf P fmt (fun _ => .null) false [(txt "a", .json (txt "null"))] (.multiPoint [])] hacc h2
    ⟨_, [feature fmt (fun _ => .null) false d], rfl, by simp [Distinct, txt],
    by simp [member, List.lookup], by
      have e1 : (txt "features" == txt "type") = false := by decide
      simp [member, List.lookup, e1], And.intro (feature_back P fmt (fun _ => .null) false d _ _ hc).1 (show ArrayOf _ [] [] from trivial)⟩
  rw [hparse]
  have ho : P.order [(txt "a", Json.null)] = [(txt "a", Json.null)] :=
    List.perm_singleton.mp (P.order_perm _ (by simp [Distinct]))
  have hj : (ColVal.json (txt "null")).toJson fmt (fun _ => .null) = .null := rfl
  simp only [readGeoJson]
  rw [C26_feature_collection {} _ (by simpa using (feature_back P fmt (fun _ => .null) false d _ _ hc).2.1) []]
  simp only [featOf, List.map_cons, List.map_nil, hj, ho, propVal, enumFrom]
  simp [GjFeature.feat, gjOf, GjGeom.geom, gjProps, enumFrom, GjVal.column]

-- a parser and a dataset for the theorems above: two features, one of them with its geometry first and with embedded JSON
example : ∃ (P : GjParser) (fmt : Fmt) (ds : List FeatureData), (∀ t, P.accepts t) ∧ 2 ≤ ds.length ∧
    (∀ d ∈ ds, ∃ ps g, d.Carried fmt (fun _ => .arr []) P.num true ps g) ∧
    FProg.run { multi := true, dims := { z := true } } ((datasetEvs (some (txt "n")) (ds.map (FeatureData.feat true))).foldr FProg.emit (.ret ())) [] =
      (datasetEvs (some (txt "n")) (ds.map (FeatureData.feat true)), .ok ((), [])) := by
  obtain ⟨P, hnum, -, -, hacc⟩ := exists_gjParser (fun t => BitVec.ofInt 64 ((decimal t).getD 0)) (fun _ => []) id (fun _ _ => .refl _)
  have hn : ∀ x : F64, IsNumber (intText x.toNat) ∧ P.num (intText x.toNat) = x := by
    intro x
    exact ⟨GeoJsonWriter.isNumber_intText _, by simp [hnum, decimal_intText]⟩
  refine ⟨P, { f64 := fun x => intText x.toNat, f32 := fun _ => [] },
    [{ props := some [(txt "b", .string (txt "x\"y")), (txt "a", .long (-3))],
       geom := some (.collection [.polygon [[⟨1#64, 2#64, some 3#64, none⟩]], .multiPoint []]) },
     { props := some [(txt "b", .double 7#64), (txt "j", .json (txt "[]"))], geom := some (.point ⟨1#64, 2#64, none, none⟩), geomFirst := true }],
    hacc, by simp, ?_, rfl⟩
  intro d hd
  simp only [List.mem_cons, List.not_mem_nil, or_false] at hd
  rcases hd with rfl | rfl
  · refine ⟨_, _, rfl, rfl, by simp [PlainText, txt], by simp [txt], by simp [ColVal.Printable, PlainText, txt],
      .collection ?_, rfl⟩
    intro g hg
    simp only [List.mem_cons, List.not_mem_nil, or_false] at hg
    rcases hg with rfl | rfl
    · exact .polygon (by intro l hl c hc; simp at hl; subst hl; simp at hc; subst hc; exact ⟨⟨hn _, hn _, fun _ _ _ => hn _⟩, rfl, by simp⟩)
    · exact .multiPoint (by simp)
  · exact ⟨_, _, rfl, rfl, by simp [PlainText, txt], by simp [txt], by
      simp [ColVal.Printable, (hn _).1]; exact ⟨[], txt "[]", [], GeoJsonWriter.isWs_nil, .emptyArr GeoJsonWriter.isWs_nil, GeoJsonWriter.isWs_nil, rfl⟩,
      .point ⟨⟨hn _, hn _, by simp⟩, rfl, by simp⟩, rfl⟩

/-! ### what is written is GeoJSON exactly if nothing is missing -/

private theorem arrayOf_exists {α β γ : Type} (R : β → γ → Prop) (f : α → β) (xs : List α) (h : ∀ x ∈ xs, ∃ y, R (f x) y) :
    ∃ ys, ArrayOf R (xs.map f) ys := by
  induction xs with
  | nil => exact ⟨[], trivial⟩
  | cons x xs ih =>
    obtain ⟨y, hy⟩ := h x (by simp)
    obtain ⟨ys, hys⟩ := ih fun z hz => h z (by simp [hz])
    exact ⟨y :: ys, hy, hys⟩

private theorem arrayOf_member {α β γ : Type} (R : β → γ → Prop) (f : α → β) (xs : List α) (ys : List γ) (h : ArrayOf R (xs.map f) ys) :
    ∀ x ∈ xs, ∃ y, R (f x) y := by
  induction xs generalizing ys with
  | nil => simp
  | cons x xs ih =>
    cases ys with
    | nil => exact h.elim
    | cons y ys =>
      intro z hz
      rcases List.mem_cons.mp hz with rfl | hz
      · exact ⟨y, h.1⟩
      · exact ih ys h.2 z hz

private theorem position_valid (num : Text → F64) (f : F64 → Text) (multi : Bool) (c : Coord) : ∃ p, IsPosition num (position f multi c) p := by
  cases multi with
  | false => exact ⟨_, [f c.x, f c.y], rfl, by simp, rfl⟩
  | true =>
    cases hz : c.z with
    | none => exact ⟨_, [f c.x, f c.y], by simp [position, hz], by simp, rfl⟩
    | some z => exact ⟨_, [f c.x, f c.y, f z], by simp [position, hz], by simp, rfl⟩

private theorem positions_valid (num : Text → F64) (f : F64 → Text) (multi : Bool) (cs : List Coord) :
    ∃ p, IsPositions num (Rfc7946.positions f multi cs) p := by
  obtain ⟨ys, h⟩ := arrayOf_exists _ (position f multi) cs fun c _ => position_valid num f multi c
  exact ⟨ys, _, rfl, h⟩

private theorem rings_valid (num : Text → F64) (f : F64 → Text) (multi : Bool) (cs : List (List Coord)) :
    ∃ p, IsRings num (rings f multi cs) p := by
  obtain ⟨ys, h⟩ := arrayOf_exists _ (Rfc7946.positions f multi) cs fun c _ => positions_valid num f multi c
  exact ⟨ys, _, rfl, h⟩

private theorem geom_valid (num : Text → F64) (f : F64 → Text) (multi : Bool) {g : Geom} {p : Coord → Prop} (h : g.IsGeoJson p) :
    (∃ v, IsGeometry num (geometry f multi g) v) ↔ g.hasEmptyPoint = false := by
  induction h with
  | emptyPoint =>
    simp only [Geom.hasEmptyPoint, Bool.true_eq_false, iff_false]
    rintro ⟨v, hv⟩
    have ht := typeOf_geometry num _ v hv
    cases v <;> simp only [geometry, object, typeOf, member, List.lookup, typeName, beq_self_eq_true, Option.some.injEq, Json.str.injEq] at ht
    case point q =>
      simp only [IsGeometry] at hv
      obtain ⟨c, ⟨ms, h0, -, -, h1⟩, l, h2, h3, -⟩ := hv
      simp only [geometry, object, Json.obj.injEq] at h0
      subst h0
      have e1 : (txt "coordinates" == txt "type") = false := by decide
      simp only [member, List.lookup, e1, beq_self_eq_true, Option.some.injEq] at h1
      subst h1
      simp only [Json.arr.injEq] at h2
      have : l = [] := List.map_eq_nil_iff.mp h2.symm
      subst this
      simp at h3
    all_goals exact absurd (txt_inj ht) (by decide)
  | @point c _ =>
    obtain ⟨q, h⟩ := position_valid num f multi c
    simp only [Geom.hasEmptyPoint, iff_true]
    exact ⟨.point q, by simp only [IsGeometry, geometry]; exact ⟨_, has_coords _ _, h⟩⟩
  | @multiPoint cs _ =>
    obtain ⟨q, h⟩ := positions_valid num f multi cs
    simp only [Geom.hasEmptyPoint, iff_true]
    exact ⟨.multiPoint q, by simp only [IsGeometry, geometry]; exact ⟨_, has_coords _ _, h⟩⟩
  | @lineString cs _ =>
    obtain ⟨q, h⟩ := positions_valid num f multi cs
    simp only [Geom.hasEmptyPoint, iff_true]
    exact ⟨.lineString q, by simp only [IsGeometry, geometry]; exact ⟨_, has_coords _ _, h⟩⟩
  | @multiLineString cs _ =>
    obtain ⟨q, h⟩ := rings_valid num f multi cs
    simp only [Geom.hasEmptyPoint, iff_true]
    exact ⟨.multiLineString q, by simp only [IsGeometry, geometry]; exact ⟨_, has_coords _ _, h⟩⟩
  | @polygon cs _ =>
    obtain ⟨q, h⟩ := rings_valid num f multi cs
    simp only [Geom.hasEmptyPoint, iff_true]
    exact ⟨.polygon q, by simp only [IsGeometry, geometry]; exact ⟨_, has_coords _ _, h⟩⟩
  | @multiPolygon ps _ =>
    obtain ⟨q, h⟩ := arrayOf_exists _ (rings f multi) ps fun c _ => rings_valid num f multi c
    simp only [Geom.hasEmptyPoint, iff_true]
    exact ⟨.multiPolygon q, by simp only [IsGeometry, geometry]; exact ⟨_, has_coords _ _, _, rfl, h⟩⟩
  | @collection gs hgs ih =>
    have key : (∃ vs, IsGeometries num (gs.map (geometry f multi)) vs) ↔ Geom.hasEmptyPointList gs = false := by
      clear hgs
      induction gs with
      | nil => exact ⟨fun _ => rfl, fun _ => ⟨[], by simp [IsGeometries]⟩⟩
      | cons g gs ihg =>
        have h1 := ih g (by simp)
        have h2 := ihg fun x hx => ih x (by simp [hx])
        simp only [Geom.hasEmptyPointList, Bool.or_eq_false_iff, ← h1, ← h2]
        constructor
        · rintro ⟨vs, hv⟩
          cases vs with
          | nil => simp [IsGeometries] at hv
          | cons v vs =>
            simp only [List.map_cons, IsGeometries] at hv
            exact ⟨⟨v, hv.1⟩, vs, hv.2⟩
        · rintro ⟨⟨v, hv⟩, vs, hvs⟩
          exact ⟨v :: vs, by simp only [List.map_cons, IsGeometries]; exact ⟨hv, hvs⟩⟩
    have e1 : (txt "geometries" == txt "type") = false := by decide
    simp only [Geom.hasEmptyPoint, ← key]
    constructor
    · rintro ⟨v, hv⟩
      have ht := typeOf_geometry num _ v hv
      cases v <;> simp only [geometry, object, typeOf, member, List.lookup, typeName, beq_self_eq_true, Option.some.injEq,
        Json.str.injEq] at ht
      case collection vs =>
        simp only [IsGeometry] at hv
        obtain ⟨ms, js, h0, -, -, h1, h2⟩ := hv
        simp only [geometry, object, Json.obj.injEq] at h0
        subst h0
        simp only [member, List.lookup, e1, beq_self_eq_true, Option.some.injEq, Json.arr.injEq] at h1
        subst h1
        exact ⟨vs, h2⟩
      all_goals exact absurd (txt_inj ht) (by decide)
    · rintro ⟨vs, hvs⟩
      refine ⟨.collection vs, ?_⟩
      simp only [IsGeometry, geometry]
      exact ⟨_, _, rfl, by simp [Distinct, txt], by simp [member, List.lookup], by simp [member, List.lookup, e1], hvs⟩

/-- a feature is complete: it has both sections, and the geometry has no empty points -/
def FeatureData.Complete (d : FeatureData) : Prop := (∃ ps, d.props = some ps) ∧ ∃ g, d.geom = some g ∧ g.hasEmptyPoint = false

private theorem feature_valid (num : Text → F64) (ser : Json → Text) (order : List (Text × Json) → List (Text × Json)) (fmt : Fmt)
    (decode : Text → Json) (multi : Bool) (d : FeatureData) {p : Coord → Prop} (hg : ∀ g, d.geom = some g → g.IsGeoJson p) :
    (∃ f, IsFeature num ser order (feature fmt decode multi d) f) ↔ d.Complete := by
  have e1 : (txt "geometry" == txt "type") = false := by decide
  have e2 : (txt "properties" == txt "type") = false := by decide
  have e3 : (txt "properties" == txt "geometry") = false := by decide
  have e4 : (txt "geometry" == txt "properties") = false := by decide
  constructor
  · rintro ⟨f, ms, pj, gj, h0, -, -, h1, h2, -, h3⟩
    simp only [feature, Json.obj.injEq] at h0
    subst h0
    refine ⟨?_, ?_⟩
    · cases hp : d.props with
      | some ps => exact ⟨ps, rfl⟩
      | none =>
        exfalso
        cases hf : d.geomFirst <;> cases hgm : d.geom <;>
          simp [member, List.lookup, propsMember, geomMember, hp, hgm, hf, e2, e3] at h1
    · cases hgm : d.geom with
      | none =>
        exfalso
        cases hf : d.geomFirst <;> cases hp : d.props <;>
          simp [member, List.lookup, propsMember, geomMember, hp, hgm, hf, e1, e4] at h2
      | some g =>
        refine ⟨g, rfl, (geom_valid num fmt.f64 multi (hg g hgm)).mp ?_⟩
        have : gj = geometry fmt.f64 multi g := by
          cases hf : d.geomFirst <;> cases hp : d.props <;>
            simp [member, List.lookup, propsMember, geomMember, hp, hgm, hf, e1, e4] at h2 <;> exact h2.symm
        subst this
        cases hv : f.geometry with
        | some v => rw [hv] at h3; exact ⟨v, h3⟩
        | none =>
          rw [hv] at h3
          have := hg g hgm
          cases this <;> simp [geometry, object] at h3
  · rintro ⟨⟨ps, hp⟩, g, hgm, he⟩
    obtain ⟨v, hv⟩ := (geom_valid num fmt.f64 multi (hg g hgm)).mpr he
    refine ⟨⟨some ((order (ps.map fun p => (p.1, p.2.toJson fmt decode))).map fun p => (p.1, propVal num ser p.2)), some v⟩, _,
      .obj (ps.map fun p => (p.1, p.2.toJson fmt decode)), geometry fmt.f64 multi g, rfl, ?_, ?_, ?_, ?_, ?_, hv⟩
    · cases hf : d.geomFirst <;> simp [Distinct, propsMember, geomMember, hp, hgm, txt]
    · simp [member, List.lookup]
    · cases hf : d.geomFirst <;> simp [member, List.lookup, propsMember, geomMember, hp, hgm, e2, e3]
    · cases hf : d.geomFirst <;> simp [member, List.lookup, propsMember, geomMember, hp, hgm, e1, e4]
    · exact ⟨_, rfl, rfl⟩

/-- What is written for features with printable contents is always JSON; it is a feature collection of RFC 7946, which a parser has to
understand, exactly if every feature has a properties section and a geometry section and no geometry has an empty point. -/
theorem C67_rfc7946_iff (fmt : Fmt) (decode : Text → Json) (dims : Dims) (name : Option Text)
    (hn : ∀ n, name = some n → PlainText n ∧ '"' ∉ n) (ds : List FeatureData) (hd : ∀ d ∈ ds, d.Printable fmt decode dims.multi)
    (num : Text → F64) (ser : Json → Text) (order : List (Text × Json) → List (Text × Json)) :
    ∃ w j, feed (GeoJsonWriter.step fmt) { dims := dims } (datasetEvs name (ds.map (FeatureData.feat dims.multi))) = .ok w ∧
      IsText w.out j ∧ ((∃ fs, IsFeatureCollection num ser order j fs) ↔ ∀ d ∈ ds, d.Complete) := by
  obtain ⟨w, h1, h2⟩ := C24_feature_collection_partial fmt decode dims.multi name ds hn hd dims
  refine ⟨w, _, h1, h2, ?_⟩
  have e1 : (txt "features" == txt "type") = false := by decide
  have e2 : (txt "features" == txt "name") = false := by decide
  constructor
  · rintro ⟨fs, ms, js, h0, -, -, hm, hfs⟩ d h
    simp only [featureCollection, Json.obj.injEq] at h0
    subst h0
    have : js = ds.map (feature fmt decode dims.multi) := by
      cases name <;> simp [member, List.lookup, e1, e2] at hm <;> exact hm.symm
    subst this
    obtain ⟨f, hf⟩ := arrayOf_member _ _ ds fs hfs d h
    exact (feature_valid num ser order fmt decode dims.multi d (hd d h).geom).mp ⟨f, hf⟩
  · intro hc
    obtain ⟨fs, hfs⟩ := arrayOf_exists (IsFeature num ser order) (feature fmt decode dims.multi) ds fun d h =>
      (feature_valid num ser order fmt decode dims.multi d (hd d h).geom).mpr (hc d h)
    refine ⟨fs, _, _, rfl, ?_, ?_, ?_, hfs⟩
    · cases name <;> simp [Distinct, txt]
    · simp [member, List.lookup]
    · cases name <;> simp [member, List.lookup, e1, e2]

/-- The same for `to_json` of a geometry. -/
theorem C67_geometry_rfc7946_iff (num : F64 → Text) (g : Geom) (hg : g.IsGeoJson fun c => c.AllOrds (fun x => IsNumber (num x)) false)
    (src : Prog Unit) (bs rest : List Byte) (pre : List Ev) (hpre : pre = [] ∨ ∃ s, pre = [.srid s])
    (hsrc : Prog.run false src bs = (pre ++ g.events false 0, .ok ((), rest))) (parse : Text → F64) :
    ∃ t j, toJson num src bs = .ok t ∧ IsText t j ∧ ((∃ v, IsGeometry parse j v) ↔ g.hasEmptyPoint = false) := by
  obtain ⟨t, h1, h2⟩ := C48_to_json num src bs rest g pre hpre hsrc hg
  exact ⟨t, _, h1, h2, geom_valid parse num false hg⟩

-- both sides of the two equivalences: a complete feature, one without geometry, one with an empty point in a collection
example (fmt : Fmt) : FeatureData.Complete ⟨some [(txt "a", .json (txt "[]"))], some (.multiPoint []), true⟩ ∧
    ¬ FeatureData.Complete ⟨some [], none, false⟩ ∧ ¬ FeatureData.Complete ⟨some [], some (.collection [.emptyPoint]), false⟩ ∧
    FeatureData.Printable fmt (fun _ => .arr []) true ⟨some [(txt "a", .json (txt "[]"))], some (.multiPoint []), true⟩ ∧
    FeatureData.Printable fmt (fun _ => .arr []) true ⟨some [], none, false⟩ ∧
    FeatureData.Printable fmt (fun _ => .arr []) true ⟨some [], some (.collection [.emptyPoint]), false⟩ := by
  refine ⟨⟨⟨_, rfl⟩, _, rfl, rfl⟩, ?_, ?_, ?_, ?_, ?_⟩
  · rintro ⟨-, g, h, -⟩; cases h
  · rintro ⟨-, g, h, he⟩; cases h; simp [Geom.hasEmptyPoint, Geom.hasEmptyPointList] at he
  · refine ⟨?_, ?_, ?_⟩
    · intro ps h; cases h; simp [PlainText, txt]
    · intro ps h; cases h
      intro p hp
      obtain rfl := List.mem_singleton.mp hp
      exact ⟨[], txt "[]", [], GeoJsonWriter.isWs_nil, .emptyArr GeoJsonWriter.isWs_nil, GeoJsonWriter.isWs_nil, rfl⟩
    · intro g h; cases h; exact .multiPoint (by simp)
  · refine ⟨?_, ?_, ?_⟩
    · intro ps h; cases h; simp
    · intro ps h; cases h; simp
    · intro g h; cases h
  · refine ⟨?_, ?_, ?_⟩
    · intro ps h; cases h; simp
    · intro ps h; cases h; simp
    · intro g h; cases h; exact .collection (by simp; exact .emptyPoint)

end Geozero
