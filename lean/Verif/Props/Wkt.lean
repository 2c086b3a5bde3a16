import Verif.Lemmas.WktParse
import Verif.Props.WkbAny

/-
Properties of WKT text: C19 (writer), C20 (text can be parsed back), C21 (reader), C46 (WKB to WKT).
-/

namespace Geozero
open Prog Spec WktWriter

/-- C19.  Fed with the SRID and the events of any geometry, a new `WktWriter` of either dialect and any
dimensions succeeds, and its output is the SRID prefix (EWKT with a non-zero SRID only; an SRID given to the
constructor wins over one in the stream) followed by the independently defined text of the geometry. -/
theorem C19_wkt_writer_prints (num : F64 → Text) (dialect : WktDialect) (dims : Dims) (srid s : Option Int) (g : Geom) :
    ∃ w, feed (step num) (withOpts dialect dims srid) (.srid s :: g.events dims.multi 0) = .ok w ∧
      w.out = (if dialect = .ewkt then sridPrefix (srid.or s) else []) ++ wkt num dims.multi g := by
  simp only [feed, step]
  rw [feed_geom]
  refine ⟨_, rfl, ?_⟩
  cases dialect
  · simp [withOpts, header, put, sepOf]
  · cases h : srid.or s with
    | none => simp [withOpts, header, put, sepOf, h, sridPrefix]
    | some v =>
      by_cases hv : v = 0 <;> simp [withOpts, header, put, sepOf, h, sridPrefix, hv]

/-- C19.  Several geometries written one after the other: the texts follow each other, separated by a
comma when the index passed is not 0, and the SRID prefix appears once, at the beginning. -/
theorem C19_wkt_writer_sequence (num : F64 → Text) (dialect : WktDialect) (dims : Dims) (srid : Option Int)
    (g : Geom) (gs : List Geom) :
    ∃ w, feed (step num) (withOpts dialect dims srid) (evList (Geom.events dims.multi) 0 (g :: gs)) = .ok w ∧
      w.out = (if dialect = .ewkt then sridPrefix srid else []) ++ commaSep ((g :: gs).map (wkt num dims.multi)) := by
  simp only [evList, feed_append, feed_geom]
  have h := feed_items num (Geom.events dims.multi) (wkt num dims.multi) gs
    (fun g _ i w hw => by rw [feed_geom num dims.multi g i w, hw])
    ((withOpts dialect dims srid).header.put (sepOf 0 ++ wkt num dims.multi g)) ((calm_header _).put _) (0 + 1)
  refine ⟨_, h, ?_⟩
  have ho : (withOpts dialect dims srid).header.out = if dialect = .ewkt then sridPrefix srid else [] := by
    cases dialect
    · simp [withOpts, header]
    · cases srid with
      | none => simp [withOpts, header, sridPrefix]
      | some v => by_cases hv : v = 0 <;> simp [withOpts, header, hv, sridPrefix]
  cases gs with
  | nil => simp [put, ho, commaSep, sepOf]
  | cons g2 gs => simp [put, ho, commaSep, sepOf, txt, List.append_assoc]

/-- non-vacuity: nested and empty parts, both dialects -/
example (num : F64 → Text) : wkt num false (.collection [.polygon [[⟨0#64, 0#64, none, none⟩], []], .multiPoint []])
    = txt "GEOMETRYCOLLECTION(POLYGON((" ++ num 0#64 ++ txt " " ++ num 0#64 ++ txt "),EMPTY),MULTIPOINT EMPTY)" := by
  simp [wkt, wktList, tagged, parens, commaSep, wktLine, wktCoord, ordinates, F64.isNaN, blankSep, txt, List.append_assoc]

example : sridPrefix (some 4326) = txt "SRID=4326;" := by decide

/-- C20.  The parser recovers exactly the geometry from the text of every geometry without NaN ordinates, with
no m ordinate where z is missing, and only x, y when more are not shown. -/
theorem C20_wkt_parses_back_partial (N : NumText) (dims : Dims) (srid s : Option Int) (g : Geom)
    (hg : ∀ c ∈ g.coords, Recoverable dims.multi c) :
    ∃ w, feed (step N.num) (withOpts .wkt dims srid) (.srid s :: g.events dims.multi 0) = .ok w ∧
      parseWkt N.parse w.out = some g := by
  obtain ⟨w, h1, h2⟩ := C19_wkt_writer_prints N.num .wkt dims srid s g
  refine ⟨w, h1, ?_⟩
  have := parseGeom_ok N dims.multi g hg _ (Nat.le_refl _) []
  simp only [List.append_nil] at this
  simp [parseWkt, h2, this]

/-- C20 for EWKT: the SRID is recovered as well (0 is as good as none). -/
theorem C20_ewkt_parses_back_partial (N : NumText) (dims : Dims) (srid s : Option Int) (g : Geom)
    (hg : ∀ c ∈ g.coords, Recoverable dims.multi c) :
    ∃ w, feed (step N.num) (withOpts .ewkt dims srid) (.srid s :: g.events dims.multi 0) = .ok w ∧
      parseEwkt N.parse w.out = some ((srid.or s).filter (· ≠ 0), g) := by
  obtain ⟨w, h1, h2⟩ := C19_wkt_writer_prints N.num .ewkt dims srid s g
  refine ⟨w, h1, ?_⟩
  have h := parseGeom_ok N dims.multi g hg _ (Nat.le_refl _) []
  simp only [List.append_nil] at h
  have hw : parseWkt N.parse (wkt N.num dims.multi g) = some g := by simp [parseWkt, h]
  rw [h2]
  simp only [if_true]
  have hnone : parseEwkt N.parse (wkt N.num dims.multi g) = some (none, g) := by
    simp only [parseEwkt, expect_srid_geom, hw]; rfl
  cases hs : srid.or s with
  | none => simpa [sridPrefix] using hnone
  | some v =>
    by_cases hv : v = 0
    · subst hv
      simpa [sridPrefix, Option.filter] using hnone
    · have e : sridPrefix (some v) ++ wkt N.num dims.multi g
          = txt "SRID=" ++ ((toString v).toList ++ ';' :: wkt N.num dims.multi g) := by
        simp [sridPrefix, hv, txt]
      have hsp := span_semicolon (toString v).toList (wkt N.num dims.multi g) (toString_int_chars v)
      rw [e]
      simp only [parseEwkt, expect_append, hsp.1, hsp.2, parseInt_toString, List.drop_succ_cons, List.drop_zero, hw]
      simp [Option.filter, hv]

/-- C20.  Hence distinct geometries give distinct texts. -/
theorem C20_wkt_injective_partial (N : NumText) (multi : Bool) (g g' : Geom)
    (hg : ∀ c ∈ g.coords, Recoverable multi c) (hg' : ∀ c ∈ g'.coords, Recoverable multi c)
    (h : wkt N.num multi g = wkt N.num multi g') : g = g' := by
  have a := parseGeom_ok N multi g hg _ (Nat.le_refl _) []
  have b := parseGeom_ok N multi g' hg' _ (Nat.le_refl _) []
  rw [← h, a] at b
  simpa using b

/-- C20 fails when a coordinate has m but not z: the writer never writes `Z`, `M` or `ZM`, so an XYM
geometry gives the same text as an XYZ geometry. -/
theorem C20_m_without_z_false (num : F64 → Text) :
    ∃ g g' : Geom, g ≠ g' ∧ ∃ w w', feed (step num) (withOpts .ewkt ⟨true, true, false, false⟩ none) (g.events true 0) = .ok w ∧
      feed (step num) (withOpts .ewkt ⟨true, true, false, false⟩ none) (g'.events true 0) = .ok w' ∧ w.out = w'.out := by
  refine ⟨.point ⟨0#64, 0#64, some 0#64, none⟩, .point ⟨0#64, 0#64, none, some 0#64⟩, by simp, _, _,
    feed_geom num true _ 0 _, feed_geom num true _ 0 _, ?_⟩
  simp [put, wkt, tagged, parens, commaSep, wktCoord, ordinates, F64.isNaN]

/-- C20 fails for NaN: a point without any number is printed as `POINT(EMPTY)`, whatever its NaNs, and
that text is outside the grammar. -/
theorem C20_nan_point_false (N : NumText) :
    wkt N.num false (.point ⟨0x7FF8000000000000#64, 0x7FF8000000000000#64, none, none⟩) = txt "POINT(EMPTY)" ∧
    wkt N.num false (.point ⟨0x7FF8000000000000#64, 0x7FF8000000000000#64, none, none⟩)
      = wkt N.num false (.point ⟨0xFFF8000000000000#64, 0x7FF8000000000000#64, none, none⟩) := by
  constructor <;> simp [wkt, tagged, parens, commaSep, wktCoord, ordinates, F64.isNaN, txt]

/-- non-vacuity: a number format satisfying the laws (the decimal value of the bit pattern) -/
def decimalBits : NumText where
  num v := Nat.toDigits 10 v.toNat
  parse s := some (BitVec.ofNat 64 (Nat.ofDigitChars 10 s 0))
  num_ne v _ := Nat.toDigits_ne_nil
  num_chars v _ c hc := by
    have := Nat.isDigit_of_mem_toDigits (by decide) (by decide) hc
    cases hd : isDelim c with
    | false => rfl
    | true =>
      simp only [isDelim, Bool.or_eq_true, beq_iff_eq] at hd
      rcases hd with ((rfl | rfl) | rfl) | rfl <;> exact absurd this (by decide)
  parse_num v _ := by simp [Nat.ofDigitChars_ten_toDigits]

example : ∀ c ∈ (Geom.collection [.point ⟨1#64, 2#64, some 3#64, some 4#64⟩, .lineString [⟨1#64, 2#64, none, none⟩]]).coords,
    Recoverable true c := by
  simp [Geom.coords, Geom.coordsList, Recoverable, F64.isNaN]

/-- C21.  Processing a parsed WKT tree whose multi points have no `EMPTY` member delivers exactly the documented
event stream of the geometry it stands for, and reads nothing else. -/
theorem C21_wkt_reader_stream_partial (multi : Bool) (g : WktGeom) (hg : g.NoEmptyMember) (bs : List Byte) :
    run multi (wktProcessGeom g) bs = (g.denote.events multi 0, .ok ((), bs)) :=
  run_wktGeomN multi g hg 0 bs

/-- C21, what happens with `EMPTY` members: all members are announced, those that are not `EMPTY` are delivered,
each with its position among all members. -/
theorem C21_multipoint_members (multi : Bool) (ps : List (Option Coord)) (bs : List Byte) :
    run multi (wktProcessGeom (.multiPoint ps)) bs =
      (.gbegin .multiPoint true ps.length 0 ::
        (((List.range ps.length).flatMap fun i => match ps[i]? with
          | some (some c) => [coordEv multi c i]
          | _ => []) ++ [.gend .multiPoint true 0]), .ok ((), bs)) := by
  have key : ∀ (l : List (Option Coord)) k, evList (memberEvs multi) k l
      = (List.range l.length).flatMap fun i => match l[i]? with
          | some (some c) => [coordEv multi c (k + i)]
          | _ => [] := by
    intro l
    induction l with
    | nil => simp [evList]
    | cons p l ih =>
      intro k
      simp only [evList, ih (k + 1), List.length_cons, List.range_succ_eq_map, List.flatMap_cons, List.flatMap_map]
      congr 1
      · cases p <;> simp [memberEvs, coordEvs]
      · simp [Nat.add_right_comm, Nat.add_assoc]
  rw [wktProcessGeom, run_wktMultiPoint, bracket, key]
  simp

/-- C21 fails with `EMPTY` members: two members are announced, one is delivered. -/
theorem C21_multipoint_empty_false (multi : Bool) (bs : List Byte) :
    ¬ ∃ g : Geom, run multi (wktProcessGeom (.multiPoint [some ⟨0#64, 0#64, none, none⟩, none])) bs
      = (g.events multi 0, .ok ((), bs)) := by
  rintro ⟨g, h⟩
  rw [wktProcessGeom, run_wktMultiPoint] at h
  have h := (Prod.ext_iff.mp h).1
  cases g with
  | multiPoint cs =>
    simp only [Geom.events, bracket, List.cons.injEq, Ev.gbegin.injEq, evList, memberEvs, coordEvs] at h
    obtain ⟨hl, h⟩ := h
    match cs, hl with
    | [a, b], _ => simp [evList, coordEvs] at h
    | [], hl => simp at hl
    | [a], hl => simp at hl
    | _ :: _ :: _ :: _, hl => simp at hl
  | _ => simp [Geom.events, bracket, lineEvs, circEvs, polyEvs, triEvs] at h

/-- C21.  Parsed text written again: reading a WKT tree and writing it with any options prints the WKT of the tree. -/
theorem C21_wkt_to_wkt (num : F64 → Text) (g : WktGeom) (hg : g.NoEmptyMember) (dialect : WktDialect) (dims : Dims)
    (srid : Option Int) :
    toWktWithOpts num (wktProcessGeom g) dialect dims srid []
      = .ok ((if dialect = .ewkt then sridPrefix srid else []) ++ wkt num dims.multi g.denote) := by
  have hm : ∀ w : WktWriter, w.dims = dims → (proc num).multi w = dims.multi := by
    intro w h; simp [proc, h]
  obtain ⟨w, h1, h2⟩ := C19_wkt_writer_sequence num dialect dims srid g.denote []
  simp only [evList, List.append_nil, List.map_cons, List.map_nil, commaSep] at h1 h2
  have hr := C21_wkt_reader_stream_partial dims.multi g hg []
  rw [toWktWithOpts, interp_of_feed_ok_inv (proc num) dims.multi (fun w => w.dims = dims) hm (step_dims num dims)
    (wktProcessGeom g) _ w rfl [] (by rw [hr]; exact h1), hr]
  simp [h2]

example : (WktGeom.collection [.multiPoint [some ⟨1#64, 2#64, none, none⟩], .point none]).NoEmptyMember := by
  simp [WktGeom.NoEmptyMember, WktGeom.NoEmptyMemberList]

/-- C21.  Requesting any one further dimension keeps all values of every position; requesting none keeps x and y. -/
theorem C21_wkt_to_wkt_values (num : F64 → Text) (g : WktGeom) (hg : g.NoEmptyMember) (dialect : WktDialect) (dims : Dims)
    (srid : Option Int) :
    ((dims.z = true ∨ dims.m = true ∨ dims.t = true ∨ dims.tm = true) →
      toWktWithOpts num (wktProcessGeom g) dialect dims srid []
        = .ok ((if dialect = .ewkt then sridPrefix srid else []) ++ wkt num true g.denote)) ∧
    toWktWithOpts num (wktProcessGeom g) dialect {} srid []
      = .ok ((if dialect = .ewkt then sridPrefix srid else []) ++ wkt num false g.denote) := by
  refine ⟨fun h => ?_, C21_wkt_to_wkt num g hg dialect {} srid⟩
  have hm : dims.multi = true := by
    unfold Dims.multi
    rcases h with h | h | h | h <;> simp [h]
  rw [C21_wkt_to_wkt num g hg dialect dims srid, hm]

/-- non-vacuity: a point with a height -/
example (num : F64 → Text) :
    toWktWithOpts num (wktProcessGeom (.point (some ⟨0#64, 0#64, some 0#64, none⟩))) .wkt { t := true } none []
      = .ok (txt "POINT(" ++ num 0#64 ++ txt " " ++ num 0#64 ++ txt " " ++ num 0#64 ++ txt ")") := by
  rw [(C21_wkt_to_wkt_values num (.point (some ⟨0#64, 0#64, some 0#64, none⟩)) trivial .wkt { t := true } none).1 (.inr (.inr (.inl rfl)))]
  simp [WktGeom.denote, wkt, txt, tagged, wktCoord, parens, ordinates, blankSep, commaSep, F64.isNaN]

/-- C46.  Whatever source delivers the SRID and the events of a geometry (as every reader of the crate does on
success), conversion to WKT or EWKT gives the text of that geometry, with the prefix of the SRID delivered. -/
theorem C46_to_wkt_text (num : F64 → Text) (src : Prog Unit) (dialect : WktDialect) (dims : Dims) (srid s : Option Int)
    (g : Geom) (bs rest : List Byte)
    (h : run dims.multi src bs = (.srid s :: Geom.events dims.multi 0 g, .ok ((), rest))) :
    toWktWithOpts num src dialect dims srid bs
      = .ok ((if dialect = .ewkt then sridPrefix (srid.or s) else []) ++ wkt num dims.multi g) := by
  obtain ⟨w, h1, h2⟩ := C19_wkt_writer_prints num dialect dims srid s g
  rw [toWktWithOpts, interp_of_feed_ok_inv (proc num) dims.multi (fun w => w.dims = dims)
    (fun w h => by simp [proc, h]) (step_dims num dims) src (withOpts dialect dims srid) w rfl bs (by rw [h]; exact h1), h]
  simp [h2]

/-- C46.  Converting WKB of any dialect but SpatiaLite to WKT or EWKT: on every input, if the reader succeeds the
result is the text of one geometry, with the prefix of the SRID read; if it fails, so does the conversion, with the
reader's error.  In particular the text writer itself never fails or panics. -/
theorem C46_wkb_to_wkt (num : F64 → Text) (fo : FOps) (d : WkbDialect) (hd : d ≠ .spatiaLite) (dialect : WktDialect)
    (dims : Dims) (srid : Option Int) (bs : List Byte) :
    (∃ s g rest, run dims.multi (processWkbTypeGeom fo d) bs = (.srid s :: Geom.events dims.multi 0 g, .ok ((), rest)) ∧
      toWktWithOpts num (processWkbTypeGeom fo d) dialect dims srid bs
        = .ok ((if dialect = .ewkt then sridPrefix (srid.or s) else []) ++ wkt num dims.multi g)) ∨
    (∃ evs e, run dims.multi (processWkbTypeGeom fo d) bs = (evs, .error e) ∧
      toWktWithOpts num (processWkbTypeGeom fo d) dialect dims srid bs = .error e) := by
  have hm : ∀ w : WktWriter, w.dims = dims → (proc num).multi w = dims.multi := by
    intro w h; simp [proc, h]
  have hI := interp_of_feed_ok_inv (proc num) dims.multi (fun w => w.dims = dims) hm (step_dims num dims)
    (processWkbTypeGeom fo d) (withOpts dialect dims srid)
  cases hr : run dims.multi (processWkbTypeGeom fo d) bs with
  | mk evs r =>
    cases r with
    | ok p =>
      obtain ⟨⟨⟩, rest⟩ := p
      left
      obtain ⟨s, g, _, rfl⟩ := C08_success_is_one_geometry fo d hd dims.multi bs rest evs hr
      exact ⟨s, g, rest, rfl, C46_to_wkt_text num _ dialect dims srid s g bs rest hr⟩
    | error e =>
      right
      refine ⟨evs, e, rfl, ?_⟩
      obtain ⟨s, g, t, ht⟩ := C09_failure_is_prefix fo d hd dims.multi bs evs e hr
      obtain ⟨w, h1, _⟩ := C19_wkt_writer_prints num dialect dims srid s g
      rw [← ht, feed_append] at h1
      cases hp : feed (step num) (withOpts dialect dims srid) evs with
      | error x => rw [hp] at h1; cases h1
      | ok w' =>
        rw [toWktWithOpts, hI w' rfl bs (by rw [hr]; exact hp), hr]

/-- non-vacuity: an EWKB point, as EWKT -/
example (num : F64 → Text) (fo : FOps) : toWktWithOpts num (processWkbTypeGeom fo .ewkb) .ewkt ⟨true, true, false, false⟩ none
    ([1] ++ encU32 .le 0x20000001 ++ encU32 .le 4326 ++ List.replicate 16 0)
      = .ok (txt "SRID=4326;POINT(" ++ num 0#64 ++ txt " " ++ num 0#64 ++ txt ")") := by
  rw [C46_to_wkt_text num _ .ewkt _ none (some 4326) (.point ⟨0#64, 0#64, none, none⟩) _ [] (by rfl)]
  have h : sridPrefix (some 4326) = txt "SRID=4326;" := by decide
  simp [h, wkt, tagged, parens, commaSep, wktCoord, ordinates, F64.isNaN, blankSep, txt, Dims.multi]

/-! ### C46 for SpatiaLite, whose compressed line strings announce sizes and indices that are off -/

/-- the writer up to what it does with sizes: whether they are zero -/
private def WktWriter.norm (w : WktWriter) : WktWriter := { w with sizes := w.sizes.map (min · 1) }

private theorem WktWriter.header_norm (w : WktWriter) : w.norm.header = w.header.norm := by
  unfold header WktWriter.norm
  simp only
  split
  · split
    · rfl
    · split <;> rfl
  · rfl

private theorem WktWriter.comma_norm (w : WktWriter) (i : Nat) : w.norm.comma i = (w.comma i).norm := by
  unfold comma
  split <;> rfl

private theorem step_norm (num : F64 → Text) (w : WktWriter) (e : Ev) :
    (step num w e).map WktWriter.norm = (step num w.norm (semiEv e)).map WktWriter.norm := by
  have hz : ∀ n : Nat, (min n 1 = 0) = (n = 0) := fun n => propext ⟨fun h => by omega, fun h => by omega⟩
  have hp : ∀ n : Nat, (0 < min n 1) = (0 < n) := fun n => propext ⟨fun h => by omega, fun h => by omega⟩
  have hb : ∀ tag tagged size idx size', min size 1 = min size' 1 →
      (w.geomBegin tag tagged size idx).norm = (w.norm.geomBegin tag tagged size' idx).norm := by
    intro tag tagged size idx size' hs
    have h0 : (size' = 0) = (size = 0) := by rw [← hz size', ← hz size, hs]
    simp only [geomBegin, header_norm, comma_norm]
    have ht : (if tagged = true then ((w.header.comma idx).norm).put tag else (w.header.comma idx).norm)
        = (if tagged = true then (w.header.comma idx).put tag else w.header.comma idx).norm := by
      split <;> rfl
    rw [ht]
    generalize (if tagged = true then (w.header.comma idx).put tag else w.header.comma idx) = u
    simp only [h0]
    split
    · split <;> simp [WktWriter.norm, put, hs]
    · simp [WktWriter.norm, put, hs]
  have he : ∀ w' w'' : WktWriter, w'.norm = w''.norm → w'.geomEnd.map WktWriter.norm = w''.geomEnd.map WktWriter.norm := by
    intro w' w'' h
    obtain ⟨d1, s1, l1, f1, z1, o1⟩ := w'
    obtain ⟨d2, s2, l2, f2, z2, o2⟩ := w''
    simp only [WktWriter.norm, WktWriter.mk.injEq] at h
    obtain ⟨rfl, rfl, rfl, rfl, hzs, rfl⟩ := h
    cases z1 with
    | nil =>
      cases z2 with
      | nil => rfl
      | cons => cases hzs
    | cons a as =>
      cases z2 with
      | nil => cases hzs
      | cons b bs =>
        simp only [List.map_cons, List.cons.injEq] at hzs
        obtain ⟨h1, h2⟩ := hzs
        have : (a > 0) = (b > 0) := by
          show (0 < a) = (0 < b)
          rw [← hp a, ← hp b, h1]
        simp only [geomEnd, this, Except.map]
        split <;> simp [WktWriter.norm, put, h2]
  cases e with
  | srid s => simp [step, semiEv, Except.map, WktWriter.norm]
  | xy x y i =>
    have : (min i 1 > 0) = (i > 0) := hp i
    simp only [step, semiEv, xy, comma, put, this, Except.map, WktWriter.norm]
    congr 1
    split <;> split <;> simp
  | coord x y z m t tm i =>
    have : (min i 1 > 0) = (i > 0) := hp i
    simp only [step, semiEv, coordinate, comma, put, this, Except.map, WktWriter.norm]
    congr 1
    split <;> split <;> simp
  | emptyPoint i =>
    simp only [step, semiEv]
    exact he _ _ (hb _ _ _ _ _ rfl)
  | gbegin k tagged n i =>
    cases k <;> simp only [step, semiEv, Except.map] <;> congr 1 <;> first | exact hb _ _ _ _ _ rfl | exact hb _ _ _ _ _ (by omega)
  | gend k tagged i =>
    refine he _ _ ?_
    simp only [WktWriter.norm, List.map_map]
    congr 1
    exact List.map_congr_left fun a _ => by simp

private theorem feed_norm (num : F64 → Text) (evs evs' : List Ev) (h : evs.map semiEv = evs'.map semiEv)
    (w w' : WktWriter) (hw : w.norm = w'.norm) :
    (feed (step num) w evs).map WktWriter.norm = (feed (step num) w' evs').map WktWriter.norm := by
  induction evs generalizing evs' w w' with
  | nil =>
    cases evs' with
    | nil => simp [feed, Except.map, hw]
    | cons => cases h
  | cons e evs ih =>
    cases evs' with
    | nil => cases h
    | cons e' evs' =>
      simp only [List.map_cons, List.cons.injEq] at h
      have h1 : (step num w e).map WktWriter.norm = (step num w' e').map WktWriter.norm := by
        rw [step_norm, step_norm num w', hw, h.1]
      simp only [feed_cons]
      cases hs : step num w e with
      | error x =>
        cases hs' : step num w' e' with
        | error x' => rw [hs, hs'] at h1; simpa [Except.map] using h1
        | ok u' => rw [hs, hs'] at h1; cases h1
      | ok u =>
        cases hs' : step num w' e' with
        | error x' => rw [hs, hs'] at h1; cases h1
        | ok u' =>
          rw [hs, hs'] at h1
          simp only [Except.map, Except.ok.injEq] at h1
          exact ih evs' h.2 u u' h1

/-- C46 for every dialect, SpatiaLite included, and all bytes: if the reader succeeds, what it delivers is the stream of a
geometry, up to sizes announced for line strings and indices of coordinates (C08), and the conversion gives the
text of this geometry behind the prefix of the SRID read; if the reader fails, so does the conversion, with
the reader's error. -/
theorem C46_any_wkb_to_wkt (num : F64 → Text) (fo : FOps) (d : WkbDialect) (dialect : WktDialect)
    (dims : Dims) (srid : Option Int) (bs : List Byte) :
    (∃ s g evs rest, run dims.multi (processWkbTypeGeom fo d) bs = (evs, .ok ((), rest)) ∧
      evs.map semiEv = (.srid s :: Geom.events dims.multi 0 g).map semiEv ∧
      toWktWithOpts num (processWkbTypeGeom fo d) dialect dims srid bs
        = .ok ((if dialect = .ewkt then sridPrefix (srid.or s) else []) ++ wkt num dims.multi g)) ∨
    (∃ evs e, run dims.multi (processWkbTypeGeom fo d) bs = (evs, .error e) ∧
      toWktWithOpts num (processWkbTypeGeom fo d) dialect dims srid bs = .error e) := by
  have hm : ∀ w : WktWriter, w.dims = dims → (proc num).multi w = dims.multi := by
    intro w h; simp [proc, h]
  have hI := interp_of_feed_ok_inv (proc num) dims.multi (fun w => w.dims = dims) hm (step_dims num dims)
    (processWkbTypeGeom fo d) (withOpts dialect dims srid)
  cases hr : run dims.multi (processWkbTypeGeom fo d) bs with
  | mk evs r =>
    cases r with
    | ok p =>
      obtain ⟨⟨⟩, rest⟩ := p
      left
      obtain ⟨s, g, _, he⟩ := C08_spatialite_success_semi fo d dims.multi bs rest evs hr
      refine ⟨s, g, evs, rest, rfl, he, ?_⟩
      obtain ⟨w, h1, h2⟩ := C19_wkt_writer_prints num dialect dims srid s g
      have h3 := feed_norm num evs _ he (withOpts dialect dims srid) _ rfl
      rw [h1] at h3
      cases hp : feed (step num) (withOpts dialect dims srid) evs with
      | error x => rw [hp] at h3; cases h3
      | ok w' =>
        rw [hp] at h3
        simp only [Except.map, Except.ok.injEq] at h3
        rw [toWktWithOpts, hI w' rfl bs (by rw [hr]; exact hp), hr]
        have : w'.norm.out = w.norm.out := congrArg WktWriter.out h3
        have : w'.out = w.out := this
        simp [this, h2]
    | error e =>
      right
      refine ⟨evs, e, rfl, ?_⟩
      obtain ⟨s, g, t, ht⟩ := C09_spatialite_failure_semi fo d dims.multi bs evs e hr
      obtain ⟨w, h1, _⟩ := C19_wkt_writer_prints num dialect dims srid s g
      obtain ⟨pre, post, hpp, hpre, hpost⟩ := List.append_eq_map_iff.mp ht
      have h3 := feed_norm num evs pre hpre.symm (withOpts dialect dims srid) _ rfl
      rw [hpp, feed_append] at h1
      cases hq : feed (step num) (withOpts dialect dims srid) pre with
      | error x => rw [hq] at h1; cases h1
      | ok u =>
        rw [hq] at h3
        cases hp : feed (step num) (withOpts dialect dims srid) evs with
        | error x => rw [hp] at h3; cases h3
        | ok w' => rw [toWktWithOpts, hI w' rfl bs (by rw [hr]; exact hp), hr]

/-- non-vacuity: a compressed SpatiaLite line string of two vertices; the second one is delivered with index 2, but the
text is right -/
example (num : F64 → Text) (fo : FOps) :
    let bs := [0x00, 0x01] ++ encU32 .le 4326 ++ List.replicate 32 0 ++ [0x7C] ++ encU32 .le 1000002 ++ encU32 .le 2
      ++ List.replicate 32 0 ++ [0xFE]
    (run false (processWkbTypeGeom fo .spatiaLite) bs).1 =
      [.srid (some 4326), .gbegin .lineString true 2 0, .xy 0#64 0#64 0, .xy 0#64 0#64 2, .gend .lineString true 0] ∧
    (toWktWithOpts num (processWkbTypeGeom fo .spatiaLite) .wkt {} none bs).toOption.isSome = true := by
  exact ⟨rfl, rfl⟩

end Geozero
