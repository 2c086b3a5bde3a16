import Verif.Lemmas.GeoJsonRead
import Verif.Props.Csv
import Verif.Props.WkbRead
import Verif.Props.GeoTypes

/-
GeoJSON: C22 (geometry text), C23 (escaping), C24 (feature collections), C25 (line-delimited output), C26 (reader),
the GeoJSON parts of C27 (order of calls), C28 and C47, and C48 (conversions to GeoJSON).
-/

namespace Geozero
open Json Spec

/-! ## C22 -/

/-- For every geometry of a GeoJSON type whose numbers are printed as JSON numbers: the text written for it is a JSON
value, namely its RFC 7946 object.  (At an index other than 0 a separating comma comes first; `w` is the writer before.) -/
theorem C22_geometry_json_partial (fmt : Fmt) (multi : Bool) (g : Geom)
    (hg : g.IsGeoJson (fun c => c.AllOrds (fun x => IsNumber (fmt.f64 x)) multi)) (i : Nat) (w : GeoJsonWriter) :
    ∃ t, feed (GeoJsonWriter.step fmt) w ((g.events multi i).map FEv.geom) =
        .ok { w with out := w.out ++ ((if i = 0 then [] else txt ",") ++ t) } ∧
      IsValue t (Rfc7946.geometry fmt.f64 multi g) := by
  refine ⟨GeoJsonWriter.geomText fmt.f64 multi g, ?_, GeoJsonWriter.isValue_geom fmt.f64 multi g hg⟩
  rw [GeoJsonWriter.feed_geom, GeoJsonWriter.run_geom fmt.f64 multi hg]
  cases i <;> rfl

/-- A text denotes at most one JSON value: so what is written cannot be read as another geometry. -/
theorem C22_unambiguous (t : Text) (v v' : Json) (h : IsText t v) (h' : IsText t v') : v = v' := h.unique h'

-- nested collections meet the hypotheses, for every printer of numbers
example (p : Coord → Prop) : (Geom.collection [.multiPolygon [[[]], []], .collection [.emptyPoint, .multiPoint []]]).IsGeoJson p := by
  refine .collection ?_
  intro g hg
  simp only [List.mem_cons, List.not_mem_nil, or_false] at hg
  rcases hg with rfl | rfl
  · exact .multiPolygon (by simp)
  · refine .collection ?_
    intro g hg
    simp only [List.mem_cons, List.not_mem_nil, or_false] at hg
    rcases hg with rfl | rfl
    · exact .emptyPoint
    · exact .multiPoint (by simp)

theorem number_15 : IsNumber (txt "1.5") :=
  ⟨[], txt "1", txt ".5", [], Or.inl rfl, Or.inr ⟨'1', [], rfl, rfl, by decide, by simp⟩,
    Or.inr ⟨txt "5", ⟨by decide, by decide⟩, rfl⟩, Or.inl rfl, rfl⟩

-- so does a point, when its numbers are printed as, say, "1.5"
example : (Geom.point ⟨1#64, 2#64, none, none⟩).IsGeoJson
    (fun c => c.AllOrds (fun x => IsNumber ((fun _ => txt "1.5") x)) true) :=
  .point ⟨number_15, number_15, by simp⟩

/-- Numbers that are not finite are printed as `NaN`, `inf`; then the text is not JSON. -/
theorem C22_nan_false (fmt : Fmt) (x : F64) (hx : fmt.f64 x = txt "NaN") :
    ∃ w, feed (GeoJsonWriter.step fmt) {} (((Geom.point { x := x, y := x }).events false 0).map FEv.geom) = .ok w ∧
      ¬ ∃ v, IsText w.out v := by
  refine ⟨_, rfl, ?_⟩
  have : (GeoJsonWriter.geomStep fmt.f64 (GeoJsonWriter.geomStep fmt.f64 (GeoJsonWriter.geomStep fmt.f64 {}
      (.gbegin .point true 1 0)) (.xy x x 0)) (.gend .point true 0)).out =
      txt "{\"type\": \"Point\", \"coordinates\": [NaN,NaN]}" := by
    simp [GeoJsonWriter.geomStep, GeoJsonWriter.beginText, GeoJsonWriter.endText, GeoJsonWriter.comma, GeoJsonWriter.put,
      hx, txt]
  show ¬ ∃ v, IsText (GeoJsonWriter.geomStep fmt.f64 (GeoJsonWriter.geomStep fmt.f64 (GeoJsonWriter.geomStep fmt.f64 {}
      (.gbegin .point true 1 0)) (.xy x x 0)) (.gend .point true 0)).out v
  rw [this]
  exact not_text (by decide +kernel)

/-- Types GeoJSON does not have are not rejected: a circular string is written as bare positions. -/
theorem C22_curve_false : ∃ (fmt : Fmt) (g : Geom) (w : GeoJsonWriter),
    feed (GeoJsonWriter.step fmt) {} ((g.events false 0).map FEv.geom) = .ok w ∧ ¬ ∃ v, IsText w.out v := by
  refine ⟨⟨fun _ => txt "0", fun _ => txt "0"⟩, .circularString [⟨0#64, 0#64, none, none⟩,
    ⟨1#64, 1#64, none, none⟩], _, rfl, not_text (by decide +kernel)⟩

/-! ## C23 -/

/-- The literal written for a name or a string denotes it exactly when it has no backslash and no control character; a
string property is written as the two literals with `: ` between them. -/
theorem C23_string_property_partial (fmt : Fmt) (n v : Text) :
    ∃ a b, feed (GeoJsonWriter.step fmt) {} [.prop 0 n (.string v)] = .ok { out := a ++ (txt ": " ++ b) } ∧
      (IsString a n ↔ PlainText n) ∧ (IsString b v ↔ PlainText v) := by
  refine ⟨'"' :: (GeoJsonWriter.escape n ++ ['"']), '"' :: (GeoJsonWriter.escape v ++ ['"']), ?_,
    ⟨GeoJsonWriter.plain_of_isString_escape, GeoJsonWriter.isString_escape⟩,
    ⟨GeoJsonWriter.plain_of_isString_escape, GeoJsonWriter.isString_escape⟩⟩
  simp [feed_cons, GeoJsonWriter.step, GeoJsonWriter.propText, GeoJsonWriter.strProp, GeoJsonWriter.put, txt]

/-- The same for date-times. -/
theorem C23_datetime_property_partial (fmt : Fmt) (n v : Text) :
    ∃ a b, feed (GeoJsonWriter.step fmt) {} [.prop 0 n (.dateTime v)] = .ok { out := a ++ (txt ": " ++ b) } ∧
      (IsString a n ↔ PlainText n) ∧ (IsString b v ↔ PlainText v) :=
  C23_string_property_partial fmt n v

/-- A property of any other type but binary: the literal of the name, then the printed value. -/
theorem C23_other_property_partial (fmt : Fmt) (n : Text) (v : ColVal) (hs : ∀ t, v ≠ .string t)
    (hd : ∀ t, v ≠ .dateTime t) (hb : ∀ b, v ≠ .binary b) :
    ∃ a, feed (GeoJsonWriter.step fmt) {} [.prop 0 n v] = .ok { out := a ++ (txt ": " ++ v.display fmt) } ∧
      (IsString a n ↔ PlainText n) := by
  refine ⟨'"' :: (GeoJsonWriter.escape n ++ ['"']), ?_,
    ⟨GeoJsonWriter.plain_of_isString_escape, GeoJsonWriter.isString_escape⟩⟩
  cases v <;> first
    | exact absurd rfl (hs _)
    | exact absurd rfl (hd _)
    | exact absurd rfl (hb _)
    | simp [feed_cons, GeoJsonWriter.step, GeoJsonWriter.propText, GeoJsonWriter.rawProp, GeoJsonWriter.put, txt, ColVal.display]

-- a string with quotes, beyond ASCII
example : PlainText (txt "say \"grüezi\" / ok") := by decide

/-- Backslash and control characters are not escaped: a string ending with a backslash, or with a line break inside,
makes the whole feature collection something other than JSON. -/
theorem C23_escaping_false (fmt : Fmt) :
    (∃ w, feed (GeoJsonWriter.step fmt) {} (datasetEvs none [⟨some [(0, txt "a", .string (txt "\\"))], none, false⟩]) = .ok w ∧
      ¬ ∃ v, IsText w.out v) ∧
    (∃ w, feed (GeoJsonWriter.step fmt) {} (datasetEvs none [⟨some [(0, txt "a", .string (txt "x\ny"))], none, false⟩]) = .ok w ∧
      ¬ ∃ v, IsText w.out v) := by
  refine ⟨⟨_, rfl, not_text ?_⟩, ⟨_, rfl, not_text ?_⟩⟩
  · show parse (txt "{\n\"type\": \"FeatureCollection\",\n\"features\": [{\"type\": \"Feature\", \"properties\": {\"a\": \"\\\"}}]}") = none
    decide +kernel
  · show parse (txt "{\n\"type\": \"FeatureCollection\",\n\"features\": [{\"type\": \"Feature\", \"properties\": {\"a\": \"x\ny\"}}]}") = none
    decide +kernel

/-- Worse, a string can denote another one: backslash followed by n becomes a line break. -/
theorem C23_changed_value_false (fmt : Fmt) :
    ∃ w, feed (GeoJsonWriter.step fmt) {} [.propsBegin, .prop 0 (txt "a") (.string (txt "\\n")), .propsEnd] = .ok w ∧
      w.out = txt ", \"properties\": {\"a\": \"\\n\"}" ∧ IsString (txt "\"\\n\"") (txt "\n") :=
  ⟨_, rfl, rfl, ⟨txt "\\n", .escape (by decide) .nil, rfl⟩⟩

/-! ## C24 -/

/-- For every dataset whose features have plain names and strings, finite numbers, no binary values and geometries of
GeoJSON types, delivered with property indices 0, 1, ... and geometry index 0: the complete output is one JSON text,
namely the feature collection with every feature in order, with its properties and its geometry. -/
theorem C24_feature_collection_partial (fmt : Fmt) (decode : Text → Json) (multi : Bool) (name : Option Text)
    (ds : List FeatureData) (hn : ∀ n, name = some n → PlainText n ∧ '"' ∉ n)
    (hd : ∀ d ∈ ds, d.Printable fmt decode multi) (dims : Dims) :
    ∃ w, feed (GeoJsonWriter.step fmt) { dims := dims } (datasetEvs name (ds.map (FeatureData.feat multi))) = .ok w ∧
      IsText w.out (Rfc7946.featureCollection fmt decode multi name ds) := by
  refine ⟨_, GeoJsonWriter.feed_dataset fmt multi name ds (fun d h => (hd d h).geom) _, ?_⟩
  exact GeoJsonWriter.isText_value (GeoJsonWriter.isValue_dataset fmt decode multi name ds hn hd)

-- two features, strings with quotes, embedded JSON, geometry first
example (fmt : Fmt) : ∀ d ∈ ([⟨some [(txt "a\"b", .string (txt "\"")), (txt "n", .long (-3))], some (.multiPoint []), false⟩,
    ⟨some [(txt "j", .json (txt " [] "))], some .emptyPoint, true⟩, ⟨none, none, false⟩] : List FeatureData),
    d.Printable fmt (fun _ => .arr []) true := by
  intro d hd
  simp only [List.mem_cons, List.not_mem_nil, or_false] at hd
  rcases hd with rfl | rfl | rfl
  · refine ⟨?_, ?_, ?_⟩
    · intro ps hps; cases hps; decide
    · intro ps hps p hp
      cases hps
      simp only [List.mem_cons, List.not_mem_nil, or_false] at hp
      rcases hp with rfl | rfl
      · exact (by decide : PlainText (txt "\""))
      · trivial
    · intro g hg; cases hg; exact .multiPoint (by simp)
  · refine ⟨?_, ?_, ?_⟩
    · intro ps hps; cases hps; decide
    · intro ps hps p hp
      cases hps
      simp only [List.mem_cons, List.not_mem_nil, or_false] at hp
      subst hp
      exact ⟨txt " ", txt "[]", txt " ", GeoJsonWriter.isWs_space, .emptyArr GeoJsonWriter.isWs_nil,
        GeoJsonWriter.isWs_space, rfl⟩
    · intro g hg; cases hg; exact .emptyPoint
  · exact ⟨by simp, by simp, by simp⟩

/-- A binary value is skipped but its separator is not. -/
theorem C24_binary_false (fmt : Fmt) :
    ∃ w, feed (GeoJsonWriter.step fmt) {} (datasetEvs none
        [⟨some [(0, txt "a", .binary []), (1, txt "b", .bool true)], none, false⟩]) = .ok w ∧ ¬ ∃ v, IsText w.out v := by
  refine ⟨_, rfl, not_text ?_⟩
  show parse (txt "{\n\"type\": \"FeatureCollection\",\n\"features\": [{\"type\": \"Feature\", \"properties\": {, \"b\": true}}]}") = none
  decide +kernel

/-- The name of the dataset is not escaped at all. -/
theorem C24_name_false (fmt : Fmt) :
    ∃ w, feed (GeoJsonWriter.step fmt) {} (datasetEvs (some (txt "a\"b")) []) = .ok w ∧ ¬ ∃ v, IsText w.out v := by
  refine ⟨_, rfl, not_text ?_⟩
  show parse (txt "{\n\"type\": \"FeatureCollection\",\n\"name\": \"a\"b\",\n\"features\": []}") = none
  decide +kernel

set_option maxRecDepth 4000 in
/-- GeoJSON to GeoJSON: the reader delivers the geometry of feature 1 with index 1, and the writer puts a comma before it.
Two features with geometries are enough to get something other than JSON. -/
theorem C24_geojson_to_geojson_false (fmt : Fmt) :
    ∃ fs t, processToJson fmt (processGeoJson (.featureCollection fs)) [] = .ok t ∧ ¬ ∃ v, IsText t v := by
  refine ⟨[⟨none, some (.multiPoint [])⟩, ⟨none, some (.multiPoint [])⟩], _, rfl, not_text ?_⟩
  show parse (txt ("{\n\"type\": \"FeatureCollection\",\n\"features\": [" ++
    "{\"type\": \"Feature\", \"geometry\": {\"type\": \"MultiPoint\", \"coordinates\": []}},\n" ++
    "{\"type\": \"Feature\", \"geometry\": ,{\"type\": \"MultiPoint\", \"coordinates\": []}}]}")) = none
  decide +kernel

/-- GeoJSON to GeoJSON: a null value is skipped by the reader but counted, so when it is the first property the writer
starts with a comma. -/
theorem C24_null_property_false (fmt : Fmt) :
    ∃ fs t, processToJson fmt (processGeoJson (.featureCollection fs)) [] = .ok t ∧ ¬ ∃ v, IsText t v := by
  refine ⟨[⟨some [(txt "a", .null), (txt "b", .bool true)], none⟩], _, rfl, not_text ?_⟩
  show parse (txt ("{\n\"type\": \"FeatureCollection\",\n\"features\": [" ++
    "{\"type\": \"Feature\", \"properties\": {, \"b\": true}}]}")) = none
  decide +kernel

/-! ## C25 -/

/-- For every sequence of items, each delivered with any index: the output is one line per item, in order, and each line
is what a `GeoJsonWriter` writes for that item alone (as item 0). -/
theorem C25_one_line_per_item_partial (fmt : Fmt) (multi : Bool) (dims : Dims) (items : List (Nat × LineItem))
    (hok : ∀ it ∈ items, it.2.Ok) :
    ∃ lines : List Text, lines.length = items.length ∧
      feed (GeoJsonLineWriter.step fmt) { inner := { dims := dims } } (items.flatMap fun it => it.2.evs multi it.1) =
        .ok { inner := { dims := dims, out := (lines.map (· ++ txt "\n")).flatten } } ∧
      ∀ p ∈ items.zip lines, feed (GeoJsonWriter.step fmt) { dims := dims } (p.1.2.evs multi 0) =
        .ok { dims := dims, out := p.2 } := by
  refine ⟨items.map fun it => GeoJsonWriter.textOf fmt (it.2.evs multi 0), by simp, ?_, ?_⟩
  · have : ∀ (items : List (Nat × LineItem)) (w : GeoJsonWriter), (∀ it ∈ items, it.2.Ok) →
        feed (GeoJsonLineWriter.step fmt) ⟨0, w⟩ (items.flatMap fun it => it.2.evs multi it.1) =
        .ok ⟨0, w.put ((items.map fun it => GeoJsonWriter.textOf fmt (it.2.evs multi 0)).map (· ++ txt "\n")).flatten⟩ := by
      intro items
      induction items with
      | nil => intro w _; simp
      | cons it items ih =>
        intro w h
        rw [List.flatMap_cons, feed_append, GeoJsonLineWriter.feed_item fmt multi it.2 (h it (by simp)) it.1 w]
        simp only [ih _ (fun q hq => h q (by simp [hq]))]
        simp
    rw [this items _ hok]
    simp [GeoJsonWriter.put]
  · intro p hp
    obtain ⟨q, t⟩ := p
    rw [List.zip_map_right] at hp
    simp only [List.mem_map] at hp
    obtain ⟨⟨a, b⟩, hab, he⟩ := hp
    have hself : ∀ (l : List (Nat × LineItem)) (x : (Nat × LineItem) × (Nat × LineItem)), x ∈ l.zip l → x.1 = x.2 := by
      intro l
      induction l with
      | nil => intro x hx; simp at hx
      | cons y ys ih =>
        intro x hx
        simp only [List.zip_cons_cons, List.mem_cons] at hx
        rcases hx with rfl | hx
        · rfl
        · exact ih x hx
    have := hself items _ hab
    simp only [Prod.map_apply, id_eq, Prod.mk.injEq] at he
    obtain ⟨rfl, rfl⟩ := he
    simp only at this
    subst this
    rw [GeoJsonWriter.feed_text]
    simp [GeoJsonWriter.put]

/-- `dataset_begin` and `dataset_end` write nothing. -/
theorem C25_dataset_frame (fmt : Fmt) (w : GeoJsonLineWriter) (name : Option Text) (evs : List FEv) :
    feed (GeoJsonLineWriter.step fmt) w (.dsBegin name :: (evs ++ [.dsEnd])) = feed (GeoJsonLineWriter.step fmt) w evs := by
  simp only [feed_cons, GeoJsonLineWriter.step, feed_append]
  cases feed (GeoJsonLineWriter.step fmt) w evs with
  | error e => rfl
  | ok w' => simp [feed_cons, GeoJsonLineWriter.step]

/-- No line break inside a line, when there is none in the names, strings, embedded JSON texts and printed numbers. -/
theorem C25_no_newline_partial (fmt : Fmt) (h32 : ∀ x, '\n' ∉ fmt.f32 x) (h64 : ∀ x, '\n' ∉ fmt.f64 x) (multi : Bool)
    (dims : Dims) (it : LineItem) (hit : it.OneLine) (t : Text)
    (h : feed (GeoJsonWriter.step fmt) { dims := dims } (it.evs multi 0) = .ok { dims := dims, out := t }) :
    '\n' ∉ t := by
  rw [GeoJsonWriter.feed_text] at h
  simp only [GeoJsonWriter.put, List.nil_append, Except.ok.injEq, GeoJsonWriter.mk.injEq, true_and] at h
  rw [← h]
  exact GeoJsonLineWriter.item_newline fmt h32 h64 multi it hit

/-- A line break in a string is written as it is, so one feature takes two lines. -/
theorem C25_newline_false (fmt : Fmt) :
    ∃ w, feed (GeoJsonLineWriter.step fmt) {}
        (LineItem.evs false 0 (.feature (some [(0, txt "a", .string (txt "x\ny"))]) none false)) = .ok w ∧
      w.inner.out = txt "{\"type\": \"Feature\", \"properties\": {\"a\": \"x\ny\"}}\n" :=
  ⟨_, rfl, rfl⟩

/-- A bare geometry that GeoJSON does not have gets no line of its own. -/
theorem C25_curve_false (fmt : Fmt) :
    ∃ w, feed (GeoJsonLineWriter.step fmt) {} (LineItem.evs false 0 (.geometry (.circularString []))) = .ok w ∧
      w.inner.out = [] :=
  ⟨_, rfl, rfl⟩

-- a feature with a geometry delivered at index 4, and a bare collection
example : ∀ it ∈ ([(4, .feature (some [(0, txt "a", .bool true)]) (some (4, .lineString [])) true),
    (1, .geometry (.collection [.emptyPoint]))] : List (Nat × LineItem)), it.2.Ok ∧ it.2.OneLine := by
  intro it hit
  simp only [List.mem_cons, List.not_mem_nil, or_false] at hit
  rcases hit with rfl | rfl
  · refine ⟨trivial, ?_⟩
    intro p hp
    simp only [Option.getD_some, List.mem_cons, List.not_mem_nil, or_false] at hp
    subst hp
    exact ⟨by decide, trivial⟩
  · refine ⟨.collection ?_, trivial⟩
    intro g hg
    simp only [List.mem_cons, List.not_mem_nil, or_false] at hg
    subst hg
    exact .emptyPoint

/-! ## C26 -/

/-- A feature collection is delivered as one dataset: its features in order, each with its properties that are not null
(in order, with their positions) and its geometry.  Nothing is dropped, duplicated or reordered. -/
theorem C26_feature_collection (env : FProg.Env) (fs : List GjFeature) (hf : ∀ f ∈ fs, f.Ok) (bs : List Byte) :
    FProg.run env (processGeoJson (.featureCollection fs)) bs =
      (datasetEvs none ((enumFrom 0 fs).map fun p => p.2.feat env.multi p.1), .ok ((), bs)) := by
  simp only [processGeoJson, FProg.bind_eq, FProg.run_call_bind]
  have hloop := FProg.run_forIdx (env := env) (body := gjCollectionFeature)
    (f := fun i (f : GjFeature) => (f.feat env.multi i).evs i) fs
    (fun i f h bs => run_gjFeature env f (hf f h) i i bs) 0 bs
  rw [FProg.run_bind_ok hloop, featEvs_enum]
  simp [datasetEvs]

/-- A single feature is a dataset with that feature; a feature with neither properties nor geometry is left out. -/
theorem C26_feature (env : FProg.Env) (f : GjFeature) (hf : f.Ok) (bs : List Byte) :
    FProg.run env (processGeoJson (.feature f)) bs =
      (datasetEvs none (if f.properties = none ∧ f.geometry.isNone then [] else [f.feat env.multi 0]), .ok ((), bs)) := by
  simp only [processGeoJson, gjSingleFeature, FProg.bind_eq, FProg.run_call_bind]
  cases hp : f.properties with
  | none =>
    cases hg : f.geometry with
    | none => rfl
    | some g =>
      simp only [Option.isSome_some, Bool.true_or, if_true]
      rw [FProg.run_bind_ok (p := gjCollectionFeature 0 f) (run_gjFeature env f hf 0 0 bs)]
      simp [datasetEvs, featEvs]
  | some ps =>
    simp only [Option.isSome_some, Bool.or_true, if_true]
    rw [FProg.run_bind_ok (p := gjCollectionFeature 0 f) (run_gjFeature env f hf 0 0 bs)]
    simp [datasetEvs, featEvs]

/-- A bare geometry is delivered as geometry calls only. -/
theorem C26_geometry (env : FProg.Env) (g : GjGeom) (hg : g.Ok) (bs : List Byte) :
    FProg.run env (processGeoJson (.geometry g)) bs = ((g.geom.events env.multi 0).map FEv.geom, .ok ((), bs)) := by
  simp only [processGeoJson]
  rw [FProg.run_lift, run_gjGeomN env.multi hg 0 bs]

/-- Each property value is delivered with its content; only null values are left out. -/
theorem C26_values (v : GjVal) : (v.column.bind ColVal.content) = v.content ∧ (v.column = none ↔ v = .null) := by
  cases v <;> exact ⟨rfl, by simp [GjVal.column]⟩

/-- Line-delimited input whose lines are features: one dataset, each feature with its geometry at index 0. -/
theorem C26_feature_lines (env : FProg.Env) (fs : List GjFeature) (hf : ∀ f ∈ fs, f.Ok) (bs : List Byte) :
    FProg.run env (readGeoJsonLines (fs.map fun f => .ok (.feature f))) bs =
      (datasetEvs none (fs.map (GjFeature.feat env.multi 0)), .ok ((), bs)) := by
  simp only [readGeoJsonLines, FProg.bind_eq, FProg.run_call_bind]
  have hloop : ∀ (fs : List GjFeature) (i : Nat), (∀ f ∈ fs, f.Ok) →
      FProg.run env (FProg.forIdx gjLineItem i (fs.map fun f => .ok (.feature f))) bs =
        (featEvs i (fs.map (GjFeature.feat env.multi 0)), .ok ((), bs)) := by
    intro fs
    induction fs with
    | nil => intro i _; rfl
    | cons f fs ih =>
      intro i h
      simp only [List.map_cons, FProg.forIdx]
      rw [FProg.run_bind_ok (p := gjLineItem i (.ok (.feature f))) (run_gjFeature env f (h f (by simp)) i 0 bs),
        ih (i + 1) (fun g hg => h g (by simp [hg]))]
      rfl
  rw [FProg.run_bind_ok (hloop fs 0 hf)]
  simp [datasetEvs]

/-- Line-delimited input, lines of both kinds: one dataset, the lines in order; line `i` is feature `i`, or a bare geometry
with index `i`. -/
theorem C26_lines (env : FProg.Env) (ls : List (GjFeature ⊕ GjGeom)) (hf : ∀ f, .inl f ∈ ls → f.Ok)
    (hg : ∀ g, .inr g ∈ ls → g.Ok) (bs : List Byte) :
    FProg.run env (readGeoJsonLines (ls.map fun l => .ok (l.elim .feature .geometry))) bs =
      (.dsBegin none :: (((enumFrom 0 ls).flatMap fun p => p.2.elim (fun f => (f.feat env.multi 0).evs p.1)
        (fun g => (g.geom.events env.multi p.1).map FEv.geom)) ++ [.dsEnd]), .ok ((), bs)) := by
  simp only [readGeoJsonLines, FProg.bind_eq, FProg.run_call_bind]
  have hloop : ∀ (ls : List (GjFeature ⊕ GjGeom)) (i : Nat), (∀ f, .inl f ∈ ls → f.Ok) → (∀ g, .inr g ∈ ls → g.Ok) →
      FProg.run env (FProg.forIdx gjLineItem i (ls.map fun l => .ok (l.elim .feature .geometry))) bs =
        ((enumFrom i ls).flatMap fun p => p.2.elim (fun f => (f.feat env.multi 0).evs p.1)
          (fun g => (g.geom.events env.multi p.1).map FEv.geom), .ok ((), bs)) := by
    intro ls
    induction ls with
    | nil => intro i _ _; rfl
    | cons l ls ih =>
      intro i hf hg
      have ih' := ih (i + 1) (fun f h => hf f (by simp [h])) (fun g h => hg g (by simp [h]))
      simp only [List.map_cons, FProg.forIdx]
      cases l with
      | inl f =>
        simp only [Sum.elim_inl]
        rw [FProg.run_bind_ok (p := gjLineItem i (.ok (.feature f))) (run_gjFeature env f (hf f (by simp)) i 0 bs), ih']
        simp [enumFrom]
      | inr g =>
        have h1 : FProg.run env (gjLineItem i (.ok (.geometry g))) bs =
            ((g.geom.events env.multi i).map FEv.geom, .ok ((), bs)) := by
          simp only [gjLineItem]
          rw [FProg.run_lift, run_gjGeomN env.multi (hg g (by simp)) i bs]
        simp only [Sum.elim_inr]
        rw [FProg.run_bind_ok (p := gjLineItem i (.ok (.geometry g))) h1, ih']
        simp [enumFrom]
  rw [FProg.run_bind_ok (hloop ls 0 hf hg)]
  simp

/-- A line that cannot be parsed, or is a feature collection, is an error; the features before it have been delivered,
nothing after them. -/
theorem C26_bad_line (env : FProg.Env) (fs : List GjFeature) (hf : ∀ f ∈ fs, f.Ok) (bad : Except Err GeoJsonValue) (e : Err)
    (hbad : bad = .error e ∨ (e = lineError ∧ ∃ gs, bad = .ok (.featureCollection gs)))
    (rest : List (Except Err GeoJsonValue)) (bs : List Byte) :
    FProg.run env (readGeoJsonLines ((fs.map fun f => .ok (.feature f)) ++ bad :: rest)) bs =
      (.dsBegin none :: featEvs 0 (fs.map (GjFeature.feat env.multi 0)), .error e) := by
  simp only [readGeoJsonLines, FProg.bind_eq, FProg.run_call_bind]
  have hloop : ∀ (fs : List GjFeature) (i : Nat), (∀ f ∈ fs, f.Ok) →
      FProg.run env (FProg.forIdx gjLineItem i ((fs.map fun f => .ok (.feature f)) ++ bad :: rest)) bs =
        (featEvs i (fs.map (GjFeature.feat env.multi 0)), .error e) := by
    intro fs
    induction fs with
    | nil => intro i _; rcases hbad with rfl | ⟨rfl, gs, rfl⟩ <;> rfl
    | cons f fs ih =>
      intro i h
      simp only [List.map_cons, List.cons_append, FProg.forIdx]
      rw [FProg.run_bind_ok (p := gjLineItem i (.ok (.feature f))) (run_gjFeature env f (h f (by simp)) i 0 bs),
        ih (i + 1) (fun g hg => h g (by simp [hg]))]
      rfl
  rw [FProg.run_bind_err (hloop fs 0 hf)]

/-- Reading only the geometries: those of the features that have one, in order, numbered 0, 1, ... -/
theorem C26_geometries (multi : Bool) (fs : List GjFeature) (hf : ∀ f ∈ fs, f.Ok) (bs : List Byte) :
    Prog.run multi (processGeoJsonGeom (.featureCollection fs)) bs =
      (((enumFrom 0 (fs.filterMap GjFeature.geometry)).flatMap fun p => p.2.geom.events multi p.1), .ok ((), bs)) := by
  simp only [processGeoJsonGeom]
  have hok : ∀ g ∈ fs.filterMap GjFeature.geometry, g.Ok := by
    intro g hg
    obtain ⟨f, hf', he⟩ := List.mem_filterMap.1 hg
    exact hf f hf' g he
  generalize fs.filterMap GjFeature.geometry = gs at hok
  have : ∀ (gs : List GjGeom) (i : Nat), (∀ g ∈ gs, g.Ok) → Prog.run multi (forIdx gjGeomN i gs) bs =
      (((enumFrom i gs).flatMap fun p => p.2.geom.events multi p.1), .ok ((), bs)) := by
    intro gs
    induction gs with
    | nil => intro i _; rfl
    | cons g gs ih =>
      intro i h
      simp only [forIdx, Prog.bind_eq]
      rw [Prog.run_bind_ok (run_gjGeomN multi (h g (by simp)) i bs), ih (i + 1) (fun g' h' => h g' (by simp [h']))]
      simp [enumFrom]
  exact this gs 0 hok

/-- Reading only the geometry of a feature or a geometry. -/
theorem C26_single_geometry (multi : Bool) (g : GjGeom) (hg : g.Ok) (ps : Option (List (Text × GjVal))) (bs : List Byte) :
    Prog.run multi (processGeoJsonGeom (.geometry g)) bs = (g.geom.events multi 0, .ok ((), bs)) ∧
    Prog.run multi (processGeoJsonGeom (.feature ⟨ps, some g⟩)) bs = (g.geom.events multi 0, .ok ((), bs)) ∧
    Prog.run multi (processGeoJsonGeom (.feature ⟨ps, none⟩)) bs = ([], .ok ((), bs)) :=
  ⟨run_gjGeomN multi hg 0 bs, run_gjGeomN multi hg 0 bs, rfl⟩

/-- `read_geojson_fc` delivers every feature in a dataset of its own, with its number as index. -/
theorem C26_fc_stream (env : FProg.Env) (fs : List GjFeature) (hf : ∀ f ∈ fs, f.Ok) (bs : List Byte) :
    FProg.run env (readGeoJsonFc (fs.map .ok)) bs =
      ((enumFrom 0 fs).flatMap fun p => FEv.dsBegin none ::
        ((if p.2.properties = none ∧ p.2.geometry.isNone then [] else (p.2.feat env.multi p.1).evs p.1) ++ [.dsEnd]),
        .ok ((), bs)) := by
  have hone : ∀ (f : GjFeature) (i : Nat), f.Ok → FProg.run env (readFcFeature i (.ok f)) bs =
      (FEv.dsBegin none :: ((if f.properties = none ∧ f.geometry.isNone then [] else (f.feat env.multi i).evs i) ++ [.dsEnd]),
        .ok ((), bs)) := by
    intro f i hf
    simp only [readFcFeature, gjSingleFeature, FProg.bind_eq, FProg.run_call_bind]
    cases hp : f.properties with
    | none =>
      cases hg : f.geometry with
      | none => rfl
      | some g =>
        simp only [Option.isSome_some, Bool.true_or, if_true]
        rw [FProg.run_bind_ok (p := gjCollectionFeature i f) (run_gjFeature env f hf i i bs)]
        simp
    | some ps =>
      simp only [Option.isSome_some, Bool.or_true, if_true]
      rw [FProg.run_bind_ok (p := gjCollectionFeature i f) (run_gjFeature env f hf i i bs)]
      simp
  have hloop : ∀ (fs : List GjFeature) (i : Nat), (∀ f ∈ fs, f.Ok) →
      FProg.run env (FProg.forIdx readFcFeature i (fs.map .ok)) bs =
        ((enumFrom i fs).flatMap fun p => FEv.dsBegin none ::
          ((if p.2.properties = none ∧ p.2.geometry.isNone then [] else (p.2.feat env.multi p.1).evs p.1) ++ [.dsEnd]),
          .ok ((), bs)) := by
    intro fs
    induction fs with
    | nil => intro i _; rfl
    | cons f fs ih =>
      intro i h
      simp only [List.map_cons, FProg.forIdx]
      rw [FProg.run_bind_ok (hone f i (h f (by simp))), ih (i + 1) (fun g hg => h g (by simp [hg]))]
      simp [enumFrom]
  exact hloop fs 0 hf

-- a feature collection with a polygon and a feature without geometry
example : ∀ f ∈ ([⟨some [(txt "a", .null), (txt "b", .i64 3)], some (.polygon [[[1#64, 2#64], [3#64, 4#64, 5#64]]])⟩,
    ⟨none, none⟩] : List GjFeature), f.Ok := by
  intro f hf
  simp only [List.mem_cons, List.not_mem_nil, or_false] at hf
  rcases hf with rfl | rfl
  · intro g hg
    cases hg
    refine .polygon ?_
    intro l hl p hp
    simp only [List.mem_cons, List.not_mem_nil, or_false] at hl
    subst hl
    simp only [List.mem_cons, List.not_mem_nil, or_false] at hp
    rcases hp with rfl | rfl <;> simp
  · intro g hg; cases hg

/-- A position with fewer than two numbers (which the `geojson` crate does not produce) would panic. -/
theorem C26_short_position_false (env : FProg.Env) (bs : List Byte) :
    ∃ m, (FProg.run env (processGeoJson (.geometry (.point [1#64]))) bs).2 = .error (.panic m) := ⟨_, rfl⟩

/-! ## C27 for GeoJSON -/

private theorem obeys_propertiesPart (ps : Option (List (Text × GjVal))) (i : Nat) :
    FProg.Obeys (fun _ t => ∃ p, t = .feature i p false) (.feature i false false) (gjPropertiesPart ps) := by
  cases ps with
  | none => exact ⟨false, rfl⟩
  | some ps =>
    refine FProg.Obeys.call_bind (s' := .props i false) rfl ?_
    refine FProg.Obeys.bind (FProg.Obeys.forIdx (fun _ => .props i false) ?_ 0 ps) ?_
    · intro j p
      unfold gjProperty
      cases p.2.column with
      | none => rfl
      | some v => exact FProg.Obeys.call rfl
    · rintro - t rfl
      exact ⟨_, rfl, true, rfl⟩

private theorem obeys_geometryPart (g : Option GjGeom) (i gi : Nat) (p : Bool) :
    FProg.Obeys (fun _ t => ∃ q, t = .feature i p q) (.feature i p false) (gjGeometryPart gi g) := by
  cases g with
  | none => exact ⟨false, rfl⟩
  | some g =>
    refine FProg.Obeys.call_bind (s' := .geom i p) (by cases p <;> rfl) ?_
    refine FProg.Obeys.bind (FProg.Obeys.lift _ i p) ?_
    rintro - t rfl
    exact ⟨_, rfl, true, rfl⟩

private theorem obeys_feature (f : GjFeature) (i gi : Nat) :
    FProg.Obeys (fun _ t => t = .dataset (i + 1)) (.dataset i) (do
      FProg.call (.ftBegin i)
      gjPropertiesPart f.properties
      gjGeometryPart gi f.geometry
      FProg.call (.ftEnd i)) := by
  refine FProg.Obeys.call_bind (s' := .feature i false false) (if_pos rfl) ?_
  refine FProg.Obeys.bind (obeys_propertiesPart _ i) ?_
  rintro - t ⟨p, rfl⟩
  refine FProg.Obeys.bind (obeys_geometryPart _ i gi p) ?_
  rintro - t ⟨q, rfl⟩
  refine FProg.Obeys.call ?_
  cases p <;> cases q <;> exact if_pos rfl

/-- Feature collections and features follow the documented order of calls. -/
theorem C27_geojson_partial (fs : List GjFeature) (f : GjFeature) :
    (processGeoJson (.featureCollection fs)).FollowsContract ∧ (processGeoJson (.feature f)).FollowsContract := by
  constructor
  · apply FProg.follows_of_obeys
    refine FProg.Obeys.call_bind (s' := .dataset 0) rfl ?_
    refine FProg.Obeys.bind (FProg.Obeys.forIdx (fun i => .dataset i) (fun i f => obeys_feature f i i) 0 fs) ?_
    rintro - t rfl
    exact FProg.Obeys.call rfl
  · apply FProg.follows_of_obeys
    refine FProg.Obeys.call_bind (s' := .dataset 0) rfl ?_
    refine FProg.Obeys.bind (Q := fun _ t => ∃ n, t = .dataset n) ?_ ?_
    · split
      · exact FProg.Obeys.mono (obeys_feature f 0 0) (fun _ t ht => ⟨1, ht⟩)
      · exact ⟨0, rfl⟩
    · rintro - t ⟨n, rfl⟩
      exact FProg.Obeys.call rfl

/-- Line-delimited GeoJSON whose lines are features, malformed or feature collections. -/
theorem C27_geojson_lines_partial (lines : List (Except Err GeoJsonValue)) (h : ∀ g, .ok (.geometry g) ∉ lines) :
    (readGeoJsonLines lines).FollowsContract := by
  apply FProg.follows_of_obeys
  refine FProg.Obeys.call_bind (s' := .dataset 0) rfl ?_
  refine FProg.Obeys.bind (FProg.Obeys.forIdx_mem (fun i => .dataset i) lines ?_ 0) ?_
  · intro i l hl
    match l, hl with
    | .error e, _ => trivial
    | .ok (.feature f), _ => exact obeys_feature f i 0
    | .ok (.geometry g), hl => exact absurd hl (h g)
    | .ok (.featureCollection _), _ => trivial
  · rintro - t rfl
    exact FProg.Obeys.call rfl

/-- A bare geometry is delivered without any dataset, also inside a GeoJSON-lines dataset without a feature. -/
theorem C27_bare_geometry_false :
    ¬ (processGeoJson (.geometry (.multiPoint []))).FollowsContract ∧
    ¬ (readGeoJsonLines [.ok (.geometry (.multiPoint []))]).FollowsContract := by
  constructor
  · intro h
    have := (h Unit { step := fun _ _ => .ok () } () []).1
    revert this
    unfold PartialDataset
    decide
  · intro h
    have := (h Unit { step := fun _ _ => .ok () } () []).1
    revert this
    unfold PartialDataset
    decide

/-- `read_geojson_fc` delivers several datasets. -/
theorem C27_fc_false : ¬ (readGeoJsonFc [.ok ⟨some [], none⟩, .ok ⟨some [], none⟩]).FollowsContract := by
  intro h
  have := (h Unit { step := fun _ _ => .ok () } () []).1
  revert this
  unfold PartialDataset
  decide

/-! ## C28: GeoJSON to CSV -/

/-- Null values are skipped but counted by the reader; features whose first value is null make the CSV writer panic. -/
theorem C28_null_property_false (fmt : Fmt) :
    ∃ fs m, (FProg.interp (CsvWriter.proc fmt) (processGeoJson (.featureCollection fs)) (CsvWriter.withDims {}) []).2.2 =
      .error (.panic m) :=
  ⟨[⟨some [(txt "a", .null), (txt "b", .bool true)], none⟩, ⟨some [(txt "a", .null), (txt "b", .bool true)], none⟩], _, rfl⟩

/-! ## C47 for GeoJSON lines -/

/-- the geometries of the lines with their line numbers -/
def lineGeoms (ls : List GeoJsonValue) : List (Nat × GjGeom) :=
  (enumFrom 0 ls).filterMap fun p =>
    match p.2 with
    | .feature f => f.geometry.map fun g => (p.1, g)
    | .geometry g => some (p.1, g)
    | .featureCollection _ => none

private def lineGeom : GeoJsonValue → Option GjGeom
  | .feature f => f.geometry
  | .geometry g => some g
  | .featureCollection _ => none

private theorem lineGeoms_eq (ls : List GeoJsonValue) :
    lineGeoms ls = (enumFrom 0 ls).filterMap fun p => (lineGeom p.2).map fun g => (p.1, g) := by
  unfold lineGeoms
  congr 1
  funext p
  cases p.2 <;> rfl

private theorem run_addGeometry (multi started : Bool) (i : Nat) (g : GjGeom) (hg : g.Ok) (bs : List Byte) :
    Prog.run multi (gjAddGeometry started i g) bs =
      ((if started then [] else [.gbegin .collection true 1 0]) ++ g.geom.events multi i, .ok (true, bs)) := by
  unfold gjAddGeometry
  cases started
  · simp only [Prog.bind_eq, Bool.false_eq_true, if_false, Prog.run_emitEv_bind]
    rw [Prog.run_bind_ok (run_gjGeomN multi hg i bs)]
    simp
  · simp only [Prog.bind_eq, if_true]
    rw [Prog.run_bind_ok (p := (pure () : Prog Unit)) (evs := []) (a := ()) (rest := bs) rfl]
    rw [Prog.run_bind_ok (run_gjGeomN multi hg i bs)]
    simp

private theorem run_lineGeoms (multi : Bool) (ls : List GeoJsonValue) (hfc : ∀ fs, .featureCollection fs ∉ ls)
    (i : Nat) (bs : List Byte) (hok : ∀ p ∈ (enumFrom i ls).filterMap fun p => (lineGeom p.2).map fun g => (p.1, g), p.2.Ok)
    (started : Bool) :
    Prog.run multi (gjLineGeoms started i (ls.map .ok)) bs =
      ((if started ∨ ((enumFrom i ls).filterMap fun p => (lineGeom p.2).map fun g => (p.1, g)) = [] then []
          else [Ev.gbegin .collection true 1 0]) ++
        (((enumFrom i ls).filterMap fun p => (lineGeom p.2).map fun g => (p.1, g)).flatMap fun p => p.2.geom.events multi p.1),
        .ok (started || !((enumFrom i ls).filterMap fun p => (lineGeom p.2).map fun g => (p.1, g)).isEmpty, bs)) := by
  induction ls generalizing i started with
  | nil => cases started <;> simp [gjLineGeoms, enumFrom, Prog.run]
  | cons l ls ih =>
    have hfc' : ∀ fs, .featureCollection fs ∉ ls := fun fs h => hfc fs (by simp [h])
    have skip : lineGeom l = none → ∀ started, Prog.run multi (gjLineGeoms started (i + 1) (ls.map .ok)) bs =
      ((if started ∨ ((enumFrom i (l :: ls)).filterMap fun p => (lineGeom p.2).map fun g => (p.1, g)) = [] then []
          else [Ev.gbegin .collection true 1 0]) ++
        (((enumFrom i (l :: ls)).filterMap fun p => (lineGeom p.2).map fun g => (p.1, g)).flatMap fun p => p.2.geom.events multi p.1),
        .ok (started || !((enumFrom i (l :: ls)).filterMap fun p => (lineGeom p.2).map fun g => (p.1, g)).isEmpty, bs)) := by
      intro hl started
      have he : (enumFrom i (l :: ls)).filterMap (fun p => (lineGeom p.2).map fun g => (p.1, g)) =
          (enumFrom (i + 1) ls).filterMap (fun p => (lineGeom p.2).map fun g => (p.1, g)) := by
        simp [enumFrom, List.filterMap_cons, hl]
      rw [he] at hok ⊢
      exact ih hfc' (i + 1) hok started
    have keep : ∀ g, lineGeom l = some g → ∀ started,
      Prog.run multi (Prog.bind (gjAddGeometry started i g) fun s => gjLineGeoms s (i + 1) (ls.map .ok)) bs =
      ((if started ∨ ((enumFrom i (l :: ls)).filterMap fun p => (lineGeom p.2).map fun g => (p.1, g)) = [] then []
          else [Ev.gbegin .collection true 1 0]) ++
        (((enumFrom i (l :: ls)).filterMap fun p => (lineGeom p.2).map fun g => (p.1, g)).flatMap fun p => p.2.geom.events multi p.1),
        .ok (started || !((enumFrom i (l :: ls)).filterMap fun p => (lineGeom p.2).map fun g => (p.1, g)).isEmpty, bs)) := by
      intro g hl started
      have he : (enumFrom i (l :: ls)).filterMap (fun p => (lineGeom p.2).map fun g => (p.1, g)) =
          (i, g) :: (enumFrom (i + 1) ls).filterMap (fun p => (lineGeom p.2).map fun g => (p.1, g)) := by
        simp [enumFrom, List.filterMap_cons, hl]
      rw [he] at hok ⊢
      rw [Prog.run_bind_ok (run_addGeometry multi started i g (hok (i, g) (by simp)) bs),
        ih hfc' (i + 1) (fun p hp => hok p (by simp [hp])) true]
      cases started <;> simp
    simp only [List.map_cons]
    cases l with
    | featureCollection fs => exact absurd (by simp) (hfc fs)
    | geometry g => simp only [gjLineGeoms]; exact keep g rfl started
    | feature f =>
      simp only [gjLineGeoms]
      cases hg : f.geometry with
      | none => exact skip hg started
      | some g => exact keep g hg started

/-- Reading only the geometries of GeoJSON lines (features and geometries): one collection with the geometries in order.
But they are numbered with their line numbers, and the announced size is 1 whenever there is a geometry. -/
theorem C47_line_geometries_partial (multi : Bool) (ls : List GeoJsonValue) (hfc : ∀ fs, .featureCollection fs ∉ ls)
    (hok : ∀ p ∈ lineGeoms ls, p.2.Ok) (bs : List Byte) :
    Prog.run multi (readGeoJsonLineGeometries (ls.map .ok)) bs =
      (.gbegin .collection true (if lineGeoms ls = [] then 0 else 1) 0 ::
        (((lineGeoms ls).flatMap fun p => p.2.geom.events multi p.1) ++ [.gend .collection true 0]), .ok ((), bs)) := by
  rw [lineGeoms_eq] at hok ⊢
  simp only [readGeoJsonLineGeometries, Prog.bind_eq]
  rw [Prog.run_bind_ok (run_lineGeoms multi ls hfc 0 bs hok false)]
  generalize (enumFrom 0 ls).filterMap (fun p => (lineGeom p.2).map fun g => (p.1, g)) = gs
  cases gs with
  | nil => simp [Prog.run, Prog.emitEv, Prog.bind]
  | cons a as => simp [Prog.run, Prog.emitEv, Prog.bind]

/-- Two lines: the announced size is 1. -/
theorem C47_line_size_false (multi : Bool) (bs : List Byte) :
    ∃ ls, (lineGeoms ls).length = 2 ∧
      (Prog.run multi (readGeoJsonLineGeometries (ls.map .ok)) bs).1.head? = some (.gbegin .collection true 1 0) :=
  ⟨[.geometry (.multiPoint []), .geometry (.multiPoint [])], rfl, rfl⟩

/-- A line without geometry leaves a gap in the numbering. -/
theorem C47_line_index_false (multi : Bool) (bs : List Byte) :
    ∃ ls : List GeoJsonValue, Prog.run multi (readGeoJsonLineGeometries (ls.map .ok)) bs =
      ([.gbegin .collection true 1 0, .gbegin .multiPoint true 0 1, .gend .multiPoint true 1, .gend .collection true 0],
        .ok ((), bs)) :=
  ⟨[.feature ⟨none, none⟩, .geometry (.multiPoint [])], by rfl⟩

/-! ## C48 -/

/-- A source that delivers a geometry (after at most an SRID) is converted to the JSON text of that geometry, without z. -/
theorem C48_to_json (num : F64 → Text) (src : Prog Unit) (bs rest : List Byte) (g : Geom) (pre : List Ev)
    (hpre : pre = [] ∨ ∃ s, pre = [.srid s]) (hsrc : Prog.run false src bs = (pre ++ g.events false 0, .ok ((), rest)))
    (hg : g.IsGeoJson (fun c => c.AllOrds (fun x => IsNumber (num x)) false)) :
    ∃ t, toJson num src bs = .ok t ∧ IsText t (Rfc7946.geometry num false g) := by
  have hfeed : feed (GeoJsonWriter.geomProc num).step {} (Prog.run false src bs).1 =
      .ok { out := GeoJsonWriter.geomText num false g } := by
    have hrun : ∀ (es : List Ev) (w : GeoJsonWriter),
        feed (GeoJsonWriter.geomProc num).step w es = .ok (GeoJsonWriter.run num w es) := by
      intro es
      induction es with
      | nil => intro w; rfl
      | cons e es ih => intro w; exact ih _
    rw [hsrc, hrun, GeoJsonWriter.run_append]
    have h0 : GeoJsonWriter.run num {} pre = {} := by
      rcases hpre with rfl | ⟨s, rfl⟩ <;> rfl
    rw [h0, GeoJsonWriter.run_geom num false hg]
    simp [GeoJsonWriter.put, GeoJsonWriter.sep]
  have := Prog.interp_of_feed_ok_inv (GeoJsonWriter.geomProc num) false (fun w => w.dims = {}) (by
      intro s hs; show s.dims.multi = false; rw [hs]; rfl) (by
      intro s e s' hs h
      simp only [GeoJsonWriter.geomProc, Except.ok.injEq] at h
      subst h
      rw [GeoJsonWriter.geomStep_text]
      exact hs) src {} _ rfl bs hfeed
  refine ⟨_, ?_, GeoJsonWriter.isText_value (GeoJsonWriter.isValue_geom num false g hg)⟩
  unfold toJson
  rw [this, hsrc]

/-- Errors of the source come through, whatever has been written. -/
theorem C48_errors (num : F64 → Text) (src : Prog Unit) (bs : List Byte) (e : Err) :
    toJson num src bs = .error e ↔ (Prog.run false src bs).2 = .error e := by
  have hfeed : ∀ (es : List Ev) (w : GeoJsonWriter),
      feed (GeoJsonWriter.geomProc num).step w es = .ok (GeoJsonWriter.run num w es) := by
    intro es
    induction es with
    | nil => intro w; rfl
    | cons e es ih => intro w; exact ih _
  have := Prog.interp_of_feed_ok_inv (GeoJsonWriter.geomProc num) false (fun w => w.dims = {}) (by
      intro s hs; show s.dims.multi = false; rw [hs]; rfl) (by
      intro s e s' hs h
      simp only [GeoJsonWriter.geomProc, Except.ok.injEq] at h
      subst h
      rw [GeoJsonWriter.geomStep_text]
      exact hs) src {} _ rfl bs (hfeed _ _)
  unfold toJson
  rw [this]
  generalize Prog.run false src bs = r
  obtain ⟨es, r | r⟩ := r <;> simp

theorem agrees_geojson (fmt : Fmt) : FProg.Agrees (GeoJsonWriter.proc fmt) {} (fun w => w.dims = {}) := by
  refine ⟨?_, ?_, ?_, ?_⟩
  · intro s hs; show s.dims.multi = false; rw [hs]; rfl
  · intro s hs; exact hs
  · intro s e _; rfl
  · intro s e s' hs h
    have h' : GeoJsonWriter.step fmt s e = .ok s' := h
    rw [GeoJsonWriter.step_text] at h'
    cases h'
    exact hs

/-- The same for sources of features. -/
theorem C48_feature_errors (fmt : Fmt) (src : FProg Unit) (bs : List Byte) (e : Err) :
    processToJson fmt src bs = .error e ↔ (FProg.run {} src bs).2 = .error e := by
  have := FProg.interp_of_feed_ok (agrees_geojson fmt) src {} _ rfl bs (GeoJsonWriter.feed_text fmt {} _)
  unfold processToJson
  rw [this]
  generalize FProg.run {} src bs = r
  obtain ⟨es, r | r⟩ := r <;> simp

/-- WKB to GeoJSON. -/
theorem C48_wkb (fo : FOps) (num : F64 → Text) (d : Dims) (e : Endian) (g : Geom) (bs rest : List Byte)
    (h : OgcWkb d e g bs) (hl : g.levels ≤ 128) (hg : g.IsGeoJson (fun c => c.AllOrds (fun x => IsNumber (num x)) false)) :
    ∃ t, geoJsonFromWkb fo num .wkb (bs ++ rest) = .ok t ∧ IsText t (Rfc7946.geometry num false g) :=
  C48_to_json num (processWkbTypeGeom fo .wkb) (bs ++ rest) rest g [.srid none] (Or.inr ⟨_, rfl⟩)
    (C06_wkb_decodes fo d e g bs rest false h hl) hg

/-- EWKB to GeoJSON. -/
theorem C48_ewkb (fo : FOps) (num : F64 → Text) (d : Dims) (e : Endian) (srid : Option Int) (hs : ∀ s ∈ srid, isI32 s)
    (g : Geom) (bs rest : List Byte) (h : Ewkb d e srid g bs) (hl : g.levels ≤ 128)
    (hg : g.IsGeoJson (fun c => c.AllOrds (fun x => IsNumber (num x)) false)) :
    ∃ t, geoJsonFromWkb fo num .ewkb (bs ++ rest) = .ok t ∧ IsText t (Rfc7946.geometry num false g) :=
  C48_to_json num (processWkbTypeGeom fo .ewkb) (bs ++ rest) rest g [.srid srid] (Or.inr ⟨_, rfl⟩)
    (C06_ewkb_decodes fo d e srid hs g bs rest false h hl) hg

/-- MySQL WKB to GeoJSON. -/
theorem C48_mysql (fo : FOps) (num : F64 → Text) (d : Dims) (srid : Nat) (hs : srid < 2 ^ 31) (g : Geom)
    (bs rest : List Byte) (h : MySql d srid g bs) (hl : g.levels ≤ 128)
    (hg : g.IsGeoJson (fun c => c.AllOrds (fun x => IsNumber (num x)) false)) :
    ∃ t, geoJsonFromWkb fo num .mySQL (bs ++ rest) = .ok t ∧ IsText t (Rfc7946.geometry num false g) :=
  C48_to_json num (processWkbTypeGeom fo .mySQL) (bs ++ rest) rest g [.srid (some srid)] (Or.inr ⟨_, rfl⟩)
    (C06_mysql_decodes fo d srid hs g bs rest false h hl) hg

/-- SpatiaLite to GeoJSON. -/
theorem C48_spatialite (fo : FOps) (num : F64 → Text) (d : Dims) (e : Endian) (srid : Int) (hs : isI32 srid)
    (mbr : List F64) (g : Geom) (bs rest : List Byte) (h : SpatiaLite d e srid mbr g bs) (hl : g.levels ≤ 128)
    (hg : g.IsGeoJson (fun c => c.AllOrds (fun x => IsNumber (num x)) false)) :
    ∃ t, geoJsonFromWkb fo num .spatiaLite (bs ++ rest) = .ok t ∧ IsText t (Rfc7946.geometry num false g) :=
  C48_to_json num (processWkbTypeGeom fo .spatiaLite) (bs ++ rest) (0xFE :: rest) g
    [.srid (if srid = 0 then none else some srid)] (Or.inr ⟨_, rfl⟩)
    (C06_spatialite_decodes fo d e srid hs mbr g bs rest false h hl) hg

/-- GeoPackage (header and geometry in the same byte order) to GeoJSON. -/
theorem C48_gpkg_partial (fo : FOps) (num : F64 → Text) (d : Dims) (e : Endian) (srid : Int) (hs : isI32 srid)
    (env : List F64) (g : Geom) (bs rest : List Byte) (h : Gpkg d e e srid env g bs) (hl : g.levels ≤ 128)
    (hg : g.IsGeoJson (fun c => c.AllOrds (fun x => IsNumber (num x)) false)) :
    ∃ t, geoJsonFromWkb fo num .geopackage (bs ++ rest) = .ok t ∧ IsText t (Rfc7946.geometry num false g) :=
  C48_to_json num (processWkbTypeGeom fo .geopackage) (bs ++ rest) rest g [.srid (some srid)] (Or.inr ⟨_, rfl⟩)
    (C06_gpkg_decodes_partial fo d e srid hs env g bs rest false h hl) hg

/-- geo-types to GeoJSON. -/
theorem C48_geo (num : F64 → Text) (g : GeoGeom)
    (hg : g.denote.IsGeoJson (fun c => c.AllOrds (fun x => IsNumber (num x)) false)) :
    ∃ t, toJson num (geoProcessGeom g) [] = .ok t ∧ IsText t (Rfc7946.geometry num false g.denote) :=
  C48_to_json num (geoProcessGeom g) [] [] g.denote [] (Or.inl rfl) (C15_geo_reader_stream g false []) hg

/-- WKT to GeoJSON. -/
theorem C48_wkt_partial (num : F64 → Text) (g : WktGeom) (he : g.NoEmptyMember)
    (hg : g.denote.IsGeoJson (fun c => c.AllOrds (fun x => IsNumber (num x)) false)) :
    ∃ t, toJson num (wktProcessGeom g) [] = .ok t ∧ IsText t (Rfc7946.geometry num false g.denote) :=
  C48_to_json num (wktProcessGeom g) [] [] g.denote [] (Or.inl rfl) (C21_wkt_reader_stream_partial false g he []) hg

/-- GeoJSON to GeoJSON, for a single geometry. -/
theorem C48_geojson_geometry (num : F64 → Text) (g : GjGeom) (hok : g.Ok)
    (hg : g.geom.IsGeoJson (fun c => c.AllOrds (fun x => IsNumber (num x)) false)) :
    ∃ t, toJson num (processGeoJsonGeom (.geometry g)) [] = .ok t ∧ IsText t (Rfc7946.geometry num false g.geom) :=
  C48_to_json num _ [] [] g.geom [] (Or.inl rfl) (C26_single_geometry false g hok none []).1 hg

/-- Several features with a geometry: the geometries are written one after the other, which is not JSON. -/
theorem C48_geojson_features_false (num : F64 → Text) :
    ∃ fs t, toJson num (processGeoJsonGeom (.featureCollection fs)) [] = .ok t ∧ ¬ ∃ v, IsText t v := by
  refine ⟨[⟨none, some (.multiPoint [])⟩, ⟨none, some (.multiPoint [])⟩], _, rfl, not_text ?_⟩
  show parse (txt ("{\"type\": \"MultiPoint\", \"coordinates\": []},{\"type\": \"MultiPoint\", \"coordinates\": []}")) = none
  decide +kernel

/-- the data of a row -/
def CsvTable.data (t : CsvTable) (geometry : Text → Geom) (r : List Text × Text × List Text) : FeatureData where
  props := some ((t.pre ++ t.post).zip ((r.1 ++ r.2.2).map ColVal.string))
  geom := if r.2.1 = [] then none else some (geometry r.2.1)
  geomFirst := false

theorem noOk_csv (parse : Text → Except Err WktGeom) (headers : Except Err (List Text))
    (records : List (Except Err (List Text))) (column : Text) :
    FProg.NoOk (processCsvFeatures parse headers records column) := by
  unfold processCsvFeatures
  cases headers with
  | error e => trivial
  | ok headers =>
    refine FProg.NoOk.bind (FProg.NoOk.call _) fun _ => ?_
    cases headers.findIdx? (· == column) with
    | none => trivial
    | some gi =>
      refine FProg.NoOk.bind (FProg.NoOk.forIdx ?_ _ _) fun _ => FProg.NoOk.call _
      intro i r
      cases r with
      | error e => trivial
      | ok r =>
        refine FProg.NoOk.bind (FProg.NoOk.call _) fun _ => ?_
        refine FProg.NoOk.bind (FProg.NoOk.call _) fun _ => ?_
        refine FProg.NoOk.bind (FProg.NoOk.forIdx (fun _ _ => FProg.NoOk.call _) _ _) fun _ => ?_
        refine FProg.NoOk.bind (FProg.NoOk.call _) fun _ => ?_
        refine FProg.NoOk.bind ?_ fun _ => FProg.NoOk.call _
        unfold csvGeometryPart
        cases r[gi]? with
        | none => trivial
        | some field =>
          by_cases hf : field.isEmpty = true
          · simp only [hf, if_true]; trivial
          · simp only [hf, Bool.false_eq_true, if_false]
            refine FProg.NoOk.bind (FProg.NoOk.call _) fun _ => ?_
            refine FProg.NoOk.bind ?_ fun _ => FProg.NoOk.call _
            unfold csvGeometry
            cases parse field with
            | error e => trivial
            | ok g => exact FProg.NoOk.lift _

/-- CSV to GeoJSON: a table whose names and values are plain texts becomes the feature collection of its rows. -/
theorem C48_csv_partial (fmt : Fmt) (decode : Text → Json) (parse : Text → Except Err WktGeom) (geometry : Text → Geom)
    (t : CsvTable) (ht : t.Ok)
    (hg : ∀ r ∈ t.rows, r.2.1 ≠ [] → ∃ g, parse r.2.1 = .ok g ∧ g.NoEmptyMember ∧ g.denote = geometry r.2.1)
    (hp : ∀ r ∈ t.rows, (t.data geometry r).Printable fmt decode false) :
    ∃ out, processToJson fmt
        (processCsvFeatures parse (.ok t.headers) (t.rows.map fun r => .ok (r.1 ++ r.2.1 :: r.2.2)) t.column) [] = .ok out ∧
      IsText out (Rfc7946.featureCollection fmt decode false none (t.rows.map (t.data geometry))) := by
  have hrun := C29_csv_reader parse geometry t ht hg {} []
  have hfe : t.rows.map (t.feat false geometry) = (t.rows.map (t.data geometry)).map (FeatureData.feat false) := by
    rw [List.map_map]
    apply List.map_congr_left
    intro r _
    simp only [CsvTable.feat, CsvTable.data, FeatureData.feat, Function.comp, Option.map_some]
    split <;> rfl
  obtain ⟨w, hw, hj⟩ := C24_feature_collection_partial fmt decode false none (t.rows.map (t.data geometry)) (by simp)
    (by intro d hd; obtain ⟨r, hr, rfl⟩ := List.mem_map.1 hd; exact hp r hr) {}
  have := FProg.interp_of_feed_ok (agrees_geojson fmt) _ {} w rfl [] (by
    rw [hrun, hfe]
    exact hw)
  refine ⟨w.out, ?_, hj⟩
  unfold processToJson
  rw [this, hrun]

-- a collection of two points in geo-types, when numbers are printed as, say, "1.5"
example : (GeoGeom.collection [.point ⟨1#64, 2#64⟩, .collection [.point ⟨3#64, 4#64⟩]]).denote.IsGeoJson
    (fun c => c.AllOrds (fun x => IsNumber ((fun _ => txt "1.5") x)) false) := by
  simp only [GeoGeom.denote, GeoGeom.denoteList]
  refine .collection ?_
  intro g hg
  simp only [List.mem_cons, List.not_mem_nil, or_false] at hg
  rcases hg with rfl | rfl
  · exact .point ⟨number_15, number_15, by simp⟩
  · refine .collection ?_
    intro g hg
    simp only [List.mem_cons, List.not_mem_nil, or_false] at hg
    subst hg
    exact .point ⟨number_15, number_15, by simp⟩

-- WKB of a line string with one coordinate, with bytes after it
example : ∃ t, geoJsonFromWkb ⟨fun _ => 0#64, fun _ _ => 0#64⟩ (fun _ => txt "1.5") .wkb
    ((1 :: encU32 .le 2) ++ (encU32 .le 1 ++ (encF64 .le 1#64 ++ encF64 .le 2#64)) ++ [7]) = .ok t ∧
    IsText t (Rfc7946.geometry (fun _ => txt "1.5") false (.lineString [⟨1#64, 2#64, none, none⟩])) := by
  refine C48_wkb _ _ {} .le _ _ [7] ?_ (by decide) (.lineString ?_)
  · exact ⟨by simp [AllCoords, HasDims], _, _, rfl, rfl, by decide, _, rfl, _, [], (List.append_nil _).symm, rfl, rfl⟩
  · intro c hc
    simp only [List.mem_cons, List.not_mem_nil, or_false] at hc
    subst hc
    exact ⟨number_15, number_15, by simp⟩

-- a table with one row
example : ∀ r ∈ (⟨[txt "a"], txt "g", [txt "b"], [([txt "1"], txt "POINT EMPTY", [txt "say \"2\""])]⟩ : CsvTable).rows,
    ((⟨[txt "a"], txt "g", [txt "b"], [([txt "1"], txt "POINT EMPTY", [txt "say \"2\""])]⟩ : CsvTable).data
      (fun _ => .emptyPoint) r).Printable ⟨fun _ => txt "1.5", fun _ => txt "1.5"⟩ (fun _ => .arr []) false := by
  intro r hr
  simp only [List.mem_cons, List.not_mem_nil, or_false] at hr
  subst hr
  refine ⟨?_, ?_, ?_⟩
  · intro ps hps; cases hps; decide
  · intro ps hps p hp
    cases hps
    simp only [List.zip, List.zipWith, List.map, List.append, List.cons_append, List.nil_append, List.mem_cons, List.not_mem_nil, or_false] at hp
    rcases hp with rfl | rfl
    · exact (by decide : PlainText (txt "1"))
    · exact (by decide : PlainText (txt "say \"2\""))
  · intro g hg
    have : g = .emptyPoint := by
      revert hg; simp [CsvTable.data, txt]; exact fun h => h.symm
    subst this
    exact .emptyPoint

end Geozero
