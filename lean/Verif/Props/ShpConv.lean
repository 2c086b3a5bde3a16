import Verif.Spec.ShpConv
import Verif.Props.Shp
import Verif.Props.GeoFeature
import Verif.Props.Svg
import Verif.Props.Csv
import Verif.Lemmas.WktParse

/-
C65: converting whole shapefiles with the writers of the library.
-/

namespace Geozero

open FProg Spec Json

private theorem shape_denotes_unique {inner : List Coord → Bool} {s : EsriShape} {g g' : Option Geom} (h : Denotes inner s g)
    (h' : Denotes inner s g') : g = g' := by
  cases h with
  | polygon rings groups hg =>
    cases h' with
    | polygon _ groups' hg' => rw [C40_unique inner rings groups groups' hg hg']
  | _ => cases h' <;> rfl

private theorem shape_denoteAll_unique {inner : List Coord → Bool} (ss : List EsriShape) (gs gs' : List (Option Geom))
    (h : DenoteAll inner ss gs) (h' : DenoteAll inner ss gs') : gs = gs' := by
  induction ss generalizing gs gs' with
  | nil =>
    cases gs with
    | nil =>
      cases gs' with
      | nil => rfl
      | cons => exact h'.elim
    | cons => exact h.elim
  | cons s ss ih =>
    cases gs with
    | nil => exact h.elim
    | cons g gs =>
      cases gs' with
      | nil => exact h'.elim
      | cons g' gs' => rw [shape_denotes_unique h.1 h'.1, ih gs gs' h.2 h'.2]

private theorem denoteAll_len {inner : List Coord → Bool} (ss : List EsriShape) (gs : List (Option Geom))
    (h : DenoteAll inner ss gs) : ss.length = gs.length := by
  induction ss generalizing gs with
  | nil => cases gs with | nil => rfl | cons => exact h.elim
  | cons s ss ih => cases gs with | nil => exact h.elim | cons g gs => simp [ih gs h.2]

/-- the whole stream of a well-formed file -/
private theorem shp_stream (ar : ShpArith) (env : FProg.Env) (hm : env.multi = (env.dims.z || env.dims.m))
    (rows : List ShpRow) (items : List EsriItem) (bs : List Byte) (h : EsriFile items bs) (gs : List (Option Geom))
    (hg : DenoteAll (innerRing ar) (items.map fun i => i.shape.keep env.dims) gs) :
    FProg.run env (shpFeatures ar (rows.map .ok)) bs =
      (datasetEvs none (List.zipWith
        (fun row g => { props := some (heard env.ans (rowProps row)), geom := some (shapeEvs env.multi g) }) rows gs),
        .ok ((), (items.drop rows.length).flatMap EsriItem.bytes)) := by
  obtain ⟨gs', h1, h2, -⟩ := C51_features ar env hm rows items bs h
  rw [shape_denoteAll_unique _ _ _ h1 hg] at h2
  refine Prod.ext h2 ?_
  rw [run_shpFeatures ar env hm rows items bs h]

/-- the features of a file, as a processor with the given answers hears them -/
private def shpFeats (env : FProg.Env) (rows : List ShpRow) (gs : List (Option Geom)) : List Feat :=
  List.zipWith (fun row g => { props := some (heard env.ans (rowProps row)), geom := some (shapeEvs env.multi g) }) rows gs

/-- a file into a processor that accepts its stream -/
private theorem shp_into {σ : Type} {p : FProc σ} {env : FProg.Env} {Inv : σ → Prop} (ha : FProg.Agrees p env Inv) (ar : ShpArith)
    (hm : env.multi = (env.dims.z || env.dims.m)) (rows : List ShpRow) (items : List EsriItem) (bs : List Byte)
    (h : EsriFile items bs) (gs : List (Option Geom))
    (hg : DenoteAll (innerRing ar) (items.map fun i => i.shape.keep env.dims) gs) (s s' : σ) (hs : Inv s)
    (hf : feed p.step s (datasetEvs none (shpFeats env rows gs)) = .ok s') :
    FProg.interp p (shpFeatures ar (rows.map .ok)) s bs = (s', datasetEvs none (shpFeats env rows gs),
      .ok ((), (items.drop rows.length).flatMap EsriItem.bytes)) := by
  have hrun := shp_stream ar env hm rows items bs h gs hg
  rw [FProg.interp_of_feed_ok ha _ s s' hs bs (by rw [hrun]; exact hf), hrun]
  rfl

private theorem heard_all (ps : List PropRec) : heard (fun _ => false) ps = ps := by
  induction ps with
  | nil => rfl
  | cons p ps ih => simp [heard, ih]

private theorem heard_first (ps : List PropRec) : heard (fun _ => true) ps = ps.take 1 := by
  cases ps <;> simp [heard]

/-! ### GeoJSON -/

theorem agrees_geojson_dims (fmt : Fmt) (dims : Dims) :
    FProg.Agrees (GeoJsonWriter.proc fmt) { multi := dims.multi, dims := dims } (fun w => w.dims = dims) := by
  refine ⟨?_, ?_, ?_, ?_⟩
  · intro s hs; show s.dims.multi = _; rw [hs]
  · intro s hs; exact hs
  · intro s e _; rfl
  · intro s e s' hs h
    have h' : GeoJsonWriter.step fmt s e = .ok s' := h
    rw [GeoJsonWriter.step_text] at h'
    cases h'
    exact hs

/-- Iterating over the features of a well-formed shapefile without null shapes, into a GeoJSON writer: the output is one JSON
text, the feature collection of the features of the file, provided that names and values are plain and numbers are printed
as JSON numbers. -/
theorem C65_geojson_partial (ar : ShpArith) (fmt : Fmt) (decode : Text → Json) (dims : Dims) (hd : dims.multi = (dims.z || dims.m))
    (rows : List ShpRow) (items : List EsriItem) (bs : List Byte) (h : EsriFile items bs) (gs : List Geom)
    (hg : DenoteAll (innerRing ar) (items.map fun i => i.shape.keep dims) (gs.map some))
    (hp : ∀ d ∈ shpFeatureData rows gs, d.Printable fmt decode dims.multi) :
    ∃ w evs rest, FProg.interp (GeoJsonWriter.proc fmt) (shpFeatures ar (rows.map .ok)) { dims := dims } bs = (w, evs, .ok ((), rest)) ∧
      IsText w.out (Rfc7946.featureCollection fmt decode dims.multi none (shpFeatureData rows gs)) := by
  obtain ⟨w, hw, ht⟩ := C24_feature_collection_partial fmt decode dims.multi none (shpFeatureData rows gs) (by simp) hp dims
  have hfeats : shpFeats { multi := dims.multi, dims := dims } rows (gs.map some) =
      (shpFeatureData rows gs).map (FeatureData.feat dims.multi) := by
    simp only [shpFeats, shpFeatureData, List.map_zipWith, List.zipWith_map_right, heard_all]
    rfl
  exact ⟨w, _, _, shp_into (agrees_geojson_dims fmt dims) ar hd rows items bs h _ hg { dims := dims } w rfl (hfeats ▸ hw), ht⟩

/-- a file of null shapes and points -/
def exPointFile (shapes : List EsriShape) : List Byte :=
  EsriHeader (50 + ((shapes.flatMap fun s => s.record 1 .xy false exExtent).length / 2 : Nat)) 1000 1 (List.replicate 20 0)
      (List.replicate 8 0#64) ++ shapes.flatMap fun s => s.record 1 .xy false exExtent

def exItemOf (s : EsriShape) : EsriItem := { num := 1, dim := .xy, hasM := false, ext := exExtent, shape := s }

theorem exPointFile_ok (shapes : List EsriShape) (h : ∀ s ∈ shapes, s = .null ∨ s = .point (exPt 1#64 2#64))
    (hl : shapes.length < 1000) : EsriFile (shapes.map exItemOf) (exPointFile shapes) := by
  have hrec : ∀ s ∈ shapes, ∃ n, (s.record 1 .xy false exExtent).length = 2 * n ∧ n ≤ 14 := by
    intro s hs
    rcases h s hs with rfl | rfl
    · exact ⟨6, by decide +kernel, by omega⟩
    · exact ⟨14, by decide +kernel, by omega⟩
  have hsum : ∃ n, (shapes.flatMap fun s => s.record 1 .xy false exExtent).length = 2 * n ∧ n ≤ 14 * shapes.length := by
    clear h hl
    induction shapes with
    | nil => exact ⟨0, rfl, by omega⟩
    | cons s ss ih =>
      obtain ⟨n, h1, h2⟩ := ih fun s hs => hrec s (by simp [hs])
      obtain ⟨m, h3, h4⟩ := hrec s (by simp)
      exact ⟨m + n, by simp only [List.flatMap_cons, List.length_append, h1, h3]; omega, by simp only [List.length_cons]; omega⟩
  obtain ⟨n, h1, h2⟩ := hsum
  have hlen : (exPointFile shapes).length = 100 + 2 * n := by
    unfold exPointFile
    rw [List.length_append, h1]
    congr 1
  have hitems : (shapes.map exItemOf).flatMap EsriItem.bytes = shapes.flatMap fun s => s.record 1 .xy false exExtent := by
    rw [List.flatMap_map]; rfl
  refine ⟨?_, ⟨50 + (n : Int), 1000, 1, List.replicate 20 0, List.replicate 8 0#64, ?_, rfl, rfl, by decide, by decide, ?_⟩, ?_⟩
  · intro i hi
    obtain ⟨s, hs, rfl⟩ := List.mem_map.mp hi
    rcases h s hs with rfl | rfl
    · exact ⟨by decide, ⟨by decide, by decide, by decide, by intro c _ hc; cases hc⟩, by decide +kernel⟩
    · exact ⟨by decide, ⟨by decide, by decide, by decide, by intro c _ hc; cases hc⟩, by decide +kernel⟩
  · rw [hitems]
    unfold exPointFile
    rw [h1, Nat.mul_div_cancel_left n (by decide)]
  · rw [hlen]; omega
  · rw [hlen]; omega

/-- Shapefile to GeoJSON: a null shape gives an empty geometry section, which leaves a key without a value in the output. -/
theorem C65_geojson_null_shape_false (ar : ShpArith) (fmt : Fmt) : ∃ items bs w evs, EsriFile items bs ∧
    FProg.interp (GeoJsonWriter.proc fmt) (shpFeatures ar [.ok []]) {} bs = (w, evs, .ok ((), [])) ∧ ¬ ∃ v, IsText w.out v := by
  have hf := exPointFile_ok [.null] (by simp) (by simp)
  have hi := shp_into (agrees_geojson_dims fmt {}) ar rfl [[]] _ _ hf [none] ⟨.null, trivial⟩ {} _ rfl
    (GeoJsonWriter.feed_text fmt {} _)
  refine ⟨_, _, _, _, hf, hi, not_text ?_⟩
  show parse (txt "{\n\"type\": \"FeatureCollection\",\n\"features\": [{\"type\": \"Feature\", \"properties\": {}, \"geometry\": }]}") = none
  decide +kernel

/-- non-vacuity of `C65_geojson_partial`: a point with z asked for, and a row with a null field -/
example (ar : ShpArith) : ∃ w evs rest, FProg.interp (GeoJsonWriter.proc ⟨fun _ => txt "1.5", fun _ => txt "1.5"⟩)
      (shpFeatures ar (([[(txt "a", .integer 1), (txt "n", .numeric none)]] : List ShpRow).map .ok)) { dims := { z := true } }
      (exPointFile [.point (exPt 1#64 2#64)]) = (w, evs, .ok ((), rest)) ∧
    IsText w.out (Rfc7946.featureCollection ⟨fun _ => txt "1.5", fun _ => txt "1.5"⟩ (fun _ => .arr []) true none
      [{ props := some [(txt "a", .int 1)], geom := some (.point (exPt 1#64 2#64)) }]) := by
  refine C65_geojson_partial ar ⟨fun _ => txt "1.5", fun _ => txt "1.5"⟩ (fun _ => .arr []) { z := true } rfl
    [[(txt "a", .integer 1), (txt "n", .numeric none)]] _ _
    (exPointFile_ok [.point (exPt 1#64 2#64)] (by simp) (by simp)) [.point (exPt 1#64 2#64)] ⟨.point _, trivial⟩ ?_
  intro d hd
  have : d = { props := some [(txt "a", .int 1)], geom := some (.point (exPt 1#64 2#64)) } := List.mem_singleton.mp hd
  subst this
  refine ⟨?_, ?_, ?_⟩
  · intro ps hps; cases hps; decide
  · intro ps hps p hp
    cases hps
    have := List.mem_singleton.mp hp
    subst this
    trivial
  · intro g hg
    cases hg
    have h15 : IsNumber (txt "1.5") := ⟨[], txt "1", txt ".5", [], Or.inl rfl, Or.inr ⟨'1', [], rfl, rfl, by decide, by simp⟩,
    Or.inr ⟨txt "5", ⟨by decide, by decide⟩, rfl⟩, Or.inl rfl, rfl⟩
    exact .point ⟨h15, h15, fun _ _ h => nomatch h⟩

/-! ### CSV -/

theorem agrees_csv_dims (fmt : Fmt) (dims : Dims) :
    FProg.Agrees (CsvWriter.proc fmt) { multi := dims.multi, dims := dims } (fun w => w.wkt.dims = dims) := by
  refine ⟨?_, ?_, ?_, ?_⟩
  · intro s hs; show s.wkt.dims.multi = _; rw [hs]
  · intro s hs; exact hs
  · intro s e _; rfl
  · intro s e s' hs h
    have ht : ∀ v v' : CsvWriter, v.terminate = .ok v' → v'.wkt = v.wkt := by
      intro v v' h
      unfold CsvWriter.terminate at h
      split at h
      · cases h; rfl
      · split at h
        · cases h; rfl
        · cases h
    have h : CsvWriter.step fmt s e = .ok s' := h
    cases e with
    | geom e =>
      simp only [CsvWriter.step] at h
      split at h
      · cases h
      · rename_i k hk
        cases h
        cases e with
        | srid _ => cases hk; exact hs
        | _ => exact WktWriter.step_dims fmt.f64 dims s.wkt _ k hs (by simpa only [CsvWriter.geomStep] using hk)
    | prop i n v =>
      simp only [CsvWriter.step, CsvWriter.property] at h
      split at h
      · split at h
        · cases h
        · split at h
          · cases h; exact hs
          · cases h
      · cases h; exact hs
    | ftEnd i =>
      simp only [CsvWriter.step, CsvWriter.featureEnd] at h
      split at h
      · cases h
      · rename_i v hv
        have h1 : v.wkt = s.wkt := by
          unfold CsvWriter.writeHeader at hv
          split at hv
          · cases hv; rfl
          · exact (ht _ _ hv).trans rfl
        unfold CsvWriter.writeRow at h
        split at h
        · cases h
        · rename_i v' hv'
          cases h
          show v'.wkt.dims = dims
          rw [ht _ _ hv']
          show v.wkt.dims = dims
          rw [h1, hs]
    | _ =>
      simp only [CsvWriter.step] at h
      first
        | (cases h; exact hs)
        | (split at h
           · first | (cases h; exact hs) | cases h
           · first | (cases h; exact hs) | cases h)

/-- Iterating over the features of a well-formed shapefile into a CSV writer, if all rows have the same fields that are not
null, in the same order: one header record and one record for each feature, with the WKT of its geometry (nothing for a null
shape) and its values.  (Without features there is no header record.) -/
theorem C65_csv_partial (ar : ShpArith) (fmt : Fmt) (dims : Dims) (hd : dims.multi = (dims.z || dims.m)) (names : List Text)
    (rows : List ShpRow) (vals : List (List ColVal)) (hrows : rows.map rowFields = vals.map fun vs => names.zip vs)
    (hlen : ∀ vs ∈ vals, vs.length = names.length) (items : List EsriItem) (bs : List Byte) (h : EsriFile items bs)
    (gs : List (Option Geom)) (hg : DenoteAll (innerRing ar) (items.map fun i => i.shape.keep dims) gs) (records : List (List Text))
    (hrec : records = List.zipWith (fun vs g => (match g with | none => [] | some g => wkt fmt.f64 dims.multi g) ::
      vs.map (ColVal.display fmt)) vals gs) :
    ∃ w evs rest, FProg.interp (CsvWriter.proc fmt) (shpFeatures ar (rows.map .ok)) (CsvWriter.withDims dims) bs =
        (w, evs, .ok ((), rest)) ∧
      w.rows = (if records = [] then [] else (txt "geometry" :: names) :: records) ∧ w.cur = [] := by
  let mk : List ColVal → Option Geom → CsvRow := fun vs g => { vals := vs, geom := g.map fun g => (0, g), noGeomSection := false }
  have hrs : ∀ r ∈ List.zipWith mk vals gs, r.Ok names := by
    intro r hr
    obtain ⟨k, hk, rfl⟩ := List.mem_iff_getElem.mp hr
    rw [List.getElem_zipWith]
    exact ⟨hlen _ (List.getElem_mem _), by simp [mk]⟩
  obtain ⟨w, h1, h2, h3⟩ := C28_csv_writer fmt dims none names _ hrs
  have hfeats : shpFeats { multi := dims.multi, dims := dims } rows gs =
      (List.zipWith mk vals gs).map (CsvRow.feat dims.multi names) := by
    have e1 : shpFeats { multi := dims.multi, dims := dims } rows gs = List.zipWith (fun fs g =>
        ({ props := some (enumFrom 0 fs), geom := some (shapeEvs dims.multi g) } : Feat)) (rows.map rowFields) gs := by
      simp only [shpFeats, List.zipWith_map_left, heard_all]
      rfl
    rw [e1, hrows, List.zipWith_map_left, List.map_zipWith]
    congr 1
    funext vs g
    cases g <;> rfl
  refine ⟨w, _, _, shp_into (agrees_csv_dims fmt dims) ar hd rows items bs h gs hg
    (CsvWriter.withDims dims) w rfl (by rw [hfeats]; exact h1), ?_, h3⟩
  have hr : (List.zipWith mk vals gs).map (CsvRow.record fmt dims.multi) = records := by
    rw [hrec, List.map_zipWith]
    congr 1
    funext vs g
    cases g <;> rfl
  rw [h2, ← hr]
  simp

/-- a row without its last value: the record is dropped without an error; what has been written is only the first feature -/
theorem C65_csv_null_field_false (ar : ShpArith) (fmt : Fmt) : ∃ (rows : List ShpRow) (items : List EsriItem) (bs : List Byte),
    ∃ w evs, EsriFile items bs ∧
    rows.length = 2 ∧ items.length = 2 ∧ rows.map (List.map Prod.fst) = [[txt "a"], [txt "a"]] ∧
    FProg.interp (CsvWriter.proc fmt) (shpFeatures ar (rows.map .ok)) (CsvWriter.withDims {}) bs = (w, evs, .ok ((), [])) ∧
    w.rows.length = 2 := by
  refine ⟨[[(txt "a", .logical (some true))], [(txt "a", .logical none)]], [exItemOf .null, exItemOf .null], exPointFile [.null, .null],
    _, _, exPointFile_ok [.null, .null] (by simp) (by simp), rfl, rfl, rfl, rfl, rfl⟩

/-- and if another feature follows, the writer panics (in a debug build) -/
theorem C65_csv_null_field_panics_false (ar : ShpArith) (fmt : Fmt) : ∃ (rows : List ShpRow) (items : List EsriItem) (bs : List Byte),
    ∃ w evs m, EsriFile items bs ∧
    rows.length = 3 ∧ items.length = 3 ∧ (∀ row ∈ rows, row.map Prod.fst = [txt "a", txt "b"]) ∧
    FProg.interp (CsvWriter.proc fmt) (shpFeatures ar (rows.map .ok)) (CsvWriter.withDims {}) bs = (w, evs, .error (.panic m)) := by
  refine ⟨[[(txt "a", .logical (some true)), (txt "b", .logical (some true))], [(txt "a", .logical (some true)), (txt "b", .logical none)],
      [(txt "a", .logical (some true)), (txt "b", .logical (some true))]],
    [exItemOf .null, exItemOf .null, exItemOf .null], exPointFile [.null, .null, .null],
    _, _, _, exPointFile_ok [.null, .null, .null] (by simp) (by simp), rfl, rfl, by simp, rfl⟩

/-- the fields of two rows in different orders (the rows are hash maps, so their order is not defined): the writer panics -/
theorem C65_csv_order_false (ar : ShpArith) (fmt : Fmt) : ∃ (rows : List ShpRow) (items : List EsriItem) (bs : List Byte),
    ∃ w evs m, EsriFile items bs ∧
    rows.length = 2 ∧ items.length = 2 ∧ (∀ row ∈ rows, (row.map Prod.fst).Perm [txt "a", txt "b"]) ∧
    FProg.interp (CsvWriter.proc fmt) (shpFeatures ar (rows.map .ok)) (CsvWriter.withDims {}) bs = (w, evs, .error (.panic m)) := by
  refine ⟨[[(txt "a", .logical (some true)), (txt "b", .logical (some true))], [(txt "b", .logical (some true)), (txt "a", .logical (some true))]],
    [exItemOf .null, exItemOf .null], exPointFile [.null, .null],
    _, _, _, exPointFile_ok [.null, .null] (by simp) (by simp), rfl, rfl, ?_, rfl⟩
  simp only [List.mem_cons, List.not_mem_nil, or_false]
  rintro row (rfl | rfl)
  · exact List.Perm.refl _
  · exact List.Perm.swap ..

/-- non-vacuity of `C65_csv_partial`: two rows with two fields and a null field, a null shape and a point -/
example (ar : ShpArith) (fmt : Fmt) : ∃ w evs rest, FProg.interp (CsvWriter.proc fmt) (shpFeatures ar
      (([[(txt "a", .logical (some true)), (txt "n", .numeric none), (txt "b", .integer 5)],
        [(txt "a", .logical (some false)), (txt "b", .integer 6)]] : List ShpRow).map .ok)) (CsvWriter.withDims {})
      (exPointFile [.null, .point (exPt 1#64 2#64)]) = (w, evs, .ok ((), rest)) ∧
    w.rows = [[txt "geometry", txt "a", txt "b"], [[], (ColVal.bool true).display fmt, (ColVal.int 5).display fmt],
      [wkt fmt.f64 false (.point (exPt 1#64 2#64)), (ColVal.bool false).display fmt, (ColVal.int 6).display fmt]] ∧ w.cur = [] := by
  obtain ⟨w, evs, rest, h1, h2, h3⟩ := C65_csv_partial ar fmt {} rfl [txt "a", txt "b"]
    [[(txt "a", .logical (some true)), (txt "n", .numeric none), (txt "b", .integer 5)],
        [(txt "a", .logical (some false)), (txt "b", .integer 6)]]
    [[.bool true, .int 5], [.bool false, .int 6]] rfl (by decide) _ _
    (exPointFile_ok [.null, .point (exPt 1#64 2#64)] (by simp) (by simp)) [none, some (.point (exPt 1#64 2#64))]
    ⟨.null, .point _, trivial⟩ _ rfl
  exact ⟨w, evs, rest, h1, h2.trans (by simp; rfl), h3⟩

/-! ### geo-types -/

/-- `to_geo_features` of a well-formed shapefile without null shapes: one feature for each row and shape, in order, with its
geometry (x and y only) and the first of the fields of its row that are not null, if there is one.  (Not the other fields: the
writer answers every property with the request to stop.) -/
theorem C65_geo_types_partial (sz : ElemSizes) (ar : ShpArith) (rows : List ShpRow) (items : List EsriItem) (bs : List Byte)
    (h : EsriFile items bs) (hlen : rows.length = items.length) (gs : List Geom)
    (hg : DenoteAll (innerRing ar) (items.map fun i => i.shape.keep {}) (gs.map some))
    (rs : List GeoGeom) (hr : gs.map Geom.geo = rs.map some) (hb : ∀ g ∈ gs, g.Budget sz) :
    ∃ xs, toGeoFeatures sz (shpFeatures ar (rows.map .ok)) bs = .ok xs ∧ xs.length = items.length ∧
      ∀ j (hj : j < rows.length) (hr : j < rs.length) (hx : j < xs.length),
        xs[j].Has rs[j] (enumFrom 0 ((rowFields rows[j]).take 1)) := by
  have hgl : gs.length = rows.length := by
    have := denoteAll_len _ _ hg
    simp only [List.length_map] at this
    omega
  have hf : GeoFeats sz (shpFeats stopEnv rows (gs.map some)) rs := by
    clear h hlen hg
    induction gs generalizing rows rs with
    | nil =>
      cases rs with
      | nil => cases rows <;> exact .nil
      | cons r rs => simp at hr
    | cons g gs ih =>
      cases rs with
      | nil => simp at hr
      | cons r rs =>
        cases rows with
        | nil => simp at hgl
        | cons row rows =>
          simp only [List.map_cons, List.cons.injEq] at hr
          exact .cons _ _ g 0 r rs rfl hr.1 (hb g (by simp)) (ih rows rs hr.2 (fun g hg => hb g (List.mem_cons_of_mem _ hg)) (by simpa using hgl))
  obtain ⟨xs, h1, h2, h3⟩ := C57_features sz _ bs _ none _ rs (shp_stream ar stopEnv rfl rows items bs h (gs.map some) hg) hf
  have hl : (shpFeats stopEnv rows (gs.map some)).length = rows.length := by simp [shpFeats, hgl]
  refine ⟨xs, h1, h2.trans (hl.trans hlen), ?_⟩
  intro j hj hjr hx
  have := h3 j (by omega) hjr hx
  have e : ((shpFeats stopEnv rows (gs.map some))[j]'(by omega)).props.getD [] = enumFrom 0 ((rowFields rows[j]).take 1) := by
    simp only [shpFeats, List.getElem_zipWith, Option.getD_some, heard_first, rowProps]
    show (enumFrom 0 (rowFields rows[j])).take 1 = _
    cases rowFields rows[j] <;> rfl
  rw [← e]
  exact this

/-- non-vacuity of `C65_geo_types_partial` -/
example (sz : ElemSizes) (ar : ShpArith) : ∃ xs, toGeoFeatures sz (shpFeatures ar
      (([[(txt "a", .integer 1), (txt "b", .integer 2)]] : List ShpRow).map .ok)) (exPointFile [.point (exPt 1#64 2#64)]) = .ok xs ∧
    xs.length = 1 ∧ ∀ j (hj : j < 1) (hr : j < 1) (hx : j < xs.length),
      xs[j].Has ([.point ⟨1#64, 2#64⟩][j]) (enumFrom 0 ((rowFields ([[(txt "a", .integer 1), (txt "b", .integer 2)]][j])).take 1)) :=
  C65_geo_types_partial sz ar [[(txt "a", .integer 1), (txt "b", .integer 2)]] _ _
    (exPointFile_ok [.point (exPt 1#64 2#64)] (by simp) (by simp)) rfl [.point (exPt 1#64 2#64)] ⟨.point _, trivial⟩
    [.point ⟨1#64, 2#64⟩] rfl (by simp [Geom.Budget])

/-- `to_geo_features` loses a feature whose shape is null, without an error, if it is the last one; -/
theorem C65_geo_types_null_false (sz : ElemSizes) (ar : ShpArith) : ∃ items bs xs, EsriFile items bs ∧ items.length = 2 ∧
    toGeoFeatures sz (shpFeatures ar [.ok [], .ok []]) bs = .ok xs ∧ xs.length = 1 :=
  ⟨_, _, _, exPointFile_ok [.point (exPt 1#64 2#64), .null] (by simp) (by simp), rfl, rfl, rfl⟩

/-- otherwise it panics (in a debug build). -/
theorem C65_geo_types_null_panics_false (sz : ElemSizes) (ar : ShpArith) : ∃ items bs m, EsriFile items bs ∧ items.length = 2 ∧
    toGeoFeatures sz (shpFeatures ar [.ok [], .ok []]) bs = .error (.panic m) :=
  ⟨_, _, _, exPointFile_ok [.null, .point (exPt 1#64 2#64)] (by simp) (by simp), rfl, rfl⟩

/-- `to_geo_features` keeps only the first field of a row. -/
theorem C65_geo_types_fields_false (sz : ElemSizes) (ar : ShpArith) : ∃ items bs x, EsriFile items bs ∧ items.length = 1 ∧
    toGeoFeatures sz (shpFeatures ar [.ok [(txt "a", .integer 1), (txt "b", .integer 2)]]) bs = .ok [x] ∧
    x.properties (txt "a") = some (.int 1) ∧ x.properties (txt "b") = none :=
  ⟨_, _, _, exPointFile_ok [.point (exPt 1#64 2#64)] (by simp) (by simp), rfl, rfl, rfl, rfl⟩

/-! ### SVG -/

private theorem denotes_noEmptyPoint {inner : List Coord → Bool} {s : EsriShape} {g : Geom} (h : Denotes inner s (some g)) :
    g.NoEmptyPoint := by
  cases h <;> simp [Geom.NoEmptyPoint]

private theorem denoteAll_mem {inner : List Coord → Bool} (ss : List EsriShape) (gs : List (Option Geom)) (h : DenoteAll inner ss gs)
    (og : Option Geom) (hm : og ∈ gs) : ∃ s ∈ ss, Denotes inner s og := by
  induction ss generalizing gs with
  | nil =>
    cases gs with
    | nil => simp at hm
    | cons => exact h.elim
  | cons s ss ih =>
    cases gs with
    | nil => exact h.elim
    | cons g gs =>
      rcases List.mem_cons.mp hm with rfl | hm
      · exact ⟨s, by simp, h.1⟩
      · obtain ⟨s', h1, h2⟩ := ih gs h.2 hm
        exact ⟨s', by simp [h1], h2⟩

private theorem zipWith_snd_mem {α β : Type} (as : List α) (bs : List β) (b : β) (h : b ∈ List.zipWith (fun _ b => b) as bs) : b ∈ bs := by
  obtain ⟨k, hk, rfl⟩ := List.mem_iff_getElem.mp h
  rw [List.getElem_zipWith]
  exact List.getElem_mem _

/-- `to_svg` of a well-formed shapefile: a well-formed document.  If no shape is a multi point, its paths are those of the
shapes that have a row, in order. -/
theorem C65_svg (fo : SvgNum) (hp : fo.Plain) (ar : ShpArith) (rows : List ShpRow) (items : List EsriItem)
    (bs : List Byte) (h : EsriFile items bs) (gs : List (Option Geom))
    (hg : DenoteAll (innerRing ar) (items.map fun i => i.shape.keep {}) gs) :
    ∃ t ts, processToSvg fo (shpFeatures ar (rows.map .ok)) bs = .ok t ∧ xmlTokens t = some ts ∧ xmlDocument false [] ts = true ∧
      ((∀ g, some g ∈ gs → g.HasPaths) → rows.length = items.length →
        xmlPaths ts = gs.flatMap fun og => (og.map (Geom.svgPaths fo false)).getD []) := by
  have hno : ∀ g, some g ∈ List.zipWith (fun (_ : ShpRow) g => g) rows gs → g.NoEmptyPoint := by
    intro g hm
    obtain ⟨s, -, h2⟩ := denoteAll_mem _ _ hg _ (zipWith_snd_mem _ _ _ hm)
    exact denotes_noEmptyPoint h2
  have hf : (shpFeats { ans := fun _ => true } rows gs).map Feat.geomCalls =
      (List.zipWith (fun (_ : ShpRow) g => g) rows gs).map fun g => (g.map (Geom.events false 0)).getD [] := by
    simp only [shpFeats, List.map_zipWith]
    congr 1
    funext row g
    cases g <;> rfl
  have ha : FProg.Agrees (SvgWriter.proc fo) { multi := false, dims := {}, ans := fun _ => true } (fun _ => True) :=
    ⟨fun _ _ => rfl, fun _ _ => rfl, fun _ _ _ => rfl, fun _ _ _ _ _ => trivial⟩
  obtain ⟨w, ts, h1, h2, h3⟩ := C44_document_balanced fo hp (SvgWriter.new false) rfl none (by simp [PlainXml])
    (by simp [SvgWriter.new, PlainXml]) _ _ hf hno
  refine ⟨w.out, ts, ?_, h2, h3, ?_⟩
  · unfold processToSvg
    rw [shp_into ha ar rfl rows items bs h gs hg (SvgWriter.new false) w trivial h1]
  · intro hpaths hlen
    have hz : List.zipWith (fun (_ : ShpRow) g => g) rows gs = gs := by
      have hl := denoteAll_len _ _ hg
      simp only [List.length_map] at hl
      apply List.ext_getElem
      · simp; omega
      · simp
    obtain ⟨w', ts', h1', h2', -, h4', -⟩ := C44_document_paths_partial fo hp (SvgWriter.new false) rfl none (by simp [PlainXml])
      (by simp [SvgWriter.new, PlainXml]) _ _ hf (fun g hm => hpaths g (zipWith_snd_mem _ _ _ hm))
    rw [h1] at h1'
    cases h1'
    rw [h2] at h2'
    cases h2'
    rw [hz] at h4'
    exact h4'

example (ar : ShpArith) : ∃ t ts, processToSvg exNum (shpFeatures ar (([[], []] : List ShpRow).map .ok))
      (exPointFile [.null, .point (exPt 1#64 2#64)]) = .ok t ∧ xmlTokens t = some ts ∧ xmlDocument false [] ts = true ∧
    ((∀ g, some g ∈ [none, some (Geom.point (exPt 1#64 2#64))] → g.HasPaths) → 2 = 2 →
      xmlPaths ts = [none, some (Geom.point (exPt 1#64 2#64))].flatMap fun og => (og.map (Geom.svgPaths exNum false)).getD []) :=
  C65_svg exNum exNum_plain ar [[], []] _ _ (exPointFile_ok [.null, .point (exPt 1#64 2#64)] (by simp) (by simp)) _
    ⟨.null, .point _, trivial⟩

example : ∀ g, some g ∈ [none, some (Geom.point (exPt 1#64 2#64))] → g.HasPaths := by simp [Geom.HasPaths]

/-! ### vector tiles -/

/-- A well-formed shapefile into an MVT writer: a layer with one feature for each row with a shape that is not null, in order,
with its tile geometry and the fields of its row that are not null. -/
theorem C65_mvt_layer (sz : ElemSizes) (tr : F64 → F64 → IXY) (cfg : MvtConfig) (name : Text) (ar : ShpArith)
    (rows : List ShpRow) (items : List EsriItem) (bs : List Byte) (h : EsriFile items bs) (gs : List (Option Geom))
    (hg : DenoteAll (innerRing ar) (items.map fun i => i.shape.keep {}) gs)
    (hb : ∀ g, some g ∈ gs → (g.tile tr).isSome ∧ g.Budget sz ∧ g.Drawable tr) :
    ∃ w evs rest, FProg.interp (MvtWriter.fproc sz tr) (shpFeatures ar (rows.map .ok)) {} bs = (w, evs, .ok ((), rest)) ∧
      MvtWriter.layer cfg w name = { name, extent := cfg.extent, features :=
        (List.zipWith (fun row g => (g.bind (Geom.tile tr)).map fun t =>
          { geometry := t, properties := (rowFields row).map fun p => (p.1, p.2.mvt) }) rows gs).flatMap Option.toList } := by
  have hts : TileFeatures sz tr (shpFeats {} rows gs) (List.zipWith (fun row g => (g.bind (Geom.tile tr)).map fun t =>
      { geometry := t, properties := (rowFields row).map fun p => (p.1, p.2.mvt) }) rows gs) := by
    clear h hg
    induction gs generalizing rows with
    | nil => cases rows <;> exact .nil
    | cons g gs ih =>
      cases rows with
      | nil => exact .nil
      | cons row rows =>
        refine .cons _ _ _ _ ?_ (ih rows fun g hm => hb g (List.mem_cons_of_mem _ hm))
        cases g with
        | none => exact .skip (.inr rfl)
        | some g =>
          obtain ⟨h1, h2, h3⟩ := hb g (by simp)
          obtain ⟨t, ht⟩ := Option.isSome_iff_exists.mp h1
          have hk := TileFeature.keep (sz := sz) (tr := tr)
            (f := { props := some (heard (fun _ => false) (rowProps row)), geom := some (shapeEvs false (some g)) }) g 0 t rfl ht h2 h3
          have hpr : ((some (heard (fun _ => false) (rowProps row))).getD []).map (fun p => (p.2.1, p.2.2.mvt)) =
              (rowFields row).map fun p => (p.1, p.2.mvt) := by
            rw [heard_all]
            show (enumFrom 0 (rowFields row)).map (fun p => (p.2.1, p.2.2.mvt)) = _
            generalize 0 = i
            induction rowFields row generalizing i with
            | nil => rfl
            | cons p ps ih => simp [enumFrom, ih]
          rw [hpr] at hk
          simp only [Option.bind_some, ht, Option.map_some]
          exact hk
  obtain ⟨w, h1, h2⟩ := C49_layer sz tr cfg name none _ _ hts
  have ha : FProg.Agrees (MvtWriter.fproc sz tr) {} (fun _ => True) :=
    ⟨fun _ _ => rfl, fun _ _ => rfl, fun _ _ _ => rfl, fun _ _ _ _ _ => trivial⟩
  exact ⟨w, _, _, shp_into ha ar rfl rows items bs h gs hg {} w trivial h1, h2⟩

example (sz : ElemSizes) (cfg : MvtConfig) (ar : ShpArith) : ∃ w evs rest, FProg.interp (MvtWriter.fproc sz fun _ _ => ⟨25, 17⟩)
      (shpFeatures ar (([[], [(txt "b", .integer 2)]] : List ShpRow).map .ok)) {} (exPointFile [.null, .point (exPt 1#64 2#64)]) =
        (w, evs, .ok ((), rest)) ∧
    MvtWriter.layer cfg w (txt "l") = { name := txt "l", extent := cfg.extent, features :=
      [{ geometry := .point ⟨25, 17⟩, properties := [(txt "b", (ColVal.int 2).mvt)] }] } :=
  C65_mvt_layer sz (fun _ _ => ⟨25, 17⟩) cfg (txt "l") ar [[], [(txt "b", .integer 2)]] _ _
    (exPointFile_ok [.null, .point (exPt 1#64 2#64)] (by simp) (by simp)) [none, some (.point (exPt 1#64 2#64))]
    ⟨.null, .point _, trivial⟩ (by simp [Geom.tile, Geom.Budget, Geom.Drawable])

/-! ### files that are cut off -/

/-- Iterating over the shapes of a file that is shorter than its header says: once the source is at its end every call of
`next` fails, and the state stays what it was.  The iterator never ends: a user who skips errors loops forever. -/
theorem C51_cut_off_false (ar : ShpArith) (env : FProg.Env) (len pos : Nat) (h : pos < len) :
    ∃ e, FProg.run env (shapeNext ar len pos) [] = ([], .error e) := by
  unfold shapeNext
  rw [if_neg (by omega)]
  exact ⟨_, rfl⟩

end Geozero
