import Verif.Lemmas.NestingShp
import Verif.Lemmas.NestingWrite
import Verif.Props.WkbAny

/-
C73: every reader makes well nested calls, on every processor and every input, and ends what it began when it succeeds.
C74: no conversion to WKT, WKB, GeoJSON, line-delimited GeoJSON, SVG or GEOS panics unless the reader does.
-/

namespace Geozero
open Spec Prog

/-! ### C73 -/

private theorem reader_nests {src : Prog Unit} (h : Prog.Keeps src) : ReaderNests src := fun _ P s bs => h.sound P s bs
private theorem freader_nests {src : FProg Unit} (h : FProg.Closed src) : FReaderNests src := fun _ P s bs => h.sound P s bs

/-- WKB, every dialect -/
theorem C73_wkb (fo : FOps) (d : WkbDialect) : ReaderNests (processWkbTypeGeom fo d) := reader_nests (keeps_wkb fo d)
/-- parsed WKT -/
theorem C73_wkt (g : WktGeom) : ReaderNests (wktProcessGeom g) := reader_nests (keeps_wktN 0 g)
/-- WKT text -/
theorem C73_wkt_text (parse : Text → Except Err WktGeom) (t : Text) : ReaderNests (processWktText parse t) :=
  reader_nests (keeps_wktText parse t)
/-- geo-types -/
theorem C73_geo_types (g : GeoGeom) : ReaderNests (geoProcessGeom g) := reader_nests (keeps_geoN 0 g)
/-- GEOS -/
theorem C73_geos (g : GeosGeom) : ReaderNests (geosProcessGeom g) := reader_nests (keeps_geosN 0 g)
/-- GDAL -/
theorem C73_gdal (b : OgrPt) (g : OgrGeom) : ReaderNests (ogrProcessGeom b g) := reader_nests (keeps_ogrN b 0 g)
/-- the geometry of a feature of a vector tile -/
theorem C73_mvt (f : MvtFeature) : ReaderNests (mvtProcessGeom f) := reader_nests (keeps_mvtN 0 f.geometry)
/-- GPX -/
theorem C73_gpx (parsed : Except String GpxDoc) : ReaderNests (readGpx parsed) := reader_nests (keeps_gpx parsed)
/-- the geometries of a GeoJSON document -/
theorem C73_geojson_geometries (v : GeoJsonValue) : ReaderNests (processGeoJsonGeom v) := reader_nests (keeps_geoJsonGeom v)
/-- the geometries of line-delimited GeoJSON -/
theorem C73_geojson_lines_geometries (ls : List (Except Err GeoJsonValue)) : ReaderNests (readGeoJsonLineGeometries ls) :=
  reader_nests (keeps_lineGeometries ls)
/-- the geometries of a CSV file -/
theorem C73_csv_geometries (parse : Text → Except Err WktGeom) (headers : Except Err (List Text))
    (records : List (Except Err (List Text))) (column : Text) : ReaderNests (processCsvGeom parse headers records column) :=
  reader_nests (keeps_csvGeom parse headers records column)

/-- GeoJSON documents -/
theorem C73_geojson (parsed : Except Err GeoJsonValue) : FReaderNests (readGeoJson parsed) :=
  freader_nests (closed_readGeoJson parsed)
/-- GeoJSON feature collections read feature by feature -/
theorem C73_geojson_collection (fs : List (Except Err GjFeature)) : FReaderNests (readGeoJsonFc fs) :=
  freader_nests (closed_readGeoJsonFc fs)
/-- line-delimited GeoJSON -/
theorem C73_geojson_lines (ls : List (Except Err GeoJsonValue)) : FReaderNests (readGeoJsonLines ls) :=
  freader_nests (closed_readGeoJsonLines ls)
/-- CSV -/
theorem C73_csv (parse : Text → Except Err WktGeom) (headers : Except Err (List Text)) (records : List (Except Err (List Text)))
    (column : Text) : FReaderNests (processCsvFeatures parse headers records column) :=
  freader_nests (closed_processCsvFeatures parse headers records column)
/-- layers of vector tiles -/
theorem C73_mvt_layer (l : MvtLayer) : FReaderNests (mvtProcess l) := freader_nests (closed_mvtProcess l)
/-- the shapes of a shapefile -/
theorem C73_shapefile_geometries (ar : ShpArith) : FReaderNests (shpGeometries ar) := freader_nests (closed_shpGeometries ar)
/-- the features of a shapefile -/
theorem C73_shapefile_features (ar : ShpArith) (rows : List (Except Err ShpRow)) : FReaderNests (shpFeatures ar rows) :=
  fun _ P s bs => by
    obtain ⟨h1, h2⟩ := FProg.Nests.sound (nests_shpFeatures ar rows) P s bs
    exact ⟨h1, fun a ha => by obtain ⟨st', h3, h4⟩ := h2 a.1 a.2 ha; subst h4; exact h3⟩

/-- non-vacuity: a processor that refuses the third call sees a polygon and its ring begun and not ended -/
example (fo : FOps) : ∃ (P : Proc Nat) (bs : List Byte) (evs : List Ev),
    (interp P (processWkbTypeGeom fo .wkb) 0 bs).2.1 = evs ∧ openRun [] evs = some [.geom .lineString false 0, .geom .polygon true 0] :=
  ⟨{ step := fun n _ => if n < 3 then .ok (n + 1) else .error .io, multi := fun _ => false },
    [1] ++ encU32 .le 3 ++ encU32 .le 1 ++ encU32 .le 1 ++ List.replicate 16 0, _, rfl, rfl⟩

/-- non-vacuity: calls that are not nested, and nested calls that leave something open -/
example : ¬ WellNested [.gbegin .polygon true 1 0, .gend .lineString true 0] := fun ⟨_, h⟩ => by cases h
example : WellNested [.gbegin .polygon true 1 0] ∧ ¬ Balanced [.gbegin .polygon true 1 0] :=
  ⟨⟨_, rfl⟩, fun h => by cases h⟩
example : ¬ FWellNested [.ftBegin 0, .ftEnd 1] := fun ⟨_, h⟩ => by cases h
example : ¬ FWellNested [.ftBegin 0, .propsBegin, .ftEnd 0] := fun ⟨_, h⟩ => by cases h

/-! ### C74 -/

/-- WKT and EWKT -/
theorem C74_wkt (num : F64 → Text) (src : Prog Unit) (hn : ReaderNests src) (dialect : WktDialect) (dims : Dims)
    (srid : Option Int) (bs : List Byte) (m : String)
    (h : toWktWithOpts num src dialect dims srid bs = .error (.panic m)) : (run dims.multi src bs).2 = .error (.panic m) := by
  refine panic_from_reader (WktWriter.proc num) (fun st w => load wktWt st ≤ w.sizes.length ∧ w.dims = dims) dims.multi ?_ ?_ src
    [] (WktWriter.withOpts dialect dims srid) bs ⟨Nat.zero_le _, rfl⟩ (hn _ _ _ _).1 m ?_
  · intro st w e st' hI ho
    obtain ⟨w', h1, h2⟩ := WktWriter.nested_step num dims st w e st' hI ho
    refine ⟨fun s' hs => ?_, fun m hm => ?_⟩
    · cases h1.symm.trans hs; exact h2
    · cases h1.symm.trans hm
  · intro st w hI; show w.dims.multi = _; rw [hI.2]
  · unfold toWktWithOpts at h
    split at h
    · cases h
    · rename_i heq; rw [heq]; exact congrArg Except.error (Except.error.inj h)

/-- WKB in every dialect -/
theorem C74_wkb (src : Prog Unit) (hn : ReaderNests src) (d : WkbDialect) (dims : Dims) (srid : Option Int) (env : List F64)
    (m : String) (h : toWkbDialect src d dims srid env = .error (.panic m)) :
    (run dims.multi src []).2 = .error (.panic m) := by
  refine panic_from_reader WkbWriter.proc (fun st w => load wkbWt st ≤ w.nestingLevel ∧ w.readDims = dims) dims.multi ?_ ?_ src
    [] (WkbWriter.withOpts d dims srid env) [] ⟨Nat.zero_le _, rfl⟩ (hn _ _ _ _).1 m ?_
  · intro st w e st' hI ho
    exact WkbWriter.nested_step dims st w e st' hI ho
  · intro st w hI; show w.readDims.multi = _; rw [hI.2]
  · unfold toWkbDialect at h
    split at h
    · cases h
    · rename_i heq; rw [heq]; exact congrArg Except.error (Except.error.inj h)

/-- GeoJSON geometries, from any reader -/
theorem C74_geojson_geometry (num : F64 → Text) (src : Prog Unit) (bs : List Byte) (m : String)
    (h : toJson num src bs = .error (.panic m)) : (run false src bs).2 = .error (.panic m) := by
  refine panic_from_reader_any (GeoJsonWriter.geomProc num) (fun w => w.dims = {}) false ?_ ?_ src {} bs rfl m ?_
  · intro w e hI
    exact ⟨fun s' hs => by cases hs; exact (GeoJsonLineWriter.geomStep_dims _ _ _).trans hI, fun m hm => by cases hm⟩
  · intro w hI; show w.dims.multi = _; rw [hI]; rfl
  · unfold toJson at h
    split at h
    · cases h
    · rename_i heq; rw [heq]; exact congrArg Except.error (Except.error.inj h)

/-- GeoJSON documents, from any reader -/
theorem C74_geojson (fmt : Fmt) (src : FProg Unit) (bs : List Byte) (m : String)
    (h : processToJson fmt src bs = .error (.panic m)) : (FProg.run {} src bs).2 = .error (.panic m) := by
  refine FProg.panic_from_reader_any (GeoJsonWriter.proc fmt) (fun w => w.dims = {}) {} ?_ ?_ src {} bs rfl m ?_
  · intro w e hI
    obtain ⟨w', h1, h2⟩ := GeoJsonLineWriter.inner_step fmt w e
    refine ⟨fun s' hs => ?_, fun x hx => ?_, fun m hm => ?_⟩
    · cases h1.symm.trans hs; exact h2.trans hI
    · cases h1.symm.trans hx
    · cases h1.symm.trans hm
  · intro w hI; exact ⟨by show w.dims.multi = _; rw [hI]; rfl, hI, fun _ => rfl⟩
  · unfold processToJson at h
    split at h
    · cases h
    · rename_i heq; rw [heq]; exact congrArg Except.error (Except.error.inj h)

/-- line-delimited GeoJSON, for a writer with dimensions `d` -/
theorem C74_geojson_lines (fmt : Fmt) (src : FProg Unit) (hn : FReaderNests src) (d : Dims) (bs : List Byte) (m : String)
    (h : (FProg.interp (GeoJsonLineWriter.proc fmt) src { inner := { dims := d } } bs).2.2 = .error (.panic m)) :
    (FProg.run { multi := d.multi, dims := d } src bs).2 = .error (.panic m) := by
  refine FProg.panic_from_reader (GeoJsonLineWriter.proc fmt) (fun st w => load lineWt st ≤ w.contexts ∧ w.inner.dims = d)
    { multi := d.multi, dims := d } ?_ ?_ src [] _ bs ⟨Nat.zero_le _, rfl⟩ (hn _ _ _ _).1 m h
  · intro st w e st' hI ho
    obtain ⟨w', h1, h2⟩ := GeoJsonLineWriter.nested_step fmt d st w e st' hI ho
    refine ⟨fun s' hs => ?_, fun x hx => ?_, fun m hm => ?_⟩
    · cases h1.symm.trans hs; exact h2
    · cases h1.symm.trans hx
    · cases h1.symm.trans hm
  · intro st w hI; exact ⟨by show w.inner.dims.multi = _; rw [hI.2], hI.2, fun _ => rfl⟩

/-- WKT from features (the command line tool) -/
theorem C74_wkt_features (num : F64 → Text) (src : FProg Unit) (hn : FReaderNests src) (dialect : WktDialect) (dims : Dims)
    (srid : Option Int) (bs : List Byte) (m : String)
    (h : (FProg.interp (wktFProc num) src (WktWriter.withOpts dialect dims srid) bs).2.2 = .error (.panic m)) :
    (FProg.run { multi := dims.multi, dims := dims, ans := fun _ => true } src bs).2 = .error (.panic m) := by
  refine FProg.panic_from_reader (wktFProc num) (fun st w => load wktWt st ≤ w.sizes.length ∧ w.dims = dims)
    { multi := dims.multi, dims := dims, ans := fun _ => true } ?_ ?_ src [] _ bs ⟨Nat.zero_le _, rfl⟩ (hn _ _ _ _).1 m h
  · intro st w e st' hI ho
    have other : load wktWt st' = load wktWt st → (wktFProc num).step w e = .ok w →
        (∀ s', (wktFProc num).step w e = .ok s' → load wktWt st' ≤ s'.sizes.length ∧ s'.dims = dims) ∧
        (∀ x, (wktFProc num).step w e = .error x →
          load wktWt st' ≤ ((wktFProc num).left w e).sizes.length ∧ ((wktFProc num).left w e).dims = dims) ∧
        ∀ m, (wktFProc num).step w e ≠ .error (.panic m) := by
      intro hl hs
      refine ⟨fun s' h' => ?_, fun x h' => ?_, fun m h' => ?_⟩
      · cases hs.symm.trans h'; rw [hl]; exact hI
      · cases hs.symm.trans h'
      · cases hs.symm.trans h'
    have opened : ∀ o, wktWt o = 0 → (if outside st then some (o :: st) else none) = some st' → load wktWt st' = load wktWt st := by
      intro o h0 h'
      split at h'
      · cases h'; rw [load_cons, h0, Nat.zero_add]
      · cases h'
    have closed : ∀ o, wktWt o = 0 → closeOpen o st = some st' → load wktWt st' = load wktWt st := by
      intro o h0 h'
      rw [closeOpen_some h', load_cons, h0, Nat.zero_add]
    cases e with
    | geom e =>
      obtain ⟨w', h1, h2⟩ := WktWriter.nested_step num dims st w e st' hI ho
      refine ⟨fun s' hs => ?_, fun x hx => ?_, fun m hm => ?_⟩
      · cases h1.symm.trans hs; exact h2
      · cases h1.symm.trans hx
      · cases h1.symm.trans hm
    | dsBegin n => exact other (opened _ rfl ho) rfl
    | ftBegin i => exact other (opened _ rfl ho) rfl
    | propsBegin => exact other (opened _ rfl ho) rfl
    | geomBegin => exact other (opened _ rfl ho) rfl
    | dsEnd => exact other (closed _ rfl ho) rfl
    | ftEnd i => exact other (closed _ rfl ho) rfl
    | propsEnd => exact other (closed _ rfl ho) rfl
    | geomEnd => exact other (closed _ rfl ho) rfl
    | prop i n v =>
      refine other ?_ rfl
      simp only [fopenAfter] at ho
      split at ho
      · cases ho; rfl
      · cases ho
  · intro st w hI; exact ⟨by show w.dims.multi = _; rw [hI.2], hI.2, fun _ => rfl⟩

private theorem svg_geom_calm (fo : SvgNum) (w : SvgWriter) (e : Ev) (m : String) : w.geomStep fo e ≠ .error (.panic m) := by
  intro hm
  unfold SvgWriter.geomStep at hm
  split at hm <;> cases hm

/-- SVG fragments, from any reader -/
theorem C74_svg (fo : SvgNum) (src : Prog Unit) (bs : List Byte) (m : String)
    (h : toSvg fo src bs = .error (.panic m)) : (run false src bs).2 = .error (.panic m) := by
  refine panic_from_reader_any (SvgWriter.gproc fo) (fun _ => True) false ?_ (fun _ _ => rfl) src
    (SvgWriter.new false) bs trivial m ?_
  · exact fun w e _ => ⟨fun _ _ => trivial, svg_geom_calm fo w e⟩
  · unfold toSvg at h
    cases hi : interp (SvgWriter.gproc fo) src (SvgWriter.new false) bs with
    | mk w r =>
      obtain ⟨evs, r⟩ := r
      rw [hi] at h
      cases r with
      | ok a => cases h
      | error e => exact congrArg Except.error (Except.error.inj h)

/-- SVG documents, from any reader -/
theorem C74_svg_document (fo : SvgNum) (src : FProg Unit) (bs : List Byte) (m : String)
    (h : processToSvg fo src bs = .error (.panic m)) :
    (FProg.run { ans := fun _ => true } src bs).2 = .error (.panic m) := by
  refine FProg.panic_from_reader_any (SvgWriter.proc fo) (fun _ => True) { ans := fun _ => true } ?_
    (fun _ _ => ⟨rfl, rfl, fun _ => rfl⟩) src (SvgWriter.new false) bs trivial m ?_
  · refine fun w e _ => ⟨fun _ _ => trivial, fun _ _ => trivial, fun m hm => ?_⟩
    cases e with
    | geom e => exact svg_geom_calm fo w e m hm
    | _ => cases hm
  · unfold processToSvg at h
    split at h
    · cases h
    · rename_i heq; rw [heq]; exact congrArg Except.error (Except.error.inj h)

private theorem geos_calm (lib : GeosLib) (hl : lib.err.isPanic = false ∧ lib.outOfRange.isPanic = false) (w : GeosWriter) (e : Ev)
    (m : String) : w.step lib e ≠ .error (.panic m) := by
  have h1 : lib.err ≠ .panic m := fun h => by rw [h] at hl; cases hl.1
  have h2 : lib.outOfRange ≠ .panic m := fun h => by rw [h] at hl; cases hl.2
  have e1 : (Except.error lib.err : Except Err GeosWriter) ≠ .error (.panic m) := fun h => h1 (Except.error.inj h)
  have e2 : (Except.error lib.outOfRange : Except Err GeosWriter) ≠ .error (.panic m) := fun h => h2 (Except.error.inj h)
  have e3 : (Except.error GeosWriter.missing : Except Err GeosWriter) ≠ .error (.panic m) := fun h => by cases h
  cases e with
  | srid s => exact fun h => by cases h
  | xy x y i => simp only [GeosWriter.step, GeosWriter.xy]; repeat' split
                all_goals first | assumption | exact fun h => by cases h
  | coord => exact fun h => by cases h
  | emptyPoint i => exact fun h => by cases h
  | gbegin k t n i => exact fun h => by cases h
  | gend k t i =>
    cases k <;> simp only [GeosWriter.step, GeosWriter.gend, GeosWriter.pointEnd, GeosWriter.multipointEnd,
      GeosWriter.linestringEnd, GeosWriter.multilinestringEnd, GeosWriter.polygonEnd] <;> repeat' split
    all_goals first | assumption | exact fun h => by cases h

/-- GEOS, from any reader, if the library reports its errors as errors -/
theorem C74_geos (lib : GeosLib) (hl : lib.err.isPanic = false ∧ lib.outOfRange.isPanic = false) (src : Prog Unit)
    (bs : List Byte) (m : String) (h : toGeos lib src bs = .error (.panic m)) :
    (run false src bs).2 = .error (.panic m) := by
  refine panic_from_reader_any (GeosWriter.proc lib) (fun _ => True) false ?_ (fun _ _ => rfl) src {} bs trivial m ?_
  · exact fun w e _ => ⟨fun _ _ => trivial, geos_calm lib hl w e⟩
  · unfold toGeos at h
    split at h
    · cases h
    · rename_i heq; rw [heq]; exact congrArg Except.error (Except.error.inj h)

/-- No blob of any dialect makes a conversion to WKT, GeoJSON, SVG or GEOS panic. -/
theorem C74_from_wkb_never_panics (fo : FOps) (d : WkbDialect) (bs : List Byte) (m : String) :
    (∀ num dialect dims srid, toWktWithOpts num (processWkbTypeGeom fo d) dialect dims srid bs ≠ .error (.panic m)) ∧
    (∀ num, geoJsonFromWkb fo num d bs ≠ .error (.panic m)) ∧
    (∀ sv, toSvg sv (processWkbTypeGeom fo d) bs ≠ .error (.panic m)) ∧
    (∀ lib : GeosLib, lib.err.isPanic = false → lib.outOfRange.isPanic = false → geosFromWkb lib fo d bs ≠ .error (.panic m)) := by
  have key : ∀ multi, (run multi (processWkbTypeGeom fo d) bs).2 ≠ .error (.panic m) := fun multi h => by
    have := C10_reader_never_panics fo d multi bs (run multi (processWkbTypeGeom fo d) bs).1 (.panic m) (by rw [← h])
    cases this
  refine ⟨fun num dialect dims srid h => key _ (C74_wkt num _ (C73_wkb fo d) dialect dims srid bs m h), fun num h => ?_,
    fun sv h => key _ (C74_svg sv _ bs m h),
    fun lib h1 h2 h => key _ (C74_geos lib ⟨h1, h2⟩ _ bs m h)⟩
  exact key _ (C74_geojson_geometry num _ bs m h)

/-- non-vacuity: the writers do panic on calls that are not nested -/
example (num : F64 → Text) : WktWriter.step num (WktWriter.withOpts .wkt {} none) (.gend .polygon true 0) =
    .error (.panic "ended geometry that didn't start") := rfl
example : WkbWriter.step (WkbWriter.withOpts .wkb {} none []) (.gend .multiPoint true 0) =
    .error (.panic "attempt to subtract with overflow") := rfl
example (fmt : Fmt) : GeoJsonLineWriter.step fmt {} (.ftEnd 0) = .error (.panic "attempt to subtract with overflow") := rfl

/-- non-vacuity: a GeoJSON position with one number makes the reader panic, and so the conversion to WKT -/
example (num : F64 → Text) : ∃ m, toWktWithOpts num (processGeoJsonGeom (.geometry (.point [0#64]))) .wkt {} none [] =
    .error (.panic m) := ⟨_, rfl⟩

end Geozero
