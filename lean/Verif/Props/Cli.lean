import Verif.Model.Cli
import Verif.Props.Adaptors
import Verif.Props.Svg
import Verif.Props.GeoJson

/-
C62: the command line converter.
-/

namespace Geozero
open FProg Json

/-! ### C62: `--extent` -/

/-- the text between the commas of `a,b,c` -/
def commaJoin : List Text → Text
  | [] => []
  | [f] => f
  | f :: fs => f ++ ',' :: commaJoin fs

/-- `parse_extent` reads the text as numbers separated by commas and takes the first four: for all fields without
a comma. -/
theorem splitComma_join (fs : List Text) (h : ∀ f ∈ fs, ',' ∉ f) (hne : fs ≠ []) : splitComma (commaJoin fs) = fs := by
  have one : ∀ (f rest : Text), ',' ∉ f →
      splitComma (f ++ rest) = match splitComma rest with
        | [] => [f]
        | g :: gs => (f ++ g) :: gs := by
    intro f rest hf
    induction f with
    | nil =>
      cases hs : splitComma rest with
      | nil => cases rest <;> simp [splitComma] at hs <;> split at hs <;> (try split at hs) <;> cases hs
      | cons g gs => simp [hs]
    | cons c cs ih =>
      simp only [List.mem_cons, not_or] at hf
      simp only [List.cons_append, splitComma]
      rw [if_neg (fun e => hf.1 e.symm), ih hf.2]
      cases splitComma rest <;> rfl
  induction fs with
  | nil => exact absurd rfl hne
  | cons f fs ih =>
    have hf := h f (by simp)
    cases fs with
    | nil =>
      have := one f [] hf
      simpa [commaJoin, splitComma] using this
    | cons g gs =>
      simp only [commaJoin]
      rw [one f _ hf]
      simp only [splitComma, if_true, List.append_nil]
      rw [ih (fun x hx => h x (by simp [hx])) (by simp)]

theorem mapM_some_iff (parse : Text → Option F64) (fs : List Text) (vs : List F64) :
    fs.mapM parse = some vs ↔ fs.map parse = vs.map some := by
  induction fs generalizing vs with
  | nil => cases vs <;> simp
  | cons f fs ih =>
    rw [List.mapM_cons]
    cases hp : parse f with
    | none => cases vs <;> simp [hp]
    | some v =>
      cases hm : fs.mapM parse with
      | none =>
        have hno : ∀ ws : List F64, fs.map parse ≠ ws.map some := fun ws e => by rw [(ih ws).mpr e] at hm; cases hm
        cases vs with
        | nil => simp
        | cons w ws => simp [hp, hno ws]
      | some ws =>
        have hw := (ih ws).mp hm
        cases vs with
        | nil => simp
        | cons w ws' =>
          simp only [Option.bind_eq_bind, Option.bind_some, Option.pure_def, Option.some.injEq, List.cons.injEq,
            List.map_cons, hp, hw]
          refine and_congr Iff.rfl ⟨fun e => by rw [e], fun e => ?_⟩
          exact (List.map_inj_right (fun _ _ h => by simpa using h)).mp e

/-- Four numbers separated by commas are the extent minx, miny, maxx, maxy. -/
theorem C62_extent (parse : Text → Option F64) (a b c d : Text) (x0 y0 x1 y1 : F64)
    (hc : ∀ f ∈ [a, b, c, d], ',' ∉ f) (ha : parse a = some x0) (hb : parse b = some y0) (hc' : parse c = some x1)
    (hd : parse d = some y1) :
    parseExtent parse (commaJoin [a, b, c, d]) = .ok { minx := x0, miny := y0, maxx := x1, maxy := y1 } := by
  unfold parseExtent
  rw [splitComma_join _ hc (by simp), (mapM_some_iff parse [a, b, c, d] [x0, y0, x1, y1]).mpr
    (by simp [ha, hb, hc', hd])]

/-- Everything else panics: `parse_extent` never returns the error its signature announces; more than four numbers
are accepted and the rest is ignored. -/
theorem C62_extent_false (parse : Text → Option F64) (fs : List Text) (h : ∀ f ∈ fs, ',' ∉ f) (hne : fs ≠ []) :
    (fs.length < 4 ∨ (∃ f ∈ fs, parse f = none) → ∃ m, parseExtent parse (commaJoin fs) = .error (.panic m)) ∧
    (∀ (a b c d : F64) (rest : List F64), fs.map parse = some a :: some b :: some c :: some d :: rest.map some →
      parseExtent parse (commaJoin fs) = .ok { minx := a, miny := b, maxx := c, maxy := d }) := by
  unfold parseExtent
  rw [splitComma_join fs h hne]
  constructor
  · intro hbad
    cases hm : fs.mapM parse with
    | none => exact ⟨_, rfl⟩
    | some vs =>
      have hv := (mapM_some_iff parse fs vs).mp hm
      have hlen : vs.length = fs.length := by simpa using (congrArg List.length hv).symm
      rcases hbad with hlt | ⟨f, hf, hp⟩
      · match vs, hlen with
        | [], _ => exact ⟨_, rfl⟩
        | [_], _ => exact ⟨_, rfl⟩
        | [_, _], _ => exact ⟨_, rfl⟩
        | [_, _, _], _ => exact ⟨_, rfl⟩
        | _ :: _ :: _ :: _ :: _, hl => simp at hl; omega
      · have : (none : Option F64) ∈ vs.map some := by rw [← hv]; exact List.mem_map.mpr ⟨f, hf, hp⟩
        simp at this
  · intro a b c d rest hv
    rw [(mapM_some_iff parse fs (a :: b :: c :: d :: rest)).mpr (by simpa using hv)]

/-! ### C62: what is written -/

/-- Converting to GeoJSON leaves in the destination exactly what the library writes for the source file, the other
files are as before, and the command succeeds; for every existing input file other than the destination. -/
theorem C62_json (rd : CliReaders) (wr : CliWriters) (args : CliArgs) (fs : Files) (hne : args.input ≠ args.dest)
    (hd : args.destExt = some (txt "json") ∨ args.destExt = some (txt "geojson")) (t : Text)
    (h : processToJson wr.fmt (cliSource rd args fs) [] = .ok t) :
    (cliProcess rd wr args fs).2 = .ok () ∧ (cliProcess rd wr args fs).1 args.dest = some (wr.utf8 t) ∧
    ∀ p, p ≠ args.dest → (cliProcess rd wr args fs).1 p = fs p := by
  have hs : cliSource rd args (fs.set args.dest []) = cliSource rd args fs := by
    simp [cliSource, Files.set, hne]
  unfold processToJson at h
  have hno : args.destExt ≠ some (txt "csv") ∧ args.destExt ≠ some (txt "wkt") := by
    rcases hd with hd | hd <;> rw [hd] <;> decide
  rcases hi : FProg.interp (GeoJsonWriter.proc wr.fmt) (cliSource rd args fs) {} [] with ⟨w, ev, r⟩
  rw [hi] at h
  cases r with
  | error e => cases h
  | ok a =>
    cases h
    simp only [cliProcess, if_neg hno.1, if_neg hno.2, if_pos hd, hs, hi, written]
    refine ⟨trivial, by simp [Files.set], fun p hp => by simp [Files.set, hp]⟩

/-- The same for CSV. -/
theorem C62_csv (rd : CliReaders) (wr : CliWriters) (args : CliArgs) (fs : Files) (hne : args.input ≠ args.dest)
    (hd : args.destExt = some (txt "csv")) (w : CsvWriter) (ev : List FEv) (a : Unit × List Byte)
    (h : FProg.interp (CsvWriter.proc wr.fmt) (cliSource rd args fs) (CsvWriter.withDims {}) [] = (w, ev, .ok a)) :
    (cliProcess rd wr args fs).2 = .ok () ∧ (cliProcess rd wr args fs).1 args.dest = some (wr.csvBytes w.rows) ∧
    ∀ p, p ≠ args.dest → (cliProcess rd wr args fs).1 p = fs p := by
  have hs : cliSource rd args (fs.set args.dest []) = cliSource rd args fs := by
    simp [cliSource, Files.set, hne]
  simp only [cliProcess, if_pos hd, hs, h, written]
  exact ⟨trivial, by simp [Files.set], fun p hp => by simp [Files.set, hp]⟩

/-- The same for WKT. -/
theorem C62_wkt (rd : CliReaders) (wr : CliWriters) (args : CliArgs) (fs : Files) (hne : args.input ≠ args.dest)
    (hd : args.destExt = some (txt "wkt")) (w : WktWriter) (ev : List FEv) (a : Unit × List Byte)
    (h : FProg.interp (wktFProc wr.fmt.f64) (cliSource rd args fs) (WktWriter.withOpts .wkt {} none) [] = (w, ev, .ok a)) :
    (cliProcess rd wr args fs).2 = .ok () ∧ (cliProcess rd wr args fs).1 args.dest = some (wr.utf8 w.out) ∧
    ∀ p, p ≠ args.dest → (cliProcess rd wr args fs).1 p = fs p := by
  have hs : cliSource rd args (fs.set args.dest []) = cliSource rd args fs := by
    simp [cliSource, Files.set, hne]
  have h1 : args.destExt ≠ some (txt "csv") := by rw [hd]; decide
  simp only [cliProcess, if_neg h1, if_pos hd, hs, h, written]
  exact ⟨trivial, by simp [Files.set], fun p hp => by simp [Files.set, hp]⟩

/-- Of a dataset with several features the WKT file is not WKT: the geometries follow each other without a separator. -/
theorem C62_wkt_features_false (num : F64 → Text) :
    (FProg.interp (wktFProc num) (FProg.forIdx (fun _ e => FProg.call e) 0 (datasetEvs none
        [{ geom := some ((Geom.point ⟨1#64, 2#64, none, none⟩).events false 0) },
         { geom := some ((Geom.point ⟨3#64, 4#64, none, none⟩).events false 0) }]))
      (WktWriter.withOpts .wkt {} none) []).1.out =
    txt "POINT(" ++ num 1#64 ++ txt " " ++ num 2#64 ++ txt ")POINT(" ++ num 3#64 ++ txt " " ++ num 4#64 ++ txt ")" := by
  have h : (FProg.interp (wktFProc num) (FProg.forIdx (fun _ e => FProg.call e) 0 (datasetEvs none
        [{ geom := some ((Geom.point ⟨1#64, 2#64, none, none⟩).events false 0) },
         { geom := some ((Geom.point ⟨3#64, 4#64, none, none⟩).events false 0) }]))
      (WktWriter.withOpts .wkt {} none) []).1.out =
    (((((((txt "POINT" ++ txt "(") ++ (num 1#64 ++ txt " " ++ num 2#64)) ++ txt ")") ++ txt "POINT") ++ txt "(") ++
      (num 3#64 ++ txt " " ++ num 4#64)) ++ txt ")") := rfl
  rw [h]
  simp [txt]

/-- Which reader is used for which extension of the input; what is not in the list is refused. -/
theorem C62_input_extension (rd : CliReaders) (args : CliArgs) (fs : Files) (bytes : List Byte)
    (hf : fs args.input = some bytes) (col : Text) (hc : args.csvColumn = some col) (x : String) (src : FProg Unit)
    (hx : args.inputExt = some (txt x))
    (h : (x, src) ∈ [("csv", rd.csv col bytes), ("json", rd.json bytes), ("geojson", rd.json bytes),
      ("jsonl", rd.jsonl bytes), ("geojsonl", rd.jsonl bytes), ("wkt", rd.wkt bytes), ("fgb", rd.fgb args.extent bytes),
      ("parquet", rd.parquet args.extent bytes), ("geoparquet", rd.parquet args.extent bytes)]) :
    cliSource rd args fs = src := by
  simp only [List.mem_cons, Prod.mk.injEq, List.not_mem_nil, or_false] at h
  unfold cliSource
  rcases h with h | h | h | h | h | h | h | h | h <;> obtain ⟨rfl, rfl⟩ := h <;> simp only [hf, hx, hc] <;> rfl

/-- A conversion the library fails with an error is reported as this error. -/
theorem C62_failure_reported (rd : CliReaders) (wr : CliWriters) (args : CliArgs) (fs : Files)
    (hne : args.input ≠ args.dest) (e : Err)
    (h : (args.destExt = some (txt "csv") ∧
        (FProg.interp (CsvWriter.proc wr.fmt) (cliSource rd args fs) (CsvWriter.withDims {}) []).2.2 = .error e) ∨
      (args.destExt = some (txt "wkt") ∧
        (FProg.interp (wktFProc wr.fmt.f64) (cliSource rd args fs) (WktWriter.withOpts .wkt {} none) []).2.2 = .error e) ∨
      ((args.destExt = some (txt "json") ∨ args.destExt = some (txt "geojson")) ∧
        processToJson wr.fmt (cliSource rd args fs) [] = .error e) ∨
      (args.destExt = some (txt "fgb") ∧ wr.fgb (cliSource rd args fs) = .error e) ∨
      (args.destExt = some (txt "svg") ∧ getExtent rd args fs = .error e)) :
    (cliProcess rd wr args fs).2 = .error e := by
  have hs : cliSource rd args (fs.set args.dest []) = cliSource rd args fs := by
    simp [cliSource, Files.set, hne]
  have hw : ∀ (fs : Files) (d : Text) (c : List Byte) (r : Except Err (Unit × List Byte)), r = .error e →
      (written fs d c r).2 = .error e := by rintro _ _ _ _ rfl; rfl
  rcases h with ⟨hd, h⟩ | ⟨hd, h⟩ | ⟨hd, h⟩ | ⟨hd, h⟩ | ⟨hd, h⟩
  · simp only [cliProcess, if_pos hd, hs]
    exact hw _ _ _ _ h
  · have h1 : args.destExt ≠ some (txt "csv") := by rw [hd]; decide
    simp only [cliProcess, if_neg h1, if_pos hd, hs]
    exact hw _ _ _ _ h
  · have h1 : args.destExt ≠ some (txt "csv") := by rcases hd with hd | hd <;> rw [hd] <;> decide
    have h2 : args.destExt ≠ some (txt "wkt") := by rcases hd with hd | hd <;> rw [hd] <;> decide
    simp only [cliProcess, if_neg h1, if_neg h2, if_pos hd, hs]
    refine hw _ _ _ _ ?_
    unfold processToJson at h
    rcases hi : FProg.interp (GeoJsonWriter.proc wr.fmt) (cliSource rd args fs) {} [] with ⟨w, ev, r⟩
    rw [hi] at h
    cases r <;> cases h
    rfl
  · have h1 : args.destExt ≠ some (txt "csv") := by rw [hd]; decide
    have h2 : args.destExt ≠ some (txt "wkt") := by rw [hd]; decide
    have h3 : ¬(args.destExt = some (txt "json") ∨ args.destExt = some (txt "geojson")) := by rw [hd]; decide
    simp only [cliProcess, if_neg h1, if_neg h2, if_neg h3, if_pos hd, hs, h]
  · have h1 : args.destExt ≠ some (txt "csv") := by rw [hd]; decide
    have h2 : args.destExt ≠ some (txt "wkt") := by rw [hd]; decide
    have h3 : ¬(args.destExt = some (txt "json") ∨ args.destExt = some (txt "geojson")) := by rw [hd]; decide
    have h4 : args.destExt ≠ some (txt "fgb") := by rw [hd]; decide
    have hg : getExtent rd args (fs.set args.dest []) = getExtent rd args fs := by simp only [getExtent, hs]
    simp only [cliProcess, if_neg h1, if_neg h2, if_neg h3, if_neg h4, if_pos hd, hg, h]

/-- `geozero --csv-geometry-column=c in.csv out.geojson` writes the RFC 7946 feature collection of the rows, for every
table of plain texts. -/
theorem C62_csv_to_geojson_partial (rd : CliReaders) (wr : CliWriters) (args : CliArgs) (fs : Files)
    (hne : args.input ≠ args.dest) (bytes : List Byte) (hf : fs args.input = some bytes) (t : CsvTable) (ht : t.Ok)
    (hi : args.inputExt = some (txt "csv")) (hc : args.csvColumn = some t.column)
    (hd : args.destExt = some (txt "json") ∨ args.destExt = some (txt "geojson"))
    (parse : Text → Except Err WktGeom) (geometry : Text → Geom) (decode : Text → Json)
    (hr : ∀ column, rd.csv column bytes =
      processCsvFeatures parse (.ok t.headers) (t.rows.map fun r => .ok (r.1 ++ r.2.1 :: r.2.2)) column)
    (hg : ∀ r ∈ t.rows, r.2.1 ≠ [] → ∃ g, parse r.2.1 = .ok g ∧ g.NoEmptyMember ∧ g.denote = geometry r.2.1)
    (hp : ∀ r ∈ t.rows, (t.data geometry r).Printable wr.fmt decode false) :
    ∃ out, (cliProcess rd wr args fs).2 = .ok () ∧ (cliProcess rd wr args fs).1 args.dest = some (wr.utf8 out) ∧
      IsText out (Rfc7946.featureCollection wr.fmt decode false none (t.rows.map (t.data geometry))) := by
  obtain ⟨out, ho, hj⟩ := C48_csv_partial wr.fmt decode parse geometry t ht hg hp
  have hsrc : cliSource rd args fs =
      processCsvFeatures parse (.ok t.headers) (t.rows.map fun r => .ok (r.1 ++ r.2.1 :: r.2.2)) t.column := by
    simp only [cliSource, hf, hi, if_true, hc, hr]
  obtain ⟨h1, h2, -⟩ := C62_json rd wr args fs hne hd out (by rw [hsrc]; exact ho)
  exact ⟨out, h1, h2, hj⟩

/-- No conversion, successful or not, touches a file other than the destination. -/
theorem C62_other_files (rd : CliReaders) (wr : CliWriters) (args : CliArgs) (fs : Files) (p : Text)
    (hp : p ≠ args.dest) : (cliProcess rd wr args fs).1 p = fs p := by
  have hset : ∀ (fs : Files) c, (fs.set args.dest c) p = fs p := fun fs c => by simp [Files.set, hp]
  have hw : ∀ (fs : Files) (c : List Byte) (r : Except Err (Unit × List Byte)),
      (written fs args.dest c r).1 p = fs p := by
    intro fs c r
    cases r <;> exact hset _ _
  unfold cliProcess
  simp only
  split
  · rw [hw, hset]
  split
  · rw [hw, hset]
  split
  · rw [hw, hset]
  split
  · split
    · exact (hset _ _).trans (hset _ _)
    · exact hset _ _
  split
  · split
    · exact hset _ _
    · rw [hw, hset]
  · exact hset _ _

/-- The outcome is success exactly if nothing failed: with the destination extension unknown it never is, and the
destination's old contents are gone. -/
theorem C62_unknown_extension_false (rd : CliReaders) (wr : CliWriters) (args : CliArgs) (fs : Files)
    (hd : ∀ e ∈ ["csv", "wkt", "json", "geojson", "fgb", "svg"], args.destExt ≠ some (txt e)) :
    ∃ m, (cliProcess rd wr args fs).2 = .error (.panic m) ∧ (cliProcess rd wr args fs).1 args.dest = some [] := by
  have h1 := hd "csv" (by simp)
  have h2 := hd "wkt" (by simp)
  have h3 := hd "json" (by simp)
  have h4 := hd "geojson" (by simp)
  have h5 := hd "fgb" (by simp)
  have h6 := hd "svg" (by simp)
  simp only [cliProcess, if_neg h1, if_neg h2, h3, h4, or_self, if_false, if_neg h5, if_neg h6]
  exact ⟨_, rfl, by simp [Files.set]⟩

/-- Converting a file to itself loses it: the destination is created before the input is read, so the outcome is the
one for an empty file, whatever the file held. -/
theorem C62_same_file_false (rd : CliReaders) (wr : CliWriters) (args : CliArgs) (heq : args.input = args.dest)
    (fs fs' : Files) (h : ∀ p, p ≠ args.dest → fs p = fs' p) :
    cliProcess rd wr args fs = cliProcess rd wr args fs' ∧
    cliSource rd args (fs.set args.dest []) = cliSource rd args (Files.set (fun _ => none) args.input []) := by
  have hf : fs.set args.dest [] = fs'.set args.dest [] := by
    funext p
    unfold Files.set
    split
    · rfl
    · rename_i hp; exact h p hp
  refine ⟨by simp only [cliProcess, hf], ?_⟩
  simp [cliSource, Files.set, heq]

/-- A missing input file destroys the destination as well. -/
theorem C62_missing_input_false (rd : CliReaders) (wr : CliWriters) (args : CliArgs) (fs : Files)
    (hne : args.input ≠ args.dest) (hm : fs args.input = none) (hd : args.destExt = some (txt "svg"))
    (hx : args.extent = none) :
    (cliProcess rd wr args fs).2 = .error .io ∧ (cliProcess rd wr args fs).1 args.dest = some [] := by
  have hs : cliSource rd args (fs.set args.dest []) = .fail .io := by
    simp [cliSource, Files.set, hne, hm]
  have h1 : args.destExt ≠ some (txt "csv") := by rw [hd]; decide
  have h2 : args.destExt ≠ some (txt "wkt") := by rw [hd]; decide
  have h3 : ¬(args.destExt = some (txt "json") ∨ args.destExt = some (txt "geojson")) := by rw [hd]; decide
  have h4 : args.destExt ≠ some (txt "fgb") := by rw [hd]; decide
  simp only [cliProcess, if_neg h1, if_neg h2, if_neg h3, if_neg h4, if_pos hd, getExtent, hx, hs, FProg.interp]
  exact ⟨trivial, by simp [Files.set]⟩

/-- `--extent` is documented to select "geometries within extent", but for CSV, GeoJSON, newline-delimited GeoJSON and
WKT input it changes nothing in a CSV, WKT or GeoJSON destination. -/
theorem C62_extent_ignored_false (rd : CliReaders) (wr : CliWriters) (args : CliArgs) (fs : Files) (e : Option Extent)
    (hi : ∃ x ∈ ["csv", "json", "geojson", "jsonl", "geojsonl", "wkt"], args.inputExt = some (txt x))
    (hd : ∃ x ∈ ["csv", "json", "geojson", "wkt"], args.destExt = some (txt x)) :
    cliProcess rd wr { args with extent := e } fs = cliProcess rd wr args fs := by
  have hs : ∀ fs', cliSource rd { args with extent := e } fs' = cliSource rd args fs' := by
    intro fs'
    obtain ⟨x, hx, hx'⟩ := hi
    simp only [List.mem_cons, List.not_mem_nil, or_false] at hx
    unfold cliSource
    rcases hx with rfl | rfl | rfl | rfl | rfl | rfl <;> simp only [hx'] <;> rfl
  obtain ⟨x, hx, hx'⟩ := hd
  simp only [List.mem_cons, List.not_mem_nil, or_false] at hx
  unfold cliProcess
  simp only [hs]
  rcases hx with rfl | rfl | rfl | rfl <;> simp only [hx'] <;> rfl

/-! ### C62: SVG -/

/-- both writers reject only empty points -/
theorem bounds_follows_svg (fo : SvgNum) (evs : List FEv) (w w' : SvgWriter) (s : Option Bounds)
    (h : feed (SvgWriter.step fo) w evs = .ok w') : ∃ s', feed boundsProc.step s evs = .ok s' := by
  induction evs generalizing w s with
  | nil => exact ⟨s, rfl⟩
  | cons e es ih =>
    simp only [feed_cons] at h ⊢
    cases he : SvgWriter.step fo w e with
    | error x => rw [he] at h; cases h
    | ok w1 =>
      rw [he] at h
      have : ∃ s1, boundsProc.step s e = .ok s1 := by
        cases e with
        | geom g => cases g <;> simp [SvgWriter.step, SvgWriter.geomStep] at he <;> exact ⟨_, rfl⟩
        | _ => exact ⟨_, rfl⟩
      obtain ⟨s1, hs1⟩ := this
      rw [hs1]
      exact ih w1 s1 h

/-- Converting to SVG without `--extent`: the drawing shows all of the data and nothing more.  For every input whose reader
delivers a dataset of features with geometries without empty points and NaN, the destination is an XML document 800 by
600 whose view box is `x0 y0 x1-x0 y1-y0`, every position of the data, drawn with inverted y axis, lies in the box from
(x0, y0) to (x1, y1), and each side of the box is touched by a position. -/
theorem C62_svg_shows_everything (rd : CliReaders) (wr : CliWriters) (hp : wr.svg.Plain) (args : CliArgs) (fs : Files)
    (hne : args.input ≠ args.dest) (hd : args.destExt = some (txt "svg")) (hx : args.extent = none)
    (hs : PlainXml (args.svgStyle.getD [])) (rest : List Byte)
    (name : Option Text) (hn : PlainXml (name.getD [])) (fts : List Feat) (gs : List (Option Geom))
    (hsrc : FProg.run { multi := false, dims := {}, ans := fun _ => true } (cliSource rd args fs) []
      = (datasetEvs name fts, .ok ((), rest)))
    (hf : fts.map Feat.geomCalls = gs.map fun g => (g.map (Geom.events false 0)).getD []) (hg : ∀ g, some g ∈ gs → g.NoEmptyPoint)
    (hnum : ∀ p ∈ positions (datasetEvs name fts), NumPos p) :
    ∃ t ts root x0 y0 x1 y1,
      (cliProcess rd wr args fs).2 = .ok () ∧ (cliProcess rd wr args fs).1 args.dest = some (wr.utf8 t) ∧
      xmlTokens t = some ts ∧ xmlRoot ts = some (txt "svg", root) ∧
      root.lookup (txt "width") = some (txt "800") ∧ root.lookup (txt "height") = some (txt "600") ∧
      root.lookup (txt "viewBox") = some (wr.svg.num x0 ++ txt " " ++ wr.svg.num y0 ++ txt " " ++
        wr.svg.num (wr.svg.sub x1 x0) ++ txt " " ++ wr.svg.num (wr.svg.sub y1 y0)) ∧
      (∀ p ∈ positions (datasetEvs name fts), InBox x0 y0 x1 y1 p.1 p.2.negate) ∧
      (positions (datasetEvs name fts) ≠ [] →
        (∃ p ∈ positions (datasetEvs name fts), p.1 = x0) ∧ (∃ p ∈ positions (datasetEvs name fts), p.1 = x1) ∧
        (∃ p ∈ positions (datasetEvs name fts), p.2.negate = y0) ∧
        (∃ p ∈ positions (datasetEvs name fts), p.2.negate = y1)) := by
  have hs' : cliSource rd args (fs.set args.dest []) = cliSource rd args fs := by
    simp [cliSource, Files.set, hne]
  have h1 : args.destExt ≠ some (txt "csv") := by rw [hd]; decide
  have h2 : args.destExt ≠ some (txt "wkt") := by rw [hd]; decide
  have h3 : ¬(args.destExt = some (txt "json") ∨ args.destExt = some (txt "geojson")) := by rw [hd]; decide
  have h4 : args.destExt ≠ some (txt "fgb") := by rw [hd]; decide
  have av : FProg.Agrees (SvgWriter.proc wr.svg) { multi := false, dims := {}, ans := fun _ => true } (fun _ => True) :=
    ⟨fun _ _ => rfl, fun _ _ => rfl, fun _ _ _ => rfl, fun _ _ _ _ _ => trivial⟩
  have ab : FProg.Agrees boundsProc { multi := false, dims := {}, ans := fun _ => true } (fun _ => True) :=
    ⟨fun _ _ => rfl, fun _ _ => rfl, fun _ _ _ => rfl, fun _ _ _ _ _ => trivial⟩
  have n800 : natText (UInt32.toNat 800) = txt "800" := by decide +kernel
  have n600 : natText (UInt32.toNat 600) = txt "600" := by decide +kernel
  -- the first pass
  obtain ⟨wz, -, -, -, -, -, -, hfz, -⟩ := C56_view_box wr.svg hp true 0#64 0#64 0#64 0#64 800 600 args.svgStyle hs name hn
    fts gs hf hg
  obtain ⟨s, hsb⟩ := bounds_follows_svg wr.svg _ _ _ none hfz
  have hb := C30_bounds _ s hsb hnum
  have hib : FProg.interp boundsProc (cliSource rd args fs) none [] = (s, datasetEvs name fts, .ok ((), rest)) := by
    rw [← hsrc]
    exact interp_of_feed_ok ab _ none s trivial [] (by rw [hsrc]; exact hsb)
  -- the second pass, for any extent
  have key : ∀ ext, getExtent rd args (fs.set args.dest []) = .ok ext →
      ∃ t ts root x0 y0 x1 y1,
      (cliProcess rd wr args fs).2 = .ok () ∧ (cliProcess rd wr args fs).1 args.dest = some (wr.utf8 t) ∧
      xmlTokens t = some ts ∧ xmlRoot ts = some (txt "svg", root) ∧
      root.lookup (txt "width") = some (txt "800") ∧ root.lookup (txt "height") = some (txt "600") ∧
      root.lookup (txt "viewBox") = some (wr.svg.num x0 ++ txt " " ++ wr.svg.num y0 ++ txt " " ++
        wr.svg.num (wr.svg.sub x1 x0) ++ txt " " ++ wr.svg.num (wr.svg.sub y1 y0)) ∧
      (∀ x y : F64, InBox ext.minx ext.miny ext.maxx ext.maxy x y → InBox x0 y0 x1 y1 x y.negate) ∧
      x0 = ext.minx ∧ x1 = ext.maxx ∧ y0 = ext.maxy.negate ∧ y1 = ext.miny.negate := by
    intro ext he
    obtain ⟨w', ts, root, x0, y0, x1, y1, hfw, ht, hr, hw, hh, hv, hin, e0, e1, ey⟩ :=
      C56_view_box wr.svg hp true ext.minx ext.miny ext.maxx ext.maxy 800 600 args.svgStyle hs name hn fts gs hf hg
    have hi : FProg.interp (SvgWriter.proc wr.svg) (cliSource rd args fs)
        (((SvgWriter.new true).setStyle args.svgStyle).setDimensions ext.minx ext.miny ext.maxx ext.maxy 800 600) []
        = (w', datasetEvs name fts, .ok ((), rest)) := by
      rw [← hsrc]
      exact interp_of_feed_ok av _ _ w' trivial [] (by rw [hsrc]; exact hfw)
    simp only [if_true, Prod.mk.injEq] at ey
    refine ⟨w'.out, ts, root, x0, y0, x1, y1, ?_, ?_, ht, hr, hw.trans (congrArg some n800), hh.trans (congrArg some n600), hv, fun x y hxy => by simpa using (hin x y).mp hxy,
      e0, e1, ey.1, ey.2⟩
    · simp only [cliProcess, if_neg h1, if_neg h2, if_neg h3, if_neg h4, if_pos hd, he, hs', hi, written]
    · simp only [cliProcess, if_neg h1, if_neg h2, if_neg h3, if_neg h4, if_pos hd, he, hs', hi, written]
      simp [Files.set]
  cases s with
  | none =>
    obtain ⟨t, ts, root, x0, y0, x1, y1, g1, g2, g3, g4, g5, g6, g7, -⟩ := key _ (by simp only [getExtent, hx, hs', hib]; rfl)
    have hb' : positions (datasetEvs name fts) = [] := hb
    exact ⟨t, ts, root, x0, y0, x1, y1, g1, g2, g3, g4, g5, g6, g7, by simp [hb'], by simp [hb']⟩
  | some b =>
    obtain ⟨t, ts, root, x0, y0, x1, y1, g1, g2, g3, g4, g5, g6, g7, g8, e0, e1, e2, e3⟩ :=
      key _ (by simp only [getExtent, hx, hs', hib]; rfl)
    obtain ⟨b1, b2, b3, b4⟩ := hb
    refine ⟨t, ts, root, x0, y0, x1, y1, g1, g2, g3, g4, g5, g6, g7, fun p hp => g8 _ _ ⟨?_, ?_, ?_, ?_⟩, fun _ => ?_⟩
    · exact b1.2 _ (List.mem_map.mpr ⟨p, hp, rfl⟩)
    · exact b2.2 _ (List.mem_map.mpr ⟨p, hp, rfl⟩)
    · exact b3.2 _ (List.mem_map.mpr ⟨p, hp, rfl⟩)
    · exact b4.2 _ (List.mem_map.mpr ⟨p, hp, rfl⟩)
    · obtain ⟨p1, q1, r1⟩ := List.mem_map.mp b1.1
      obtain ⟨p2, q2, r2⟩ := List.mem_map.mp b2.1
      obtain ⟨p3, q3, r3⟩ := List.mem_map.mp b3.1
      obtain ⟨p4, q4, r4⟩ := List.mem_map.mp b4.1
      exact ⟨⟨p1, q1, by rw [r1, e0]⟩, ⟨p2, q2, by rw [r2, e1]⟩, ⟨p4, q4, by rw [r4, e2]⟩, ⟨p3, q3, by rw [r3, e3]⟩⟩

/-- Converting to SVG with `--extent`: the view box is the extent the user gave.  The file is read once, every feature is drawn
whatever its place (`datasetEvs name fts` is all the reader delivers), and a position is in the extent exactly if it is drawn,
with inverted y axis, in the view box.  The data need not be numbers. -/
theorem C62_svg_extent (rd : CliReaders) (wr : CliWriters) (hp : wr.svg.Plain) (args : CliArgs) (fs : Files)
    (hne : args.input ≠ args.dest) (hd : args.destExt = some (txt "svg")) (ext : Extent) (hx : args.extent = some ext)
    (hs : PlainXml (args.svgStyle.getD [])) (rest : List Byte)
    (name : Option Text) (hn : PlainXml (name.getD [])) (fts : List Feat) (gs : List (Option Geom))
    (hsrc : FProg.run { multi := false, dims := {}, ans := fun _ => true } (cliSource rd args fs) []
      = (datasetEvs name fts, .ok ((), rest)))
    (hf : fts.map Feat.geomCalls = gs.map fun g => (g.map (Geom.events false 0)).getD []) (hg : ∀ g, some g ∈ gs → g.NoEmptyPoint) :
    ∃ t ts root x0 y0 x1 y1,
      (cliProcess rd wr args fs).2 = .ok () ∧ (cliProcess rd wr args fs).1 args.dest = some (wr.utf8 t) ∧
      (∃ w, feed (SvgWriter.step wr.svg) (((SvgWriter.new true).setStyle args.svgStyle).setDimensions ext.minx ext.miny ext.maxx
        ext.maxy 800 600) (datasetEvs name fts) = .ok w ∧ t = w.out) ∧
      xmlTokens t = some ts ∧ xmlRoot ts = some (txt "svg", root) ∧
      root.lookup (txt "width") = some (txt "800") ∧ root.lookup (txt "height") = some (txt "600") ∧
      root.lookup (txt "viewBox") = some (wr.svg.num x0 ++ txt " " ++ wr.svg.num y0 ++ txt " " ++
        wr.svg.num (wr.svg.sub x1 x0) ++ txt " " ++ wr.svg.num (wr.svg.sub y1 y0)) ∧
      (∀ x y : F64, InBox ext.minx ext.miny ext.maxx ext.maxy x y ↔ InBox x0 y0 x1 y1 x y.negate) ∧
      x0 = ext.minx ∧ x1 = ext.maxx ∧ y0 = ext.maxy.negate ∧ y1 = ext.miny.negate := by
  have hs' : cliSource rd args (fs.set args.dest []) = cliSource rd args fs := by
    simp [cliSource, Files.set, hne]
  have h1 : args.destExt ≠ some (txt "csv") := by rw [hd]; decide
  have h2 : args.destExt ≠ some (txt "wkt") := by rw [hd]; decide
  have h3 : ¬(args.destExt = some (txt "json") ∨ args.destExt = some (txt "geojson")) := by rw [hd]; decide
  have h4 : args.destExt ≠ some (txt "fgb") := by rw [hd]; decide
  have av : FProg.Agrees (SvgWriter.proc wr.svg) { multi := false, dims := {}, ans := fun _ => true } (fun _ => True) :=
    ⟨fun _ _ => rfl, fun _ _ => rfl, fun _ _ _ => rfl, fun _ _ _ _ _ => trivial⟩
  have n800 : natText (UInt32.toNat 800) = txt "800" := by decide +kernel
  have n600 : natText (UInt32.toNat 600) = txt "600" := by decide +kernel
  have he : getExtent rd args (fs.set args.dest []) = .ok ext := by simp only [getExtent, hx]
  obtain ⟨w', ts, root, x0, y0, x1, y1, hfw, ht, hr, hw, hh, hv, hin, e0, e1, ey⟩ :=
    C56_view_box wr.svg hp true ext.minx ext.miny ext.maxx ext.maxy 800 600 args.svgStyle hs name hn fts gs hf hg
  have hi : FProg.interp (SvgWriter.proc wr.svg) (cliSource rd args fs)
      (((SvgWriter.new true).setStyle args.svgStyle).setDimensions ext.minx ext.miny ext.maxx ext.maxy 800 600) []
      = (w', datasetEvs name fts, .ok ((), rest)) := by
    rw [← hsrc]
    exact interp_of_feed_ok av _ _ w' trivial [] (by rw [hsrc]; exact hfw)
  simp only [if_true, Prod.mk.injEq] at ey
  refine ⟨w'.out, ts, root, x0, y0, x1, y1, ?_, ?_, ⟨w', hfw, rfl⟩, ht, hr, hw.trans (congrArg some n800),
    hh.trans (congrArg some n600), hv, fun x y => by simpa using hin x y, e0, e1, ey.1, ey.2⟩
  · simp only [cliProcess, if_neg h1, if_neg h2, if_neg h3, if_neg h4, if_pos hd, he, hs', hi, written]
  · simp only [cliProcess, if_neg h1, if_neg h2, if_neg h3, if_neg h4, if_pos hd, he, hs', hi, written]
    simp [Files.set]

/-- a reader that delivers the features of `exSvgFeats` -/
def exCliReaders : CliReaders :=
  let src := FProg.forIdx (fun _ e => FProg.call e) 0 (datasetEvs none exSvgFeats)
  { csv := fun _ _ => src, json := fun _ => src, jsonl := fun _ => src, wkt := fun _ => src, fgb := fun _ _ => src,
    parquet := fun _ _ => src }
def exCliArgs : CliArgs :=
  { input := txt "a.geojson", inputExt := some (txt "geojson"), dest := txt "b.svg", destExt := some (txt "svg") }
def exFiles : Files := fun p => if p = txt "a.geojson" then some [1, 2] else none

example : exCliArgs.input ≠ exCliArgs.dest ∧
    FProg.run { multi := false, dims := {}, ans := fun _ => true } (cliSource exCliReaders exCliArgs exFiles) [] =
      (datasetEvs none exSvgFeats, .ok ((), [])) ∧
    exSvgFeats.map Feat.geomCalls = [some exSvgGeom, none, some (.polygon [])].map (fun g => (g.map (Geom.events false 0)).getD []) ∧
    positions (datasetEvs none exSvgFeats) ≠ [] ∧
    (∀ p ∈ positions (datasetEvs none exSvgFeats), p.1.isNaN = false ∧ p.2.isNaN = false) :=
  ⟨by decide, rfl, rfl, by decide +kernel, by decide +kernel⟩
example : exNum.Plain ∧ PlainXml (exCliArgs.svgStyle.getD []) ∧
    ∀ g, some g ∈ [some exSvgGeom, none, some (Geom.polygon [])] → g.NoEmptyPoint := by
  refine ⟨exNum_plain, by simp [exCliArgs, PlainXml], ?_⟩
  · intro g hg
    simp only [List.mem_cons, Option.some.injEq, reduceCtorEq, List.not_mem_nil, or_false, false_or] at hg
    rcases hg with rfl | rfl <;> simp [exSvgGeom, Geom.NoEmptyPoint]
/-- with an extent that shows a part of the data -/
example :
    let args := { exCliArgs with extent := some ⟨1#64, 2#64, 3#64, 4#64⟩ }
    args.input ≠ args.dest ∧ args.destExt = some (txt "svg") ∧
    FProg.run { multi := false, dims := {}, ans := fun _ => true } (cliSource exCliReaders args exFiles) [] =
      (datasetEvs none exSvgFeats, .ok ((), [])) :=
  ⟨by decide, rfl, rfl⟩
/-- the command runs -/
example (parse : Text → Option F64) (h : ∀ t, parse t = some 3#64) :
    parseExtent parse (txt "1,2,3,4") = .ok ⟨3#64, 3#64, 3#64, 3#64⟩ ∧
    (∃ m, parseExtent parse (txt "1,2,3") = .error (.panic m)) := by
  simp [parseExtent, splitComma, txt, h]
example : ∀ f ∈ [txt "1", txt "2.5", txt "-3", txt "4"], ',' ∉ f := by decide

end Geozero
