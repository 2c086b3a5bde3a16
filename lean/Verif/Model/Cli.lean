import Verif.Model.Adaptors
import Verif.Model.Svg
import Verif.Model.Csv
import Verif.Model.GeoJson
import Verif.Model.Wkt

/-
Models /repo/geozero-cli/src/main.rs: the `geozero` command.

Simplifications: the file system is a map from paths to contents; opening an existing file, creating and writing the
destination never fail; output is complete when the command ends (`BufWriter` is dropped before `exit`).  Paths come with
their extension already split off (`Path::extension`).  What the readers do with the contents of a file is the parameter
`CliReaders` (their models are in Csv, GeoJson and Wkt); FlatGeobuf, GeoParquet and HTTP are in other crates and only appear
as parameters or not at all (HTTP).  The command line parser (clap) is not modelled, except `parse_extent`.
-/

namespace Geozero

/-- `Extent` (main.rs:45-51) -/
structure Extent where
  minx : F64
  miny : F64
  maxx : F64
  maxy : F64
deriving DecidableEq, Repr

/-- `str::split(',')`: never empty (geozero-cli/src/main.rs:54) -/
def splitComma : Text → List Text
  | [] => [[]]
  | c :: cs =>
    if c = ',' then [] :: splitComma cs
    else match splitComma cs with
      | [] => [[c]]
      | f :: fs => (c :: f) :: fs

/-- `parse_extent` (main.rs:52-66); `parse` is `str::parse::<f64>`.  `.expect` and indexing panic. -/
def parseExtent (parse : Text → Option F64) (src : Text) : Except Err Extent :=
  match (splitComma src).mapM parse with
  | none => .error (.panic "Error parsing 'extent' as list of float values")
  | some (a :: b :: c :: d :: _) => .ok { minx := a, miny := b, maxx := c, maxy := d }
  | some _ => .error (.panic "index out of bounds")

/-- `Cli` (main.rs:22-43) -/
structure CliArgs where
  csvColumn : Option Text := none
  extent : Option Extent := none
  input : Text
  inputExt : Option Text
  dest : Text
  destExt : Option Text
  svgStyle : Option Text := none

/-- the readers, given the contents of the input file (geozero-cli/src/main.rs:86-147) -/
structure CliReaders where
  csv : Text → List Byte → FProg Unit
  json : List Byte → FProg Unit
  jsonl : List Byte → FProg Unit
  wkt : List Byte → FProg Unit
  fgb : Option Extent → List Byte → FProg Unit
  parquet : Option Extent → List Byte → FProg Unit

/-- the external parts of the writers (geozero-cli/src/main.rs:154-169) -/
structure CliWriters where
  fmt : Fmt
  svg : SvgNum
  utf8 : Text → List Byte
  csvBytes : List (List Text) → List Byte
  fgb : FProg Unit → Except Err (List Byte)

/-- the file system (what geozero-cli/src/main.rs:86-154 opens and creates) -/
abbrev Files := Text → Option (List Byte)

/-- the file system after `File::create(path)` and writing `content` (geozero-cli/src/main.rs:154) -/
def Files.set (fs : Files) (path : Text) (content : List Byte) : Files :=
  fun p => if p = path then some content else fs p

/-- the source `transform` drives (main.rs:68-149, local files) -/
def cliSource (rd : CliReaders) (args : CliArgs) (fs : Files) : FProg Unit :=
  match fs args.input with
  | none => .fail .io
  | some bytes =>
    if args.inputExt = some (txt "csv") then
      match args.csvColumn with
      | none => .fail (.panic "must specify --csv-geometry-column=<column name> when parsing CSV")
      | some col => rd.csv col bytes
    else if args.inputExt = some (txt "json") ∨ args.inputExt = some (txt "geojson") then rd.json bytes
    else if args.inputExt = some (txt "jsonl") ∨ args.inputExt = some (txt "geojsonl") then rd.jsonl bytes
    else if args.inputExt = some (txt "parquet") ∨ args.inputExt = some (txt "geoparquet") then
      rd.parquet args.extent bytes
    else if args.inputExt = some (txt "fgb") then rd.fgb args.extent bytes
    else if args.inputExt = some (txt "wkt") then rd.wkt bytes
    else .fail (.panic "Unknown input file extension")

/-- `WktWriter` as a feature processor: all methods of `FeatureProcessor` and `PropertyProcessor` are the defaults
(wkt_writer.rs:234-236) -/
def wktFProc (num : F64 → Text) : FProc WktWriter where
  step w
    | .geom e => WktWriter.step num w e
    | _ => .ok w
  abort _ _ := true
  multi w := w.dims.multi
  dims w := w.dims

/-- `get_extent` (main.rs:180-203) -/
def getExtent (rd : CliReaders) (args : CliArgs) (fs : Files) : Except Err Extent :=
  match args.extent with
  | some e => .ok e
  | none =>
    match FProg.interp boundsProc (cliSource rd args fs) none [] with
    | (_, _, .error e) => .error e
    | (none, _, .ok _) => .ok { minx := F64.zero, miny := F64.zero, maxx := F64.zero, maxy := F64.zero }
    | (some b, _, .ok _) => .ok { minx := b.minX, miny := b.minY, maxx := b.maxX, maxy := b.maxY }

/-- the result of a conversion that wrote `out` (geozero-cli/src/main.rs:154-169) -/
def written (fs : Files) (dest : Text) (out : List Byte) {α : Type} : Except Err α → Files × Except Err Unit
  | .ok _ => (fs.set dest out, .ok ())
  | .error e => (fs.set dest out, .error e)

/-- `process` (main.rs:151-178): the files afterwards and the outcome -/
def cliProcess (rd : CliReaders) (wr : CliWriters) (args : CliArgs) (fs : Files) : Files × Except Err Unit :=
  let fs := fs.set args.dest []
  let src := cliSource rd args fs
  if args.destExt = some (txt "csv") then
    let (w, _, r) := FProg.interp (CsvWriter.proc wr.fmt) src (CsvWriter.withDims {}) []
    written fs args.dest (wr.csvBytes w.rows) r
  else if args.destExt = some (txt "wkt") then
    let (w, _, r) := FProg.interp (wktFProc wr.fmt.f64) src (WktWriter.withOpts .wkt {} none) []
    written fs args.dest (wr.utf8 w.out) r
  else if args.destExt = some (txt "json") ∨ args.destExt = some (txt "geojson") then
    let (w, _, r) := FProg.interp (GeoJsonWriter.proc wr.fmt) src {} []
    written fs args.dest (wr.utf8 w.out) r
  else if args.destExt = some (txt "fgb") then
    match wr.fgb src with
    | .ok out => (fs.set args.dest out, .ok ())
    | .error e => (fs, .error e)
  else if args.destExt = some (txt "svg") then
    match getExtent rd args fs with
    | .error e => (fs, .error e)
    | .ok ext =>
      let w := ((SvgWriter.new true).setStyle args.svgStyle).setDimensions ext.minx ext.miny ext.maxx ext.maxy 800 600
      let (w, _, r) := FProg.interp (SvgWriter.proc wr.svg) src w []
      written fs args.dest (wr.utf8 w.out) r
  else (fs, .error (.panic "Unknown output file extension"))

end Geozero
