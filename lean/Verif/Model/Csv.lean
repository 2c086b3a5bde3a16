import Verif.Model.Property
import Verif.Model.Wkt

/-
Models /repo/geozero/src/csv/csv_writer.rs and csv_reader.rs.

The external crate `csv` turns bytes into records and records into bytes.  The model is about records: what the reader
gets (headers, then a sequence of records any of which may be an error) and what the writer hands over.  The external
parser of WKT text is a parameter.
-/

namespace Geozero

/-- `CsvWriter` (csv_writer.rs:7-13).  Of the `csv::Writer`: the records written, the fields written for the record in
progress, and the length of the first record (`csv::Writer` is not flexible: records of another length are errors). -/
structure CsvWriter where
  rows : List (List Text) := []
  cur : List Text := []
  count : Option Nat := none
  headers : List Text := [txt "geometry"]
  written : Bool := false
  props : List Text := []
  wkt : WktWriter
deriving DecidableEq, Repr

namespace CsvWriter

/-- `with_dims` (csv_writer.rs:20-28) -/
def withDims (dims : Dims) : CsvWriter := { wkt := WktWriter.withOpts .wkt dims none }

/-- `csv::Writer::write_field` (external; called in csv_writer.rs:65, 69) -/
def writeField (w : CsvWriter) (f : Text) : CsvWriter := { w with cur := w.cur ++ [f] }

/-- `for field in .. { self.csv.write_field(field)? }` (csv_writer.rs:61-71) -/
def writeFields (w : CsvWriter) (fs : List Text) : CsvWriter := { w with cur := w.cur ++ fs }

/-- end of a record: `csv::Writer::write_record(None)` (external; unequal lengths are an error)
(csv_writer.rs:61, 71) -/
def terminate (w : CsvWriter) : Except Err CsvWriter :=
  match w.count with
  | none => .ok { w with rows := w.rows ++ [w.cur], cur := [], count := some w.cur.length }
  | some n =>
    if n = w.cur.length then .ok { w with rows := w.rows ++ [w.cur], cur := [] }
    else .error (.dataset "CSV error: found record with another length")

/-- `has_started_writing_geometry_in_this_row` (csv_writer.rs:30-32) -/
def started (k : WktWriter) : Bool := !k.out.isEmpty

/-- `offset_geom_idx` (csv_writer.rs:34-41) -/
def offsetIdx (k : WktWriter) (idx : Nat) : Nat := if started k then idx else 0

/-- `GeomProcessor for CsvWriter` (csv_writer.rs:111-243); `srid` is not overridden -/
def geomStep (num : F64 → Text) (k : WktWriter) : Ev → Except Err WktWriter
  | .srid _ => .ok k
  | .xy x y idx => k.step num (.xy x y idx)
  | .coord x y z m t tm idx => k.step num (.coord x y z m t tm idx)
  | .emptyPoint idx => k.step num (.emptyPoint (offsetIdx k idx))
  | .gbegin kind tagged size idx => k.step num (.gbegin kind tagged size (offsetIdx k idx))
  | .gend kind tagged idx => k.step num (.gend kind tagged (offsetIdx k idx))

/-- writing the header record before the first feature (csv_writer.rs:58-61) -/
def writeHeader (w : CsvWriter) : Except Err CsvWriter :=
  if w.written then .ok w
  else ({ w with written := true }.writeFields w.headers).terminate

/-- writing the record of a feature (csv_writer.rs:63-71) -/
def writeRow (w : CsvWriter) : Except Err CsvWriter :=
  match (((w.writeField w.wkt.out).writeFields w.props).terminate) with
  | .error e => .error e
  | .ok w' => .ok { w' with wkt := { w'.wkt with out := [] }, props := [] }

/-- `feature_end` (csv_writer.rs:57-74) -/
def featureEnd (w : CsvWriter) : Except Err CsvWriter :=
  match w.writeHeader with
  | .error e => .error e
  | .ok w' => w'.writeRow

/-- `property` (csv_writer.rs:93-108) -/
def property (fmt : Fmt) (w : CsvWriter) (i : Nat) (name : Text) (v : ColVal) : Except Err CsvWriter :=
  if w.written then
    match w.headers[i + 1]? with
    | none => .error (.panic "index out of bounds")
    | some h =>
      if name = h then .ok { w with props := w.props ++ [v.display fmt] }
      else .error (.panic "CSV features must all have the same column names")
  else .ok { w with headers := w.headers ++ [name], props := w.props ++ [v.display fmt] }

/-- `FeatureProcessor for CsvWriter` (csv_writer.rs:44-90) and the other two traits; a failing `debug_assert!` is a
panic -/
def step (fmt : Fmt) (w : CsvWriter) : FEv → Except Err CsvWriter
  | .dsBegin _ => if w.headers = [txt "geometry"] then .ok w else .error (.panic "debug_assert")
  | .dsEnd => .ok { w with headers := [txt "geometry"] }
  | .ftBegin _ => if w.props = [] then .ok w else .error (.panic "debug_assert")
  | .ftEnd _ => w.featureEnd
  | .propsBegin => if w.props = [] then .ok w else .error (.panic "debug_assert")
  | .propsEnd => .ok w
  | .geomBegin => if started w.wkt then .error (.panic "debug_assert") else .ok w
  | .geomEnd => .ok w
  | .prop i n v => w.property fmt i n v
  | .geom e =>
    match geomStep fmt.f64 w.wkt e with
    | .error x => .error x
    | .ok k => .ok { w with wkt := k }

/-- the state after a failed call that is not a geometry call: `feature_end` fails when the record is terminated, after its
fields have been written and the geometry has been cleared, but before the properties are (csv_writer.rs:57-74); no other of
these calls returns an error.  (Errors of geometry calls are never dropped by a reader.) -/
def left (w : CsvWriter) : FEv → CsvWriter
  | .ftEnd _ =>
    match w.writeHeader with
    | .error _ => { w with written := true, cur := w.cur ++ w.headers }
    | .ok w' =>
      let w' := (w'.writeField w'.wkt.out).writeFields w'.props
      { w' with wkt := { w'.wkt with out := [] } }
  | _ => w

/-- as a processor: `dimensions` is that of the WKT writer (csv_writer.rs:112-114), `property` answers `false` -/
def proc (fmt : Fmt) : FProc CsvWriter where
  step := step fmt
  left := left
  multi w := w.wkt.dims.multi
  dims w := w.wkt.dims

end CsvWriter

/-- `ProcessToCsv::to_csv` (csv/mod.rs:19-32): process into a writer with two dimensions, which writes what it still has when
it is dropped.  `enc` is the text the external crate `csv` makes of the complete records and the fields of an unfinished one
(always UTF-8, since all fields are). -/
def processToCsv (fmt : Fmt) (enc : List (List Text) → List Text → Text) (src : FProg Unit) (bs : List Byte) :
    Except Err Text :=
  match FProg.interp (CsvWriter.proc fmt) src (CsvWriter.withDims {}) bs with
  | (w, _, .ok _) => .ok (enc w.rows w.cur)
  | (_, _, .error e) => .error e

/-! ### reader -/

/-- the properties of a record: header/value pairs without the geometry column (csv_reader.rs:169-176) -/
def csvPairs (headers record : List Text) (geometryIdx : Nat) : List (Text × Text) :=
  ((headers.zip record).zipIdx.filter fun p => p.2 != geometryIdx).map Prod.fst

/-- `processor.property(output_idx, header, &ColumnValue::String(field))?` (csv_reader.rs:178-181) -/
def csvProperty (i : Nat) (p : Text × Text) : FProg Unit := FProg.call (.prop i p.1 (.string p.2))

/-- `read_wkt(geometry_field, processor)?` (wkt_reader.rs:85-90): parse, then process -/
def csvGeometry (parse : Text → Except Err WktGeom) (field : Text) : FProg Unit :=
  match parse field with
  | .error e => .fail e
  | .ok g => FProg.lift (wktProcessGeom g)

/-- the geometry part of a feature (csv_reader.rs:185-197) -/
def csvGeometryPart (parse : Text → Except Err WktGeom) (record : List Text) (geometryIdx : Nat) : FProg Unit :=
  match record[geometryIdx]? with
  | none => .fail .columnNotFound
  | some field =>
    if field.isEmpty then .ret ()
    else do
      FProg.call .geomBegin
      csvGeometry parse field
      FProg.call .geomEnd

/-- body of the loop over the records (csv_reader.rs:162-200) -/
def csvFeature (parse : Text → Except Err WktGeom) (headers : List Text) (geometryIdx : Nat) (i : Nat)
    (record : Except Err (List Text)) : FProg Unit :=
  match record with
  | .error e => .fail e
  | .ok record => do
    FProg.call (.ftBegin i)
    FProg.call .propsBegin
    FProg.forIdx csvProperty 0 (csvPairs headers record geometryIdx)
    FProg.call .propsEnd
    csvGeometryPart parse record geometryIdx
    FProg.call (.ftEnd i)

/-- `process_csv_features` (csv_reader.rs:149-203) on the headers and records the `csv` crate yields -/
def processCsvFeatures (parse : Text → Except Err WktGeom) (headers : Except Err (List Text))
    (records : List (Except Err (List Text))) (column : Text) : FProg Unit :=
  match headers with
  | .error e => .fail e
  | .ok headers => do
    FProg.call (.dsBegin none)
    match headers.findIdx? (· == column) with
    | none => .fail .columnNotFound
    | some geometryIdx => do
      FProg.forIdx (csvFeature parse headers geometryIdx) 0 records
      FProg.call .dsEnd

/-- `GeozeroDatasource for Csv`, `CsvString` and `CsvReader` (csv_reader.rs:22-30, 56-64, 90-94): features of a text, of which
the external crate `csv` makes headers and records (`dec`) -/
def readCsv (parse : Text → Except Err WktGeom) (dec : Text → Except Err (List Text) × List (Except Err (List Text)))
    (column text : Text) : FProg Unit :=
  processCsvFeatures parse (dec text).1 (dec text).2 column

/-- loop body of `process_csv_geom` (csv_reader.rs:117-140); `i` is the record number, and the collection has been
started iff `i > 0` -/
def csvGeomRecord (parse : Text → Except Err WktGeom) (geometryIdx : Nat) (i : Nat)
    (record : Except Err (List Text)) : Prog Unit :=
  match record with
  | .error e => .fail e
  | .ok record =>
    match record[geometryIdx]? with
    | none => .fail .columnNotFound
    | some field =>
      match parse field with
      | .error e => .fail e
      | .ok g =>
        Prog.bind (if i = 0 then Prog.emitEv (.gbegin .collection true 1 0) else .ret ()) fun _ =>
          wktProcessGeomN i g

/-- `process_csv_geom` (csv_reader.rs:102-147) -/
def processCsvGeom (parse : Text → Except Err WktGeom) (headers : Except Err (List Text))
    (records : List (Except Err (List Text))) (column : Text) : Prog Unit :=
  match headers with
  | .error e => .fail e
  | .ok headers =>
    match headers.findIdx? (· == column) with
    | none => .fail .columnNotFound
    | some geometryIdx =>
      Prog.bind (forIdx (csvGeomRecord parse geometryIdx) 0 records) fun _ =>
        Prog.bind (if records = [] then Prog.emitEv (.gbegin .collection true 0 0) else .ret ()) fun _ =>
          Prog.emitEv (.gend .collection true 0)

end Geozero
