import Verif.Spec.Output
import Verif.Model.Cli
import Verif.Model.WkbWriter
import Verif.Model.Csv

/-
The writers on outputs that may fail.  The other modules model every writer on an output that never fails (`Vec<u8>`);
here each method is the list of things it does in order: `write_all(..)?`, an update of a field, `return Err(..)`.  Every
`write!`/`writeln!` counts as one piece (std makes several `write_all` calls of it, with the same `?`).
-/

namespace Geozero
open Spec

/-- one thing a method of a writer does
(the statements of the writers, e.g. wkt_writer.rs:49-132, geojson_writer.rs, svg/writer.rs) -/
inductive Act (γ σ : Type)
  /-- `self.out.write_all(piece)?` -/
  | put (piece : γ)
  /-- `let _ = self.out.write_all(piece);`: an error is dropped -/
  | putDrop (piece : γ)
  /-- assign to fields of `self` -/
  | upd (f : σ → σ)
  /-- `return Err(e)`, or a panic -/
  | fail (e : Err)

/-- A writer: what its methods do; `put` records a piece written in the field standing for the output, `enc` are the bytes
of a piece.  The remaining fields are those of `FProc`.
(the writers, e.g. wkt_writer.rs:49-132, geojson_writer.rs, svg/writer.rs) -/
structure Out (γ σ : Type) where
  acts : σ → FEv → List (Act γ σ)
  put : σ → γ → σ
  enc : γ → List Byte
  abort : σ → FEv → Bool := fun _ _ => false
  multi : σ → Bool := fun _ => false
  dims : σ → Dims := fun _ => {}

namespace Out

/-- the state after a method, the output, and the result
(no counterpart; see wkt_writer.rs:49-132, geojson_writer.rs, svg/writer.rs) -/
structure Res (σ δ : Type) where
  state : σ
  out : δ
  result : Except Err Unit

/-- perform what a method does, on the output `O` (e.g. wkt_writer.rs:49-132, geojson_writer.rs, svg/writer.rs) -/
def doActs {γ σ δ : Type} (o : Out γ σ) (O : Output δ) : List (Act γ σ) → σ → δ → Res σ δ
  | [], s, d => ⟨s, d, .ok ()⟩
  | .put p :: as, s, d =>
    if o.enc p = [] then doActs o O as (o.put s p) d
    else
      match O.write d (o.enc p) with
      | (d', none) => doActs o O as (o.put s p) d'
      | (d', some _) => ⟨s, d', .error .io⟩
  | .putDrop p :: as, s, d =>
    if o.enc p = [] then doActs o O as (o.put s p) d
    else
      match O.write d (o.enc p) with
      | (d', none) => doActs o O as (o.put s p) d'
      | (d', some _) => doActs o O as s d'
  | .upd f :: as, s, d => doActs o O as (f s) d
  | .fail e :: _, s, d => ⟨s, d, .error e⟩

/-- a source driving the writer on the output `O` (cf. `FProg.interp`): the output, and the outcome with the state of the
writer (e.g. wkt_reader.rs:92, geojson_reader.rs:57-62 into wkt_writer.rs, geojson_writer.rs) -/
def exec {γ σ δ α : Type} (o : Out γ σ) (O : Output δ) :
    FProg α → σ → δ → List Byte → δ × Except Err (σ × α × List Byte)
  | .ret a, s, d, bs => (d, .ok (s, a, bs))
  | .fail e, _, d, _ => (d, .error e)
  | .read _, _, d, [] => (d, .error .io)
  | .read k, s, d, b :: bs => exec o O (k b) s d bs
  | .emit e k, s, d, bs =>
    match o.doActs O (o.acts s e) s d with
    | ⟨_, d', .error x⟩ => (d', .error x)
    | ⟨s', d', .ok ()⟩ => exec o O k s' d' bs
  | .emitOk e k, s, d, bs =>
    match o.doActs O (o.acts s e) s d with
    | ⟨s', d', .error x⟩ => if x.isPanic then (d', .error x) else exec o O k s' d' bs
    | ⟨s', d', .ok ()⟩ => exec o O k s' d' bs
  | .prop i n v k, s, d, bs =>
    match o.doActs O (o.acts s (.prop i n v)) s d with
    | ⟨_, d', .error x⟩ => (d', .error x)
    | ⟨s', d', .ok ()⟩ => exec o O (k (o.abort s (.prop i n v))) s' d' bs
  | .ask k, s, d, bs => exec o O (k (o.multi s) (o.dims s)) s d bs

/-- a source driving the writer on the output `O`: the output, and the outcome (cf. `FProg.interp`)
(e.g. wkt_reader.rs:92, geojson_reader.rs:57-62 into wkt_writer.rs, geojson_writer.rs) -/
def convert {γ σ α : Type} (o : Out γ σ) (src : FProg α) (s : σ) (bs : List Byte) {δ : Type} (O : Output δ) (d : δ) :
    δ × Except Err (α × List Byte) :=
  ((o.exec O src s d bs).1, (o.exec O src s d bs).2.map Prod.snd)

end Out

/-- the UTF-8 bytes of a text (`as_bytes()`, e.g. wkt_writer.rs:49-132) -/
def utf8Bytes (t : Text) : List Byte := t.flatMap String.utf8EncodeChar

/-! ### wkt_writer.rs -/

namespace WktWriter

/-- `header` (wkt_writer.rs:44-53) -/
def headerActs (w : WktWriter) : List (Act Text WktWriter) :=
  if w.firstHeader && w.dialect == .ewkt then
    .upd (fun w => { w with firstHeader := false }) ::
      match w.srid with
      | none => []
      | some v => if v = 0 then [] else [.put (txt "SRID=" ++ (toString v).toList ++ txt ";")]
  else []

/-- `comma` (wkt_writer.rs:54-59) -/
def commaActs (idx : Nat) : List (Act Text WktWriter) := if idx > 0 then [.put (txt ",")] else []

/-- `geom_begin` (wkt_writer.rs:60-76) -/
def geomBeginActs (w : WktWriter) (tag : Text) (tagged : Bool) (size idx : Nat) : List (Act Text WktWriter) :=
  w.headerActs ++ commaActs idx ++ (if tagged then [.put tag] else []) ++
    [.upd fun w => { w with sizes := size :: w.sizes }] ++
    if size = 0 then (if tagged then [.put (txt " ")] else []) ++ [.put (txt "EMPTY")] else [.put (txt "(")]

/-- `geom_end` (wkt_writer.rs:77-86), when the stack of sizes is `sizes` -/
def geomEndActs : (sizes : List Nat) → List (Act Text WktWriter)
  | n :: ns => .upd (fun w => { w with sizes := ns }) :: if n > 0 then [.put (txt ")")] else []
  | [] => [.fail (.panic "ended geometry that didn't start")]

/-- `if let Some(z) = z { self.out.write_all(..)? }` (wkt_writer.rs:128-133) -/
def optActs (num : F64 → Text) : Option F64 → List (Act Text WktWriter)
  | some v => [.put (txt " " ++ num v)]
  | none => []

/-- `GeomProcessor for WktWriter` (wkt_writer.rs:89-232) -/
def geomActs (num : F64 → Text) (w : WktWriter) : Ev → List (Act Text WktWriter)
  | .srid s => [.upd fun w => { w with srid := w.srid.or s }]
  | .xy x y idx =>
    commaActs idx ++ [.put (if x.isNaN && y.isNaN then txt "EMPTY" else num x ++ txt " " ++ num y)]
  | .coord x y z m _ _ idx =>
    commaActs idx ++
      if x.isNaN && y.isNaN && (z.map F64.isNaN).getD true && (m.map F64.isNaN).getD true then [.put (txt "EMPTY")]
      else .put (num x ++ txt " " ++ num y) :: optActs num z ++ optActs num m
  | .emptyPoint idx => w.geomBeginActs (txt "POINT") true 0 idx ++ geomEndActs (0 :: w.sizes)
  | .gbegin k tagged size idx =>
    match k with
    | .point => w.geomBeginActs (tag k) true 1 idx
    | .lineString | .polygon | .triangle => w.geomBeginActs (tag k) tagged size idx
    | k => w.geomBeginActs (tag k) true size idx
  | .gend _ _ _ => geomEndActs w.sizes

/-- all methods; those of `FeatureProcessor` and `PropertyProcessor` are the defaults (wkt_writer.rs:234-236) -/
def output (num : F64 → Text) : Out Text WktWriter where
  acts w
    | .geom e => w.geomActs num e
    | _ => []
  put := put
  enc := utf8Bytes
  abort _ _ := true
  multi w := w.dims.multi
  dims w := w.dims

end WktWriter

/-! ### geojson_writer.rs -/

namespace GeoJsonWriter

/-- `comma` (geojson_writer.rs:23-28) -/
def commaActs {σ : Type} (idx : Nat) : List (Act Text σ) := if idx > 0 then [.put (txt ",")] else []

/-- `if let Some(z) = z { self.out.write_all(..)? }` (geojson_writer.rs:99-101) -/
def optActs {σ : Type} (num : F64 → Text) : Option F64 → List (Act Text σ)
  | some z => [.put (txt "," ++ num z)]
  | none => []

/-- `GeomProcessor for GeoJsonWriter` (geojson_writer.rs:78-197).  No method changes a field, so the state is left open. -/
def geomActs {σ : Type} (num : F64 → Text) : Ev → List (Act Text σ)
  | .srid _ => []
  | .xy x y idx => commaActs idx ++ [.put (txt "[" ++ num x ++ txt "," ++ num y ++ txt "]")]
  | .coord x y z _ _ _ idx =>
    commaActs idx ++ [.put (txt "[" ++ num x ++ txt "," ++ num y)] ++ optActs num z ++ [.put (txt "]")]
  | .emptyPoint idx => commaActs idx ++ [.put (txt "{\"type\": \"Point\", \"coordinates\": []}")]
  | .gbegin k tagged _ idx =>
    match beginText k tagged with
    | none => []
    | some t => commaActs idx ++ [.put t]
  | .gend k tagged _ =>
    match endText k tagged with
    | none => []
    | some t => [.put t]

/-- the three traits (geojson_writer.rs:31-243) -/
def acts {σ : Type} (fmt : Fmt) : FEv → List (Act Text σ)
  | .dsBegin name =>
    [.put (txt "{\n\"type\": \"FeatureCollection\"")] ++
      (match name with
        | none => []
        | some name => [.put (txt ",\n\"name\": \"" ++ name ++ txt "\"")]) ++
      [.put (txt ",\n\"features\": [")]
  | .dsEnd => [.put (txt "]}")]
  | .ftBegin idx => (if idx > 0 then [.put (txt ",\n")] else []) ++ [.put (txt "{\"type\": \"Feature\"")]
  | .ftEnd _ => [.put (txt "}")]
  | .propsBegin => [.put (txt ", \"properties\": {")]
  | .propsEnd => [.put (txt "}")]
  | .geomBegin => [.put (txt ", \"geometry\": ")]
  | .geomEnd => []
  | .prop i name v => (if i > 0 then [.put (txt ", ")] else []) ++ [.put (propText fmt name v)]
  | .geom e => geomActs fmt.f64 e

/-- the writer (`GeoJsonWriter`, geojson_writer.rs) -/
def output (fmt : Fmt) : Out Text GeoJsonWriter where
  acts _ := acts fmt
  put := put
  enc := utf8Bytes
  multi w := w.dims.multi
  dims w := w.dims

end GeoJsonWriter

/-! ### geojson_line_writer.rs -/

namespace GeoJsonLineWriter

/-- `begin_context` (geojson_line_writer.rs:37-39) -/
def beginActs : List (Act Text GeoJsonLineWriter) := [.upd beginContext]

/-- `end_context` (geojson_line_writer.rs:41-47), when `contexts` are open -/
def endActs (contexts : Nat) : List (Act Text GeoJsonLineWriter) :=
  if contexts = 0 then [.fail (.panic "attempt to subtract with overflow")]
  else .upd (fun w => { w with contexts := w.contexts - 1 }) :: if contexts = 1 then [.put (txt "\n")] else []

/-- `if self.open_contexts > 0 && idx > 0 { self.comma()?; }` (geojson_line_writer.rs:116-118 and others) -/
def commaActs (contexts idx : Nat) : List (Act Text GeoJsonLineWriter) :=
  if contexts > 0 ∧ idx > 0 then [.put (txt ",")] else []

/-- `GeomProcessor for GeoJsonLineWriter` (geojson_line_writer.rs:86-230) -/
def geomActs (num : F64 → Text) (w : GeoJsonLineWriter) : Ev → List (Act Text GeoJsonLineWriter)
  | .srid _ => []
  | .xy x y idx => GeoJsonWriter.geomActs num (.xy x y idx)
  | .coord x y z m t tm idx => GeoJsonWriter.geomActs num (.coord x y z m t tm idx)
  | .emptyPoint idx =>
    commaActs w.contexts idx ++ beginActs ++ GeoJsonWriter.geomActs num (.emptyPoint 0) ++ endActs (w.contexts + 1)
  | .gbegin k tagged size idx =>
    if (GeoJsonWriter.beginText k tagged).isSome then
      commaActs w.contexts idx ++ beginActs ++ GeoJsonWriter.geomActs num (.gbegin k tagged size 0)
    else []
  | .gend k tagged idx =>
    if (GeoJsonWriter.beginText k tagged).isSome then
      GeoJsonWriter.geomActs num (.gend k tagged idx) ++ endActs w.contexts
    else []

/-- `FeatureProcessor` and `PropertyProcessor for GeoJsonLineWriter` (geojson_line_writer.rs:56-84, 232-236);
`dataset_begin` and `dataset_end` are the defaults -/
def acts (fmt : Fmt) (w : GeoJsonLineWriter) : FEv → List (Act Text GeoJsonLineWriter)
  | .dsBegin _ => []
  | .dsEnd => []
  | .ftBegin _ => beginActs ++ GeoJsonWriter.acts fmt (.ftBegin 0)
  | .ftEnd idx => GeoJsonWriter.acts fmt (.ftEnd idx) ++ endActs w.contexts
  | .geom e => geomActs fmt.f64 w e
  | e => GeoJsonWriter.acts fmt e

/-- the writer (`GeoJsonLineWriter`, geojson_line_writer.rs) -/
def output (fmt : Fmt) : Out Text GeoJsonLineWriter where
  acts := acts fmt
  put w t := { w with inner := w.inner.put t }
  enc := utf8Bytes
  multi w := w.inner.dims.multi
  dims w := w.inner.dims

end GeoJsonLineWriter

/-! ### svg/writer.rs -/

namespace SvgWriter

/-- `dataset_begin` (svg/writer.rs:47-77) -/
def datasetBeginActs (fo : SvgNum) (w : SvgWriter) (name : Option Text) : List (Act Text SvgWriter) :=
  [.put (txt "<?xml version=\"1.0\"?>\n<svg xmlns=\"http://www.w3.org/2000/svg\" version=\"1.2\" baseProfile=\"tiny\" ")] ++
  (match w.size with
    | some (width, height) =>
      [.put (txt "width=\"" ++ natText width.toNat ++ txt "\" height=\"" ++ natText height.toNat ++ txt "\" ")]
    | none => []) ++
  (match w.viewBox with
    | some (xmin, ymin, xmax, ymax) =>
      [.put (txt "viewBox=\"" ++ fo.num xmin ++ txt " " ++ fo.num ymin ++ txt " " ++ fo.num (fo.sub xmax xmin) ++
        txt " " ++ fo.num (fo.sub ymax ymin) ++ txt "\" ")]
    | none => []) ++
  [.put (txt "stroke-linecap=\"round\" stroke-linejoin=\"round\">\n")] ++
  (match w.style with
    | some style => [.put (txt "<style>" ++ style ++ txt "</style>\n")]
    | none => []) ++
  [.put (txt "<g id=\"")] ++
  (match name with
    | some name => [.put name]
    | none => []) ++
  [.put (txt "\">")]

/-- the `GeomProcessor` methods (svg/writer.rs:94-141), cf. `geomStep` -/
def geomActs (fo : SvgNum) (w : SvgWriter) : Ev → List (Act Text SvgWriter)
  | .xy x y _ => [.put (fo.num x ++ txt " " ++ fo.num (if w.invertY then y.negate else y) ++ txt " ")]
  | .emptyPoint _ =>
    [.fail (.geometry "The input was an empty Point, but the output doesn't support empty Points")]
  | .gbegin .point _ _ _ => [.put (txt "<path d=\"M ")]
  | .gend .point _ _ => [.put (txt "Z\"/>")]
  | .gbegin .lineString tagged _ _ => [.put (if tagged then txt "<path d=\"" else txt "M ")]
  | .gend .lineString tagged _ => [.put (if tagged then txt "\"/>" else txt "Z ")]
  | .gbegin .multiLineString _ _ _ => [.put (txt "<path d=\"")]
  | .gend .multiLineString _ _ => [.put (txt "\"/>")]
  | .gbegin .polygon _ _ _ => [.put (txt "<path d=\"")]
  | .gend .polygon _ _ => [.put (txt "\"/>")]
  | _ => []

/-- the `FeatureProcessor` methods (svg/writer.rs:46-92) -/
def acts (fo : SvgNum) (w : SvgWriter) : FEv → List (Act Text SvgWriter)
  | .dsBegin name => w.datasetBeginActs fo name
  | .dsEnd => [.put (txt "\n</g>\n</svg>")]
  | .ftBegin _ => [.put (txt "\n")]
  | .geom e => w.geomActs fo e
  | _ => []

/-- the writer (`SvgWriter`, svg/writer.rs) -/
def output (fo : SvgNum) : Out Text SvgWriter where
  acts := acts fo
  put := put
  enc := utf8Bytes
  abort _ _ := true

end SvgWriter

/-! ### wkb_writer.rs -/

namespace WkbWriter

/-- `write_wkb_header` (wkb_writer.rs:125-137) -/
def wkbHeaderActs (w : WkbWriter) (t : WkbType) : List (Act (List Byte) WkbWriter) :=
  [.put [byteOrder w.endian], .put (encU32 w.endian (ogcTypeId w.dims t))]

/-- `write_ewkb_header` (wkb_writer.rs:140-165) -/
def ewkbHeaderActs (w : WkbWriter) (t : WkbType) : List (Act (List Byte) WkbWriter) :=
  [.put [byteOrder w.endian], .put (encU32 w.endian (ewkbTypeId w.dims (w.srid.isSome && w.firstHeader) t))] ++
    if w.firstHeader then
      (match w.srid with
        | some s => [.put (encI32 w.endian s)]
        | none => []) ++ [.upd fun w => { w with firstHeader := false }]
    else []

/-- `write_gpkg_header` (wkb_writer.rs:168-208) -/
def gpkgHeaderActs (w : WkbWriter) : List (Act (List Byte) WkbWriter) :=
  [.put [0x47, 0x50], .put [0], .put [UInt8.ofNat w.gpkgFlags], .put (encI32 w.endian (w.srid.getD 0))] ++
    w.envelope.map fun v => .put (encF64 w.endian v)

/-- `write_spatialite_header` (wkb_writer.rs:211-243); see `writeSpatialiteHeader` -/
def spatialiteHeaderActs (w : WkbWriter) (t : WkbType) : List (Act (List Byte) WkbWriter) :=
  (if w.firstHeader then
    [.put [0], .put [byteOrder w.endian], .put (encI32 .le (w.srid.getD 0))] ++
      (if w.envelope.isEmpty then [F64.zero, F64.zero, F64.zero, F64.zero] else w.envelope).map
        (fun v => .put (encF64 w.endian v)) ++
      [.put [0x7C], .upd fun w => { w with firstHeader := false }]
  else [.put [0x69]]) ++ [.put (encU32 w.endian (ogcTypeId w.dims t))]

/-- `write_mysql_header` (wkb_writer.rs:246-253) -/
def mysqlHeaderActs (w : WkbWriter) : List (Act (List Byte) WkbWriter) :=
  match w.srid with
  | none => [.put (encU32 w.endian 0)]
  | some v => if 0 ≤ v then [.put (encU32 w.endian v.toNat)] else [.fail (.srid v)]

/-- `write_header` (wkb_writer.rs:102-122) -/
def headerActs (w : WkbWriter) (t : WkbType) : List (Act (List Byte) WkbWriter) :=
  match w.dialect with
  | .wkb => w.wkbHeaderActs t
  | .ewkb => w.ewkbHeaderActs t
  | .geopackage =>
    (if w.firstHeader then w.gpkgHeaderActs ++ [.upd fun w => { w with firstHeader := false }] else []) ++
      w.wkbHeaderActs t
  | .mySQL =>
    (if w.firstHeader then w.mysqlHeaderActs ++ [.upd fun w => { w with firstHeader := false }] else []) ++
      w.wkbHeaderActs t
  | .spatiaLite => w.spatialiteHeaderActs t

/-- `write_footer` (wkb_writer.rs:256-266), at the given nesting level -/
def footerActs (w : WkbWriter) (level : Nat) : List (Act (List Byte) WkbWriter) :=
  if w.dialect = .spatiaLite ∧ level = 0 then [.put [0xFE]] else []

/-- `coordinate` (wkb_writer.rs:276-300) -/
def coordActs (w : WkbWriter) (x y : F64) (z m : Option F64) : List (Act (List Byte) WkbWriter) :=
  (if w.geomState = .multiPointGeom then w.headerActs .point else []) ++
    [.put (encF64 w.endian x), .put (encF64 w.endian y)] ++
    (if w.dims.z then [.put (encF64 w.endian (z.getD F64.zero))] else []) ++
    (if w.dims.m then [.put (encF64 w.endian (m.getD F64.zero))] else [])

/-- header, then the count (wkb_writer.rs:310-433) -/
def sizedActs (w : WkbWriter) (t : WkbType) (size : Nat) : List (Act (List Byte) WkbWriter) :=
  w.headerActs t ++ [.put (encU32 w.endian size)]

/-- `self.nesting_level += 1` (wkb_writer.rs:308, 330, 350, 360, 394) -/
def nestActs : List (Act (List Byte) WkbWriter) := [.upd fun w => { w with nestingLevel := w.nestingLevel + 1 }]

/-- the `*_begin` methods (wkb_writer.rs:301-435) -/
def beginActs (w : WkbWriter) (k : GKind) (size : Nat) : List (Act (List Byte) WkbWriter) :=
  match k with
  | .point => w.headerActs .point
  | .multiPoint =>
    nestActs ++ w.sizedActs .multiPoint size ++ [.upd fun w => { w with geomState := .multiPointGeom }]
  | .lineString => (if w.geomState ≠ .ringGeom then w.headerActs .lineString else []) ++ [.put (encU32 w.endian size)]
  | .polygon => w.sizedActs .polygon size ++ [.upd fun w => { w with geomState := .ringGeom }]
  | .triangle => w.sizedActs .triangle size ++ [.upd fun w => { w with geomState := .ringGeom }]
  | k => (if nests k then nestActs else []) ++ w.sizedActs (kindType k) size

/-- `self.nesting_level -= 1`, then what follows at the new level (wkb_writer.rs:315, 336, 356, 366, 400) -/
def unnestActs (w : WkbWriter) (f : Nat → List (Act (List Byte) WkbWriter)) : List (Act (List Byte) WkbWriter) :=
  match w.nestingLevel with
  | 0 => [.fail (.panic "attempt to subtract with overflow")]
  | n + 1 => .upd (fun w => { w with nestingLevel := n }) :: f n

/-- the `*_end` methods (wkb_writer.rs:304-438) -/
def endActs (w : WkbWriter) (k : GKind) : List (Act (List Byte) WkbWriter) :=
  match k with
  | .multiPoint => w.unnestActs fun n => .upd (fun w => { w with geomState := .normal }) :: w.footerActs n
  | .polygon => .upd (fun w => { w with geomState := .normal }) :: w.footerActs w.nestingLevel
  | .triangle => .upd (fun w => { w with geomState := .normal }) :: w.footerActs w.nestingLevel
  | k => if nests k then w.unnestActs w.footerActs else w.footerActs w.nestingLevel

/-- `GeomProcessor for WkbWriter` (wkb_writer.rs:269-439), cf. `step` -/
def geomActs (w : WkbWriter) : Ev → List (Act (List Byte) WkbWriter)
  | .srid _ => []
  | .xy x y _ => w.coordActs x y none none
  | .coord x y z m _ _ _ => w.coordActs x y z m
  | .emptyPoint _ =>
    [.fail (.geometry "The input was an empty Point, but the output doesn't support empty Points")]
  | .gbegin k _ size _ => w.beginActs k size
  | .gend k _ _ => w.endActs k

/-- the writer (it is a processor of geometries only) (`WkbWriter`, wkb_writer.rs) -/
def output : Out (List Byte) WkbWriter where
  acts w
    | .geom e => w.geomActs e
    | _ => []
  put := put
  enc := id
  multi w := w.readDims.multi
  dims w := w.readDims

end WkbWriter

/-! ### buffers in front of an output -/

/-- `BufWriter::flush_buf` (std): write the buffer; of a write that fails, what was taken is removed from the buffer.  The
output, the buffer, and whether it succeeded. (the `BufWriter` of geozero-cli/src/main.rs:154) -/
def flushBuf {δ : Type} (O : Output δ) (d : δ) (buf : List Byte) : δ × List Byte × Bool :=
  if buf = [] then (d, [], true)
  else
    match O.write d buf with
    | (d', none) => (d', [], true)
    | (d', some k) => (d', buf.drop k, false)

/-- `BufWriter::with_capacity(cap, out)` (std): `write_all` appends to the buffer if there is more than enough room;
otherwise it writes the buffer if there is not enough, and then writes pieces of at least `cap` bytes directly
(the `BufWriter` of geozero-cli/src/main.rs:154) -/
def buffered {δ : Type} (cap : Nat) (O : Output δ) : Output (δ × List Byte) where
  write st p :=
    if st.2.length + p.length < cap then ((st.1, st.2 ++ p), none)
    else
      match (if st.2.length + p.length > cap then flushBuf O st.1 st.2 else (st.1, st.2, true)) with
      | (d, buf, false) => ((d, buf), some 0)
      | (d, buf, true) =>
        if cap ≤ p.length then (((O.write d p).1, buf), (O.write d p).2) else ((d, buf ++ p), none)

/-- `Drop for BufWriter` (std): `let _r = self.flush_buf();` (the `BufWriter` of geozero-cli/src/main.rs:154) -/
def dropBuffered {δ : Type} (O : Output δ) (st : δ × List Byte) : δ := (flushBuf O st.1 st.2).1

/-- a conversion through a `BufWriter` of the default capacity that is dropped at the end of the function, as in `process`
(geozero-cli/src/main.rs:154-177: `let mut fout = BufWriter::new(File::create(&args.dest)?)`, no `flush`) -/
def throughBuffer {β : Type} (conv : {δ : Type} → Output δ → δ → δ × Except Err β) {δ : Type} (O : Output δ) (d : δ) :
    δ × Except Err β :=
  (dropBuffered O (conv (buffered 8192 O) (d, [])).1, (conv (buffered 8192 O) (d, [])).2)

/-- The buffer of the external `csv::Writer`: given what is in the buffer and more bytes, the chunks it writes to the output
meanwhile and what stays in the buffer.  Where exactly it cuts is left open; it writes nothing while everything fits.
(csv_writer.rs:8, 22) -/
structure CsvBuf where
  fill : List Byte → List Byte → List (List Byte) × List Byte
  exact : ∀ b p, (fill b p).1.flatten ++ (fill b p).2 = b ++ p
  small : ∀ b p, b.length + p.length ≤ 8192 → fill b p = ([], b ++ p)

/-- write chunks until one fails: the output, and the chunk that failed (csv_writer.rs:8, 22, external) -/
def sendChunks {δ : Type} (O : Output δ) (d : δ) : List (List Byte) → δ × Option (List Byte)
  | [] => (d, none)
  | c :: cs =>
    if c = [] then sendChunks O d cs
    else
      match O.write d c with
      | (d', none) => sendChunks O d' cs
      | (d', some _) => (d', some c)

/-- `csv::Writer` in front of an output: a chunk that fails stays in the buffer (all of it)
(csv_writer.rs:8, 22, external) -/
def csvBuffered {δ : Type} (B : CsvBuf) (O : Output δ) : Output (δ × List Byte) where
  write st p :=
    match sendChunks O st.1 (B.fill st.2 p).1 with
    | (d, none) => ((d, (B.fill st.2 p).2), none)
    | (d, some c) => ((d, c), some 0)

/-- `Drop for csv::Writer`: `let _ = self.flush();` (csv_writer.rs:8, 22, external) -/
def dropCsv {δ : Type} (O : Output δ) (st : δ × List Byte) : δ := (sendChunks O st.1 [st.2]).1

/-! ### csv_writer.rs -/

/-- the bytes the external crate `csv` makes of a field, after those of the same record before it (delimiter, quotes), and
of the end of a record (csv_writer.rs:61-71) -/
structure CsvEnc where
  field : (before : List Text) → Text → List Byte
  stop : (fields : List Text) → List Byte

/-- the bytes of fields, after those of the same record before them (csv_writer.rs:61-71) -/
def CsvEnc.fields (enc : CsvEnc) : (before : List Text) → List Text → List Byte
  | _, [] => []
  | before, f :: fs => enc.field before f ++ enc.fields (before ++ [f]) fs

/-- the bytes of records and of the fields of an unfinished one (csv_writer.rs:61-71) -/
def CsvEnc.text (enc : CsvEnc) (rows : List (List Text)) (cur : List Text) : List Byte :=
  rows.flatMap (fun r => enc.fields [] r ++ enc.stop r) ++ enc.fields [] cur

namespace CsvWriter

/-- `CsvWriter` and the bytes handed to the buffer of `csv::Writer` (csv_writer.rs:8) -/
abbrev Sent := CsvWriter × List Byte

/-- `self.csv.write_field(field)?` for each of `fields` (csv_writer.rs:60, 64, 68) -/
def fieldActs (enc : CsvEnc) : (before : List Text) → List Text → List (Act (List Byte) Sent)
  | _, [] => []
  | before, f :: fs => .put (enc.field before f) :: fieldActs enc (before ++ [f]) fs

/-- the fields of a record and its end (`write_record`), from the state `w` (csv_writer.rs:61-71) -/
def recordActs (enc : CsvEnc) (w : CsvWriter) (fs : List Text) : List (Act (List Byte) Sent) :=
  fieldActs enc w.cur fs ++
    match (w.writeFields fs).terminate with
    | .error e => [.fail e]
    | .ok w' => [.put (enc.stop (w.cur ++ fs)), .upd fun s => (w', s.2)]

/-- `feature_end` (csv_writer.rs:57-74); the fields that are cleared meanwhile are cleared at the end -/
def featureEndActs (enc : CsvEnc) (w : CsvWriter) : List (Act (List Byte) Sent) :=
  (if w.written then [] else { w with written := true }.recordActs enc w.headers) ++
    match w.writeHeader with
    | .error _ => []
    | .ok w' =>
      w'.recordActs enc (w'.wkt.out :: w'.props) ++
        [.upd fun s => ({ s.1 with wkt := { s.1.wkt with out := [] }, props := [] }, s.2)]

/-- all methods; only `feature_end` writes (csv_writer.rs:44-243) -/
def acts (fmt : Fmt) (enc : CsvEnc) (s : Sent) : FEv → List (Act (List Byte) Sent)
  | .ftEnd _ => s.1.featureEndActs enc
  | e =>
    match s.1.step fmt e with
    | .ok w' => [.upd fun s => (w', s.2)]
    | .error x => [.fail x]

/-- the writer (`CsvWriter`, csv_writer.rs) -/
def output (fmt : Fmt) (enc : CsvEnc) : Out (List Byte) Sent where
  acts := acts fmt enc
  put s p := (s.1, s.2 ++ p)
  enc := id
  multi s := s.1.wkt.dims.multi
  dims s := s.1.wkt.dims

/-- `CsvWriter::new(out)` driven by a source and dropped (cf. `processToCsv`) (csv_writer.rs:22) -/
def convert {α : Type} (fmt : Fmt) (enc : CsvEnc) (B : CsvBuf) (dims : Dims) (src : FProg α) (bs : List Byte) {δ : Type}
    (O : Output δ) (d : δ) : δ × Except Err (α × List Byte) :=
  (dropCsv O ((output fmt enc).convert src (withDims dims, []) bs (csvBuffered B O) (d, [])).1,
    ((output fmt enc).convert src (withDims dims, []) bs (csvBuffered B O) (d, [])).2)

end CsvWriter

end Geozero
