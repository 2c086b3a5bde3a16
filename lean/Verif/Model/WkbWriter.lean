import Verif.Model.WkbTypes
import Verif.Model.Prog

/-
Models /repo/geozero/src/wkb/wkb_writer.rs.  The output sink is a `Vec<u8>` (writes never fail);
only `out` grows, everything else is the writer's own state.
-/

namespace Geozero

/-- `GeomState` (wkb_writer.rs:32-37) -/
inductive GeomState
  | normal | ringGeom | multiPointGeom
deriving DecidableEq, Repr

/-- `WkbWriter` (wkb_writer.rs:10-30) -/
structure WkbWriter where
  dims : Dims
  readDims : Dims
  srid : Option Int
  envelope : List F64
  envelopeDims : Dims
  extendedGpkg : Bool
  empty : Bool
  endian : Endian
  dialect : WkbDialect
  firstHeader : Bool
  geomState : GeomState
  /-- `nesting_level: u32`; decrementing at 0 is a panic (debug builds), see `nestDec` -/
  nestingLevel : Nat
  out : List Byte
deriving DecidableEq, Repr

namespace WkbWriter

/-- `WkbWriter::with_extended_opts` (wkb_writer.rs:73-99) on an empty output -/
def withExtendedOpts (dialect : WkbDialect) (dims readDims : Dims) (srid : Option Int)
    (envelope : List F64) (envelopeDims : Dims) (extendedGpkg empty : Bool) : WkbWriter :=
  { dims, readDims, srid, envelope, envelopeDims, extendedGpkg, empty, endian := .le, dialect
    firstHeader := true, geomState := .normal, nestingLevel := 0, out := [] }

/-- `WkbWriter::with_opts` (wkb_writer.rs:46-68) -/
def withOpts (dialect : WkbDialect) (dims : Dims) (srid : Option Int) (envelope : List F64) :
    WkbWriter :=
  withExtendedOpts dialect dims dims srid envelope {} false false

/-- `WkbWriter::new` (wkb_writer.rs:40-44) -/
def new (dialect : WkbDialect) : WkbWriter := withOpts dialect {} none []

/-- append bytes to the output (wkb_writer.rs:135-251, 289-433) -/
def put (w : WkbWriter) (bs : List Byte) : WkbWriter := { w with out := w.out ++ bs }

/-- `WKBByteOrder::from(endian) as u8` (wkb_common.rs:200-212) -/
def byteOrder : Endian → Byte
  | .be => 0
  | .le => 1

/-- type code with OGC dimension offset (wkb_writer.rs:128-134) -/
def ogcTypeId (dims : Dims) (t : WkbType) : Nat :=
  t.toU32 + (if dims.z then 1000 else 0) + (if dims.m then 2000 else 0)

/-- `write_wkb_header` (wkb_writer.rs:125-137) -/
def writeWkbHeader (w : WkbWriter) (t : WkbType) : WkbWriter :=
  w.put (byteOrder w.endian :: encU32 w.endian (ogcTypeId w.dims t))

/-- EWKB type code (wkb_writer.rs:144-153); the flags are distinct bits above every type code, so
`|=` is `+` -/
def ewkbTypeId (dims : Dims) (withSrid : Bool) (t : WkbType) : Nat :=
  t.toU32 + (if dims.z then 0x80000000 else 0) + (if dims.m then 0x40000000 else 0)
    + (if withSrid then 0x20000000 else 0)

/-- `write_ewkb_header` (wkb_writer.rs:140-165) -/
def writeEwkbHeader (w : WkbWriter) (t : WkbType) : WkbWriter :=
  let w1 := w.put (byteOrder w.endian ::
    encU32 w.endian (ewkbTypeId w.dims (w.srid.isSome && w.firstHeader) t))
  if w1.firstHeader then
    let w2 := match w1.srid with
      | some s => w1.put (encI32 w1.endian s)
      | none => w1
    { w2 with firstHeader := false }
  else w1

/-- GeoPackage flags byte (wkb_writer.rs:174-194) -/
def gpkgFlags (w : WkbWriter) : Nat :=
  let envInfo := if w.envelope.isEmpty then 0 else
    match w.envelopeDims.z, w.envelopeDims.m with
    | false, false => 1
    | true, false => 2
    | false, true => 3
    | true, true => 4
  (if w.extendedGpkg then 32 else 0) + (if w.empty then 16 else 0) + 2 * envInfo
    + (if w.endian = .le then 1 else 0)

/-- `write_gpkg_header` (wkb_writer.rs:168-208) -/
def writeGpkgHeader (w : WkbWriter) : WkbWriter :=
  w.put ([0x47, 0x50, 0, UInt8.ofNat w.gpkgFlags] ++ encI32 w.endian (w.srid.getD 0)
    ++ w.envelope.flatMap (encF64 w.endian))

/-- `write_spatialite_header` (wkb_writer.rs:211-243).  `iowrite(srid)` without a byte order uses the
native order of the machine (wkb_writer.rs:216); the model fixes little endian, which is also the
writer's `endian`.  The `first_header` test at wkb_writer.rs:237 is always false there (it was reset
at 225, or was already false), so that branch is dead and omitted. -/
def writeSpatialiteHeader (w : WkbWriter) (t : WkbType) : WkbWriter :=
  let w1 :=
    if w.firstHeader then
      let env := if w.envelope.isEmpty then [F64.zero, F64.zero, F64.zero, F64.zero] else w.envelope
      { w.put ([0, byteOrder w.endian] ++ encI32 .le (w.srid.getD 0)
          ++ env.flatMap (encF64 w.endian) ++ [0x7C]) with firstHeader := false }
    else w.put [0x69]
  w1.put (encU32 w1.endian (ogcTypeId w1.dims t))

/-- `write_mysql_header` (wkb_writer.rs:246-253) -/
def writeMysqlHeader (w : WkbWriter) : Except Err WkbWriter :=
  match w.srid with
  | none => .ok (w.put (encU32 w.endian 0))
  | some v => if 0 ≤ v then .ok (w.put (encU32 w.endian v.toNat)) else .error (.srid v)

/-- `write_header` (wkb_writer.rs:102-122) -/
def writeHeader (w : WkbWriter) (t : WkbType) : Except Err WkbWriter :=
  match w.dialect with
  | .wkb => .ok (w.writeWkbHeader t)
  | .ewkb => .ok (w.writeEwkbHeader t)
  | .geopackage =>
    if w.firstHeader then .ok ({ w.writeGpkgHeader with firstHeader := false }.writeWkbHeader t)
    else .ok (w.writeWkbHeader t)
  | .mySQL =>
    if w.firstHeader then
      match w.writeMysqlHeader with
      | .ok w1 => .ok ({ w1 with firstHeader := false }.writeWkbHeader t)
      | .error e => .error e
    else .ok (w.writeWkbHeader t)
  | .spatiaLite => .ok (w.writeSpatialiteHeader t)

/-- `write_footer` (wkb_writer.rs:256-266) -/
def writeFooter (w : WkbWriter) : WkbWriter :=
  if w.dialect = .spatiaLite ∧ w.nestingLevel = 0 then w.put [0xFE] else w

/-- the dimension values written after x and y (wkb_writer.rs:289-298) -/
def coordBytes (e : Endian) (dims : Dims) (x y : F64) (z m : Option F64) : List Byte :=
  encF64 e x ++ encF64 e y
    ++ (if dims.z then encF64 e (z.getD F64.zero) else [])
    ++ (if dims.m then encF64 e (m.getD F64.zero) else [])

/-- `coordinate` (wkb_writer.rs:276-300) -/
def coordinate (w : WkbWriter) (x y : F64) (z m : Option F64) : Except Err WkbWriter :=
  if w.geomState = .multiPointGeom then
    match w.writeHeader .point with
    | .ok w1 => .ok (w1.put (coordBytes w1.endian w1.dims x y z m))
    | .error e => .error e
  else .ok (w.put (coordBytes w.endian w.dims x y z m))

/-- the WKB type a begin method writes (wkb_writer.rs:301-435) -/
def kindType : GKind → WkbType
  | .point => .point
  | .multiPoint => .multiPoint
  | .lineString => .lineString
  | .multiLineString => .multiLineString
  | .polygon => .polygon
  | .multiPolygon => .multiPolygon
  | .collection => .geometryCollection
  | .circularString => .circularString
  | .compoundCurve => .compoundCurve
  | .curvePolygon => .curvePolygon
  | .multiCurve => .multiCurve
  | .multiSurface => .multiSurface
  | .triangle => .triangle
  | .polyhedralSurface => .polyhedralSurface
  | .tin => .tin

/-- the begin methods that do `self.nesting_level += 1` (wkb_writer.rs:308, 330, 350, 360, 394, 404) -/
def nests : GKind → Bool
  | .multiPoint | .multiLineString | .multiPolygon | .collection | .multiCurve | .multiSurface => true
  | _ => false

/-- header then count (`self.out.iowrite_with(size as u32, self.endian)`) (wkb_writer.rs:310-433) -/
def headerAndSize (w : WkbWriter) (t : WkbType) (size : Nat) : Except Err WkbWriter :=
  match w.writeHeader t with
  | .ok w1 => .ok (w1.put (encU32 w1.endian size))
  | .error e => .error e

/-- the `*_begin` methods (wkb_writer.rs:301-435) -/
def gbegin (w : WkbWriter) (k : GKind) (size : Nat) : Except Err WkbWriter :=
  match k with
  | .point => w.writeHeader .point
  | .multiPoint =>
    match { w with nestingLevel := w.nestingLevel + 1 }.headerAndSize .multiPoint size with
    | .ok w1 => .ok { w1 with geomState := .multiPointGeom }
    | .error e => .error e
  | .lineString =>
    if w.geomState ≠ .ringGeom then w.headerAndSize .lineString size
    else .ok (w.put (encU32 w.endian size))
  | .polygon =>
    match w.headerAndSize .polygon size with
    | .ok w1 => .ok { w1 with geomState := .ringGeom }
    | .error e => .error e
  | .triangle =>
    match w.headerAndSize .triangle size with
    | .ok w1 => .ok { w1 with geomState := .ringGeom }
    | .error e => .error e
  | k =>
    if nests k then { w with nestingLevel := w.nestingLevel + 1 }.headerAndSize (kindType k) size
    else w.headerAndSize (kindType k) size

/-- `self.nesting_level -= 1` on a `u32`: underflow panics in debug builds (wkb_writer.rs:315, 336, 356, 366, 400) -/
def nestDec (w : WkbWriter) : Except Err WkbWriter :=
  match w.nestingLevel with
  | 0 => .error (.panic "attempt to subtract with overflow")
  | n + 1 => .ok { w with nestingLevel := n }

/-- the `*_end` methods (wkb_writer.rs:304-438) -/
def gend (w : WkbWriter) (k : GKind) : Except Err WkbWriter :=
  match k with
  | .multiPoint =>
    match w.nestDec with
    | .ok w1 => .ok { w1 with geomState := .normal }.writeFooter
    | .error e => .error e
  | .polygon => .ok { w with geomState := .normal }.writeFooter
  | .triangle => .ok { w with geomState := .normal }.writeFooter
  | k =>
    if nests k then
      match w.nestDec with
      | .ok w1 => .ok w1.writeFooter
      | .error e => .error e
    else .ok w.writeFooter

/-- `GeomProcessor for WkbWriter` (wkb_writer.rs:269-439): one event.
`srid` keeps the trait default (ignored), `empty_point` the trait default error
(geometry_processor.rs:136-140). -/
def step (w : WkbWriter) : Ev → Except Err WkbWriter
  | .srid _ => .ok w
  | .xy x y _ => w.coordinate x y none none
  | .coord x y z m _ _ _ => w.coordinate x y z m
  | .emptyPoint _ => .error (.geometry "The input was an empty Point, but the output doesn't support empty Points")
  | .gbegin k _ size _ => w.gbegin k size
  | .gend k _ _ => w.gend k

end WkbWriter
end Geozero

namespace Geozero

/-- the writer as a processor: `dimensions()` is `read_dims` (wkb_writer.rs:270-272) and `multi_dim()` its
default -/
def WkbWriter.proc : Prog.Proc WkbWriter := { step := WkbWriter.step, multi := fun w => w.readDims.multi }

/-- `to_wkb_dialect` (wkb/mod.rs:85-97) on a source whose `process_geom` behaves like `src` -/
def toWkbDialect (src : Prog Unit) (dialect : WkbDialect) (dims : Dims) (srid : Option Int) (env : List F64) :
    Except Err (List Byte) :=
  match Prog.interp WkbWriter.proc src (WkbWriter.withOpts dialect dims srid env) [] with
  | (w, _, .ok _) => .ok w.out
  | (_, _, .error e) => .error e

end Geozero
