import Verif.Model.WkbTypes

/-
Models /repo/geozero/src/wkb/wkb_reader.rs.
-/

namespace Geozero

open Prog

/-- `WKB_MAX_NESTING_DEPTH` (wkb_reader.rs:5) -/
def wkbMaxNestingDepth : Nat := 128

/-- Floating point operations needed only for SpatiaLite compressed line strings
(wkb_reader.rs:524-536): conversion of an `f32` pattern to `f64`, and addition.  Left abstract. -/
structure FOps where
  of32 : BitVec 32 → F64
  add : F64 → F64 → F64

/-- `WkbInfo` (wkb_reader.rs:167-178) -/
structure WkbInfo where
  endian : Endian
  baseType : WkbType
  hasZ : Bool
  hasM : Bool
  srid : Option Int
  envelope : List F64
  isCompressed : Bool
deriving DecidableEq, Repr

/-- `WkbInfo::dims` (wkb_reader.rs:181-188) -/
def WkbInfo.dims (i : WkbInfo) : Dims := { z := i.hasZ, m := i.hasM, t := false, tm := false }

/-- `Endian::from(is_little_endian)` (scroll) (called in wkb_reader.rs:195, 219, 262, 291) -/
def Endian.ofLE (little : Bool) : Endian := if little then .le else .be

/-- `read_wkb_header` (wkb_reader.rs:192-209) -/
def readWkbHeader : Prog WkbInfo := do
  let byteOrder ← readByte
  let endian := Endian.ofLE (byteOrder != 0)
  let typeId ← readU32 endian
  let typeIdDim := typeId / 1000
  pure {
    endian := endian
    baseType := WkbType.fromU32 (typeId % 1000)
    hasZ := typeIdDim == 1 || typeIdDim == 3
    hasM := typeIdDim == 2 || typeIdDim == 3
    srid := none
    isCompressed := false
    envelope := [] }

/-- `read_wkb_nested_header` (wkb_reader.rs:211-213) -/
def readWkbNestedHeader (_info : WkbInfo) : Prog WkbInfo := readWkbHeader

/-- `type_id & mask == mask` for a one-bit mask `2^k`. (wkb_reader.rs:221, 230, 231) -/
def testBitN (n k : Nat) : Bool := n / 2 ^ k % 2 == 1

/-- `read_ewkb_header` (wkb_reader.rs:216-237); masks 0x2000_0000, 0x8000_0000, 0x4000_0000 are bits
29, 31, 30 and `& 0xFF` is `% 256`. -/
def readEwkbHeader : Prog WkbInfo := do
  let byteOrder ← readByte
  let endian := Endian.ofLE (byteOrder != 0)
  let typeId ← readU32 endian
  let srid ← (if testBitN typeId 29 then (do let s ← readI32 endian; pure (some s)) else pure none)
  pure {
    endian := endian
    baseType := WkbType.fromU32 (typeId % 256)
    hasZ := testBitN typeId 31
    hasM := testBitN typeId 30
    srid := srid
    isCompressed := false
    envelope := [] }

/-- `read_ewkb_nested_header` (wkb_reader.rs:239-241) -/
def readEwkbNestedHeader (_info : WkbInfo) : Prog WkbInfo := readEwkbHeader

/-- `(0..n).map(|_| raw.ioread_with::<f64>(endian)).collect()` (wkb_reader.rs:264-267, 311-313) -/
def readF64s (e : Endian) : Nat → Prog (List F64)
  | 0 => pure []
  | n + 1 => do
    let x ← readF64 e
    let xs ← readF64s e n
    pure (x :: xs)

/-- The envelope length table (wkb_reader.rs:254-260); `none` is the `GeometryFormat` branch. -/
def gpkgEnvLen (flags : Byte) : Option Nat :=
  match flags.toNat / 2 % 8 with
  | 0 => some 0
  | 1 => some 4
  | 2 => some 6
  | 3 => some 6
  | 4 => some 8
  | _ => none

/-- `read_gpkg_header` (wkb_reader.rs:244-281).  Note: the byte order of the result is that of the
GeoPackage flags, not that of the inner WKB header (wkb_reader.rs:262, 272). -/
def readGpkgHeader : Prog WkbInfo := do
  let m0 ← readByte
  let m1 ← readByte
  if m0 = 0x47 ∧ m1 = 0x50 then
    let _version ← readByte
    let flags ← readByte
    match gpkgEnvLen flags with
    | none => fail .geometryFormat
    | some envLen =>
      let endian := Endian.ofLE (flags.toNat % 2 == 1)
      let srid ← readI32 endian
      let envelope ← readF64s endian envLen
      let ogc ← readWkbHeader
      pure {
        endian := endian
        baseType := ogc.baseType
        hasZ := ogc.hasZ
        hasM := ogc.hasM
        srid := some srid
        isCompressed := false
        envelope := envelope }
  else fail .geometryFormat

/-- `read_spatialite_header` (wkb_reader.rs:284-332) -/
def readSpatialiteHeader : Prog WkbInfo := do
  let start ← readByte
  if start = 0 then
    let flags ← readByte
    let endian := Endian.ofLE (flags.toNat % 2 == 1)
    let isTinyPoint := flags.toNat / 128 % 2 == 1
    let s ← readI32 endian
    let srid := if s = 0 then none else some s
    if isTinyPoint then
      let d ← readByte
      pure {
        endian := endian
        srid := srid
        envelope := []
        baseType := .point
        hasZ := d == 2 || d == 4
        hasM := d == 3 || d == 4
        isCompressed := false }
    else
      let envelope ← readF64s endian 4
      let mbrEnd ← readByte
      if mbrEnd = 0x7C then
        let typeId ← readU32 endian
        let typeIdDim := typeId % 1000000 / 1000
        pure {
          endian := endian
          srid := srid
          envelope := envelope
          baseType := WkbType.fromU32 (typeId % 1000)
          hasZ := typeIdDim == 1 || typeIdDim == 3
          hasM := typeIdDim == 2 || typeIdDim == 3
          isCompressed := decide (typeId > 1000000) }
      else fail .geometryFormat
  else fail .geometryFormat

/-- `read_spatialite_nested_header` (wkb_reader.rs:334-352) -/
def readSpatialiteNestedHeader (info : WkbInfo) : Prog WkbInfo := do
  let start ← readByte
  if start = 0x69 then
    let typeId ← readU32 info.endian
    pure {
      baseType := WkbType.fromU32 (typeId % 1000)
      isCompressed := decide (typeId > 1000000)
      endian := info.endian
      srid := info.srid
      envelope := []
      hasM := info.hasM
      hasZ := info.hasZ }
  else fail .geometryFormat

/-- `read_mysql_header` (wkb_reader.rs:355-367) -/
def readMysqlHeader : Prog WkbInfo := do
  let s ← readU32 .le
  if s < 2 ^ 31 then
    let info ← readWkbHeader
    if info.endian = .le then
      pure { info with srid := some (s : Int) }
    else fail .geometryFormat
  else fail .geometryFormat

/-- `read_coord_as::<R, f64>` (wkb_reader.rs:540-557) -/
def readCoord64 (info : WkbInfo) : Prog Coord := do
  let x ← readF64 info.endian
  let y ← readF64 info.endian
  let z ← (if info.hasZ then (do let v ← readF64 info.endian; pure (some v)) else pure none)
  let m ← (if info.hasM then (do let v ← readF64 info.endian; pure (some v)) else pure none)
  pure { x, y, z, m }

/-- `read_coord_as::<R, f32>` (wkb_reader.rs:540-557): x, y, z are `f32`, m stays `f64`. -/
def readCoord32 (fo : FOps) (info : WkbInfo) : Prog Coord := do
  let x ← readF32 info.endian
  let y ← readF32 info.endian
  let z ← (if info.hasZ then (do let v ← readF32 info.endian; pure (some (fo.of32 v))) else pure none)
  let m ← (if info.hasM then (do let v ← readF64 info.endian; pure (some v)) else pure none)
  pure { x := fo.of32 x, y := fo.of32 y, z, m }

/-- `emit_coord` (wkb_reader.rs:490-503) -/
def emitCoord (c : Coord) (multi : Bool) (idx : Nat) : Prog Coord := do
  emitEv (coordEv multi c idx)
  pure c

/-- `process_coord` (wkb_reader.rs:505-514) -/
def processCoord (info : WkbInfo) (multi : Bool) (idx : Nat) : Prog Coord := do
  let c ← readCoord64 info
  emitCoord c multi idx

/-- `process_compressed_coord` (wkb_reader.rs:516-538) -/
def processCompressedCoord (fo : FOps) (info : WkbInfo) (multi : Bool) (idx : Nat) (prev : Coord) :
    Prog Coord := do
  let r ← readCoord32 fo info
  if multi then
    let z := match prev.z, r.z with
      | some a, some b => some (fo.add a b)
      | _, _ => none
    let c : Coord := { x := fo.add prev.x r.x, y := fo.add prev.y r.y, z := z, m := r.m }
    emitEv (.coord c.x c.y c.z c.m none none idx)
    pure c
  else
    let c : Coord := { x := fo.add prev.x r.x, y := fo.add prev.y r.y, z := none, m := none }
    emitEv (.xy c.x c.y idx)
    pure c

/-- the loop `for i in 1..(length - 1)` (wkb_reader.rs:571-573) -/
def compressedLoop (fo : FOps) (info : WkbInfo) (multi : Bool) : (count i : Nat) → Coord → Prog Unit
  | 0, _, _ => pure ()
  | n + 1, i, prev => do
    let c ← processCompressedCoord fo info multi i prev
    compressedLoop fo info multi n (i + 1) c

/-- `process_linestring` (wkb_reader.rs:559-581) -/
def processLinestring (fo : FOps) (info : WkbInfo) (tagged : Bool) (idx : Nat) : Prog Unit := do
  let length ← readU32 info.endian
  emitEv (.gbegin .lineString tagged length idx)
  let multi ← multiDim
  (if info.isCompressed = true ∧ length > 0 then do
    let c ← processCoord info multi 0
    compressedLoop fo info multi (length - 1 - 1) 1 c
    let _ ← processCoord info multi length
    pure ()
  else
    loop length 0 fun i => do
      let _ ← processCoord info multi i
      pure ())
  emitEv (.gend .lineString tagged idx)

/-- `process_circularstring` (wkb_reader.rs:583-596) -/
def processCircularstring (info : WkbInfo) (idx : Nat) : Prog Unit := do
  let length ← readU32 info.endian
  emitEv (.gbegin .circularString true length idx)
  let multi ← multiDim
  loop length 0 fun i => do
    let _ ← processCoord info multi i
    pure ()
  emitEv (.gend .circularString true idx)

/-- `process_polygon` (wkb_reader.rs:598-611) -/
def processPolygon (fo : FOps) (info : WkbInfo) (tagged : Bool) (idx : Nat) : Prog Unit := do
  let ringCount ← readU32 info.endian
  emitEv (.gbegin .polygon tagged ringCount idx)
  loop ringCount 0 fun i => processLinestring fo info false i
  emitEv (.gend .polygon tagged idx)

/-- `process_triangle` (wkb_reader.rs:613-626) -/
def processTriangle (fo : FOps) (info : WkbInfo) (tagged : Bool) (idx : Nat) : Prog Unit := do
  let ringCount ← readU32 info.endian
  emitEv (.gbegin .triangle tagged ringCount idx)
  loop ringCount 0 fun i => processLinestring fo info false i
  emitEv (.gend .triangle tagged idx)

/-- the `match info.base_type` of `process_compoundcurve` (wkb_reader.rs:643-651) -/
def processSegment (fo : FOps) (info : WkbInfo) (i : Nat) : Prog Unit :=
  match info.baseType with
  | .circularString => processCircularstring info i
  | .lineString => processLinestring fo info false i
  | _ => fail .geometryFormat

/-- `process_compoundcurve` (wkb_reader.rs:628-654) -/
def processCompoundcurve (fo : FOps) (rh : WkbInfo → Prog WkbInfo) (parent : WkbInfo)
    (idx depth : Nat) : Prog Unit :=
  if depth > wkbMaxNestingDepth then fail (.maxNesting wkbMaxNestingDepth)
  else do
    let n ← readU32 parent.endian
    emitEv (.gbegin .compoundCurve true n idx)
    loop n 0 fun i => do
      let info ← rh parent
      processSegment fo info i
    emitEv (.gend .compoundCurve true idx)

/-- the `match info.base_type` of `process_curve` (wkb_reader.rs:665-672) -/
def processCurveBody (fo : FOps) (rh : WkbInfo → Prog WkbInfo) (info : WkbInfo)
    (idx depth : Nat) : Prog Unit :=
  match info.baseType with
  | .circularString => processCircularstring info idx
  | .lineString => processLinestring fo info false idx
  | .compoundCurve => processCompoundcurve fo rh info idx (depth + 1)
  | _ => fail .geometryFormat

/-- `process_curve` (wkb_reader.rs:656-673) -/
def processCurve (fo : FOps) (rh : WkbInfo → Prog WkbInfo) (parent : WkbInfo)
    (idx depth : Nat) : Prog Unit := do
  let info ← rh parent
  processCurveBody fo rh info idx depth

/-- `process_curvepolygon` (wkb_reader.rs:675-692) -/
def processCurvepolygon (fo : FOps) (rh : WkbInfo → Prog WkbInfo) (info : WkbInfo)
    (idx depth : Nat) : Prog Unit :=
  if depth > wkbMaxNestingDepth then fail (.maxNesting wkbMaxNestingDepth)
  else do
    let n ← readU32 info.endian
    emitEv (.gbegin .curvePolygon true n idx)
    loop n 0 fun i => processCurve fo rh info i (depth + 1)
    emitEv (.gend .curvePolygon true idx)

/-- all-NaN test of wkb_reader.rs:383-386 -/
def Coord.allNaN (c : Coord) : Bool :=
  c.x.isNaN && c.y.isNaN && (c.z.map F64.isNaN).getD true && (c.m.map F64.isNaN).getD true

/-- the Point arm (wkb_reader.rs:381-394) -/
def processPoint (info : WkbInfo) (idx : Nat) : Prog Unit := do
  let c ← readCoord64 info
  if c.allNaN then emitEv (.emptyPoint idx)
  else
    emitEv (.gbegin .point true 1 idx)
    let multi ← multiDim
    let _ ← emitCoord c multi 0
    emitEv (.gend .point true idx)

/-- a container arm of `process_wkb_geom_n`: count, begin event, `n` members, end event (wkb_reader.rs:411-478) -/
def processMembers (k : GKind) (info : WkbInfo) (idx : Nat) (member : Nat → Prog Unit) : Prog Unit := do
  let n ← readU32 info.endian
  emitEv (.gbegin k true n idx)
  loop n 0 member
  emitEv (.gend k true idx)

/-- the `match info.base_type` of the MultiSurface arm (wkb_reader.rs:464-472) -/
def processSurfaceBody (fo : FOps) (rh : WkbInfo → Prog WkbInfo) (info : WkbInfo)
    (i depth : Nat) : Prog Unit :=
  match info.baseType with
  | .curvePolygon => processCurvepolygon fo rh info i (depth + 1)
  | .polygon => processPolygon fo info false i
  | _ => fail .geometryFormat

/-- `process_wkb_geom_n` (wkb_reader.rs:369-488).  `fuel` is a recursion bound added for totality; it is
never exhausted when `fuel + depth ≥ 130` because the depth check fires first. -/
def processGeomN (fo : FOps) (rh : WkbInfo → Prog WkbInfo) :
    (fuel : Nat) → (info : WkbInfo) → (idx depth : Nat) → Prog Unit
  | 0, _, _, _ => fail (.panic "fuel")
  | fuel + 1, info, idx, depth =>
    if depth > wkbMaxNestingDepth then fail (.maxNesting wkbMaxNestingDepth)
    else
      match info.baseType with
      | .point => processPoint info idx
      | .multiPoint => do
        let n ← readU32 info.endian
        emitEv (.gbegin .multiPoint true n idx)
        let multi ← multiDim
        loop n 0 fun i => do
          let sub ← rh info
          let _ ← processCoord sub multi i
          pure ()
        emitEv (.gend .multiPoint true idx)
      | .lineString => processLinestring fo info true idx
      | .circularString => processCircularstring info idx
      | .compoundCurve => processCompoundcurve fo rh info idx (depth + 1)
      | .multiLineString => processMembers .multiLineString info idx fun i => do
          let sub ← rh info
          processLinestring fo sub false i
      | .multiCurve => processMembers .multiCurve info idx fun i =>
          processCurve fo rh info i (depth + 1)
      | .polygon => processPolygon fo info true idx
      | .triangle => processTriangle fo info true idx
      | .curvePolygon => processCurvepolygon fo rh info idx (depth + 1)
      | .multiPolygon => processMembers .multiPolygon info idx fun i => do
          let sub ← rh info
          processPolygon fo sub false i
      | .polyhedralSurface => processMembers .polyhedralSurface info idx fun i => do
          let sub ← rh info
          processPolygon fo sub false i
      | .tin => processMembers .tin info idx fun i => do
          let sub ← rh info
          processTriangle fo sub false i
      | .multiSurface => processMembers .multiSurface info idx fun i => do
          let sub ← rh info
          processSurfaceBody fo rh sub i depth
      | .geometryCollection => processMembers .collection info idx fun i => do
          let sub ← rh info
          processGeomN fo rh fuel sub i (depth + 1)
      | _ => fail .geometryFormat

/-- the five entry points share this shape (wkb_reader.rs:115-150): top header, `srid` call, geometry -/
def processTop (fo : FOps) (top : Prog WkbInfo) (rh : WkbInfo → Prog WkbInfo) : Prog Unit := do
  let info ← top
  emitEv (.srid info.srid)
  processGeomN fo rh 130 info 0 0

/-- `process_wkb_geom` (wkb_reader.rs:115-119) -/
def processWkbGeom (fo : FOps) : Prog Unit := processTop fo readWkbHeader readWkbNestedHeader
/-- `process_ewkb_geom` (wkb_reader.rs:122-126) -/
def processEwkbGeom (fo : FOps) : Prog Unit := processTop fo readEwkbHeader readEwkbNestedHeader
/-- `process_gpkg_geom` (wkb_reader.rs:129-133) -/
def processGpkgGeom (fo : FOps) : Prog Unit := processTop fo readGpkgHeader readWkbNestedHeader
/-- `process_spatialite_geom` (wkb_reader.rs:136-143) -/
def processSpatialiteGeom (fo : FOps) : Prog Unit :=
  processTop fo readSpatialiteHeader readSpatialiteNestedHeader
/-- `process_mysql_geom` (wkb_reader.rs:146-150) -/
def processMysqlGeom (fo : FOps) : Prog Unit := processTop fo readMysqlHeader readWkbNestedHeader

/-- the top-level header reader of each dialect (as chosen in wkb_reader.rs:115-165) -/
def topHeader : WkbDialect → Prog WkbInfo
  | .wkb => readWkbHeader
  | .ewkb => readEwkbHeader
  | .geopackage => readGpkgHeader
  | .spatiaLite => readSpatialiteHeader
  | .mySQL => readMysqlHeader

/-- `process_wkb_type_geom` (wkb_reader.rs:153-165) -/
def processWkbTypeGeom (fo : FOps) : WkbDialect → Prog Unit
  | .wkb => processWkbGeom fo
  | .ewkb => processEwkbGeom fo
  | .geopackage => processGpkgGeom fo
  | .spatiaLite => processSpatialiteGeom fo
  | .mySQL => processMysqlGeom fo

/-- the outcome of a header-only read on a byte slice, as `Result`
(the `.ok()` of `dims` and `srid`, wkb_reader.rs:25-112) -/
def headerResult (p : Prog WkbInfo) (bs : List Byte) : Option WkbInfo :=
  match (run false p bs).2 with
  | .ok (i, _) => some i
  | .error _ => none

/-- `GeozeroGeometry::dims` of the five reader types (wkb_reader.rs:25-29, 45-49, 64-68, 83-87,
102-106) -/
def wkbDims (d : WkbDialect) (bs : List Byte) : Dims :=
  match headerResult (topHeader d) bs with
  | some i => i.dims
  | none => default

/-- `GeozeroGeometry::srid` of the five reader types (wkb_reader.rs:50-54, 69-73, 88-92, 107-111;
the plain `Wkb` type keeps the trait default `None`, api.rs) -/
def wkbSrid (d : WkbDialect) (bs : List Byte) : Option Int :=
  match d with
  | .wkb => none
  | d => (headerResult (topHeader d) bs).bind (·.srid)

end Geozero
