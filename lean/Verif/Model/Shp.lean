import Verif.Model.Bytes
import Verif.Model.GeoTypes
import Verif.Model.Adaptors
import Verif.Model.Property

/-
Models /repo/geozero/src/shp/{header.rs, shp_reader.rs, shx_reader.rs, reader.rs}: the readers of shapefile records,
headers, index files, and the iterators.

The build modelled is one with overflow checks (the default of debug builds): an overflowing or underflowing operation is
a panic.  Allocation failure is not modelled.  The attribute table (`dbase` crate) is a list of records or errors.
-/

namespace Geozero

open Prog

/-! ### integer conversions -/

/-- `v as usize` for an `i32` on a 64-bit target: sign extension (shp_reader.rs:43, 133, 237, 238, 250) -/
def i32AsUsize (v : Int) : Nat := (v % 2 ^ 64).toNat

/-- a checked `usize` result (overflow checks of shp_reader.rs:137, 248, 356-369) -/
def usizeOk (n : Nat) : Prog Nat := if n < 2 ^ 64 then .ret n else .fail (.panic "attempt to multiply with overflow")

/-- `v * 2` for an `i32` (shp_reader.rs:42) -/
def doubleI32 (v : Int) : Prog Int :=
  if -(2 ^ 31) ≤ v * 2 ∧ v * 2 < 2 ^ 31 then .ret (v * 2) else .fail (.panic "attempt to multiply with overflow")

/-! ### header.rs -/

/-- `ShapeType` (header.rs:81-99) -/
inductive ShpType
  | null | point | polyline | polygon | multipoint
  | pointZ | polylineZ | polygonZ | multipointZ
  | pointM | polylineM | polygonM | multipointM
  | multipatch
deriving DecidableEq, Repr, Inhabited

/-- `ShapeType::from` (header.rs:115-133) -/
def ShpType.fromCode (code : Int) : Option ShpType :=
  if code = 0 then some .null
  else if code = 1 then some .point
  else if code = 3 then some .polyline
  else if code = 5 then some .polygon
  else if code = 8 then some .multipoint
  else if code = 11 then some .pointZ
  else if code = 13 then some .polylineZ
  else if code = 15 then some .polygonZ
  else if code = 18 then some .multipointZ
  else if code = 21 then some .pointM
  else if code = 23 then some .polylineM
  else if code = 25 then some .polygonM
  else if code = 28 then some .multipointM
  else if code = 31 then some .multipatch
  else none

/-- `ShapeType::read_from` (header.rs:102-105) -/
def readShpType : Prog ShpType := do
  let code ← readI32 .le
  match ShpType.fromCode code with
  | some t => .ret t
  | none => .fail (.shp "InvalidShapeType")

/-- `Header` (header.rs:17-30); the bounding box is a list of eight numbers in file order -/
structure ShpHeader where
  fileLength : Int
  bbox : List F64
  shapeType : ShpType
  version : Int
deriving DecidableEq, Repr

/-- `n` numbers (shp_reader.rs:371-396) -/
def readF64List : Nat → Prog (List F64)
  | 0 => .ret []
  | n + 1 => do
    let x ← readF64 .le
    let xs ← readF64List n
    .ret (x :: xs)

/-- `Header::read_from` (header.rs:44-75) -/
def readShpHeader : Prog ShpHeader := do
  let fileCode ← readI32 .be
  if fileCode ≠ 9994 then .fail (.shp "InvalidFileCode")
  else do
    let _ ← readN 20
    let fileLength ← readI32 .be
    let version ← readI32 .le
    let shapeType ← readShpType
    let bbox ← readF64List 8
    .ret { fileLength, bbox, shapeType, version }

/-! ### shp_reader.rs: reading -/

/-- what the reading functions collect before any event is delivered: the local variables of `read_point` and
`read_multipoint`, and `MultiPartShape` (shp_reader.rs:218-223) -/
inductive ShpShape
  | null
  | patch
  | point (x y : F64) (z m : Option F64)
  | multipoint (coords : List XY) (zs ms : List F64)
  | multipart (asPoly : Bool) (partsIndex : List Nat) (coords : List XY) (zs ms : List F64)
deriving DecidableEq, Repr

/-- `read_bbox` (shp_reader.rs:371-377); the capacity of a new vector is taken to be the requested one -/
def readBbox (dims : Nat) : Prog (List F64) := readF64List (2 * dims)

/-- `read_xy` (shp_reader.rs:379-387) -/
def readXYs : Nat → Prog (List XY)
  | 0 => .ret []
  | n + 1 => do
    let x ← readF64 .le
    let y ← readF64 .le
    let cs ← readXYs n
    .ret (⟨x, y⟩ :: cs)

/-- `read_dim_values` (shp_reader.rs:389-396) -/
def readDimValues (n : Nat) : Prog (List F64) := do
  let _ ← readBbox 1
  readF64List n

/-- `read_dim_values` under a flag, an empty vector otherwise (shp_reader.rs:153-158, 262-265) -/
def readDimValuesIf (b : Bool) (n : Nat) : Prog (List F64) := if b then readDimValues n else .ret []

/-- `multipart_dim_value_size` (shp_reader.rs:366-369) -/
def dimValueSize (n : Nat) : Nat := 16 + n * 8

/-- `multipart_record_size` (shp_reader.rs:356-364) -/
def multipartRecordSize (points parts : Nat) : Nat := 32 + 4 + 4 + 4 * parts + 16 * points

/-- an optional number (shp_reader.rs:81-124) -/
def readF64If (b : Bool) : Prog (Option F64) := if b then Prog.bind (readF64 .le) fun v => .ret (some v) else .ret none

/-- `read_point` (shp_reader.rs:81-111), up to the first event -/
def readShpPoint (size : Nat) (t : ShpType) : Prog ShpShape :=
  let hasZ := decide (t = .pointZ)
  let hasM := decide (t = .pointM) || (decide (t = .pointZ) && decide (size = 32))
  let dims := 2 + (if hasZ then 1 else 0) + (if hasM then 1 else 0)
  if size ≠ dims * 8 then .fail (.shp "InvalidShapeRecordSize")
  else do
    let x ← readF64 .le
    let y ← readF64 .le
    let z ← readF64If hasZ
    let m ← readF64If hasM
    .ret (.point x y z m)

/-- `read_multipoint` (shp_reader.rs:126-161), up to the first event.  The multiplication at line 137 is the first
operation that can overflow; if it does not, the others cannot. -/
def readShpMultipoint (size : Nat) (hasZ : Bool) : Prog ShpShape := do
  let _ ← readBbox 2
  let n ← readI32 .le
  let n := i32AsUsize n
  let _ ← usizeOk (16 * n)
  let base := 32 + 4 + 16 * n + (if hasZ then dimValueSize n else 0)
  let hasM := decide (size = base + dimValueSize n)
  if size ≠ base + (if hasM then dimValueSize n else 0) then .fail (.shp "InvalidShapeRecordSize")
  else do
    let coords ← readXYs n
    let zs ← readDimValuesIf hasZ n
    let ms ← readDimValuesIf hasM n
    .ret (.multipoint coords zs ms)

/-- the part table (shp_reader.rs:248-252) -/
def readParts : Nat → Prog (List Nat)
  | 0 => .ret []
  | n + 1 => do
    let v ← readI32 .le
    let vs ← readParts n
    .ret (i32AsUsize v :: vs)

/-- `MultiPartShape::read` (shp_reader.rs:231-269) -/
def readMultiPart (asPoly : Bool) (size : Nat) (hasZ : Bool) : Prog ShpShape := do
  let _ ← readBbox 2
  let parts ← readI32 .le
  let points ← readI32 .le
  let parts := i32AsUsize parts
  let points := i32AsUsize points
  let _ ← usizeOk (4 * parts)
  let _ ← usizeOk (16 * points)
  let base := multipartRecordSize points parts + (if hasZ then dimValueSize points else 0)
  let hasM := decide (size = base + dimValueSize points)
  if size ≠ base ∧ ¬ hasM then .fail (.shp "InvalidShapeRecordSize")
  else do
    let index ← readParts parts
    let coords ← readXYs points
    let zs ← readDimValuesIf hasZ points
    let ms ← readDimValuesIf hasM points
    .ret (.multipart asPoly (index ++ [points]) coords zs ms)

/-- `read_multipatch_shape_content` (shp_reader.rs:205-214): the content is skipped; a vector cannot have more than
`isize::MAX` bytes -/
def readMultipatch (size : Nat) : Prog ShpShape :=
  if 2 ^ 63 ≤ size then .fail (.panic "capacity overflow") else Prog.bind (readN size) fun _ => .ret .patch

/-- the reading done by `read_shape_rec` (shp_reader.rs:47-79) -/
def readShpContent (recordSize : Nat) : Prog ShpShape := do
  let t ← readShpType
  if recordSize < 4 then .fail (.panic "attempt to subtract with overflow")
  else
    let size := recordSize - 4
    match t with
    | .point => readShpPoint size t
    | .pointM => readShpPoint size t
    | .pointZ => readShpPoint size t
    | .multipoint => readShpMultipoint size false
    | .multipointM => readShpMultipoint size false
    | .multipointZ => readShpMultipoint size true
    | .polyline => readMultiPart false size false
    | .polylineM => readMultiPart false size false
    | .polylineZ => readMultiPart false size true
    | .polygon => readMultiPart true size false
    | .polygonM => readMultiPart true size false
    | .polygonZ => readMultiPart true size true
    | .multipatch => readMultipatch size
    | .null => .ret .null

/-! ### shp_reader.rs: delivering -/

/-- `f64` arithmetic of the orientation test (IEEE-754, a parameter of the model) (shp_reader.rs:420-432) -/
structure ShpArith where
  sub : F64 → F64 → F64
  add : F64 → F64 → F64
  mul : F64 → F64 → F64
  half : F64 → F64
  /-- what `sum` starts from: 0, or -0 in newer versions of the standard library -/
  start : F64

/-- the terms of the sum (shp_reader.rs:421-423) -/
def ringTerms (ar : ShpArith) : List XY → List F64
  | a :: b :: rest => ar.mul (ar.sub b.x a.x) (ar.add b.y a.y) :: ringTerms ar (b :: rest)
  | _ => []

/-- `ring_type_from_points_ordering(points) == RingType::InnerRing` (shp_reader.rs:420-432) -/
def ringInner (ar : ShpArith) (points : List XY) : Bool :=
  F64.lt (ar.half ((ringTerms ar points).foldl ar.add ar.start)) F64.zero

/-- `windows(2)` (shp_reader.rs:308, 315, 422) -/
def windows2 : List Nat → List (Nat × Nat)
  | a :: b :: rest => (a, b) :: windows2 (b :: rest)
  | _ => []

/-- `&coords[a..b]` (shp_reader.rs:280) -/
def sliceXY (coords : List XY) (a b : Nat) : Except Err (List XY) :=
  if a ≤ b ∧ b ≤ coords.length then .ok ((coords.drop a).take (b - a)) else .error (.panic "slice index")

/-- the loop of `detect_polys` (shp_reader.rs:277-285), `inner` being the orientation test -/
def detectLoop (inner : List XY → Bool) (coords : List XY) : Nat → List (Nat × Nat) → Except Err (List Nat)
  | _, [] => .ok []
  | idx, (a, b) :: ws =>
    if idx = 0 then
      match detectLoop inner coords (idx + 1) ws with
      | .ok ps => .ok (idx :: ps)
      | .error e => .error e
    else
      match sliceXY coords a b with
      | .error e => .error e
      | .ok ring =>
        match detectLoop inner coords (idx + 1) ws with
        | .ok ps => .ok (if inner ring then ps else idx :: ps)
        | .error e => .error e

/-- `detect_polys` (shp_reader.rs:275-288) -/
def detectPolys (inner : List XY → Bool) (partsIndex : List Nat) (coords : List XY) : Except Err (List Nat) :=
  match detectLoop inner coords 0 (windows2 partsIndex) with
  | .ok ps => .ok (ps ++ [partsIndex.length - 1])
  | .error e => .error e

/-- one of `z_values[i]`, `m_values[i]` under a flag (shp_reader.rs:174-175, 328-333) -/
def dimValue (get : Bool) (vs : List F64) (i : Nat) : Except Err (Option F64) :=
  if get then
    match vs[i]? with
    | some v => .ok (some v)
    | none => .error (.panic "index out of bounds")
  else .ok none

/-- one coordinate (shp_reader.rs:170-177, 323-338) -/
def shpCoord (coords : List XY) (zs ms : List F64) (multi getZ getM : Bool) (ofs idx : Nat) : FProg Unit :=
  match coords[ofs]? with
  | none => .fail (.panic "index out of bounds")
  | some c =>
    if multi then
      match dimValue getZ zs ofs, dimValue getM ms ofs with
      | .ok z, .ok m => FProg.call (.geom (.coord c.x c.y z m none none idx))
      | .error e, _ => .fail e
      | _, .error e => .fail e
    else FProg.call (.geom (.xy c.x c.y idx))

/-- one part (shp_reader.rs:318-340) -/
def shpPart (coords : List XY) (zs ms : List F64) (multi getZ getM : Bool) (ringIdx : Nat) (w : Nat × Nat) : FProg Unit :=
  if w.2 < w.1 then .fail (.panic "attempt to subtract with overflow")
  else do
    FProg.call (.geom (.gbegin .lineString false (w.2 - w.1) ringIdx))
    FProg.forIdx (fun i ofs => shpCoord coords zs ms multi getZ getM ofs i) 0 (List.range' w.1 (w.2 - w.1))
    FProg.call (.geom (.gend .lineString false ringIdx))

/-- `parts_index[a..=b].windows(2)` (shp_reader.rs:314-316) -/
def partWindows (partsIndex : List Nat) (w : Nat × Nat) : List (Nat × Nat) :=
  windows2 ((partsIndex.drop w.1).take (w.2 + 1 - w.1))

/-- one polygon (shp_reader.rs:309-344 with `as_poly`) -/
def shpPolygon (partsIndex : List Nat) (coords : List XY) (zs ms : List F64) (multi getZ getM : Bool) (idx : Nat)
    (w : Nat × Nat) : FProg Unit := do
  FProg.call (.geom (.gbegin .polygon false (w.2 - w.1) idx))
  FProg.forIdx (shpPart coords zs ms multi getZ getM) 0 (partWindows partsIndex w)
  FProg.call (.geom (.gend .polygon false idx))

/-- `MultiPartShape::process` (shp_reader.rs:290-353); `multi_dim` is recomputed from `z` and `m` only (line 293) -/
def shpProcess (ar : ShpArith) (asPoly : Bool) (partsIndex : List Nat) (coords : List XY) (zs ms : List F64) : FProg Unit :=
  .ask fun _ dims =>
    let multi := dims.z || dims.m
    let getZ := dims.z && !zs.isEmpty
    let getM := dims.m && !ms.isEmpty
    if asPoly then
      match detectPolys (ringInner ar) partsIndex coords with
      | .error e => .fail e
      | .ok polys => do
        FProg.call (.geom (.gbegin .multiPolygon true (polys.length - 1) 0))
        FProg.forIdx (shpPolygon partsIndex coords zs ms multi getZ getM) 0 (windows2 polys)
        FProg.call (.geom (.gend .multiPolygon true 0))
    else do
      FProg.call (.geom (.gbegin .multiLineString true (partsIndex.length - 1) 0))
      FProg.forIdx (shpPart coords zs ms multi getZ getM) 0 (partWindows partsIndex (0, partsIndex.length - 1))
      FProg.call (.geom (.gend .multiLineString true 0))

/-- one part (shp_reader.rs:318-340) in builds without overflow checks (release builds): the size announced for a part that ends
before it begins wraps, and `start_index..end_index` is empty.  `shpPart` is the same with overflow checks. -/
def shpPartWrapping (coords : List XY) (zs ms : List F64) (multi getZ getM : Bool) (ringIdx : Nat) (w : Nat × Nat) : FProg Unit := do
  FProg.call (.geom (.gbegin .lineString false ((w.2 + 2 ^ 64 - w.1) % 2 ^ 64) ringIdx))
  FProg.forIdx (fun i ofs => shpCoord coords zs ms multi getZ getM ofs i) 0 (List.range' w.1 (w.2 - w.1))
  FProg.call (.geom (.gend .lineString false ringIdx))

/-- `MultiPartShape::process` (shp_reader.rs:290-353) without `as_poly`, in builds without overflow checks -/
def shpLinesWrapping (partsIndex : List Nat) (coords : List XY) (zs ms : List F64) : FProg Unit :=
  .ask fun _ dims => do
    FProg.call (.geom (.gbegin .multiLineString true (partsIndex.length - 1) 0))
    FProg.forIdx (shpPartWrapping coords zs ms (dims.z || dims.m) (dims.z && !zs.isEmpty) (dims.m && !ms.isEmpty)) 0
      (partWindows partsIndex (0, partsIndex.length - 1))
    FProg.call (.geom (.gend .multiLineString true 0))

/-- the events of `read_point` (shp_reader.rs:113-123) -/
def shpProcessPoint (x y : F64) (z m : Option F64) : FProg Unit := do
  FProg.call (.geom (.gbegin .point true 1 0))
  FProg.ask fun multi dims =>
    if multi then
      FProg.call (.geom (.coord x y (if dims.z then z else none) (if dims.m then m else none) none none 0))
    else FProg.call (.geom (.xy x y 0))
  FProg.call (.geom (.gend .point true 0))

/-- the events of `read_multipoint` (shp_reader.rs:163-180) -/
def shpProcessMultipoint (coords : List XY) (zs ms : List F64) : FProg Unit :=
  .ask fun multi dims => do
    FProg.call (.geom (.gbegin .multiPoint true coords.length 0))
    FProg.forIdx (fun i ofs => shpCoord coords zs ms multi (dims.z && !zs.isEmpty) (dims.m && !ms.isEmpty) ofs i) 0
      (List.range' 0 coords.length)
    FProg.call (.geom (.gend .multiPoint true 0))

/-- the delivering part of `read_shape_rec` (shp_reader.rs:47-79) -/
def ShpShape.process (ar : ShpArith) : ShpShape → FProg Unit
  | .null => .ret ()
  | .patch => .ret ()
  | .point x y z m => shpProcessPoint x y z m
  | .multipoint coords zs ms => shpProcessMultipoint coords zs ms
  | .multipart asPoly partsIndex coords zs ms => shpProcess ar asPoly partsIndex coords zs ms

/-- reading of the record header and the content (shp_reader.rs:26-33, 41-43): the declared size in 16-bit words and the
shape -/
def readShpRecord : Prog (Int × ShpShape) := do
  let _ ← readI32 .be
  let words ← readI32 .be
  let size ← doubleI32 words
  let s ← readShpContent (i32AsUsize size)
  .ret (words, s)

/-- `read_shape` (shp_reader.rs:37-45); the result is `hdr.record_size` -/
def readShape (ar : ShpArith) : FProg Int :=
  FProg.bind (FProg.lift readShpRecord) fun r => FProg.bind (r.2.process ar) fun _ => .ret r.1

/-- `read_shape` (shp_reader.rs:37-45) in builds without overflow checks, for polylines; the other shapes are left out.
Simplification: the reading itself is that of builds with overflow checks, which is the same for records it accepts. -/
def readLinesWrapping : FProg Unit :=
  FProg.bind (FProg.lift readShpRecord) fun r =>
    match r.2 with
    | .multipart false partsIndex coords zs ms => shpLinesWrapping partsIndex coords zs ms
    | _ => .ret ()

/-! ### reader.rs -/

/-- the new position (reader.rs:32-33) -/
def advance (pos : Nat) (words : Int) : Prog Nat :=
  Prog.bind (usizeOk (i32AsUsize words * 2)) fun n => .ret (pos + 8 + n)

/-- `ShapeIterator::next` (reader.rs:24-36): `none` at the end of the file, otherwise the new position -/
def shapeNext (ar : ShpArith) (len pos : Nat) : FProg (Option Nat) :=
  if len ≤ pos then .ret none
  else
    FProg.bind (readShape ar) fun words =>
    FProg.bind (FProg.lift (advance pos words)) fun pos => .ret (some pos)

/-- a user of `ShapeIterator` that calls `next` until it returns `None` or an error; at most `n` calls
(the iterator is at shp/reader.rs:13-36) -/
def shapesLoop (ar : ShpArith) (len : Nat) : Nat → Nat → FProg Unit
  | 0, _ => .fail (.custom 0)
  | n + 1, pos => FProg.bind (shapeNext ar len pos) fun r =>
    match r with
    | none => .ret ()
    | some pos => shapesLoop ar len n pos

/-- `ShpReader::new` and `iter_geometries` (reader.rs:121-129, 155-165) on a whole file, run to the end: a call that
reads a shape advances by 8 bytes at least, so there are at most `len + 1` calls of `next` -/
def shpGeometries (ar : ShpArith) : FProg Unit :=
  FProg.bind (FProg.lift readShpHeader) fun h =>
  FProg.bind (FProg.lift (doubleI32 h.fileLength)) fun len => shapesLoop ar (i32AsUsize len) (i32AsUsize len + 1) 100

/-- a row of the attribute table (`dbase::Record`, shp/reader.rs:43-92) -/
abbrev ShpRow := List (Text × FieldValue)

/-- `ShapeRecordIterator` (reader.rs:41-45): feature number, position and the rows not yet read; the end of the list is
`None` from `iter_records().next()` -/
structure ShpIter where
  featno : Nat
  pos : Nat
  rows : List (Except Err ShpRow)

/-- `dataset_begin(None).ok()` on the first call (reader.rs:55-57) -/
def shpDatasetBegin (featno : Nat) : FProg Unit := if featno = 0 then .emitOk (.dsBegin none) (.ret ()) else .ret ()

/-- a call whose error is dropped (the `.ok()` of shp/reader.rs:56-92) -/
def callOk (e : FEv) : FProg Unit := .emitOk e (.ret ())

/-- one feature (reader.rs:74-94) -/
def shpFeature (ar : ShpArith) (featno pos : Nat) (row : ShpRow) : FProg Nat := do
  callOk (.ftBegin featno)
  callOk .propsBegin
  let _ ← shapeRecordProperties row
  callOk .propsEnd
  callOk .geomBegin
  let words ← readShape ar
  let pos ← FProg.lift (advance pos words)
  callOk .geomEnd
  callOk (.ftEnd featno)
  .ret pos

/-- `ShapeRecordIterator::next` (reader.rs:54-96): `none` for `None`, otherwise the next state -/
def featureNext (ar : ShpArith) (len : Nat) (st : ShpIter) : FProg (Option ShpIter) :=
  FProg.bind (shpDatasetBegin st.featno) fun _ =>
  if len ≤ st.pos then FProg.bind (callOk .dsEnd) fun _ => .ret none
  else
    match st.rows with
    | [] => FProg.bind (callOk .dsEnd) fun _ => .ret none
    | .error e :: _ => .fail e
    | .ok row :: rows =>
      FProg.bind (shpFeature ar st.featno st.pos row) fun pos =>
        .ret (some { featno := st.featno + 1, pos, rows })

/-- a user of `ShapeRecordIterator` that calls `next` until it returns `None` or an error; at most `n` calls
(the iterator is at shp/reader.rs:43-92) -/
def featuresLoop (ar : ShpArith) (len : Nat) : Nat → ShpIter → FProg Unit
  | 0, _ => .fail (.custom 0)
  | n + 1, st => FProg.bind (featureNext ar len st) fun r =>
    match r with
    | none => .ret ()
    | some st => featuresLoop ar len n st

/-- `ShpReader::new` and `iter_features` (reader.rs:121-129, 172-187) on a whole file, run to the end: there are at most as many calls of
`next` as rows plus one -/
def shpFeatures (ar : ShpArith) (rows : List (Except Err ShpRow)) : FProg Unit :=
  FProg.bind (FProg.lift readShpHeader) fun h =>
  FProg.bind (FProg.lift (doubleI32 h.fileLength)) fun len =>
    featuresLoop ar (i32AsUsize len) (rows.length + 1) { featno := 0, pos := 100, rows }

/-! ### shx_reader.rs -/

/-- entries of an index file (shx_reader.rs:22-29) -/
def readIndexEntries : Nat → Prog (List (Int × Int))
  | 0 => .ret []
  | n + 1 => do
    let offset ← readI32 .be
    let size ← readI32 .be
    let es ← readIndexEntries n
    .ret ((offset, size) :: es)

/-- `read_index_file` (shx_reader.rs:17-31); a vector of 8-byte entries has a capacity of at most `isize::MAX` bytes -/
def readIndexFile : Prog (List (Int × Int)) := do
  let h ← readShpHeader
  let len ← doubleI32 h.fileLength
  if len - 100 < -(2 ^ 31) then .fail (.panic "attempt to subtract with overflow")
  else
    let num := (len - 100).tdiv 8
    if 2 ^ 63 ≤ i32AsUsize num * 8 then .fail (.panic "capacity overflow")
    else readIndexEntries num.toNat

end Geozero
