import Verif.Model.Shp

/-
The readers of shapefile records and index files of Model/Shp.lean once more, with the memory they reserve from the counts of the
record (`Vec::with_capacity(n)`, `vec![0; n]`).  `MProg.erase` forgets the reservations; Lemmas/ShpReserve.lean proves that what is
left is exactly the reader of Model/Shp.lean.

Sizes are those of a 64-bit target: `usize` and `f64` have 8 bytes, a coordinate 16, an index entry 8.  Reallocation by `push` is not
counted: the vectors are reserved in full before anything is pushed.
-/

namespace Geozero

/-- Behaviour of a reader that calls no processor and reserves memory. (shp_reader.rs:126-269, 371-396) -/
inductive MProg (α : Type) : Type
  | ret (a : α)
  | fail (e : Err)
  | read (k : Byte → MProg α)
  /-- reserve so many bytes -/
  | alloc (bytes : Nat) (k : MProg α)

namespace MProg

/-- Sequential composition (`?` after a call). (shp_reader.rs:126-269, 371-396) -/
def bind {α β : Type} : MProg α → (α → MProg β) → MProg β
  | ret a, f => f a
  | fail e, _ => fail e
  | read k, f => read fun b => bind (k b) f
  | alloc n k, f => alloc n (bind k f)

instance : Monad MProg where
  pure := ret
  bind := bind

/-- a reader that reserves nothing and makes no calls (the reads of shp_reader.rs:126-269, 371-396) -/
def ofProg {α : Type} : Prog α → MProg α
  | .ret a => .ret a
  | .fail e => .fail e
  | .read k => .read fun b => ofProg (k b)
  | .emit _ k => ofProg k
  | .askMulti k => ofProg (k false)

/-- the same without the reservations (no counterpart; relates this to `Model/Shp.lean`, shp_reader.rs:126-269) -/
def erase {α : Type} : MProg α → Prog α
  | ret a => .ret a
  | fail e => .fail e
  | read k => .read fun b => erase (k b)
  | alloc _ k => erase k

/-- the bytes reserved in all, and the outcome (no counterpart; runs a reader of shp_reader.rs:126-269) -/
def run {α : Type} : MProg α → List Byte → Nat × Except Err (α × List Byte)
  | ret a, bs => (0, .ok (a, bs))
  | fail e, _ => (0, .error e)
  | read _, [] => (0, .error .io)
  | read k, b :: bs => run (k b) bs
  | alloc n k, bs => (n + (run k bs).1, (run k bs).2)

/-- reserve (`Vec::with_capacity` in shp_reader.rs:248, 372, 380, 391) -/
def reserve (bytes : Nat) : MProg Unit := .alloc bytes (.ret ())

end MProg

open MProg (reserve ofProg)
open Prog (readI32 readN)

/-- `read_bbox` (shp_reader.rs:371-377) -/
def mReadBbox (dims : Nat) : MProg (List F64) := do
  reserve (2 * dims * 8)
  ofProg (readBbox dims)

/-- `read_xy` (shp_reader.rs:379-387) -/
def mReadXYs (n : Nat) : MProg (List XY) := do
  reserve (n * 16)
  ofProg (readXYs n)

/-- `read_dim_values` (shp_reader.rs:389-396) -/
def mReadDimValues (n : Nat) : MProg (List F64) := do
  let _ ← mReadBbox 1
  reserve (n * 8)
  ofProg (readF64List n)

/-- `read_dim_values` under a flag, an empty vector otherwise (shp_reader.rs:153-158, 262-265) -/
def mReadDimValuesIf (b : Bool) (n : Nat) : MProg (List F64) := if b then mReadDimValues n else .ret []

/-- `read_multipoint` (shp_reader.rs:126-161), up to the first event -/
def mReadShpMultipoint (size : Nat) (hasZ : Bool) : MProg ShpShape := do
  let _ ← mReadBbox 2
  let n ← ofProg (readI32 .le)
  let n := i32AsUsize n
  let _ ← ofProg (usizeOk (16 * n))
  let base := 32 + 4 + 16 * n + (if hasZ then dimValueSize n else 0)
  let hasM := decide (size = base + dimValueSize n)
  if size ≠ base + (if hasM then dimValueSize n else 0) then .fail (.shp "InvalidShapeRecordSize")
  else do
    let coords ← mReadXYs n
    let zs ← mReadDimValuesIf hasZ n
    let ms ← mReadDimValuesIf hasM n
    .ret (.multipoint coords zs ms)

/-- `MultiPartShape::read` (shp_reader.rs:231-269), and the first reservation of `MultiPartShape::process`, made before any event:
the vector of `detect_polys` (shp_reader.rs:276) for polygons, of two numbers for polylines (shp_reader.rs:300) -/
def mReadMultiPart (asPoly : Bool) (size : Nat) (hasZ : Bool) : MProg ShpShape := do
  let _ ← mReadBbox 2
  let parts ← ofProg (readI32 .le)
  let points ← ofProg (readI32 .le)
  let parts := i32AsUsize parts
  let points := i32AsUsize points
  let _ ← ofProg (usizeOk (4 * parts))
  let _ ← ofProg (usizeOk (16 * points))
  let base := multipartRecordSize points parts + (if hasZ then dimValueSize points else 0)
  let hasM := decide (size = base + dimValueSize points)
  if size ≠ base ∧ ¬ hasM then .fail (.shp "InvalidShapeRecordSize")
  else do
    reserve ((parts + 1) * 8)
    let index ← ofProg (readParts parts)
    let coords ← mReadXYs points
    let zs ← mReadDimValuesIf hasZ points
    let ms ← mReadDimValuesIf hasM points
    reserve (if asPoly then (index.length + 1) * 8 else 16)
    .ret (.multipart asPoly (index ++ [points]) coords zs ms)

/-- `read_multipatch_shape_content` (shp_reader.rs:205-214) -/
def mReadMultipatch (size : Nat) : MProg ShpShape :=
  if 2 ^ 63 ≤ size then .fail (.panic "capacity overflow")
  else MProg.bind (reserve size) fun _ => MProg.bind (ofProg (readN size)) fun _ => .ret .patch

/-- the reading done by `read_shape_rec` (shp_reader.rs:47-79) -/
def mReadShpContent (recordSize : Nat) : MProg ShpShape := do
  let t ← ofProg readShpType
  if recordSize < 4 then .fail (.panic "attempt to subtract with overflow")
  else
    let size := recordSize - 4
    match t with
    | .point => ofProg (readShpPoint size t)
    | .pointM => ofProg (readShpPoint size t)
    | .pointZ => ofProg (readShpPoint size t)
    | .multipoint => mReadShpMultipoint size false
    | .multipointM => mReadShpMultipoint size false
    | .multipointZ => mReadShpMultipoint size true
    | .polyline => mReadMultiPart false size false
    | .polylineM => mReadMultiPart false size false
    | .polylineZ => mReadMultiPart false size true
    | .polygon => mReadMultiPart true size false
    | .polygonM => mReadMultiPart true size false
    | .polygonZ => mReadMultiPart true size true
    | .multipatch => mReadMultipatch size
    | .null => .ret .null

/-- reading of the record header and the content (shp_reader.rs:26-33, 41-43) -/
def mReadShpRecord : MProg (Int × ShpShape) := do
  let _ ← ofProg (readI32 .be)
  let words ← ofProg (readI32 .be)
  let size ← ofProg (doubleI32 words)
  let s ← mReadShpContent (i32AsUsize size)
  .ret (words, s)

/-- `read_index_file` (shx_reader.rs:17-31) -/
def mReadIndexFile : MProg (List (Int × Int)) := do
  let h ← ofProg readShpHeader
  let len ← ofProg (doubleI32 h.fileLength)
  if len - 100 < -(2 ^ 31) then .fail (.panic "attempt to subtract with overflow")
  else
    let num := (len - 100).tdiv 8
    if 2 ^ 63 ≤ i32AsUsize num * 8 then .fail (.panic "capacity overflow")
    else do
      reserve (i32AsUsize num * 8)
      ofProg (readIndexEntries num.toNat)

end Geozero
