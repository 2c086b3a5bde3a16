import Verif.Spec.Shp
/-!
Where the records of a shapefile begin, for an iteration that reads one after the other.
-/
namespace Geozero
namespace Spec

/-- The places in a file at which an iteration looks for a record: the end of the header; after a null shape, the end of its type; after any
other shape, the end of the declared content. -/
inductive RecordAt (bs : List Byte) : Nat → Prop
  | first : RecordAt bs 100
  | afterNull (k : Nat) : RecordAt bs k → i32At .le (k + 8) bs = 0 → RecordAt bs (k + 12)
  | afterShape (k n : Nat) : RecordAt bs k → i32At .le (k + 8) bs ≠ 0 → i32At .be (k + 4) bs = n →
    RecordAt bs (k + 8 + 2 * n)

/-- a header the reader accepts: 100 bytes, file code 9994, a known shape type -/
def HeaderAccepted (bs : List Byte) : Prop :=
  100 ≤ bs.length ∧ i32At .be 0 bs = 9994 ∧ i32At .le 32 bs ∈ ([0, 1, 3, 5, 8, 11, 13, 15, 18, 21, 23, 25, 28, 31] : List Int)

/-- An iteration through a file whose header announces `len` bytes comes to its `i`-th record (from 0) at offset `k`, having counted `pos`
bytes: the records before it were accepted, of a length that is not negative, and begin before the announced end.  Offset and count differ
after a null shape that declares more than its type. -/
inductive Reaches (bs : List Byte) (len : Nat) : Nat → Nat → Nat → Prop
  | first : Reaches bs len 0 100 100
  | afterNull (i k pos n : Nat) : Reaches bs len i k pos → pos < len → RecordAccepted (bs.drop k) →
    i32At .be (k + 4) bs = n → i32At .le (k + 8) bs = 0 → Reaches bs len (i + 1) (k + 12) (pos + 8 + 2 * n)
  | afterShape (i k pos n : Nat) : Reaches bs len i k pos → pos < len → RecordAccepted (bs.drop k) →
    i32At .be (k + 4) bs = n → i32At .le (k + 8) bs ≠ 0 → Reaches bs len (i + 1) (k + 8 + 2 * n) (pos + 8 + 2 * n)

/-- the record at `k` panics, or is accepted with a negative length (a null shape), which cannot be added to the count -/
def StopsAt (bs : List Byte) (k : Nat) : Prop :=
  RecordPanics (bs.drop k) ∨ RecordAccepted (bs.drop k) ∧ i32At .be (k + 4) bs < 0

/-- the number of bytes the header announces; a negative length is taken for a huge one -/
def announced (bs : List Byte) : Nat :=
  if 0 ≤ i32At .be 24 bs then (2 * i32At .be 24 bs).toNat else (2 ^ 64 + 2 * i32At .be 24 bs).toNat

/-- The files that make an iteration over at most `rows` records panic: the header is accepted, and the announced length cannot be doubled in
32 bits, or the iteration comes to a record that makes it stop. -/
def FilePanics (rows : Option Nat) (bs : List Byte) : Prop :=
  HeaderAccepted bs ∧ (2 ^ 30 ≤ i32At .be 24 bs ∨ i32At .be 24 bs < -2 ^ 30 ∨
    ∃ i k pos, Reaches bs (announced bs) i k pos ∧ pos < announced bs ∧ (∀ n, rows = some n → i < n) ∧ StopsAt bs k)

end Spec
end Geozero
