import Verif.Spec.ShpFile

/-
Independent specification for opening a shapefile: which index files are accepted, and what they say.
-/

namespace Geozero
namespace Spec

/-- the number of entries an index file announces -/
def indexEntries (bs : List Byte) : Nat := (2 * (i32At .be 24 bs).toNat - 100) / 8

/-- an index file that is accepted: its header is, its length is between 47 and 2^30 - 1 words, and the announced entries are there -/
def IndexAccepted (bs : List Byte) : Prop :=
  HeaderAccepted bs ∧ 47 ≤ i32At .be 24 bs ∧ i32At .be 24 bs < 2 ^ 30 ∧ 100 + 8 * indexEntries bs ≤ bs.length

/-- an index file that makes the reader panic -/
def IndexPanics (bs : List Byte) : Prop :=
  HeaderAccepted bs ∧ (i32At .be 24 bs < 47 ∨ 2 ^ 30 ≤ i32At .be 24 bs)

end Spec
end Geozero
