import Verif.Model.Prog

/-
Fixed-width integers on byte strings, as `scroll::{IOread, IOwrite}` provide them
(used throughout wkb_reader.rs / wkb_writer.rs and shp/*.rs).
-/

namespace Geozero

/-- `scroll::Endian` (used in wkb_reader.rs:195-231 and wkb_writer.rs:128-160) -/
inductive Endian
  | le | be
deriving DecidableEq, Repr, Inhabited

/-- `n` bytes of `v`, least significant first (`iowrite_with(v, LE)`; `as` truncation included).
(used in wkb_writer.rs:135-251, 289-433) -/
def toLE : (n v : Nat) → List Byte
  | 0, _ => []
  | n + 1, v => UInt8.ofNat (v % 256) :: toLE n (v / 256)

/-- value of a little-endian byte string (used in wkb_reader.rs:195-318, 396-478, 544-686) -/
def fromLE : List Byte → Nat
  | [] => 0
  | b :: bs => b.toNat + 256 * fromLE bs

/-- `iowrite_with(v, endian)` for an `n`-byte unsigned integer (wkb_writer.rs:135-251, 289-433) -/
def encUInt (e : Endian) (n v : Nat) : List Byte :=
  match e with
  | .le => toLE n v
  | .be => (toLE n v).reverse

/-- value of an unsigned integer stored with byte order `e` (wkb_reader.rs:195-318, 396-478, 544-686) -/
def decUInt (e : Endian) (bs : List Byte) : Nat :=
  match e with
  | .le => fromLE bs
  | .be => fromLE bs.reverse

/-- two's complement reading of a 32-bit pattern: `u32 as i32` (the SRID read in wkb_reader.rs:222, 265, 294, 318) -/
def i32OfNat (n : Nat) : Int := if n < 2 ^ 31 then (n : Int) else (n : Int) - 2 ^ 32

/-- 32-bit pattern of an `i32` (the SRID written in wkb_writer.rs:159, 204, 240) -/
def i32ToNat (i : Int) : Nat := (i % (2 ^ 32 : Int)).toNat

/-- the value range of `i32` (the SRID, wkb_reader.rs:222 and wkb_writer.rs:159) -/
def isI32 (i : Int) : Prop := -(2 ^ 31 : Int) ≤ i ∧ i < (2 ^ 31 : Int)

instance (i : Int) : Decidable (isI32 i) := by unfold isI32; exact inferInstance

namespace Prog

/-- read exactly `n` bytes (used by `ioread_with`, wkb_reader.rs:195-318, 396-478, 544-686) -/
def readN : Nat → Prog (List Byte)
  | 0 => ret []
  | n + 1 => bind readByte fun b => bind (readN n) fun bs => ret (b :: bs)

/-- `raw.ioread_with::<u32>(endian)?` (e.g. wkb_reader.rs:196, 220, 396-478) -/
def readU32 (e : Endian) : Prog Nat := bind (readN 4) fun bs => ret (decUInt e bs)
/-- `raw.ioread_with::<i32>(endian)?` (e.g. wkb_reader.rs:222, 265, 294 and shp_reader.rs:133, 237-250) -/
def readI32 (e : Endian) : Prog Int := bind (readN 4) fun bs => ret (i32OfNat (decUInt e bs))
/-- `raw.ioread_with::<f64>(endian)?` (e.g. wkb_reader.rs:358 and shp_reader.rs:379-396) -/
def readF64 (e : Endian) : Prog F64 := bind (readN 8) fun bs => ret (BitVec.ofNat 64 (decUInt e bs))
/-- `raw.ioread_with::<f32>(endian)?`, as a bit pattern (wkb_reader.rs:524, 544-547) -/
def readF32 (e : Endian) : Prog (BitVec 32) := bind (readN 4) fun bs => ret (BitVec.ofNat 32 (decUInt e bs))

end Prog

/-- `iowrite_with(x, endian)` for `f64` (wkb_writer.rs:201, 251, 289-297) -/
def encF64 (e : Endian) (x : F64) : List Byte := encUInt e 8 x.toNat
/-- `iowrite_with(x as u32, endian)` (wkb_writer.rs:154, 220, 310-433) -/
def encU32 (e : Endian) (n : Nat) : List Byte := encUInt e 4 n
/-- `iowrite_with(x, endian)` for `i32` (wkb_writer.rs:159, 204, 240) -/
def encI32 (e : Endian) (i : Int) : List Byte := encUInt e 4 (i32ToNat i)

end Geozero
