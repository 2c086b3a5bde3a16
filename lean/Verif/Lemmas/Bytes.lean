import Verif.Lemmas.Prog

/- Helper lemmas: fixed-width integer codecs are inverse to each other. -/

namespace Geozero

@[simp] theorem toLE_length (n v : Nat) : (toLE n v).length = n := by
  induction n generalizing v with
  | zero => rfl
  | succ n ih => simp [toLE, ih]

@[simp] theorem encUInt_length (e : Endian) (n v : Nat) : (encUInt e n v).length = n := by
  cases e <;> simp [encUInt]

theorem fromLE_toLE (n v : Nat) : fromLE (toLE n v) = v % 256 ^ n := by
  induction n generalizing v with
  | zero => simp [toLE, fromLE, Nat.mod_one]
  | succ n ih =>
    simp only [toLE, fromLE, ih]
    have h1 : (UInt8.ofNat (v % 256)).toNat = v % 256 := by
      simp [UInt8.toNat_ofNat']
    rw [h1, Nat.pow_succ, Nat.mul_comm (256 ^ n) 256, Nat.mod_mul]

theorem decUInt_encUInt (e : Endian) (n v : Nat) : decUInt e (encUInt e n v) = v % 256 ^ n := by
  cases e <;> simp [decUInt, encUInt, fromLE_toLE]

theorem fromLE_lt (bs : List Byte) : fromLE bs < 256 ^ bs.length := by
  induction bs with
  | nil => simp [fromLE]
  | cons b bs ih =>
    simp only [fromLE, List.length_cons, Nat.pow_succ]
    have hb : b.toNat < 256 := b.toNat_lt
    omega

theorem toLE_fromLE (bs : List Byte) : toLE bs.length (fromLE bs) = bs := by
  induction bs with
  | nil => rfl
  | cons b bs ih =>
    have hb : b.toNat < 256 := b.toNat_lt
    simp only [List.length_cons, toLE, fromLE]
    have h1 : (b.toNat + 256 * fromLE bs) % 256 = b.toNat := by omega
    have h2 : (b.toNat + 256 * fromLE bs) / 256 = fromLE bs := by omega
    rw [h1, h2, ih]
    congr 1
    exact UInt8.ofNat_toNat

@[simp] theorem encU32_length (e : Endian) (v : Nat) : (encU32 e v).length = 4 := by simp [encU32]
@[simp] theorem encI32_length (e : Endian) (v : Int) : (encI32 e v).length = 4 := by simp [encI32]
@[simp] theorem encF64_length (e : Endian) (v : F64) : (encF64 e v).length = 8 := by simp [encF64]

theorem i32OfNat_toNat (i : Int) (h : isI32 i) : i32OfNat (i32ToNat i % 256 ^ 4) = i := by
  unfold isI32 at h
  unfold i32OfNat i32ToNat
  have h1 : ((i % (2 ^ 32 : Int)).toNat : Int) = i % 2 ^ 32 := Int.toNat_of_nonneg (by omega)
  have h2 : (i % (2 ^ 32 : Int)).toNat < 256 ^ 4 := by omega
  rw [Nat.mod_eq_of_lt h2]
  split <;> omega

theorem isI32_i32OfNat (n : Nat) (h : n < 2 ^ 32) : isI32 (i32OfNat n) := by
  unfold isI32 i32OfNat; split <;> omega

namespace Prog

theorem run_readU32 (multi : Bool) (e : Endian) (v : Nat) (rest : List Byte) (h : v < 2 ^ 32) :
    run multi (readU32 e) (encU32 e v ++ rest) = ([], .ok (v, rest)) := by
  unfold readU32
  rw [run_bind_ok_nil (run_readN multi 4 (encU32 e v) rest (by simp))]
  simp only [run_ret, encU32, decUInt_encUInt]
  rw [Nat.mod_eq_of_lt (by omega)]

theorem run_readI32 (multi : Bool) (e : Endian) (v : Int) (rest : List Byte) (h : isI32 v) :
    run multi (readI32 e) (encI32 e v ++ rest) = ([], .ok (v, rest)) := by
  unfold readI32
  rw [run_bind_ok_nil (run_readN multi 4 (encI32 e v) rest (by simp))]
  simp only [run_ret, encI32, decUInt_encUInt]
  rw [i32OfNat_toNat v h]

theorem run_readF64 (multi : Bool) (e : Endian) (v : F64) (rest : List Byte) :
    run multi (readF64 e) (encF64 e v ++ rest) = ([], .ok (v, rest)) := by
  unfold readF64
  rw [run_bind_ok_nil (run_readN multi 8 (encF64 e v) rest (by simp))]
  simp only [run_ret, encF64, decUInt_encUInt]
  have : v.toNat < 256 ^ 8 := by have := v.isLt; omega
  rw [Nat.mod_eq_of_lt this]
  simp

end Prog
end Geozero
