import Verif.Lemmas.Cost
import Verif.Model.WkbWriter
import Verif.Lemmas.Bytes

/-
How much the WKB writer writes for each call.
-/

namespace Geozero
open Prog

/-- if every call adds at most `c` to a measure of the state, a run adds at most `c` times its calls -/
theorem Prog.measure_le {σ α : Type} (P : Proc σ) (μ : σ → Nat) (c : Nat)
    (h : ∀ s e s', P.step s e = .ok s' → μ s' ≤ μ s + c) (p : Prog α) (s : σ) (bs : List Byte) :
    μ (interp P p s bs).1 ≤ μ s + c * (interp P p s bs).2.1.length := by
  induction p generalizing s bs with
  | ret a => simp [interp]
  | fail e => simp [interp]
  | read k ih =>
    cases bs with
    | nil => simp [interp]
    | cons b bs => exact ih b s bs
  | emit e k ih =>
    simp only [interp]
    cases hs : P.step s e with
    | error x => simp
    | ok s' =>
      have h1 := h s e s' hs
      have h2 := ih s' bs
      show μ (interp P k s' bs).1 ≤ μ s + c * ((interp P k s' bs).2.1.length + 1)
      rw [Nat.mul_add]
      omega
  | askMulti k ih => exact ih _ s bs

namespace WkbWriter

/-- the bytes written and those still to be written in front of the first geometry, which depend on the envelope -/
def mass (w : WkbWriter) : Nat := w.out.length + if w.firstHeader then 39 + 8 * w.envelope.length else 0

theorem length_flatMap_f64 (e : Endian) (l : List F64) : (l.flatMap (encF64 e)).length = 8 * l.length := by
  induction l with
  | nil => rfl
  | cons a l ih => simp only [List.flatMap_cons, List.length_append, encF64_length, ih, List.length_cons]; omega

theorem length_coordBytes (e : Endian) (d : Dims) (x y : F64) (z m : Option F64) : (coordBytes e d x y z m).length ≤ 32 := by
  unfold coordBytes
  simp only [List.length_append, encF64_length]
  split <;> split <;> simp [encF64_length]

theorem mass_put (w : WkbWriter) (bs : List Byte) : (w.put bs).mass = w.mass + bs.length := by
  unfold put mass; simp only [List.length_append]; split <;> omega

theorem mass_writeWkbHeader (w : WkbWriter) (t : WkbType) : (w.writeWkbHeader t).mass = w.mass + 5 := by
  rw [writeWkbHeader, mass_put]; simp [encU32_length]

theorem mass_writeHeader (w : WkbWriter) (t : WkbType) (w' : WkbWriter) (h : w.writeHeader t = .ok w') : w'.mass ≤ w.mass + 5 := by
  unfold writeHeader at h
  split at h
  · obtain rfl := (Except.ok.inj h).symm
    rw [mass_writeWkbHeader]; omega
  · obtain rfl := (Except.ok.inj h).symm
    unfold writeEwkbHeader
    by_cases hf : w.firstHeader = true
    · cases hs : w.srid <;> simp [mass, put, hf, hs, encU32_length, encI32_length] <;> omega
    · simp [mass, put, hf, encU32_length]
  · split at h
    · next hf =>
      obtain rfl := (Except.ok.inj h).symm
      rw [mass_writeWkbHeader]
      simp only [mass, writeGpkgHeader, put, List.length_append, encI32_length, length_flatMap_f64, hf]
      simp only [List.length_cons, List.length_nil, if_true, Bool.false_eq_true, if_false]
      omega
    · obtain rfl := (Except.ok.inj h).symm
      rw [mass_writeWkbHeader]; omega
  · split at h
    · next hf =>
      split at h
      · next w1 h1 =>
        obtain rfl := (Except.ok.inj h).symm
        rw [mass_writeWkbHeader]
        have : w1.out.length = w.out.length + 4 := by
          unfold writeMysqlHeader at h1
          split at h1
          · obtain rfl := (Except.ok.inj h1).symm
            simp [put, encU32_length]
          · split at h1
            · obtain rfl := (Except.ok.inj h1).symm
              simp [put, encU32_length]
            · cases h1
        simp only [mass, hf, this]
        simp
        omega
      · cases h
    · obtain rfl := (Except.ok.inj h).symm
      rw [mass_writeWkbHeader]; omega
  · obtain rfl := (Except.ok.inj h).symm
    unfold writeSpatialiteHeader
    by_cases hf : w.firstHeader = true
    · have : ((if w.envelope.isEmpty then [F64.zero, F64.zero, F64.zero, F64.zero] else w.envelope).flatMap (encF64 w.endian)).length
          ≤ 32 + 8 * w.envelope.length := by
        rw [length_flatMap_f64]
        split <;> simp <;> omega
      simp only [hf, if_true, mass_put, encU32_length]
      simp only [mass, put, List.length_append, encI32_length, hf]
      simp only [List.length_cons, List.length_nil, if_true]
      simp only [Bool.false_eq_true, if_false]
      omega
    · simp only [hf, mass_put, encU32_length]
      simp only [Bool.false_eq_true, if_false, mass_put, List.length_cons, List.length_nil]
      omega

theorem mass_headerAndSize (w : WkbWriter) (t : WkbType) (n : Nat) (w' : WkbWriter) (h : w.headerAndSize t n = .ok w') :
    w'.mass ≤ w.mass + 9 := by
  unfold headerAndSize at h
  split at h
  · next w1 h1 =>
    obtain rfl := (Except.ok.inj h).symm
    have := mass_writeHeader w t w1 h1
    rw [mass_put, encU32_length]; omega
  · cases h

theorem mass_gbegin (w : WkbWriter) (k : GKind) (n : Nat) (w' : WkbWriter) (h : w.gbegin k n = .ok w') : w'.mass ≤ w.mass + 9 := by
  have hn : ∀ (j : Nat) (t : WkbType) (w1 : WkbWriter), { w with nestingLevel := j }.headerAndSize t n = .ok w1 → w1.mass ≤ w.mass + 9 :=
    fun j t w1 h1 => mass_headerAndSize { w with nestingLevel := j } _ _ _ h1
  unfold gbegin at h
  split at h
  · have := mass_writeHeader w _ _ h; omega
  · split at h
    · next w1 h1 =>
      obtain rfl := (Except.ok.inj h).symm
      exact hn _ _ w1 h1
    · cases h
  · split at h
    · exact mass_headerAndSize _ _ _ _ h
    · obtain rfl := (Except.ok.inj h).symm
      rw [mass_put, encU32_length]; omega
  · split at h
    · next w1 h1 =>
      obtain rfl := (Except.ok.inj h).symm
      exact mass_headerAndSize _ _ _ w1 h1
    · cases h
  · split at h
    · next w1 h1 =>
      obtain rfl := (Except.ok.inj h).symm
      exact mass_headerAndSize _ _ _ w1 h1
    · cases h
  · split at h
    · exact hn _ _ _ h
    · exact mass_headerAndSize _ _ _ _ h

theorem mass_writeFooter (w : WkbWriter) : w.writeFooter.mass ≤ w.mass + 1 := by
  unfold writeFooter
  split
  · rw [mass_put]; simp
  · omega

theorem mass_nestDec (w w' : WkbWriter) (h : w.nestDec = .ok w') : w'.mass = w.mass := by
  unfold nestDec at h
  split at h
  · cases h
  · obtain rfl := (Except.ok.inj h).symm
    rfl

theorem mass_gend (w : WkbWriter) (k : GKind) (w' : WkbWriter) (h : w.gend k = .ok w') : w'.mass ≤ w.mass + 1 := by
  unfold gend at h
  split at h
  · split at h
    · next w1 h1 =>
      obtain rfl := (Except.ok.inj h).symm
      have h2 := mass_nestDec _ _ h1
      have h3 := mass_writeFooter { w1 with geomState := .normal }
      have h4 : WkbWriter.mass { w1 with geomState := .normal } = w1.mass := rfl
      omega
    · cases h
  · obtain rfl := (Except.ok.inj h).symm
    exact mass_writeFooter { w with geomState := .normal }
  · obtain rfl := (Except.ok.inj h).symm
    exact mass_writeFooter { w with geomState := .normal }
  · split at h
    · split at h
      · next w1 h1 =>
        obtain rfl := (Except.ok.inj h).symm
        have h2 := mass_nestDec _ _ h1
        have h3 := mass_writeFooter w1
        omega
      · cases h
    · obtain rfl := (Except.ok.inj h).symm
      exact mass_writeFooter w

theorem mass_coordinate (w : WkbWriter) (x y : F64) (z m : Option F64) (w' : WkbWriter) (h : w.coordinate x y z m = .ok w') :
    w'.mass ≤ w.mass + 37 := by
  unfold coordinate at h
  split at h
  · split at h
    · next w1 h1 =>
      obtain rfl := (Except.ok.inj h).symm
      have := mass_writeHeader _ _ _ h1
      have := length_coordBytes w1.endian w1.dims x y z m
      rw [mass_put]; omega
    · cases h
  · obtain rfl := (Except.ok.inj h).symm
    have := length_coordBytes w.endian w.dims x y z m
    rw [mass_put]; omega

theorem mass_step (w : WkbWriter) (e : Ev) (w' : WkbWriter) (h : w.step e = .ok w') : w'.mass ≤ w.mass + 37 := by
  cases e with
  | srid _ => obtain rfl := (Except.ok.inj h).symm; omega
  | xy x y _ => exact mass_coordinate _ _ _ _ _ _ h
  | coord x y z m _ _ _ => exact mass_coordinate _ _ _ _ _ _ h
  | emptyPoint _ => cases h
  | gbegin k _ n _ => have := mass_gbegin w k n w' h; omega
  | gend k _ _ => have := mass_gend w k w' h; omega

end WkbWriter

end Geozero
