import Verif.Spec.Values

namespace Geozero

theorem digitChar (d : Nat) (h : d < 10) : (Char.ofNat (48 + d)).isDigit = true ∧ (Char.ofNat (48 + d)).toNat = 48 + d := by
  have : d = 0 ∨ d = 1 ∨ d = 2 ∨ d = 3 ∨ d = 4 ∨ d = 5 ∨ d = 6 ∨ d = 7 ∨ d = 8 ∨ d = 9 := by omega
  rcases this with rfl | rfl | rfl | rfl | rfl | rfl | rfl | rfl | rfl | rfl <;> decide

theorem digitVal_ofNat (d : Nat) (h : d < 10) : digitVal (Char.ofNat (48 + d)) = some d := by
  obtain ⟨h1, h2⟩ := digitChar d h
  simp [digitVal, h1, h2]

theorem digitsVal_append (acc : Nat) (a b : Text) :
    digitsVal acc (a ++ b) = (digitsVal acc a).bind fun n => digitsVal n b := by
  induction a generalizing acc with
  | nil => rfl
  | cons c a ih =>
    simp only [List.cons_append, digitsVal]
    cases digitVal c with
    | none => rfl
    | some d => exact ih _

theorem natText_ne_nil (n : Nat) : natText n ≠ [] := by
  unfold natText
  split <;> simp

theorem natText_digits (n : Nat) : ∀ c ∈ natText n, c.isDigit = true := by
  induction n using Nat.strongRecOn with
  | _ n ih =>
    intro c hc
    rw [natText] at hc
    split at hc
    · rename_i h
      simp only [List.mem_singleton] at hc
      subst hc
      exact (digitChar n h).1
    · rename_i h
      rcases List.mem_append.mp hc with hc | hc
      · exact ih (n / 10) (by omega) c hc
      · simp only [List.mem_singleton] at hc
        subst hc
        exact (digitChar (n % 10) (by omega)).1

theorem digitsVal_natText (n : Nat) : digitsVal 0 (natText n) = some n := by
  induction n using Nat.strongRecOn with
  | _ n ih =>
    rw [natText]
    split
    · rename_i h
      simp [digitsVal, digitVal_ofNat n h]
    · rename_i h
      rw [digitsVal_append, ih (n / 10) (by omega)]
      simp only [Option.bind_some, digitsVal, digitVal_ofNat (n % 10) (by omega)]
      congr 1
      omega

theorem decimal_intText (i : Int) : decimal (intText i) = some i := by
  have hne := natText_ne_nil i.natAbs
  have hv := digitsVal_natText i.natAbs
  have hd := natText_digits i.natAbs
  unfold intText
  cases ht : natText i.natAbs with
  | nil => exact absurd ht hne
  | cons c t =>
    rw [ht] at hv hd
    by_cases hi : i < 0
    · simp only [hi, if_true, decimal, hv]
      show some (-((i.natAbs : Nat) : Int)) = some i
      congr 1
      omega
    · simp only [hi, if_false]
      have hc : c ≠ '-' := by
        intro h
        have := hd c (by simp)
        rw [h] at this
        revert this
        decide
      unfold decimal
      split
      · rename_i h; cases h
      · rename_i h; simp only [List.cons.injEq] at h; exact absurd h.1 hc
      · rw [hv]
        show some ((i.natAbs : Nat) : Int) = some i
        congr 1
        omega

end Geozero
