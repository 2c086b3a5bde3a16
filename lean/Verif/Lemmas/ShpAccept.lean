import Verif.Lemmas.ShpExact

/- Helper lemmas: exactly which shapefile records are accepted. -/

namespace Geozero
open Prog Spec

/-- The reader makes no calls and succeeds iff `A`. -/
def ShpAcc {α : Type} (multi : Bool) (p : Prog α) (bs : List Byte) (A : Prop) : Prop :=
  ∃ r, run multi p bs = ([], r) ∧
    match r with
    | .error _ => ¬ A
    | .ok _ => A

section
variable {α β : Type} {multi : Bool} {A : Prop}

theorem ShpAcc.got {p : Prog α} {bs : List Byte} {n : Nat} {Q : α → Prop} (h : ShpGot multi p bs n Q) (hA : A ↔ n ≤ bs.length) :
    ShpAcc multi p bs A := by
  by_cases hn : n ≤ bs.length
  · obtain ⟨a, ha, hr⟩ := h.2 hn
    exact ⟨_, hr, hA.mpr hn⟩
  · exact ⟨_, h.1 (by omega), fun h => hn (hA.mp h)⟩

theorem ShpAcc.bind {p : Prog α} {f : α → Prog β} {bs : List Byte} {n : Nat} {Q : α → Prop}
    (hp : ShpGot multi p bs n Q) (hA : A → n ≤ bs.length)
    (hf : ∀ a, n ≤ bs.length → Q a → ShpAcc multi (f a) (bs.drop n) A) : ShpAcc multi (Prog.bind p f) bs A := by
  by_cases hn : n ≤ bs.length
  · obtain ⟨a, ha, hr⟩ := hp.2 hn
    obtain ⟨r, h1, h2⟩ := hf a hn ha
    exact ⟨r, by rw [run_bind_ok_nil hr, h1], h2⟩
  · exact ⟨_, run_bind_err (hp.1 (by omega)), fun h => hn (hA h)⟩

theorem ShpAcc.fail {e : Err} {bs : List Byte} (hA : ¬ A) : ShpAcc multi (.fail e : Prog α) bs A := ⟨_, rfl, hA⟩

theorem ShpAcc.ret {a : α} {bs : List Byte} (hA : A) : ShpAcc multi (.ret a) bs A := ⟨_, rfl, hA⟩

theorem ShpAcc.ite {c : Prop} [Decidable c] {p q : Prog α} {bs : List Byte} (hp : c → ShpAcc multi p bs A)
    (hq : ¬ c → ShpAcc multi q bs A) : ShpAcc multi (if c then p else q) bs A := by
  by_cases h : c
  · rw [if_pos h]; exact hp h
  · rw [if_neg h]; exact hq h

theorem ShpAcc.usize {n : Nat} {f : Nat → Prog α} {bs : List Byte} (hX : ¬ n < 2 ^ 64 → ¬ A)
    (hf : n < 2 ^ 64 → ShpAcc multi (f n) bs A) : ShpAcc multi (Prog.bind (usizeOk n) f) bs A := by
  unfold usizeOk
  by_cases hn : n < 2 ^ 64
  · rw [if_pos hn]; exact hf hn
  · rw [if_neg hn]; exact ShpAcc.fail (hX hn)

theorem ShpAcc.congr {p : Prog α} {bs : List Byte} {A' : Prop} (h : ShpAcc multi p bs A) (hA : A ↔ A') : ShpAcc multi p bs A' := by
  rw [← propext hA]; exact h

theorem ShpAcc.point (size : Nat) (t : ShpType) (bs : List Byte) (A : Prop)
    (hA : A ↔ (size = if t = .pointZ then (if size = 32 then 32 else 24) else if t = .pointM then 24 else 16) ∧ size ≤ bs.length) :
    ShpAcc multi (readShpPoint size t) bs A := by
  unfold readShpPoint
  simp only
  generalize hm : (decide (t = .pointM) || (decide (t = .pointZ) && decide (size = 32))) = m
  generalize hz : decide (t = .pointZ) = z
  have hd : (2 + (if z = true then 1 else 0) + (if m = true then 1 else 0)) * 8 =
      if t = .pointZ then (if size = 32 then 32 else 24) else if t = .pointM then 24 else 16 := by
    subst hm hz
    by_cases h1 : t = .pointZ
    · subst h1
      by_cases h2 : size = 32 <;> simp [h2]
    · by_cases h2 : t = .pointM <;> simp [h1, h2]
  rw [← hd] at hA
  refine ShpAcc.ite (fun h => ShpAcc.fail fun ha => h (hA.mp ha).1) fun h => ?_
  have h := Decidable.not_not.mp h
  have hg := ShpGot.bind (multi := multi) (bs := bs) (ShpGot.readF64 (e := .le)) fun x _ _ => ShpGot.bind (ShpGot.readF64 (e := .le)) fun y _ _ =>
    ShpGot.bind (ShpGot.readF64If (b := z)) fun zv _ _ => ShpGot.bind (ShpGot.readF64If (b := m)) fun mv _ _ =>
    ShpGot.ret (a := ShpShape.point x y zv mv) (Q := fun _ => True) trivial
  refine ShpAcc.got hg ?_
  rw [hA]
  have he : 8 + (8 + ((if z = true then 8 else 0) + ((if m = true then 8 else 0) + 0))) = size := by
    rw [h]; cases z <;> cases m <;> rfl
  rw [he]
  exact ⟨fun h => h.2, fun hl => ⟨h, hl⟩⟩

theorem ShpAcc.multipoint (size : Nat) (hasZ : Bool) (bs : List Byte) :
    ShpAcc multi (readShpMultipoint size hasZ) bs (∃ n : Nat, i32At .le 32 bs = n ∧
      (size = 36 + 16 * n + (if hasZ then 16 + 8 * n else 0) ∨
        size = 36 + 16 * n + (if hasZ then 16 + 8 * n else 0) + (16 + 8 * n)) ∧ size ≤ bs.length) := by
  unfold readShpMultipoint
  have hr := i32At_range .le 32 bs
  generalize hBd : (∃ n : Nat, _) = A
  have hA36 : A → 36 ≤ bs.length := by
    subst hBd
    rintro ⟨n, -, h, h'⟩
    omega
  refine ShpAcc.bind (n := 8 * (2 * 2)) (ShpGot.readF64List) (fun h => by have := hA36 h; omega) fun _ h32 _ => ?_
  refine ShpAcc.bind (n := 4) ShpGot.readI32 (fun h => by have := hA36 h; rw [List.length_drop]; omega) fun v h4 hv => ?_
  rw [List.length_drop] at h4
  rw [i32At_drop] at hv
  simp only [Nat.reduceMul, Nat.add_zero] at hv
  subst hv
  refine ShpAcc.usize (fun hn => ?_) fun hn => ?_
  · subst hBd
    rintro ⟨n, h, -⟩
    have := usize_nonneg hr (by omega)
    omega
  obtain ⟨hn1, hn2⟩ := usize_count hr (by omega)
  simp only
  generalize i32AsUsize (i32At .le 32 bs) = n at *
  have hAsize : A ↔ (size = 36 + 16 * n + (if hasZ then 16 + 8 * n else 0) ∨
        size = 36 + 16 * n + (if hasZ then 16 + 8 * n else 0) + (16 + 8 * n)) ∧ size ≤ bs.length := by
    subst hBd
    constructor
    · rintro ⟨n', h1, h⟩
      have : n' = n := by omega
      subst n'
      exact h
    · exact fun h => ⟨n, hn1, h⟩
  unfold dimValueSize
  rw [show 32 + 4 + 16 * n + (if hasZ = true then 16 + n * 8 else 0) =
    36 + 16 * n + (if hasZ = true then 16 + 8 * n else 0) by simp only [Nat.mul_comm n 8], Nat.mul_comm n 8]
  generalize hzz : (if hasZ = true then 16 + 8 * n else 0) = zlen at *
  generalize hM : decide (size = 36 + 16 * n + zlen + (16 + 8 * n)) = hasM
  refine ShpAcc.ite (fun h => ShpAcc.fail ?_) fun hsz => ?_
  · rw [hAsize]
    cases hasM
    · simp at hM h; omega
    · simp at hM h; omega
  · have hsz' : size = 36 + (16 * n + ((if hasZ then dimValueSize n else 0) + ((if hasM then dimValueSize n else 0) + 0))) := by
      unfold dimValueSize
      rw [Nat.mul_comm n 8, hzz]
      cases hasM
      · simp at hM hsz ⊢; omega
      · simp at hM hsz ⊢; omega
    have hg := ShpGot.bind (multi := multi) (bs := (bs.drop 32).drop 4) (ShpGot.readXYs (n := n)) fun cs _ hcs =>
      ShpGot.bind (ShpGot.readDimValuesIf (b := hasZ) (n := n)) fun zs _ hzs =>
      ShpGot.bind (ShpGot.readDimValuesIf (b := hasM) (n := n)) fun ms _ hms =>
      ShpGot.ret (a := ShpShape.multipoint cs zs ms) (Q := fun _ => True) trivial
    refine ShpAcc.got hg ?_
    rw [hAsize, List.length_drop, List.length_drop]
    cases hasM
    · simp at hM hsz; omega
    · simp at hM hsz; omega

theorem ShpAcc.multiPart (asPoly : Bool) (size : Nat) (hasZ : Bool) (bs : List Byte) :
    ShpAcc multi (readMultiPart asPoly size hasZ) bs
      (∃ n m : Nat, i32At .le 32 bs = n ∧ i32At .le 36 bs = m ∧
        (size = 40 + 4 * n + 16 * m + (if hasZ then 16 + 8 * m else 0) ∨
          size = 40 + 4 * n + 16 * m + (if hasZ then 16 + 8 * m else 0) + (16 + 8 * m)) ∧ size ≤ bs.length) := by
  have hr := i32At_range .le 32 bs
  have hr2 := i32At_range .le 36 bs
  unfold readMultiPart
  generalize hBd : (∃ n m : Nat, _) = A
  have hA40 : A → 40 ≤ bs.length := by
    subst hBd
    rintro ⟨n, m, -, -, h, h'⟩
    omega
  refine ShpAcc.bind (n := 8 * (2 * 2)) (ShpGot.readF64List) (fun h => by have := hA40 h; omega) fun _ h32 _ => ?_
  refine ShpAcc.bind (n := 4) ShpGot.readI32 (fun h => by have := hA40 h; rw [List.length_drop]; omega) fun v h4 hv => ?_
  rw [List.length_drop] at h4
  rw [i32At_drop] at hv
  simp only [Nat.reduceMul, Nat.add_zero] at hv
  subst hv
  refine ShpAcc.bind (n := 4) ShpGot.readI32
    (fun h => by have := hA40 h; rw [List.length_drop, List.length_drop]; omega) fun v h4' hv => ?_
  rw [List.length_drop, List.length_drop] at h4'
  rw [i32At_drop, i32At_drop] at hv
  simp only [Nat.reduceMul, Nat.add_zero, Nat.reduceAdd] at hv
  subst hv
  simp only
  refine ShpAcc.usize (fun hn => ?_) fun hn => ?_
  · subst hBd
    rintro ⟨n, m, h, -⟩
    have := usize_nonneg hr (by omega)
    omega
  refine ShpAcc.usize (fun hn => ?_) fun hn' => ?_
  · subst hBd
    rintro ⟨n, m, -, h, -⟩
    have := usize_nonneg hr2 (by omega)
    omega
  obtain ⟨hn1, hn2⟩ := usize_count hr hn
  obtain ⟨hm1, hm2⟩ := usize_count hr2 (by omega)
  generalize i32AsUsize (i32At .le 32 bs) = n at *
  generalize i32AsUsize (i32At .le 36 bs) = m at *
  have hAsize : A ↔ (size = 40 + 4 * n + 16 * m + (if hasZ then 16 + 8 * m else 0) ∨
      size = 40 + 4 * n + 16 * m + (if hasZ then 16 + 8 * m else 0) + (16 + 8 * m)) ∧ size ≤ bs.length := by
    subst hBd
    constructor
    · rintro ⟨n', m', h1, h2, h⟩
      have : n' = n := by omega
      have : m' = m := by omega
      subst n' m'
      exact h
    · exact fun h => ⟨n, m, hn1, hm1, h⟩
  unfold multipartRecordSize dimValueSize
  rw [show 32 + 4 + 4 + 4 * n + 16 * m + (if hasZ = true then 16 + m * 8 else 0) + (16 + m * 8) =
    40 + 4 * n + 16 * m + (if hasZ = true then 16 + 8 * m else 0) + (16 + 8 * m) by simp only [Nat.mul_comm m 8],
    show 32 + 4 + 4 + 4 * n + 16 * m + (if hasZ = true then 16 + m * 8 else 0) =
    40 + 4 * n + 16 * m + (if hasZ = true then 16 + 8 * m else 0) by simp only [Nat.mul_comm m 8]]
  generalize hzz : (if hasZ = true then 16 + 8 * m else 0) = zlen at *
  refine ShpAcc.ite (fun h => ShpAcc.fail ?_) fun hsz => ?_
  · rw [hAsize]
    simp only [decide_eq_true_eq] at h
    omega
  · have hsz : size = 40 + 4 * n + 16 * m + zlen ∨ size = 40 + 4 * n + 16 * m + zlen + (16 + 8 * m) := by
      simp only [decide_eq_true_eq] at hsz
      omega
    generalize hM : decide (size = 40 + 4 * n + 16 * m + zlen + (16 + 8 * m)) = hasM
    have hsz' : size = 40 + (4 * n + (16 * m + ((if hasZ then dimValueSize m else 0) + ((if hasM then dimValueSize m else 0) + 0)))) := by
      unfold dimValueSize
      rw [Nat.mul_comm m 8, hzz]
      cases hasM
      · simp at hM ⊢; omega
      · simp at hM ⊢; omega
    have hg := ShpGot.bind (multi := multi) (bs := ((bs.drop 32).drop 4).drop 4) (ShpGot.readParts (n := n)) fun idx _ hidx =>
      ShpGot.bind (ShpGot.readXYs (n := m)) fun cs _ hcs =>
      ShpGot.bind (ShpGot.readDimValuesIf (b := hasZ) (n := m)) fun zs _ hzs =>
      ShpGot.bind (ShpGot.readDimValuesIf (b := hasM) (n := m)) fun ms _ hms =>
      ShpGot.ret (a := ShpShape.multipart asPoly (idx ++ [m]) cs zs ms) (Q := fun _ => True) trivial
    refine ShpAcc.got hg ?_
    rw [hAsize, List.length_drop, List.length_drop, List.length_drop]
    constructor
    · rintro ⟨-, h⟩; omega
    · intro h; exact ⟨hsz, by omega⟩

/-- the record is read -/
def ReadAccepted (bs : List Byte) : Prop :=
  12 ≤ bs.length ∧ -2 ^ 30 ≤ i32At .be 4 bs ∧ i32At .be 4 bs < 2 ^ 30 ∧
    (i32At .le 8 bs = 0 ∧ i32At .be 4 bs ≠ 0 ∧ i32At .be 4 bs ≠ 1 ∨
      2 ≤ i32At .be 4 bs ∧ 8 + 2 * i32At .be 4 bs ≤ bs.length ∧ LengthFits bs)

theorem ShpAcc.content (bs : List Byte) (h12 : 12 ≤ bs.length) (t : ShpType) (ht : i32At .le 8 bs = t.code)
    (hw : -2 ^ 30 ≤ i32At .be 4 bs ∧ i32At .be 4 bs < 2 ^ 30)
    (hw2 : i32At .be 4 bs < 0 ∨ 2 ≤ i32At .be 4 bs) :
    ShpAcc multi (match t with
    | .point => readShpPoint (i32AsUsize (i32At .be 4 bs * 2) - 4) t
    | .pointM => readShpPoint (i32AsUsize (i32At .be 4 bs * 2) - 4) t
    | .pointZ => readShpPoint (i32AsUsize (i32At .be 4 bs * 2) - 4) t
    | .multipoint => readShpMultipoint (i32AsUsize (i32At .be 4 bs * 2) - 4) false
    | .multipointM => readShpMultipoint (i32AsUsize (i32At .be 4 bs * 2) - 4) false
    | .multipointZ => readShpMultipoint (i32AsUsize (i32At .be 4 bs * 2) - 4) true
    | .polyline => readMultiPart false (i32AsUsize (i32At .be 4 bs * 2) - 4) false
    | .polylineM => readMultiPart false (i32AsUsize (i32At .be 4 bs * 2) - 4) false
    | .polylineZ => readMultiPart false (i32AsUsize (i32At .be 4 bs * 2) - 4) true
    | .polygon => readMultiPart true (i32AsUsize (i32At .be 4 bs * 2) - 4) false
    | .polygonM => readMultiPart true (i32AsUsize (i32At .be 4 bs * 2) - 4) false
    | .polygonZ => readMultiPart true (i32AsUsize (i32At .be 4 bs * 2) - 4) true
    | .multipatch => readMultipatch (i32AsUsize (i32At .be 4 bs * 2) - 4)
    | .null => .ret .null) (bs.drop 12) (ReadAccepted bs) := by
  have hA : ReadAccepted bs ↔ (i32At .le 8 bs = 0 ∨ 2 ≤ i32At .be 4 bs ∧ 8 + 2 * i32At .be 4 bs ≤ bs.length ∧ LengthFits bs) := by
    unfold ReadAccepted
    constructor
    · rintro ⟨-, -, -, ⟨h, -⟩ | h⟩
      · exact Or.inl h
      · exact Or.inr h
    · rintro (h | h)
      · exact ⟨h12, by omega, by omega, Or.inl ⟨h, by omega, by omega⟩⟩
      · exact ⟨h12, by omega, by omega, Or.inr h⟩
  rw [propext hA]
  clear hA
  have hneg : i32At .be 4 bs < 0 → 2 ^ 63 + 4 ≤ i32AsUsize (i32At .be 4 bs * 2) ∧ i32AsUsize (i32At .be 4 bs * 2) < 2 ^ 64 := by
    intro h; unfold i32AsUsize; omega
  have hpos : 0 ≤ i32At .be 4 bs → (i32AsUsize (i32At .be 4 bs * 2) : Int) = i32At .be 4 bs * 2 := by
    intro h; unfold i32AsUsize; omega
  have hl : (bs.drop 12).length = bs.length - 12 := List.length_drop
  generalize hR : i32AsUsize (i32At .be 4 bs * 2) = R at hneg hpos ⊢
  have mem : ∀ c : Int, c ∈ ([8, 18, 28] : List Int) ↔ (c = 8 ∨ c = 18 ∨ c = 28) := by intro c; simp
  have mem2 : ∀ c : Int, c ∈ ([3, 5, 13, 15, 23, 25] : List Int) ↔ (c = 3 ∨ c = 5 ∨ c = 13 ∨ c = 15 ∨ c = 23 ∨ c = 25) := by intro c; simp
  have hr1 := i32At_range .le 44 bs
  have hr2 := i32At_range .le 48 bs
  unfold isI32 at hr1 hr2
  have mp : ∀ z (c : Int), i32At .le 8 bs = c → c ∈ ([8, 18, 28] : List Int) → z = decide (c = 18) →
      ShpAcc multi (readShpMultipoint (R - 4) z) (bs.drop 12) (i32At .le 8 bs = 0 ∨ 2 ≤ i32At .be 4 bs ∧ 8 + 2 * i32At .be 4 bs ≤ bs.length ∧ LengthFits bs) := by
    intro z c hc hc' hz
    refine (ShpAcc.multipoint _ _ _).congr ?_
    unfold LengthFits
    rw [hc, i32At_drop, hl]
    have e1 : c ∈ ([8, 18, 28] : List Int) ↔ True := iff_of_true hc' trivial
    rw [mem] at hc'
    have e2 : c ∈ ([3, 5, 13, 15, 23, 25] : List Int) ↔ False := iff_of_false (by rw [mem2]; omega) id
    rw [propext e1, propext e2]
    constructor
    · rintro ⟨n, h1, h2, h3⟩
      simp only [Nat.reduceAdd] at h1
      have : 0 ≤ i32At .be 4 bs := by
        apply Int.not_lt.mp
        intro hlt
        have := hneg hlt
        cases z <;> simp at h2 <;> omega
      have := hpos this
      refine Or.inr ⟨by omega, by omega, Or.inr (Or.inr (Or.inr (Or.inr (Or.inl ⟨trivial, n, h1, ?_⟩))))⟩
      subst hz
      by_cases h18 : c = 18 <;> simp [h18] at h2 ⊢ <;> omega
    · rintro (h | ⟨h2, h3, h | h | h | h | ⟨-, n, h1, h⟩ | ⟨h, -⟩⟩)
      · omega
      · omega
      · omega
      · omega
      · omega
      · have := hpos (by omega)
        refine ⟨n, h1, ?_, by omega⟩
        subst hz
        by_cases h18 : c = 18 <;> simp [h18] at h ⊢ <;> omega
      · exact h.elim
  have mparts : ∀ p z (c : Int), i32At .le 8 bs = c → c ∈ ([3, 5, 13, 15, 23, 25] : List Int) → z = decide (c ∈ ([13, 15] : List Int)) →
      ShpAcc multi (readMultiPart p (R - 4) z) (bs.drop 12) (i32At .le 8 bs = 0 ∨ 2 ≤ i32At .be 4 bs ∧ 8 + 2 * i32At .be 4 bs ≤ bs.length ∧ LengthFits bs) := by
    intro p z c hc hc' hz
    refine (ShpAcc.multiPart _ _ _ _).congr ?_
    unfold LengthFits
    rw [hc, i32At_drop, i32At_drop, hl]
    have e1 : c ∈ ([3, 5, 13, 15, 23, 25] : List Int) ↔ True := iff_of_true hc' trivial
    rw [mem2] at hc'
    have e2 : c ∈ ([8, 18, 28] : List Int) ↔ False := iff_of_false (by rw [mem]; omega) id
    rw [propext e1, propext e2]
    constructor
    · rintro ⟨n, m, h1, h1', h2, h3⟩
      simp only [Nat.reduceAdd] at h1 h1'
      have : 0 ≤ i32At .be 4 bs := by
        apply Int.not_lt.mp
        intro hlt
        have := hneg hlt
        cases z <;> simp at h2 <;> omega
      have := hpos this
      refine Or.inr ⟨by omega, by omega, Or.inr (Or.inr (Or.inr (Or.inr (Or.inr ⟨trivial, n, m, h1, h1', ?_⟩))))⟩
      subst hz
      simp only [decide_eq_true_eq] at h2
      by_cases h18 : c ∈ ([13, 15] : List Int)
      · rw [if_pos h18] at h2 ⊢; omega
      · rw [if_neg h18] at h2 ⊢; omega
    · rintro (h | ⟨h2, h3, h | h | h | h | ⟨h, -⟩ | ⟨-, n, m, h1, h1', h⟩⟩)
      · omega
      · omega
      · omega
      · omega
      · omega
      · exact h.elim
      · have := hpos (by omega)
        refine ⟨n, m, h1, h1', ?_, by omega⟩
        subst hz
        simp only [decide_eq_true_eq]
        by_cases h18 : c ∈ ([13, 15] : List Int)
        · rw [if_pos h18] at h ⊢; omega
        · rw [if_neg h18] at h ⊢; omega
  have pt : ∀ c : Int, i32At .le 8 bs = c → c ∉ ([8, 18, 28] : List Int) → c ∉ ([3, 5, 13, 15, 23, 25] : List Int) →
      ∀ B : Prop, (i32At .le 8 bs = 0 ∨ 2 ≤ i32At .be 4 bs ∧ 8 + 2 * i32At .be 4 bs ≤ bs.length ∧ (
        c = 1 ∧ i32At .be 4 bs = 10 ∨ c = 21 ∧ i32At .be 4 bs = 14 ∨ c = 11 ∧ (i32At .be 4 bs = 14 ∨ i32At .be 4 bs = 18) ∨ c = 31) ↔ B) →
      ((i32At .le 8 bs = 0 ∨ 2 ≤ i32At .be 4 bs ∧ 8 + 2 * i32At .be 4 bs ≤ bs.length ∧ LengthFits bs) ↔ B) := by
    intro c hc h1 h2 B hB
    rw [← hB]
    unfold LengthFits
    rw [hc]
    constructor
    · rintro (h | ⟨h2', h3, h | h | h | h | ⟨h, -⟩ | ⟨h, -⟩⟩)
      · exact Or.inl h
      · exact Or.inr ⟨h2', h3, Or.inl h⟩
      · exact Or.inr ⟨h2', h3, Or.inr (Or.inl h)⟩
      · exact Or.inr ⟨h2', h3, Or.inr (Or.inr (Or.inl h))⟩
      · exact Or.inr ⟨h2', h3, Or.inr (Or.inr (Or.inr h))⟩
      · exact absurd h h1
      · exact absurd h h2
    · rintro (h | ⟨h2', h3, h | h | h | h⟩)
      · exact Or.inl h
      · exact Or.inr ⟨h2', h3, Or.inl h⟩
      · exact Or.inr ⟨h2', h3, Or.inr (Or.inl h)⟩
      · exact Or.inr ⟨h2', h3, Or.inr (Or.inr (Or.inl h))⟩
      · exact Or.inr ⟨h2', h3, Or.inr (Or.inr (Or.inr (Or.inl h)))⟩
  have hnp : i32At .be 4 bs < 0 ∧ 2 ^ 63 + 4 ≤ R ∨ 2 ≤ i32At .be 4 bs ∧ (R : Int) = i32At .be 4 bs * 2 := by
    rcases hw2 with h | h
    · exact Or.inl ⟨h, (hneg h).1⟩
    · exact Or.inr ⟨h, hpos (by omega)⟩
  cases t with
  | null => exact ShpAcc.ret (Or.inl ht)
  | point =>
    refine ShpAcc.point _ _ _ _ (pt 1 ht (by decide) (by decide) _ ?_)
    have ht : i32At .le 8 bs = 1 := ht
    simp only [reduceCtorEq, if_false, hl]
    rcases hnp with ⟨h1, h2⟩ | ⟨h1, h2⟩ <;> constructor <;> intro h <;> first
      | omega
      | exact Or.inr ⟨by omega, by omega, Or.inl ⟨by trivial, by omega⟩⟩
      | exact Or.inr ⟨by omega, by omega, Or.inr (Or.inl ⟨by trivial, by omega⟩)⟩
      | exact Or.inr ⟨by omega, by omega, Or.inr (Or.inr (Or.inl ⟨by trivial, by omega⟩))⟩
  | pointM =>
    refine ShpAcc.point _ _ _ _ (pt 21 ht (by decide) (by decide) _ ?_)
    have ht : i32At .le 8 bs = 21 := ht
    simp only [reduceCtorEq, if_false, if_true, hl]
    rcases hnp with ⟨h1, h2⟩ | ⟨h1, h2⟩ <;> constructor <;> intro h <;> first
      | omega
      | exact Or.inr ⟨by omega, by omega, Or.inl ⟨by trivial, by omega⟩⟩
      | exact Or.inr ⟨by omega, by omega, Or.inr (Or.inl ⟨by trivial, by omega⟩)⟩
      | exact Or.inr ⟨by omega, by omega, Or.inr (Or.inr (Or.inl ⟨by trivial, by omega⟩))⟩
  | pointZ =>
    refine ShpAcc.point _ _ _ _ (pt 11 ht (by decide) (by decide) _ ?_)
    have ht : i32At .le 8 bs = 11 := ht
    simp only [if_true, hl]
    by_cases h32 : R - 4 = 32
    · rw [if_pos h32]
      rcases hnp with ⟨h1, h2⟩ | ⟨h1, h2⟩ <;> constructor <;> intro h <;> first
      | omega
      | exact Or.inr ⟨by omega, by omega, Or.inl ⟨by trivial, by omega⟩⟩
      | exact Or.inr ⟨by omega, by omega, Or.inr (Or.inl ⟨by trivial, by omega⟩)⟩
      | exact Or.inr ⟨by omega, by omega, Or.inr (Or.inr (Or.inl ⟨by trivial, by omega⟩))⟩
    · rw [if_neg h32]
      rcases hnp with ⟨h1, h2⟩ | ⟨h1, h2⟩ <;> constructor <;> intro h <;> first
      | omega
      | exact Or.inr ⟨by omega, by omega, Or.inl ⟨by trivial, by omega⟩⟩
      | exact Or.inr ⟨by omega, by omega, Or.inr (Or.inl ⟨by trivial, by omega⟩)⟩
      | exact Or.inr ⟨by omega, by omega, Or.inr (Or.inr (Or.inl ⟨by trivial, by omega⟩))⟩
  | multipoint => exact mp _ 8 ht (by decide) (by decide)
  | multipointZ => exact mp _ 18 ht (by decide) (by decide)
  | multipointM => exact mp _ 28 ht (by decide) (by decide)
  | polyline => exact mparts _ _ 3 ht (by decide) (by decide)
  | polygon => exact mparts _ _ 5 ht (by decide) (by decide)
  | polylineZ => exact mparts _ _ 13 ht (by decide) (by decide)
  | polygonZ => exact mparts _ _ 15 ht (by decide) (by decide)
  | polylineM => exact mparts _ _ 23 ht (by decide) (by decide)
  | polygonM => exact mparts _ _ 25 ht (by decide) (by decide)
  | multipatch =>
    have ht : i32At .le 8 bs = 31 := ht
    unfold readMultipatch
    rw [propext (pt 31 ht (by decide) (by decide) _ Iff.rfl)]
    refine ShpAcc.ite (fun h => ShpAcc.fail ?_) fun h => ?_
    · omega
    · refine ShpAcc.got (ShpGot.bind (n := R - 4) ShpGot.readN fun _ _ _ => ShpGot.ret (Q := fun _ => True) trivial) ?_
      rw [hl]
      omega

end

theorem record_accept (multi : Bool) (bs : List Byte) : ShpAcc multi readShpRecord bs (ReadAccepted bs) := by
  unfold readShpRecord
  refine ShpAcc.bind (n := 4) ShpGot.readI32 (fun h => by have := h.1; omega) fun _ h4 _ => ?_
  refine ShpAcc.bind (n := 4) ShpGot.readI32 (fun h => by have := h.1; rw [List.length_drop]; omega) fun w h8 hw => ?_
  rw [i32At_drop] at hw
  rw [List.length_drop] at h8
  simp only [Nat.add_zero] at hw
  subst hw
  unfold doubleI32
  by_cases hd : -(2 ^ 31) ≤ i32At .be 4 bs * 2 ∧ i32At .be 4 bs * 2 < 2 ^ 31
  case neg =>
    rw [if_neg hd]
    exact ShpAcc.fail fun h => hd ⟨by have := h.2.1; omega, by have := h.2.2.1; omega⟩
  rw [if_pos hd]
  have hbind : (Prog.bind (Prog.ret (i32At .be 4 bs * 2)) fun size =>
      Prog.bind (readShpContent (i32AsUsize size)) fun s => Prog.ret (i32At .be 4 bs, s)) =
      Prog.bind (readShpContent (i32AsUsize (i32At .be 4 bs * 2))) fun s => Prog.ret (i32At .be 4 bs, s) := rfl
  simp only [Bind.bind]
  rw [hbind]
  unfold readShpContent readShpType
  simp only [Bind.bind]
  rw [Prog.bind_assoc, Prog.bind_assoc]
  refine ShpAcc.bind (n := 4) ShpGot.readI32 (fun h => by have := h.1; rw [List.length_drop, List.length_drop]; omega) fun c h12 hc => ?_
  rw [i32At_drop, i32At_drop] at hc
  rw [List.length_drop, List.length_drop] at h12
  simp only [Nat.add_zero, Nat.reduceAdd] at hc
  subst hc
  rw [List.drop_drop, List.drop_drop]
  simp only [Nat.reduceAdd]
  cases hc : ShpType.fromCode (i32At .le 8 bs) with
  | none =>
    refine ShpAcc.fail fun h => ?_
    have hm : i32At .le 8 bs ∈ shapeCodes := by
      unfold shapeCodes
      obtain ⟨-, -, -, ⟨h, -⟩ | ⟨-, -, ⟨h, -⟩ | ⟨h, -⟩ | ⟨h, -⟩ | h | ⟨h, -⟩ | ⟨h, -⟩⟩⟩ := h
      · rw [h]; decide
      · rw [h]; decide
      · rw [h]; decide
      · rw [h]; decide
      · rw [h]; decide
      · simp at h ⊢; omega
      · simp at h ⊢; omega
    obtain ⟨t, ht⟩ := ShpType.fromCode_of_mem hm
    rw [hc] at ht; cases ht
  | some t =>
    have ht := ShpType.fromCode_code hc
    by_cases h01 : i32At .be 4 bs = 0 ∨ i32At .be 4 bs = 1
    · have hlt : i32AsUsize (i32At .be 4 bs * 2) < 4 := by unfold i32AsUsize; omega
      simp only [Prog.bind, if_pos hlt]
      refine ShpAcc.fail ?_
      rintro ⟨-, -, -, ⟨-, h1, h2⟩ | ⟨h1, -⟩⟩
      · omega
      · omega
    · have hlt : ¬ i32AsUsize (i32At .be 4 bs * 2) < 4 := by unfold i32AsUsize; omega
      obtain ⟨r, hr, hm⟩ := ShpAcc.content (multi := multi) bs (by omega) t ht (by omega) (by omega)
      simp only [Prog.bind, if_neg hlt]
      cases r with
      | error e => exact ⟨_, run_bind_err hr, hm⟩
      | ok ab => exact ⟨_, run_bind_ok_nil hr, hm⟩

/-! ### the remaining failures of delivering are panics -/

namespace FProg

/-- reads nothing, and its own failures are panics -/
def OnlyPanic {α : Type} : FProg α → Prop
  | ret _ => True
  | fail e => e.isPanic = true
  | read _ => False
  | emit _ k => OnlyPanic k
  | emitOk _ k => OnlyPanic k
  | prop _ _ _ k => ∀ b, OnlyPanic (k b)
  | ask k => ∀ b d, OnlyPanic (k b d)

theorem OnlyPanic.bind {α β : Type} {p : FProg α} {f : α → FProg β} (hp : OnlyPanic p) (hf : ∀ a, OnlyPanic (f a)) :
    OnlyPanic (FProg.bind p f) := by
  induction p with
  | ret a => exact hf a
  | fail e => exact hp
  | read k ih => exact hp.elim
  | emit e k ih => exact ih hp
  | emitOk e k ih => exact ih hp
  | prop i n v k ih => exact fun b => ih b (hp b)
  | ask k ih => exact fun b d => ih b d (hp b d)

theorem OnlyPanic.forIdx {α : Type} {body : Nat → α → FProg Unit} (xs : List α) (h : ∀ i x, OnlyPanic (body i x)) (i : Nat) :
    OnlyPanic (FProg.forIdx body i xs) := by
  induction xs generalizing i with
  | nil => trivial
  | cons x xs ih => exact (h i x).bind fun _ => ih (i + 1)

theorem OnlyPanic.sound {α σ : Type} {p : FProg α} (hp : OnlyPanic p) (P : FProc σ) (hP : ∀ s e, ∃ s', P.step s e = .ok s')
    (s : σ) (bs : List Byte) (x : Err) (h : (interp P p s bs).2.2 = .error x) : x.isPanic = true := by
  induction p generalizing s bs with
  | ret a => cases h
  | fail e => cases h; exact hp
  | read k ih => exact hp.elim
  | emit e k ih => obtain ⟨s', hs⟩ := hP s e; simp only [interp, hs] at h; exact ih hp s' bs h
  | emitOk e k ih => obtain ⟨s', hs⟩ := hP s e; simp only [interp, hs] at h; exact ih hp s' bs h
  | prop i n v k ih => obtain ⟨s', hs⟩ := hP s (.prop i n v); simp only [interp, hs] at h; exact ih _ (hp _) s' bs h
  | ask k ih => exact ih _ _ (hp _ _) s bs h

theorem Ends.onlyPanic {α : Type} {f : Bool} {p : FProg α} (h : Ends f p) : OnlyPanic p := by
  induction p with
  | ret a => trivial
  | fail e => exact h.2
  | read k ih => exact h.elim
  | emit e k ih => exact ih h
  | emitOk e k ih => exact ih h
  | prop i n v k ih => exact fun b => ih b (h b)
  | ask k ih => exact fun b d => ih b d (h b d)

end FProg

theorem onlyPanic_process (ar : ShpArith) (s : ShpShape) : FProg.OnlyPanic (s.process ar) := by
  have part : ∀ coords zs ms multi gz gm i w, FProg.OnlyPanic (shpPart coords zs ms multi gz gm i w) := by
    intro coords zs ms multi gz gm i w
    obtain ⟨f, hf⟩ := (ends_part coords zs ms multi gz gm i w).1
    exact hf.onlyPanic
  cases s with
  | null => trivial
  | patch => trivial
  | point x y z m =>
    refine FProg.OnlyPanic.bind (p := FProg.call _) trivial fun _ => ?_
    refine FProg.OnlyPanic.bind ?_ fun _ => trivial
    intro b d
    cases b <;> trivial
  | multipoint coords zs ms =>
    intro b d
    refine FProg.OnlyPanic.bind (p := FProg.call _) trivial fun _ => ?_
    refine FProg.OnlyPanic.bind ?_ fun _ => trivial
    refine FProg.OnlyPanic.forIdx _ (fun j ofs => ?_) 0
    obtain ⟨f, hf⟩ := ends_coord coords zs ms b (d.z && !zs.isEmpty) (d.m && !ms.isEmpty) ofs j
    exact hf.onlyPanic
  | multipart asPoly parts coords zs ms =>
    intro b d
    cases asPoly with
    | false =>
      simp only [Bool.false_eq_true, if_false]
      refine FProg.OnlyPanic.bind (p := FProg.call _) trivial fun _ => ?_
      refine FProg.OnlyPanic.bind ?_ fun _ => trivial
      exact FProg.OnlyPanic.forIdx _ (fun j w => part _ _ _ _ _ _ _ _) 0
    | true =>
      simp only [if_true]
      unfold detectPolys
      obtain ⟨h1, -⟩ := detectLoop_bad (ringInner ar) coords 0 (windows2 parts)
      cases hd : detectLoop (ringInner ar) coords 0 (windows2 parts) with
      | error e => exact h1 e hd
      | ok ps =>
        refine FProg.OnlyPanic.bind (p := FProg.call _) trivial fun _ => ?_
        refine FProg.OnlyPanic.bind ?_ fun _ => trivial
        refine FProg.OnlyPanic.forIdx _ (fun j v => ?_) 0
        refine FProg.OnlyPanic.bind (p := FProg.call _) trivial fun _ => ?_
        refine FProg.OnlyPanic.bind ?_ fun _ => trivial
        exact FProg.OnlyPanic.forIdx _ (fun j w => part _ _ _ _ _ _ _ _) 0

theorem accepted_not_panics {bs : List Byte} (h : ReadAccepted bs) (hb : ¬ BadTable bs) : ¬ RecordPanics bs := by
  obtain ⟨h12, h1, h2, h3⟩ := h
  rintro ⟨h8, h | h | ⟨-, -, h | h | ⟨h, h'⟩ | h | h⟩⟩
  · omega
  · omega
  · omega
  · omega
  · omega
  · unfold LengthFits at h3
    rcases h with ⟨ht, hl, hn⟩ | ⟨ht, hl, hn⟩
    · simp only [List.mem_cons, List.not_mem_nil, or_false] at ht h3
      rcases h3 with h3 | ⟨-, -, h3 | h3 | h3 | h3 | ⟨-, n, h3, -⟩ | ⟨h3, -⟩⟩ <;> omega
    · simp only [List.mem_cons, List.not_mem_nil, or_false] at ht h3
      rcases h3 with h3 | ⟨-, -, h3 | h3 | h3 | h3 | ⟨h3, -⟩ | ⟨h3, n, m, h4, h5, -⟩⟩ <;> omega
  · exact hb h

end Geozero
