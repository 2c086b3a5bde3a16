import Verif.Lemmas.ShpProcess

/- Helper lemmas: the shapefile readers on arbitrary input. -/

namespace Geozero
open Prog Spec

/-! ### reading without events -/

/-- On input `bs` the reader makes no calls; its result and the rest satisfy `R`, its error `F`. -/
def Dec {α : Type} (F : Err → Prop) (multi : Bool) (p : Prog α) (bs : List Byte) (R : α → List Byte → Prop) : Prop :=
  match run multi p bs with
  | (evs, .ok (a, rest)) => evs = [] ∧ R a rest
  | (evs, .error e) => evs = [] ∧ F e

section
variable {α β : Type} {F : Err → Prop} {multi : Bool}

theorem Dec.ret {a : α} {bs : List Byte} {R : α → List Byte → Prop} (h : R a bs) : Dec F multi (.ret a) bs R := ⟨rfl, h⟩

theorem Dec.fail {e : Err} {bs : List Byte} {R : α → List Byte → Prop} (h : F e) : Dec F multi (.fail e) bs R := ⟨rfl, h⟩

theorem Dec.bind {p : Prog α} {f : α → Prog β} {bs : List Byte} {R : α → List Byte → Prop} {S : β → List Byte → Prop}
    (hp : Dec F multi p bs R) (hf : ∀ a rest, R a rest → Dec F multi (f a) rest S) : Dec F multi (Prog.bind p f) bs S := by
  unfold Dec at hp ⊢
  rw [run_bind]
  unfold Prog.andThen
  rcases hr : run multi p bs with ⟨evs, r⟩
  rw [hr] at hp
  cases r with
  | error e => exact hp
  | ok ab =>
    obtain ⟨a, rest⟩ := ab
    obtain ⟨rfl, h⟩ := hp
    have h2 := hf a rest h
    unfold Dec at h2
    simp only
    rcases hr2 : run multi (f a) rest with ⟨evs2, r2⟩
    rw [hr2] at h2
    cases r2 with
    | error e => exact ⟨by simp [h2.1], h2.2⟩
    | ok ab2 => exact ⟨by simp [h2.1], h2.2⟩

theorem Dec.mono {p : Prog α} {bs : List Byte} {R S : α → List Byte → Prop} (hp : Dec F multi p bs R)
    (h : ∀ a rest, R a rest → S a rest) : Dec F multi p bs S := by
  unfold Dec at hp ⊢
  rcases hr : run multi p bs with ⟨evs, r⟩
  rw [hr] at hp
  cases r with
  | error e => exact hp
  | ok ab => exact ⟨hp.1, h _ _ hp.2⟩

theorem run_readN_any (multi : Bool) (n : Nat) (bs : List Byte) :
    run multi (readN n) bs = ([], if n ≤ bs.length then .ok (bs.take n, bs.drop n) else .error .io) := by
  induction n generalizing bs with
  | zero => rfl
  | succ n ih =>
    simp only [readN]
    cases bs with
    | nil => rfl
    | cons b bs =>
      rw [run_readByte_cons]
      by_cases h : n ≤ bs.length
      · rw [run_bind_ok_nil (by rw [ih, if_pos h])]
        simp [h]
      · rw [run_bind_err (by rw [ih, if_neg h])]
        simp [h]

theorem Dec.readN (hF : F .io) {n : Nat} {bs : List Byte} {R : List Byte → List Byte → Prop}
    (h : n ≤ bs.length → R (bs.take n) (bs.drop n)) : Dec F multi (readN n) bs R := by
  unfold Dec
  rw [run_readN_any]
  by_cases hn : n ≤ bs.length
  · rw [if_pos hn]; exact ⟨rfl, h hn⟩
  · rw [if_neg hn]; exact ⟨rfl, hF⟩

theorem Dec.readI32 (hF : F .io) {e : Endian} {bs : List Byte} {R : Int → List Byte → Prop}
    (h : 4 ≤ bs.length → R (i32At e 0 bs) (bs.drop 4)) : Dec F multi (readI32 e) bs R :=
  Dec.bind (R := fun v rest => 4 ≤ bs.length ∧ v = bs.take 4 ∧ rest = bs.drop 4) (Dec.readN hF fun h4 => ⟨h4, rfl, rfl⟩)
    fun v rest ⟨h4, hv, hr⟩ => Dec.ret (by subst hv; subst hr; exact h h4)

theorem Dec.readF64 (hF : F .io) {e : Endian} {bs : List Byte} {R : F64 → List Byte → Prop}
    (h : ∀ v, 8 ≤ bs.length → R v (bs.drop 8)) : Dec F multi (readF64 e) bs R :=
  Dec.bind (R := fun _ rest => 8 ≤ bs.length ∧ rest = bs.drop 8) (Dec.readN hF fun h4 => ⟨h4, rfl⟩)
    fun v rest ⟨h4, hr⟩ => Dec.ret (by subst hr; exact h _ h4)

theorem Dec.readF64List (hF : F .io) {n : Nat} {bs : List Byte} {R : List F64 → List Byte → Prop}
    (h : ∀ vs : List F64, vs.length = n → 8 * n ≤ bs.length → R vs (bs.drop (8 * n))) :
    Dec F multi (readF64List n) bs R := by
  induction n generalizing bs R with
  | zero => exact Dec.ret (by simpa using h [] rfl (Nat.zero_le _))
  | succ n ih =>
    refine Dec.bind (R := fun _ rest => 8 ≤ bs.length ∧ rest = bs.drop 8) (Dec.readF64 hF fun v h8 => ⟨h8, rfl⟩) ?_
    rintro v rest ⟨h8, rfl⟩
    refine Dec.bind (R := fun vs rest => R (v :: vs) rest) (ih ?_) fun vs rest hr => Dec.ret hr
    intro vs hvs hl
    rw [List.length_drop] at hl
    have := h (v :: vs) (by simp [hvs]) (by omega)
    rw [List.drop_drop, show 8 + 8 * n = 8 * (n + 1) by omega]
    exact this

theorem Dec.readXYs (hF : F .io) {n : Nat} {bs : List Byte} {R : List XY → List Byte → Prop}
    (h : ∀ vs : List XY, vs.length = n → 16 * n ≤ bs.length → R vs (bs.drop (16 * n))) :
    Dec F multi (readXYs n) bs R := by
  induction n generalizing bs R with
  | zero => exact Dec.ret (by simpa using h [] rfl (Nat.zero_le _))
  | succ n ih =>
    refine Dec.bind (R := fun _ rest => 8 ≤ bs.length ∧ rest = bs.drop 8) (Dec.readF64 hF fun v h8 => ⟨h8, rfl⟩) ?_
    rintro x rest ⟨h8, rfl⟩
    refine Dec.bind (R := fun _ rest => 16 ≤ bs.length ∧ rest = bs.drop 16)
      (Dec.readF64 hF fun v h8' => ⟨by rw [List.length_drop] at h8'; omega, by rw [List.drop_drop]⟩) ?_
    rintro y rest ⟨h16, rfl⟩
    refine Dec.bind (R := fun vs rest => R (⟨x, y⟩ :: vs) rest) (ih ?_) fun vs rest hr => Dec.ret hr
    intro vs hvs hl
    rw [List.length_drop] at hl
    have := h (⟨x, y⟩ :: vs) (by simp [hvs]) (by omega)
    rw [List.drop_drop, show 16 + 16 * n = 16 * (n + 1) by omega]
    exact this

theorem i32At_drop (e : Endian) (a b : Nat) (bs : List Byte) : i32At e a (bs.drop b) = i32At e (b + a) bs := by
  simp [i32At, List.drop_drop]

theorem Dec.readParts (hF : F .io) {n : Nat} {bs : List Byte} {R : List Nat → List Byte → Prop}
    (h : 4 * n ≤ bs.length → R ((List.range n).map fun k => i32AsUsize (i32At .le (4 * k) bs)) (bs.drop (4 * n))) :
    Dec F multi (readParts n) bs R := by
  induction n generalizing bs R with
  | zero => exact Dec.ret (by simpa using h (Nat.zero_le _))
  | succ n ih =>
    refine Dec.bind (R := fun v rest => 4 ≤ bs.length ∧ v = i32At .le 0 bs ∧ rest = bs.drop 4)
      (Dec.readI32 hF fun h4 => ⟨h4, rfl, rfl⟩) ?_
    rintro v rest ⟨h4, rfl, rfl⟩
    refine Dec.bind (R := fun vs rest => R (i32AsUsize (i32At .le 0 bs) :: vs) rest) (ih ?_) fun vs rest hr => Dec.ret hr
    intro hl
    rw [List.length_drop] at hl
    have := h (by omega)
    rw [List.drop_drop, show 4 + 4 * n = 4 * (n + 1) by omega]
    rw [List.range_succ_eq_map, List.map_cons, List.map_map] at this
    have he : (fun k => i32AsUsize (i32At .le (4 * k) (bs.drop 4))) =
        (fun k => i32AsUsize (i32At .le (4 * k) bs)) ∘ Nat.succ := by
      funext k
      simp only [i32At_drop, Function.comp_apply]
      rw [show 4 + 4 * k = 4 * k.succ by omega]
    rw [he]
    exact this

theorem Dec.readDimValuesIf (hF : F .io) {b : Bool} {n : Nat} {bs : List Byte} {R : List F64 → List Byte → Prop}
    (h : ∀ vs : List F64, vs = [] ∨ vs.length = n → (if b then dimValueSize n else 0) ≤ bs.length →
      R vs (bs.drop (if b then dimValueSize n else 0))) :
    Dec F multi (readDimValuesIf b n) bs R := by
  cases b with
  | false => exact Dec.ret (by simpa using h [] (Or.inl rfl) (Nat.zero_le _))
  | true =>
    refine Dec.bind (R := fun _ rest => 16 ≤ bs.length ∧ rest = bs.drop 16) (Dec.readF64List hF fun v _ h8 => ⟨h8, rfl⟩) ?_
    rintro v rest ⟨h8, rfl⟩
    refine Dec.readF64List hF fun vs hvs hl => ?_
    rw [List.length_drop] at hl
    rw [List.drop_drop, show 16 + 8 * n = dimValueSize n by unfold dimValueSize; omega]
    exact h vs (Or.inr hvs) (by simp only [if_true, dimValueSize]; omega)

theorem Dec.readF64If (hF : F .io) {b : Bool} {bs : List Byte} {R : Option F64 → List Byte → Prop}
    (h : ∀ v : Option F64, (if b then 8 else 0) ≤ bs.length → R v (bs.drop (if b then 8 else 0))) :
    Dec F multi (readF64If b) bs R := by
  cases b with
  | false => exact Dec.ret (by simpa using h none (Nat.zero_le _))
  | true =>
    exact Dec.bind (R := fun _ rest => 8 ≤ bs.length ∧ rest = bs.drop 8) (Dec.readF64 hF fun v h8 => ⟨h8, rfl⟩)
      fun v rest ⟨h8, hr⟩ => Dec.ret (by subst hr; exact h (some v) h8)

theorem i32At_range (e : Endian) (ofs : Nat) (bs : List Byte) : isI32 (i32At e ofs bs) := by
  apply isI32_i32OfNat
  have h1 := fromLE_lt ((bs.drop ofs).take 4)
  have h2 := fromLE_lt ((bs.drop ofs).take 4).reverse
  have h3 : ((bs.drop ofs).take 4).length ≤ 4 := by simp; omega
  have h4 : 256 ^ ((bs.drop ofs).take 4).length ≤ 2 ^ 32 :=
    Nat.le_trans (Nat.pow_le_pow_right (by omega) h3) (by decide)
  rw [List.length_reverse] at h2
  cases e <;> simp only [decUInt] <;> omega

/-- shapes whose part table is in order -/
def ShpShape.Good : ShpShape → Prop
  | .multipoint coords zs ms => (zs = [] ∨ zs.length = coords.length) ∧ (ms = [] ∨ ms.length = coords.length)
  | .multipart _ parts coords zs ms =>
    (zs = [] ∨ zs.length = coords.length) ∧ (ms = [] ∨ ms.length = coords.length) ∧ parts.Pairwise (· ≤ ·) ∧
      ∀ a ∈ parts, a ≤ coords.length
  | _ => True

/-- the value of a checked count -/
theorem usize_count {v : Int} (hv : isI32 v) (h : 4 * i32AsUsize v < 2 ^ 64) : v = i32AsUsize v ∧ i32AsUsize v < 2 ^ 31 := by
  unfold isI32 at hv
  unfold i32AsUsize at h ⊢
  omega

theorem Dec.usizeOk {n : Nat} {bs : List Byte} {R : Nat → List Byte → Prop} (hp : ¬ n < 2 ^ 64 → F (.panic "attempt to multiply with overflow"))
    (h : n < 2 ^ 64 → R n bs) : Dec F multi (usizeOk n) bs R := by
  unfold Geozero.usizeOk
  by_cases hn : n < 2 ^ 64
  · rw [if_pos hn]; exact Dec.ret (h hn)
  · rw [if_neg hn]; exact Dec.fail (hp hn)

theorem Dec.point (hF : F .io) (hs : F (.shp "InvalidShapeRecordSize")) (size : Nat) (t : ShpType) (bs : List Byte) :
    Dec F multi (readShpPoint size t) bs
      (fun s rest => s.Good ∧ size ≤ bs.length ∧ rest = bs.drop size ∧ size < 2 ^ 37) := by
  unfold readShpPoint
  simp only
  generalize decide (t = ShpType.pointZ) = z
  generalize (decide (t = ShpType.pointM) || z && decide (size = 32)) = m
  by_cases hsz : size = (2 + (if z = true then 1 else 0) + (if m = true then 1 else 0)) * 8
  · rw [if_neg (by simp [hsz])]
    refine Dec.bind (R := fun _ rest => 8 ≤ bs.length ∧ rest = bs.drop 8) (Dec.readF64 hF fun v h8 => ⟨h8, rfl⟩) ?_
    rintro x rest ⟨h8, rfl⟩
    refine Dec.bind (R := fun _ rest => 16 ≤ bs.length ∧ rest = bs.drop 16)
      (Dec.readF64 hF fun v h8' => ⟨by rw [List.length_drop] at h8'; omega, by rw [List.drop_drop]⟩) ?_
    rintro y rest ⟨h16, rfl⟩
    refine Dec.bind (R := fun _ rest => 16 + (if z = true then 8 else 0) ≤ bs.length ∧
      rest = bs.drop (16 + (if z = true then 8 else 0)))
      (Dec.readF64If hF fun v h8' => ⟨by rw [List.length_drop] at h8'; omega, by rw [List.drop_drop]⟩) ?_
    rintro zv rest ⟨hz, rfl⟩
    refine Dec.bind (R := fun _ rest => size ≤ bs.length ∧ rest = bs.drop size)
      (Dec.readF64If hF fun v h8' => ?_) ?_
    · rw [List.length_drop] at h8'
      rw [List.drop_drop]
      have : size = 16 + (if z = true then 8 else 0) + (if m = true then 8 else 0) := by
        rw [hsz]; cases z <;> cases m <;> simp
      rw [this]
      exact ⟨by omega, rfl⟩
    · rintro mv rest ⟨h1, rfl⟩
      refine Dec.ret ⟨trivial, h1, rfl, ?_⟩
      rw [hsz]; cases z <;> cases m <;> simp
  · rw [if_pos hsz]
    exact Dec.fail hs

theorem Dec.multipoint (hF : F .io) (hs : F (.shp "InvalidShapeRecordSize")) (size : Nat) (hasZ : Bool) (bs : List Byte)
    (hp : 36 ≤ bs.length → 0 ≤ i32At .le 32 bs ∨ F (.panic "attempt to multiply with overflow")) :
    Dec F multi (readShpMultipoint size hasZ) bs
      (fun s rest => s.Good ∧ size ≤ bs.length ∧ rest = bs.drop size ∧ size < 2 ^ 37) := by
  unfold readShpMultipoint
  refine Dec.bind (R := fun _ rest => 32 ≤ bs.length ∧ rest = bs.drop 32) (Dec.readF64List hF fun v _ h8 => ⟨h8, rfl⟩) ?_
  rintro _ rest ⟨h32, rfl⟩
  refine Dec.bind (R := fun v rest => v = i32At .le 32 bs ∧ 36 ≤ bs.length ∧ rest = bs.drop 36)
    (Dec.readI32 hF fun h4 => ⟨by rw [i32At_drop], by rw [List.length_drop] at h4; omega, by rw [List.drop_drop]⟩) ?_
  rintro v rest ⟨rfl, h36, rfl⟩
  have hv := i32At_range .le 32 bs
  have hcount := usize_count hv
  refine Dec.bind (R := fun _ rest => i32AsUsize (i32At .le 32 bs) < 2 ^ 31 ∧ rest = bs.drop 36) (Dec.usizeOk ?_ ?_) ?_
  · intro hn
    rcases hp h36 with h | h
    · exfalso
      unfold isI32 at hv
      unfold i32AsUsize at hn
      omega
    · exact h
  · intro hn
    exact ⟨(hcount (by omega)).2, rfl⟩
  rintro _ rest ⟨hn, rfl⟩
  generalize i32AsUsize (i32At .le 32 bs) = n at hn ⊢
  simp only
  by_cases hM : size = 32 + 4 + 16 * n + (if hasZ = true then dimValueSize n else 0) + dimValueSize n
  · have hd : decide (size = 32 + 4 + 16 * n + (if hasZ = true then dimValueSize n else 0) + dimValueSize n) = true :=
      decide_eq_true hM
    rw [hd, if_neg (by rw [if_pos rfl]; exact fun h => h hM)]
    refine Dec.bind (R := fun c rest => c.length = n ∧ 36 + 16 * n ≤ bs.length ∧ rest = bs.drop (36 + 16 * n))
      (Dec.readXYs hF fun vs hvs hl => ⟨hvs, by rw [List.length_drop] at hl; omega, by rw [List.drop_drop]⟩) ?_
    rintro coords rest ⟨hc, hl, rfl⟩
    refine Dec.bind (R := fun zs rest => (zs = [] ∨ zs.length = n) ∧
        36 + 16 * n + (if hasZ = true then dimValueSize n else 0) ≤ bs.length ∧
        rest = bs.drop (36 + 16 * n + (if hasZ = true then dimValueSize n else 0)))
      (Dec.readDimValuesIf hF fun vs hvs hl => ⟨hvs, by rw [List.length_drop] at hl; omega, by rw [List.drop_drop]⟩) ?_
    rintro zs rest ⟨hz, hl2, rfl⟩
    refine Dec.bind (R := fun ms rest => (ms = [] ∨ ms.length = n) ∧ size ≤ bs.length ∧ rest = bs.drop size)
      (Dec.readDimValuesIf hF fun vs hvs hl => ?_) ?_
    · rw [List.length_drop] at hl
      rw [List.drop_drop]
      simp only [if_true] at hl ⊢
      refine ⟨hvs, by omega, ?_⟩
      rw [hM]
    · rintro ms rest ⟨hm, hl3, rfl⟩
      refine Dec.ret ⟨⟨by rw [hc]; exact hz, by rw [hc]; exact hm⟩, hl3, rfl, ?_⟩
      unfold dimValueSize at hM
      split at hM <;> omega
  · have hd : decide (size = 32 + 4 + 16 * n + (if hasZ = true then dimValueSize n else 0) + dimValueSize n) = false :=
      decide_eq_false hM
    rw [hd]
    simp only [Bool.false_eq_true, if_false, Nat.add_zero]
    by_cases hB : size = 32 + 4 + 16 * n + (if hasZ = true then dimValueSize n else 0)
    · rw [if_neg (fun h => h hB)]
      refine Dec.bind (R := fun c rest => c.length = n ∧ 36 + 16 * n ≤ bs.length ∧ rest = bs.drop (36 + 16 * n))
        (Dec.readXYs hF fun vs hvs hl => ⟨hvs, by rw [List.length_drop] at hl; omega, by rw [List.drop_drop]⟩) ?_
      rintro coords rest ⟨hc, hl, rfl⟩
      refine Dec.bind (R := fun zs rest => (zs = [] ∨ zs.length = n) ∧ size ≤ bs.length ∧ rest = bs.drop size)
        (Dec.readDimValuesIf hF fun vs hvs hl => ?_) ?_
      · rw [List.length_drop] at hl
        rw [List.drop_drop]
        refine ⟨hvs, by omega, ?_⟩
        rw [hB]
      · rintro zs rest ⟨hz, hl2, rfl⟩
        refine Dec.ret ⟨⟨by rw [hc]; exact hz, Or.inl rfl⟩, hl2, rfl, ?_⟩
        unfold dimValueSize at hB
        split at hB <;> omega
    · rw [if_pos hB]
      exact Dec.fail hs

theorem Dec.multiPart (hF : F .io) (hs : F (.shp "InvalidShapeRecordSize")) (asPoly : Bool) (size : Nat) (hasZ : Bool)
    (bs : List Byte) (G : Prop)
    (hp : 40 ≤ bs.length → (0 ≤ i32At .le 32 bs ∧ 0 ≤ i32At .le 36 bs) ∨ F (.panic "attempt to multiply with overflow"))
    (ht : ∀ n : Nat, G → 40 + 4 * n ≤ bs.length → i32At .le 32 bs = n →
      List.Pairwise (· ≤ ·) ((0 : Int) :: ((List.range n).map fun k => i32At .le (40 + 4 * k) bs) ++ [i32At .le 36 bs])) :
    Dec F multi (readMultiPart asPoly size hasZ) bs
      (fun s rest => (G → s.Good) ∧ size ≤ bs.length ∧ rest = bs.drop size ∧ size < 2 ^ 37) := by
  unfold readMultiPart
  refine Dec.bind (R := fun _ rest => 32 ≤ bs.length ∧ rest = bs.drop 32) (Dec.readF64List hF fun v _ h8 => ⟨h8, rfl⟩) ?_
  rintro _ rest ⟨h32, rfl⟩
  refine Dec.bind (R := fun v rest => v = i32At .le 32 bs ∧ 36 ≤ bs.length ∧ rest = bs.drop 36)
    (Dec.readI32 hF fun h4 => ⟨by rw [i32At_drop], by rw [List.length_drop] at h4; omega, by rw [List.drop_drop]⟩) ?_
  rintro v rest ⟨rfl, h36, rfl⟩
  refine Dec.bind (R := fun v rest => v = i32At .le 36 bs ∧ 40 ≤ bs.length ∧ rest = bs.drop 40)
    (Dec.readI32 hF fun h4 => ⟨by rw [i32At_drop], by rw [List.length_drop] at h4; omega, by rw [List.drop_drop]⟩) ?_
  rintro v rest ⟨rfl, h40, rfl⟩
  have hv := i32At_range .le 32 bs
  have hw := i32At_range .le 36 bs
  have hcount := usize_count hv
  have hcount' := usize_count hw
  refine Dec.bind (R := fun _ rest => i32AsUsize (i32At .le 32 bs) < 2 ^ 31 ∧ rest = bs.drop 40) (Dec.usizeOk ?_ ?_) ?_
  · intro hn
    rcases hp h40 with h | h
    · exfalso
      unfold isI32 at hv
      unfold i32AsUsize at hn
      omega
    · exact h
  · intro hn
    exact ⟨(hcount (by omega)).2, rfl⟩
  rintro _ rest ⟨hp31, rfl⟩
  refine Dec.bind (R := fun _ rest => i32AsUsize (i32At .le 36 bs) < 2 ^ 31 ∧ rest = bs.drop 40) (Dec.usizeOk ?_ ?_) ?_
  · intro hn
    rcases hp h40 with h | h
    · exfalso
      unfold isI32 at hw
      unfold i32AsUsize at hn
      omega
    · exact h
  · intro hn
    exact ⟨(hcount' (by omega)).2, rfl⟩
  rintro _ rest ⟨hn31, rfl⟩
  have ep := (hcount (by omega)).1
  have en := (hcount' (by omega)).1
  have ht' := fun g h => ht (i32AsUsize (i32At .le 32 bs)) g h ep
  clear ht hp hcount hcount' hv hw
  generalize i32AsUsize (i32At .le 32 bs) = parts at hp31 ep ht' ⊢
  generalize hnn : i32AsUsize (i32At .le 36 bs) = n at hn31 en ⊢
  have hgood : G → 40 + 4 * parts ≤ bs.length →
      ((List.range parts).map (fun k => i32AsUsize (i32At .le (4 * k) (bs.drop 40))) ++ [n]).Pairwise (· ≤ ·) ∧
      ∀ a ∈ (List.range parts).map (fun k => i32AsUsize (i32At .le (4 * k) (bs.drop 40))) ++ [n], a ≤ n := by
    intro g hl
    have h := ht' g hl
    rw [en] at h
    simp only [List.cons_append, List.pairwise_cons, List.pairwise_append, List.pairwise_map, List.mem_append, List.mem_map,
      List.mem_range, List.mem_singleton] at h
    obtain ⟨h0, h1, -, h2⟩ := h
    have hk : ∀ k, k < parts → (i32AsUsize (i32At .le (40 + 4 * k) bs) : Int) = i32At .le (40 + 4 * k) bs := by
      intro k hk
      have h3 := h0 _ (Or.inl ⟨k, hk, rfl⟩)
      have h4 := i32At_range .le (40 + 4 * k) bs
      unfold isI32 at h4
      unfold i32AsUsize
      omega
    have hle : ∀ k, k < parts → i32AsUsize (i32At .le (40 + 4 * k) bs) ≤ n := by
      intro k hk'
      have h3 := h2 _ ⟨k, hk', rfl⟩ _ rfl
      have h4 := hk k hk'
      omega
    simp only [i32At_drop]
    refine ⟨?_, ?_⟩
    · simp only [List.pairwise_append, List.pairwise_map, List.mem_map, List.mem_range, List.mem_singleton]
      refine ⟨?_, by simp, ?_⟩
      · refine List.Pairwise.imp_of_mem ?_ h1
        intro a b ha hb hab
        have h3 := hk a (List.mem_range.mp ha)
        have h4 := hk b (List.mem_range.mp hb)
        omega
      · rintro a ⟨k, hk', rfl⟩ b rfl
        exact hle k hk'
    · intro a ha
      simp only [List.mem_append, List.mem_map, List.mem_range, List.mem_singleton] at ha
      rcases ha with ⟨k, hk', rfl⟩ | rfl
      · exact hle k hk'
      · exact Nat.le_refl _
  clear ht'
  simp only
  have hrest : ∀ M : Bool, size = multipartRecordSize n parts + (if hasZ = true then dimValueSize n else 0) +
      (if M = true then dimValueSize n else 0) →
      Dec F multi (Prog.bind (Geozero.readParts parts) fun index => Prog.bind (Geozero.readXYs n) fun coords =>
        Prog.bind (Geozero.readDimValuesIf hasZ n) fun zs => Prog.bind (Geozero.readDimValuesIf M n) fun ms =>
        Prog.ret (ShpShape.multipart asPoly (index ++ [n]) coords zs ms)) (bs.drop 40)
        (fun s rest => (G → s.Good) ∧ size ≤ bs.length ∧ rest = bs.drop size ∧ size < 2 ^ 37) := by
    intro M hsz
    refine Dec.bind (R := fun index rest => index = (List.range parts).map (fun k => i32AsUsize (i32At .le (4 * k) (bs.drop 40))) ∧
        40 + 4 * parts ≤ bs.length ∧ rest = bs.drop (40 + 4 * parts))
      (Dec.readParts hF fun hl => ⟨rfl, by rw [List.length_drop] at hl; omega, by rw [List.drop_drop]⟩) ?_
    rintro index rest ⟨rfl, hl0, rfl⟩
    refine Dec.bind (R := fun c rest => c.length = n ∧ 40 + 4 * parts + 16 * n ≤ bs.length ∧
        rest = bs.drop (40 + 4 * parts + 16 * n))
      (Dec.readXYs hF fun vs hvs hl => ⟨hvs, by rw [List.length_drop] at hl; omega, by rw [List.drop_drop]⟩) ?_
    rintro coords rest ⟨hc, hl, rfl⟩
    refine Dec.bind (R := fun zs rest => (zs = [] ∨ zs.length = n) ∧
        40 + 4 * parts + 16 * n + (if hasZ = true then dimValueSize n else 0) ≤ bs.length ∧
        rest = bs.drop (40 + 4 * parts + 16 * n + (if hasZ = true then dimValueSize n else 0)))
      (Dec.readDimValuesIf hF fun vs hvs hl => ⟨hvs, by rw [List.length_drop] at hl; omega, by rw [List.drop_drop]⟩) ?_
    rintro zs rest ⟨hz, hl2, rfl⟩
    refine Dec.bind (R := fun ms rest => (ms = [] ∨ ms.length = n) ∧ size ≤ bs.length ∧ rest = bs.drop size)
      (Dec.readDimValuesIf hF fun vs hvs hl => ?_) ?_
    · rw [List.length_drop] at hl
      rw [List.drop_drop]
      unfold multipartRecordSize at hsz
      exact ⟨hvs, by omega, by rw [hsz]⟩
    · rintro ms rest ⟨hm, hl3, rfl⟩
      refine Dec.ret ⟨fun g => ⟨by rw [hc]; exact hz, by rw [hc]; exact hm, (hgood g hl0).1, ?_⟩, hl3, rfl, ?_⟩
      · rw [hc]; exact (hgood g hl0).2
      · unfold multipartRecordSize dimValueSize at hsz
        split at hsz <;> split at hsz <;> omega
  by_cases hM : size = multipartRecordSize n parts + (if hasZ = true then dimValueSize n else 0) + dimValueSize n
  · rw [decide_eq_true hM, if_neg (by simp)]
    exact hrest true (by rw [if_pos rfl]; exact hM)
  · rw [decide_eq_false hM]
    by_cases hB : size = multipartRecordSize n parts + (if hasZ = true then dimValueSize n else 0)
    · rw [if_neg (by simp [hB])]
      exact hrest false (by simpa using hB)
    · rw [if_pos (by simp [hB])]
      exact Dec.fail hs

/-- the code of a type -/
def ShpType.code : ShpType → Int
  | .null => 0 | .point => 1 | .polyline => 3 | .polygon => 5 | .multipoint => 8
  | .pointZ => 11 | .polylineZ => 13 | .polygonZ => 15 | .multipointZ => 18
  | .pointM => 21 | .polylineM => 23 | .polygonM => 25 | .multipointM => 28 | .multipatch => 31

theorem ShpType.fromCode_of_mem {c : Int} (h : c ∈ shapeCodes) : ∃ t, ShpType.fromCode c = some t := by
  simp only [shapeCodes, List.mem_cons, List.not_mem_nil, or_false] at h
  rcases h with rfl | rfl | rfl | rfl | rfl | rfl | rfl | rfl | rfl | rfl | rfl | rfl | rfl | rfl <;> exact ⟨_, rfl⟩

theorem ShpType.fromCode_code {c : Int} {t : ShpType} (h : ShpType.fromCode c = some t) : c = t.code := by
  cases t <;> grind (splits := 20) [ShpType.fromCode, ShpType.code]

theorem Dec.record (hF : F .io) (hs : F (.shp "InvalidShapeRecordSize")) (ht : F (.shp "InvalidShapeType"))
    (bs : List Byte) (hpan : (∀ m, F (.panic m)) ∨ SaneRecord bs) :
    Dec F multi readShpRecord bs (fun r rest => (SaneRecord bs → r.2.Good) ∧ r.1 = i32At .be 4 bs ∧ 12 ≤ bs.length ∧
      (i32At .le 8 bs ≠ 0 → ∃ n : Nat, i32At .be 4 bs = n ∧ 8 + 2 * n ≤ bs.length ∧ rest = bs.drop (8 + 2 * n)) ∧
      (i32At .le 8 bs = 0 → rest = bs.drop 12)) := by
  unfold readShpRecord
  refine Dec.bind (R := fun _ rest => 4 ≤ bs.length ∧ rest = bs.drop 4) (Dec.readI32 hF fun h4 => ⟨h4, rfl⟩) ?_
  rintro _ rest ⟨h4, rfl⟩
  refine Dec.bind (R := fun v rest => v = i32At .be 4 bs ∧ 8 ≤ bs.length ∧ rest = bs.drop 8)
    (Dec.readI32 hF fun h4 => ⟨by rw [i32At_drop], by rw [List.length_drop] at h4; omega, by rw [List.drop_drop]⟩) ?_
  rintro v rest ⟨rfl, h8, rfl⟩
  have hv := i32At_range .be 4 bs
  unfold isI32 at hv
  refine Dec.bind (R := fun d rest => d = i32At .be 4 bs * 2 ∧ -(2 ^ 31) ≤ d ∧ d < 2 ^ 31 ∧ rest = bs.drop 8) ?_ ?_
  · unfold doubleI32
    by_cases h : -(2 ^ 31) ≤ i32At .be 4 bs * 2 ∧ i32At .be 4 bs * 2 < 2 ^ 31
    · rw [if_pos h]; exact Dec.ret ⟨rfl, h.1, h.2, rfl⟩
    · rw [if_neg h]
      rcases hpan with hpan | hpan
      · exact Dec.fail (hpan _)
      · have := hpan.size h8
        omega
  rintro d rest ⟨rfl, hd1, hd2, rfl⟩
  refine Dec.bind (R := fun s rest => (SaneRecord bs → s.Good) ∧ 12 ≤ bs.length ∧
      (i32At .le 8 bs ≠ 0 → ∃ n : Nat, i32At .be 4 bs = n ∧ 8 + 2 * n ≤ bs.length ∧ rest = bs.drop (8 + 2 * n)) ∧
      (i32At .le 8 bs = 0 → rest = bs.drop 12)) ?_ fun s rest h => Dec.ret ⟨h.1, rfl, h.2⟩
  unfold readShpContent readShpType
  refine Dec.bind (R := fun t rest => ShpType.fromCode (i32At .le 8 bs) = some t ∧ 12 ≤ bs.length ∧ rest = bs.drop 12) ?_ ?_
  · refine Dec.bind (R := fun v rest => v = i32At .le 8 bs ∧ 12 ≤ bs.length ∧ rest = bs.drop 12)
      (Dec.readI32 hF fun h4 => ⟨by rw [i32At_drop], by rw [List.length_drop] at h4; omega, by rw [List.drop_drop]⟩) ?_
    rintro v rest ⟨rfl, h12, rfl⟩
    cases hc : ShpType.fromCode (i32At .le 8 bs) with
    | none => exact Dec.fail ht
    | some t => exact Dec.ret ⟨rfl, h12, rfl⟩
  rintro t rest ⟨hc, h12, rfl⟩
  have hw : SaneRecord bs → 4 ≤ i32At .be 4 bs * 2 := fun h => by have := h.size h8; omega
  have hneg : i32At .be 4 bs * 2 < 0 → 2 ^ 63 + 4 ≤ i32AsUsize (i32At .be 4 bs * 2) := by
    intro h; unfold i32AsUsize; omega
  have hpos : 0 ≤ i32At .be 4 bs * 2 → (i32AsUsize (i32At .be 4 bs * 2) : Int) = i32At .be 4 bs * 2 := by
    intro h; unfold i32AsUsize; omega
  by_cases hlt : i32AsUsize (i32At .be 4 bs * 2) < 4
  · rw [if_pos hlt]
    rcases hpan with hpan | hpan
    · exact Dec.fail (hpan _)
    · have := hw hpan
      omega
  rw [if_neg hlt]
  simp only
  have hge : 4 ≤ i32AsUsize (i32At .be 4 bs * 2) := by omega
  clear hlt
  generalize hR : i32AsUsize (i32At .be 4 bs * 2) = R at hneg hpos hge ⊢
  -- a content of the size declared
  have fin : ∀ (p : Prog ShpShape), i32At .le 8 bs ≠ 0 →
      Dec F multi p (bs.drop 12) (fun s rest => (SaneRecord bs → s.Good) ∧ R - 4 ≤ (bs.drop 12).length ∧
        rest = (bs.drop 12).drop (R - 4) ∧ R - 4 < 2 ^ 63) →
      Dec F multi p (bs.drop 12) (fun s rest => (SaneRecord bs → s.Good) ∧ 12 ≤ bs.length ∧
        (i32At .le 8 bs ≠ 0 → ∃ n : Nat, i32At .be 4 bs = n ∧ 8 + 2 * n ≤ bs.length ∧ rest = bs.drop (8 + 2 * n)) ∧
        (i32At .le 8 bs = 0 → rest = bs.drop 12)) := by
    intro p h0 hp
    refine hp.mono ?_
    rintro s rest ⟨h1, h2, h3, h5⟩
    refine ⟨h1, h12, fun _ => ?_, fun h => absurd h h0⟩
    have hnn : 0 ≤ i32At .be 4 bs * 2 := by
      by_cases h : i32At .be 4 bs * 2 < 0
      · have := hneg h; omega
      · omega
    have := hpos hnn
    rw [List.length_drop] at h2
    refine ⟨(i32At .be 4 bs).toNat, by omega, by omega, ?_⟩
    rw [h3, List.drop_drop]
    congr 1
    omega
  have hpt : ∀ t, Dec F multi (readShpPoint (R - 4) t) (bs.drop 12) (fun s rest => (SaneRecord bs → s.Good) ∧
      R - 4 ≤ (bs.drop 12).length ∧ rest = (bs.drop 12).drop (R - 4) ∧ R - 4 < 2 ^ 63) := fun t =>
    (Dec.point hF hs (R - 4) t (bs.drop 12)).mono fun s rest h => ⟨fun _ => h.1, h.2.1, h.2.2.1, by omega⟩
  have hmp : ∀ z, i32At .le 8 bs ∈ [8, 18, 28] → Dec F multi (readShpMultipoint (R - 4) z) (bs.drop 12)
      (fun s rest => (SaneRecord bs → s.Good) ∧
      R - 4 ≤ (bs.drop 12).length ∧ rest = (bs.drop 12).drop (R - 4) ∧ R - 4 < 2 ^ 63) := by
    intro z hmem
    refine (Dec.multipoint hF hs (R - 4) z (bs.drop 12) ?_).mono fun s rest h => ⟨fun _ => h.1, h.2.1, h.2.2.1, by omega⟩
    intro hl
    rw [List.length_drop] at hl
    rw [i32At_drop]
    rcases hpan with hpan | hpan
    · exact Or.inr (hpan _)
    · exact Or.inl (hpan.points (by omega) hmem)
  have hpl : ∀ asPoly z, i32At .le 8 bs ∈ [3, 5, 13, 15, 23, 25] → Dec F multi (readMultiPart asPoly (R - 4) z) (bs.drop 12)
      (fun s rest => (SaneRecord bs → s.Good) ∧
      R - 4 ≤ (bs.drop 12).length ∧ rest = (bs.drop 12).drop (R - 4) ∧ R - 4 < 2 ^ 63) := by
    intro asPoly z hmem
    refine (Dec.multiPart hF hs asPoly (R - 4) z (bs.drop 12) (SaneRecord bs) ?_ ?_).mono
      fun s rest h => ⟨h.1, h.2.1, h.2.2.1, by omega⟩
    · intro hl
      rw [List.length_drop] at hl
      rw [i32At_drop, i32At_drop]
      rcases hpan with hpan | hpan
      · exact Or.inr (hpan _)
      · exact Or.inl (hpan.parts (by omega) hmem)
    · intro n hsane hl hn
      rw [List.length_drop] at hl
      rw [i32At_drop] at hn
      simp only [i32At_drop]
      have := hsane.table n (by omega) hmem hn (by omega)
      have he : ∀ k, 12 + (40 + 4 * k) = 52 + 4 * k := fun k => by omega
      simp only [he]
      exact this
  have hcode := ShpType.fromCode_code hc
  clear hc
  cases t with
  | null =>
    simp only [ShpType.code] at hcode
    exact Dec.ret ⟨fun _ => trivial, h12, fun h => absurd hcode h, fun _ => rfl⟩
  | point =>
    simp only [ShpType.code] at hcode
    exact fin _ (by rw [hcode]; decide) (hpt _)
  | polyline =>
    simp only [ShpType.code] at hcode
    exact fin _ (by rw [hcode]; decide) (hpl _ _ (by rw [hcode]; decide))
  | polygon =>
    simp only [ShpType.code] at hcode
    exact fin _ (by rw [hcode]; decide) (hpl _ _ (by rw [hcode]; decide))
  | multipoint =>
    simp only [ShpType.code] at hcode
    exact fin _ (by rw [hcode]; decide) (hmp _ (by rw [hcode]; decide))
  | pointZ =>
    simp only [ShpType.code] at hcode
    exact fin _ (by rw [hcode]; decide) (hpt _)
  | polylineZ =>
    simp only [ShpType.code] at hcode
    exact fin _ (by rw [hcode]; decide) (hpl _ _ (by rw [hcode]; decide))
  | polygonZ =>
    simp only [ShpType.code] at hcode
    exact fin _ (by rw [hcode]; decide) (hpl _ _ (by rw [hcode]; decide))
  | multipointZ =>
    simp only [ShpType.code] at hcode
    exact fin _ (by rw [hcode]; decide) (hmp _ (by rw [hcode]; decide))
  | pointM =>
    simp only [ShpType.code] at hcode
    exact fin _ (by rw [hcode]; decide) (hpt _)
  | polylineM =>
    simp only [ShpType.code] at hcode
    exact fin _ (by rw [hcode]; decide) (hpl _ _ (by rw [hcode]; decide))
  | polygonM =>
    simp only [ShpType.code] at hcode
    exact fin _ (by rw [hcode]; decide) (hpl _ _ (by rw [hcode]; decide))
  | multipointM =>
    simp only [ShpType.code] at hcode
    exact fin _ (by rw [hcode]; decide) (hmp _ (by rw [hcode]; decide))
  | multipatch =>
    simp only [ShpType.code] at hcode
    refine fin _ (by rw [hcode]; decide) ?_
    unfold readMultipatch
    by_cases h : 2 ^ 63 ≤ R - 4
    · rw [if_pos h]
      rcases hpan with hpan | hpan
      · exact Dec.fail (hpan _)
      · exfalso
        have h1 := hw hpan
        have h2 := hpos (by omega)
        omega
    · rw [if_neg h]
      exact Dec.bind (R := fun _ rest => R - 4 ≤ (bs.drop 12).length ∧ rest = (bs.drop 12).drop (R - 4))
        (Dec.readN hF fun hl => ⟨hl, rfl⟩) fun _ rest hr => Dec.ret ⟨fun _ => trivial, hr.1, hr.2, by omega⟩

end

end Geozero
