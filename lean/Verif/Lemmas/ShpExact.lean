import Verif.Lemmas.ShpFile

/- Helper lemmas: exactly when reading and delivering a shapefile record panics. -/

namespace Geozero
open Prog Spec

/-- The reader makes no calls and takes exactly `n` bytes, or fails for lack of them; its result satisfies `Q`. -/
def ShpGot {α : Type} (multi : Bool) (p : Prog α) (bs : List Byte) (n : Nat) (Q : α → Prop) : Prop :=
  (bs.length < n → run multi p bs = ([], .error .io)) ∧
  (n ≤ bs.length → ∃ a, Q a ∧ run multi p bs = ([], .ok (a, bs.drop n)))

section
variable {α β : Type} {multi : Bool}

theorem ShpGot.ret {a : α} {bs : List Byte} {Q : α → Prop} (h : Q a) : ShpGot multi (.ret a) bs 0 Q :=
  ⟨fun h => absurd h (Nat.not_lt_zero _), fun _ => ⟨a, h, rfl⟩⟩

theorem ShpGot.bind {p : Prog α} {f : α → Prog β} {bs : List Byte} {n m : Nat} {Q : α → Prop} {R : β → Prop}
    (hp : ShpGot multi p bs n Q) (hf : ∀ a, n ≤ bs.length → Q a → ShpGot multi (f a) (bs.drop n) m R) :
    ShpGot multi (Prog.bind p f) bs (n + m) R := by
  by_cases hn : n ≤ bs.length
  · obtain ⟨a, ha, hr⟩ := hp.2 hn
    obtain ⟨h1, h2⟩ := hf a hn ha
    rw [List.length_drop] at h1 h2
    refine ⟨fun h => ?_, fun h => ?_⟩
    · rw [run_bind_ok_nil hr]; exact h1 (by omega)
    · obtain ⟨b, hb, hr2⟩ := h2 (by omega)
      exact ⟨b, hb, by rw [run_bind_ok_nil hr, hr2, List.drop_drop]⟩
  · refine ⟨fun _ => run_bind_err (hp.1 (by omega)), fun h => absurd h (by omega)⟩

theorem ShpGot.mono {p : Prog α} {bs : List Byte} {n m : Nat} {Q R : α → Prop} (hp : ShpGot multi p bs n Q) (hnm : n = m)
    (h : ∀ a, Q a → R a) : ShpGot multi p bs m R := by
  subst hnm
  refine ⟨hp.1, fun hn => ?_⟩
  obtain ⟨a, ha, hr⟩ := hp.2 hn
  exact ⟨a, h a ha, hr⟩

theorem ShpGot.readN {n : Nat} {bs : List Byte} : ShpGot multi (readN n) bs n (fun v => v = bs.take n) := by
  refine ⟨fun h => ?_, fun h => ⟨_, rfl, ?_⟩⟩
  · rw [run_readN_any, if_neg (by omega)]
  · rw [run_readN_any, if_pos h]

theorem ShpGot.readI32 {e : Endian} {bs : List Byte} : ShpGot multi (readI32 e) bs 4 (fun v => v = i32At e 0 bs) :=
  ShpGot.bind (n := 4) (m := 0) ShpGot.readN fun v _ hv => ShpGot.ret (by subst hv; rfl)

theorem ShpGot.readF64 {e : Endian} {bs : List Byte} : ShpGot multi (readF64 e) bs 8 (fun _ => True) :=
  ShpGot.bind (n := 8) (m := 0) ShpGot.readN fun _ _ _ => ShpGot.ret trivial

theorem ShpGot.readF64List {n : Nat} {bs : List Byte} :
    ShpGot multi (readF64List n) bs (8 * n) (fun vs => vs.length = n) := by
  induction n generalizing bs with
  | zero => exact ShpGot.ret rfl
  | succ n ih =>
    refine (ShpGot.bind (n := 8) (m := 8 * n + 0) ShpGot.readF64 fun v _ _ => ShpGot.bind ih fun vs _ hvs => ShpGot.ret ?_).mono
      (by omega) fun _ h => h
    simp [hvs]

theorem ShpGot.readXYs {n : Nat} {bs : List Byte} : ShpGot multi (readXYs n) bs (16 * n) (fun vs => vs.length = n) := by
  induction n generalizing bs with
  | zero => exact ShpGot.ret rfl
  | succ n ih =>
    refine (ShpGot.bind (n := 8) (m := 8 + (16 * n + 0)) ShpGot.readF64 fun x _ _ => ShpGot.bind ShpGot.readF64 fun y _ _ =>
      ShpGot.bind ih fun vs _ hvs => ShpGot.ret ?_).mono (by omega) fun _ h => h
    simp [hvs]

theorem ShpGot.readParts {n : Nat} {bs : List Byte} : ShpGot multi (readParts n) bs (4 * n)
    (fun vs => vs = (List.range n).map fun k => i32AsUsize (i32At .le (4 * k) bs)) := by
  induction n generalizing bs with
  | zero => exact ShpGot.ret rfl
  | succ n ih =>
    refine (ShpGot.bind (n := 4) (m := 4 * n + 0) ShpGot.readI32 fun v _ hv => ShpGot.bind ih fun vs _ hvs => ShpGot.ret ?_).mono
      (by omega) fun _ h => h
    subst hv; subst hvs
    rw [List.range_succ_eq_map, List.map_cons, List.map_map]
    congr 1
    apply List.map_congr_left
    intro k _
    simp only [i32At_drop, Function.comp_apply]
    rw [show 4 + 4 * k = 4 * k.succ by omega]

theorem ShpGot.readDimValuesIf {b : Bool} {n : Nat} {bs : List Byte} :
    ShpGot multi (readDimValuesIf b n) bs (if b then dimValueSize n else 0) (fun vs => vs = [] ∨ vs.length = n) := by
  cases b with
  | false => exact ShpGot.ret (Or.inl rfl)
  | true =>
    refine (ShpGot.bind (n := 8 * 2) (m := 8 * n) ShpGot.readF64List fun _ _ _ =>
      ShpGot.readF64List).mono (by simp [dimValueSize]; omega) fun _ h => Or.inr h

theorem ShpGot.readF64If {b : Bool} {bs : List Byte} :
    ShpGot multi (readF64If b) bs (if b then 8 else 0) (fun _ => True) := by
  cases b with
  | false => exact ShpGot.ret trivial
  | true => exact ShpGot.bind (n := 8) (m := 0) ShpGot.readF64 fun _ _ _ => ShpGot.ret trivial

end

/-! ### reading a record -/

/-- a part table that goes down somewhere and ends with the number of points -/
def ShpShape.Bad (s : ShpShape) : Prop :=
  ∃ asPoly init coords zs ms, s = .multipart asPoly (init ++ [coords.length]) coords zs ms ∧
    ¬ (init ++ [coords.length]).Pairwise (· ≤ ·)

/-- The reader makes no calls; it panics iff `X`; it yields a shape with a bad part table iff `B`. -/
def ShpReads (multi : Bool) (p : Prog ShpShape) (bs : List Byte) (X B : Prop) : Prop :=
  ∃ r, run multi p bs = ([], r) ∧
    match r with
    | .error e => (e.isPanic = true ↔ X) ∧ ¬ B
    | .ok (s, _) => ¬ X ∧ (B ∨ s.Good) ∧ (B → s.Bad)

section
variable {α : Type} {multi : Bool} {X B : Prop}

theorem ShpReads.got {p : Prog ShpShape} {bs : List Byte} {n : Nat} {Q : ShpShape → Prop} (h : ShpGot multi p bs n Q) (hX : ¬ X)
    (hB : B → n ≤ bs.length) (hQ : ∀ a, n ≤ bs.length → Q a → (B ∨ a.Good) ∧ (B → a.Bad)) : ShpReads multi p bs X B := by
  by_cases hn : n ≤ bs.length
  · obtain ⟨a, ha, hr⟩ := h.2 hn
    exact ⟨_, hr, hX, hQ a hn ha⟩
  · exact ⟨_, h.1 (by omega), ⟨fun h => absurd h (by simp [Err.isPanic]), fun h => absurd h hX⟩, fun h => hn (hB h)⟩

theorem ShpReads.bind {p : Prog α} {f : α → Prog ShpShape} {bs : List Byte} {n : Nat} {Q : α → Prop}
    (hp : ShpGot multi p bs n Q) (hX : X → n ≤ bs.length) (hB : B → n ≤ bs.length)
    (hf : ∀ a, n ≤ bs.length → Q a → ShpReads multi (f a) (bs.drop n) X B) : ShpReads multi (Prog.bind p f) bs X B := by
  by_cases hn : n ≤ bs.length
  · obtain ⟨a, ha, hr⟩ := hp.2 hn
    obtain ⟨r, h1, h2⟩ := hf a hn ha
    exact ⟨r, by rw [run_bind_ok_nil hr, h1], h2⟩
  · exact ⟨_, run_bind_err (hp.1 (by omega)), ⟨fun h => absurd h (by simp [Err.isPanic]), fun h => absurd (hX h) hn⟩,
      fun h => hn (hB h)⟩

theorem ShpReads.fail {e : Err} {bs : List Byte} (he : e.isPanic = true ↔ X) (hB : ¬ B) :
    ShpReads multi (.fail e) bs X B := ⟨_, rfl, he, hB⟩

theorem ShpReads.panic {m : String} {bs : List Byte} (hX : X) (hB : ¬ B) :
    ShpReads multi (.fail (.panic m)) bs X B := ShpReads.fail ⟨fun _ => hX, fun _ => rfl⟩ hB

theorem ShpReads.shp {m : String} {bs : List Byte} (hX : ¬ X) (hB : ¬ B) :
    ShpReads multi (.fail (.shp m)) bs X B := ShpReads.fail ⟨fun h => absurd h (by simp [Err.isPanic]), fun h => absurd h hX⟩ hB

theorem ShpReads.ite {c : Prop} [Decidable c] {p q : Prog ShpShape} {bs : List Byte} (hp : c → ShpReads multi p bs X B)
    (hq : ¬ c → ShpReads multi q bs X B) : ShpReads multi (if c then p else q) bs X B := by
  by_cases h : c
  · rw [if_pos h]; exact hp h
  · rw [if_neg h]; exact hq h

/-- a checked count -/
theorem ShpReads.usize {n : Nat} {f : Nat → Prog ShpShape} {bs : List Byte} (hX : ¬ n < 2 ^ 64 → X ∧ ¬ B)
    (hf : n < 2 ^ 64 → ShpReads multi (f n) bs X B) : ShpReads multi (Prog.bind (usizeOk n) f) bs X B := by
  unfold usizeOk
  by_cases hn : n < 2 ^ 64
  · rw [if_pos hn]; exact hf hn
  · rw [if_neg hn]; exact ShpReads.panic (hX hn).1 (hX hn).2

theorem ShpReads.point (size : Nat) (t : ShpType) (bs : List Byte) : ShpReads multi (readShpPoint size t) bs False False := by
  unfold readShpPoint
  simp only
  refine ShpReads.ite (fun _ => ?_) fun _ => ?_
  · exact ShpReads.shp id id
  · refine ShpReads.bind (n := 8) ShpGot.readF64 False.elim False.elim fun x _ _ => ?_
    refine ShpReads.bind (n := 8) ShpGot.readF64 False.elim False.elim fun y _ _ => ?_
    refine ShpReads.bind ShpGot.readF64If False.elim False.elim fun z _ _ => ?_
    refine ShpReads.bind ShpGot.readF64If False.elim False.elim fun m _ _ => ?_
    exact ShpReads.got (n := 0) (Q := fun a => a = .point x y z m) (ShpGot.ret rfl) id False.elim
      fun a _ h => ⟨Or.inr (by subst h; trivial), False.elim⟩

theorem usize_nonneg {v : Int} (hv : isI32 v) (h : 0 ≤ v) : (i32AsUsize v : Int) = v ∧ i32AsUsize v < 2 ^ 31 := by
  unfold isI32 at hv; unfold i32AsUsize; omega

theorem usize_neg {v : Int} (hv : isI32 v) (h : v < 0) : 2 ^ 64 - 2 ^ 31 ≤ i32AsUsize v := by
  unfold isI32 at hv; unfold i32AsUsize; omega

theorem ShpReads.multipoint (size : Nat) (hasZ : Bool) (bs : List Byte) :
    ShpReads multi (readShpMultipoint size hasZ) bs (36 ≤ bs.length ∧ i32At .le 32 bs < 0) False := by
  unfold readShpMultipoint
  have hr := i32At_range .le 32 bs
  refine ShpReads.bind (n := 8 * (2 * 2)) (ShpGot.readF64List) (by omega) False.elim fun _ h32 _ => ?_
  refine ShpReads.bind (n := 4) ShpGot.readI32 (by rw [List.length_drop]; omega) False.elim fun v h4 hv => ?_
  rw [List.length_drop] at h4
  rw [i32At_drop] at hv
  simp only [Nat.reduceMul, Nat.add_zero] at hv
  subst hv
  refine ShpReads.usize (fun hn => ⟨⟨by omega, ?_⟩, id⟩) fun hn => ?_
  · by_cases h0 : 0 ≤ i32At .le 32 bs
    · have := usize_nonneg hr h0; omega
    · omega
  have hX : ¬ (36 ≤ bs.length ∧ i32At .le 32 bs < 0) := by
    rintro ⟨-, h0⟩
    have := usize_neg hr h0; omega
  simp only
  refine ShpReads.ite (fun _ => ?_) fun _ => ?_
  · exact ShpReads.shp hX id
  · refine ShpReads.bind (ShpGot.readXYs) (fun h => absurd h hX) False.elim fun cs _ hcs => ?_
    refine ShpReads.bind ShpGot.readDimValuesIf (fun h => absurd h hX) False.elim fun zs _ hzs => ?_
    refine ShpReads.bind ShpGot.readDimValuesIf (fun h => absurd h hX) False.elim fun ms _ hms => ?_
    exact ShpReads.got (n := 0) (Q := fun a => a = .multipoint cs zs ms) (ShpGot.ret rfl) hX False.elim
      fun a _ h => ⟨Or.inr (by subst h; exact ⟨hcs ▸ hzs, hcs ▸ hms⟩), False.elim⟩

/-- the part table as numbers of the file and as indices -/
theorem table_pairwise (vs : List Int) (hv : ∀ v ∈ vs, isI32 v) (m : Nat) (hm : m < 2 ^ 31) :
    (vs.map i32AsUsize ++ [m]).Pairwise (· ≤ ·) ↔ ((0 : Int) :: vs ++ [(m : Int)]).Pairwise (· ≤ ·) := by
  rw [List.cons_append, List.pairwise_cons, List.pairwise_append, List.pairwise_append]
  simp only [List.mem_map, List.mem_append, List.mem_cons, List.not_mem_nil, or_false, List.pairwise_map,
    forall_eq, forall_exists_index, and_imp, forall_apply_eq_imp_iff₂, List.pairwise_cons,
    List.Pairwise.nil, and_true, false_implies, implies_true, true_and]
  constructor
  · rintro ⟨h1, h2⟩
    have h0 : ∀ v ∈ vs, 0 ≤ v ∧ (i32AsUsize v : Int) = v := by
      intro v hm'
      by_cases h0 : 0 ≤ v
      · exact ⟨h0, (usize_nonneg (hv v hm') h0).1⟩
      · have := usize_neg (hv v hm') (by omega)
        have := h2 v hm'
        omega
    refine ⟨?_, ?_, ?_⟩
    · rintro a (ha | rfl)
      · exact (h0 a ha).1
      · omega
    · refine h1.imp_of_mem fun {a b} ha hb hab => ?_
      have := h0 a ha; have := h0 b hb; omega
    · intro a ha
      have := h2 a ha; have := h0 a ha; omega
  · rintro ⟨h0, h1, h2⟩
    have h0 : ∀ v ∈ vs, (i32AsUsize v : Int) = v := fun v hm' => (usize_nonneg (hv v hm') (h0 v (Or.inl hm'))).1
    refine ⟨?_, ?_⟩
    · refine h1.imp_of_mem fun {a b} ha hb hab => ?_
      have := h0 a ha; have := h0 b hb; omega
    · intro a ha
      have := h2 a ha; have := h0 a ha; omega

theorem ShpReads.multiPart (asPoly : Bool) (size : Nat) (hasZ : Bool) (bs : List Byte) :
    ShpReads multi (readMultiPart asPoly size hasZ) bs
      (40 ≤ bs.length ∧ (i32At .le 32 bs < 0 ∨ i32At .le 36 bs < 0))
      (∃ n m : Nat, i32At .le 32 bs = n ∧ i32At .le 36 bs = m ∧
        (size = 40 + 4 * n + 16 * m + (if hasZ then 16 + 8 * m else 0) ∨
          size = 40 + 4 * n + 16 * m + (if hasZ then 16 + 8 * m else 0) + (16 + 8 * m)) ∧ size ≤ bs.length ∧
        ¬ ((0 : Int) :: ((List.range n).map fun k => i32At .le (40 + 4 * k) bs) ++ [(m : Int)]).Pairwise (· ≤ ·)) := by
  have hr := i32At_range .le 32 bs
  have hr2 := i32At_range .le 36 bs
  unfold readMultiPart
  generalize hBd : (∃ n m : Nat, _) = B
  have hB40 : B → 40 ≤ bs.length := by
    subst hBd
    rintro ⟨n, m, -, -, h, h', -⟩
    omega
  refine ShpReads.bind (n := 8 * (2 * 2)) (ShpGot.readF64List) (by omega) (fun h => by have := hB40 h; omega) fun _ h32 _ => ?_
  refine ShpReads.bind (n := 4) ShpGot.readI32 (by rw [List.length_drop]; omega)
    (fun h => by have := hB40 h; rw [List.length_drop]; omega) fun v h4 hv => ?_
  rw [List.length_drop] at h4
  rw [i32At_drop] at hv
  simp only [Nat.reduceMul, Nat.add_zero] at hv
  subst hv
  refine ShpReads.bind (n := 4) ShpGot.readI32 (by rw [List.length_drop, List.length_drop]; omega)
    (fun h => by have := hB40 h; rw [List.length_drop, List.length_drop]; omega) fun v h4' hv => ?_
  rw [List.length_drop, List.length_drop] at h4'
  rw [i32At_drop, i32At_drop] at hv
  simp only [Nat.reduceMul, Nat.add_zero, Nat.reduceAdd] at hv
  subst hv
  simp only
  refine ShpReads.usize (fun hn => ?_) fun hn => ?_
  · have : i32At .le 32 bs < 0 := by
      by_cases h0 : 0 ≤ i32At .le 32 bs
      · have := usize_nonneg hr h0; omega
      · omega
    refine ⟨⟨by omega, Or.inl this⟩, ?_⟩
    subst hBd
    rintro ⟨n, m, h, -⟩
    omega
  refine ShpReads.usize (fun hn => ?_) fun hn' => ?_
  · have : i32At .le 36 bs < 0 := by
      by_cases h0 : 0 ≤ i32At .le 36 bs
      · have := usize_nonneg hr2 h0; omega
      · omega
    refine ⟨⟨by omega, Or.inr this⟩, ?_⟩
    subst hBd
    rintro ⟨n, m, -, h, -⟩
    omega
  obtain ⟨hn1, hn2⟩ := usize_count hr hn
  obtain ⟨hm1, hm2⟩ := usize_count hr2 (by omega)
  generalize i32AsUsize (i32At .le 32 bs) = n at *
  generalize i32AsUsize (i32At .le 36 bs) = m at *
  have hX : ¬ (40 ≤ bs.length ∧ (i32At .le 32 bs < 0 ∨ i32At .le 36 bs < 0)) := by omega
  have hBsize : B → (size = 40 + 4 * n + 16 * m + (if hasZ then 16 + 8 * m else 0) ∨
      size = 40 + 4 * n + 16 * m + (if hasZ then 16 + 8 * m else 0) + (16 + 8 * m)) ∧ size ≤ bs.length ∧
      ¬ ((0 : Int) :: ((List.range n).map fun k => i32At .le (40 + 4 * k) bs) ++ [(m : Int)]).Pairwise (· ≤ ·) := by
    subst hBd
    rintro ⟨n', m', h1, h2, h⟩
    have : n' = n := by omega
    have : m' = m := by omega
    subst n' m'
    exact h
  unfold multipartRecordSize dimValueSize
  rw [show 32 + 4 + 4 + 4 * n + 16 * m + (if hasZ = true then 16 + m * 8 else 0) + (16 + m * 8) =
    40 + 4 * n + 16 * m + (if hasZ = true then 16 + 8 * m else 0) + (16 + 8 * m) by simp only [Nat.mul_comm m 8],
    show 32 + 4 + 4 + 4 * n + 16 * m + (if hasZ = true then 16 + m * 8 else 0) =
    40 + 4 * n + 16 * m + (if hasZ = true then 16 + 8 * m else 0) by simp only [Nat.mul_comm m 8]]
  generalize hzz : (if hasZ = true then 16 + 8 * m else 0) = zlen at *
  refine ShpReads.ite (fun h => ?_) fun hsz => ?_
  · refine ShpReads.shp hX fun hb => ?_
    obtain ⟨h1, h2, h3⟩ := hBsize hb
    simp only [decide_eq_true_eq] at h
    omega
  · have hsz : size = 40 + 4 * n + 16 * m + zlen ∨ size = 40 + 4 * n + 16 * m + zlen + (16 + 8 * m) := by
      simp only [decide_eq_true_eq] at hsz
      omega
    generalize hM : decide (size = 40 + 4 * n + 16 * m + zlen + (16 + 8 * m)) = hasM
    have hsz' : size = 40 + (4 * n + (16 * m + ((if hasZ then dimValueSize m else 0) + ((if hasM then dimValueSize m else 0) + 0)))) := by
      unfold dimValueSize
      rw [Nat.mul_comm m 8, hzz]
      cases hasM
      · simp at hM ⊢; omega
      · simp at hM ⊢; omega
    have hg := ShpGot.bind (multi := multi) (bs := ((bs.drop 32).drop 4).drop 4) (ShpGot.readParts (n := n)) fun idx _ hidx =>
      ShpGot.bind (ShpGot.readXYs (n := m)) fun cs _ hcs =>
      ShpGot.bind (ShpGot.readDimValuesIf (b := hasZ) (n := m)) fun zs _ hzs =>
      ShpGot.bind (ShpGot.readDimValuesIf (b := hasM) (n := m)) fun ms _ hms =>
      ShpGot.ret (a := ShpShape.multipart asPoly (idx ++ [m]) cs zs ms)
        (Q := fun s => ∃ cs zs ms, s = .multipart asPoly ((List.range n).map (fun k => i32AsUsize (i32At .le (40 + 4 * k) bs)) ++ [m]) cs zs ms ∧
          cs.length = m ∧ (zs = [] ∨ zs.length = m) ∧ (ms = [] ∨ ms.length = m))
        ⟨cs, zs, ms, by
          subst hidx
          simp only [i32At_drop]
          congr 2
          apply List.map_congr_left
          intro k _
          rw [show 32 + (4 + (4 + 4 * k)) = 40 + 4 * k by omega], hcs, hzs, hms⟩
    have hl : (((bs.drop 32).drop 4).drop 4).length = bs.length - 40 := by simp only [List.length_drop]; omega
    have htab := table_pairwise ((List.range n).map fun k => i32At .le (40 + 4 * k) bs)
      (by intro v hv; rw [List.mem_map] at hv; obtain ⟨k, -, rfl⟩ := hv; exact i32At_range _ _ _) m (by omega)
    rw [List.map_map] at htab
    refine ShpReads.got hg hX (fun hb => ?_) fun a hlen ha => ?_
    · obtain ⟨h1, h2, h3⟩ := hBsize hb
      rw [hl]; omega
    · obtain ⟨cs, zs, ms, rfl, rfl, hzs, hms⟩ := ha
      have key : B ↔ ¬ ((List.range n).map (i32AsUsize ∘ fun k => i32At .le (40 + 4 * k) bs) ++ [cs.length]).Pairwise (· ≤ ·) := by
        rw [htab]
        constructor
        · intro hb; exact (hBsize hb).2.2
        · intro hb; rw [← hBd]
          exact ⟨n, cs.length, hn1, hm1, by rw [hzz]; exact hsz, by rw [hl] at hlen; omega, hb⟩
      refine ⟨?_, fun hb => ?_⟩
      · by_cases hb : B
        · exact Or.inl hb
        · refine Or.inr ⟨hzs, hms, ?_⟩
          rw [key, Decidable.not_not] at hb
          refine ⟨hb, ?_⟩
          rw [List.pairwise_append] at hb
          intro a ha
          rw [List.mem_append] at ha
          rcases ha with ha | ha
          · exact hb.2.2 a ha cs.length (by simp)
          · simp at ha; omega
      · exact ⟨asPoly, _, cs, zs, ms, rfl, key.mp hb⟩

theorem ShpReads.congr {p : Prog ShpShape} {bs : List Byte} {X' B' : Prop} (h : ShpReads multi p bs X B) (hX : X ↔ X') (hB : B ↔ B') :
    ShpReads multi p bs X' B' := by
  rw [← propext hX, ← propext hB]; exact h

/-- reading a record panics -/
def ReadPanics (bs : List Byte) : Prop :=
  8 ≤ bs.length ∧ (2 ^ 30 ≤ i32At .be 4 bs ∨ i32At .be 4 bs < -2 ^ 30 ∨
    12 ≤ bs.length ∧ i32At .le 8 bs ∈ shapeCodes ∧
      (i32At .be 4 bs = 0 ∨ i32At .be 4 bs = 1 ∨ i32At .le 8 bs = 31 ∧ i32At .be 4 bs < 0 ∨ NegativeCount bs))

theorem ShpReads.content (bs : List Byte) (h12 : 12 ≤ bs.length) (t : ShpType) (ht : i32At .le 8 bs = t.code)
    (hw : -2 ^ 30 ≤ i32At .be 4 bs ∧ i32At .be 4 bs < 2 ^ 30)
    (hw2 : i32At .be 4 bs < 0 ∨ 2 ≤ i32At .be 4 bs) :
    ShpReads multi (match t with
    | .point => readShpPoint (i32AsUsize (i32At .be 4 bs * 2) - 4) t
    | .pointM => readShpPoint (i32AsUsize (i32At .be 4 bs * 2) - 4) t
    | .pointZ => readShpPoint (i32AsUsize (i32At .be 4 bs * 2) - 4) t
    | .multipoint => readShpMultipoint (i32AsUsize (i32At .be 4 bs * 2) - 4) false
    | .multipointM => readShpMultipoint (i32AsUsize (i32At .be 4 bs * 2) - 4) false
    | .multipointZ => readShpMultipoint (i32AsUsize (i32At .be 4 bs * 2) - 4) true
    | .polyline => readMultiPart false (i32AsUsize (i32At .be 4 bs * 2) - 4) false
    | .polylineM => readMultiPart false (i32AsUsize (i32At .be 4 bs * 2) - 4) false
    | .polylineZ => readMultiPart false (i32AsUsize (i32At .be 4 bs * 2) - 4) true
    | .polygon => readMultiPart true (i32AsUsize (i32At .be 4 bs * 2) - 4) false
    | .polygonM => readMultiPart true (i32AsUsize (i32At .be 4 bs * 2) - 4) false
    | .polygonZ => readMultiPart true (i32AsUsize (i32At .be 4 bs * 2) - 4) true
    | .multipatch => readMultipatch (i32AsUsize (i32At .be 4 bs * 2) - 4)
    | .null => .ret .null) (bs.drop 12) (ReadPanics bs) (BadTable bs) := by
  have hX : ReadPanics bs ↔ (i32At .le 8 bs = 31 ∧ i32At .be 4 bs < 0 ∨ NegativeCount bs) := by
    unfold ReadPanics
    constructor
    · rintro ⟨-, h | h | ⟨-, -, h | h | h⟩⟩
      · omega
      · omega
      · omega
      · omega
      · exact h
    · intro h
      refine ⟨by omega, Or.inr (Or.inr ⟨h12, ?_, Or.inr (Or.inr h)⟩)⟩
      rw [ht]; cases t <;> decide
  rw [propext hX]
  have hneg : i32At .be 4 bs < 0 → 2 ^ 63 + 4 ≤ i32AsUsize (i32At .be 4 bs * 2) := by
    intro h; unfold i32AsUsize; omega
  have hpos : 0 ≤ i32At .be 4 bs → (i32AsUsize (i32At .be 4 bs * 2) : Int) = i32At .be 4 bs * 2 := by
    intro h; unfold i32AsUsize; omega
  have hl : (bs.drop 12).length = bs.length - 12 := List.length_drop
  generalize hR : i32AsUsize (i32At .be 4 bs * 2) = R at hneg hpos ⊢
  have pt : ShpReads multi (readShpPoint (R - 4) t) (bs.drop 12) False False := ShpReads.point _ _ _
  have mp : ∀ z, ShpReads multi (readShpMultipoint (R - 4) z) (bs.drop 12) (48 ≤ bs.length ∧ i32At .le 44 bs < 0) False := by
    intro z
    refine (ShpReads.multipoint _ _ _).congr ?_ Iff.rfl
    rw [i32At_drop, hl]
    constructor <;> (rintro ⟨a, b⟩; exact ⟨by omega, b⟩)
  have mparts : ∀ p z, ShpReads multi (readMultiPart p (R - 4) z) (bs.drop 12)
      (52 ≤ bs.length ∧ (i32At .le 44 bs < 0 ∨ i32At .le 48 bs < 0))
      (∃ n m : Nat, i32At .le 44 bs = n ∧ i32At .le 48 bs = m ∧
    (2 * i32At .be 4 bs = 44 + 4 * n + 16 * m + (if z then 16 + 8 * m else 0) ∨
      2 * i32At .be 4 bs = 44 + 4 * n + 16 * m + (if z then 16 + 8 * m else 0) + (16 + 8 * m)) ∧
    8 + 2 * i32At .be 4 bs ≤ bs.length ∧
    ¬ List.Pairwise (· ≤ ·) ((0 : Int) :: ((List.range n).map fun k => i32At .le (52 + 4 * k) bs) ++ [(m : Int)])) := by
    intro p z
    refine (ShpReads.multiPart _ _ _ _).congr ?_ ?_
    · rw [i32At_drop, i32At_drop, hl]
      constructor <;> (rintro ⟨a, b⟩; exact ⟨by omega, b⟩)
    · apply exists_congr; intro n
      apply exists_congr; intro m
      simp only [i32At_drop, hl, Nat.reduceAdd]
      rw [show (fun k => i32At .le (12 + (40 + 4 * k)) bs) = fun k => i32At .le (52 + 4 * k) bs from
        funext fun k => by rw [show 12 + (40 + 4 * k) = 52 + 4 * k by omega]]
      refine and_congr_right fun hn => and_congr_right fun hm => ?_
      have hr1 := i32At_range .le 44 bs
      have hr2 := i32At_range .le 48 bs
      unfold isI32 at hr1 hr2
      rw [← and_assoc, ← and_assoc]
      apply and_congr _ Iff.rfl
      rcases hw2 with hw2 | hw2
      · have := hneg hw2
        cases z <;> simp only [if_true, if_false, Bool.false_eq_true] <;> omega
      · have := hpos (by omega)
        cases z <;> simp only [if_true, if_false, Bool.false_eq_true] <;> omega
  clear hX
  have memP : ∀ c : Int, i32At .le 8 bs = c → (c ∈ ([8, 18, 28] : List Int)) = False → c ≠ 31 →
      (c ∈ ([3, 5, 13, 15, 23, 25] : List Int)) = False → ∀ p, ShpReads multi p (bs.drop 12) False False →
      ShpReads multi p (bs.drop 12)
      (i32At .le 8 bs = 31 ∧ i32At .be 4 bs < 0 ∨ NegativeCount bs) (BadTable bs) := fun c hc h1 h2 h3 p hp => hp.congr (iff_of_false id (by
        unfold NegativeCount
        rw [hc, h1, h3]
        rintro (⟨h, -⟩ | ⟨h, -⟩ | ⟨h, -⟩)
        · exact h2 h
        · exact h
        · exact h)) (iff_of_false id (by unfold BadTable; rw [hc, h3]; rintro ⟨h, -⟩; exact h))
  have memM : ∀ c : Int, i32At .le 8 bs = c → (c ∈ ([8, 18, 28] : List Int)) = True → c ≠ 31 →
      (c ∈ ([3, 5, 13, 15, 23, 25] : List Int)) = False → ∀ z, ShpReads multi (readShpMultipoint (R - 4) z) (bs.drop 12)
      (i32At .le 8 bs = 31 ∧ i32At .be 4 bs < 0 ∨ NegativeCount bs) (BadTable bs) :=
    fun c hc h1 h2 h3 z => (mp z).congr (by
        unfold NegativeCount
        rw [hc, h1, h3]
        constructor
        · exact fun h => Or.inr (Or.inl ⟨trivial, h⟩)
        · rintro (⟨h, -⟩ | ⟨-, h⟩ | ⟨h, -⟩)
          · exact absurd h h2
          · exact h
          · exact h.elim) (iff_of_false id (by unfold BadTable; rw [hc, h3]; rintro ⟨h, -⟩; exact h))
  have memL : ∀ c : Int, i32At .le 8 bs = c → (c ∈ ([8, 18, 28] : List Int)) = False → c ≠ 31 →
      (c ∈ ([3, 5, 13, 15, 23, 25] : List Int)) = True → ∀ p z, z = decide (c ∈ ([13, 15] : List Int)) →
      ShpReads multi (readMultiPart p (R - 4) z) (bs.drop 12)
      (i32At .le 8 bs = 31 ∧ i32At .be 4 bs < 0 ∨ NegativeCount bs) (BadTable bs) :=
    fun c hc h1 h2 h3 p z hz => (mparts p z).congr (by
        unfold NegativeCount
        rw [hc, h1, h3]
        constructor
        · exact fun h => Or.inr (Or.inr ⟨trivial, h⟩)
        · rintro (⟨h, -⟩ | ⟨h, -⟩ | ⟨-, h⟩)
          · exact absurd h h2
          · exact h.elim
          · exact h) (by unfold BadTable; rw [hc, h3, hz]; simp only [decide_eq_true_eq, true_and])
  cases t with
  | null =>
    exact memP 0 ht (by simp) (by decide) (by simp) _ (ShpReads.got (n := 0) (Q := fun a => a = .null) (ShpGot.ret rfl) id False.elim
      fun a _ h => ⟨Or.inr (by subst h; trivial), False.elim⟩)
  | point => exact memP 1 ht (by simp) (by decide) (by simp) _ pt
  | pointZ => exact memP 11 ht (by simp) (by decide) (by simp) _ pt
  | pointM => exact memP 21 ht (by simp) (by decide) (by simp) _ pt
  | multipoint => exact memM 8 ht (by simp) (by decide) (by simp) _
  | multipointZ => exact memM 18 ht (by simp) (by decide) (by simp) _
  | multipointM => exact memM 28 ht (by simp) (by decide) (by simp) _
  | polyline => exact memL 3 ht (by simp) (by decide) (by simp) _ _ (by decide)
  | polygon => exact memL 5 ht (by simp) (by decide) (by simp) _ _ (by decide)
  | polylineZ => exact memL 13 ht (by simp) (by decide) (by simp) _ _ (by decide)
  | polygonZ => exact memL 15 ht (by simp) (by decide) (by simp) _ _ (by decide)
  | polylineM => exact memL 23 ht (by simp) (by decide) (by simp) _ _ (by decide)
  | polygonM => exact memL 25 ht (by simp) (by decide) (by simp) _ _ (by decide)
  | multipatch =>
    have ht : i32At .le 8 bs = 31 := ht
    unfold readMultipatch
    have hB : ¬ ((31 : Int) ∈ [3, 5, 13, 15, 23, 25]) := by decide
    have hB2 : ¬ ((31 : Int) ∈ [8, 18, 28]) := by decide
    unfold NegativeCount BadTable
    rw [ht]
    refine ShpReads.ite (fun h => ShpReads.panic (Or.inl ⟨rfl, ?_⟩) (fun h => hB h.1)) fun h => ?_
    · rcases hw2 with hw2 | hw2
      · exact hw2
      · have := hpos (by omega); omega
    · have hw2 : 2 ≤ i32At .be 4 bs := by
        rcases hw2 with hw2 | hw2
        · have := hneg hw2; omega
        · exact hw2
      have hX : ¬ ((31 : Int) = 31 ∧ i32At .be 4 bs < 0 ∨ ((31 : Int) ∈ [8, 18, 28] ∧ 48 ≤ bs.length ∧ i32At .le 44 bs < 0 ∨
        (31 : Int) ∈ [3, 5, 13, 15, 23, 25] ∧ 52 ≤ bs.length ∧ (i32At .le 44 bs < 0 ∨ i32At .le 48 bs < 0))) := by
        rintro (⟨-, h⟩ | ⟨h, -⟩ | ⟨h, -⟩)
        · omega
        · exact hB2 h
        · exact hB h
      refine ShpReads.bind (n := R - 4) ShpGot.readN (fun h => absurd h hX) (fun h => absurd h.1 hB) fun _ _ _ => ?_
      exact ShpReads.got (n := 0) (Q := fun a => a = .patch) (ShpGot.ret rfl) hX (fun h => absurd h.1 hB)
        fun a _ h => ⟨Or.inr (by subst h; trivial), fun h => absurd h.1 hB⟩

end

/-- the reading part of a record -/
theorem record_exact (multi : Bool) (bs : List Byte) : ∃ r, run multi readShpRecord bs = ([], r) ∧
    match r with
    | .error e => (e.isPanic = true ↔ RecordPanics bs)
    | .ok ((w, s), _) => w = i32At .be 4 bs ∧ (RecordPanics bs ∨ s.Good) ∧ (RecordPanics bs → s.Bad) := by
  have hsplit : RecordPanics bs ↔ ReadPanics bs ∨ (8 ≤ bs.length ∧ 12 ≤ bs.length ∧ i32At .le 8 bs ∈ shapeCodes ∧ BadTable bs) := by
    unfold RecordPanics ReadPanics
    constructor
    · rintro ⟨h8, h | h | ⟨h1, h2, h | h | h | h | h⟩⟩
      · exact Or.inl ⟨h8, Or.inl h⟩
      · exact Or.inl ⟨h8, Or.inr (Or.inl h)⟩
      · exact Or.inl ⟨h8, Or.inr (Or.inr ⟨h1, h2, Or.inl h⟩)⟩
      · exact Or.inl ⟨h8, Or.inr (Or.inr ⟨h1, h2, Or.inr (Or.inl h)⟩)⟩
      · exact Or.inl ⟨h8, Or.inr (Or.inr ⟨h1, h2, Or.inr (Or.inr (Or.inl h))⟩)⟩
      · exact Or.inl ⟨h8, Or.inr (Or.inr ⟨h1, h2, Or.inr (Or.inr (Or.inr h))⟩)⟩
      · exact Or.inr ⟨h8, h1, h2, h⟩
    · rintro (⟨h8, h | h | ⟨h1, h2, h | h | h | h⟩⟩ | ⟨h8, h1, h2, h⟩)
      · exact ⟨h8, Or.inl h⟩
      · exact ⟨h8, Or.inr (Or.inl h)⟩
      · exact ⟨h8, Or.inr (Or.inr ⟨h1, h2, Or.inl h⟩)⟩
      · exact ⟨h8, Or.inr (Or.inr ⟨h1, h2, Or.inr (Or.inl h)⟩)⟩
      · exact ⟨h8, Or.inr (Or.inr ⟨h1, h2, Or.inr (Or.inr (Or.inl h))⟩)⟩
      · exact ⟨h8, Or.inr (Or.inr ⟨h1, h2, Or.inr (Or.inr (Or.inr (Or.inl h)))⟩)⟩
      · exact ⟨h8, Or.inr (Or.inr ⟨h1, h2, Or.inr (Or.inr (Or.inr (Or.inr h)))⟩)⟩
  have io : ∀ {α : Type} {p : Prog α} {f : α → Prog (Int × ShpShape)} {cs : List Byte} {n : Nat} {Q : α → Prop}, ShpGot multi p cs n Q →
      ¬ n ≤ cs.length → ¬ RecordPanics bs → ∃ r, run multi (Prog.bind p f) cs = ([], r) ∧
      match r with
      | .error e => (e.isPanic = true ↔ RecordPanics bs)
      | .ok ((w, s), _) => w = i32At .be 4 bs ∧ (RecordPanics bs ∨ s.Good) ∧ (RecordPanics bs → s.Bad) := by
    intro α p f cs n Q hg hn hp
    exact ⟨_, run_bind_err (hg.1 (by omega)), fun h => absurd h (by simp [Err.isPanic]), fun h => absurd h hp⟩
  by_cases h8 : 8 ≤ bs.length
  case neg =>
    have hn : ¬ RecordPanics bs := fun h => h8 h.1
    have hg : ShpGot multi (Prog.bind (readI32 .be) fun _ => readI32 .be) bs 8 fun _ => True :=
      ShpGot.bind (n := 4) (m := 4) ShpGot.readI32 fun _ _ _ => ShpGot.readI32.mono rfl fun _ _ => trivial
    have := io (f := fun words => Prog.bind (doubleI32 words) fun size => Prog.bind (readShpContent (i32AsUsize size)) fun s => .ret (words, s))
      hg h8 hn
    rw [Prog.bind_assoc] at this
    exact this
  obtain ⟨_, -, hr0⟩ := (ShpGot.readI32 (multi := multi) (e := .be) (bs := bs)).2 (by omega)
  obtain ⟨_, rfl, hr1⟩ := (ShpGot.readI32 (multi := multi) (e := .be) (bs := bs.drop 4)).2 (by rw [List.length_drop]; omega)
  rw [i32At_drop, List.drop_drop] at hr1
  simp only [Nat.add_zero, Nat.reduceAdd] at hr1
  have hrun : run multi readShpRecord bs = run multi (Prog.bind (doubleI32 (i32At .be 4 bs)) fun size =>
      Prog.bind (readShpContent (i32AsUsize size)) fun s => .ret (i32At .be 4 bs, s)) (bs.drop 8) := by
    unfold readShpRecord
    exact (run_bind_ok_nil hr0).trans (run_bind_ok_nil hr1)
  rw [hrun]
  unfold doubleI32
  by_cases hd : -(2 ^ 31) ≤ i32At .be 4 bs * 2 ∧ i32At .be 4 bs * 2 < 2 ^ 31
  case neg =>
    rw [if_neg hd]
    refine ⟨_, rfl, ⟨fun _ => ⟨h8, ?_⟩, fun _ => rfl⟩⟩
    omega
  rw [if_pos hd]
  have hbind : (Prog.bind (Prog.ret (i32At .be 4 bs * 2)) fun size =>
      Prog.bind (readShpContent (i32AsUsize size)) fun s => Prog.ret (i32At .be 4 bs, s)) =
      Prog.bind (readShpContent (i32AsUsize (i32At .be 4 bs * 2))) fun s => Prog.ret (i32At .be 4 bs, s) := rfl
  rw [hbind]
  unfold readShpContent readShpType
  by_cases h12 : 12 ≤ bs.length
  case neg =>
    have hn : ¬ RecordPanics bs := by
      rintro ⟨-, h | h | h⟩
      · omega
      · omega
      · exact h12 h.1
    simp only [Bind.bind]
    rw [Prog.bind_assoc, Prog.bind_assoc]
    exact io (ShpGot.readI32 (multi := multi) (e := .le) (bs := bs.drop 8)) (by rw [List.length_drop]; omega) hn
  obtain ⟨_, rfl, hr2⟩ := (ShpGot.readI32 (multi := multi) (e := .le) (bs := bs.drop 8)).2 (by rw [List.length_drop]; omega)
  rw [i32At_drop, List.drop_drop] at hr2
  simp only [Nat.add_zero, Nat.reduceAdd] at hr2
  simp only [Bind.bind]
  rw [Prog.bind_assoc, Prog.bind_assoc, run_bind_ok_nil hr2]
  cases hc : ShpType.fromCode (i32At .le 8 bs) with
  | none =>
    refine ⟨_, rfl, fun h => absurd h (by simp [Err.isPanic]), ?_⟩
    rintro ⟨-, h | h | ⟨-, h, -⟩⟩
    · omega
    · omega
    · obtain ⟨t, ht⟩ := ShpType.fromCode_of_mem h
      rw [hc] at ht; cases ht
  | some t =>
    have ht := ShpType.fromCode_code hc
    have hmem : i32At .le 8 bs ∈ shapeCodes := by rw [ht]; cases t <;> decide
    by_cases h01 : i32At .be 4 bs = 0 ∨ i32At .be 4 bs = 1
    · have hlt : i32AsUsize (i32At .be 4 bs * 2) < 4 := by unfold i32AsUsize; omega
      refine ⟨.error (.panic "attempt to subtract with overflow"), ?_, fun _ => ⟨h8, Or.inr (Or.inr ⟨h12, hmem, ?_⟩)⟩, fun _ => rfl⟩
      · simp only [Prog.bind, if_pos hlt]; rfl
      · rcases h01 with h | h
        · exact Or.inl h
        · exact Or.inr (Or.inl h)
    · have hlt : ¬ i32AsUsize (i32At .be 4 bs * 2) < 4 := by unfold i32AsUsize; omega
      obtain ⟨r, hr, hm⟩ := ShpReads.content (multi := multi) bs h12 t ht (by omega) (by omega)
      simp only [Prog.bind, if_neg hlt]
      cases r with
      | error e =>
        refine ⟨_, run_bind_err hr, ?_⟩
        show e.isPanic = true ↔ RecordPanics bs
        rw [hsplit]
        exact ⟨fun h => Or.inl (hm.1.mp h), fun h => hm.1.mpr (h.resolve_right fun h => hm.2 h.2.2.2)⟩
      | ok ab =>
        obtain ⟨s, rest⟩ := ab
        obtain ⟨h1, h2, h3⟩ := hm
        refine ⟨_, run_bind_ok_nil hr, rfl, ?_, fun h => ?_⟩
        · rcases h2 with h2 | h2
          · exact Or.inl (hsplit.mpr (Or.inr ⟨h8, h12, hmem, h2⟩))
          · exact Or.inr h2
        · exact h3 ((hsplit.mp h).resolve_left h1).2.2.2

/-! ### delivering a bad part table -/

namespace FProg

/-- reaches the end if no call fails; `false` instead of the end: a panic -/
def Ends {α : Type} (fine : Bool) : FProg α → Prop
  | ret _ => fine = true
  | fail e => fine = false ∧ e.isPanic = true
  | read _ => False
  | emit _ k => Ends fine k
  | emitOk _ k => Ends fine k
  | prop _ _ _ k => ∀ b, Ends fine (k b)
  | ask k => ∀ b d, Ends fine (k b d)

theorem Ends.bind {α β : Type} {fine : Bool} {p : FProg α} {f : α → FProg β} (hp : Ends true p) (hf : ∀ a, Ends fine (f a)) :
    Ends fine (FProg.bind p f) := by
  induction p with
  | ret a => exact hf a
  | fail e => cases hp.1
  | read k ih => exact hp.elim
  | emit e k ih => exact ih hp
  | emitOk e k ih => exact ih hp
  | prop i n v k ih => exact fun b => ih b (hp b)
  | ask k ih => exact fun b d => ih b d (hp b d)

theorem Ends.bind_panic {α β : Type} {p : FProg α} {f : α → FProg β} (hp : Ends false p) : Ends false (FProg.bind p f) := by
  induction p with
  | ret a => cases hp
  | fail e => exact hp
  | read k ih => exact hp.elim
  | emit e k ih => exact ih hp
  | emitOk e k ih => exact ih hp
  | prop i n v k ih => exact fun b => ih b (hp b)
  | ask k ih => exact fun b d => ih b d (hp b d)

theorem Ends.forIdx {α : Type} {body : Nat → α → FProg Unit} (xs : List α)
    (h : ∀ i, ∀ x ∈ xs, ∃ f, Ends f (body i x)) (i : Nat) :
    ((∃ f, Ends f (FProg.forIdx body i xs)) ∧ ((∃ x ∈ xs, ∀ i, Ends false (body i x)) → Ends false (FProg.forIdx body i xs))) := by
  induction xs generalizing i with
  | nil => exact ⟨⟨true, rfl⟩, fun ⟨_, h, _⟩ => by cases h⟩
  | cons x xs ih =>
    obtain ⟨⟨f, hf⟩, hp⟩ := ih (fun i y hy => h i y (by simp [hy])) (i + 1)
    obtain ⟨g, hg⟩ := h i x (by simp)
    cases g with
    | false => exact ⟨⟨false, hg.bind_panic⟩, fun _ => hg.bind_panic⟩
    | true =>
      refine ⟨⟨f, hg.bind fun _ => hf⟩, ?_⟩
      rintro ⟨y, hy, hb⟩
      rw [List.mem_cons] at hy
      rcases hy with rfl | hy
      · exact (hb i).bind_panic
      · exact hg.bind fun _ => hp ⟨y, hy, hb⟩

theorem Ends.sound {α σ : Type} {p : FProg α} (hp : Ends false p) (P : FProc σ) (hP : ∀ s e, ∃ s', P.step s e = .ok s')
    (s : σ) (bs : List Byte) : ∃ x, (interp P p s bs).2.2 = .error x ∧ x.isPanic = true := by
  induction p generalizing s bs with
  | ret a => cases hp
  | fail e => exact ⟨e, rfl, hp.2⟩
  | read k ih => exact hp.elim
  | emit e k ih => obtain ⟨s', hs⟩ := hP s e; simp only [interp, hs]; exact ih hp s' bs
  | emitOk e k ih => obtain ⟨s', hs⟩ := hP s e; simp only [interp, hs]; exact ih hp s' bs
  | prop i n v k ih => obtain ⟨s', hs⟩ := hP s (.prop i n v); simp only [interp, hs]; exact ih _ (hp _) s' bs
  | ask k ih => exact ih _ _ (hp _ _) s bs

end FProg

theorem ends_coord (coords : List XY) (zs ms : List F64) (multi gz gm : Bool) (ofs i : Nat) :
    ∃ f, FProg.Ends f (shpCoord coords zs ms multi gz gm ofs i) := by
  have hd : ∀ g vs e, dimValue g vs ofs = .error e → e.isPanic = true := by
    intro g vs e h
    unfold dimValue at h
    cases g
    · cases h
    · simp only [if_true] at h
      split at h
      · cases h
      · cases h; rfl
  unfold shpCoord
  cases hc : coords[ofs]? with
  | none => exact ⟨false, rfl, rfl⟩
  | some c =>
    cases multi with
    | false => exact ⟨true, rfl⟩
    | true =>
      simp only [if_true]
      cases hz : dimValue gz zs ofs with
      | error e => exact ⟨false, rfl, hd _ _ _ hz⟩
      | ok z =>
        cases hm : dimValue gm ms ofs with
        | error e => exact ⟨false, rfl, hd _ _ _ hm⟩
        | ok m => exact ⟨true, rfl⟩

theorem ends_part (coords : List XY) (zs ms : List F64) (multi gz gm : Bool) (i : Nat) (w : Nat × Nat) :
    (∃ f, FProg.Ends f (shpPart coords zs ms multi gz gm i w)) ∧
      (w.2 < w.1 → FProg.Ends false (shpPart coords zs ms multi gz gm i w)) := by
  unfold shpPart
  by_cases h : w.2 < w.1
  · rw [if_pos h]; exact ⟨⟨false, rfl, rfl⟩, fun _ => ⟨rfl, rfl⟩⟩
  · rw [if_neg h]
    refine ⟨?_, fun h' => absurd h' h⟩
    obtain ⟨⟨f, hf⟩, -⟩ := FProg.Ends.forIdx (body := fun i ofs => shpCoord coords zs ms multi gz gm ofs i)
      (List.range' w.1 (w.2 - w.1)) (fun i x _ => ends_coord coords zs ms multi gz gm x i) 0
    cases f with
    | false => exact ⟨false, FProg.Ends.bind (p := FProg.call _) rfl fun _ => hf.bind_panic⟩
    | true => exact ⟨true, FProg.Ends.bind (p := FProg.call _) rfl fun _ => hf.bind fun _ => rfl⟩

/-- a list that goes down does so somewhere between neighbours -/
theorem exists_window {l : List Nat} (h : ¬ l.Pairwise (· ≤ ·)) : ∃ w ∈ windows2 l, w.2 < w.1 := by
  induction l with
  | nil => exact absurd List.Pairwise.nil h
  | cons a l ih =>
    cases l with
    | nil => exact absurd (by simp) h
    | cons b l =>
      by_cases hl : (b :: l).Pairwise (· ≤ ·)
      · refine ⟨(a, b), by simp [windows2], ?_⟩
        apply Nat.lt_of_not_le
        intro hab
        apply h
        rw [List.pairwise_cons]
        refine ⟨fun c hc => ?_, hl⟩
        rw [List.mem_cons] at hc
        rcases hc with rfl | hc
        · exact hab
        · exact Nat.le_trans hab ((List.pairwise_cons.mp hl).1 c hc)
      · obtain ⟨w, hw, hlt⟩ := ih hl
        exact ⟨w, by simp [windows2, hw], hlt⟩

theorem detectLoop_bad (inner : List XY → Bool) (coords : List XY) (idx : Nat) (ws : List (Nat × Nat)) :
    (∀ e, detectLoop inner coords idx ws = .error e → e.isPanic = true) ∧
    (idx ≠ 0 → (∃ w ∈ ws, w.2 < w.1) → ∃ e, detectLoop inner coords idx ws = .error e) := by
  induction ws generalizing idx with
  | nil =>
    refine ⟨fun e h => ?_, fun _ h => ?_⟩
    · cases h
    · obtain ⟨_, h, _⟩ := h; cases h
  | cons w ws ih =>
    obtain ⟨a, b⟩ := w
    obtain ⟨h1, h2⟩ := ih (idx + 1)
    unfold detectLoop
    by_cases hi : idx = 0
    · rw [if_pos hi]
      refine ⟨fun e h => ?_, fun h => absurd hi h⟩
      cases hd : detectLoop inner coords (idx + 1) ws with
      | ok ps => rw [hd] at h; cases h
      | error x => rw [hd] at h; cases h; exact h1 _ hd
    · rw [if_neg hi]
      unfold sliceXY
      by_cases hab : a ≤ b ∧ b ≤ coords.length
      · rw [if_pos hab]
        simp only
        refine ⟨fun e h => ?_, fun _ hex => ?_⟩
        · cases hd : detectLoop inner coords (idx + 1) ws with
          | ok ps => rw [hd] at h; cases h
          | error x => rw [hd] at h; cases h; exact h1 _ hd
        · obtain ⟨w, hw, hlt⟩ := hex
          rw [List.mem_cons] at hw
          rcases hw with rfl | hw
          · simp only at hlt; omega
          · obtain ⟨e, he⟩ := h2 (by omega) ⟨w, hw, hlt⟩
            rw [he]; exact ⟨e, rfl⟩
      · rw [if_neg hab]
        exact ⟨fun e h => by cases h; rfl, fun _ _ => ⟨_, rfl⟩⟩

/-- polygon starts come in order after the first -/
theorem detectLoop_mem (inner : List XY → Bool) (coords : List XY) (idx : Nat) (ws : List (Nat × Nat)) (ps : List Nat)
    (h : detectLoop inner coords idx ws = .ok ps) : ∀ p ∈ ps, idx ≤ p := by
  induction ws generalizing idx ps with
  | nil => cases h; intro p hp; cases hp
  | cons w ws ih =>
    obtain ⟨a, b⟩ := w
    unfold detectLoop at h
    by_cases hi : idx = 0
    · intro p _; omega
    · rw [if_neg hi] at h
      cases hs : sliceXY coords a b with
      | error e => rw [hs] at h; cases h
      | ok ring =>
        rw [hs] at h
        simp only at h
        cases hd : detectLoop inner coords (idx + 1) ws with
        | error e => rw [hd] at h; cases h
        | ok qs =>
          rw [hd] at h
          simp only [Except.ok.injEq] at h
          subst h
          have := ih (idx + 1) qs hd
          intro p hp
          split at hp
          · have := this p hp; omega
          · rw [List.mem_cons] at hp
            rcases hp with rfl | hp
            · omega
            · have := this p hp; omega

theorem ends_bad (ar : ShpArith) (s : ShpShape) (h : s.Bad) : FProg.Ends false (s.process ar) := by
  obtain ⟨asPoly, init, coords, zs, ms, rfl, hp⟩ := h
  generalize init ++ [coords.length] = parts at hp
  obtain ⟨w, hw, hlt⟩ := exists_window hp
  intro b d
  show FProg.Ends false (if asPoly then _ else _)
  generalize (d.z || d.m) = multi
  generalize (d.z && !zs.isEmpty) = gz
  generalize (d.m && !ms.isEmpty) = gm
  cases asPoly with
  | false =>
    simp only [Bool.false_eq_true, if_false]
    refine FProg.Ends.bind (p := FProg.call _) rfl fun _ => FProg.Ends.bind_panic ?_
    refine (FProg.Ends.forIdx _ (fun i x _ => (ends_part coords zs ms multi gz gm i x).1) 0).2 ⟨w, ?_, fun i => (ends_part coords zs ms multi gz gm i w).2 hlt⟩
    unfold partWindows
    rw [List.drop_zero, List.take_of_length_le (by simp only; omega)]
    exact hw
  | true =>
    simp only [if_true]
    unfold detectPolys
    obtain ⟨h1, -⟩ := detectLoop_bad (ringInner ar) coords 0 (windows2 parts)
    cases hd : detectLoop (ringInner ar) coords 0 (windows2 parts) with
    | error e => exact ⟨rfl, h1 e hd⟩
    | ok ps =>
      simp only
      match parts, hw, hd with
      | a :: b :: rest, hw, hd =>
        have hlen : (a :: b :: rest).length = rest.length + 2 := rfl
        simp only [windows2] at hd hw
        unfold detectLoop at hd
        rw [if_pos rfl] at hd
        cases hd' : detectLoop (ringInner ar) coords (0 + 1) (windows2 (b :: rest)) with
        | error e => rw [hd'] at hd; cases hd
        | ok qs =>
          rw [hd'] at hd
          simp only [Except.ok.injEq] at hd
          subst hd
          have hab : b < a := by
            rw [List.mem_cons] at hw
            rcases hw with rfl | hw
            · exact hlt
            · obtain ⟨e, he⟩ := (detectLoop_bad (ringInner ar) coords (0 + 1) (windows2 (b :: rest))).2 (by omega) ⟨w, hw, hlt⟩
              rw [hd'] at he; cases he
          have hmem := detectLoop_mem _ _ _ _ _ hd'
          have body : ∀ i v, (∃ f, FProg.Ends f (shpPolygon (a :: b :: rest) coords zs ms multi gz gm i v)) ∧
              ((a, b) ∈ partWindows (a :: b :: rest) v → FProg.Ends false (shpPolygon (a :: b :: rest) coords zs ms multi gz gm i v)) := by
            intro i v
            obtain ⟨⟨f, hf⟩, h2⟩ := FProg.Ends.forIdx (partWindows (a :: b :: rest) v) (fun i x _ => (ends_part coords zs ms multi gz gm i x).1) 0
            refine ⟨?_, fun hm => ?_⟩
            · cases f with
              | false => exact ⟨false, FProg.Ends.bind (p := FProg.call _) rfl fun _ => hf.bind_panic⟩
              | true => exact ⟨true, FProg.Ends.bind (p := FProg.call _) rfl fun _ => hf.bind fun _ => rfl⟩
            · exact FProg.Ends.bind (p := FProg.call _) rfl fun _ =>
                (h2 ⟨(a, b), hm, fun i => (ends_part coords zs ms multi gz gm i (a, b)).2 hab⟩).bind_panic
          refine FProg.Ends.bind (p := FProg.call _) rfl fun _ => FProg.Ends.bind_panic ?_
          have first : ∃ q, 1 ≤ q ∧ (0, q) ∈ windows2 (0 :: qs ++ [(a :: b :: rest).length - 1]) := by
            cases qs with
            | nil => exact ⟨(a :: b :: rest).length - 1, by rw [hlen]; omega, by simp [windows2]⟩
            | cons q qs => exact ⟨q, hmem q (by simp), by simp [windows2]⟩
          obtain ⟨q, hq, hqm⟩ := first
          refine (FProg.Ends.forIdx _ (fun i x _ => (body i x).1) 0).2 ⟨(0, q), hqm, fun i => (body i (0, q)).2 ?_⟩
          unfold partWindows
          obtain ⟨k, rfl⟩ : ∃ k, q = k + 1 := ⟨q - 1, by omega⟩
          simp [windows2]

end Geozero
