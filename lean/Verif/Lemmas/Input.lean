import Verif.Model.Input
import Verif.Lemmas.Prog
import Verif.Lemmas.Feature

/-
Lemmas on inputs (Model/Input.lean).
-/

namespace Geozero

namespace Input

/-- `read_exact` depends only on the bytes still to come -/
theorem readExact_spec (n : Nat) (i : Input) :
    (readExact n i).2.fails = i.fails ∧
    if n ≤ i.bytes.length then (readExact n i).1 = .ok (i.bytes.take n) ∧ (readExact n i).2.bytes = i.bytes.drop n
    else (readExact n i).1 = .error .io ∧ (readExact n i).2.bytes = [] := by
  fun_induction readExact n i with
  | case1 i => simp
  | case2 n i hn i' h ih =>
    have := read_interrupted h
    rwa [this.2.1, this.2.2] at ih
  | case3 n i hn i' h =>
    have := read_failed h
    simp [this]
    omega
  | case4 n i hn i' h =>
    have := read_data (Nat.pos_of_ne_zero hn) h
    have h2 := this.2.2.2.2 rfl
    simp only [List.nil_append] at this
    rw [if_neg (by simp [h2.1]; omega)]
    exact ⟨this.2.2.2.1, rfl, by rw [← this.1, h2.1]⟩
  | case5 n i hn d i' h hd ds i'' hr ih =>
    have h1 := read_data (Nat.pos_of_ne_zero hn) h
    rw [hr] at ih
    obtain ⟨ih1, ih2⟩ := ih
    refine ⟨ih1.trans h1.2.2.2.1, ?_⟩
    split at ih2
    · simp only [Except.ok.injEq] at ih2
      obtain ⟨rfl, h3⟩ := ih2
      rw [if_pos (by rw [h1.1, List.length_append]; omega), h1.1, List.take_append, List.drop_append,
        List.take_of_length_le h1.2.1, List.drop_of_length_le h1.2.1]
      exact ⟨rfl, h3⟩
    · exact nomatch ih2.1
  | case6 n i hn d i' h hd e i'' hr ih =>
    have h1 := read_data (Nat.pos_of_ne_zero hn) h
    rw [hr] at ih
    obtain ⟨ih1, ih2⟩ := ih
    refine ⟨ih1.trans h1.2.2.2.1, ?_⟩
    split at ih2
    · exact nomatch ih2.1
    · rw [if_neg (by rw [h1.1, List.length_append]; omega)]
      exact ih2

theorem readExact_ok {n : Nat} {i : Input} (h : n ≤ i.bytes.length) :
    ∃ i', readExact n i = (.ok (i.bytes.take n), i') ∧ i'.bytes = i.bytes.drop n ∧ i'.fails = i.fails := by
  have := readExact_spec n i
  rw [if_pos h] at this
  exact ⟨_, Prod.ext this.2.1 rfl, this.2.2, this.1⟩

theorem readExact_error {n : Nat} {i : Input} (h : i.bytes.length < n) :
    ∃ i', readExact n i = (.error .io, i') ∧ i'.bytes = [] ∧ i'.fails = i.fails := by
  have := readExact_spec n i
  rw [if_neg (by omega)] at this
  exact ⟨_, Prod.ext this.2.1 rfl, this.2.2, this.1⟩

theorem readToEnd_spec (bufs : Nat → Nat) (i : Input) :
    (readToEnd bufs i).1 = if i.fails then .error .io else .ok i.bytes := by
  fun_induction readToEnd bufs i with
  | case1 i i' h ih =>
    have := read_interrupted h
    rwa [this.2.1, this.2.2] at ih
  | case2 i i' h =>
    have := read_failed h
    simp [this]
  | case3 i i' h =>
    have := (read_data (by omega) h).2.2.2.2 rfl
    simp [this]
  | case4 i d i' h hd ds i'' hr ih =>
    have h1 := read_data (by omega) h
    rw [hr, h1.2.2.2.1] at ih
    split at ih
    · cases ih
    · rename_i hf
      rw [if_neg hf, h1.1]
      cases ih
      rfl
  | case5 i d i' h hd e i'' hr ih =>
    have h1 := read_data (by omega) h
    rw [hr, h1.2.2.2.1] at ih
    split at ih
    · rename_i hf
      rw [if_pos hf]
      exact ih
    · cases ih

end Input

/-! ### readers on inputs -/

namespace Prog

variable {α β σ : Type}

/-- what is seen of a run on an input: the processor, the calls, the result and, if there was no error, the bytes not read -/
def seen (r : σ × List Ev × Except Err α × Input) : σ × List Ev × Except Err (α × List Byte) :=
  (r.1, r.2.1, match r.2.2.1 with
    | .ok a => .ok (a, r.2.2.2.bytes)
    | .error e => .error e)

theorem interpOn_seen (P : Proc σ) (p : Prog α) (s : σ) (i : Input) : seen (interpOn P p s i) = interp P p s i.bytes := by
  induction p generalizing s i with
  | ret a => rfl
  | fail e => rfl
  | read k ih =>
    obtain ⟨bs, plan, f⟩ := i
    match bs with
    | [] =>
      obtain ⟨i', h1, h2, h3⟩ := Input.readExact_error (n := 1) (i := ⟨[], plan, f⟩) (by simp)
      rw [interpOn, h1]
      rfl
    | b :: bs =>
      obtain ⟨i', h1, h2, h3⟩ := Input.readExact_ok (n := 1) (i := ⟨b :: bs, plan, f⟩) (by simp)
      rw [interpOn, h1]
      simp only [List.take_succ_cons, List.headD_cons, interp]
      rw [ih, h2]
      rfl
  | emit e k ih =>
    simp only [interpOn, interp]
    cases h : P.step s e with
    | error x => rfl
    | ok s' =>
      have := ih s' i
      simp only [seen] at this ⊢
      rw [← this]
  | askMulti k ih => exact ih _ s i

theorem interp_bind_eq (P : Proc σ) (p : Prog α) (f : α → Prog β) (s : σ) (bs : List Byte) :
    interp P (bind p f) s bs = match interp P p s bs with
      | (s', es, .error e) => (s', es, .error e)
      | (s', es, .ok (a, rest)) => ((interp P (f a) s' rest).1, es ++ (interp P (f a) s' rest).2.1, (interp P (f a) s' rest).2.2) := by
  induction p generalizing s bs with
  | ret a => simp [bind, interp]
  | fail e => rfl
  | read k ih =>
    cases bs with
    | nil => rfl
    | cons b bs => exact ih b s bs
  | emit e k ih =>
    simp only [bind, interp]
    cases h : P.step s e with
    | error x => rfl
    | ok s' =>
      simp only [ih]
      rcases interp P k s' bs with ⟨s2, es, _ | ⟨a, rest⟩⟩ <;> simp
  | askMulti k ih => exact ih _ s bs

/-- `q` is `p` given up at some point with the error `e` -/
def Cuts (e : Err) (p q : Prog α) : Prop :=
  ∀ (σ : Type) (P : Proc σ) (s : σ) (bs : List Byte), (interp P q s bs).2.1 <+: (interp P p s bs).2.1 ∧
    (interp P q s bs = interp P p s bs ∨ (interp P q s bs).2.2 = .error e)

theorem Cuts.refl (e : Err) (p : Prog α) : Cuts e p p := fun _ _ _ _ => ⟨List.prefix_refl _, .inl rfl⟩

theorem Cuts.fail (e : Err) (p : Prog α) : Cuts e p (.fail e) := fun _ _ _ _ => ⟨List.nil_prefix, .inr rfl⟩

theorem Cuts.bind {e : Err} {p q : Prog α} {f g : α → Prog β} (h : Cuts e p q) (hf : ∀ a, Cuts e (f a) (g a)) :
    Cuts e (p.bind f) (q.bind g) := by
  intro σ P s bs
  rw [interp_bind_eq, interp_bind_eq]
  obtain ⟨h1, h2⟩ := h σ P s bs
  rcases h2 with h2 | h2
  · rw [h2]
    rcases interp P p s bs with ⟨s2, es, _ | ⟨a, rest⟩⟩
    · exact ⟨List.prefix_refl _, .inl rfl⟩
    · obtain ⟨h3, h4⟩ := hf a σ P s2 rest
      refine ⟨List.prefix_append_right_inj _ |>.2 h3, h4.imp (fun h => ?_) id⟩
      simp only [h]
  · have e1 : interp P q s bs = ((interp P q s bs).1, (interp P q s bs).2.1, .error e) := by rw [← h2]
    rw [e1]
    refine ⟨?_, .inr rfl⟩
    rcases hp : interp P p s bs with ⟨s2, es, _ | ⟨a, rest⟩⟩
    · rw [hp] at h1; exact h1
    · rw [hp] at h1; exact h1.trans (List.prefix_append _ _)

/-- A shorter input gives up the reader: with an I/O error where bytes are missing. -/
theorem interp_short (P : Proc σ) (p : Prog α) (s : σ) (bs more : List Byte) :
    (interp P p s bs).2.1 <+: (interp P p s (bs ++ more)).2.1 ∧
    ((interp P p s bs).2.2 = .error .io ∨
      (interp P p s bs).1 = (interp P p s (bs ++ more)).1 ∧ (interp P p s bs).2.1 = (interp P p s (bs ++ more)).2.1 ∧
      (interp P p s bs).2.2.map Prod.fst = (interp P p s (bs ++ more)).2.2.map Prod.fst) := by
  induction p generalizing s bs with
  | ret a => exact ⟨List.prefix_refl _, .inr ⟨rfl, rfl, rfl⟩⟩
  | fail e => exact ⟨List.prefix_refl _, .inr ⟨rfl, rfl, rfl⟩⟩
  | read k ih =>
    cases bs with
    | nil => exact ⟨List.nil_prefix, .inl rfl⟩
    | cons b bs => exact ih b s bs
  | emit e k ih =>
    simp only [interp]
    cases h : P.step s e with
    | error x => exact ⟨List.prefix_refl _, .inr ⟨rfl, rfl, rfl⟩⟩
    | ok s' =>
      obtain ⟨h1, h2⟩ := ih s' bs
      refine ⟨(List.prefix_append_right_inj [e]).2 h1, h2.imp id fun h => ⟨h.1, congrArg (_ :: ·) h.2.1, h.2.2⟩⟩
  | askMulti k ih => exact ih _ s bs

end Prog

namespace FProg

variable {α β σ : Type}

/-- as `Prog.seen` -/
def seen (r : σ × List FEv × Except Err α × Input) : σ × List FEv × Except Err (α × List Byte) :=
  (r.1, r.2.1, match r.2.2.1 with
    | .ok a => .ok (a, r.2.2.2.bytes)
    | .error e => .error e)

theorem interpOn_seen (P : FProc σ) (p : FProg α) (s : σ) (i : Input) : seen (interpOn P p s i) = interp P p s i.bytes := by
  induction p generalizing s i with
  | ret a => rfl
  | fail e => rfl
  | read k ih =>
    obtain ⟨bs, plan, f⟩ := i
    match bs with
    | [] =>
      obtain ⟨i', h1, h2, h3⟩ := Input.readExact_error (n := 1) (i := ⟨[], plan, f⟩) (by simp)
      rw [interpOn, h1]
      rfl
    | b :: bs =>
      obtain ⟨i', h1, h2, h3⟩ := Input.readExact_ok (n := 1) (i := ⟨b :: bs, plan, f⟩) (by simp)
      rw [interpOn, h1]
      simp only [List.take_succ_cons, List.headD_cons, interp]
      rw [ih, h2]
      rfl
  | emit e k ih =>
    simp only [interpOn, interp]
    cases h : P.step s e with
    | error x => rfl
    | ok s' =>
      have := ih s' i
      simp only [seen] at this ⊢
      rw [← this]
  | emitOk e k ih =>
    simp only [interpOn, interp]
    cases h : P.step s e with
    | error x =>
      dsimp only
      split
      · rfl
      · have := ih (P.left s e) i
        simp only [seen] at this ⊢
        rw [← this]
    | ok s' =>
      have := ih s' i
      simp only [seen] at this ⊢
      rw [← this]
  | prop n name v k ih =>
    simp only [interpOn, interp]
    cases h : P.step s (.prop n name v) with
    | error x => rfl
    | ok s' =>
      have := ih (P.abort s (.prop n name v)) s' i
      simp only [seen] at this ⊢
      rw [← this]
  | ask k ih => exact ih _ _ s i

theorem interp_bind_eq (P : FProc σ) (p : FProg α) (f : α → FProg β) (s : σ) (bs : List Byte) :
    interp P (bind p f) s bs = match interp P p s bs with
      | (s', es, .error e) => (s', es, .error e)
      | (s', es, .ok (a, rest)) => ((interp P (f a) s' rest).1, es ++ (interp P (f a) s' rest).2.1, (interp P (f a) s' rest).2.2) := by
  induction p generalizing s bs with
  | ret a => simp [bind, interp]
  | fail e => rfl
  | read k ih =>
    cases bs with
    | nil => rfl
    | cons b bs => exact ih b s bs
  | emit e k ih =>
    simp only [bind, interp]
    cases h : P.step s e with
    | error x => rfl
    | ok s' =>
      simp only [ih]
      rcases interp P k s' bs with ⟨s2, es, _ | ⟨a, rest⟩⟩ <;> simp
  | emitOk e k ih =>
    simp only [bind, interp]
    cases h : P.step s e with
    | error x =>
      dsimp only
      split
      · rfl
      · simp only [ih]
        rcases interp P k (P.left s e) bs with ⟨s2, es, _ | ⟨a, rest⟩⟩ <;> simp
    | ok s' =>
      simp only [ih]
      rcases interp P k s' bs with ⟨s2, es, _ | ⟨a, rest⟩⟩ <;> simp
  | prop n name v k ih =>
    simp only [bind, interp]
    cases h : P.step s (.prop n name v) with
    | error x => rfl
    | ok s' =>
      simp only [ih]
      rcases interp P (k (P.abort s (.prop n name v))) s' bs with ⟨s2, es, _ | ⟨a, rest⟩⟩ <;> simp
  | ask k ih => exact ih _ _ s bs

/-- as `Prog.Cuts` -/
def Cuts (e : Err) (p q : FProg α) : Prop :=
  ∀ (σ : Type) (P : FProc σ) (s : σ) (bs : List Byte), (interp P q s bs).2.1 <+: (interp P p s bs).2.1 ∧
    (interp P q s bs = interp P p s bs ∨ (interp P q s bs).2.2 = .error e)

theorem Cuts.refl (e : Err) (p : FProg α) : Cuts e p p := fun _ _ _ _ => ⟨List.prefix_refl _, .inl rfl⟩

theorem Cuts.fail (e : Err) (p : FProg α) : Cuts e p (.fail e) := fun _ _ _ _ => ⟨List.nil_prefix, .inr rfl⟩

theorem Cuts.bind {e : Err} {p q : FProg α} {f g : α → FProg β} (h : Cuts e p q) (hf : ∀ a, Cuts e (f a) (g a)) :
    Cuts e (p.bind f) (q.bind g) := by
  intro σ P s bs
  rw [interp_bind_eq, interp_bind_eq]
  obtain ⟨h1, h2⟩ := h σ P s bs
  rcases h2 with h2 | h2
  · rw [h2]
    rcases interp P p s bs with ⟨s2, es, _ | ⟨a, rest⟩⟩
    · exact ⟨List.prefix_refl _, .inl rfl⟩
    · obtain ⟨h3, h4⟩ := hf a σ P s2 rest
      refine ⟨List.prefix_append_right_inj _ |>.2 h3, h4.imp (fun h => ?_) id⟩
      simp only [h]
  · have e1 : interp P q s bs = ((interp P q s bs).1, (interp P q s bs).2.1, .error e) := by rw [← h2]
    rw [e1]
    refine ⟨?_, .inr rfl⟩
    rcases hp : interp P p s bs with ⟨s2, es, _ | ⟨a, rest⟩⟩
    · rw [hp] at h1; exact h1
    · rw [hp] at h1; exact h1.trans (List.prefix_append _ _)

/-- as `Prog.interp_short` -/
theorem interp_short (P : FProc σ) (p : FProg α) (s : σ) (bs more : List Byte) :
    (interp P p s bs).2.1 <+: (interp P p s (bs ++ more)).2.1 ∧
    ((interp P p s bs).2.2 = .error .io ∨
      (interp P p s bs).1 = (interp P p s (bs ++ more)).1 ∧ (interp P p s bs).2.1 = (interp P p s (bs ++ more)).2.1 ∧
      (interp P p s bs).2.2.map Prod.fst = (interp P p s (bs ++ more)).2.2.map Prod.fst) := by
  induction p generalizing s bs with
  | ret a => exact ⟨List.prefix_refl _, .inr ⟨rfl, rfl, rfl⟩⟩
  | fail e => exact ⟨List.prefix_refl _, .inr ⟨rfl, rfl, rfl⟩⟩
  | read k ih =>
    cases bs with
    | nil => exact ⟨List.nil_prefix, .inl rfl⟩
    | cons b bs => exact ih b s bs
  | emit e k ih =>
    simp only [interp]
    cases h : P.step s e with
    | error x => exact ⟨List.prefix_refl _, .inr ⟨rfl, rfl, rfl⟩⟩
    | ok s' =>
      obtain ⟨h1, h2⟩ := ih s' bs
      refine ⟨(List.prefix_append_right_inj [e]).2 h1, h2.imp id fun h => ⟨h.1, congrArg (_ :: ·) h.2.1, h.2.2⟩⟩
  | emitOk e k ih =>
    simp only [interp]
    cases h : P.step s e with
    | error x =>
      dsimp only
      split
      · exact ⟨List.prefix_refl _, .inr ⟨rfl, rfl, rfl⟩⟩
      · obtain ⟨h1, h2⟩ := ih (P.left s e) bs
        refine ⟨(List.prefix_append_right_inj [e]).2 h1, h2.imp id fun h => ⟨h.1, congrArg (_ :: ·) h.2.1, h.2.2⟩⟩
    | ok s' =>
      obtain ⟨h1, h2⟩ := ih s' bs
      refine ⟨(List.prefix_append_right_inj [e]).2 h1, h2.imp id fun h => ⟨h.1, congrArg (_ :: ·) h.2.1, h.2.2⟩⟩
  | prop n name v k ih =>
    simp only [interp]
    cases h : P.step s (.prop n name v) with
    | error x => exact ⟨List.prefix_refl _, .inr ⟨rfl, rfl, rfl⟩⟩
    | ok s' =>
      obtain ⟨h1, h2⟩ := ih (P.abort s (.prop n name v)) s' bs
      refine ⟨(List.prefix_append_right_inj [FEv.prop n name v]).2 h1, h2.imp id fun h => ⟨h.1, congrArg (_ :: ·) h.2.1, h.2.2⟩⟩
  | ask k ih => exact ih _ _ s bs

end FProg

/-! ### text -/

theorem utf8Bytes_eq (t : Text) : t.utf8Encode = (utf8Bytes t).toByteArray := rfl

theorem decodeUtf8_utf8Bytes (t : Text) : decodeUtf8 (utf8Bytes t) = some t := by
  rw [decodeUtf8, ← utf8Bytes_eq, List.utf8Decode?_utf8Encode]
  rfl

theorem toByteArray_inj {a b : List Byte} (h : a.toByteArray = b.toByteArray) : a = b := by
  have := congrArg (·.data.toList) h
  simpa using this

theorem decodeUtf8_iff (bs : List Byte) (t : Text) : decodeUtf8 bs = some t ↔ bs = utf8Bytes t := by
  constructor
  · intro h
    simp only [decodeUtf8, Option.map_eq_some_iff] at h
    obtain ⟨a, ha, rfl⟩ := h
    have h2 : (bs.toByteArray.utf8Decode?).isSome := by rw [ha]; rfl
    have h3 := ByteArray.utf8Encode_get_utf8Decode? (b := bs.toByteArray) (h := h2)
    simp only [ha, Option.get_some] at h3
    exact toByteArray_inj (h3.symm.trans (utf8Bytes_eq _))
  · rintro rfl
    exact decodeUtf8_utf8Bytes t

theorem utf8EncodeChar_newline {c : Char} : (10 : Byte) ∈ String.utf8EncodeChar c ↔ c = '\n' := by
  constructor
  · intro h
    have hv : c.val.toNat = 10 := by
      simp only [String.utf8EncodeChar] at h
      split at h
      · simp only [List.mem_singleton] at h
        have := congrArg UInt8.toNat h
        simp only [UInt8.toNat_ofNat', UInt8.reduceToNat] at this
        omega
      · exfalso
        split at h
        · simp only [List.mem_cons, List.not_mem_nil, or_false] at h
          rcases h with h | h <;> (have := congrArg UInt8.toNat h; simp at this; omega)
        · split at h
          · simp only [List.mem_cons, List.not_mem_nil, or_false] at h
            rcases h with h | h | h <;> (have := congrArg UInt8.toNat h; simp at this; omega)
          · simp only [List.mem_cons, List.not_mem_nil, or_false] at h
            rcases h with h | h | h | h <;> (have := congrArg UInt8.toNat h; simp at this; omega)
    apply Char.ext
    apply UInt32.toNat_inj.1
    rw [hv]
    rfl
  · rintro rfl
    decide

theorem mem_utf8Bytes_newline (t : Text) : (10 : Byte) ∈ utf8Bytes t ↔ '\n' ∈ t := by
  simp only [utf8Bytes, List.mem_flatMap]
  constructor
  · rintro ⟨c, hc, h⟩
    exact utf8EncodeChar_newline.1 h ▸ hc
  · intro h
    exact ⟨_, h, utf8EncodeChar_newline.2 rfl⟩

namespace BufReader

/-- all bytes still to come -/
def all (b : BufReader) : List Byte := b.buf ++ b.inner.bytes

theorem idxOf_append_of_not_mem {a b : List Byte} (h : (10 : Byte) ∉ a) : (a ++ b).idxOf 10 = a.length + b.idxOf 10 := by
  rw [List.idxOf_append, if_neg h, Nat.add_comm]

theorem readUntil_spec (cap : Nat) (b : BufReader) (acc : List Byte) :
    if 10 ∈ b.all then
      (readUntil cap b acc).1 = .ok (acc ++ b.all.take (b.all.idxOf 10 + 1)) ∧
      (readUntil cap b acc).2.all = b.all.drop (b.all.idxOf 10 + 1) ∧ (readUntil cap b acc).2.inner.fails = b.inner.fails
    else if b.inner.fails then (readUntil cap b acc).1 = .error .io
    else (readUntil cap b acc).1 = .ok (acc ++ b.all) ∧ (readUntil cap b acc).2.all = [] ∧
      (readUntil cap b acc).2.inner.fails = false := by
  fun_induction readUntil cap b acc with
  | case1 b acc b' h ih =>
    have := fill_interrupted h
    have e : b'.all = b.all := by simp [all, this]
    rwa [e, this.2.2.2.2] at ih
  | case2 b acc b' h =>
    have := fill_failed h
    simp [all, this]
  | case3 b acc b' h =>
    have h1 := fill_data h
    have h2 := h1.2.2.2.2 rfl
    have e : b.all = [] := by simp [all, h2]
    rw [e]
    simp [h2.2.2, all, h1.1, h1.2.2.1]
    have := h1.2.1
    simp [h2] at this
    exact this
  | case4 b acc d b' h hd hmem =>
    have h1 := fill_data h
    have e : b.all = d ++ b'.inner.bytes := h1.2.1
    have hlt := List.idxOf_lt_length_of_mem hmem
    rw [e, if_pos (by simp [hmem]), List.idxOf_append, if_pos hmem, List.take_append_of_le_length (by omega),
      List.drop_append_of_le_length (by omega)]
    exact ⟨rfl, rfl, h1.2.2.1⟩
  | case5 b acc d b' h hd hmem ih =>
    have h1 := fill_data h
    have e : b.all = d ++ b'.inner.bytes := h1.2.1
    have e' : ({ b' with buf := [] } : BufReader).all = b'.inner.bytes := rfl
    rw [e'] at ih
    simp only [e, List.mem_append, hmem, false_or]
    split
    · rename_i h10
      rw [if_pos h10] at ih
      rw [idxOf_append_of_not_mem hmem, List.take_append, List.drop_append, List.take_of_length_le (by omega),
        List.drop_of_length_le (by omega), show d.length + List.idxOf 10 b'.inner.bytes + 1 - d.length = List.idxOf 10 b'.inner.bytes + 1 by omega]
      refine ⟨by rw [ih.1]; simp, by simpa using ih.2.1, ih.2.2.trans h1.2.2.1⟩
    · rename_i h10
      rw [if_neg h10] at ih
      rw [← h1.2.2.1]
      split
      · rename_i hf
        rw [if_pos hf] at ih
        exact ih
      · rename_i hf
        rw [if_neg hf] at ih
        exact ⟨by rw [ih.1]; simp, ih.2⟩

theorem bufLinesFrom_line (cur a rest : Text) (ha : '\n' ∉ a) :
    bufLinesFrom cur (a ++ '\n' :: rest) =
      (if (cur ++ a).getLast? = some '\r' then (cur ++ a).dropLast else cur ++ a) :: bufLines rest := by
  induction a generalizing cur with
  | nil => simp [bufLinesFrom, bufLines]
  | cons c a ih =>
    simp only [List.mem_cons, not_or] at ha
    rw [List.cons_append, bufLinesFrom, if_neg (Ne.symm ha.1), ih _ ha.2]
    simp

theorem bufLinesFrom_last (cur a : Text) (ha : '\n' ∉ a) : bufLinesFrom cur a = if cur ++ a = [] then [] else [cur ++ a] := by
  induction a generalizing cur with
  | nil => simp [bufLinesFrom]
  | cons c a ih =>
    simp only [List.mem_cons, not_or] at ha
    rw [bufLinesFrom, if_neg (Ne.symm ha.1), ih _ ha.2]
    simp

theorem split_newline {t : Text} (h : '\n' ∈ t) : ∃ a rest, t = a ++ '\n' :: rest ∧ '\n' ∉ a := by
  induction t with
  | nil => simp at h
  | cons c t ih =>
    by_cases hc : c = '\n'
    · exact ⟨[], t, by simp [hc], by simp⟩
    · simp only [List.mem_cons] at h
      obtain ⟨a, rest, rfl, ha⟩ := ih (h.resolve_left (Ne.symm hc))
      exact ⟨c :: a, rest, rfl, by simp [ha, Ne.symm hc]⟩

theorem utf8Bytes_line (a rest : Text) : utf8Bytes (a ++ '\n' :: rest) = utf8Bytes a ++ 10 :: utf8Bytes rest := by
  simp [utf8Bytes, show String.utf8EncodeChar '\n' = [10] from by decide]

theorem stripLine_line (a : Text) : stripLine (a ++ ['\n']) = if a.getLast? = some '\r' then a.dropLast else a := by
  simp [stripLine]

theorem stripLine_last (a : Text) (ha : '\n' ∉ a) : stripLine a = a := by
  rw [stripLine, if_neg]
  intro h
  exact ha (List.mem_of_getLast? h)

theorem utf8Bytes_ne_nil {a : Text} (h : a ≠ []) : utf8Bytes a ≠ [] := by
  cases a with
  | nil => exact absurd rfl h
  | cons c a => simp [utf8Bytes]

/-- one line -/
theorem lines_line (cap : Nat) (b : BufReader) (a : Text) (more : List Byte) (h : b.all = utf8Bytes a ++ 10 :: more) (ha : '\n' ∉ a) :
    ∃ b', lines cap b = .ok (if a.getLast? = some '\r' then a.dropLast else a) :: lines cap b' ∧ b'.all = more ∧
      b'.inner.fails = b.inner.fails ∧ b'.size < b.size := by
  have h10 : (10 : Byte) ∉ utf8Bytes a := by rwa [mem_utf8Bytes_newline]
  have hs := readUntil_spec cap b []
  rw [if_pos (by rw [h]; simp), h, idxOf_append_of_not_mem h10] at hs
  simp only [List.idxOf_cons_self, Nat.add_zero, List.nil_append] at hs
  rw [List.take_append, List.drop_append, List.take_of_length_le (by omega), List.drop_of_length_le (by omega)] at hs
  simp only [Nat.add_sub_cancel_left, List.take_succ_cons, List.take_zero, List.drop_succ_cons, List.drop_zero, List.nil_append] at hs
  rcases hr : readUntil cap b [] with ⟨r, b'⟩
  rw [hr] at hs
  obtain ⟨rfl, h2, h3⟩ := hs
  have hne : utf8Bytes a ++ [10] ≠ [] := by simp
  refine ⟨b', ?_, h2, h3, ?_⟩
  · have hd : decodeUtf8 (utf8Bytes a ++ [10]) = some (a ++ ['\n']) := by
      have := decodeUtf8_utf8Bytes (a ++ ['\n'])
      rwa [utf8Bytes_line] at this
    rw [lines]
    split
    · rename_i e b'' h'
      rw [hr] at h'
      cases h'
    · rename_i l b'' h'
      rw [hr] at h'
      cases h'
      rw [dif_neg hne]
      split
      · rename_i h'; rw [hd] at h'; cases h'
      · rename_i t h'
        rw [hd] at h'
        cases h'
        rw [stripLine_line]
  · have := (readUntil_size cap b []).2 (utf8Bytes a ++ [10]) (by rw [hr]) hne
    rwa [hr] at this

theorem lines_end (cap : Nat) (b : BufReader) (h : b.all = []) (hf : b.inner.fails = false) : lines cap b = [] := by
  have hs := readUntil_spec cap b []
  rw [if_neg (by rw [h]; simp), hf, if_neg (by simp), h] at hs
  rcases hr : readUntil cap b [] with ⟨r, b'⟩
  rw [hr] at hs
  obtain ⟨rfl, h2⟩ := hs
  rw [lines]
  split
  · rename_i e b'' h'
    rw [hr] at h'
    cases h'
  · rename_i l b'' h'
    rw [hr] at h'
    simp only [List.nil_append, Prod.mk.injEq, Except.ok.injEq] at h'
    obtain ⟨rfl, rfl⟩ := h'
    rfl

theorem lines_ok (cap : Nat) (t : Text) (b : BufReader) (h : b.all = utf8Bytes t) (hf : b.inner.fails = false) :
    lines cap b = (bufLines t).map .ok := by
  by_cases hn : '\n' ∈ t
  · obtain ⟨a, rest, rfl, ha⟩ := split_newline hn
    rw [utf8Bytes_line] at h
    obtain ⟨b', h1, h2, h3, h4⟩ := lines_line cap b a _ h ha
    rw [h1, lines_ok cap rest b' h2 (h3.trans hf), show bufLines (a ++ '\n' :: rest) = _ from bufLinesFrom_line [] _ _ ha]
    simp
  · have hs := readUntil_spec cap b []
    rw [if_neg (by rw [h, mem_utf8Bytes_newline]; exact hn), hf, if_neg (by simp), h] at hs
    rcases hr : readUntil cap b [] with ⟨r, b'⟩
    rw [hr] at hs
    obtain ⟨rfl, h2⟩ := hs
    rw [lines]
    split
    · rename_i e b'' h'
      rw [hr] at h'
      cases h'
    · rename_i l b'' h'
      rw [hr] at h'
      simp only [List.nil_append, Prod.mk.injEq, Except.ok.injEq] at h'
      obtain ⟨rfl, rfl⟩ := h'
      rw [bufLines, bufLinesFrom_last _ _ hn]
      by_cases ht : t = []
      · subst ht
        rfl
      · rw [dif_neg (utf8Bytes_ne_nil ht), decodeUtf8_utf8Bytes]
        simp only [List.nil_append, if_neg ht, List.map_cons, List.map_nil, stripLine_last _ hn, List.cons.injEq, true_and]
        exact (lines_end cap b' h2.1 h2.2).symm ▸ rfl
termination_by t.length
decreasing_by rw [show t = _ from ‹_›]; simp; omega

/-- an input that fails: the lines before the failure, then the error -/
theorem lines_failing (cap : Nat) (t : Text) (b : BufReader) (post : List Byte) (h : utf8Bytes t = b.all ++ post)
    (hf : b.inner.fails = true) : ∃ n, lines cap b = ((bufLines t).take n).map .ok ++ [.error .io] := by
  by_cases h10 : (10 : Byte) ∈ b.all
  · have hn : '\n' ∈ t := by
      rw [← mem_utf8Bytes_newline, h]
      exact List.mem_append_left _ h10
    obtain ⟨a, rest, rfl, ha⟩ := split_newline hn
    have hx : (10 : Byte) ∉ utf8Bytes a := by rwa [mem_utf8Bytes_newline]
    rw [utf8Bytes_line] at h
    obtain ⟨more, hm⟩ : ∃ more, b.all = utf8Bytes a ++ 10 :: more := by
      rcases List.append_eq_append_iff.1 h with ⟨c, hc1, hc2⟩ | ⟨c, hc1, hc2⟩
      · cases c with
        | nil => simp only [List.append_nil] at hc1; rw [hc1] at h10; exact absurd h10 hx
        | cons x c =>
          simp only [List.cons_append, List.cons.injEq] at hc2
          exact ⟨c, by rw [hc1, ← hc2.1]⟩
      · rw [hc1] at hx
        exact absurd (List.mem_append_left _ h10) hx
    rw [hm, List.append_assoc, List.cons_append] at h
    have h' := List.cons.inj (List.append_cancel_left h)
    obtain ⟨b', h1, h2, h3, h4⟩ := lines_line cap b a _ hm ha
    obtain ⟨n, hn⟩ := lines_failing cap rest b' post (by rw [h2]; exact h'.2) (h3.trans hf)
    exact ⟨n + 1, by
      rw [h1, hn, show bufLines (a ++ '\n' :: rest) = _ from bufLinesFrom_line [] _ _ ha]; simp⟩
  · refine ⟨0, ?_⟩
    have hs := readUntil_spec cap b []
    rw [if_neg h10, if_pos hf] at hs
    rw [lines]
    split
    · rename_i e b'' h'
      rw [h'] at hs
      cases hs
      rfl
    · rename_i l b'' h'
      rw [h'] at hs
      cases hs
termination_by t.length
decreasing_by rw [show t = _ from ‹_›]; simp; omega

end BufReader

end Geozero
