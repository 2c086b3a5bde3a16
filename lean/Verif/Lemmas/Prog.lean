import Verif.Model.Bytes

/- Helper lemmas about interaction trees. -/

namespace Geozero
namespace Prog

@[simp] theorem bind_eq {α β : Type} (p : Prog α) (f : α → Prog β) : (p >>= f) = Prog.bind p f := rfl
@[simp] theorem pure_eq {α : Type} (a : α) : (pure a : Prog α) = Prog.ret a := rfl

@[simp] theorem ret_bind {α β : Type} (a : α) (f : α → Prog β) : Prog.bind (ret a) f = f a := rfl
@[simp] theorem fail_bind {α β : Type} (e : Err) (f : α → Prog β) : Prog.bind (fail e) f = fail e := rfl

theorem bind_assoc {α β γ : Type} (p : Prog α) (f : α → Prog β) (g : β → Prog γ) :
    Prog.bind (Prog.bind p f) g = Prog.bind p (fun a => Prog.bind (f a) g) := by
  induction p with
  | ret a => rfl
  | fail e => rfl
  | read k ih => simp only [bind]; congr; funext b; exact ih b
  | emit e k ih => simp only [bind]; congr
  | askMulti k ih => simp only [bind]; congr; funext b; exact ih b

/-- continue a run -/
def andThen {α β : Type} (multi : Bool) (r : List Ev × Except Err (α × List Byte)) (f : α → Prog β) :
    List Ev × Except Err (β × List Byte) :=
  match r.2 with
  | .ok (a, bs) => (r.1 ++ (run multi (f a) bs).1, (run multi (f a) bs).2)
  | .error e => (r.1, .error e)

theorem run_bind {α β : Type} (multi : Bool) (p : Prog α) (f : α → Prog β) (bs : List Byte) :
    run multi (Prog.bind p f) bs = andThen multi (run multi p bs) f := by
  induction p generalizing bs with
  | ret a => simp [bind, run, andThen]
  | fail e => simp [bind, run, andThen]
  | read k ih =>
    cases bs with
    | nil => simp [bind, run, andThen]
    | cons b bs => simp only [bind, run]; exact ih b bs
  | emit e k ih =>
    simp only [bind, run, ih]
    unfold andThen
    cases h : (run multi k bs).2 with
    | ok ab => rfl
    | error x => rfl
  | askMulti k ih => simp only [bind, run]; exact ih multi bs

theorem run_bind_ok {α β : Type} {multi : Bool} {p : Prog α} {f : α → Prog β} {bs : List Byte}
    {evs : List Ev} {a : α} {rest : List Byte} (h : run multi p bs = (evs, .ok (a, rest))) :
    run multi (Prog.bind p f) bs = (evs ++ (run multi (f a) rest).1, (run multi (f a) rest).2) := by
  rw [run_bind, h]; rfl

theorem run_bind_ok_nil {α β : Type} {multi : Bool} {p : Prog α} {f : α → Prog β} {bs : List Byte}
    {a : α} {rest : List Byte} (h : run multi p bs = ([], .ok (a, rest))) :
    run multi (Prog.bind p f) bs = run multi (f a) rest := by
  rw [run_bind_ok h]; rfl

theorem run_bind_err {α β : Type} {multi : Bool} {p : Prog α} {f : α → Prog β} {bs : List Byte}
    {evs : List Ev} {e : Err} (h : run multi p bs = (evs, .error e)) :
    run multi (Prog.bind p f) bs = (evs, .error e) := by
  rw [run_bind, h]; rfl

@[simp] theorem run_ret {α : Type} (multi : Bool) (a : α) (bs : List Byte) :
    run multi (ret a) bs = ([], .ok (a, bs)) := rfl
@[simp] theorem run_fail {α : Type} (multi : Bool) (e : Err) (bs : List Byte) :
    run multi (fail e : Prog α) bs = ([], .error e) := rfl
@[simp] theorem run_emitEv_bind {α : Type} (multi : Bool) (e : Ev) (f : Unit → Prog α) (bs : List Byte) :
    run multi (Prog.bind (emitEv e) f) bs = (e :: (run multi (f ()) bs).1, (run multi (f ()) bs).2) := rfl
@[simp] theorem run_emitEv (multi : Bool) (e : Ev) (bs : List Byte) :
    run multi (emitEv e) bs = ([e], .ok ((), bs)) := rfl
@[simp] theorem run_multiDim_bind {α : Type} (multi : Bool) (f : Bool → Prog α) (bs : List Byte) :
    run multi (Prog.bind multiDim f) bs = run multi (f multi) bs := rfl
@[simp] theorem run_readByte_cons {α : Type} (multi : Bool) (b : Byte) (f : Byte → Prog α) (bs : List Byte) :
    run multi (Prog.bind readByte f) (b :: bs) = run multi (f b) bs := rfl
@[simp] theorem run_readByte_nil {α : Type} (multi : Bool) (f : Byte → Prog α) :
    run multi (Prog.bind readByte f) [] = ([], .error .io) := rfl

theorem run_readN (multi : Bool) (n : Nat) (bs rest : List Byte) (h : bs.length = n) :
    run multi (readN n) (bs ++ rest) = ([], .ok (bs, rest)) := by
  induction n generalizing bs with
  | zero =>
    cases bs with
    | nil => rfl
    | cons b bs => simp at h
  | succ n ih =>
    cases bs with
    | nil => simp at h
    | cons b bs =>
      simp only [readN, List.cons_append, run_readByte_cons]
      rw [run_bind_ok_nil (ih bs (by simpa using h))]
      rfl

/-- What a program reads does not depend on what follows. -/
theorem run_append {α : Type} (multi : Bool) (p : Prog α) (bs ext : List Byte) {evs : List Ev} {a : α}
    {rest : List Byte} (h : run multi p bs = (evs, .ok (a, rest))) :
    run multi p (bs ++ ext) = (evs, .ok (a, rest ++ ext)) := by
  induction p generalizing bs evs with
  | ret x =>
    simp only [run_ret, Prod.mk.injEq, Except.ok.injEq] at h
    obtain ⟨rfl, rfl, rfl⟩ := h
    rfl
  | fail e => simp at h
  | read k ih =>
    cases bs with
    | nil => simp [run] at h
    | cons b bs => simp only [run, List.cons_append] at h ⊢; exact ih b bs h
  | emit e k ih =>
    rcases hk : run multi k bs with ⟨ev, r⟩
    simp only [run, hk, Prod.mk.injEq] at h
    obtain ⟨rfl, rfl⟩ := h
    simp [run, ih bs hk]
  | askMulti k ih => simp only [run] at h ⊢; exact ih multi bs h

/-- The bytes consumed, and what happens on each strict prefix of them. -/
theorem run_consumed {α : Type} (multi : Bool) (p : Prog α) (bs : List Byte) {evs : List Ev} {a : α}
    {rest : List Byte} (h : run multi p bs = (evs, .ok (a, rest))) :
    ∃ used, bs = used ++ rest ∧ run multi p used = (evs, .ok (a, [])) ∧
      ∀ k, k < used.length → ∃ evs', evs' <+: evs ∧ run multi p (used.take k) = (evs', .error .io) := by
  induction p generalizing bs evs with
  | ret x =>
    simp only [run_ret, Prod.mk.injEq, Except.ok.injEq] at h
    obtain ⟨rfl, rfl, rfl⟩ := h
    exact ⟨[], rfl, rfl, by simp⟩
  | fail e => simp at h
  | read k ih =>
    cases bs with
    | nil => simp [run] at h
    | cons b bs =>
      simp only [run] at h
      obtain ⟨used, rfl, h1, h2⟩ := ih b bs h
      refine ⟨b :: used, rfl, h1, ?_⟩
      intro n hn
      cases n with
      | zero => exact ⟨[], by simp, rfl⟩
      | succ n =>
        obtain ⟨evs', hp, hr⟩ := h2 n (by simpa using hn)
        exact ⟨evs', hp, hr⟩
  | emit e k ih =>
    rcases hk : run multi k bs with ⟨ev, r⟩
    simp only [run, hk, Prod.mk.injEq] at h
    obtain ⟨rfl, rfl⟩ := h
    obtain ⟨used, hb, h1, h2⟩ := ih bs hk
    refine ⟨used, hb, by simp [run, h1], ?_⟩
    intro n hn
    obtain ⟨evs', hp, hr⟩ := h2 n hn
    exact ⟨e :: evs', List.cons_prefix_cons.mpr ⟨rfl, hp⟩, by simp [run, hr]⟩
  | askMulti k ih => simp only [run] at h ⊢; exact ih multi bs h

/-- Relation between the interactive semantics and the processor: either the processor accepted every
event delivered, or it rejected exactly the last one, and then its error is the reader's error. -/
theorem interp_spec {α σ : Type} (P : Proc σ) (p : Prog α) (s : σ) (bs : List Byte) :
    feed P.step s (interp P p s bs).2.1 = .ok (interp P p s bs).1 ∨
      ∃ pre e x, (interp P p s bs).2.1 = pre ++ [e] ∧ feed P.step s pre = .ok (interp P p s bs).1 ∧
        P.step (interp P p s bs).1 e = .error x ∧ (interp P p s bs).2.2 = .error x := by
  induction p generalizing s bs with
  | ret a => exact Or.inl rfl
  | fail e => exact Or.inl rfl
  | read k ih =>
    cases bs with
    | nil => exact Or.inl rfl
    | cons b bs => exact ih b s bs
  | emit e k ih =>
    simp only [interp]
    cases hs : P.step s e with
    | error x => exact Or.inr ⟨[], e, x, rfl, rfl, hs, rfl⟩
    | ok s1 =>
      rcases ih s1 bs with h | ⟨pre, e', x, h1, h2, h3, h4⟩
      · left; simp only [feed_cons, hs]; exact h
      · right
        refine ⟨e :: pre, e', x, by simp [h1], ?_, h3, h4⟩
        simp only [feed_cons, hs]; exact h2
  | askMulti k ih => exact ih (P.multi s) s bs

theorem interp_run_inv {α σ : Type} (P : Proc σ) (multi : Bool) (I : σ → Prop) (hm : ∀ s, I s → P.multi s = multi)
    (hI : ∀ s e s', I s → P.step s e = .ok s' → I s') (p : Prog α) (s : σ) (hs : I s) (bs : List Byte) :
    (interp P p s bs).2.1 <+: (run multi p bs).1 ∧
    (feed P.step s (interp P p s bs).2.1 = .ok (interp P p s bs).1 →
      (interp P p s bs).2.1 = (run multi p bs).1 ∧ (interp P p s bs).2.2 = (run multi p bs).2) := by
  induction p generalizing s bs with
  | ret a => exact ⟨by simp [interp], fun _ => ⟨rfl, rfl⟩⟩
  | fail e => exact ⟨by simp [interp], fun _ => ⟨rfl, rfl⟩⟩
  | read k ih =>
    cases bs with
    | nil => exact ⟨by simp [interp], fun _ => ⟨rfl, rfl⟩⟩
    | cons b bs => exact ih b s hs bs
  | emit e k ih =>
    simp only [interp]
    cases he : P.step s e with
    | error x =>
      refine ⟨by simp [run], ?_⟩
      intro h
      simp [feed, he] at h
    | ok s1 =>
      have := ih s1 (hI s e s1 hs he) bs
      refine ⟨List.cons_prefix_cons.mpr ⟨rfl, this.1⟩, ?_⟩
      intro h
      simp only [feed_cons, he] at h
      obtain ⟨h1, h2⟩ := this.2 h
      exact ⟨by simp only [h1]; rfl, by simp only [h2]; rfl⟩
  | askMulti k ih => simp only [interp, run, hm s hs]; exact ih multi s hs bs

theorem interp_run {α σ : Type} (P : Proc σ) (multi : Bool) (hm : ∀ s, P.multi s = multi) (p : Prog α)
    (s : σ) (bs : List Byte) :
    (interp P p s bs).2.1 <+: (run multi p bs).1 ∧
    (feed P.step s (interp P p s bs).2.1 = .ok (interp P p s bs).1 →
      (interp P p s bs).2.1 = (run multi p bs).1 ∧ (interp P p s bs).2.2 = (run multi p bs).2) :=
  interp_run_inv P multi (fun _ => True) (fun s _ => hm s) (fun _ _ _ _ _ => trivial) p s trivial bs

/-- If the processor accepts the whole trace, interactive and trace semantics agree; `multi_dim()` is
constant on the states satisfying an invariant. -/
theorem interp_of_feed_ok_inv {α σ : Type} (P : Proc σ) (multi : Bool) (I : σ → Prop)
    (hm : ∀ s, I s → P.multi s = multi) (hI : ∀ s e s', I s → P.step s e = .ok s' → I s') (p : Prog α)
    (s s' : σ) (hs : I s) (bs : List Byte) (h : feed P.step s (run multi p bs).1 = .ok s') :
    interp P p s bs = (s', run multi p bs) := by
  have h2 := interp_run_inv P multi I hm hI p s hs bs
  rcases interp_spec P p s bs with h1 | ⟨pre, e, x, he, hp, hx, _⟩
  · obtain ⟨ha, hb⟩ := h2.2 h1
    rw [ha, h] at h1
    cases h1
    exact Prod.ext rfl (Prod.ext ha hb)
  · exfalso
    obtain ⟨t, ht⟩ := h2.1
    rw [← ht, he, List.append_assoc, feed_append, hp] at h
    simp [feed, hx] at h

/-- If the processor accepts the whole trace, interactive and trace semantics agree. -/
theorem interp_of_feed_ok {α σ : Type} (P : Proc σ) (multi : Bool) (hm : ∀ s, P.multi s = multi) (p : Prog α)
    (s s' : σ) (bs : List Byte) (h : feed P.step s (run multi p bs).1 = .ok s') :
    interp P p s bs = (s', run multi p bs) :=
  interp_of_feed_ok_inv P multi (fun _ => True) (fun s _ => hm s) (fun _ _ _ _ _ => trivial) p s s' trivial bs h

/-- If the processor rejects the trace, its error is the outcome. -/
theorem interp_of_feed_error {α σ : Type} (P : Proc σ) (multi : Bool) (hm : ∀ s, P.multi s = multi) (p : Prog α)
    (s : σ) (bs : List Byte) (x : Err) (h : feed P.step s (run multi p bs).1 = .error x) :
    (interp P p s bs).2.2 = .error x := by
  have h2 := interp_run P multi hm p s bs
  rcases interp_spec P p s bs with h1 | ⟨pre, e, x', he, hp, hx, hr⟩
  · rw [(h2.2 h1).1, h] at h1
    cases h1
  · obtain ⟨t, ht⟩ := h2.1
    rw [← ht, he, List.append_assoc, feed_append, hp] at h
    simp only [List.singleton_append, feed, hx, Except.error.injEq] at h
    rw [hr, h]

end Prog
end Geozero
