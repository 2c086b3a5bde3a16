import Verif.Model.Feature
import Verif.Lemmas.Prog

/- Helper lemmas about readers of features. -/

namespace Geozero
namespace FProg

@[simp] theorem bind_eq {α β : Type} (p : FProg α) (f : α → FProg β) : (p >>= f) = FProg.bind p f := rfl
@[simp] theorem pure_eq {α : Type} (a : α) : (pure a : FProg α) = FProg.ret a := rfl
@[simp] theorem ret_bind {α β : Type} (a : α) (f : α → FProg β) : FProg.bind (ret a) f = f a := rfl

theorem bind_assoc {α β γ : Type} (p : FProg α) (f : α → FProg β) (g : β → FProg γ) :
    FProg.bind (FProg.bind p f) g = FProg.bind p (fun a => FProg.bind (f a) g) := by
  induction p with
  | ret a => rfl
  | fail e => rfl
  | read k ih => simp only [bind]; congr; funext b; exact ih b
  | emit e k ih => simp only [bind]; congr
  | emitOk e k ih => simp only [bind]; congr
  | prop i n v k ih => simp only [bind]; congr; funext b; exact ih b
  | ask k ih => simp only [bind]; congr; funext b d; exact ih b d

/-- continue a run -/
def andThen {α β : Type} (env : Env) (r : List FEv × Except Err (α × List Byte)) (f : α → FProg β) :
    List FEv × Except Err (β × List Byte) :=
  match r.2 with
  | .ok (a, bs) => (r.1 ++ (run env (f a) bs).1, (run env (f a) bs).2)
  | .error e => (r.1, .error e)

theorem run_bind {α β : Type} (env : Env) (p : FProg α) (f : α → FProg β) (bs : List Byte) :
    run env (FProg.bind p f) bs = andThen env (run env p bs) f := by
  induction p generalizing bs with
  | ret a => simp [bind, run, andThen]
  | fail e => simp [bind, run, andThen]
  | read k ih =>
    cases bs with
    | nil => simp [bind, run, andThen]
    | cons b bs => simp only [bind, run]; exact ih b bs
  | emit e k ih =>
    simp only [bind, run, ih]
    unfold andThen
    cases h : (run env k bs).2 with
    | ok ab => rfl
    | error x => rfl
  | emitOk e k ih =>
    simp only [bind, run, ih]
    unfold andThen
    cases h : (run env k bs).2 with
    | ok ab => rfl
    | error x => rfl
  | prop i n v k ih =>
    simp only [bind, run, ih]
    unfold andThen
    cases h : (run env (k (env.ans (.prop i n v))) bs).2 with
    | ok ab => rfl
    | error x => rfl
  | ask k ih => simp only [bind, run]; exact ih env.multi env.dims bs

theorem run_bind_ok {α β : Type} {env : Env} {p : FProg α} {f : α → FProg β} {bs : List Byte}
    {evs : List FEv} {a : α} {rest : List Byte} (h : run env p bs = (evs, .ok (a, rest))) :
    run env (FProg.bind p f) bs = (evs ++ (run env (f a) rest).1, (run env (f a) rest).2) := by
  rw [run_bind, h]; rfl

theorem run_bind_err {α β : Type} {env : Env} {p : FProg α} {f : α → FProg β} {bs : List Byte}
    {evs : List FEv} {e : Err} (h : run env p bs = (evs, .error e)) :
    run env (FProg.bind p f) bs = (evs, .error e) := by
  rw [run_bind, h]; rfl

@[simp] theorem run_ret {α : Type} (env : Env) (a : α) (bs : List Byte) :
    run env (ret a) bs = ([], .ok (a, bs)) := rfl
@[simp] theorem run_fail {α : Type} (env : Env) (e : Err) (bs : List Byte) :
    run env (fail e : FProg α) bs = ([], .error e) := rfl
@[simp] theorem run_call_bind {α : Type} (env : Env) (e : FEv) (f : Unit → FProg α) (bs : List Byte) :
    run env (FProg.bind (call e) f) bs = (e :: (run env (f ()) bs).1, (run env (f ()) bs).2) := rfl
@[simp] theorem run_call (env : Env) (e : FEv) (bs : List Byte) :
    run env (call e) bs = ([e], .ok ((), bs)) := rfl

theorem run_lift {α : Type} (env : Env) (p : Prog α) (bs : List Byte) :
    run env (lift p) bs = ((Prog.run env.multi p bs).1.map FEv.geom, (Prog.run env.multi p bs).2) := by
  induction p generalizing bs with
  | ret a => rfl
  | fail e => rfl
  | read k ih =>
    cases bs with
    | nil => rfl
    | cons b bs => exact ih b bs
  | emit e k ih => simp only [lift, run, Prog.run, ih, List.map_cons]
  | askMulti k ih => simp only [lift, run, Prog.run]; exact ih _ bs

/-- concatenation of the calls for each member, numbered from `i` -/
def fevList {α : Type} (f : Nat → α → List FEv) : Nat → List α → List FEv
  | _, [] => []
  | i, x :: xs => f i x ++ fevList f (i + 1) xs

theorem run_forIdx {α : Type} {env : Env} {body : Nat → α → FProg Unit} {f : Nat → α → List FEv} (xs : List α)
    (h : ∀ i x, x ∈ xs → ∀ bs, run env (body i x) bs = (f i x, .ok ((), bs))) (i : Nat) (bs : List Byte) :
    run env (forIdx body i xs) bs = (fevList f i xs, .ok ((), bs)) := by
  induction xs generalizing i with
  | nil => rfl
  | cons x xs ih =>
    simp only [forIdx]
    rw [run_bind_ok (h i x (by simp) bs), ih (fun i y hy => h i y (by simp [hy]))]
    rfl

/-- a reader that never drops an error with `.ok()` -/
def NoOk {α : Type} : FProg α → Prop
  | ret _ => True
  | fail _ => True
  | read k => ∀ b, NoOk (k b)
  | emit _ k => NoOk k
  | emitOk _ _ => False
  | prop _ _ _ k => ∀ b, NoOk (k b)
  | ask k => ∀ b d, NoOk (k b d)

theorem NoOk.bind {α β : Type} {p : FProg α} {f : α → FProg β} (hp : NoOk p) (hf : ∀ a, NoOk (f a)) :
    NoOk (FProg.bind p f) := by
  induction p with
  | ret a => exact hf a
  | fail e => trivial
  | read k ih => exact fun b => ih b (hp b)
  | emit e k ih => exact ih hp
  | emitOk e k ih => exact hp.elim
  | prop i n v k ih => exact fun b => ih b (hp b)
  | ask k ih => exact fun b d => ih b d (hp b d)

theorem NoOk.lift {α : Type} (p : Prog α) : NoOk (FProg.lift p) := by
  induction p with
  | ret a => trivial
  | fail e => trivial
  | read k ih => exact fun b => ih b
  | emit e k ih => exact ih
  | askMulti k ih => exact fun b _ => ih b

theorem NoOk.call (e : FEv) : NoOk (FProg.call e) := trivial

theorem NoOk.forIdx {α : Type} {body : Nat → α → FProg Unit} (h : ∀ i x, NoOk (body i x)) (i : Nat) (xs : List α) :
    NoOk (FProg.forIdx body i xs) := by
  induction xs generalizing i with
  | nil => trivial
  | cons x xs ih => exact (h i x).bind fun _ => ih (i + 1)

/-- either the processor accepted every call, or it rejected exactly the last one, and its error is the outcome -/
theorem interp_spec {α σ : Type} (P : FProc σ) (p : FProg α) (hp : NoOk p) (s : σ) (bs : List Byte) :
    feed P.step s (interp P p s bs).2.1 = .ok (interp P p s bs).1 ∨
      ∃ pre e x, (interp P p s bs).2.1 = pre ++ [e] ∧ feed P.step s pre = .ok (interp P p s bs).1 ∧
        P.step (interp P p s bs).1 e = .error x ∧ (interp P p s bs).2.2 = .error x := by
  induction p generalizing s bs with
  | ret a => exact Or.inl rfl
  | fail e => exact Or.inl rfl
  | read k ih =>
    cases bs with
    | nil => exact Or.inl rfl
    | cons b bs => exact ih b (hp b) s bs
  | emit e k ih =>
    simp only [interp]
    cases hs : P.step s e with
    | error x => exact Or.inr ⟨[], e, x, rfl, rfl, hs, rfl⟩
    | ok s1 =>
      rcases ih hp s1 bs with h | ⟨pre, e', x, h1, h2, h3, h4⟩
      · left; simp only [feed_cons, hs]; exact h
      · right
        refine ⟨e :: pre, e', x, by simp [h1], ?_, h3, h4⟩
        simp only [feed_cons, hs]; exact h2
  | emitOk e k ih => exact hp.elim
  | prop i n v k ih =>
    simp only [interp]
    cases hs : P.step s (.prop i n v) with
    | error x => exact Or.inr ⟨[], _, x, rfl, rfl, hs, rfl⟩
    | ok s1 =>
      rcases ih _ (hp _) s1 bs with h | ⟨pre, e', x, h1, h2, h3, h4⟩
      · left; simp only [feed_cons, hs]; exact h
      · right
        refine ⟨.prop i n v :: pre, e', x, by simp only [h1, List.cons_append], ?_, h3, h4⟩
        simp only [feed_cons, hs]; exact h2
  | ask k ih => exact ih _ _ (hp _ _) s bs

/-- the processor agrees with `env` on every state satisfying `I` -/
structure Agrees {σ : Type} (P : FProc σ) (env : Env) (I : σ → Prop) : Prop where
  multi : ∀ s, I s → P.multi s = env.multi
  dims : ∀ s, I s → P.dims s = env.dims
  ans : ∀ s e, I s → P.abort s e = env.ans e
  keeps : ∀ s e s', I s → P.step s e = .ok s' → I s'

theorem interp_prefix {α σ : Type} {P : FProc σ} {env : Env} {I : σ → Prop} (ha : Agrees P env I)
    (p : FProg α) (hp : NoOk p) (s : σ) (hs : I s) (bs : List Byte) :
    (interp P p s bs).2.1 <+: (run env p bs).1 := by
  induction p generalizing s bs with
  | ret a => simp [interp]
  | fail e => simp [interp]
  | read k ih =>
    cases bs with
    | nil => simp [interp]
    | cons b bs => exact ih b (hp b) s hs bs
  | emit e k ih =>
    simp only [interp]
    cases he : P.step s e with
    | error x => simp [run]
    | ok s1 => exact List.cons_prefix_cons.mpr ⟨rfl, ih hp s1 (ha.keeps s e s1 hs he) bs⟩
  | emitOk e k ih => exact hp.elim
  | prop i n v k ih =>
    simp only [interp, run]
    cases he : P.step s (.prop i n v) with
    | error x => simp
    | ok s1 =>
      rw [ha.ans s _ hs]
      exact List.cons_prefix_cons.mpr ⟨rfl, ih _ (hp _) s1 (ha.keeps s _ s1 hs he) bs⟩
  | ask k ih => simp only [interp, run, ha.multi s hs, ha.dims s hs]; exact ih _ _ (hp _ _) s hs bs

/-- If the processor accepts all calls it gets, interactive and trace semantics agree. -/
theorem interp_run_inv {α σ : Type} {P : FProc σ} {env : Env} {I : σ → Prop} (ha : Agrees P env I)
    (p : FProg α) (s s' : σ) (hs : I s) (bs : List Byte) (h : feed P.step s (interp P p s bs).2.1 = .ok s') :
    (interp P p s bs).2 = run env p bs := by
  induction p generalizing s bs with
  | ret a => rfl
  | fail e => rfl
  | read k ih =>
    cases bs with
    | nil => rfl
    | cons b bs => exact ih b s hs bs h
  | emit e k ih =>
    simp only [interp] at h ⊢
    cases he : P.step s e with
    | error x => simp [he, feed] at h
    | ok s1 =>
      simp only [he, feed_cons] at h
      simp only [run, ← ih s1 (ha.keeps s e s1 hs he) bs h]
  | emitOk e k ih =>
    simp only [interp] at h ⊢
    cases he : P.step s e with
    | error x =>
      simp only [he] at h
      split at h <;> simp [feed_cons, he] at h
    | ok s1 =>
      simp only [he, feed_cons] at h
      simp only [run, ← ih s1 (ha.keeps s e s1 hs he) bs h]
  | prop i n v k ih =>
    simp only [interp] at h ⊢
    cases he : P.step s (.prop i n v) with
    | error x => simp [he, feed] at h
    | ok s1 =>
      simp only [he, feed_cons] at h
      simp only [run, ha.ans s _ hs] at h ⊢
      simp only [← ih _ s1 (ha.keeps s _ s1 hs he) bs h]
  | ask k ih => simp only [interp, run, ha.multi s hs, ha.dims s hs] at h ⊢; exact ih _ _ s hs bs h

/-- If the processor accepts the whole trace, interactive and trace semantics agree. -/
theorem interp_of_feed_ok {α σ : Type} {P : FProc σ} {env : Env} {I : σ → Prop} (ha : Agrees P env I)
    (p : FProg α) (s s' : σ) (hs : I s) (bs : List Byte)
    (h : feed P.step s (run env p bs).1 = .ok s') : interp P p s bs = (s', run env p bs) := by
  induction p generalizing s bs with
  | ret a => cases h; rfl
  | fail e => cases h; rfl
  | read k ih =>
    cases bs with
    | nil => cases h; rfl
    | cons b bs => exact ih b s hs bs h
  | emit e k ih =>
    simp only [run, feed_cons] at h
    cases he : P.step s e with
    | error x => simp [he] at h
    | ok s1 =>
      simp only [he] at h
      simp only [interp, he, run, ih s1 (ha.keeps s e s1 hs he) bs h]
  | emitOk e k ih =>
    simp only [run, feed_cons] at h
    cases he : P.step s e with
    | error x => simp [he] at h
    | ok s1 =>
      simp only [he] at h
      simp only [interp, he, run, ih s1 (ha.keeps s e s1 hs he) bs h]
  | prop i n v k ih =>
    simp only [run, feed_cons] at h
    cases he : P.step s (.prop i n v) with
    | error x => simp [he] at h
    | ok s1 =>
      simp only [he] at h
      simp only [interp, he, run, ha.ans s _ hs, ih _ s1 (ha.keeps s _ s1 hs he) bs h]
  | ask k ih => simp only [interp, run, ha.multi s hs, ha.dims s hs] at h ⊢; exact ih _ _ s hs bs h

/-- If the processor rejects the trace, its error is the outcome. -/
theorem interp_of_feed_error {α σ : Type} {P : FProc σ} {env : Env} {I : σ → Prop} (ha : Agrees P env I)
    (p : FProg α) (hp : NoOk p) (s : σ) (hs : I s) (bs : List Byte) (x : Err)
    (h : feed P.step s (run env p bs).1 = .error x) : (interp P p s bs).2.2 = .error x := by
  rcases interp_spec P p hp s bs with h1 | ⟨pre, e, x', he, hpre, hx, hr⟩
  · rw [interp_run_inv ha p s _ hs bs h1, h] at h1
    cases h1
  · obtain ⟨t, ht⟩ := interp_prefix ha p hp s hs bs
    rw [← ht, he, List.append_assoc, feed_append, hpre] at h
    simp only [List.singleton_append, feed, hx, Except.error.injEq] at h
    rw [hr, h]

end FProg

@[simp] theorem geomEvs_append (a b : List FEv) : geomEvs (a ++ b) = geomEvs a ++ geomEvs b := by
  induction a with
  | nil => rfl
  | cons e es ih => cases e <;> simp [geomEvs, ih]

@[simp] theorem geomEvs_map (es : List Ev) : geomEvs (es.map FEv.geom) = es := by
  induction es with
  | nil => rfl
  | cons e es ih => simp [geomEvs, ih]

end Geozero
