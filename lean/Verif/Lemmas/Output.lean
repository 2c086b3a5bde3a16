import Verif.Model.Output

/-
Writers on outputs that may fail: what a run on an arbitrary output has to do with a run on one that accepts everything.
-/

namespace Geozero
open Spec

theorem Spec.Output.offer_append {δ : Type} (O : Output δ) (ps qs : List (List Byte)) (d : δ) :
    O.offer d (ps ++ qs) = if (O.offer d ps).2 then O.offer (O.offer d ps).1 qs else O.offer d ps := by
  induction ps generalizing d with
  | nil => rfl
  | cons p ps ih =>
    simp only [List.cons_append, Output.offer]
    by_cases hp : p = []
    · simp only [if_pos hp]; exact ih d
    · simp only [if_neg hp]
      rcases O.write d p with ⟨d', _ | k⟩
      · exact ih d'
      · rfl

theorem Spec.Output.offer_vec (ps : List (List Byte)) (d : List Byte) :
    Output.vec.offer d ps = (d ++ ps.flatten, true) := by
  induction ps generalizing d with
  | nil => simp [Output.offer]
  | cons p ps ih =>
    simp only [Output.offer]
    by_cases hp : p = []
    · simp only [if_pos hp, ih, hp]; simp
    · simp only [if_neg hp, Output.vec]
      rw [show Output.offer { write := fun d p => (d ++ p, none) } = Output.vec.offer from rfl, ih]
      simp

/-- what an output holds after it was offered some pieces -/
theorem Spec.Output.Holds.offer {δ : Type} {O : Output δ} {content : δ → List Byte} (h : O.Holds content)
    (ps : List (List Byte)) (d : δ) : ∃ w, w <+: ps.flatten ∧ content (O.offer d ps).1 = content d ++ w ∧
      ((O.offer d ps).2 = true → w = ps.flatten) := by
  induction ps generalizing d with
  | nil => exact ⟨[], by simp, by simp [Output.offer], by simp⟩
  | cons p ps ih =>
    simp only [Output.offer]
    by_cases hp : p = []
    · simp only [if_pos hp, hp, List.flatten_cons, List.nil_append]; exact ih d
    · simp only [if_neg hp]
      have := h d p
      rcases hw : O.write d p with ⟨d', _ | k⟩
      · rw [hw] at this
        obtain ⟨w, h1, h2, h3⟩ := ih d'
        simp only at this
        refine ⟨p ++ w, ?_, by rw [h2, this]; simp, fun h => by rw [h3 h]; simp⟩
        rw [List.flatten_cons]; exact (List.prefix_append_right_inj p).mpr h1
      · rw [hw] at this
        simp only at this
        refine ⟨p.take k, ?_, this, by simp⟩
        rw [List.flatten_cons]; exact (List.take_prefix k p).trans (List.prefix_append p _)

/-- a conversion reporting the first refusal: success means completeness -/
theorem Spec.ReportsRefusal.complete {β : Type} {conv : {δ : Type} → Output δ → δ → δ × Except Err β}
    {pieces : List (List Byte)} {outcome : Except Err β} (h : ReportsRefusal conv pieces outcome) :
    Complete conv pieces.flatten := by
  intro δ O content hO d
  obtain ⟨w, h1, h2, h3⟩ := hO.offer pieces d
  rw [h]
  refine ⟨fun v hv => ?_, w, h1, h2⟩
  by_cases hc : (O.offer d pieces).2 = true
  · rw [← h3 hc]; exact h2
  · simp only [hc] at hv; simp at hv

namespace Out
variable {γ σ α : Type}

/-- the writer drops no error of its output -/
def NoDrop (o : Out γ σ) : Prop := ∀ s e, ∀ p, Act.putDrop p ∉ o.acts s e

theorem doActs_spec (o : Out γ σ) (as : List (Act γ σ)) (hd : ∀ p, Act.putDrop p ∉ as) (s : σ) :
    ∃ ps s1 r1, ∀ (δ : Type) (O : Output δ) (d : δ),
      if (O.offer d ps).2 then o.doActs O as s d = ⟨s1, (O.offer d ps).1, r1⟩
      else ∃ s2, o.doActs O as s d = ⟨s2, (O.offer d ps).1, .error .io⟩ := by
  induction as generalizing s with
  | nil => exact ⟨[], s, .ok (), fun δ O d => by simp [Output.offer, doActs]⟩
  | cons a as ih =>
    have hd' : ∀ p, Act.putDrop p ∉ as := fun p hp => hd p (List.mem_cons_of_mem _ hp)
    cases a with
    | put p =>
      obtain ⟨ps, s1, r1, H⟩ := ih hd' (o.put s p)
      refine ⟨o.enc p :: ps, s1, r1, fun δ O d => ?_⟩
      simp only [doActs, Output.offer]
      by_cases hp : o.enc p = []
      · simp only [if_pos hp]
        exact H δ O d
      · simp only [if_neg hp]
        rcases O.write d (o.enc p) with ⟨d', _ | k⟩
        · exact H δ O d'
        · simp
    | putDrop p => exact absurd (List.mem_cons_self) (hd p)
    | upd f =>
      obtain ⟨ps, s1, r1, H⟩ := ih hd' (f s)
      exact ⟨ps, s1, r1, fun δ O d => by simp only [doActs]; exact H δ O d⟩
    | fail e => exact ⟨[], s, .error e, fun δ O d => by simp [Output.offer, doActs]⟩

/-- a run on any output is determined by the pieces written and by the run on an output accepting everything -/
theorem exec_spec (o : Out γ σ) (hd : o.NoDrop) (p : FProg α) (hp : Propagates p) (s : σ) (bs : List Byte) :
    ∃ ps r, ∀ (δ : Type) (O : Output δ) (d : δ), o.exec O p s d bs =
      ((O.offer d ps).1, if (O.offer d ps).2 then r else .error .io) := by
  induction p generalizing s bs with
  | ret a => exact ⟨[], .ok (s, a, bs), fun δ O d => by simp [exec, Output.offer]⟩
  | fail e => exact ⟨[], .error e, fun δ O d => by simp [exec, Output.offer]⟩
  | read k ih =>
    cases bs with
    | nil => exact ⟨[], .error .io, fun δ O d => by simp [exec, Output.offer]⟩
    | cons b bs =>
      obtain ⟨ps, r, h2⟩ := ih b (hp b) s bs
      exact ⟨ps, r, fun δ O d => by simp only [exec]; exact h2 δ O d⟩
  | emit e k ih =>
    obtain ⟨ps, s1, r1, H⟩ := o.doActs_spec (o.acts s e) (hd s e) s
    cases r1 with
    | error x =>
      refine ⟨ps, .error x, fun δ O d => ?_⟩
      have := H δ O d
      by_cases hc : (O.offer d ps).2
      · rw [if_pos hc] at this; simp only [exec, this, hc, if_true]
      · rw [if_neg hc] at this; obtain ⟨s2, h2⟩ := this; simp only [exec, h2, hc]; rfl
    | ok u =>
      obtain ⟨qs, r, H2⟩ := ih hp s1 bs
      refine ⟨ps ++ qs, r, fun δ O d => ?_⟩
      have := H δ O d
      rw [Output.offer_append]
      by_cases hc : (O.offer d ps).2
      · rw [if_pos hc] at this ⊢; simp only [exec, this]; exact H2 δ O _
      · rw [if_neg hc] at this ⊢; obtain ⟨s2, h2⟩ := this; simp only [exec, h2, hc]; rfl
  | emitOk e k ih => exact absurd hp (by simp [Propagates])
  | prop i n v k ih =>
    obtain ⟨ps, s1, r1, H⟩ := o.doActs_spec (o.acts s (.prop i n v)) (hd s (.prop i n v)) s
    cases r1 with
    | error x =>
      refine ⟨ps, .error x, fun δ O d => ?_⟩
      have := H δ O d
      by_cases hc : (O.offer d ps).2
      · rw [if_pos hc] at this; simp only [exec, this, hc, if_true]
      · rw [if_neg hc] at this; obtain ⟨s2, h2⟩ := this; simp only [exec, h2, hc]; rfl
    | ok u =>
      obtain ⟨qs, r, H2⟩ := ih _ (hp (o.abort s (.prop i n v))) s1 bs
      refine ⟨ps ++ qs, r, fun δ O d => ?_⟩
      have := H δ O d
      rw [Output.offer_append]
      by_cases hc : (O.offer d ps).2
      · rw [if_pos hc] at this ⊢; simp only [exec, this]; exact H2 δ O _
      · rw [if_neg hc] at this ⊢; obtain ⟨s2, h2⟩ := this; simp only [exec, h2, hc]; rfl
  | ask k ih =>
    obtain ⟨ps, r, h2⟩ := ih (o.multi s) (o.dims s) (hp _ _) s bs
    exact ⟨ps, r, fun δ O d => by simp only [exec]; exact h2 δ O d⟩

/-! ### on an output that accepts everything -/

/-- updates keep the text recorded as output -/
def _root_.Geozero.Act.Keeps (out : σ → γ) : Act γ σ → Prop
  | .upd f => ∀ s, out (f s) = out s
  | _ => True

/-- as `Keeps`, and the error of the output is not dropped -/
def _root_.Geozero.Act.Good (out : σ → γ) : Act γ σ → Prop
  | .upd f => ∀ s, out (f s) = out s
  | .putDrop _ => False
  | _ => True

/-- all of a list are good -/
def AllGood (out : σ → γ) (as : List (Act γ σ)) : Prop := ∀ a ∈ as, a.Good out

theorem AllGood.nil {out : σ → γ} : AllGood out [] := by simp [AllGood]

theorem AllGood.append {out : σ → γ} {as bs : List (Act γ σ)} (h1 : AllGood out as) (h2 : AllGood out bs) :
    AllGood out (as ++ bs) := by
  intro a ha; rcases List.mem_append.mp ha with h | h
  · exact h1 a h
  · exact h2 a h

theorem AllGood.put {out : σ → γ} {p : γ} {as : List (Act γ σ)} (h : AllGood out as) : AllGood out (.put p :: as) := by
  intro a ha; rcases List.mem_cons.mp ha with rfl | h'
  · trivial
  · exact h a h'

theorem AllGood.fail {out : σ → γ} {e : Err} {as : List (Act γ σ)} (h : AllGood out as) :
    AllGood out (.fail e :: as) := by
  intro a ha; rcases List.mem_cons.mp ha with rfl | h'
  · trivial
  · exact h a h'

theorem AllGood.upd {out : σ → γ} {f : σ → σ} {as : List (Act γ σ)} (hf : ∀ s, out (f s) = out s)
    (h : AllGood out as) : AllGood out (.upd f :: as) := by
  intro a ha; rcases List.mem_cons.mp ha with rfl | h'
  · exact hf
  · exact h a h'

theorem AllGood.ite {out : σ → γ} {c : Prop} [Decidable c] {as bs : List (Act γ σ)} (h1 : AllGood out as)
    (h2 : AllGood out bs) : AllGood out (if c then as else bs) := by
  split <;> assumption

theorem AllGood.puts {out : σ → γ} {β : Type} (f : β → γ) (xs : List β) :
    AllGood out (xs.map fun x => Act.put (f x)) := by
  intro a ha; obtain ⟨x, -, rfl⟩ := List.mem_map.mp ha; trivial

/-- what a method does on a perfect output: the state or the error -/
def pureActs (o : Out γ σ) : List (Act γ σ) → σ → Except Err σ
  | [], s => .ok s
  | .put p :: as, s => pureActs o as (o.put s p)
  | .putDrop p :: as, s => pureActs o as (o.put s p)
  | .upd f :: as, s => pureActs o as (f s)
  | .fail e :: _, _ => .error e

/-- the writer on a perfect output is the processor `P` -/
structure Refines (o : Out γ σ) (P : FProc σ) (out : σ → γ) : Prop where
  step : ∀ s e, o.pureActs (o.acts s e) s = P.step s e
  good : ∀ s e, AllGood out (o.acts s e)
  put : ∀ s p, o.enc (out (o.put s p)) = o.enc (out s) ++ o.enc p
  abort : o.abort = P.abort
  multi : o.multi = P.multi
  dims : o.dims = P.dims

theorem Refines.nodrop {o : Out γ σ} {P : FProc σ} {out : σ → γ} (R : o.Refines P out) : o.NoDrop :=
  fun s e _ hp => R.good s e _ hp

theorem Refines.keeps {o : Out γ σ} {P : FProc σ} {out : σ → γ} (R : o.Refines P out) (s : σ) (e : FEv) :
    ∀ a ∈ o.acts s e, a.Keeps out := by
  intro a ha
  have := R.good s e a ha
  cases a <;> first | trivial | exact this

theorem doActs_vec (o : Out γ σ) (out : σ → γ) (hput : ∀ s p, o.enc (out (o.put s p)) = o.enc (out s) ++ o.enc p)
    (as : List (Act γ σ)) (hk : ∀ a ∈ as, a.Keeps out) (s : σ) (d : List Byte) :
    (∀ s', o.pureActs as s = .ok s' → ∃ ps, o.doActs .vec as s d = ⟨s', d ++ ps, .ok ()⟩ ∧
      o.enc (out s') = o.enc (out s) ++ ps) ∧
    (∀ x, o.pureActs as s = .error x → ∃ s' d', o.doActs .vec as s d = ⟨s', d', .error x⟩) := by
  induction as generalizing s d with
  | nil =>
    refine ⟨fun s' hs => ?_, fun x hx => by simp [pureActs] at hx⟩
    simp only [pureActs, Except.ok.injEq] at hs
    subst hs
    exact ⟨[], by simp [doActs], by simp⟩
  | cons a as ih =>
    have hk' : ∀ a ∈ as, a.Keeps out := fun b hb => hk b (List.mem_cons_of_mem _ hb)
    have wr : ∀ p, (∀ s', o.pureActs as (o.put s p) = .ok s' → ∃ ps,
          (if o.enc p = [] then o.doActs .vec as (o.put s p) d else o.doActs .vec as (o.put s p) (d ++ o.enc p))
            = ⟨s', d ++ ps, .ok ()⟩ ∧ o.enc (out s') = o.enc (out s) ++ ps) ∧
        (∀ x, o.pureActs as (o.put s p) = .error x → ∃ s' d',
          (if o.enc p = [] then o.doActs .vec as (o.put s p) d else o.doActs .vec as (o.put s p) (d ++ o.enc p))
            = ⟨s', d', .error x⟩) := by
      intro p
      by_cases hp : o.enc p = []
      · simp only [if_pos hp]
        have := ih hk' (o.put s p) d
        simpa only [hput, hp, List.append_nil] using this
      · simp only [if_neg hp]
        obtain ⟨h1, h2⟩ := ih hk' (o.put s p) (d ++ o.enc p)
        refine ⟨fun s' hs => ?_, h2⟩
        obtain ⟨ps, e1, e2⟩ := h1 s' hs
        exact ⟨o.enc p ++ ps, by simp [e1], by simp [e2, hput]⟩
    cases a with
    | put p => simpa only [doActs, pureActs, Output.vec] using wr p
    | putDrop p => simpa only [doActs, pureActs, Output.vec] using wr p
    | upd f =>
      have := ih hk' (f s) d
      have hf : out (f s) = out s := hk (.upd f) (by simp) s
      simpa only [doActs, pureActs, hf] using this
    | fail e =>
      refine ⟨fun s' hs => by simp [pureActs] at hs, fun x hx => ?_⟩
      simp only [pureActs, Except.error.injEq] at hx
      subst hx
      exact ⟨s, d, rfl⟩

/-- the run on a perfect output is the run of the processor `P` -/
theorem exec_vec {o : Out γ σ} {P : FProc σ} {out : σ → γ} (R : o.Refines P out) (p : FProg α) (hp : Propagates p)
    (s : σ) (bs : List Byte) (d : List Byte) :
    (o.exec .vec p s d bs).2.map Prod.snd = (FProg.interp P p s bs).2.2 ∧
    ∀ v, (FProg.interp P p s bs).2.2 = .ok v → ∃ ps, (o.exec .vec p s d bs).1 = d ++ ps ∧
      o.enc (out (FProg.interp P p s bs).1) = o.enc (out s) ++ ps := by
  have key : ∀ (e : FEv) (s : σ) (d : List Byte),
      (∀ s', P.step s e = .ok s' → ∃ ps, o.doActs .vec (o.acts s e) s d = ⟨s', d ++ ps, .ok ()⟩ ∧
        o.enc (out s') = o.enc (out s) ++ ps) ∧
      (∀ x, P.step s e = .error x → ∃ s' d', o.doActs .vec (o.acts s e) s d = ⟨s', d', .error x⟩) := by
    intro e s d
    have := o.doActs_vec out R.put (o.acts s e) (R.keeps s e) s d
    rwa [R.step] at this
  induction p generalizing s bs d with
  | ret a => exact ⟨rfl, fun v _ => ⟨[], by simp [exec], by simp [FProg.interp]⟩⟩
  | fail e => exact ⟨rfl, fun v hv => by simp [FProg.interp] at hv⟩
  | read k ih =>
    cases bs with
    | nil => exact ⟨rfl, fun v hv => by simp [FProg.interp] at hv⟩
    | cons b bs => exact ih b (hp b) s bs d
  | emit e k ih =>
    obtain ⟨k1, k2⟩ := key e s d
    cases hs : P.step s e with
    | error x =>
      obtain ⟨s', d', e1⟩ := k2 x hs
      simp only [exec, e1, FProg.interp, hs]
      exact ⟨rfl, fun v hv => by simp at hv⟩
    | ok s' =>
      obtain ⟨ps, e1, e3⟩ := k1 s' hs
      simp only [exec, e1, FProg.interp, hs]
      obtain ⟨i1, i2⟩ := ih hp s' bs (d ++ ps)
      refine ⟨i1, fun v hv => ?_⟩
      obtain ⟨qs, j1, j3⟩ := i2 v hv
      exact ⟨ps ++ qs, by rw [j1, List.append_assoc], by rw [j3, e3]; simp⟩
  | emitOk e k ih => exact absurd hp (by simp [Propagates])
  | prop i n v k ih =>
    obtain ⟨k1, k2⟩ := key (.prop i n v) s d
    cases hs : P.step s (.prop i n v) with
    | error x =>
      obtain ⟨s', d', e1⟩ := k2 x hs
      simp only [exec, e1, FProg.interp, hs]
      exact ⟨rfl, fun v hv => by simp at hv⟩
    | ok s' =>
      obtain ⟨ps, e1, e3⟩ := k1 s' hs
      simp only [exec, e1, FProg.interp, hs, R.abort]
      obtain ⟨i1, i2⟩ := ih _ (hp (P.abort s (.prop i n v))) s' bs (d ++ ps)
      refine ⟨i1, fun v hv => ?_⟩
      obtain ⟨qs, j1, j3⟩ := i2 v hv
      exact ⟨ps ++ qs, by rw [j1, List.append_assoc], by rw [j3, e3]; simp⟩
  | ask k ih =>
    simp only [exec, FProg.interp, R.multi, R.dims]
    exact ih _ _ (hp _ _) s bs d

/-- both together, for a writer that starts with an empty output -/
theorem reports {o : Out γ σ} {P : FProc σ} {out : σ → γ} (R : o.Refines P out) (p : FProg α) (hp : Propagates p)
    (s : σ) (h0 : o.enc (out s) = []) (bs : List Byte) :
    ∃ pieces, (∀ v, (FProg.interp P p s bs).2.2 = .ok v → pieces.flatten = o.enc (out (FProg.interp P p s bs).1)) ∧
      ReportsRefusal (o.convert p s bs) pieces (FProg.interp P p s bs).2.2 := by
  obtain ⟨ps, r, h2⟩ := o.exec_spec R.nodrop p hp s bs
  obtain ⟨a1, a2⟩ := exec_vec R p hp s bs []
  have hall := h2 _ .vec []
  rw [Output.offer_vec, List.nil_append, if_pos rfl] at hall
  rw [hall] at a1 a2
  refine ⟨ps, fun v hv => ?_, fun δ O d => ?_⟩
  · obtain ⟨qs, e1, e3⟩ := a2 v hv
    rw [e3, h0]
    simp only [List.nil_append] at e1 ⊢
    rw [e1]
  · show ((o.exec O p s d bs).1, (o.exec O p s d bs).2.map Prod.snd) = _
    rw [h2 δ O d]
    refine Prod.ext rfl ?_
    rw [← a1]
    cases (O.offer d ps).2 <;> simp [Except.map]

end Out
end Geozero
