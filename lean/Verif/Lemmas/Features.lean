import Verif.Spec.Features
import Verif.Lemmas.Feature

namespace Geozero

theorem Phase.run_append (s : Phase) (a b : List FEv) : s.run (a ++ b) = (s.run a).bind fun s' => s'.run b := by
  induction a generalizing s with
  | nil => rfl
  | cons e es ih =>
    simp only [List.cons_append, Phase.run]
    cases s.next e with
    | none => rfl
    | some s' => exact ih s'

theorem Phase.run_propEvs (n : Nat) (g : Bool) (ps : List PropRec) :
    (Phase.props n g).run (propEvs ps) = some (.props n g) := by
  induction ps with
  | nil => rfl
  | cons p ps ih => exact ih

theorem Phase.run_geomEvs (n : Nat) (p : Bool) (es : List Ev) :
    (Phase.geom n p).run (es.map FEv.geom) = some (.geom n p) := by
  induction es with
  | nil => rfl
  | cons e es ih => exact ih

theorem Phase.run_propsPart (n : Nat) (g : Bool) (f : Feat) :
    ∃ p, (Phase.feature n false g).run f.propsPart = some (.feature n p g) := by
  unfold Feat.propsPart
  cases f.props with
  | none => exact ⟨false, rfl⟩
  | some ps => exact ⟨true, by simp [Phase.run, Phase.next, Phase.run_append, Phase.run_propEvs]⟩

theorem Phase.run_geomPart (n : Nat) (p : Bool) (f : Feat) :
    ∃ g, (Phase.feature n p false).run f.geomPart = some (.feature n p g) := by
  unfold Feat.geomPart
  cases f.geom with
  | none => exact ⟨false, rfl⟩
  | some ps => exact ⟨true, by simp [Phase.run, Phase.next, Phase.run_append, Phase.run_geomEvs]⟩

theorem Phase.run_feat (n : Nat) (f : Feat) : (Phase.dataset n).run (f.evs n) = some (.dataset (n + 1)) := by
  unfold Feat.evs
  simp only [Phase.run, Phase.next, if_true, Phase.run_append]
  cases f.geomFirst with
  | false =>
    obtain ⟨p, hp⟩ := Phase.run_propsPart n false f
    obtain ⟨g, hg⟩ := Phase.run_geomPart n p f
    simp [Phase.run_append, hp, hg, Phase.run, Phase.next]
  | true =>
    obtain ⟨g, hg⟩ := Phase.run_geomPart n false f
    obtain ⟨p, hp⟩ := Phase.run_propsPart n g f
    simp [Phase.run_append, hp, hg, Phase.run, Phase.next]

theorem Phase.run_feats (n : Nat) (fs : List Feat) :
    (Phase.dataset n).run (featEvs n fs) = some (.dataset (n + fs.length)) := by
  induction fs generalizing n with
  | nil => rfl
  | cons f fs ih =>
    simp only [featEvs, Phase.run_append, Phase.run_feat, Option.bind_some, ih, List.length_cons]
    congr 2
    omega

/-- the calls of a dataset are accepted by the documented automaton -/
theorem complete_dataset (name : Option Text) (fs : List Feat) : CompleteDataset (datasetEvs name fs) := by
  simp [CompleteDataset, datasetEvs, Phase.run, Phase.next, Phase.run_append, Phase.run_feats]

theorem featEvs_append (n : Nat) (a b : List Feat) : featEvs n (a ++ b) = featEvs n a ++ featEvs (n + a.length) b := by
  induction a generalizing n with
  | nil => simp [featEvs]
  | cons f fs ih =>
    simp only [List.cons_append, featEvs, ih, List.append_assoc, List.length_cons]
    congr 3
    omega

theorem Phase.run_isSome_of_append {s : Phase} {a b : List FEv} (h : (s.run (a ++ b)).isSome) : (s.run a).isSome := by
  rw [Phase.run_append] at h
  cases hs : s.run a with
  | none => rw [hs] at h; exact h
  | some x => rfl

/-! ### the automaton as a program logic -/

/-- from phase `s` the reader only makes calls the automaton allows, and ends in a phase satisfying `Q` -/
def FProg.Obeys {α : Type} (Q : α → Phase → Prop) : Phase → FProg α → Prop
  | s, .ret a => Q a s
  | _, .fail _ => True
  | s, .read k => ∀ b, FProg.Obeys Q s (k b)
  | s, .emit e k => ∃ s', s.next e = some s' ∧ FProg.Obeys Q s' k
  | s, .emitOk e k => ∃ s', s.next e = some s' ∧ FProg.Obeys Q s' k
  | s, .prop i n v k => ∃ s', s.next (.prop i n v) = some s' ∧ ∀ b, FProg.Obeys Q s' (k b)
  | s, .ask k => ∀ b d, FProg.Obeys Q s (k b d)

namespace FProg

theorem Obeys.bind {α β : Type} {Q : α → Phase → Prop} {R : β → Phase → Prop} {p : FProg α} {f : α → FProg β} {s : Phase}
    (hp : Obeys Q s p) (hf : ∀ a s', Q a s' → Obeys R s' (f a)) : Obeys R s (FProg.bind p f) := by
  induction p generalizing s with
  | ret a => exact hf a s hp
  | fail e => trivial
  | read k ih => intro b; exact ih b (hp b)
  | emit e k ih => obtain ⟨s', h, hk⟩ := hp; exact ⟨s', h, ih hk⟩
  | emitOk e k ih => obtain ⟨s', h, hk⟩ := hp; exact ⟨s', h, ih hk⟩
  | prop i n v k ih => obtain ⟨s', h, hk⟩ := hp; exact ⟨s', h, fun b => ih b (hk b)⟩
  | ask k ih => intro b d; exact ih b d (hp b d)

theorem Obeys.call {e : FEv} {s s' : Phase} (h : s.next e = some s') : Obeys (fun _ t => t = s') s (call e) :=
  ⟨s', h, rfl⟩

theorem Obeys.call_bind {β : Type} {R : β → Phase → Prop} {e : FEv} {f : Unit → FProg β} {s s' : Phase}
    (h : s.next e = some s') (hf : Obeys R s' (f ())) : Obeys R s (FProg.bind (FProg.call e) f) :=
  Obeys.bind (Obeys.call h) (fun _ _ ht => ht ▸ hf)

theorem Obeys.lift {α : Type} (p : Prog α) (n : Nat) (g : Bool) :
    Obeys (fun _ t => t = .geom n g) (.geom n g) (lift p) := by
  induction p with
  | ret a => rfl
  | fail e => trivial
  | read k ih => intro b; exact ih b
  | emit e k ih => exact ⟨_, rfl, ih⟩
  | askMulti k ih => intro b _; exact ih b

theorem Obeys.forIdx {α : Type} {body : Nat → α → FProg Unit} (I : Nat → Phase)
    (hbody : ∀ i x, Obeys (fun _ t => t = I (i + 1)) (I i) (body i x)) (i : Nat) (xs : List α) :
    Obeys (fun _ t => t = I (i + xs.length)) (I i) (forIdx body i xs) := by
  induction xs generalizing i with
  | nil => rfl
  | cons x xs ih =>
    refine Obeys.bind (hbody i x) fun _ t ht => ?_
    subst ht
    have := ih (i + 1)
    rw [show i + (x :: xs).length = i + 1 + xs.length by simp only [List.length_cons]; omega]
    exact this

theorem Obeys.mono {α : Type} {Q R : α → Phase → Prop} {p : FProg α} {s : Phase} (h : Obeys Q s p)
    (hqr : ∀ a t, Q a t → R a t) : Obeys R s p := by
  induction p generalizing s with
  | ret a => exact hqr a s h
  | fail e => trivial
  | read k ih => intro b; exact ih b (h b)
  | emit e k ih => obtain ⟨s', h, hk⟩ := h; exact ⟨s', h, ih hk⟩
  | emitOk e k ih => obtain ⟨s', h, hk⟩ := h; exact ⟨s', h, ih hk⟩
  | prop i n v k ih => obtain ⟨s', h, hk⟩ := h; exact ⟨s', h, fun b => ih b (hk b)⟩
  | ask k ih => intro b d; exact ih b d (h b d)

theorem Obeys.forIdx_mem {α : Type} {body : Nat → α → FProg Unit} (I : Nat → Phase) (xs : List α)
    (hbody : ∀ i x, x ∈ xs → Obeys (fun _ t => t = I (i + 1)) (I i) (body i x)) (i : Nat) :
    Obeys (fun _ t => t = I (i + xs.length)) (I i) (FProg.forIdx body i xs) := by
  induction xs generalizing i with
  | nil => rfl
  | cons x xs ih =>
    refine Obeys.bind (hbody i x (by simp)) fun _ t ht => ?_
    subst ht
    have := ih (fun i x hx => hbody i x (by simp [hx])) (i + 1)
    rw [show i + (x :: xs).length = i + 1 + xs.length by simp only [List.length_cons]; omega]
    exact this

theorem Obeys.sound {α σ : Type} {Q : α → Phase → Prop} {p : FProg α} {t : Phase} (h : Obeys Q t p) (P : FProc σ) (s : σ)
    (bs : List Byte) :
    ((t.run (interp P p s bs).2.1).isSome) ∧
    ∀ a rest, (interp P p s bs).2.2 = .ok (a, rest) → ∃ t', t.run (interp P p s bs).2.1 = some t' ∧ Q a t' := by
  induction p generalizing s t bs with
  | ret a =>
    refine ⟨rfl, ?_⟩
    intro a' rest h'
    simp only [interp, Except.ok.injEq, Prod.mk.injEq] at h'
    exact ⟨t, rfl, h'.1 ▸ h⟩
  | fail e => exact ⟨rfl, fun _ _ h' => by cases h'⟩
  | read k ih =>
    cases bs with
    | nil => exact ⟨rfl, fun _ _ h' => by cases h'⟩
    | cons b bs => exact ih b (h b) s bs
  | emit e k ih =>
    obtain ⟨t', h1, h2⟩ := h
    simp only [interp]
    cases P.step s e with
    | error x => exact ⟨by simp [Phase.run, h1], fun _ _ h' => by cases h'⟩
    | ok s' => simpa only [Phase.run, h1] using ih h2 s' bs
  | emitOk e k ih =>
    obtain ⟨t', h1, h2⟩ := h
    simp only [interp]
    cases P.step s e with
    | error x =>
      by_cases hx : x.isPanic = true
      · simp only [hx, if_true]
        exact ⟨by simp [Phase.run, h1], fun _ _ h' => by cases h'⟩
      · simp only [if_neg hx]
        simpa only [Phase.run, h1] using ih h2 (P.left s e) bs
    | ok s' => simpa only [Phase.run, h1] using ih h2 s' bs
  | prop i n v k ih =>
    obtain ⟨t', h1, h2⟩ := h
    simp only [interp]
    cases P.step s (.prop i n v) with
    | error x => exact ⟨by simp [Phase.run, h1], fun _ _ h' => by cases h'⟩
    | ok s' => simpa only [Phase.run, h1] using ih _ (h2 _) s' bs
  | ask k ih => exact ih _ _ (h _ _) s bs

theorem follows_of_obeys {α : Type} {p : FProg α} (h : Obeys (fun _ t => t = .done) .start p) : p.FollowsContract := by
  intro σ P s bs
  obtain ⟨h1, h2⟩ := Obeys.sound h P s bs
  refine ⟨h1, ?_⟩
  intro hok
  cases hr : (interp P p s bs).2.2 with
  | error e => rw [hr] at hok; cases hok
  | ok v =>
    obtain ⟨t', ht, rfl⟩ := h2 v.1 v.2 hr
    exact ht

end FProg

end Geozero
