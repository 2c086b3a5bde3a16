import Verif.Props.Adaptors

/-
C32, C33: what the multiplexer and a datasource used as a geometry source do when a processor fails, or the source has empty points.
-/

namespace Geozero

private theorem split_at_refusal {σ : Type} {step : σ → FEv → Except Err σ} {s a b : σ} {x y : Err} {e e' : FEv}
    {pre pre' post post' : List FEv} (h : pre ++ e :: post = pre' ++ e' :: post') (h1 : feed step s pre = .ok a)
    (h2 : step a e = .error x) (h3 : feed step s pre' = .ok b) (h4 : step b e' = .error y) : pre = pre' := by
  induction pre generalizing s pre' with
  | nil =>
    cases pre' with
    | nil => rfl
    | cons c cs =>
      simp only [List.nil_append, List.cons_append, List.cons.injEq] at h
      obtain ⟨rfl, -⟩ := h
      simp only [feed, Except.ok.injEq] at h1
      subst h1
      simp only [feed, h2] at h3
      cases h3
  | cons c cs ih =>
    cases pre' with
    | nil =>
      simp only [List.nil_append, List.cons_append, List.cons.injEq] at h
      obtain ⟨rfl, -⟩ := h
      simp only [feed, Except.ok.injEq] at h3
      subst h3
      simp only [feed, h4] at h1
      cases h1
    | cons d ds =>
      simp only [List.cons_append, List.cons.injEq] at h
      obtain ⟨rfl, h⟩ := h
      simp only [feed_cons] at h1 h3
      cases hs : step s c with
      | error z => rw [hs] at h1; cases h1
      | ok s1 =>
        rw [hs] at h1 h3
        rw [ih h h1 h3]

/-- the run of a source against a processor that refuses one of its calls: that call is the last -/
private theorem interp_refused {α σ : Type} {P : FProc σ} {env : FProg.Env} (ha : FProg.Agrees P env (fun _ => True))
    (src : FProg α) (hsrc : src.NoOk) (s s' : σ) (bs : List Byte) {before after : List FEv} {e : FEv} {x : Err}
    (hrun : (FProg.run env src bs).1 = before ++ e :: after) (hb : feed P.step s before = .ok s') (he : P.step s' e = .error x) :
    (FProg.interp P src s bs).2 = (before ++ [e], .error x) := by
  rcases FProg.interp_spec P src hsrc s bs with h1 | ⟨pre, e', x', hc, hpre, hx, hr⟩
  · rw [FProg.interp_run_inv ha src s _ trivial bs h1, hrun, feed_append, hb] at h1
    simp only [feed, he] at h1
    cases h1
  · obtain ⟨t, ht⟩ := FProg.interp_prefix ha src hsrc s trivial bs
    rw [hc, hrun, List.append_assoc, List.singleton_append] at ht
    have := split_at_refusal ht hpre hx hb he
    subst this
    simp only [List.append_cancel_left_eq, List.cons.injEq] at ht
    obtain ⟨rfl, -⟩ := ht
    rw [hb] at hpre
    simp only [Except.ok.injEq] at hpre
    rw [← hpre, he] at hx
    simp only [Except.error.injEq] at hx
    subst hx
    exact Prod.ext hc hr

/-- a stream of calls is accepted, or there is a first call that is refused -/
private theorem accepted_or_refused {σ : Type} (step : σ → FEv → Except Err σ) (s : σ) (evs : List FEv) :
    (∃ s', feed step s evs = .ok s') ∨
      ∃ before e after s' x, evs = before ++ e :: after ∧ feed step s before = .ok s' ∧ step s' e = .error x := by
  induction evs generalizing s with
  | nil => exact Or.inl ⟨s, rfl⟩
  | cons c cs ih =>
    cases hs : step s c with
    | error x => exact Or.inr ⟨[], c, cs, s, x, rfl, rfl, hs⟩
    | ok s1 =>
      rcases ih s1 with ⟨s', h⟩ | ⟨before, e, after, s', x, h1, h2, h3⟩
      · exact Or.inl ⟨s', by simp only [feed_cons, hs]; exact h⟩
      · exact Or.inr ⟨c :: before, e, after, s', x, by rw [h1]; rfl, by simp only [feed_cons, hs]; exact h2, h3⟩

/-! ## C32 -/

/-- The call `e`, made when the two processors are in the states `s` and `t`, is refused with the error `x`: it is an empty point; or the
first processor refuses it; or the first accepts it and the second refuses it. -/
def MuxRefuses {σ τ : Type} (p : FProc σ) (q : FProc τ) (s : σ) (t : τ) (e : FEv) (x : Err) : Prop :=
  (∃ i, e = .geom (.emptyPoint i) ∧ x = .geometry "The input was an empty Point, but the output doesn't support empty Points") ∨
  (e.plain = true ∧ p.step s e = .error x) ∨
  (e.plain = true ∧ (∃ s', p.step s e = .ok s') ∧ q.step t e = .error x)

private theorem mux_refuses_iff {σ τ : Type} (p : FProc σ) (q : FProc τ) (s : σ) (t : τ) (e : FEv) (x : Err) :
    (mux p q).step (s, t) e = .error x ↔ MuxRefuses p q s t e x := by
  simp only [mux, muxForwards_eq, MuxRefuses]
  cases hf : e.plain with
  | false =>
    simp only [Bool.false_eq_true, if_false, false_and, or_false]
    cases e with
    | geom g =>
      cases g with
      | emptyPoint i => simp [defaultStep, eq_comm]
      | _ => simp [defaultStep]
    | _ => simp [defaultStep]
  | true =>
    have : ∀ i, e ≠ .geom (.emptyPoint i) := by
      rintro i rfl
      simp [FEv.plain] at hf
    simp only [if_true, muxBoth, this, false_and, exists_false, false_or, true_and]
    cases h1 : p.step s e with
    | error y => simp
    | ok s1 =>
      cases h2 : q.step t e with
      | error y => simp
      | ok t1 => simp

private theorem mux_no_empty {σ τ : Type} (p : FProc σ) (q : FProc τ) (evs : List FEv) (s : σ × τ) (s' : σ × τ)
    (h : feed (mux p q).step s evs = .ok s') (i : Nat) : FEv.geom (.emptyPoint i) ∉ evs := by
  induction evs generalizing s with
  | nil => simp
  | cons c cs ih =>
    simp only [feed_cons] at h
    cases hs : (mux p q).step s c with
    | error x => rw [hs] at h; cases h
    | ok s1 =>
      rw [hs] at h
      simp only [List.mem_cons, not_or]
      refine ⟨?_, ih s1 h⟩
      rintro rfl
      simp [mux, muxForwards, defaultStep] at hs

/-- A multiplexed run in full, for any source that reports the errors it gets and any two processors (the second answering `property`
alike in all states).  The source is asked as by a two-dimensional processor answering `property` as the second one does.  Either all its
calls are taken: there are no empty points, and both processors accept the calls, SRIDs and begin and end of collections excepted, which
neither receives.  Or there is a first call refused — an empty point, or a call the first processor refuses, or one the first accepts and
the second refuses: both processors have accepted the calls before it, and the run ends there with that error. -/
theorem C32_multiplexed_run {α σ τ : Type} (p : FProc σ) (q : FProc τ) (ans : FEv → Bool) (hqa : ∀ s e, q.abort s e = ans e)
    (src : FProg α) (hsrc : src.NoOk) (bs : List Byte) (s : σ) (t : τ) (calls : List FEv) (r : Except Err (α × List Byte))
    (hrun : FProg.run { ans := ans } src bs = (calls, r)) :
    (∃ s' t', (∀ i, FEv.geom (.emptyPoint i) ∉ calls) ∧ feed p.step s (calls.filter FEv.plain) = .ok s' ∧
        feed q.step t (calls.filter FEv.plain) = .ok t' ∧ FProg.interp (mux p q) src (s, t) bs = ((s', t'), calls, r)) ∨
    (∃ before e after s' t' x, calls = before ++ e :: after ∧ (∀ i, FEv.geom (.emptyPoint i) ∉ before) ∧
        feed p.step s (before.filter FEv.plain) = .ok s' ∧ feed q.step t (before.filter FEv.plain) = .ok t' ∧
        MuxRefuses p q s' t' e x ∧ (FProg.interp (mux p q) src (s, t) bs).2 = (before ++ [e], .error x)) := by
  have am : FProg.Agrees (mux p q) { ans := ans } (fun _ => True) :=
    ⟨fun _ _ => rfl, fun _ _ => rfl, fun s e _ => hqa s.2 e, fun _ _ _ _ _ => trivial⟩
  rcases accepted_or_refused (mux p q).step (s, t) calls with ⟨⟨s', t'⟩, h⟩ | ⟨before, e, after, ⟨s', t'⟩, x, h1, h2, h3⟩
  · refine Or.inl ⟨s', t', mux_no_empty p q calls _ _ h, (C32_forwards_partial p q calls s s' t t' h).1,
      (C32_forwards_partial p q calls s s' t t' h).2, ?_⟩
    rw [FProg.interp_of_feed_ok am src (s, t) (s', t') trivial bs (by rw [hrun]; exact h), hrun]
  · exact Or.inr ⟨before, e, after, s', t', x, h1, mux_no_empty p q before _ _ h2, (C32_forwards_partial p q before s s' t t' h2).1,
      (C32_forwards_partial p q before s s' t t' h2).2, (mux_refuses_iff p q s' t' e x).mp h3,
      interp_refused am src hsrc (s, t) (s', t') bs (by rw [hrun]; exact h1) h2 h3⟩

/-- refuses the `n`-th call -/
def pickyRecorder (n : Nat) : FProc (List FEv) where
  step s e := if s.length = n then .error (.geometry "full") else .ok (s ++ [e])
  abort _ _ := false
  multi _ := false
  dims _ := {}

private def fourCalls : FProg Unit := do
  FProg.call (.ftBegin 0); FProg.lift (Prog.emitEv (.gbegin .collection true 1 0)); FProg.call .geomBegin
  FProg.lift (Prog.emitEv (.emptyPoint 0)); FProg.call (.ftEnd 0)

-- an empty point in fourth place; a first processor that refuses its second call (the third of the source); a second one that does
example :
    fourCalls.NoOk ∧
    (FProg.interp (mux (pickyRecorder 9) (pickyRecorder 9)) fourCalls ([], []) []).2 =
      ([.ftBegin 0, .geom (.gbegin .collection true 1 0), .geomBegin, .geom (.emptyPoint 0)],
        .error (.geometry "The input was an empty Point, but the output doesn't support empty Points")) ∧
    (FProg.interp (mux (pickyRecorder 1) (pickyRecorder 9)) fourCalls ([], []) []).2 =
      ([.ftBegin 0, .geom (.gbegin .collection true 1 0), .geomBegin], .error (.geometry "full")) ∧
    (FProg.interp (mux (pickyRecorder 9) (pickyRecorder 0)) fourCalls ([], []) []).2 = ([.ftBegin 0], .error (.geometry "full")) :=
  ⟨trivial, rfl, rfl, rfl⟩

/-! ## C33 -/

/-- The call `e` of a datasource is refused with the error `x` by the geometry processor in the state `s`, or is an empty point. -/
def DatasourceRefuses {σ : Type} (p : Prog.Proc σ) (s : σ) (e : Ev) (x : Err) : Prop :=
  (∃ i, e = .emptyPoint i ∧ x = .geometry "The input was an empty Point, but the output doesn't support empty Points") ∨
  ((FEv.geom e).plain = true ∧ p.step s e = .error x)

private theorem dsGeom_refuses {σ : Type} (p : Prog.Proc σ) (s : σ) (e : FEv) (x : Err)
    (h : (dsGeom p).step s e = .error x) : ∃ g, e = .geom g ∧ DatasourceRefuses p s g x := by
  rw [dsGeom_step] at h
  cases e with
  | geom g =>
    refine ⟨g, rfl, ?_⟩
    simp only [] at h
    cases hf : (FEv.geom g).plain with
    | true => rw [hf, if_pos rfl] at h; exact Or.inr ⟨hf, h⟩
    | false =>
      rw [hf, if_neg (by simp)] at h
      cases g with
      | emptyPoint i => exact Or.inl ⟨i, rfl, by simpa [defaultStep, eq_comm] using h⟩
      | _ => simp [defaultStep] at h
  | _ => simp at h

private theorem dsGeom_no_empty {σ : Type} (p : Prog.Proc σ) (evs : List FEv) (s s' : σ)
    (h : feed (dsGeom p).step s evs = .ok s') (i : Nat) : FEv.geom (.emptyPoint i) ∉ evs := by
  induction evs generalizing s with
  | nil => simp
  | cons c cs ih =>
    simp only [feed_cons] at h
    cases hs : (dsGeom p).step s c with
    | error x => rw [hs] at h; cases h
    | ok s1 =>
      rw [hs] at h
      simp only [List.mem_cons, not_or]
      refine ⟨?_, ih s1 h⟩
      rintro rfl
      simp [dsGeom, dsGeomForwards, defaultStep] at hs

/-- A datasource used as a source of geometry, in full, for any datasource that reports the errors it gets and any geometry processor.
The datasource is asked as by a two-dimensional processor that answers `true` to every property.  Either all its calls are taken: there
are no empty points, and the processor accepts the geometry calls, SRIDs and begin and end of collections excepted, which it does not
receive.  Or there is a first geometry call refused — an empty point, or a call the processor refuses: the processor has accepted the
geometry calls before it, and the run ends there with that error. -/
theorem C33_datasource_run {σ : Type} (p : Prog.Proc σ) (src : FProg Unit) (hsrc : src.NoOk) (bs : List Byte) (s : σ)
    (calls : List FEv) (r : Except Err (Unit × List Byte)) (hrun : FProg.run { ans := fun _ => true } src bs = (calls, r)) :
    (∃ s', (∀ i, FEv.geom (.emptyPoint i) ∉ calls) ∧
        feed p.step s ((geomEvs calls).filter fun e => (FEv.geom e).plain) = .ok s' ∧
        datasourceProcessGeom src p s bs = (s', calls, r)) ∨
    (∃ before g after s' x, calls = before ++ .geom g :: after ∧ (∀ i, FEv.geom (.emptyPoint i) ∉ before) ∧
        feed p.step s ((geomEvs before).filter fun e => (FEv.geom e).plain) = .ok s' ∧ DatasourceRefuses p s' g x ∧
        (datasourceProcessGeom src p s bs).2 = (before ++ [.geom g], .error x)) := by
  have am : FProg.Agrees (dsGeom p) { ans := fun _ => true } (fun _ => True) :=
    ⟨fun _ _ => rfl, fun _ _ => rfl, fun _ _ _ => rfl, fun _ _ _ _ _ => trivial⟩
  rcases accepted_or_refused (dsGeom p).step s calls with ⟨s', h⟩ | ⟨before, e, after, s', x, h1, h2, h3⟩
  · refine Or.inl ⟨s', dsGeom_no_empty p calls _ _ h, C33_forwards_partial p calls s s' h, ?_⟩
    rw [datasourceProcessGeom, FProg.interp_of_feed_ok am src s s' trivial bs (by rw [hrun]; exact h), hrun]
  · obtain ⟨g, rfl, hg⟩ := dsGeom_refuses p s' e x h3
    exact Or.inr ⟨before, g, after, s', x, h1, dsGeom_no_empty p before _ _ h2, C33_forwards_partial p before s s' h2, hg,
      interp_refused am src hsrc s s' bs (by rw [hrun]; exact h1) h2 h3⟩

example :
    (datasourceProcessGeom fourCalls (geomRecorder false) [] []).2 =
      ([.ftBegin 0, .geom (.gbegin .collection true 1 0), .geomBegin, .geom (.emptyPoint 0)],
        .error (.geometry "The input was an empty Point, but the output doesn't support empty Points")) := rfl

end Geozero
