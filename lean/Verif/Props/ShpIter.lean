import Verif.Lemmas.Input
import Verif.Lemmas.ShpFile
import Verif.Props.Shp

/-
C72: iterating over a shapefile comes to an end.
-/

namespace Geozero

open FProg Spec

namespace FProg

variable {α β σ : Type}

/-- Two inputs, the bytes of the first being the beginning of those of the second: the run on the first one stops at its end, or both do
the same and leave the same, apart from what the second one has in addition. -/
theorem interpOn_short (P : FProc σ) (p : FProg α) (s : σ) (i j : Input) (more : List Byte) (h : j.bytes = i.bytes ++ more) :
    ((interpOn P p s i).2.2.1 = .error .io ∧ (interpOn P p s i).2.2.2.bytes = []) ∨
    ((interpOn P p s i).1 = (interpOn P p s j).1 ∧ (interpOn P p s i).2.1 = (interpOn P p s j).2.1 ∧
      (interpOn P p s i).2.2.1 = (interpOn P p s j).2.2.1 ∧
      (interpOn P p s j).2.2.2.bytes = (interpOn P p s i).2.2.2.bytes ++ more) := by
  induction p generalizing s i j with
  | ret a => exact .inr ⟨rfl, rfl, rfl, h⟩
  | fail e => exact .inr ⟨rfl, rfl, rfl, h⟩
  | read k ih =>
    cases hb : i.bytes with
    | nil =>
      obtain ⟨i', h1, h2, h3⟩ := Input.readExact_error (n := 1) (i := i) (by simp [hb])
      left
      rw [interpOn, h1]
      exact ⟨rfl, h2⟩
    | cons b bs =>
      obtain ⟨i', h1, h2, h3⟩ := Input.readExact_ok (n := 1) (i := i) (by simp [hb])
      obtain ⟨j', h4, h5, h6⟩ := Input.readExact_ok (n := 1) (i := j) (by simp [h, hb])
      rw [h, hb, List.cons_append] at h4 h5
      rw [hb] at h1 h2
      simp only [interpOn, h1, h4, List.take_succ_cons, List.headD_cons]
      exact ih b s i' j' (by rw [h2, h5]; rfl)
  | emit e k ih =>
    simp only [interpOn]
    cases P.step s e with
    | error x => exact .inr ⟨rfl, rfl, rfl, h⟩
    | ok s' => exact (ih s' i j h).imp id fun h => ⟨h.1, congrArg (_ :: ·) h.2.1, h.2.2⟩
  | emitOk e k ih =>
    simp only [interpOn]
    cases P.step s e with
    | error x =>
      dsimp only
      split
      · exact .inr ⟨rfl, rfl, rfl, h⟩
      · exact (ih _ i j h).imp id fun h => ⟨h.1, congrArg (_ :: ·) h.2.1, h.2.2⟩
    | ok s' => exact (ih s' i j h).imp id fun h => ⟨h.1, congrArg (_ :: ·) h.2.1, h.2.2⟩
  | prop n name v k ih =>
    simp only [interpOn]
    cases P.step s (.prop n name v) with
    | error x => exact .inr ⟨rfl, rfl, rfl, h⟩
    | ok s' => exact (ih _ s' i j h).imp id fun h => ⟨h.1, congrArg (_ :: ·) h.2.1, h.2.2⟩
  | ask k ih => exact ih _ _ s i j h

/-- a reader never gives bytes back -/
theorem interpOn_left (P : FProc σ) (p : FProg α) (s : σ) (i : Input) :
    (interpOn P p s i).2.2.2.bytes.length ≤ i.bytes.length := by
  induction p generalizing s i with
  | ret a => exact Nat.le_refl _
  | fail e => exact Nat.le_refl _
  | read k ih =>
    cases hb : i.bytes with
    | nil =>
      obtain ⟨i', h1, h2, h3⟩ := Input.readExact_error (n := 1) (i := i) (by simp [hb])
      rw [interpOn, h1]
      simp [h2]
    | cons b bs =>
      obtain ⟨i', h1, h2, h3⟩ := Input.readExact_ok (n := 1) (i := i) (by simp [hb])
      rw [interpOn, h1]
      refine Nat.le_trans (ih _ s i') ?_
      simp [h2, hb]
  | emit e k ih =>
    simp only [interpOn]
    cases P.step s e with
    | error x => exact Nat.le_refl _
    | ok s' => exact ih s' i
  | emitOk e k ih =>
    simp only [interpOn]
    cases P.step s e with
    | error x =>
      dsimp only
      split
      · exact Nat.le_refl _
      · exact ih _ i
    | ok s' => exact ih s' i
  | prop n name v k ih =>
    simp only [interpOn]
    cases P.step s (.prop n name v) with
    | error x => exact Nat.le_refl _
    | ok s' => exact ih _ s' i
  | ask k ih => exact ih _ _ s i

/-- every way to a result reads -/
def Needs {α : Type} : FProg α → Prop
  | ret _ => False
  | fail _ => True
  | read _ => True
  | emit _ k => Needs k
  | emitOk _ k => Needs k
  | prop _ _ _ k => ∀ b, Needs (k b)
  | ask k => ∀ b d, Needs (k b d)

theorem Needs.left {p : FProg α} {f : α → FProg β} (h : Needs p) : Needs (FProg.bind p f) := by
  induction p with
  | ret a => cases h
  | fail e => trivial
  | read k ih => trivial
  | emit e k ih => exact ih h
  | emitOk e k ih => exact ih h
  | prop i n v k ih => exact fun b => ih b (h b)
  | ask k ih => exact fun b d => ih b d (h b d)

theorem Needs.right {p : FProg α} {f : α → FProg β} (h : ∀ a, Needs (f a)) : Needs (FProg.bind p f) := by
  induction p with
  | ret a => exact h a
  | fail e => trivial
  | read k ih => trivial
  | emit e k ih => exact ih
  | emitOk e k ih => exact ih
  | prop i n v k ih => exact fun b => ih b
  | ask k ih => exact fun b d => ih b d

theorem Needs.sound {p : FProg α} (h : Needs p) (P : FProc σ) (s : σ) (i : Input) (hb : i.bytes = []) :
    ∃ e, (interpOn P p s i).2.2.1 = .error e := by
  induction p generalizing s with
  | ret a => cases h
  | fail e => exact ⟨e, rfl⟩
  | read k ih =>
    obtain ⟨i', h1, h2, h3⟩ := Input.readExact_error (n := 1) (i := i) (by simp [hb])
    rw [interpOn, h1]
    exact ⟨.io, rfl⟩
  | emit e k ih =>
    simp only [interpOn]
    cases P.step s e with
    | error x => exact ⟨x, rfl⟩
    | ok s' => exact ih h s'
  | emitOk e k ih =>
    simp only [interpOn]
    cases P.step s e with
    | error x =>
      dsimp only
      split
      · exact ⟨_, rfl⟩
      · exact ih h _
    | ok s' => exact ih h s'
  | prop n name v k ih =>
    simp only [interpOn]
    cases P.step s (.prop n name v) with
    | error x => exact ⟨x, rfl⟩
    | ok s' => exact ih _ (h _) s'
  | ask k ih => exact ih _ _ (h _ _) s

/-- a run on an input from a run on its bytes -/
theorem interpOn_of_interp {P : FProc σ} {p : FProg α} {s s' : σ} {i : Input} {es : List FEv} {a : α} {rest : List Byte}
    (h : interp P p s i.bytes = (s', es, .ok (a, rest))) : ∃ i', interpOn P p s i = (s', es, .ok a, i') ∧ i'.bytes = rest := by
  have h1 := interpOn_seen P p s i
  rw [h] at h1
  rcases hr : interpOn P p s i with ⟨s2, es2, r, i'⟩
  rw [hr] at h1
  simp only [seen, Prod.mk.injEq] at h1
  obtain ⟨rfl, rfl, h1⟩ := h1
  cases r with
  | error e => cases h1
  | ok b =>
    cases h1
    exact ⟨i', rfl, rfl⟩

end FProg

namespace ShapeIter

variable {σ : Type}

/-- before the end of the file, `next` first reads a byte -/
theorem shapeNext_reads (ar : ShpArith) (len pos : Nat) (h : ¬len ≤ pos) : ∃ k, shapeNext ar len pos = .read k := by
  unfold shapeNext
  rw [if_neg h]
  exact ⟨_, rfl⟩

theorem nth_succ (ar : ShpArith) (P : FProc σ) (len n : Nat) (it : ShapeIter σ) :
    it.nth ar P len (n + 1) = (it.next ar P len).2.nth ar P len n := rfl

theorem next_end (ar : ShpArith) (P : FProc σ) (len : Nat) (it : ShapeIter σ) (h : len ≤ it.pos) :
    it.next ar P len = (none, it) := by
  simp [next, shapeNext, if_pos h, interpOn]

theorem nth_end (ar : ShpArith) (P : FProc σ) (len : Nat) (it : ShapeIter σ) (h : len ≤ it.pos) (n : Nat) :
    it.nth ar P len n = none := by
  induction n with
  | zero => simp [nth, after, next_end ar P len it h]
  | succ n ih => rw [nth_succ, next_end ar P len it h]; exact ih

/-- a source without bytes before the end of the file: an error, and nothing changes -/
theorem next_stuck (ar : ShpArith) (P : FProc σ) (len : Nat) (it : ShapeIter σ) (h : ¬len ≤ it.pos) (hb : it.source.bytes = []) :
    ∃ it', it.next ar P len = (some (.error .io), it') ∧ it'.pos = it.pos ∧ it'.source.bytes = [] := by
  obtain ⟨k, hk⟩ := shapeNext_reads ar len it.pos h
  obtain ⟨i', h1, h2, h3⟩ := Input.readExact_error (n := 1) (i := it.source) (by simp [hb])
  refine ⟨⟨it.proc, i', it.pos⟩, ?_, rfl, h2⟩
  simp only [next, hk, interpOn, h1]

theorem nth_stuck (ar : ShpArith) (P : FProc σ) (len : Nat) (it : ShapeIter σ) (h : ¬len ≤ it.pos) (hb : it.source.bytes = []) (n : Nat) :
    it.nth ar P len n = some (.error .io) := by
  induction n generalizing it with
  | zero =>
    obtain ⟨it', h1, -⟩ := next_stuck ar P len it h hb
    simp [nth, after, h1]
  | succ n ih =>
    obtain ⟨it', h1, h2, h3⟩ := next_stuck ar P len it h hb
    rw [nth_succ, h1]
    exact ih it' (by rwa [h2]) h3

/-- a call that does not find the end of the file uses bytes of the source, if there are any -/
theorem next_uses (ar : ShpArith) (P : FProc σ) (len : Nat) (it : ShapeIter σ) (h : ¬len ≤ it.pos) (hb : it.source.bytes ≠ []) :
    (it.next ar P len).2.source.bytes.length < it.source.bytes.length := by
  obtain ⟨k, hk⟩ := shapeNext_reads ar len it.pos h
  have hl : 1 ≤ it.source.bytes.length := List.length_pos_iff.2 hb
  obtain ⟨i', h1, h2, h3⟩ := Input.readExact_ok (n := 1) (i := it.source) hl
  have := interpOn_left P (k ((it.source.bytes.take 1).headD 0)) it.proc i'
  rw [h2, List.length_drop] at this
  have hs : (it.next ar P len).2.source = (interpOn P (k ((it.source.bytes.take 1).headD 0)) it.proc i').2.2.2 := by
    simp only [next, hk, interpOn, h1]
    rcases interpOn P (k ((it.source.bytes.take 1).headD 0)) it.proc i' with ⟨s, es, _ | _ | _, i⟩ <;> rfl
  rw [hs]
  omega

/-- the loop of a user who stops at the first error, step by step -/
theorem of_loop (ar : ShpArith) (P : FProc σ) (len : Nat) (n : Nat) (it : ShapeIter σ) (s' : σ) (es : List FEv) (rest : List Byte)
    (h : interp P (shapesLoop ar len (n + 1) it.pos) it.proc it.source.bytes = (s', es, .ok ((), rest))) :
    (len ≤ it.pos ∧ rest = it.source.bytes) ∨ ∃ it' es', ¬len ≤ it.pos ∧ it.next ar P len = (some (.ok ()), it') ∧
      interp P (shapesLoop ar len n it'.pos) it'.proc it'.source.bytes = (s', es', .ok ((), rest)) := by
  rw [shapesLoop, interp_bind_eq] at h
  rcases hn : interp P (shapeNext ar len it.pos) it.proc it.source.bytes with ⟨s1, es1, e | ⟨r, bs1⟩⟩
  · rw [hn] at h
    cases h
  · rw [hn] at h
    obtain ⟨i', h1, h2⟩ := interpOn_of_interp hn
    by_cases hl : len ≤ it.pos
    · left
      unfold shapeNext at hn
      rw [if_pos hl] at hn
      simp only [interp, Prod.mk.injEq, Except.ok.injEq] at hn
      obtain ⟨rfl, rfl, rfl, rfl⟩ := hn
      simp only [interp, Prod.mk.injEq, Except.ok.injEq, true_and] at h
      exact ⟨hl, h.2.2.symm⟩
    · right
      cases r with
      | none =>
        exfalso
        have hret : FProg.Ret (fun r => r ≠ none) (shapeNext ar len it.pos) := by
          unfold shapeNext
          rw [if_neg hl]
          exact (FProg.Ret.triv _).bind fun w _ => (FProg.Ret.triv _).bind fun p _ => by intro h; cases h
        exact hret.sound P it.proc it.source.bytes none bs1 (by rw [hn]) rfl
      | some pos =>
        simp only [Prod.mk.injEq] at h
        obtain ⟨h3, h4, h5⟩ := h
        refine ⟨⟨s1, i', pos⟩, (interp P (shapesLoop ar len n pos) s1 bs1).2.1, hl, ?_, ?_⟩
        · simp only [next, h1]
        · simp only [h2]
          rw [← h3, ← h5]

/-- a loop that ends well is an iteration that ends -/
theorem ends_of_loop (ar : ShpArith) (P : FProc σ) (len : Nat) (n : Nat) (it : ShapeIter σ) (s' : σ) (es : List FEv) (rest : List Byte)
    (h : interp P (shapesLoop ar len n it.pos) it.proc it.source.bytes = (s', es, .ok ((), rest))) :
    ∃ N, (∀ k, k < N → it.nth ar P len k = some (.ok ())) ∧ ∀ k, N ≤ k → it.nth ar P len k = none := by
  induction n generalizing it es with
  | zero => cases h
  | succ n ih =>
    rcases of_loop ar P len n it s' es rest h with ⟨hl, -⟩ | ⟨it', es', hl, hn, h⟩
    · exact ⟨0, fun k hk => absurd hk (Nat.not_lt_zero k), fun k _ => nth_end ar P len it hl k⟩
    · obtain ⟨N, h1, h2⟩ := ih it' es' h
      refine ⟨N + 1, fun k hk => ?_, fun k hk => ?_⟩
      · cases k with
        | zero => simp [nth, after, hn]
        | succ k => rw [nth_succ, hn]; exact h1 k (by omega)
      · obtain ⟨k, rfl⟩ : ∃ j, k = j + 1 := ⟨k - 1, by omega⟩
        rw [nth_succ, hn]
        exact h2 k (by omega)

/-- the same loop on a beginning of the bytes: after some shapes, errors for ever -/
theorem cut_of_loop (ar : ShpArith) (P : FProc σ) (len : Nat) (n : Nat) (it : ShapeIter σ) (j : Input) (more : List Byte)
    (hm : more ≠ []) (hj : j.bytes = it.source.bytes ++ more) (s' : σ) (es : List FEv)
    (h : interp P (shapesLoop ar len n it.pos) it.proc j.bytes = (s', es, .ok ((), []))) :
    ∃ N, (∀ k, k < N → it.nth ar P len k = some (.ok ())) ∧ ∀ k, N ≤ k → it.nth ar P len k = some (.error .io) := by
  induction n generalizing it j es with
  | zero => cases h
  | succ n ih =>
    rcases of_loop ar P len n ⟨it.proc, j, it.pos⟩ s' es [] h with ⟨-, hr⟩ | ⟨jt, es', hl, hn, h⟩
    · have : j.bytes = [] := hr.symm
      rw [hj] at this
      exact absurd (List.append_eq_nil_iff.1 this).2 hm
    · have hs := interpOn_short P (shapeNext ar len it.pos) it.proc it.source j more hj
      rcases hi : interpOn P (shapeNext ar len it.pos) it.proc it.source with ⟨s1, es1, r1, i1⟩
      rcases hj' : interpOn P (shapeNext ar len it.pos) it.proc j with ⟨s2, es2, r2, j2⟩
      rw [hi, hj'] at hs
      simp only [next, hj'] at hn
      rcases hs with ⟨hs1, hs2⟩ | ⟨hs1, hs2, hs3, hs4⟩
      · simp only at hs1 hs2
        subst hs1
        have hn1 : it.next ar P len = (some (.error .io), ⟨s1, i1, it.pos⟩) := by simp only [next, hi]
        refine ⟨0, fun k hk => absurd hk (Nat.not_lt_zero k), fun k _ => ?_⟩
        cases k with
        | zero => simp [nth, after, hn1]
        | succ k => rw [nth_succ, hn1]; exact nth_stuck ar P len ⟨s1, i1, it.pos⟩ hl hs2 k
      · simp only at hs1 hs2 hs3 hs4
        subst hs1 hs2 hs3
        rcases r1 with e | _ | pos
        · simp at hn
        · simp at hn
        · simp only [Prod.mk.injEq, true_and] at hn
          subst hn
          have hn1 : it.next ar P len = (some (.ok ()), ⟨s1, i1, pos⟩) := by simp only [next, hi]
          obtain ⟨N, h1, h2⟩ := ih ⟨s1, i1, pos⟩ j2 hs4 es' h
          refine ⟨N + 1, fun k hk => ?_, fun k hk => ?_⟩
          · cases k with
            | zero => simp [nth, after, hn1]
            | succ k => rw [nth_succ, hn1]; exact h1 k (by omega)
          · obtain ⟨k, rfl⟩ : ∃ j, k = j + 1 := ⟨k - 1, by omega⟩
            rw [nth_succ, hn1]
            exact h2 k (by omega)

/-- from any state: the end of the file, or no bytes left before it -/
theorem settles (ar : ShpArith) (P : FProc σ) (len : Nat) (it : ShapeIter σ) :
    ∃ N, N ≤ it.source.bytes.length ∧
      ((∀ k, N ≤ k → it.nth ar P len k = none) ∨ ∀ k, N ≤ k → it.nth ar P len k = some (.error .io)) := by
  generalize hb : it.source.bytes.length = b
  induction b using Nat.strongRecOn generalizing it with
  | _ b ih =>
    by_cases hl : len ≤ it.pos
    · exact ⟨0, Nat.zero_le _, .inl fun k _ => nth_end ar P len it hl k⟩
    · by_cases he : it.source.bytes = []
      · exact ⟨0, Nat.zero_le _, .inr fun k _ => nth_stuck ar P len it hl he k⟩
      · have hu := next_uses ar P len it hl he
        obtain ⟨N, h1, h2⟩ := ih _ (hb ▸ hu) (it.next ar P len).2 rfl
        refine ⟨N + 1, by omega, h2.imp (fun h k hk => ?_) (fun h k hk => ?_)⟩ <;>
        · obtain ⟨k, rfl⟩ : ∃ j, k = j + 1 := ⟨k - 1, by omega⟩
          rw [nth_succ]
          exact h k (by omega)

/-- the calls of a file of shapes on a processor that takes every call -/
theorem nth_items (ar : ShpArith) (P : FProc σ) (env : FProg.Env) (ha : FProg.Agrees P env fun _ => True)
    (hm : env.multi = (env.dims.z || env.dims.m)) (hp : ∀ s e, ∃ s', P.step s e = .ok s') (items : List EsriItem)
    (h : ∀ i ∈ items, i.Ok) (len : Nat) (it : ShapeIter σ) (hb : it.source.bytes = items.flatMap EsriItem.bytes)
    (hl : len = it.pos + (items.flatMap EsriItem.bytes).length) (k : Nat) :
    it.nth ar P len k = if k < items.length then some (.ok ()) else none := by
  induction items generalizing it k with
  | nil => rw [List.length_nil, if_neg (Nat.not_lt_zero k)]; exact nth_end ar P len it (by simp at hl; omega) k
  | cons i items ih =>
    have h8 := item_length i
    simp only [List.flatMap_cons, List.length_append] at hl hb
    have hr : FProg.run env (shapeNext ar len it.pos) (i.bytes ++ items.flatMap EsriItem.bytes) =
        ((itemEvs ar env i).map FEv.geom, .ok (some (it.pos + i.bytes.length), items.flatMap EsriItem.bytes)) := by
      unfold shapeNext
      rw [if_neg (by omega), FProg.run_bind_ok (run_item ar env i (h i (by simp)) hm _),
        FProg.run_bind_ok (run_advance env i (h i (by simp)) it.pos _)]
      simp [itemEvs]
    have hf : ∀ (es : List FEv) (s : σ), ∃ s', feed P.step s es = .ok s' := by
      intro es
      induction es with
      | nil => exact fun s => ⟨s, rfl⟩
      | cons e es ih =>
        intro s
        obtain ⟨s1, h1⟩ := hp s e
        simp only [feed, h1]
        exact ih s1
    obtain ⟨s', hs⟩ := hf (FProg.run env (shapeNext ar len it.pos) (i.bytes ++ items.flatMap EsriItem.bytes)).1 it.proc
    have hi := FProg.interp_of_feed_ok ha (shapeNext ar len it.pos) it.proc s' trivial _ hs
    rw [hr, ← hb] at hi
    obtain ⟨i', h1, h2⟩ := FProg.interpOn_of_interp hi
    have hn : it.next ar P len = (some (.ok ()), ⟨s', i', it.pos + i.bytes.length⟩) := by simp only [next, h1]
    cases k with
    | zero => simp [nth, after, hn]
    | succ k =>
      rw [nth_succ, hn, ih (fun j hj => h j (by simp [hj])) _ h2 (by simp only; omega) k]
      simp

end ShapeIter

/-- reading the header, then the shapes -/
theorem shpGeometries_eq (ar : ShpArith) : shpGeometries ar =
    FProg.bind (FProg.lift (Prog.bind readShpHeader fun h => doubleI32 h.fileLength)) fun len =>
      shapesLoop ar (i32AsUsize len) (i32AsUsize len + 1) 100 := by
  have : ∀ {α β : Type} (p : Prog α) (f : α → Prog β), FProg.lift (Prog.bind p f) = FProg.bind (FProg.lift p) fun a => FProg.lift (f a) := by
    intro α β p f
    induction p with
    | ret a => rfl
    | fail e => rfl
    | read k ih => simp only [FProg.lift, Prog.bind, FProg.bind]; congr; funext b; exact ih b
    | emit e k ih => simp only [FProg.lift, Prog.bind, FProg.bind]; rw [ih]
    | askMulti k ih => simp only [FProg.lift, Prog.bind, FProg.bind]; congr; funext b _; exact ih b
  rw [this, FProg.bind_assoc]
  rfl

/-- the result of a run that ended well, by header and shapes -/
theorem openShapes_of_ok (ar : ShpArith) {σ : Type} (P : FProc σ) (s s' : σ) (j : Input) (es : List FEv) (rest : List Byte)
    (h : FProg.interp P (shpGeometries ar) s j.bytes = (s', es, .ok ((), rest))) :
    ∃ it len es', openShapes P s j = some (it, len) ∧ it.pos = 100 ∧
      FProg.interp P (shapesLoop ar len (len + 1) it.pos) it.proc it.source.bytes = (s', es', .ok ((), rest)) := by
  rw [shpGeometries_eq, interp_bind_eq] at h
  rcases hn : interp P (FProg.lift (Prog.bind readShpHeader fun h => doubleI32 h.fileLength)) s j.bytes with ⟨s1, es1, e | ⟨len, bs1⟩⟩
  · rw [hn] at h
    cases h
  · rw [hn] at h
    simp only [Prod.mk.injEq] at h
    obtain ⟨h3, h4, h5⟩ := h
    obtain ⟨i', h1, h2⟩ := interpOn_of_interp hn
    refine ⟨⟨s1, i', 100⟩, i32AsUsize len, (interp P (shapesLoop ar (i32AsUsize len) (i32AsUsize len + 1) 100) s1 bs1).2.1, by simp only [openShapes, h1], rfl, ?_⟩
    simp only [h2]
    rw [← h3, ← h5]

/-! ### the property -/

/-- The number of calls with another outcome than the last ones is at most the number of bytes: from then on `next` returns `None`, or it
returns an I/O error, on every call. -/
theorem C72_settles {σ : Type} (ar : ShpArith) (P : FProc σ) (len : Nat) (it : ShapeIter σ) :
    ∃ N, N ≤ it.source.bytes.length ∧
      ((∀ k, N ≤ k → it.nth ar P len k = none) ∨ ∀ k, N ≤ k → it.nth ar P len k = some (.error .io)) :=
  ShapeIter.settles ar P len it

/-- Files that can be read to the end: the iterator returns `Ok` for some time, then `None`, however the bytes arrive. -/
theorem C72_complete_ends_partial {σ : Type} (ar : ShpArith) (P : FProc σ) (s s' : σ) (i : Input) (es : List FEv) (rest : List Byte)
    (h : FProg.interp P (shpGeometries ar) s i.bytes = (s', es, .ok ((), rest))) :
    ∃ it len, openShapes P s i = some (it, len) ∧
      ∃ N, (∀ k, k < N → it.nth ar P len k = some (.ok ())) ∧ ∀ k, N ≤ k → it.nth ar P len k = none := by
  obtain ⟨it, len, es', h1, h2, h3⟩ := openShapes_of_ok ar P s s' i es rest h
  exact ⟨it, len, h1, ShapeIter.ends_of_loop ar P len _ it s' es' rest h3⟩

/-- Well-formed files, a processor that takes every call: one `Ok` for each shape, then `None`. -/
theorem C72_conformant_ends_partial {σ : Type} (ar : ShpArith) (P : FProc σ) (env : FProg.Env) (ha : FProg.Agrees P env fun _ => True)
    (hm : env.multi = (env.dims.z || env.dims.m)) (hp : ∀ s e, ∃ s', P.step s e = .ok s') (items : List EsriItem) (i : Input)
    (hf : EsriFile items i.bytes) (s : σ) :
    ∃ it len, openShapes P s i = some (it, len) ∧
      ∀ k, it.nth ar P len k = if k < items.length then some (.ok ()) else none := by
  obtain ⟨hok, ⟨words, version, typeCode, unused, box, hbs, hu, hb, hv, ht, hw⟩, hs⟩ := hf
  obtain ⟨t, ht⟩ := ShpType.fromCode_of_mem ht
  have hh := header_length words version typeCode unused box hu hb
  have hlen : i.bytes.length = 100 + (items.flatMap EsriItem.bytes).length := by rw [hbs, List.length_append, hh]
  have hd : doubleI32 words = .ret (words * 2) := by unfold doubleI32; rw [if_pos (by omega)]
  have hu2 : i32AsUsize (words * 2) = 100 + (items.flatMap EsriItem.bytes).length := by unfold i32AsUsize; omega
  have hr : Prog.run (P.multi s) (Prog.bind readShpHeader fun h => doubleI32 h.fileLength) i.bytes =
      ([], .ok (words * 2, items.flatMap EsriItem.bytes)) := by
    rw [hbs, Prog.run_bind_ok_nil (run_readShpHeader _ words version typeCode t unused box _ (by unfold isI32; omega) hv ht hu hb)]
    simp only [hd]
    rfl
  obtain ⟨i', h1, h2⟩ := FProg.interpOn_of_interp (FProg.interp_lift_silent P _ s i.bytes _ hr)
  refine ⟨⟨s, i', 100⟩, i32AsUsize (words * 2), by simp only [openShapes, h1], fun k => ?_⟩
  exact ShapeIter.nth_items ar P env ha hm hp items hok _ ⟨s, i', 100⟩ h2 hu2 k

/-- A file that can be read to its last byte, cut off anywhere after the header: the shapes before the cut, then an I/O error for every
further call.  `None` never comes. -/
theorem C72_truncated_never_ends {σ : Type} (ar : ShpArith) (P : FProc σ) (s s' : σ) (i : Input) (more : List Byte) (hm : more ≠ [])
    (es : List FEv) (h : FProg.interp P (shpGeometries ar) s (i.bytes ++ more) = (s', es, .ok ((), [])))
    (it : ShapeIter σ) (len : Nat) (ho : openShapes P s i = some (it, len)) :
    ∃ N, (∀ k, k < N → it.nth ar P len k = some (.ok ())) ∧ ∀ k, N ≤ k → it.nth ar P len k = some (.error .io) := by
  obtain ⟨jt, len', es', h1, h2, h3⟩ := openShapes_of_ok ar P s s' ⟨i.bytes ++ more, [], false⟩ es [] h
  have hs := interpOn_short P (FProg.lift (Prog.bind readShpHeader fun h => doubleI32 h.fileLength)) s i ⟨i.bytes ++ more, [], false⟩ more rfl
  unfold openShapes at ho h1
  rcases hi : interpOn P (FProg.lift (Prog.bind readShpHeader fun h => doubleI32 h.fileLength)) s i with ⟨s1, es1, r1, i1⟩
  rcases hj : interpOn P (FProg.lift (Prog.bind readShpHeader fun h => doubleI32 h.fileLength)) s ⟨i.bytes ++ more, [], false⟩ with ⟨s2, es2, r2, j2⟩
  rw [hi, hj] at hs
  rw [hi] at ho
  rw [hj] at h1
  simp only at hs
  rcases hs with ⟨hs1, -⟩ | ⟨hs1, hs2, hs3, hs4⟩
  · subst hs1
    cases ho
  · subst hs1 hs2 hs3
    cases r1 with
    | error e => cases ho
    | ok l =>
      simp only [Option.some.injEq, Prod.mk.injEq] at ho h1
      obtain ⟨rfl, rfl⟩ := ho
      obtain ⟨rfl, rfl⟩ := h1
      exact ShapeIter.cut_of_loop ar P _ _ ⟨s1, i1, 100⟩ j2 more hm hs4 s' es' h3

/-- a file cut off: the header and 200 of its 376 bytes of records -/
def exCut : Input := ⟨exFile.take 300, [.atMost 7, .interrupted, .atMost 1], false⟩

/-- a processor that takes every call -/
def takesAll : FProc Unit := { step := fun _ _ => .ok () }

theorem takesAll_agrees : FProg.Agrees takesAll {} fun _ => True where
  multi := fun _ _ => rfl
  dims := fun _ _ => rfl
  ans := fun _ _ _ => rfl
  keeps := fun _ _ _ _ _ => trivial

/-- Iterating over the shapes does not always end: the file of the example, cut off. -/
theorem C72_ends_false (ar : ShpArith) : ∃ (i : Input) (it : ShapeIter Unit) (len : Nat), openShapes takesAll () i = some (it, len) ∧
    ∀ k, it.nth ar takesAll len k ≠ none := by
  obtain ⟨it, len, ho⟩ : ∃ it len, openShapes takesAll () exCut = some (it, len) := by
    have : (openShapes takesAll () exCut).isSome = true := by decide +kernel
    obtain ⟨⟨it, len⟩, h⟩ := Option.isSome_iff_exists.1 this
    exact ⟨it, len, h⟩
  have hf : ∀ es : List FEv, feed takesAll.step () es = .ok () := by
    intro es
    induction es with
    | nil => rfl
    | cons e es ih => exact ih
  have hr := FProg.interp_of_feed_ok takesAll_agrees (shpGeometries ar) () () trivial exFile (hf _)
  rw [run_shpGeometries ar {} rfl _ _ exFile_ok] at hr
  have hc : exCut.bytes ++ exFile.drop 300 = exFile := List.take_append_drop _ _
  obtain ⟨N, h1, h2⟩ := C72_truncated_never_ends ar takesAll () () exCut (exFile.drop 300) (by decide +kernel) _ (hc ▸ hr) it len ho
  refine ⟨exCut, it, len, ho, fun k => ?_⟩
  rcases Nat.lt_or_ge k N with hk | hk
  · rw [h1 k hk]; simp
  · rw [h2 k hk]; simp

example (ar : ShpArith) : ∃ it len, openShapes takesAll () ⟨exFile, [.interrupted, .atMost 3], false⟩ = some (it, len) ∧
    ∀ k, it.nth ar takesAll len k = if k < 2 then some (.ok ()) else none :=
  C72_conformant_ends_partial ar takesAll {} takesAll_agrees rfl (fun _ _ => ⟨(), rfl⟩) _ ⟨exFile, [.interrupted, .atMost 3], false⟩ exFile_ok ()

/-! ### shapes with rows -/

namespace RecordIter

variable {σ : Type}

/-- at the end of the file or of the table: `None`, or the processor panics -/
theorem next_last (ar : ShpArith) (P : FProc σ) (len : Nat) (it : RecordIter σ) (h : len ≤ it.shapes.pos ∨ it.rows 0 = none) :
    (it.next ar P len).1 = none ∨ ∃ e, e.isPanic = true ∧ (it.next ar P len).1 = some (.error e) := by
  have h1 : recordNext ar len it.featno it.shapes.pos (it.rows 0) =
      FProg.bind (shpDatasetBegin it.featno) fun _ => FProg.bind (callOk .dsEnd) fun _ => .ret none := by
    unfold recordNext
    congr
    funext _
    split
    · rfl
    · rcases h with h | h
      · contradiction
      · rw [h]
  have h2 : ∀ (es : List FEv) (p : FProg (Option Nat)), p = es.foldr (fun e p => .emitOk e p) (.ret none) → ∀ s i,
      (interpOn P p s i).2.2.1 = .ok none ∨ ∃ e, e.isPanic = true ∧ (interpOn P p s i).2.2.1 = .error e := by
    intro es
    induction es with
    | nil => rintro p rfl s i; exact .inl rfl
    | cons e es ih =>
      rintro p rfl s i
      simp only [List.foldr_cons, interpOn]
      cases P.step s e with
      | error x =>
        dsimp only
        split
        · rename_i hx; exact .inr ⟨x, hx, rfl⟩
        · exact ih _ rfl _ i
      | ok s' => exact ih _ rfl s' i
  have h3 := h2 (if it.featno = 0 then [.dsBegin none, .dsEnd] else [.dsEnd]) (recordNext ar len it.featno it.shapes.pos (it.rows 0)) (by
    rw [h1]
    unfold shpDatasetBegin callOk
    split <;> rfl) it.shapes.proc it.shapes.source
  unfold next
  rcases hi : interpOn P (recordNext ar len it.featno it.shapes.pos (it.rows 0)) it.shapes.proc it.shapes.source with ⟨s, es, e | _ | _, i⟩
  · rw [hi] at h3
    rcases h3 with h3 | ⟨e', h3, h4⟩
    · cases h3
    · cases h4; exact .inr ⟨e, h3, rfl⟩
  · exact .inl rfl
  · rw [hi] at h3
    rcases h3 with h3 | ⟨e', h3, h4⟩
    · cases h3
    · cases h4

theorem nth_succ (ar : ShpArith) (P : FProc σ) (len n : Nat) (it : RecordIter σ) :
    it.nth ar P len (n + 1) = (it.next ar P len).2.nth ar P len n := rfl

/-- `next` with a row, before the end of the file, does not return `None` -/
theorem next_some (ar : ShpArith) (P : FProc σ) (len : Nat) (it : RecordIter σ) (hl : ¬len ≤ it.shapes.pos) (hr : it.rows 0 ≠ none) :
    (it.next ar P len).1 ≠ none := by
  have hret : FProg.Ret (fun r => r ≠ none) (recordNext ar len it.featno it.shapes.pos (it.rows 0)) := by
    unfold recordNext
    refine (FProg.Ret.triv _).bind fun _ _ => ?_
    rw [if_neg hl]
    split
    · contradiction
    · trivial
    · exact (FProg.Ret.triv _).bind fun p _ => by intro h; cases h
  have hs := hret.sound P it.shapes.proc it.shapes.source.bytes none
  rw [← interpOn_seen] at hs
  unfold next
  rcases hi : interpOn P (recordNext ar len it.featno it.shapes.pos (it.rows 0)) it.shapes.proc it.shapes.source with ⟨s, es, _ | _ | _, i⟩
  · simp
  · rw [hi] at hs
    exact absurd rfl (hs i.bytes rfl)
  · simp

/-- a row, but no bytes: an error, and the position stays -/
theorem next_stuck (ar : ShpArith) (P : FProc σ) (len : Nat) (it : RecordIter σ) (hl : ¬len ≤ it.shapes.pos) (hr : it.rows 0 ≠ none)
    (hb : it.shapes.source.bytes = []) :
    ∃ e it', it.next ar P len = (some (.error e), it') ∧ it'.shapes.pos = it.shapes.pos ∧ it'.shapes.source.bytes = [] ∧
      it'.rows = fun n => it.rows (n + 1) := by
  have hn : FProg.Needs (recordNext ar len it.featno it.shapes.pos (it.rows 0)) := by
    unfold recordNext
    refine FProg.Needs.right fun _ => ?_
    rw [if_neg hl]
    split
    · contradiction
    · trivial
    · refine FProg.Needs.left ?_
      unfold shpFeature
      exact .right fun _ => .right fun _ => .right fun _ => .right fun _ => .right fun _ => .left (.left trivial)
  obtain ⟨e, he⟩ := hn.sound P it.shapes.proc it.shapes.source hb
  have hd := interpOn_left P (recordNext ar len it.featno it.shapes.pos (it.rows 0)) it.shapes.proc it.shapes.source
  rcases hi : interpOn P (recordNext ar len it.featno it.shapes.pos (it.rows 0)) it.shapes.proc it.shapes.source with ⟨s, es, r, i⟩
  rw [hi] at he hd
  simp only at he hd
  subst he
  refine ⟨e, ⟨⟨s, i, it.shapes.pos⟩, if len ≤ it.shapes.pos then it.rows else fun n => it.rows (n + 1), it.featno⟩, by simp only [next, hi], rfl, ?_, ?_⟩
  · rw [hb] at hd
    exact List.eq_nil_of_length_eq_zero (Nat.le_zero.1 hd)
  · exact if_neg hl

theorem nth_stuck (ar : ShpArith) (P : FProc σ) (len : Nat) (it : RecordIter σ) (hl : ¬len ≤ it.shapes.pos) (hr : ∀ n, it.rows n ≠ none)
    (hb : it.shapes.source.bytes = []) (k : Nat) : ∃ e, it.nth ar P len k = some (.error e) := by
  induction k generalizing it with
  | zero =>
    obtain ⟨e, it', h1, -⟩ := next_stuck ar P len it hl (hr 0) hb
    exact ⟨e, by simp [nth, after, h1]⟩
  | succ k ih =>
    obtain ⟨e, it', h1, h2, h3, h4⟩ := next_stuck ar P len it hl (hr 0) hb
    rw [nth_succ, h1]
    exact ih it' (by rwa [h2]) (by rw [h4]; exact fun n => hr _) h3

end RecordIter

/-- An attribute table that ends: so does the iteration, with `None` or a panic of the processor, after at most one call for each row and
one more, whatever the file. -/
theorem C72_rows_end {σ : Type} (ar : ShpArith) (P : FProc σ) (len : Nat) (it : RecordIter σ) (n : Nat) (h : it.rows n = none) :
    ∃ k, k ≤ n ∧ (it.nth ar P len k = none ∨ ∃ e, e.isPanic = true ∧ it.nth ar P len k = some (.error e)) := by
  induction n generalizing it with
  | zero => exact ⟨0, Nat.le_refl 0, RecordIter.next_last ar P len it (.inr h)⟩
  | succ n ih =>
    by_cases hl : len ≤ it.shapes.pos
    · exact ⟨0, Nat.zero_le _, RecordIter.next_last ar P len it (.inl hl)⟩
    · obtain ⟨k, hk, hn⟩ := ih (it.next ar P len).2 (by
        unfold RecordIter.next
        simp only [if_neg hl]
        rcases interpOn P (recordNext ar len it.featno it.shapes.pos (it.rows 0)) it.shapes.proc it.shapes.source with ⟨s, es, _ | _ | _, i⟩ <;>
          exact h)
      exact ⟨k + 1, by omega, hn⟩

/-- An attribute table that does not end, the shapes being cut off: if the iteration over the complete file ends with no bytes left, the one
over the beginning of the file never does. -/
theorem C72_truncated_records_never_end {σ : Type} (ar : ShpArith) (P : FProc σ) (len : Nat) (it : RecordIter σ)
    (hr : ∀ n, it.rows n ≠ none) (j : Input) (more : List Byte) (hm : more ≠ []) (hj : j.bytes = it.shapes.source.bytes ++ more)
    (N : Nat)
    (h : let full : RecordIter σ := { it with shapes := ⟨it.shapes.proc, j, it.shapes.pos⟩ }
      (∀ k, k < N → full.nth ar P len k = some (.ok ())) ∧ full.nth ar P len N = none ∧
      (full.after ar P len N).shapes.source.bytes = []) (k : Nat) : it.nth ar P len k ≠ none := by
  induction N generalizing it j k with
  | zero =>
    obtain ⟨-, -, h⟩ := h
    have h : j.bytes = [] := h
    rw [hj] at h
    exact absurd (List.append_eq_nil_iff.1 h).2 hm
  | succ N ih =>
    obtain ⟨h1, h2, h3⟩ := h
    have h0 := h1 0 (Nat.succ_pos N)
    have hs := interpOn_short P (recordNext ar len it.featno it.shapes.pos (it.rows 0)) it.shapes.proc it.shapes.source j more hj
    rcases hi : interpOn P (recordNext ar len it.featno it.shapes.pos (it.rows 0)) it.shapes.proc it.shapes.source with ⟨s1, es1, r1, i1⟩
    rcases hj' : interpOn P (recordNext ar len it.featno it.shapes.pos (it.rows 0)) it.shapes.proc j with ⟨s2, es2, r2, j2⟩
    rw [hi, hj'] at hs
    simp only at hs
    by_cases hl : len ≤ it.shapes.pos
    · rcases RecordIter.next_last ar P len { it with shapes := ⟨it.shapes.proc, j, it.shapes.pos⟩ } (.inl hl) with h | ⟨e, -, h⟩
      · rw [RecordIter.nth, RecordIter.after, h] at h0; cases h0
      · rw [RecordIter.nth, RecordIter.after, h] at h0; cases h0
    · cases k with
      | zero => exact RecordIter.next_some ar P len it hl (hr 0)
      | succ k =>
        rw [RecordIter.nth_succ]
        rcases hs with ⟨hs1, hs2⟩ | ⟨hs1, hs2, hs3, hs4⟩
        · subst hs1
          obtain ⟨e, he⟩ := RecordIter.nth_stuck ar P len (it.next ar P len).2
            (by simp only [RecordIter.next, hi]; exact hl)
            (by simp only [RecordIter.next, hi, if_neg hl]; exact fun n => hr _)
            (by simp only [RecordIter.next, hi]; exact hs2) k
          rw [he]
          simp
        · subst hs1 hs2 hs3
          rcases r1 with e | _ | pos
          · simp [RecordIter.nth, RecordIter.after, RecordIter.next, hj'] at h0
          · simp [RecordIter.nth, RecordIter.after, RecordIter.next, hj'] at h0
          · have hn : it.next ar P len = (some (.ok ()), ⟨⟨s1, i1, pos⟩, fun n => it.rows (n + 1), it.featno + 1⟩) := by
              simp only [RecordIter.next, hi, if_neg hl]
            have hn2 : RecordIter.next ar P len { it with shapes := ⟨it.shapes.proc, j, it.shapes.pos⟩ } =
                (some (.ok ()), ⟨⟨s1, j2, pos⟩, fun n => it.rows (n + 1), it.featno + 1⟩) := by
              simp only [RecordIter.next, hj', if_neg hl]
            rw [hn]
            refine ih ⟨⟨s1, i1, pos⟩, fun n => it.rows (n + 1), it.featno + 1⟩ (fun n => hr _) j2 hs4 ⟨fun k hk => ?_, ?_, ?_⟩ k
            · have := h1 (k + 1) (by omega)
              rwa [RecordIter.nth_succ, hn2] at this
            · rwa [RecordIter.nth_succ, hn2] at h2
            · rwa [RecordIter.after, hn2] at h3

/-- the records of the example, cut off -/
def exRecords (bs : List Byte) : RecordIter Unit := ⟨⟨(), ⟨bs, [], false⟩, 100⟩, fun _ => some (.ok []), 0⟩

/-- `Some(Ok(()))` -/
def someOk : Option (Except Err Unit) → Bool
  | some (.ok _) => true
  | _ => false

theorem eq_of_someOk {x : Option (Except Err Unit)} (h : someOk x = true) : x = some (.ok ()) := by
  unfold someOk at h
  split at h
  · rfl
  · cases h

example (k : Nat) : (exRecords ((exFile.drop 100).take 200)).nth i32Arith takesAll 476 k ≠ none :=
  C72_truncated_records_never_end i32Arith takesAll 476 (exRecords ((exFile.drop 100).take 200)) (fun _ => by simp [exRecords])
    ⟨exFile.drop 100, [], false⟩ ((exFile.drop 100).drop 200) (by decide +kernel) (List.take_append_drop _ _).symm 2
    ⟨fun k hk => by
        have : k = 0 ∨ k = 1 := by omega
        rcases this with rfl | rfl
        · exact eq_of_someOk (by decide +kernel)
        · exact eq_of_someOk (by decide +kernel), Option.isNone_iff_eq_none.1 (by decide +kernel), by decide +kernel⟩ k

example (P : FProc Unit) (ar : ShpArith) (bs : List Byte) :
    ∃ k, k ≤ 1 ∧ (({ exRecords bs with rows := fun n => if n = 0 then some (.ok []) else none }).nth ar P 476 k = none ∨
      ∃ e, e.isPanic = true ∧ ({ exRecords bs with rows := fun n => if n = 0 then some (.ok []) else none }).nth ar P 476 k = some (.error e)) :=
  C72_rows_end ar P 476 { exRecords bs with rows := fun n => if n = 0 then some (.ok []) else none } 1 rfl

end Geozero
