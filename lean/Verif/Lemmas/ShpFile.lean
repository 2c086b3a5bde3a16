import Verif.Lemmas.ShpAny
import Verif.Lemmas.Features
import Verif.Props.Property

/- Helper lemmas: shapefile readers that do not panic, that only make geometry calls, and whole files. -/

namespace Geozero
open Spec

namespace FProg

/-- continue an interactive run -/
theorem interp_bind {α β σ : Type} (P : FProc σ) (p : FProg α) (f : α → FProg β) (s : σ) (bs : List Byte) :
    interp P (FProg.bind p f) s bs =
      match interp P p s bs with
      | (s', evs, .ok (a, rest)) => ((interp P (f a) s' rest).1, evs ++ (interp P (f a) s' rest).2.1, (interp P (f a) s' rest).2.2)
      | (s', evs, .error e) => (s', evs, .error e) := by
  induction p generalizing s bs with
  | ret a => rfl
  | fail e => rfl
  | read k ih =>
    cases bs with
    | nil => rfl
    | cons b bs => exact ih b s bs
  | emit e k ih =>
    simp only [FProg.bind, interp]
    cases P.step s e with
    | error x => rfl
    | ok s' => simp only [ih]; rcases interp P k s' bs with ⟨t, evs, r⟩; cases r <;> rfl
  | emitOk e k ih =>
    simp only [FProg.bind, interp]
    cases P.step s e with
    | error x =>
      by_cases hx : x.isPanic = true
      · simp only [hx, if_true]
      · simp only [if_neg hx, ih]; rcases interp P k (P.left s e) bs with ⟨t, evs, r⟩; cases r <;> rfl
    | ok s' => simp only [ih]; rcases interp P k s' bs with ⟨t, evs, r⟩; cases r <;> rfl
  | prop i n v k ih =>
    simp only [FProg.bind, interp]
    cases P.step s (.prop i n v) with
    | error x => rfl
    | ok s' => simp only [ih]; rcases interp P (k (P.abort s (.prop i n v))) s' bs with ⟨t, evs, r⟩; cases r <;> rfl
  | ask k ih => exact ih _ _ s bs

/-- a geometry reader that makes no calls -/
theorem interp_lift_silent {α σ : Type} (P : FProc σ) (p : Prog α) (s : σ) (bs : List Byte)
    (r : Except Err (α × List Byte)) (h : Prog.run (P.multi s) p bs = ([], r)) : interp P (FProg.lift p) s bs = (s, [], r) := by
  induction p generalizing bs with
  | ret a => cases h; rfl
  | fail e => cases h; rfl
  | read k ih =>
    cases bs with
    | nil => cases h; rfl
    | cons b bs => exact ih b bs h
  | emit e k ih => simp [Prog.run] at h
  | askMulti k ih => exact ih _ bs h

/-- a reader whose own failures are not panics -/
def NoPanic {α : Type} : FProg α → Prop
  | ret _ => True
  | fail e => e.isPanic = false
  | read k => ∀ b, NoPanic (k b)
  | emit _ k => NoPanic k
  | emitOk _ k => NoPanic k
  | prop _ _ _ k => ∀ b, NoPanic (k b)
  | ask k => ∀ b d, NoPanic (k b d)

theorem NoPanic.bind {α β : Type} {p : FProg α} {f : α → FProg β} (hp : NoPanic p) (hf : ∀ a, NoPanic (f a)) :
    NoPanic (FProg.bind p f) := by
  induction p with
  | ret a => exact hf a
  | fail e => exact hp
  | read k ih => exact fun b => ih b (hp b)
  | emit e k ih => exact ih hp
  | emitOk e k ih => exact ih hp
  | prop i n v k ih => exact fun b => ih b (hp b)
  | ask k ih => exact fun b d => ih b d (hp b d)

theorem NoPanic.call (e : FEv) : NoPanic (FProg.call e) := trivial

theorem NoPanic.forIdx {α : Type} {body : Nat → α → FProg Unit} (xs : List α) (h : ∀ i, ∀ x ∈ xs, NoPanic (body i x))
    (i : Nat) : NoPanic (FProg.forIdx body i xs) := by
  induction xs generalizing i with
  | nil => trivial
  | cons x xs ih => exact (h i x (by simp)).bind fun _ => ih (fun i y hy => h i y (by simp [hy])) (i + 1)

theorem NoPanic.sound {α σ : Type} {p : FProg α} (hp : NoPanic p) (P : FProc σ)
    (hP : ∀ s e x, P.step s e = .error x → x.isPanic = false) (s : σ) (bs : List Byte) (x : Err)
    (h : (interp P p s bs).2.2 = .error x) : x.isPanic = false := by
  induction p generalizing s bs with
  | ret a => cases h
  | fail e => cases h; exact hp
  | read k ih =>
    cases bs with
    | nil => cases h; rfl
    | cons b bs => exact ih b (hp b) s bs h
  | emit e k ih =>
    simp only [interp] at h
    cases hs : P.step s e with
    | error y => rw [hs] at h; cases h; exact hP _ _ _ hs
    | ok s' => rw [hs] at h; exact ih hp s' bs h
  | emitOk e k ih =>
    simp only [interp] at h
    cases hs : P.step s e with
    | error y =>
      rw [hs] at h
      by_cases hy : y.isPanic = true
      · simp only [hy, if_true] at h; cases h; first | exact hP _ _ _ hs | skip
      · simp only [if_neg hy] at h; exact ih hp (P.left s e) bs h
    | ok s' => rw [hs] at h; exact ih hp s' bs h
  | prop i n v k ih =>
    simp only [interp] at h
    cases hs : P.step s (.prop i n v) with
    | error y => rw [hs] at h; cases h; exact hP _ _ _ hs
    | ok s' => rw [hs] at h; exact ih _ (hp _) s' bs h
  | ask k ih => exact ih _ _ (hp _ _) s bs h

/-- a reader that makes geometry calls only -/
def GeomOnly {α : Type} : FProg α → Prop
  | ret _ => True
  | fail _ => True
  | read k => ∀ b, GeomOnly (k b)
  | emit e k => (∃ g, e = .geom g) ∧ GeomOnly k
  | emitOk _ _ => False
  | prop _ _ _ _ => False
  | ask k => ∀ b d, GeomOnly (k b d)

theorem GeomOnly.bind {α β : Type} {p : FProg α} {f : α → FProg β} (hp : GeomOnly p) (hf : ∀ a, GeomOnly (f a)) :
    GeomOnly (FProg.bind p f) := by
  induction p with
  | ret a => exact hf a
  | fail e => trivial
  | read k ih => exact fun b => ih b (hp b)
  | emit e k ih => exact ⟨hp.1, ih hp.2⟩
  | emitOk e k ih => exact hp.elim
  | prop i n v k ih => exact hp.elim
  | ask k ih => exact fun b d => ih b d (hp b d)

theorem GeomOnly.call (e : Ev) : GeomOnly (FProg.call (.geom e)) := ⟨⟨e, rfl⟩, trivial⟩

theorem GeomOnly.lift {α : Type} (p : Prog α) : GeomOnly (FProg.lift p) := by
  induction p with
  | ret a => trivial
  | fail e => trivial
  | read k ih => exact fun b => ih b
  | emit e k ih => exact ⟨⟨e, rfl⟩, ih⟩
  | askMulti k ih => exact fun b _ => ih b

theorem GeomOnly.forIdx {α : Type} {body : Nat → α → FProg Unit} (xs : List α) (h : ∀ i x, GeomOnly (body i x)) (i : Nat) :
    GeomOnly (FProg.forIdx body i xs) := by
  induction xs generalizing i with
  | nil => trivial
  | cons x xs ih => exact (h i x).bind fun _ => ih (i + 1)

theorem GeomOnly.obeys {α : Type} {p : FProg α} (h : GeomOnly p) (n : Nat) (g : Bool) :
    Obeys (fun _ t => t = .geom n g) (.geom n g) p := by
  induction p with
  | ret a => rfl
  | fail e => trivial
  | read k ih => exact fun b => ih b (h b)
  | emit e k ih =>
    obtain ⟨⟨e, rfl⟩, h⟩ := h
    exact ⟨_, rfl, ih h⟩
  | emitOk e k ih => exact h.elim
  | prop i n v k ih => exact h.elim
  | ask k ih => exact fun b d => ih b d (h b d)

/-- a reader that reads no bytes -/
def NoRead {α : Type} : FProg α → Prop
  | ret _ => True
  | fail _ => True
  | read _ => False
  | emit _ k => NoRead k
  | emitOk _ k => NoRead k
  | prop _ _ _ k => ∀ b, NoRead (k b)
  | ask k => ∀ b d, NoRead (k b d)

theorem NoRead.bind {α β : Type} {p : FProg α} {f : α → FProg β} (hp : NoRead p) (hf : ∀ a, NoRead (f a)) :
    NoRead (FProg.bind p f) := by
  induction p with
  | ret a => exact hf a
  | fail e => trivial
  | read k ih => exact hp.elim
  | emit e k ih => exact ih hp
  | emitOk e k ih => exact ih hp
  | prop i n v k ih => exact fun b => ih b (hp b)
  | ask k ih => exact fun b d => ih b d (hp b d)

theorem NoRead.call (e : Ev) : NoRead (FProg.call (.geom e)) := trivial

theorem NoRead.forIdx {α : Type} {body : Nat → α → FProg Unit} (xs : List α) (h : ∀ i x, NoRead (body i x)) (i : Nat) :
    NoRead (FProg.forIdx body i xs) := by
  induction xs generalizing i with
  | nil => trivial
  | cons x xs ih => exact (h i x).bind fun _ => ih (i + 1)

theorem NoRead.sound {α σ : Type} {p : FProg α} (hp : NoRead p) (P : FProc σ) (s : σ) (bs : List Byte) (a : α)
    (rest : List Byte) (h : (interp P p s bs).2.2 = .ok (a, rest)) : rest = bs := by
  induction p generalizing s with
  | ret a => cases h; rfl
  | fail e => cases h
  | read k ih => exact hp.elim
  | emit e k ih =>
    simp only [interp] at h
    cases hs : P.step s e with
    | error y => rw [hs] at h; cases h
    | ok s' => rw [hs] at h; exact ih hp s' h
  | emitOk e k ih =>
    simp only [interp] at h
    cases hs : P.step s e with
    | error y =>
      rw [hs] at h
      by_cases hy : y.isPanic = true
      · simp only [hy, if_true] at h; cases h
      · simp only [if_neg hy] at h; exact ih hp (P.left s e) h
    | ok s' => rw [hs] at h; exact ih hp s' h
  | prop i n v k ih =>
    simp only [interp] at h
    cases hs : P.step s (.prop i n v) with
    | error y => rw [hs] at h; cases h
    | ok s' => rw [hs] at h; exact ih _ (hp _) s' h
  | ask k ih => exact ih _ _ (hp _ _) s h

/-- every result satisfies `Q` -/
def Ret {α : Type} (Q : α → Prop) : FProg α → Prop
  | ret a => Q a
  | fail _ => True
  | read k => ∀ b, Ret Q (k b)
  | emit _ k => Ret Q k
  | emitOk _ k => Ret Q k
  | prop _ _ _ k => ∀ b, Ret Q (k b)
  | ask k => ∀ b d, Ret Q (k b d)

theorem Ret.bind {α β : Type} {Q : α → Prop} {R : β → Prop} {p : FProg α} {f : α → FProg β} (hp : Ret Q p)
    (hf : ∀ a, Q a → Ret R (f a)) : Ret R (FProg.bind p f) := by
  induction p with
  | ret a => exact hf a hp
  | fail e => trivial
  | read k ih => exact fun b => ih b (hp b)
  | emit e k ih => exact ih hp
  | emitOk e k ih => exact ih hp
  | prop i n v k ih => exact fun b => ih b (hp b)
  | ask k ih => exact fun b d => ih b d (hp b d)

theorem Ret.triv {α : Type} (p : FProg α) : Ret (fun _ => True) p := by
  induction p with
  | ret a => trivial
  | fail e => trivial
  | read k ih => exact ih
  | emit e k ih => exact ih
  | emitOk e k ih => exact ih
  | prop i n v k ih => exact ih
  | ask k ih => exact ih

theorem Ret.congr {α β : Type} {Q : α → Prop} {p : FProg α} {f g : α → FProg β} (hp : Ret Q p)
    (hf : ∀ a, Q a → f a = g a) : FProg.bind p f = FProg.bind p g := by
  induction p with
  | ret a => exact hf a hp
  | fail e => rfl
  | read k ih => simp only [FProg.bind]; congr; funext b; exact ih b (hp b)
  | emit e k ih => simp only [FProg.bind]; rw [ih hp]
  | emitOk e k ih => simp only [FProg.bind]; rw [ih hp]
  | prop i n v k ih => simp only [FProg.bind]; congr; funext b; exact ih b (hp b)
  | ask k ih => simp only [FProg.bind]; congr; funext b d; exact ih b d (hp b d)

theorem Ret.sound {α σ : Type} {Q : α → Prop} {p : FProg α} (hp : Ret Q p) (P : FProc σ) (s : σ) (bs : List Byte) (a : α)
    (rest : List Byte) (h : (interp P p s bs).2.2 = .ok (a, rest)) : Q a := by
  induction p generalizing s bs with
  | ret a => cases h; exact hp
  | fail e => cases h
  | read k ih =>
    cases bs with
    | nil => cases h
    | cons b bs => exact ih b (hp b) s bs h
  | emit e k ih =>
    simp only [interp] at h
    cases hs : P.step s e with
    | error y => rw [hs] at h; cases h
    | ok s' => rw [hs] at h; exact ih hp s' bs h
  | emitOk e k ih =>
    simp only [interp] at h
    cases hs : P.step s e with
    | error y =>
      rw [hs] at h
      by_cases hy : y.isPanic = true
      · simp only [hy, if_true] at h; cases h; first | exact hP _ _ _ hs | skip
      · simp only [if_neg hy] at h; exact ih hp (P.left s e) bs h
    | ok s' => rw [hs] at h; exact ih hp s' bs h
  | prop i n v k ih =>
    simp only [interp] at h
    cases hs : P.step s (.prop i n v) with
    | error y => rw [hs] at h; cases h
    | ok s' => rw [hs] at h; exact ih _ (hp _) s' bs h
  | ask k ih => exact ih _ _ (hp _ _) s bs h

end FProg

/-- a geometry reader that makes no calls -/
def Prog.NoEmit {α : Type} : Prog α → Prop
  | .ret _ => True
  | .fail _ => True
  | .read k => ∀ b, Prog.NoEmit (k b)
  | .emit _ _ => False
  | .askMulti k => ∀ b, Prog.NoEmit (k b)

namespace Prog

theorem NoEmit.bind {α β : Type} {p : Prog α} {f : α → Prog β} (hp : NoEmit p) (hf : ∀ a, NoEmit (f a)) :
    NoEmit (Prog.bind p f) := by
  induction p with
  | ret a => exact hf a
  | fail e => trivial
  | read k ih => exact fun b => ih b (hp b)
  | emit e k ih => exact hp.elim
  | askMulti k ih => exact fun b => ih b (hp b)

theorem NoEmit.readN (n : Nat) : NoEmit (Prog.readN n) := by
  induction n with
  | zero => trivial
  | succ n ih => exact fun b => ih.bind fun _ => trivial

theorem NoEmit.readI32 (e : Endian) : NoEmit (Prog.readI32 e) := (NoEmit.readN 4).bind fun _ => trivial

theorem NoEmit.readF64 (e : Endian) : NoEmit (Prog.readF64 e) := (NoEmit.readN 8).bind fun _ => trivial

theorem NoEmit.readF64List (n : Nat) : NoEmit (Geozero.readF64List n) := by
  induction n with
  | zero => trivial
  | succ n ih => exact (NoEmit.readF64 .le).bind fun _ => ih.bind fun _ => trivial

theorem NoEmit.readShpType : NoEmit Geozero.readShpType := by
  refine (NoEmit.readI32 .le).bind fun c => ?_
  cases ShpType.fromCode c <;> trivial

theorem NoEmit.ret {α : Type} (a : α) : NoEmit (.ret a) := trivial

theorem NoEmit.fail {α : Type} (e : Err) : NoEmit (.fail e : Prog α) := trivial

seal NoEmit in
theorem NoEmit.readShpHeader : NoEmit Geozero.readShpHeader := by
  unfold Geozero.readShpHeader
  simp only [Prog.bind_eq]
  refine (NoEmit.readI32 .be).bind fun c => ?_
  split
  · exact NoEmit.fail _
  · exact NoEmit.bind (NoEmit.readN 20) fun _ => NoEmit.bind (NoEmit.readI32 .be) fun _ =>
      NoEmit.bind (NoEmit.readI32 .le) fun _ => NoEmit.bind NoEmit.readShpType fun _ =>
      NoEmit.bind (NoEmit.readF64List 8) fun _ => NoEmit.ret _

theorem NoEmit.doubleI32 (v : Int) : NoEmit (Geozero.doubleI32 v) := by
  unfold Geozero.doubleI32
  split <;> trivial

end Prog

theorem FProg.Obeys.silent {α : Type} {p : Prog α} (h : p.NoEmit) (t : Phase) :
    FProg.Obeys (fun _ t' => t' = t) t (FProg.lift p) := by
  induction p with
  | ret a => rfl
  | fail e => trivial
  | read k ih => exact fun b => ih b (h b)
  | emit e k ih => exact h.elim
  | askMulti k ih => exact fun b _ => ih b (h b)

/-! ### shapes that do not panic -/

theorem windows2_mem {l : List Nat} (h : l.Pairwise (· ≤ ·)) (w : Nat × Nat) (hw : w ∈ windows2 l) :
    w.1 ≤ w.2 ∧ w.1 ∈ l ∧ w.2 ∈ l := by
  induction l with
  | nil => cases hw
  | cons a l ih =>
    cases l with
    | nil => cases hw
    | cons b l =>
      rw [List.pairwise_cons] at h
      simp only [windows2, List.mem_cons] at hw
      rcases hw with rfl | hw
      · exact ⟨h.1 b (by simp), by simp, by simp⟩
      · obtain ⟨h1, h2, h3⟩ := ih h.2 hw
        exact ⟨h1, List.mem_cons_of_mem _ h2, List.mem_cons_of_mem _ h3⟩

theorem partWindows_mem {l : List Nat} (h : l.Pairwise (· ≤ ·)) (v w : Nat × Nat) (hw : w ∈ partWindows l v) :
    w.1 ≤ w.2 ∧ w.1 ∈ l ∧ w.2 ∈ l := by
  have hs : ((l.drop v.1).take (v.2 + 1 - v.1)).Sublist l := (List.take_sublist _ _).trans (List.drop_sublist _ _)
  obtain ⟨h1, h2, h3⟩ := windows2_mem (h.sublist hs) w hw
  exact ⟨h1, hs.subset h2, hs.subset h3⟩

theorem noPanic_coord {coords : List XY} {zs ms : List F64} (hz : zs = [] ∨ zs.length = coords.length)
    (hm : ms = [] ∨ ms.length = coords.length) (multi dz dm : Bool) (ofs i : Nat) (ho : ofs < coords.length) :
    FProg.NoPanic (shpCoord coords zs ms multi (dz && !zs.isEmpty) (dm && !ms.isEmpty) ofs i) := by
  have hd : ∀ (d : Bool) (vs : List F64), (vs = [] ∨ vs.length = coords.length) →
      ∃ v, dimValue (d && !vs.isEmpty) vs ofs = .ok v := by
    intro d vs hv
    unfold dimValue
    cases hc : (d && !vs.isEmpty) with
    | false => exact ⟨none, rfl⟩
    | true =>
      rcases hv with rfl | hv
      · simp at hc
      · rw [if_pos rfl, List.getElem?_eq_getElem (by omega)]
        exact ⟨_, rfl⟩
  unfold shpCoord
  rw [List.getElem?_eq_getElem ho]
  cases multi with
  | false => trivial
  | true =>
    obtain ⟨z, hz⟩ := hd dz zs hz
    obtain ⟨m, hm⟩ := hd dm ms hm
    simp only [hz, hm, if_true]
    trivial

theorem noPanic_part {coords : List XY} {zs ms : List F64} (hz : zs = [] ∨ zs.length = coords.length)
    (hm : ms = [] ∨ ms.length = coords.length) (multi dz dm : Bool) (i : Nat) (w : Nat × Nat) (h1 : w.1 ≤ w.2)
    (h2 : w.2 ≤ coords.length) : FProg.NoPanic (shpPart coords zs ms multi (dz && !zs.isEmpty) (dm && !ms.isEmpty) i w) := by
  unfold shpPart
  rw [if_neg (by omega)]
  refine FProg.NoPanic.bind (FProg.NoPanic.call _) fun _ => ?_
  refine FProg.NoPanic.bind ?_ fun _ => FProg.NoPanic.call _
  refine FProg.NoPanic.forIdx _ (fun j ofs ho => ?_) 0
  rw [List.mem_range'_1] at ho
  exact noPanic_coord hz hm multi dz dm ofs j (by omega)

theorem detectLoop_ok (inner : List XY → Bool) (coords : List XY) (idx : Nat) (ws : List (Nat × Nat))
    (h : ∀ w ∈ ws, w.1 ≤ w.2 ∧ w.2 ≤ coords.length) : ∃ ps, detectLoop inner coords idx ws = .ok ps := by
  induction ws generalizing idx with
  | nil => exact ⟨[], rfl⟩
  | cons w ws ih =>
    obtain ⟨a, b⟩ := w
    obtain ⟨ps, hps⟩ := ih (idx + 1) (fun w hw => h w (by simp [hw]))
    unfold detectLoop
    by_cases hi : idx = 0
    · rw [if_pos hi, hps]; exact ⟨_, rfl⟩
    · rw [if_neg hi]
      have hab := h (a, b) (by simp)
      unfold sliceXY
      rw [if_pos hab]
      simp only [hps]
      exact ⟨_, rfl⟩

theorem noPanic_process (ar : ShpArith) (s : ShpShape) (h : s.Good) : FProg.NoPanic (s.process ar) := by
  cases s with
  | null => trivial
  | patch => trivial
  | point x y z m =>
    refine FProg.NoPanic.bind (FProg.NoPanic.call _) fun _ => ?_
    refine FProg.NoPanic.bind ?_ fun _ => FProg.NoPanic.call _
    intro b d
    cases b <;> trivial
  | multipoint coords zs ms =>
    intro b d
    refine FProg.NoPanic.bind (FProg.NoPanic.call _) fun _ => ?_
    refine FProg.NoPanic.bind ?_ fun _ => FProg.NoPanic.call _
    refine FProg.NoPanic.forIdx _ (fun j ofs ho => ?_) 0
    rw [List.mem_range'_1] at ho
    exact noPanic_coord h.1 h.2 b d.z d.m ofs j (by omega)
  | multipart asPoly parts coords zs ms =>
    obtain ⟨hz, hm, hp, hle⟩ := h
    intro b d
    cases asPoly with
    | false =>
      simp only [Bool.false_eq_true, if_false]
      refine FProg.NoPanic.bind (FProg.NoPanic.call _) fun _ => ?_
      refine FProg.NoPanic.bind ?_ fun _ => FProg.NoPanic.call _
      refine FProg.NoPanic.forIdx _ (fun j w hw => ?_) 0
      obtain ⟨h1, _, h3⟩ := partWindows_mem hp _ w hw
      exact noPanic_part hz hm _ d.z d.m j w h1 (hle _ h3)
    | true =>
      simp only [if_true]
      obtain ⟨ps, hps⟩ := detectLoop_ok (ringInner ar) coords 0 (windows2 parts)
        (fun w hw => ⟨(windows2_mem hp w hw).1, hle _ (windows2_mem hp w hw).2.2⟩)
      unfold detectPolys
      rw [hps]
      refine FProg.NoPanic.bind (FProg.NoPanic.call _) fun _ => ?_
      refine FProg.NoPanic.bind ?_ fun _ => FProg.NoPanic.call _
      refine FProg.NoPanic.forIdx _ (fun j v _ => ?_) 0
      refine FProg.NoPanic.bind (FProg.NoPanic.call _) fun _ => ?_
      refine FProg.NoPanic.bind ?_ fun _ => FProg.NoPanic.call _
      refine FProg.NoPanic.forIdx _ (fun j w hw => ?_) 0
      obtain ⟨h1, _, h3⟩ := partWindows_mem hp _ w hw
      exact noPanic_part hz hm _ d.z d.m j w h1 (hle _ h3)

/-! ### only geometry calls -/

theorem geomOnly_coord (coords : List XY) (zs ms : List F64) (multi gz gm : Bool) (ofs i : Nat) :
    FProg.GeomOnly (shpCoord coords zs ms multi gz gm ofs i) := by
  unfold shpCoord
  cases coords[ofs]? with
  | none => trivial
  | some c =>
    cases multi with
    | false => exact FProg.GeomOnly.call _
    | true =>
      simp only [if_true]
      cases dimValue gz zs ofs with
      | error e => trivial
      | ok z =>
        cases dimValue gm ms ofs with
        | error e => trivial
        | ok m => exact FProg.GeomOnly.call _

theorem geomOnly_part (coords : List XY) (zs ms : List F64) (multi gz gm : Bool) (i : Nat) (w : Nat × Nat) :
    FProg.GeomOnly (shpPart coords zs ms multi gz gm i w) := by
  unfold shpPart
  split
  · trivial
  · refine FProg.GeomOnly.bind (FProg.GeomOnly.call _) fun _ => ?_
    refine FProg.GeomOnly.bind ?_ fun _ => FProg.GeomOnly.call _
    exact FProg.GeomOnly.forIdx _ (fun j ofs => geomOnly_coord coords zs ms multi gz gm ofs j) 0

theorem geomOnly_process (ar : ShpArith) (s : ShpShape) : FProg.GeomOnly (s.process ar) := by
  cases s with
  | null => trivial
  | patch => trivial
  | point x y z m =>
    refine FProg.GeomOnly.bind (FProg.GeomOnly.call _) fun _ => ?_
    refine FProg.GeomOnly.bind ?_ fun _ => FProg.GeomOnly.call _
    intro b d
    cases b <;> exact FProg.GeomOnly.call _
  | multipoint coords zs ms =>
    intro b d
    refine FProg.GeomOnly.bind (FProg.GeomOnly.call _) fun _ => ?_
    refine FProg.GeomOnly.bind ?_ fun _ => FProg.GeomOnly.call _
    exact FProg.GeomOnly.forIdx _ (fun j ofs => geomOnly_coord _ _ _ _ _ _ ofs j) 0
  | multipart asPoly parts coords zs ms =>
    intro b d
    cases asPoly with
    | false =>
      simp only [Bool.false_eq_true, if_false]
      refine FProg.GeomOnly.bind (FProg.GeomOnly.call _) fun _ => ?_
      refine FProg.GeomOnly.bind ?_ fun _ => FProg.GeomOnly.call _
      exact FProg.GeomOnly.forIdx _ (geomOnly_part _ _ _ _ _ _) 0
    | true =>
      simp only [if_true]
      cases detectPolys (ringInner ar) parts coords with
      | error e => trivial
      | ok ps =>
        refine FProg.GeomOnly.bind (FProg.GeomOnly.call _) fun _ => ?_
        refine FProg.GeomOnly.bind ?_ fun _ => FProg.GeomOnly.call _
        refine FProg.GeomOnly.forIdx _ (fun j v => ?_) 0
        refine FProg.GeomOnly.bind (FProg.GeomOnly.call _) fun _ => ?_
        refine FProg.GeomOnly.bind ?_ fun _ => FProg.GeomOnly.call _
        exact FProg.GeomOnly.forIdx _ (geomOnly_part _ _ _ _ _ _) 0

theorem geomOnly_readShape (ar : ShpArith) : FProg.GeomOnly (readShape ar) :=
  (FProg.GeomOnly.lift _).bind fun _ => (geomOnly_process ar _).bind fun _ => trivial

/-! ### no reading while delivering -/

theorem noRead_coord (coords : List XY) (zs ms : List F64) (multi gz gm : Bool) (ofs i : Nat) :
    FProg.NoRead (shpCoord coords zs ms multi gz gm ofs i) := by
  unfold shpCoord
  cases coords[ofs]? with
  | none => trivial
  | some c =>
    cases multi with
    | false => exact FProg.NoRead.call _
    | true =>
      simp only [if_true]
      cases dimValue gz zs ofs with
      | error e => trivial
      | ok z =>
        cases dimValue gm ms ofs with
        | error e => trivial
        | ok m => exact FProg.NoRead.call _

theorem noRead_part (coords : List XY) (zs ms : List F64) (multi gz gm : Bool) (i : Nat) (w : Nat × Nat) :
    FProg.NoRead (shpPart coords zs ms multi gz gm i w) := by
  unfold shpPart
  split
  · trivial
  · refine FProg.NoRead.bind (FProg.NoRead.call _) fun _ => ?_
    refine FProg.NoRead.bind ?_ fun _ => FProg.NoRead.call _
    exact FProg.NoRead.forIdx _ (fun j ofs => noRead_coord coords zs ms multi gz gm ofs j) 0

theorem noRead_process (ar : ShpArith) (s : ShpShape) : FProg.NoRead (s.process ar) := by
  cases s with
  | null => trivial
  | patch => trivial
  | point x y z m =>
    refine FProg.NoRead.bind (FProg.NoRead.call _) fun _ => ?_
    refine FProg.NoRead.bind ?_ fun _ => FProg.NoRead.call _
    intro b d
    cases b <;> exact FProg.NoRead.call _
  | multipoint coords zs ms =>
    intro b d
    refine FProg.NoRead.bind (FProg.NoRead.call _) fun _ => ?_
    refine FProg.NoRead.bind ?_ fun _ => FProg.NoRead.call _
    exact FProg.NoRead.forIdx _ (fun j ofs => noRead_coord _ _ _ _ _ _ ofs j) 0
  | multipart asPoly parts coords zs ms =>
    intro b d
    cases asPoly with
    | false =>
      simp only [Bool.false_eq_true, if_false]
      refine FProg.NoRead.bind (FProg.NoRead.call _) fun _ => ?_
      refine FProg.NoRead.bind ?_ fun _ => FProg.NoRead.call _
      exact FProg.NoRead.forIdx _ (noRead_part _ _ _ _ _ _) 0
    | true =>
      simp only [if_true]
      cases detectPolys (ringInner ar) parts coords with
      | error e => trivial
      | ok ps =>
        refine FProg.NoRead.bind (FProg.NoRead.call _) fun _ => ?_
        refine FProg.NoRead.bind ?_ fun _ => FProg.NoRead.call _
        refine FProg.NoRead.forIdx _ (fun j v => ?_) 0
        refine FProg.NoRead.bind (FProg.NoRead.call _) fun _ => ?_
        refine FProg.NoRead.bind ?_ fun _ => FProg.NoRead.call _
        exact FProg.NoRead.forIdx _ (noRead_part _ _ _ _ _ _) 0

theorem noRead_eq (ar : ShpArith) {σ : Type} (P : FProc σ) (r : Int × ShpShape) (s : σ) (bs : List Byte) (words : Int)
    (rest : List Byte) (h : (FProg.interp P (FProg.bind (r.2.process ar) fun _ => .ret r.1) s bs).2.2 = .ok (words, rest)) :
    words = r.1 ∧ rest = bs := by
  have h1 : FProg.Ret (fun w => w = r.1) (FProg.bind (r.2.process ar) fun _ => .ret r.1) :=
    (FProg.Ret.triv _).bind fun _ _ => rfl
  have h2 : FProg.NoRead (FProg.bind (r.2.process ar) fun _ => .ret r.1) := (noRead_process ar r.2).bind fun _ => trivial
  exact ⟨h1.sound P s bs words rest h, h2.sound P s bs words rest h⟩

/-! ### whole files -/

theorem run_readShpHeader (multi : Bool) (words version typeCode : Int) (t : ShpType) (unused : List Byte) (box : List F64)
    (rest : List Byte) (hw : isI32 words) (hv : isI32 version) (ht : ShpType.fromCode typeCode = some t)
    (hu : unused.length = 20) (hb : box.length = 8) :
    Prog.run multi readShpHeader (EsriHeader words version typeCode unused box ++ rest) =
      ([], .ok ({ fileLength := words, bbox := box, shapeType := t, version := version }, rest)) := by
  have hc : isI32 typeCode := by
    have := ShpType.fromCode_code ht
    unfold isI32
    cases t <;> simp only [ShpType.code] at this <;> omega
  have h8 := run_readF64List multi box rest
  rw [hb] at h8
  simp only [readShpHeader, readShpType, EsriHeader, Prog.bind_eq, List.append_assoc]
  rw [Prog.run_bind_ok_nil (Prog.run_readI32 multi .be 9994 _ (by decide)), if_neg (by decide),
    Prog.run_bind_ok_nil (Prog.run_readN multi 20 unused _ hu), Prog.run_bind_ok_nil (Prog.run_readI32 multi .be words _ hw),
    Prog.run_bind_ok_nil (Prog.run_readI32 multi .le version _ hv), Prog.bind_assoc,
    Prog.run_bind_ok_nil (Prog.run_readI32 multi .le typeCode _ hc), ht]
  simp only [Prog.ret_bind]
  rw [Prog.run_bind_ok_nil h8]
  rfl

theorem header_length (words version typeCode : Int) (unused : List Byte) (box : List F64) (hu : unused.length = 20)
    (hb : box.length = 8) : (EsriHeader words version typeCode unused box).length = 100 := by
  have : ∀ vs : List F64, (f64Bytes vs).length = 8 * vs.length := by
    intro vs
    induction vs with
    | nil => rfl
    | cons v vs ih => unfold f64Bytes at ih ⊢; simp [ih]; omega
  simp [EsriHeader, hu, hb, this]

theorem item_length (i : EsriItem) : i.bytes.length = 8 + (i.shape.content i.dim i.hasM i.ext).length := by
  simp [EsriItem.bytes, EsriShape.record]; omega

theorem item_words (i : EsriItem) :
    i.shape.words i.dim i.hasM i.ext * 2 = (i.shape.content i.dim i.hasM i.ext).length := by
  have := (content_even i.dim i.hasM i.ext i.shape).1
  unfold EsriShape.words
  omega

theorem run_advance (env : FProg.Env) (i : EsriItem) (h : i.Ok) (pos : Nat) (bs : List Byte) :
    FProg.run env (FProg.lift (advance pos (i.shape.words i.dim i.hasM i.ext))) bs =
      ([], .ok (pos + i.bytes.length, bs)) := by
  have h1 := item_words i
  have h2 := item_length i
  have h3 := h.size
  have hw : i32AsUsize (i.shape.words i.dim i.hasM i.ext) * 2 = (i.shape.content i.dim i.hasM i.ext).length := by
    unfold i32AsUsize; omega
  rw [FProg.run_lift, advance, hw, usizeOk, if_pos (by omega), h2]
  simp only [Prog.ret_bind, Prog.run_ret, List.map_nil]
  rw [Nat.add_assoc]

theorem run_item (ar : ShpArith) (env : FProg.Env) (i : EsriItem) (h : i.Ok) (hm : env.multi = (env.dims.z || env.dims.m))
    (rest : List Byte) :
    FProg.run env (readShape ar) (i.bytes ++ rest) =
      ((shapeEvs env.multi ((i.shape.keep env.dims).geom (innerRing ar))).map FEv.geom,
        .ok (i.shape.words i.dim i.hasM i.ext, rest)) :=
  run_readShape ar env i.num i.dim i.hasM i.ext i.shape h.num h.valid h.size hm rest

/-- the calls for a shape -/
def itemEvs (ar : ShpArith) (env : FProg.Env) (i : EsriItem) : List Ev :=
  shapeEvs env.multi ((i.shape.keep env.dims).geom (innerRing ar))

theorem run_shapesLoop (ar : ShpArith) (env : FProg.Env) (hm : env.multi = (env.dims.z || env.dims.m)) (items : List EsriItem)
    (h : ∀ i ∈ items, i.Ok) (n pos len : Nat) (hn : items.length < n)
    (hl : len = pos + (items.flatMap EsriItem.bytes).length) (rest : List Byte) :
    FProg.run env (shapesLoop ar len n pos) (items.flatMap EsriItem.bytes ++ rest) =
      ((items.flatMap (itemEvs ar env)).map FEv.geom, .ok ((), rest)) := by
  induction items generalizing n pos with
  | nil =>
    obtain ⟨n, rfl⟩ : ∃ k, n = k + 1 := ⟨n - 1, by simp only [List.length_nil] at hn; omega⟩
    simp only [List.flatMap_nil, List.length_nil] at hl
    simp [shapesLoop, shapeNext, hl]
  | cons i items ih =>
    obtain ⟨n, rfl⟩ : ∃ k, n = k + 1 := ⟨n - 1, by simp only [List.length_cons] at hn; omega⟩
    have h8 := item_length i
    simp only [List.flatMap_cons, List.length_append, List.length_cons] at hl hn
    unfold shapesLoop shapeNext
    rw [if_neg (by omega), FProg.bind_assoc, List.flatMap_cons, List.append_assoc,
      FProg.run_bind_ok (run_item ar env i (h i (by simp)) hm _), FProg.bind_assoc,
      FProg.run_bind_ok (run_advance env i (h i (by simp)) pos _), FProg.ret_bind]
    simp only
    rw [ih (fun j hj => h j (by simp [hj])) n (pos + i.bytes.length) (by omega) (by omega)]
    simp [itemEvs]

theorem run_shpGeometries (ar : ShpArith) (env : FProg.Env) (hm : env.multi = (env.dims.z || env.dims.m))
    (items : List EsriItem) (bs : List Byte) (hf : EsriFile items bs) :
    FProg.run env (shpGeometries ar) bs = ((items.flatMap (itemEvs ar env)).map FEv.geom, .ok ((), [])) := by
  obtain ⟨hok, ⟨words, version, typeCode, unused, box, rfl, hu, hb, hv, ht, hw⟩, hs⟩ := hf
  obtain ⟨t, ht⟩ := ShpType.fromCode_of_mem ht
  have hh := header_length words version typeCode unused box hu hb
  rw [List.length_append, hh] at hw hs
  have hlen : (items.flatMap EsriItem.bytes).length ≥ 8 * items.length := by
    clear hok hw hs
    induction items with
    | nil => simp
    | cons i items ih => have := item_length i; simp only [List.flatMap_cons, List.length_append, List.length_cons]; omega
  have hd : doubleI32 words = .ret (words * 2) := by unfold doubleI32; rw [if_pos (by omega)]
  have hu2 : i32AsUsize (words * 2) = 100 + (items.flatMap EsriItem.bytes).length := by unfold i32AsUsize; omega
  unfold shpGeometries
  rw [FProg.run_bind_ok (evs := []) (by
    rw [FProg.run_lift, run_readShpHeader _ words version typeCode t unused box _ (by unfold isI32; omega) hv ht hu hb]; rfl), hd]
  simp only [FProg.lift, FProg.ret_bind, List.nil_append]
  have := run_shapesLoop ar env hm items hok (i32AsUsize (words * 2) + 1) 100 (i32AsUsize (words * 2)) (by omega) hu2 []
  rwa [List.append_nil] at this

/-- the properties a processor hears: all up to the first one it answers with `true` -/
theorem run_propsProg (env : FProg.Env) (ps : List PropRec) (bs : List Byte) :
    ∃ b, FProg.run env (propsProg ps) bs = (propEvs (heard env.ans ps), .ok (b, bs)) := by
  induction ps with
  | nil => exact ⟨false, rfl⟩
  | cons p ps ih =>
    obtain ⟨i, n, v⟩ := p
    simp only [propsProg, FProg.run, heard]
    cases env.ans (.prop i n v) with
    | true => exact ⟨true, rfl⟩
    | false =>
      obtain ⟨b, hb⟩ := ih
      exact ⟨b, by simp only [Bool.false_eq_true, if_false, hb]; rfl⟩

/-- the feature made of a row and a shape -/
def itemFeat (ar : ShpArith) (env : FProg.Env) (row : ShpRow) (i : EsriItem) : Feat :=
  { props := some (heard env.ans (recordProps 0 row)), geom := some (itemEvs ar env i) }

theorem run_shpFeature (ar : ShpArith) (env : FProg.Env) (hm : env.multi = (env.dims.z || env.dims.m)) (i : EsriItem)
    (h : i.Ok) (row : ShpRow) (n pos : Nat) (rest : List Byte) :
    FProg.run env (shpFeature ar n pos row) (i.bytes ++ rest) =
      ((itemFeat ar env row i).evs n, .ok (pos + i.bytes.length, rest)) := by
  obtain ⟨b, hb⟩ := run_propsProg env (recordProps 0 row) (i.bytes ++ rest)
  unfold shpFeature
  rw [C35_shape_record]
  simp only [callOk, FProg.bind_eq, FProg.bind, FProg.run]
  rw [FProg.run_bind_ok hb]
  simp only [FProg.run]
  rw [FProg.run_bind_ok (run_item ar env i h hm rest), FProg.run_bind_ok (run_advance env i h pos rest)]
  simp [FProg.run, Feat.evs, Feat.propsPart, Feat.geomPart, itemFeat, itemEvs]

theorem run_featuresLoop (ar : ShpArith) (env : FProg.Env) (hm : env.multi = (env.dims.z || env.dims.m))
    (rows : List ShpRow) (items : List EsriItem)
    (h : ∀ i ∈ items, i.Ok) (n k pos len : Nat) (hn : rows.length < n)
    (hl : len = pos + (items.flatMap EsriItem.bytes).length) :
    FProg.run env (featuresLoop ar len n { featno := k, pos, rows := rows.map .ok }) (items.flatMap EsriItem.bytes) =
      ((if k = 0 then [.dsBegin none] else []) ++ featEvs k (List.zipWith (itemFeat ar env) rows items) ++ [.dsEnd],
        .ok ((), (items.drop rows.length).flatMap EsriItem.bytes)) := by
  have hds : ∀ {β : Type} (f : Unit → FProg β) (bs : List Byte), FProg.run env (FProg.bind (shpDatasetBegin k) f) bs =
      ((if k = 0 then [.dsBegin none] else []) ++ (FProg.run env (f ()) bs).1, (FProg.run env (f ()) bs).2) := by
    intro β f bs
    unfold shpDatasetBegin
    by_cases hk : k = 0 <;> simp [hk, FProg.bind, FProg.run]
  induction items generalizing n k pos rows with
  | nil =>
    obtain ⟨n, rfl⟩ : ∃ k, n = k + 1 := ⟨n - 1, by omega⟩
    simp only [List.flatMap_nil, List.length_nil] at hl
    unfold featuresLoop featureNext
    rw [FProg.bind_assoc, hds]
    simp [hl, callOk, FProg.bind, FProg.run, featEvs]
  | cons i items ih =>
    obtain ⟨n, rfl⟩ : ∃ k, n = k + 1 := ⟨n - 1, by omega⟩
    have h8 := item_length i
    simp only [List.flatMap_cons, List.length_append] at hl
    unfold featuresLoop featureNext
    rw [FProg.bind_assoc, hds]
    simp only
    rw [if_neg (show ¬ len ≤ pos by omega)]
    cases rows with
    | nil => simp [callOk, FProg.bind, FProg.run, featEvs]
    | cons row rows =>
      simp only [List.map_cons, List.flatMap_cons]
      rw [FProg.bind_assoc, FProg.run_bind_ok (run_shpFeature ar env hm i (h i (by simp)) row k pos _), FProg.ret_bind]
      simp only
      rw [ih rows (fun j hj => h j (by simp [hj])) n (k + 1) (pos + i.bytes.length)
        (by simp only [List.length_cons] at hn; omega) (by omega)]
      · simp [featEvs]
      · intro β f bs
        unfold shpDatasetBegin
        simp [FProg.bind]

theorem run_shpFeatures (ar : ShpArith) (env : FProg.Env) (hm : env.multi = (env.dims.z || env.dims.m))
    (rows : List ShpRow) (items : List EsriItem) (bs : List Byte) (hf : EsriFile items bs) :
    FProg.run env (shpFeatures ar (rows.map .ok)) bs =
      (datasetEvs none (List.zipWith (itemFeat ar env) rows items),
        .ok ((), (items.drop rows.length).flatMap EsriItem.bytes)) := by
  obtain ⟨hok, ⟨words, version, typeCode, unused, box, rfl, hu, hb, hv, ht, hw⟩, hs⟩ := hf
  obtain ⟨t, ht⟩ := ShpType.fromCode_of_mem ht
  have hh := header_length words version typeCode unused box hu hb
  rw [List.length_append, hh] at hw hs
  have hd : doubleI32 words = .ret (words * 2) := by unfold doubleI32; rw [if_pos (by omega)]
  have hu2 : i32AsUsize (words * 2) = 100 + (items.flatMap EsriItem.bytes).length := by unfold i32AsUsize; omega
  unfold shpFeatures
  rw [FProg.run_bind_ok (evs := []) (by
    rw [FProg.run_lift, run_readShpHeader _ words version typeCode t unused box _ (by unfold isI32; omega) hv ht hu hb]; rfl), hd]
  simp only [FProg.lift, FProg.ret_bind, List.nil_append, List.length_map]
  rw [run_featuresLoop ar env hm rows items hok (rows.length + 1) 0 100 (i32AsUsize (words * 2)) (by omega) hu2]
  simp [datasetEvs]

end Geozero
