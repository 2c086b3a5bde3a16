import Verif.Lemmas.Cost
import Verif.Lemmas.NestingShp

/-
The number of calls made by the readers of shapefiles.
-/

namespace Geozero
open Prog

/-- `Prog.Pays` for readers of features -/
def FProg.Pays {α : Type} (cost : Nat) (Q : α → Nat → Prop) : Nat → FProg α → Prop
  | c, .ret a => Q a c
  | _, .fail _ => True
  | c, .read k => ∀ b, FProg.Pays cost Q (c + 1) (k b)
  | c, .emit _ k => cost ≤ c ∧ FProg.Pays cost Q (c - cost) k
  | c, .emitOk _ k => cost ≤ c ∧ FProg.Pays cost Q (c - cost) k
  | c, .prop _ _ _ k => cost ≤ c ∧ ∀ b, FProg.Pays cost Q (c - cost) (k b)
  | c, .ask k => ∀ b d, FProg.Pays cost Q c (k b d)

namespace FProg

variable {α β : Type} {cost : Nat}

theorem Pays.mono {Q R : α → Nat → Prop} {p : FProg α} {c c' : Nat} (h : Pays cost Q c p) (hc : c ≤ c')
    (hQ : ∀ a d d', Q a d → d ≤ d' → R a d') : Pays cost R c' p := by
  induction p generalizing c c' with
  | ret a => exact hQ a _ _ h hc
  | fail e => trivial
  | read k ih => intro b; exact ih b (h b) (by omega)
  | emit e k ih => exact ⟨Nat.le_trans h.1 hc, ih h.2 (by omega)⟩
  | emitOk e k ih => exact ⟨Nat.le_trans h.1 hc, ih h.2 (by omega)⟩
  | prop i n v k ih => exact ⟨Nat.le_trans h.1 hc, fun b => ih b (h.2 b) (by omega)⟩
  | ask k ih => intro b d; exact ih b d (h b d) hc

theorem Pays.bind {Q : α → Nat → Prop} {R : β → Nat → Prop} {p : FProg α} {f : α → FProg β} {c : Nat} (hp : Pays cost Q c p)
    (hf : ∀ a c', Q a c' → Pays cost R c' (f a)) : Pays cost R c (FProg.bind p f) := by
  induction p generalizing c with
  | ret a => exact hf a c hp
  | fail e => trivial
  | read k ih => intro b; exact ih b (hp b)
  | emit e k ih => exact ⟨hp.1, ih hp.2⟩
  | emitOk e k ih => exact ⟨hp.1, ih hp.2⟩
  | prop i n v k ih => exact ⟨hp.1, fun b => ih b (hp.2 b)⟩
  | ask k ih => intro b d; exact ih b d (hp b d)

theorem Pays.lift {Q : α → Nat → Prop} {p : Prog α} {c : Nat} (h : Prog.Pays cost Q c p) : Pays cost Q c (FProg.lift p) := by
  induction p generalizing c with
  | ret a => exact h
  | fail e => trivial
  | read k ih => intro b; exact ih b (h b)
  | emit e k ih => exact ⟨h.1, ih h.2⟩
  | askMulti k ih => intro b _; exact ih b (h b)

/-- a call and what follows -/
theorem Pays.call {R : β → Nat → Prop} {e : FEv} {f : Unit → FProg β} {c : Nat} (hc : cost ≤ c)
    (h : Pays cost R (c - cost) (f ())) : Pays cost R c (FProg.bind (FProg.call e) f) := ⟨hc, h⟩

theorem Pays.callOk {R : β → Nat → Prop} {e : FEv} {f : Unit → FProg β} {c : Nat} (hc : cost ≤ c)
    (h : Pays cost R (c - cost) (f ())) : Pays cost R c (FProg.bind (Geozero.callOk e) f) := ⟨hc, h⟩

theorem Pays.sound {σ : Type} {Q : α → Nat → Prop} {p : FProg α} {c : Nat} (h : Pays cost Q c p) (P : FProc σ) (s : σ)
    (bs : List Byte) :
    cost * (interp P p s bs).2.1.length ≤ c + bs.length ∧
    ∀ a rest, (interp P p s bs).2.2 = .ok (a, rest) →
      ∃ c', Q a c' ∧ cost * (interp P p s bs).2.1.length + c' + rest.length = c + bs.length := by
  have key : ∀ (k : FProg α) (s' : σ) (bs : List Byte) (c : Nat), cost ≤ c →
      (cost * (interp P k s' bs).2.1.length ≤ c - cost + bs.length ∧
        ∀ a rest, (interp P k s' bs).2.2 = .ok (a, rest) →
          ∃ c', Q a c' ∧ cost * (interp P k s' bs).2.1.length + c' + rest.length = c - cost + bs.length) →
      cost * ((interp P k s' bs).2.1.length + 1) ≤ c + bs.length ∧
        ∀ a rest, (interp P k s' bs).2.2 = .ok (a, rest) →
          ∃ c', Q a c' ∧ cost * ((interp P k s' bs).2.1.length + 1) + c' + rest.length = c + bs.length := by
    intro k s' bs c hc h
    obtain ⟨h3, h4⟩ := h
    simp only [Nat.mul_add, Nat.mul_one]
    refine ⟨by omega, fun a rest h' => ?_⟩
    obtain ⟨c', h5, h6⟩ := h4 a rest h'
    exact ⟨c', h5, by omega⟩
  induction p generalizing s c bs with
  | ret a =>
    refine ⟨Nat.zero_le _, fun a' rest h' => ?_⟩
    simp only [interp, Except.ok.injEq, Prod.mk.injEq] at h'
    exact ⟨c, h'.1 ▸ h, by simp [interp, h'.2]⟩
  | fail e => exact ⟨Nat.zero_le _, fun _ _ h' => by cases h'⟩
  | read k ih =>
    cases bs with
    | nil => exact ⟨Nat.zero_le _, fun _ _ h' => by cases h'⟩
    | cons b bs =>
      obtain ⟨h1, h2⟩ := ih b (h b) s bs
      simp only [interp, List.length_cons]
      refine ⟨by omega, fun a rest h' => ?_⟩
      obtain ⟨c', h3, h4⟩ := h2 a rest h'
      exact ⟨c', h3, by omega⟩
  | emit e k ih =>
    obtain ⟨h1, h2⟩ := h
    simp only [interp]
    cases P.step s e with
    | error x => exact ⟨by simp only [List.length_cons, List.length_nil]; omega, fun _ _ h' => by cases h'⟩
    | ok s' => exact key k s' bs c h1 (ih h2 s' bs)
  | emitOk e k ih =>
    obtain ⟨h1, h2⟩ := h
    simp only [interp]
    cases P.step s e with
    | error x =>
      dsimp only
      split
      · exact ⟨by simp only [List.length_cons, List.length_nil]; omega, fun _ _ h' => by cases h'⟩
      · exact key k _ bs c h1 (ih h2 _ bs)
    | ok s' => exact key k s' bs c h1 (ih h2 s' bs)
  | prop i n v k ih =>
    obtain ⟨h1, h2⟩ := h
    simp only [interp]
    cases P.step s (.prop i n v) with
    | error x => exact ⟨by simp only [List.length_cons, List.length_nil]; omega, fun _ _ h' => by cases h'⟩
    | ok s' => exact key _ s' bs c h1 (ih _ (h2 _) s' bs)
  | ask k ih => exact ih _ _ (h _ _) s bs

end FProg

/-! ### reading -/

section
variable {cost : Nat}

theorem earns_usizeOk (n : Nat) : Earns cost 0 (usizeOk n) := Earns.ite (.ret _) (.fail _ _)
theorem earns_doubleI32 (v : Int) : Earns cost 0 (doubleI32 v) := Earns.ite (.ret _) (.fail _ _)
theorem earns_readShpType : Earns cost 4 readShpType := by
  unfold readShpType
  refine (earns_readI32 _).bind (m := 0) fun v => ?_
  split
  · exact .ret _
  · exact .fail _ _
theorem earns_readF64List (n : Nat) : Earns cost (8 * n) (readF64List n) := by
  induction n with
  | zero => exact .ret _
  | succ n ih => exact ((earns_readF64 _).bind fun _ => ih.bind fun _ => .ret _).weaken (by omega)
theorem earns_readShpHeader : Earns cost 100 readShpHeader := by
  unfold readShpHeader
  simp only [Prog.bind_eq]
  refine (earns_readI32 _).bind (m := 96) fun v => Earns.ite (.fail _ _) ?_
  refine Earns.bind (n := 20) (m := 76) (earns_readN _) fun _ => ?_
  refine Earns.bind (n := 4) (m := 72) (earns_readI32 _) fun _ => ?_
  refine Earns.bind (n := 4) (m := 68) (earns_readI32 _) fun _ => ?_
  refine Earns.bind (n := 4) (m := 64) earns_readShpType fun _ => ?_
  refine Earns.bind (n := 64) (m := 0) (earns_readF64List 8) fun _ => ?_
  exact .ret _

theorem pays_readXYs (n c : Nat) : Prog.Pays cost (fun l c' => l.length = n ∧ c + 16 * n ≤ c') c (readXYs n) := by
  induction n generalizing c with
  | zero => exact ⟨rfl, Nat.le_refl _⟩
  | succ n ih =>
    refine ((earns_readF64 _).pays c).bind fun _ c1 h1 => ((earns_readF64 _).pays c1).bind fun _ c2 h2 =>
      (ih c2).bind fun l c3 h3 => ⟨by simp [h3.1], by omega⟩

theorem pays_readParts (n c : Nat) : Prog.Pays cost (fun l c' => l.length = n ∧ c + 4 * n ≤ c') c (readParts n) := by
  induction n generalizing c with
  | zero => exact ⟨rfl, Nat.le_refl _⟩
  | succ n ih =>
    refine ((earns_readI32 _).pays c).bind fun _ c1 h1 => (ih c1).bind fun l c3 h3 => ⟨by simp [h3.1], by omega⟩

theorem earns_readDimValuesIf (b : Bool) (n : Nat) : Earns cost 0 (readDimValuesIf b n) :=
  Earns.ite (((earns_readF64List _).bind fun _ => earns_readF64List _).weaken (Nat.zero_le _)) (.ret _)
theorem earns_readF64If (b : Bool) : Earns cost 0 (readF64If b) :=
  Earns.ite (((earns_readF64 _).bind fun _ => .ret _).weaken (Nat.zero_le _)) (.ret _)

/-- what reading a shape earns at least -/
def ShpShape.earned : ShpShape → Nat
  | .null => 0
  | .patch => 0
  | .point _ _ _ _ => 16
  | .multipoint coords _ _ => 36 + 16 * coords.length
  | .multipart _ idx coords _ _ => 40 + 4 * (idx.length - 1) + 16 * coords.length

/-- what the reading of a shape leaves -/
def Leaves (c : Nat) (s : ShpShape) (c' : Nat) : Prop := c + s.earned ≤ c' ∧ ∀ a idx cs zs ms, s = .multipart a idx cs zs ms → idx ≠ []

/-- a reader of shapes that leaves what it should -/
structure LeavesShape (p : Prog ShpShape) : Prop where
  pays : ∀ cost c, Prog.Pays cost (Leaves c) c p

theorem LeavesShape.ite {c : Prop} [Decidable c] {p q : Prog ShpShape} (hp : LeavesShape p) (hq : LeavesShape q) :
    LeavesShape (if c then p else q) := by split <;> assumption
theorem LeavesShape.fail (e : Err) : LeavesShape (.fail e) := ⟨fun _ _ => trivial⟩

theorem Prog.Pays.ite {α : Type} {Q : α → Nat → Prop} {c : Prop} [Decidable c] {p q : Prog α} {n : Nat} (hp : Prog.Pays cost Q n p)
    (hq : Prog.Pays cost Q n q) : Prog.Pays cost Q n (if c then p else q) := by split <;> assumption
theorem Prog.Pays.ret {α : Type} {Q : α → Nat → Prop} {a : α} {n : Nat} (h : Q a n) : Prog.Pays cost Q n (.ret a) := h

theorem leaves_readShpPoint (n : Nat) (t : ShpType) : LeavesShape (readShpPoint n t) := by
  unfold readShpPoint
  refine LeavesShape.ite (.fail _) ⟨fun cost c => ?_⟩
  refine ((earns_readF64 _).pays c).bind fun x c1 h1 => ((earns_readF64 _).pays c1).bind fun y c2 h2 =>
      ((earns_readF64If _).pays c2).bind fun z c3 h3 => ((earns_readF64If _).pays c3).bind fun m c4 h4 =>
      Prog.Pays.ret ⟨?_, by intros; contradiction⟩
  simp only [ShpShape.earned]
  omega

theorem leaves_readShpMultipoint (n : Nat) (z : Bool) : LeavesShape (readShpMultipoint n z) := by
  refine ⟨fun cost c => ?_⟩
  refine ((earns_readF64List 4).pays c).bind fun _ c1 h1 => ((earns_readI32 _).pays c1).bind fun v c2 h2 =>
    ((earns_usizeOk _).pays c2).bind fun _ c3 h3 => Prog.Pays.ite trivial ?_
  refine (pays_readXYs _ c3).bind fun cs c4 h4 => ((earns_readDimValuesIf _ _).pays c4).bind fun zs c5 h5 =>
      ((earns_readDimValuesIf _ _).pays c5).bind fun ms c6 h6 => Prog.Pays.ret ⟨?_, by intros; contradiction⟩
  simp only [ShpShape.earned, h4.1]
  omega

theorem leaves_readMultiPart (p : Bool) (n : Nat) (z : Bool) : LeavesShape (readMultiPart p n z) := by
  refine ⟨fun cost c => ?_⟩
  refine ((earns_readF64List 4).pays c).bind fun _ c1 h1 => ((earns_readI32 _).pays c1).bind fun v c2 h2 =>
    ((earns_readI32 _).pays c2).bind fun w c3 h3 => ((earns_usizeOk _).pays c3).bind fun _ c4 h4 =>
    ((earns_usizeOk _).pays c4).bind fun _ c5 h5 => Prog.Pays.ite trivial ?_
  refine (pays_readParts _ c5).bind fun idx c6 h6 => (pays_readXYs _ c6).bind fun cs c7 h7 =>
      ((earns_readDimValuesIf _ _).pays c7).bind fun zs c8 h8 => ((earns_readDimValuesIf _ _).pays c8).bind fun ms c9 h9 =>
      Prog.Pays.ret ⟨?_, by rintro a idx' cs' zs' ms' h; cases h; simp⟩
  simp only [ShpShape.earned, h7.1, List.length_append, List.length_singleton, h6.1]
  omega

/-- the arms of the match on the type -/
theorem leaves_readShpArm (m : Nat) (t : ShpType) : LeavesShape (match t with
    | .point => readShpPoint m t
    | .pointM => readShpPoint m t
    | .pointZ => readShpPoint m t
    | .multipoint => readShpMultipoint m false
    | .multipointM => readShpMultipoint m false
    | .multipointZ => readShpMultipoint m true
    | .polyline => readMultiPart false m false
    | .polylineM => readMultiPart false m false
    | .polylineZ => readMultiPart false m true
    | .polygon => readMultiPart true m false
    | .polygonM => readMultiPart true m false
    | .polygonZ => readMultiPart true m true
    | .multipatch => readMultipatch m
    | .null => .ret .null) := by
  cases t with
  | point => exact leaves_readShpPoint _ _
  | pointM => exact leaves_readShpPoint _ _
  | pointZ => exact leaves_readShpPoint _ _
  | multipoint => exact leaves_readShpMultipoint m false
  | multipointM => exact leaves_readShpMultipoint m false
  | multipointZ => exact leaves_readShpMultipoint m true
  | polyline => exact leaves_readMultiPart false m false
  | polylineM => exact leaves_readMultiPart false m false
  | polylineZ => exact leaves_readMultiPart false m true
  | polygon => exact leaves_readMultiPart true m false
  | polygonM => exact leaves_readMultiPart true m false
  | polygonZ => exact leaves_readMultiPart true m true
  | multipatch =>
    exact LeavesShape.ite (.fail _) ⟨fun cost c => ((earns_readN m).pays c).bind fun _ c2 h2 =>
      Prog.Pays.ret ⟨by simp only [ShpShape.earned]; omega, by intros; contradiction⟩⟩
  | null => exact ⟨fun cost c => Prog.Pays.ret ⟨by simp only [ShpShape.earned]; omega, by intros; contradiction⟩⟩

theorem pays_readShpContent (n c : Nat) : Prog.Pays cost (Leaves (c + 4)) c (readShpContent n) := by
  unfold readShpContent
  refine (earns_readShpType.pays c).bind fun t c1 h1 => Prog.Pays.ite trivial ?_
  exact ((leaves_readShpArm (n - 4) t).pays cost c1).mono (Nat.le_refl _) fun a d d' h2 h3 => ⟨by have := h2.1; omega, h2.2⟩

theorem pays_readShpRecord (c : Nat) : Prog.Pays cost (fun r c' => Leaves (c + 12) r.2 c') c readShpRecord :=
  ((earns_readI32 _).pays c).bind fun _ c1 h1 => ((earns_readI32 _).pays c1).bind fun _ c2 h2 =>
    ((earns_doubleI32 _).pays c2).bind fun _ c3 h3 => (pays_readShpContent _ c3).bind fun s c4 h4 =>
      ⟨by have := h4.1; show c + 12 + s.earned ≤ c4; omega, h4.2⟩

theorem earns_advance (p : Nat) (w : Int) : Earns cost 0 (advance p w) := (earns_usizeOk _).bind fun _ => .ret _
end

/-! ### delivering -/

theorem pays_shpCoord (coords : List XY) (zs ms : List F64) (multi getZ getM : Bool) (ofs idx c : Nat) (hc : ofs < coords.length → 1 ≤ c) :
    FProg.Pays 1 (fun _ c' => ofs < coords.length ∧ c' + 1 = c) c (shpCoord coords zs ms multi getZ getM ofs idx) := by
  unfold shpCoord
  split
  · trivial
  · rename_i p hp
    have ho : ofs < coords.length := (List.getElem?_eq_some_iff.1 hp).1
    have := hc ho
    have hq : ofs < coords.length ∧ c - 1 + 1 = c := ⟨ho, by omega⟩
    split
    · split
      · exact ⟨this, hq⟩
      · trivial
      · trivial
    · exact ⟨this, hq⟩

theorem pays_shpCoords (coords : List XY) (zs ms : List F64) (multi getZ getM : Bool) (n a i c r : Nat)
    (hc : r + (coords.length - a) ≤ c) :
    FProg.Pays 1 (fun _ c' => r + (coords.length - (a + n)) ≤ c') c
      (FProg.forIdx (fun i ofs => shpCoord coords zs ms multi getZ getM ofs i) i (List.range' a n)) := by
  induction n generalizing a i c with
  | zero => exact hc
  | succ n ih =>
    rw [List.range'_succ]
    refine (pays_shpCoord coords zs ms multi getZ getM a i c (by omega)).bind fun _ c' h' => ?_
    have := ih (a + 1) (i + 1) c' (by omega)
    exact this.mono (Nat.le_refl _) fun _ _ _ h1 h2 => by omega

theorem pays_shpPart (coords : List XY) (zs ms : List F64) (multi getZ getM : Bool) (i : Nat) (w : Nat × Nat) (c r : Nat)
    (hc : r + 2 + (coords.length - w.1) ≤ c) :
    FProg.Pays 1 (fun _ c' => r + (coords.length - w.2) ≤ c') c (shpPart coords zs ms multi getZ getM i w) := by
  unfold shpPart
  split
  · trivial
  · refine .call (by omega) ?_
    refine (pays_shpCoords coords zs ms multi getZ getM _ _ _ _ (r + 1) (by omega)).bind fun _ c' h' => ?_
    refine ⟨by omega, ?_⟩
    show r + _ ≤ c' - 1
    rw [show w.1 + (w.2 - w.1) = w.2 by omega] at h'
    omega

theorem pays_shpParts (coords : List XY) (zs ms : List F64) (multi getZ getM : Bool) (l : List Nat) (a i c r : Nat)
    (hc : r + 2 * l.length + (coords.length - a) ≤ c) :
    FProg.Pays 1 (fun _ c' => r + (coords.length - (l.getLast?.getD a)) ≤ c') c
      (FProg.forIdx (shpPart coords zs ms multi getZ getM) i (windows2 (a :: l))) := by
  induction l generalizing a i c with
  | nil => show r + (coords.length - a) ≤ c; simpa using hc
  | cons b l ih =>
    simp only [windows2]
    refine (pays_shpPart coords zs ms multi getZ getM i (a, b) c (r + 2 * l.length) (by simp at hc ⊢; omega)).bind fun _ c' h' => ?_
    have := ih b (i + 1) c' h'
    refine this.mono (Nat.le_refl _) fun _ d d' h1 h2 => ?_
    have : (b :: l).getLast?.getD a = l.getLast?.getD b := by
      cases l with
      | nil => rfl
      | cons x l => rw [List.getLast?_cons_cons]; cases h : (x :: l).getLast? <;> simp_all
    rw [this]
    omega

theorem partWindows_eq (idx : List Nat) (a b : Nat) (h1 : a ≤ b) (h2 : b < idx.length) :
    ∃ x l, idx[a]? = some x ∧ partWindows idx (a, b) = windows2 (x :: l) ∧ l.length = b - a ∧ idx[b]? = some (l.getLast?.getD x) := by
  unfold partWindows
  cases hd : idx.drop a with
  | nil => have := congrArg List.length hd; simp at this; omega
  | cons x t =>
    have hx : idx[a]? = some x := by
      have := congrArg (·[0]?) hd
      simpa using this
    have ht : idx.length = a + 1 + t.length := by have := congrArg List.length hd; simp at this; omega
    refine ⟨x, t.take (b - a), hx, ?_, ?_, ?_⟩
    · dsimp only
      rw [show b + 1 - a = (b - a) + 1 by omega, List.take_succ_cons]
    · simp; omega
    · rw [List.getLast?_eq_getElem?]
      by_cases hb : b = a
      · subst hb; simp [hx]
      · have : idx[b]? = t[b - a - 1]? := by
          have := congrArg (·[b - a]?) hd
          simp only [List.getElem?_drop, show a + (b - a) = b by omega] at this
          rw [this, show b - a = (b - a - 1) + 1 by omega]; simp
        rw [this]
        have hl : (t.take (b - a)).length = b - a := by simp; omega
        rw [hl, List.getElem?_take_of_lt (by omega)]
        rw [List.getElem?_eq_getElem (by omega)]
        rfl

theorem pays_shpPolygon (idx : List Nat) (coords : List XY) (zs ms : List F64) (multi getZ getM : Bool) (i a b c r : Nat)
    (h1 : a ≤ b) (h2 : b < idx.length) (hc : r + 2 + 2 * (b - a) + (coords.length - idx[a]?.getD 0) ≤ c) :
    FProg.Pays 1 (fun _ c' => r + (coords.length - idx[b]?.getD 0) ≤ c') c
      (shpPolygon idx coords zs ms multi getZ getM i (a, b)) := by
  obtain ⟨x, l, hx, hw, hl, hb⟩ := partWindows_eq idx a b h1 h2
  unfold shpPolygon
  refine .call (by omega) ?_
  rw [hw]
  rw [hx] at hc
  simp only [Option.getD_some] at hc
  refine (pays_shpParts coords zs ms multi getZ getM l x 0 _ (r + 1) (by omega)).bind fun _ c' h' => ?_
  refine ⟨by omega, ?_⟩
  show _ ≤ c' - 1
  rw [hb]
  simp only [Option.getD_some]
  omega

theorem pays_shpPolygons (idx : List Nat) (coords : List XY) (zs ms : List F64) (multi getZ getM : Bool) (ps : List Nat) (p i c r : Nat)
    (hs : (p :: ps).Pairwise (· < ·)) (hb : ∀ q ∈ p :: ps, q < idx.length)
    (hc : r + 4 * (idx.length - 1 - p) + (coords.length - idx[p]?.getD 0) ≤ c) :
    FProg.Pays 1 (fun _ c' => r ≤ c') c
      (FProg.forIdx (shpPolygon idx coords zs ms multi getZ getM) i (windows2 (p :: ps))) := by
  induction ps generalizing p i c with
  | nil => show r ≤ c; omega
  | cons q ps ih =>
    have hpq : p < q := (List.pairwise_cons.1 hs).1 q (by simp)
    have hq := hb q (by simp)
    simp only [windows2]
    refine (pays_shpPolygon idx coords zs ms multi getZ getM i p q c (r + 4 * (idx.length - 1 - q)) (by omega) hq (by omega)).bind
      fun _ c' h' => ?_
    exact ih q (i + 1) c' (List.pairwise_cons.1 hs).2 (fun x hx => hb x (List.mem_cons_of_mem _ hx)) h'

theorem detectLoop_sorted (inner : List XY → Bool) (coords : List XY) (ws : List (Nat × Nat)) (k : Nat) (ps : List Nat)
    (h : detectLoop inner coords k ws = .ok ps) :
    ps.Pairwise (· < ·) ∧ ∀ p ∈ ps, k ≤ p ∧ p < k + ws.length := by
  induction ws generalizing k ps with
  | nil => cases h; simp
  | cons w ws ih =>
    obtain ⟨a, b⟩ := w
    have step : ∀ qs, detectLoop inner coords (k + 1) ws = .ok qs →
        ((k :: qs).Pairwise (· < ·) ∧ ∀ p ∈ k :: qs, k ≤ p ∧ p < k + (ws.length + 1)) ∧
        (qs.Pairwise (· < ·) ∧ ∀ p ∈ qs, k ≤ p ∧ p < k + (ws.length + 1)) := by
      intro qs hqs
      obtain ⟨h1, h2⟩ := ih (k + 1) qs hqs
      refine ⟨⟨List.pairwise_cons.2 ⟨fun p hp => by have := h2 p hp; omega, h1⟩, fun p hp => ?_⟩, h1, fun p hp => by have := h2 p hp; omega⟩
      rcases List.mem_cons.1 hp with rfl | hp
      · omega
      · have := h2 p hp; omega
    unfold detectLoop at h
    simp only [List.length_cons]
    split at h
    · cases hd : detectLoop inner coords (k + 1) ws with
      | error e => rw [hd] at h; cases h
      | ok qs => rw [hd] at h; cases h; exact (step qs hd).1
    · cases hs : sliceXY coords a b with
      | error e => rw [hs] at h; cases h
      | ok ring =>
        rw [hs] at h
        cases hd : detectLoop inner coords (k + 1) ws with
        | error e => rw [hd] at h; cases h
        | ok qs =>
          rw [hd] at h
          simp only [Except.ok.injEq] at h
          subst h
          split
          · exact (step qs hd).2
          · exact (step qs hd).1

theorem length_windows2 (l : List Nat) : (windows2 l).length = l.length - 1 := by
  induction l with
  | nil => rfl
  | cons a l ih =>
    cases l with
    | nil => rfl
    | cons b l => simp only [windows2, List.length_cons, ih]; omega

theorem pays_shpProcess (ar : ShpArith) (asPoly : Bool) (idx : List Nat) (coords : List XY) (zs ms : List F64) (c r : Nat)
    (hi : idx ≠ []) (hc : r + 2 + 4 * (idx.length - 1) + coords.length ≤ c) :
    FProg.Pays 1 (fun _ c' => r ≤ c') c (shpProcess ar asPoly idx coords zs ms) := by
  have hlen : 0 < idx.length := List.length_pos_iff.2 hi
  intro _ d
  dsimp only
  split
  · cases hd : detectPolys (ringInner ar) idx coords with
    | error e => trivial
    | ok polys =>
      unfold detectPolys at hd
      cases hl : detectLoop (ringInner ar) coords 0 (windows2 idx) with
      | error e => rw [hl] at hd; cases hd
      | ok ps =>
        rw [hl] at hd
        simp only [Except.ok.injEq] at hd
        obtain ⟨h1, h2⟩ := detectLoop_sorted _ _ _ _ _ hl
        rw [length_windows2] at h2
        have hs : polys.Pairwise (· < ·) := by
          rw [← hd]
          exact List.pairwise_append.2 ⟨h1, by simp, fun a ha b hb => by simp at hb; have := h2 a ha; omega⟩
        have hb : ∀ q ∈ polys, q < idx.length := by
          rw [← hd]
          intro q hq
          rcases List.mem_append.1 hq with hq | hq
          · have := h2 q hq; omega
          · simp at hq; omega
        refine .call (by omega) ?_
        cases polys with
        | nil => exact ⟨by omega, by show r ≤ _; omega⟩
        | cons p polys =>
          refine (pays_shpPolygons idx coords zs ms _ _ _ polys p 0 _ (r + 1) hs hb (by omega)).bind fun _ c' h' => ?_
          exact ⟨by omega, by show r ≤ _; omega⟩
  · refine .call (by omega) ?_
    obtain ⟨x, l, hx, hw, hl, hb⟩ := partWindows_eq idx 0 (idx.length - 1) (by omega) (by omega)
    rw [hw]
    refine (pays_shpParts coords zs ms _ _ _ l x 0 _ (r + 1) (by omega)).bind fun _ c' h' => ?_
    exact ⟨by omega, by show r ≤ _; omega⟩

theorem pays_shapeProcess (ar : ShpArith) (s : ShpShape) (c r : Nat) (h : Leaves r s c) :
    FProg.Pays 1 (fun _ c' => r ≤ c') c (s.process ar) := by
  obtain ⟨h1, h2⟩ := h
  cases s with
  | null => exact Nat.le_of_add_right_le h1
  | patch => exact Nat.le_of_add_right_le h1
  | point x y z m =>
    simp only [ShpShape.earned] at h1
    refine .call (by omega) fun multi d => ?_
    have : FProg.Pays 1 (fun (_ : Unit) c' => r + 1 ≤ c') (c - 1)
        (if multi then FProg.call (.geom (.coord x y (if d.z then z else none) (if d.m then m else none) none none 0))
          else FProg.call (.geom (.xy x y 0))) := by
      split
      · exact ⟨by omega, by show r + 1 ≤ _; omega⟩
      · exact ⟨by omega, by show r + 1 ≤ _; omega⟩
    exact this.bind fun _ c' h' => ⟨by omega, by show r ≤ _; omega⟩
  | multipoint coords zs ms =>
    simp only [ShpShape.earned] at h1
    intro multi d
    refine .call (by omega) ?_
    refine (pays_shpCoords coords zs ms multi _ _ _ _ _ _ (r + 1) (by omega)).bind fun _ c' h' => ?_
    exact ⟨by omega, by show r ≤ _; omega⟩
  | multipart p idx coords zs ms =>
    simp only [ShpShape.earned] at h1
    exact pays_shpProcess ar p idx coords zs ms c r (h2 _ _ _ _ _ rfl) (by omega)

theorem pays_readShape (ar : ShpArith) (c : Nat) : FProg.Pays 1 (fun _ c' => c + 12 ≤ c') c (readShape ar) :=
  (FProg.Pays.lift (pays_readShpRecord c)).bind fun r _ h => (pays_shapeProcess ar r.2 _ _ h).bind fun _ _ h => h

theorem pays_shapesLoop (ar : ShpArith) (len n pos c : Nat) : FProg.Pays 1 (fun _ c' => c ≤ c') c (shapesLoop ar len n pos) := by
  induction n generalizing pos c with
  | zero => trivial
  | succ n ih =>
    have hn : FProg.Pays 1 (fun _ c' => c ≤ c') c (shapeNext ar len pos) := by
      unfold shapeNext
      split
      · exact Nat.le_refl _
      · exact (pays_readShape ar c).bind fun w c1 h1 => (FProg.Pays.lift ((earns_advance _ _).pays c1)).bind fun p c2 h2 => by
          show c ≤ c2; omega
    refine hn.bind fun o c' h' => ?_
    cases o with
    | none => exact h'
    | some p => exact (ih p c').mono (Nat.le_refl _) fun _ _ _ h1 h2 => by omega

theorem pays_shpGeometries (ar : ShpArith) (c : Nat) : FProg.Pays 1 (fun _ c' => c + 100 ≤ c') c (shpGeometries ar) :=
  (FProg.Pays.lift (earns_readShpHeader.pays c)).bind fun _ c1 h1 => (FProg.Pays.lift ((earns_doubleI32 _).pays c1)).bind fun _ c2 h2 =>
    (pays_shapesLoop ar _ _ _ c2).mono (Nat.le_refl _) fun _ _ _ h3 h4 => by omega

/-! ### features -/

/-- the number of fields in the rows of an attribute table -/
def fieldCount : List (Except Err ShpRow) → Nat
  | [] => 0
  | .ok r :: rows => r.length + fieldCount rows
  | .error _ :: rows => fieldCount rows

theorem pays_shapeRecordLoop (i : Nat) (row : List (Text × FieldValue)) (c r : Nat) (hc : r + row.length ≤ c) :
    FProg.Pays 1 (fun _ c' => r ≤ c') c (shapeRecordLoop i row) := by
  induction row generalizing i c with
  | nil => show r ≤ c; simpa using hc
  | cons p row ih =>
    obtain ⟨name, value⟩ := p
    simp only [List.length_cons] at hc
    unfold shapeRecordLoop
    split
    · exact ih i c (by omega)
    · refine ⟨by omega, fun b => ?_⟩
      cases b with
      | true => show r ≤ c - 1; omega
      | false => exact ih (i + 1) (c - 1) (by omega)

theorem pays_shpFeature (ar : ShpArith) (f p : Nat) (row : ShpRow) (c r : Nat) (hc : r + 4 + row.length ≤ c) :
    FProg.Pays 1 (fun _ c' => r + 10 ≤ c') c (shpFeature ar f p row) := by
  unfold shpFeature
  refine .callOk (by omega) (.callOk (by omega) ?_)
  refine (pays_shapeRecordLoop 0 row _ (r + 2) (by omega)).bind fun _ c1 h1 => ?_
  refine .callOk (by omega) (.callOk (by omega) ?_)
  refine (pays_readShape ar _).bind fun w c2 h2 => (FProg.Pays.lift ((earns_advance _ _).pays c2)).bind fun p c3 h3 => ?_
  refine .callOk (by omega) (.callOk (by omega) ?_)
  show r + 10 ≤ _
  omega

theorem pays_featuresLoop (ar : ShpArith) (len n : Nat) (it : ShpIter) (c : Nat) (hc : 10 + fieldCount it.rows ≤ c) :
    FProg.Pays 1 (fun _ _ => True) c (featuresLoop ar len n it) := by
  induction n generalizing it c with
  | zero => trivial
  | succ n ih =>
    have hn : FProg.Pays 1 (fun r c' => match r with | none => True | some it' => 10 + fieldCount it'.rows ≤ c') c
        (featureNext ar len it) := by
      unfold featureNext
      have hb : FProg.Pays 1 (fun (_ : Unit) c' => c ≤ c' + 1) c (shpDatasetBegin it.featno) := by
        unfold shpDatasetBegin
        split
        · exact ⟨by omega, by show c ≤ c - 1 + 1; omega⟩
        · show c ≤ c + 1; omega
      refine hb.bind fun _ c1 h1 => ?_
      split
      · exact ⟨by omega, trivial⟩
      · cases hr : it.rows with
        | nil => exact ⟨by omega, trivial⟩
        | cons x rows =>
          cases x with
          | error e => trivial
          | ok row =>
            rw [hr] at hc
            simp only [fieldCount] at hc
            refine (pays_shpFeature ar _ _ row c1 (5 + fieldCount rows) (by omega)).bind fun p c2 h2 => ?_
            show 10 + fieldCount rows ≤ c2
            omega
    refine hn.bind fun o c' h' => ?_
    cases o with
    | none => trivial
    | some it' => exact ih it' c' h'

theorem pays_shpFeatures (ar : ShpArith) (rows : List (Except Err ShpRow)) :
    FProg.Pays 1 (fun _ _ => True) (fieldCount rows) (shpFeatures ar rows) :=
  (FProg.Pays.lift (earns_readShpHeader.pays _)).bind fun _ c1 h1 => (FProg.Pays.lift ((earns_doubleI32 _).pays c1)).bind fun _ c2 h2 =>
    pays_featuresLoop ar _ _ _ c2 (by show 10 + fieldCount rows ≤ c2; omega)

end Geozero
