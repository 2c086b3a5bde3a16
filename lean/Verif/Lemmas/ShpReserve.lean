import Verif.Model.ShpReserve
import Verif.Lemmas.Prog
import Verif.Lemmas.ShpAny

/-
The instrumented shapefile readers: they read what the readers of Model/Shp.lean read, and a program logic for what they reserve.
-/

namespace Geozero

/-- a program that reads and may fail, but calls no processor -/
def Prog.Silent {α : Type} : Prog α → Prop
  | .ret _ => True
  | .fail _ => True
  | .read k => ∀ b, Prog.Silent (k b)
  | .emit _ _ => False
  | .askMulti _ => False

theorem Prog.Silent.bind {α β : Type} {p : Prog α} {f : α → Prog β} (hp : p.Silent) (hf : ∀ a, (f a).Silent) :
    (Prog.bind p f).Silent := by
  induction p with
  | ret a => exact hf a
  | fail e => trivial
  | read k ih => exact fun b => ih b (hp b)
  | emit e k ih => exact hp.elim
  | askMulti k ih => exact hp.elim

theorem Prog.Silent.ret {α : Type} (a : α) : (Prog.ret a).Silent := trivial
theorem Prog.Silent.fail {α : Type} (e : Err) : (Prog.fail e : Prog α).Silent := trivial

theorem Prog.Silent.ite {α : Type} {c : Prop} [Decidable c] {p q : Prog α} (hp : p.Silent) (hq : q.Silent) :
    (if c then p else q).Silent := by split <;> assumption

namespace MProg

theorem erase_ite {α : Type} (c : Prop) [Decidable c] (p q : MProg α) :
    erase (if c then p else q) = if c then erase p else erase q := by split <;> rfl

theorem ofProg_bind {α β : Type} (p : Prog α) (f : α → Prog β) :
    ofProg (Prog.bind p f) = MProg.bind (ofProg p) fun a => ofProg (f a) := by
  induction p with
  | ret a => rfl
  | fail e => rfl
  | read k ih => exact congrArg MProg.read (funext fun b => ih b)
  | emit e k ih => exact ih
  | askMulti k ih => exact ih false

@[simp] theorem bind_eq {α β : Type} (p : MProg α) (f : α → MProg β) : (p >>= f) = MProg.bind p f := rfl

theorem erase_ofProg {α : Type} {p : Prog α} (h : p.Silent) : erase (ofProg p) = p := by
  induction p with
  | ret a => rfl
  | fail e => rfl
  | read k ih =>
    simp only [ofProg, erase]
    exact congrArg Prog.read (funext fun b => ih b (h b))
  | emit e k ih => exact h.elim
  | askMulti k ih => exact h.elim

theorem erase_bind {α β : Type} (p : MProg α) (f : α → MProg β) :
    erase (MProg.bind p f) = Prog.bind (erase p) fun a => erase (f a) := by
  induction p with
  | ret a => rfl
  | fail e => rfl
  | read k ih => exact congrArg Prog.read (funext fun b => ih b)
  | alloc n k ih => exact ih

theorem erase_reserve (n : Nat) : erase (reserve n) = .ret () := rfl

/-- forgetting the reservations changes no outcome -/
theorem run_erase {α : Type} (p : MProg α) (multi : Bool) (bs : List Byte) :
    Prog.run multi (erase p) bs = ([], (run p bs).2) := by
  induction p generalizing bs with
  | ret a => rfl
  | fail e => rfl
  | read k ih =>
    cases bs with
    | nil => rfl
    | cons b bs => exact ih b bs
  | alloc n k ih => exact ih bs

/-- the outcome of a composition -/
theorem run_bind {α β : Type} (p : MProg α) (f : α → MProg β) (bs : List Byte) :
    run (MProg.bind p f) bs =
      match run p bs with
      | (n, .ok (a, rest)) => (n + (run (f a) rest).1, (run (f a) rest).2)
      | (n, .error e) => (n, .error e) := by
  induction p generalizing bs with
  | ret a => simp [MProg.bind, run]
  | fail e => rfl
  | read k ih =>
    cases bs with
    | nil => rfl
    | cons b bs => exact ih b bs
  | alloc n k ih =>
    simp only [MProg.bind, run, ih bs]
    cases h : run k bs with
    | mk m r =>
      cases r with
      | error e => rfl
      | ok v => simp only [Nat.add_assoc]

/-- whatever is read, `p` reserves at most `R` bytes -/
def Reserves {α : Type} (R : Nat) : MProg α → Prop := fun p => ∀ bs, (run p bs).1 ≤ R

theorem Reserves.mono {α : Type} {R R' : Nat} {p : MProg α} (h : Reserves R p) (hR : R ≤ R') : Reserves R' p :=
  fun bs => Nat.le_trans (h bs) hR

theorem Reserves.bind {α β : Type} {R R' : Nat} {p : MProg α} {f : α → MProg β} (hp : Reserves R p) (hf : ∀ a, Reserves R' (f a)) :
    Reserves (R + R') (MProg.bind p f) := by
  intro bs
  rw [run_bind]
  have h1 := hp bs
  cases h : run p bs with
  | mk n r =>
    rw [h] at h1
    simp only at h1
    cases r with
    | error e => exact Nat.le_trans h1 (Nat.le_add_right _ _)
    | ok v => exact Nat.add_le_add h1 (hf _ _)

/-- the same when what follows depends on the result of the first part -/
theorem Reserves.bindOn {α β : Type} {R R' : Nat} {p : MProg α} {f : α → MProg β} {Q : α → Prop} (hp : Reserves R p)
    (hQ : ∀ bs a rest, (run p bs).2 = .ok (a, rest) → Q a) (hf : ∀ a, Q a → Reserves R' (f a)) :
    Reserves (R + R') (MProg.bind p f) := by
  intro bs
  rw [run_bind]
  have h1 := hp bs
  cases h : run p bs with
  | mk n r =>
    rw [h] at h1
    simp only at h1
    cases r with
    | error e => exact Nat.le_trans h1 (Nat.le_add_right _ _)
    | ok v => exact Nat.add_le_add h1 (hf _ (hQ bs v.1 v.2 (by rw [h])) _)

theorem Reserves.ret {α : Type} (a : α) : Reserves 0 (.ret a) := fun _ => Nat.le_refl _
theorem Reserves.fail {α : Type} (e : Err) (R : Nat) : Reserves R (.fail e : MProg α) := fun _ => Nat.zero_le _
theorem Reserves.ite {α : Type} {c : Prop} [Decidable c] {p q : MProg α} {R : Nat} (hp : c → Reserves R p)
    (hq : ¬ c → Reserves R q) : Reserves R (if c then p else q) := by
  split
  · exact hp ‹_›
  · exact hq ‹_›
theorem Reserves.reserve (n : Nat) : Reserves n (reserve n) := fun _ => Nat.le_refl _

theorem Reserves.ofProg {α : Type} (p : Prog α) : Reserves 0 (ofProg p) := by
  intro bs
  induction p generalizing bs with
  | ret a => exact Nat.le_refl _
  | fail e => exact Nat.le_refl _
  | read k ih =>
    cases bs with
    | nil => exact Nat.le_refl _
    | cons b bs => exact ih b bs
  | emit e k ih => exact ih bs
  | askMulti k ih => exact ih false bs

end MProg

open MProg (Reserves erase ofProg reserve erase_bind erase_ofProg erase_reserve)
open Prog (Silent readI32 readN readF64)

/-! ### nothing is called while reading -/

theorem silent_readN (n : Nat) : (readN n).Silent := by
  induction n with
  | zero => trivial
  | succ n ih => exact Silent.bind (p := Prog.readByte) (fun _ => trivial) fun _ => ih.bind fun _ => trivial

theorem silent_readI32 (e : Endian) : (readI32 e).Silent := (silent_readN 4).bind fun _ => trivial
theorem silent_readF64 (e : Endian) : (readF64 e).Silent := (silent_readN 8).bind fun _ => trivial

theorem silent_readF64List (n : Nat) : (readF64List n).Silent := by
  induction n with
  | zero => trivial
  | succ n ih => exact (silent_readF64 _).bind fun _ => ih.bind fun _ => trivial

theorem silent_readXYs (n : Nat) : (readXYs n).Silent := by
  induction n with
  | zero => trivial
  | succ n ih => exact (silent_readF64 _).bind fun _ => (silent_readF64 _).bind fun _ => ih.bind fun _ => trivial

theorem silent_readParts (n : Nat) : (readParts n).Silent := by
  induction n with
  | zero => trivial
  | succ n ih => exact (silent_readI32 _).bind fun _ => ih.bind fun _ => trivial

theorem silent_readIndexEntries (n : Nat) : (readIndexEntries n).Silent := by
  induction n with
  | zero => trivial
  | succ n ih => exact (silent_readI32 _).bind fun _ => (silent_readI32 _).bind fun _ => ih.bind fun _ => trivial

theorem silent_readShpType : readShpType.Silent := by
  refine (silent_readI32 _).bind fun c => ?_
  cases ShpType.fromCode c <;> trivial

theorem silent_usizeOk (n : Nat) : (usizeOk n).Silent := by unfold usizeOk; split <;> trivial
theorem silent_doubleI32 (v : Int) : (doubleI32 v).Silent := by unfold doubleI32; split <;> trivial

theorem silent_readF64If (b : Bool) : (readF64If b).Silent := by
  unfold readF64If
  split
  · exact (silent_readF64 _).bind fun _ => trivial
  · trivial

theorem silent_readShpPoint (size : Nat) (t : ShpType) : (readShpPoint size t).Silent := by
  unfold readShpPoint
  exact Silent.ite trivial ((silent_readF64 _).bind fun _ => (silent_readF64 _).bind fun _ => (silent_readF64If _).bind fun _ =>
      (silent_readF64If _).bind fun _ => trivial)

seal Prog.Silent in
theorem silent_readShpHeader : readShpHeader.Silent := by
  unfold readShpHeader
  simp only [Prog.bind_eq]
  exact Silent.bind (silent_readI32 .be) fun c => Silent.ite (Silent.fail _) (Silent.bind (silent_readN 20) fun _ =>
    Silent.bind (silent_readI32 .be) fun _ => Silent.bind (silent_readI32 .le) fun _ => Silent.bind silent_readShpType fun _ =>
      Silent.bind (silent_readF64List 8) fun _ => Silent.ret _)

/-! ### the instrumented readers are the readers -/

theorem erase_mReadBbox (d : Nat) : erase (mReadBbox d) = readBbox d := erase_ofProg (silent_readF64List _)
theorem erase_mReadXYs (n : Nat) : erase (mReadXYs n) = readXYs n := erase_ofProg (silent_readXYs _)
theorem erase_mReadDimValues (n : Nat) : erase (mReadDimValues n) = readDimValues n := by
  unfold mReadDimValues readDimValues
  simp only [MProg.bind_eq, Prog.bind_eq, erase_bind, erase_mReadBbox, erase_reserve, Prog.ret_bind, erase_ofProg (silent_readF64List _)]
theorem erase_mReadDimValuesIf (b : Bool) (n : Nat) : erase (mReadDimValuesIf b n) = readDimValuesIf b n := by
  unfold mReadDimValuesIf readDimValuesIf
  cases b
  · rfl
  · exact erase_mReadDimValues n

theorem erase_mReadShpMultipoint (size : Nat) (z : Bool) : erase (mReadShpMultipoint size z) = readShpMultipoint size z := by
  unfold mReadShpMultipoint readShpMultipoint
  simp only [MProg.bind_eq, Prog.bind_eq, erase_bind, erase_mReadBbox, erase_ofProg (silent_readI32 _), erase_ofProg (silent_usizeOk _),
    MProg.erase_ite, erase_mReadXYs, erase_mReadDimValuesIf]
  rfl

theorem erase_mReadMultiPart (p : Bool) (size : Nat) (z : Bool) : erase (mReadMultiPart p size z) = readMultiPart p size z := by
  unfold mReadMultiPart readMultiPart
  simp only [MProg.bind_eq, Prog.bind_eq, erase_bind, erase_mReadBbox, erase_ofProg (silent_readI32 _), erase_ofProg (silent_usizeOk _),
    MProg.erase_ite, erase_mReadXYs, erase_mReadDimValuesIf, erase_reserve, Prog.ret_bind, erase_ofProg (silent_readParts _)]
  rfl

theorem erase_mReadMultipatch (size : Nat) : erase (mReadMultipatch size) = readMultipatch size := by
  unfold mReadMultipatch readMultipatch
  split
  · rfl
  · simp only [erase_bind, erase_reserve, Prog.ret_bind, erase_ofProg (silent_readN _)]
    rfl

theorem erase_mReadShpContent (size : Nat) : erase (mReadShpContent size) = readShpContent size := by
  unfold mReadShpContent readShpContent
  simp only [MProg.bind_eq, Prog.bind_eq, erase_bind, erase_ofProg silent_readShpType]
  refine congrArg _ (funext fun t => ?_)
  split
  · rfl
  · cases t <;> simp only [erase_ofProg (silent_readShpPoint _ _), erase_mReadShpMultipoint, erase_mReadMultiPart,
      erase_mReadMultipatch, erase]

theorem erase_mReadShpRecord : erase mReadShpRecord = readShpRecord := by
  unfold mReadShpRecord readShpRecord
  simp only [MProg.bind_eq, Prog.bind_eq, erase_bind, erase_ofProg (silent_readI32 _), erase_ofProg (silent_doubleI32 _),
    erase_mReadShpContent]
  rfl

theorem erase_mReadIndexFile : erase mReadIndexFile = readIndexFile := by
  unfold mReadIndexFile readIndexFile
  simp only [MProg.bind_eq, Prog.bind_eq, erase_bind, erase_ofProg silent_readShpHeader, erase_ofProg (silent_doubleI32 _)]
  refine congrArg _ (funext fun _ => congrArg _ (funext fun _ => ?_))
  split
  · rfl
  · split
    · rfl
    · simp only [erase_bind, erase_reserve, Prog.ret_bind, erase_ofProg (silent_readIndexEntries _)]

/-! ### what they reserve -/

theorem reserves_mReadBbox (d : Nat) : Reserves (2 * d * 8) (mReadBbox d) := (Reserves.reserve _).bind fun _ => .ofProg _
theorem reserves_mReadXYs (n : Nat) : Reserves (n * 16) (mReadXYs n) := (Reserves.reserve _).bind fun _ => .ofProg _
theorem reserves_mReadDimValues (n : Nat) : Reserves (dimValueSize n) (mReadDimValues n) :=
  ((reserves_mReadBbox 1).bind fun _ => (Reserves.reserve (n * 8)).bind fun _ => .ofProg _).mono (by unfold dimValueSize; omega)
theorem reserves_mReadDimValuesIf (b : Bool) (n : Nat) :
    Reserves (if b then dimValueSize n else 0) (mReadDimValuesIf b n) := by
  unfold mReadDimValuesIf
  cases b
  · exact .ret _
  · exact reserves_mReadDimValues n

theorem reserves_mReadShpMultipoint (size : Nat) (z : Bool) : Reserves (32 + size) (mReadShpMultipoint size z) := by
  unfold mReadShpMultipoint
  refine Reserves.mono (R := 2 * 2 * 8 + (0 + (0 + size))) ?_ (by omega)
  refine (reserves_mReadBbox 2).bind fun _ => (Reserves.ofProg _).bind fun n => (Reserves.ofProg _).bind fun _ => ?_
  refine Reserves.ite (fun _ => .fail _ _) fun h => Reserves.mono ((reserves_mReadXYs _).bind fun _ =>
    (reserves_mReadDimValuesIf _ _).bind fun _ => (reserves_mReadDimValuesIf _ _).bind fun _ => .ret _) ?_
  omega

theorem length_readParts (n : Nat) (bs : List Byte) (l : List Nat) (rest : List Byte)
    (h : (MProg.run (ofProg (readParts n)) bs).2 = .ok (l, rest)) : l.length = n := by
  induction n generalizing bs l rest with
  | zero => cases h; rfl
  | succ n ih =>
    have h1 : MProg.run (ofProg (readParts (n + 1))) bs = MProg.run (MProg.bind (ofProg (readI32 .le)) fun v =>
        MProg.bind (ofProg (readParts n)) fun vs => .ret (i32AsUsize v :: vs)) bs := by
      rw [readParts]
      simp only [Prog.bind_eq, MProg.ofProg_bind]
      rfl
    rw [h1, MProg.run_bind] at h
    cases h2 : MProg.run (ofProg (readI32 .le)) bs with
    | mk m r =>
      rw [h2] at h
      cases r with
      | error e => cases h
      | ok v =>
        simp only [MProg.run_bind] at h
        cases h3 : MProg.run (ofProg (readParts n)) v.2 with
        | mk m2 r2 =>
          rw [h3] at h
          cases r2 with
          | error e => cases h
          | ok v2 =>
            cases h
            have := ih v.2 v2.1 v2.2 (by rw [h3])
            simp [this]

theorem reserves_mReadMultiPart (p : Bool) (size : Nat) (z : Bool) : Reserves (32 + 4 * size) (mReadMultiPart p size z) := by
  unfold mReadMultiPart
  refine Reserves.mono (R := 2 * 2 * 8 + (0 + (0 + (0 + (0 + 4 * size))))) ?_ (by omega)
  refine (reserves_mReadBbox 2).bind fun _ => (Reserves.ofProg _).bind fun parts => (Reserves.ofProg _).bind fun points =>
    (Reserves.ofProg _).bind fun _ => (Reserves.ofProg _).bind fun _ => ?_
  refine Reserves.ite (fun _ => .fail _ _) fun h => Reserves.mono ((Reserves.reserve _).bind fun _ =>
    ((Reserves.ofProg _).bindOn (length_readParts _) fun index hi => (reserves_mReadXYs _).bind fun _ =>
      (reserves_mReadDimValuesIf _ _).bind fun _ => (reserves_mReadDimValuesIf _ _).bind fun _ =>
      Reserves.bind (R := (i32AsUsize parts + 1) * 8 + 16) ((Reserves.reserve _).mono (by rw [hi]; split <;> omega)) fun _ => .ret _)) ?_
  have hb : multipartRecordSize (i32AsUsize points) (i32AsUsize parts) = 40 + 4 * i32AsUsize parts + 16 * i32AsUsize points := rfl
  simp only [decide_eq_true_eq] at h ⊢
  generalize multipartRecordSize (i32AsUsize points) (i32AsUsize parts) = M at h hb ⊢
  generalize (if z = true then dimValueSize (i32AsUsize points) else 0) = Z at h ⊢
  split <;> omega

theorem reserves_mReadMultipatch (size : Nat) : Reserves size (mReadMultipatch size) := by
  unfold mReadMultipatch
  split
  · exact .fail _ _
  · exact (Reserves.reserve _).bind fun _ => (Reserves.ofProg _).bind fun _ => .ret _

theorem reserves_mReadShpContent (size : Nat) : Reserves (32 + 4 * size) (mReadShpContent size) := by
  unfold mReadShpContent
  refine Reserves.mono (R := 0 + (32 + 4 * size)) ?_ (by omega)
  refine (Reserves.ofProg _).bind fun t => ?_
  split
  · exact .fail _ _
  · cases t
    · exact (Reserves.ret _).mono (by omega)
    · exact (Reserves.ofProg _).mono (by omega)
    · exact (reserves_mReadMultiPart _ _ _).mono (by omega)
    · exact (reserves_mReadMultiPart _ _ _).mono (by omega)
    · exact (reserves_mReadShpMultipoint _ _).mono (by omega)
    · exact (Reserves.ofProg _).mono (by omega)
    · exact (reserves_mReadMultiPart _ _ _).mono (by omega)
    · exact (reserves_mReadMultiPart _ _ _).mono (by omega)
    · exact (reserves_mReadShpMultipoint _ _).mono (by omega)
    · exact (Reserves.ofProg _).mono (by omega)
    · exact (reserves_mReadMultiPart _ _ _).mono (by omega)
    · exact (reserves_mReadMultiPart _ _ _).mono (by omega)
    · exact (reserves_mReadShpMultipoint _ _).mono (by omega)
    · exact (reserves_mReadMultipatch _).mono (by omega)

/-! ### what they reserve when they succeed -/

/-- when it succeeds, four times the bytes read pay for what is reserved, and `k` more -/
def MProg.Paid {α : Type} (k : Int) (p : MProg α) : Prop :=
  ∀ bs a rest, (MProg.run p bs).2 = .ok (a, rest) → ((MProg.run p bs).1 : Int) + k + 4 * (rest.length : Int) ≤ 4 * (bs.length : Int)

namespace MProg

theorem Paid.mono {α : Type} {k l : Int} {p : MProg α} (h : Paid k p) (hl : l ≤ k) : Paid l p :=
  fun bs a rest hr => by have := h bs a rest hr; omega

theorem Paid.bindOn {α β : Type} {k l : Int} {p : MProg α} {f : α → MProg β} {Q : α → Prop} (hp : Paid k p)
    (hQ : ∀ bs a rest, (run p bs).2 = .ok (a, rest) → Q a) (hf : ∀ a, Q a → Paid l (f a)) : Paid (k + l) (MProg.bind p f) := by
  intro bs b rest hr
  rw [run_bind] at hr ⊢
  cases h : run p bs with
  | mk n r =>
    rw [h] at hr
    cases r with
    | error e => cases hr
    | ok v =>
      have h1 := hp bs v.1 v.2 (by rw [h])
      have h2 := hf v.1 (hQ bs v.1 v.2 (by rw [h])) v.2 b rest hr
      rw [h] at h1
      simp only at h1 ⊢
      omega

theorem Paid.bind {α β : Type} {k l : Int} {p : MProg α} {f : α → MProg β} (hp : Paid k p) (hf : ∀ a, Paid l (f a)) :
    Paid (k + l) (MProg.bind p f) := hp.bindOn (Q := fun _ => True) (fun _ _ _ _ => trivial) fun a _ => hf a

theorem Paid.ret {α : Type} (a : α) : Paid 0 (.ret a) := fun bs a rest h => by cases h; simp [run]
theorem Paid.fail {α : Type} (e : Err) (k : Int) : Paid k (.fail e : MProg α) := fun _ _ _ h => by cases h
theorem Paid.reserve (n : Nat) : Paid (-n) (reserve n) := fun bs a rest h => by
  cases h
  simp [MProg.reserve, run]
  omega
theorem Paid.ite {α : Type} {c : Prop} [Decidable c] {p q : MProg α} {k : Int} (hp : c → Paid k p) (hq : ¬ c → Paid k q) :
    Paid k (if c then p else q) := by
  split
  · exact hp ‹_›
  · exact hq ‹_›

end MProg

open MProg (Paid)

theorem paid_readByte {α : Type} {k : Int} {f : Byte → Prog α} (hf : ∀ b, Paid k (ofProg (f b))) :
    Paid (4 + k) (ofProg (Prog.bind Prog.readByte f)) := by
  intro bs a rest h
  cases bs with
  | nil => cases h
  | cons b bs =>
    have := hf b bs a rest h
    simp only [List.length_cons]
    show ((MProg.run (ofProg (f b)) bs).1 : Int) + _ + _ ≤ _
    omega

theorem paid_readN (n : Nat) : Paid (4 * n) (ofProg (readN n)) := by
  induction n with
  | zero => exact (Paid.ret _).mono (by omega)
  | succ n ih =>
    refine Paid.mono (paid_readByte (k := 4 * n) fun b => ?_) (by omega)
    rw [MProg.ofProg_bind]
    exact (ih.bind fun _ => Paid.ret _).mono (by omega)

theorem paid_readI32 (e : Endian) : Paid 16 (ofProg (readI32 e)) := by
  unfold Prog.readI32
  rw [MProg.ofProg_bind]
  exact (paid_readN 4).bind fun _ => .ret _

theorem paid_readF64 (e : Endian) : Paid 32 (ofProg (readF64 e)) := by
  unfold Prog.readF64
  rw [MProg.ofProg_bind]
  exact (paid_readN 8).bind fun _ => .ret _

theorem paid_readF64List (n : Nat) : Paid (32 * n) (ofProg (readF64List n)) := by
  induction n with
  | zero => exact (Paid.ret _).mono (by omega)
  | succ n ih =>
    rw [readF64List]
    simp only [Prog.bind_eq, MProg.ofProg_bind]
    exact ((paid_readF64 _).bind fun _ => ih.bind fun _ => .ret _).mono (by omega)

theorem paid_readXYs (n : Nat) : Paid (64 * n) (ofProg (readXYs n)) := by
  induction n with
  | zero => exact (Paid.ret _).mono (by omega)
  | succ n ih =>
    rw [readXYs]
    simp only [Prog.bind_eq, MProg.ofProg_bind]
    exact ((paid_readF64 _).bind fun _ => (paid_readF64 _).bind fun _ => ih.bind fun _ => .ret _).mono (by omega)

theorem paid_readParts (n : Nat) : Paid (16 * n) (ofProg (readParts n)) := by
  induction n with
  | zero => exact (Paid.ret _).mono (by omega)
  | succ n ih =>
    rw [readParts]
    simp only [Prog.bind_eq, MProg.ofProg_bind]
    exact ((paid_readI32 _).bind fun _ => ih.bind fun _ => .ret _).mono (by omega)

theorem paid_readIndexEntries (n : Nat) : Paid (32 * n) (ofProg (readIndexEntries n)) := by
  induction n with
  | zero => exact (Paid.ret _).mono (by omega)
  | succ n ih =>
    rw [readIndexEntries]
    simp only [Prog.bind_eq, MProg.ofProg_bind]
    exact ((paid_readI32 _).bind fun _ => (paid_readI32 _).bind fun _ => ih.bind fun _ => .ret _).mono (by omega)

/-- a reader that reserves nothing is paid for -/
theorem paid_ofProg {α : Type} (p : Prog α) : Paid 0 (ofProg p) := by
  induction p with
  | ret a => exact .ret _
  | fail e => exact .fail _ _
  | read k ih =>
    intro bs a rest h
    cases bs with
    | nil => cases h
    | cons b bs =>
      have := ih b bs a rest h
      simp only [List.length_cons]
      show ((MProg.run (ofProg (k b)) bs).1 : Int) + _ + _ ≤ _
      omega
  | emit e k ih => exact ih
  | askMulti k ih => exact ih false

theorem paid_mReadBbox (d : Nat) : Paid 0 (mReadBbox d) :=
  ((Paid.reserve _).bind fun _ => paid_readF64List (2 * d)).mono (by omega)
theorem paid_mReadXYs (n : Nat) : Paid 0 (mReadXYs n) :=
  ((Paid.reserve _).bind fun _ => paid_readXYs n).mono (by omega)
theorem paid_mReadDimValues (n : Nat) : Paid 0 (mReadDimValues n) :=
  ((paid_mReadBbox 1).bind fun _ => (Paid.reserve (n * 8)).bind fun _ => paid_readF64List n).mono (by omega)
theorem paid_mReadDimValuesIf (b : Bool) (n : Nat) : Paid 0 (mReadDimValuesIf b n) := by
  unfold mReadDimValuesIf
  cases b
  · exact .ret _
  · exact paid_mReadDimValues n

theorem paid_mReadShpMultipoint (size : Nat) (z : Bool) : Paid 0 (mReadShpMultipoint size z) := by
  unfold mReadShpMultipoint
  refine Paid.mono (k := 0 + (0 + (0 + 0))) ?_ (by omega)
  refine (paid_mReadBbox 2).bind fun _ => (paid_ofProg _).bind fun n => (paid_ofProg _).bind fun _ => ?_
  exact Paid.ite (fun _ => .fail _ _) fun h => Paid.mono ((paid_mReadXYs _).bind fun _ =>
    (paid_mReadDimValuesIf _ _).bind fun _ => (paid_mReadDimValuesIf _ _).bind fun _ => .ret _) (by omega)

theorem paid_mReadMultiPart (p : Bool) (size : Nat) (z : Bool) : Paid 0 (mReadMultiPart p size z) := by
  unfold mReadMultiPart
  refine Paid.mono (k := 0 + (16 + (16 + (0 + (0 + -32))))) ?_ (by omega)
  refine (paid_mReadBbox 2).bind fun _ => (paid_readI32 _).bind fun parts => (paid_readI32 _).bind fun points =>
    (paid_ofProg _).bind fun _ => (paid_ofProg _).bind fun _ => ?_
  refine Paid.ite (fun _ => .fail _ _) fun h => Paid.mono ((Paid.reserve _).bind fun _ =>
    (paid_readParts _).bindOn (length_readParts _) fun index hi => (paid_mReadXYs _).bind fun _ =>
      (paid_mReadDimValuesIf _ _).bind fun _ => (paid_mReadDimValuesIf _ _).bind fun _ =>
      Paid.bind (k := -((i32AsUsize parts + 1) * 8 + 8 : Nat)) ((Paid.reserve _).mono (by rw [hi]; split <;> omega)) fun _ => .ret _) ?_
  omega

theorem paid_mReadMultipatch (size : Nat) : Paid 0 (mReadMultipatch size) := by
  unfold mReadMultipatch
  exact Paid.ite (fun _ => .fail _ _) fun _ =>
    ((Paid.reserve _).bind fun _ => (paid_readN size).bind fun _ => .ret _).mono (by omega)

theorem paid_mReadShpContent (size : Nat) : Paid 0 (mReadShpContent size) := by
  unfold mReadShpContent
  refine Paid.mono (k := 0 + 0) ((paid_ofProg _).bind fun t => Paid.ite (fun _ => .fail _ _) fun _ => ?_) (by omega)
  cases t
  · exact .ret _
  · exact paid_ofProg _
  · exact paid_mReadMultiPart _ _ _
  · exact paid_mReadMultiPart _ _ _
  · exact paid_mReadShpMultipoint _ _
  · exact paid_ofProg _
  · exact paid_mReadMultiPart _ _ _
  · exact paid_mReadMultiPart _ _ _
  · exact paid_mReadShpMultipoint _ _
  · exact paid_ofProg _
  · exact paid_mReadMultiPart _ _ _
  · exact paid_mReadMultiPart _ _ _
  · exact paid_mReadShpMultipoint _ _
  · exact paid_mReadMultipatch _

theorem paid_mReadShpRecord : Paid 0 mReadShpRecord := by
  unfold mReadShpRecord
  exact ((paid_ofProg _).bind fun _ => (paid_ofProg _).bind fun _ => (paid_ofProg _).bind fun _ =>
    (paid_mReadShpContent _).bind fun _ => .ret _).mono (by omega)

theorem got_doubleI32 (v : Int) (bs : List Byte) (a : Int) (rest : List Byte)
    (h : (MProg.run (ofProg (doubleI32 v)) bs).2 = .ok (a, rest)) : a = v * 2 ∧ -(2 ^ 31) ≤ a ∧ a < 2 ^ 31 := by
  unfold doubleI32 at h
  split at h
  · rename_i hv
    cases h
    exact ⟨rfl, hv⟩
  · cases h

theorem got_usizeOk (n : Nat) (bs : List Byte) (a : Nat) (rest : List Byte)
    (h : (MProg.run (ofProg (usizeOk n)) bs).2 = .ok (a, rest)) : n < 2 ^ 64 := by
  unfold usizeOk at h
  split at h
  · assumption
  · cases h

theorem got_readI32 (e : Endian) (bs : List Byte) (a : Int) (rest : List Byte)
    (h : (MProg.run (ofProg (readI32 e)) bs).2 = .ok (a, rest)) : a = Spec.i32At e 0 bs ∧ bs.drop 4 = rest := by
  have h1 := MProg.run_erase (ofProg (readI32 e)) false bs
  rw [erase_ofProg (silent_readI32 e), h] at h1
  unfold Prog.readI32 at h1
  rw [Prog.run_bind, run_readN_any] at h1
  by_cases hn : 4 ≤ bs.length
  · rw [if_pos hn] at h1
    simp only [Prog.andThen, Prog.run_ret, List.append_nil, Prod.mk.injEq, Except.ok.injEq, true_and] at h1
    exact ⟨h1.1.symm, h1.2⟩
  · rw [if_neg hn] at h1
    simp only [Prog.andThen, Prod.mk.injEq, reduceCtorEq, and_false] at h1

theorem paid_mReadIndexFile : Paid 0 mReadIndexFile := by
  unfold mReadIndexFile
  refine Paid.mono (k := 0 + (0 + 0)) ((paid_ofProg _).bind fun h => (paid_ofProg _).bindOn (got_doubleI32 _) fun len hlen =>
    Paid.ite (fun _ => .fail _ _) fun _ => Paid.ite (fun _ => .fail _ _) fun hc => ?_) (by omega)
  refine Paid.mono ((Paid.reserve _).bind fun _ => paid_readIndexEntries _) ?_
  obtain ⟨_, h1, h2⟩ := hlen
  have h3 : (len - 100).tdiv 8 < 2 ^ 31 ∧ -(2 ^ 31) ≤ (len - 100).tdiv 8 := by
    rcases Int.le_total 0 (len - 100) with h | h
    · rw [Int.tdiv_eq_ediv_of_nonneg h]
      omega
    · have := Int.neg_tdiv (len - 100) 8
      rw [Int.tdiv_eq_ediv_of_nonneg (by omega)] at this
      omega
  unfold i32AsUsize at hc ⊢
  omega

/-! ### negative sizes -/

theorem reserves_negative_multipoint (size : Nat) (z : Bool) (hs : 2 ^ 62 ≤ size) : Reserves 32 (mReadShpMultipoint size z) := by
  unfold mReadShpMultipoint
  refine Reserves.mono (R := 2 * 2 * 8 + (0 + (0 + 0))) ?_ (by omega)
  refine (reserves_mReadBbox 2).bind fun _ => (Reserves.ofProg _).bindOn (Q := isI32)
    (fun bs a rest h => (got_readI32 _ bs a rest h).1 ▸ i32At_range _ _ _) fun v hv =>
    (Reserves.ofProg _).bindOn (got_usizeOk _) fun _ hn => ?_
  refine Reserves.ite (fun _ => .fail _ _) fun h => ?_
  exfalso
  have := usize_count hv (by omega)
  have hd : dimValueSize (i32AsUsize v) = 16 + i32AsUsize v * 8 := rfl
  apply h
  generalize dimValueSize (i32AsUsize v) = D at *
  split <;> split <;> omega

theorem reserves_negative_multipart (p : Bool) (size : Nat) (z : Bool) (hs : 2 ^ 62 ≤ size) :
    Reserves 32 (mReadMultiPart p size z) := by
  unfold mReadMultiPart
  refine Reserves.mono (R := 2 * 2 * 8 + (0 + (0 + (0 + (0 + 0))))) ?_ (by omega)
  refine (reserves_mReadBbox 2).bind fun _ => (Reserves.ofProg _).bindOn (Q := isI32)
    (fun bs a rest h => (got_readI32 _ bs a rest h).1 ▸ i32At_range _ _ _) fun v hv => (Reserves.ofProg _).bindOn (Q := isI32)
    (fun bs a rest h => (got_readI32 _ bs a rest h).1 ▸ i32At_range _ _ _) fun u hu =>
    (Reserves.ofProg _).bindOn (got_usizeOk _) fun _ hn => (Reserves.ofProg _).bindOn (got_usizeOk _) fun _ hm => ?_
  refine Reserves.ite (fun _ => .fail _ _) fun h => ?_
  exfalso
  have h1 := usize_count hv (by omega)
  have h2 := usize_count hu (by omega)
  have hd : dimValueSize (i32AsUsize u) = 16 + i32AsUsize u * 8 := rfl
  have hb : multipartRecordSize (i32AsUsize u) (i32AsUsize v) = 40 + 4 * i32AsUsize v + 16 * i32AsUsize u := rfl
  simp only [decide_eq_true_eq] at h
  generalize multipartRecordSize (i32AsUsize u) (i32AsUsize v) = M at h hb
  generalize dimValueSize (i32AsUsize u) = D at h hd
  apply h
  split <;> omega

theorem reserves_negative_content (size : Nat) (hs : 2 ^ 63 + 4 ≤ size) : Reserves 32 (mReadShpContent size) := by
  unfold mReadShpContent
  refine Reserves.mono (R := 0 + 32) ((Reserves.ofProg _).bind fun t => Reserves.ite (fun _ => .fail _ _) fun _ => ?_) (by omega)
  cases t
  · exact (Reserves.ret _).mono (by omega)
  · exact (Reserves.ofProg _).mono (by omega)
  · exact reserves_negative_multipart _ _ _ (by omega)
  · exact reserves_negative_multipart _ _ _ (by omega)
  · exact reserves_negative_multipoint _ _ (by omega)
  · exact (Reserves.ofProg _).mono (by omega)
  · exact reserves_negative_multipart _ _ _ (by omega)
  · exact reserves_negative_multipart _ _ _ (by omega)
  · exact reserves_negative_multipoint _ _ (by omega)
  · exact (Reserves.ofProg _).mono (by omega)
  · exact reserves_negative_multipart _ _ _ (by omega)
  · exact reserves_negative_multipart _ _ _ (by omega)
  · exact reserves_negative_multipoint _ _ (by omega)
  · show Reserves 32 (mReadMultipatch (size - 4))
    unfold mReadMultipatch
    rw [if_pos (by omega)]
    exact .fail _ _

theorem reserved_record (bs : List Byte) :
    (MProg.run mReadShpRecord bs).1 ≤ 32 + 8 * (Spec.i32At .be 4 bs).toNat := by
  unfold mReadShpRecord
  simp only [MProg.bind_eq]
  rw [MProg.run_bind]
  have h0 : (MProg.run (ofProg (readI32 .be)) bs).1 ≤ 0 := Reserves.ofProg _ bs
  cases h1 : MProg.run (ofProg (readI32 .be)) bs with
  | mk n r =>
    rw [h1] at h0
    cases r with
    | error e => simp only at h0 ⊢; omega
    | ok v =>
      have hr := (got_readI32 .be bs v.1 v.2 (by rw [h1])).2
      simp only [MProg.run_bind]
      have h2 : (MProg.run (ofProg (readI32 .be)) v.2).1 ≤ 0 := Reserves.ofProg _ _
      cases h3 : MProg.run (ofProg (readI32 .be)) v.2 with
      | mk n2 r2 =>
        rw [h3] at h2
        cases r2 with
        | error e => simp only at h0 h2 ⊢; omega
        | ok w =>
          have hw := (got_readI32 .be v.2 w.1 w.2 (by rw [h3])).1
          have hw2 : w.1 = Spec.i32At .be 4 bs := by rw [hw, ← hr]; rfl
          have h4 : (MProg.run (ofProg (doubleI32 w.1)) w.2).1 ≤ 0 := Reserves.ofProg _ _
          simp only
          cases h5 : MProg.run (ofProg (doubleI32 w.1)) w.2 with
          | mk n3 r3 =>
            rw [h5] at h4
            cases r3 with
            | error e => simp only at h0 h2 h4 ⊢; omega
            | ok x =>
              obtain ⟨hx, hx2, hx3⟩ := got_doubleI32 w.1 w.2 x.1 x.2 (by rw [h5])
              have h6 : Reserves (32 + 8 * w.1.toNat) (MProg.bind (mReadShpContent (i32AsUsize x.1)) fun s => .ret (w.1, s)) := by
                by_cases hneg : w.1 < 0
                · exact ((reserves_negative_content _ (by unfold i32AsUsize; omega)).bind fun _ => .ret _).mono (by omega)
                · exact ((reserves_mReadShpContent _).bind fun _ => .ret _).mono (by unfold i32AsUsize; omega)
              have h7 := h6 x.2
              rw [MProg.run_bind] at h7
              rw [hw2] at h7
              simp only at h0 h2 h4 ⊢
              rw [hw2]
              omega

end Geozero
