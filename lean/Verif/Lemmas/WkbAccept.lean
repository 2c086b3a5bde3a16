import Verif.Lemmas.WkbRead
import Verif.Spec.WkbLenient

/- Helper lemmas: exactly which bytes the WKB readers take for which geometry. -/

namespace Geozero
open Prog Spec

/-- `p` reads exactly the bytes `u`, emits `evs` and returns `a`. -/
def Acc {α : Type} (multi : Bool) (p : Prog α) (a : α) (evs : List Ev) (u : List Byte) : Prop :=
  run multi p u = (evs, .ok (a, []))

theorem acc_iff {α : Type} {multi : Bool} {p : Prog α} {a : α} {evs : List Ev} {bs rest : List Byte} :
    run multi p bs = (evs, .ok (a, rest)) ↔ ∃ u, bs = u ++ rest ∧ Acc multi p a evs u := by
  constructor
  · intro h
    obtain ⟨u, hu, hr, _⟩ := run_consumed multi p bs h
    exact ⟨u, hu, hr⟩
  · rintro ⟨u, rfl, hr⟩
    have := run_append multi p u rest hr
    simpa using this

theorem acc_bind {α β : Type} {multi : Bool} {p : Prog α} {k : α → Prog β} {b : β} {evs : List Ev} {u : List Byte} :
    Acc multi (Prog.bind p k) b evs u ↔
      ∃ a e1 e2 u1 u2, evs = e1 ++ e2 ∧ u = u1 ++ u2 ∧ Acc multi p a e1 u1 ∧ Acc multi (k a) b e2 u2 := by
  constructor
  · intro h
    unfold Acc at h
    rw [run_bind] at h
    unfold andThen at h
    rcases hp : run multi p u with ⟨e1, r⟩
    rw [hp] at h
    cases r with
    | error e => simp at h
    | ok ar =>
      obtain ⟨a, r⟩ := ar
      simp only [Prod.mk.injEq] at h
      obtain ⟨u1, rfl, h1⟩ := acc_iff.mp hp
      refine ⟨a, e1, (run multi (k a) r).1, u1, r, h.1.symm, rfl, h1, ?_⟩
      unfold Acc
      rw [← h.2]
  · rintro ⟨a, e1, e2, u1, u2, rfl, rfl, h1, h2⟩
    have := (acc_iff (rest := u2)).mpr ⟨u1, rfl, h1⟩
    unfold Acc
    rw [run_bind_ok this, h2]

theorem acc_ret {α : Type} {multi : Bool} {a b : α} {evs : List Ev} {u : List Byte} :
    Acc multi (ret a) b evs u ↔ b = a ∧ evs = [] ∧ u = [] := by
  simp only [Acc, run_ret, Prod.mk.injEq, Except.ok.injEq]
  constructor
  · rintro ⟨rfl, rfl, rfl⟩; exact ⟨rfl, rfl, rfl⟩
  · rintro ⟨rfl, rfl, rfl⟩; exact ⟨rfl, rfl, rfl⟩

theorem acc_fail {α : Type} {multi : Bool} {e : Err} {b : α} {evs : List Ev} {u : List Byte} :
    Acc multi (fail e) b evs u ↔ False := by
  simp [Acc]

/-- a program that emits nothing first -/
theorem acc_bind_silent {α β : Type} {multi : Bool} {p : Prog α} {k : α → Prog β} {b : β} {evs : List Ev} {u : List Byte}
    {P : α → List Byte → Prop} (hp : ∀ a e u, Acc multi p a e u ↔ e = [] ∧ P a u) :
    Acc multi (Prog.bind p k) b evs u ↔ ∃ a u1 u2, u = u1 ++ u2 ∧ P a u1 ∧ Acc multi (k a) b evs u2 := by
  rw [acc_bind]
  constructor
  · rintro ⟨a, e1, e2, u1, u2, rfl, rfl, h1, h2⟩
    obtain ⟨rfl, h3⟩ := (hp _ _ _).mp h1
    exact ⟨a, u1, u2, rfl, h3, h2⟩
  · rintro ⟨a, u1, u2, rfl, h1, h2⟩
    exact ⟨a, [], evs, u1, u2, rfl, rfl, (hp _ _ _).mpr ⟨rfl, h1⟩, h2⟩

theorem acc_emitEv {multi : Bool} {e : Ev} {b : Unit} {evs : List Ev} {u : List Byte} :
    Acc multi (emitEv e) b evs u ↔ evs = [e] ∧ u = [] := by
  simp only [Acc, run_emitEv, Prod.mk.injEq, Except.ok.injEq]
  constructor
  · rintro ⟨rfl, _, rfl⟩; exact ⟨rfl, rfl⟩
  · rintro ⟨rfl, rfl⟩; exact ⟨rfl, trivial, rfl⟩

theorem acc_emitEv_bind {β : Type} {multi : Bool} {e : Ev} {k : Unit → Prog β} {b : β} {evs : List Ev} {u : List Byte} :
    Acc multi (Prog.bind (emitEv e) k) b evs u ↔ ∃ evs', evs = e :: evs' ∧ Acc multi (k ()) b evs' u := by
  rw [acc_bind]
  constructor
  · rintro ⟨a, e1, e2, u1, u2, rfl, rfl, h1, h2⟩
    obtain ⟨rfl, rfl⟩ := acc_emitEv.mp h1
    exact ⟨e2, rfl, h2⟩
  · rintro ⟨evs', rfl, h2⟩
    exact ⟨(), [e], evs', [], u, rfl, rfl, acc_emitEv.mpr ⟨rfl, rfl⟩, h2⟩

theorem acc_multiDim_bind {β : Type} {multi : Bool} {k : Bool → Prog β} {b : β} {evs : List Ev} {u : List Byte} :
    Acc multi (Prog.bind multiDim k) b evs u ↔ Acc multi (k multi) b evs u := by
  simp [Acc]

theorem acc_readByte {multi : Bool} (a : Byte) (evs : List Ev) (u : List Byte) :
    Acc multi readByte a evs u ↔ evs = [] ∧ u = [a] := by
  unfold Acc readByte
  cases u with
  | nil => simp [run]
  | cons b u =>
    simp only [run, Prod.mk.injEq, Except.ok.injEq, List.cons.injEq]
    constructor
    · rintro ⟨rfl, rfl, rfl⟩; exact ⟨rfl, rfl, rfl⟩
    · rintro ⟨rfl, rfl, rfl⟩; exact ⟨rfl, rfl, rfl⟩

theorem acc_readN {multi : Bool} (n : Nat) (l : List Byte) (evs : List Ev) (u : List Byte) :
    Acc multi (readN n) l evs u ↔ evs = [] ∧ l = u ∧ u.length = n := by
  induction n generalizing l evs u with
  | zero =>
    show Acc multi (ret []) l evs u ↔ _
    rw [acc_ret]
    constructor
    · rintro ⟨rfl, rfl, rfl⟩; exact ⟨rfl, rfl, rfl⟩
    · rintro ⟨rfl, rfl, h⟩
      have := List.eq_nil_of_length_eq_zero h
      exact ⟨this, rfl, this⟩
  | succ n ih =>
    simp only [readN, bind_eq, pure_eq]
    rw [acc_bind_silent (P := fun a u => u = [a]) acc_readByte]
    constructor
    · rintro ⟨a, u1, u2, rfl, rfl, h⟩
      rw [acc_bind_silent (P := fun l u => l = u ∧ u.length = n) ih] at h
      obtain ⟨l', u3, u4, rfl, ⟨rfl, hl⟩, h⟩ := h
      obtain ⟨rfl, rfl, rfl⟩ := acc_ret.mp h
      exact ⟨rfl, by simp, by simp [hl]⟩
    · rintro ⟨rfl, rfl, hl⟩
      cases l with
      | nil => simp at hl
      | cons a u =>
        refine ⟨a, [a], u, rfl, rfl, ?_⟩
        rw [acc_bind_silent (P := fun l u => l = u ∧ u.length = n) ih]
        exact ⟨u, u, [], by simp, ⟨rfl, by simpa using hl⟩, acc_ret.mpr ⟨rfl, rfl, rfl⟩⟩

theorem encUInt_decUInt (e : Endian) (bs : List Byte) : encUInt e bs.length (decUInt e bs) = bs := by
  cases e with
  | le => simp [encUInt, decUInt, toLE_fromLE]
  | be =>
    have := toLE_fromLE bs.reverse
    simp only [List.length_reverse] at this
    simp [encUInt, decUInt, this]

theorem decUInt_lt (e : Endian) (bs : List Byte) : decUInt e bs < 256 ^ bs.length := by
  cases e with
  | le => exact fromLE_lt bs
  | be => simpa [decUInt] using fromLE_lt bs.reverse

theorem acc_readU32 {multi : Bool} (e : Endian) (v : Nat) (evs : List Ev) (u : List Byte) :
    Acc multi (readU32 e) v evs u ↔ evs = [] ∧ v < 2 ^ 32 ∧ u = encU32 e v := by
  constructor
  · intro h
    unfold readU32 at h
    rw [acc_bind_silent (P := fun l u => l = u ∧ u.length = 4) (acc_readN 4)] at h
    obtain ⟨l, u1, u2, rfl, ⟨rfl, hl⟩, h⟩ := h
    obtain ⟨rfl, rfl, rfl⟩ := acc_ret.mp h
    have h1 := decUInt_lt e l
    have h2 := encUInt_decUInt e l
    rw [hl] at h1 h2
    exact ⟨rfl, by omega, by simp [encU32, h2]⟩
  · rintro ⟨rfl, hv, rfl⟩
    have := run_readU32 multi e v [] hv
    simpa [Acc] using this

theorem i32_of_to (n : Nat) (h : n < 2 ^ 32) : i32ToNat (i32OfNat n) = n := by
  unfold i32ToNat i32OfNat
  split <;> omega

theorem acc_readI32 {multi : Bool} (e : Endian) (v : Int) (evs : List Ev) (u : List Byte) :
    Acc multi (readI32 e) v evs u ↔ evs = [] ∧ isI32 v ∧ u = encI32 e v := by
  constructor
  · intro h
    unfold readI32 at h
    rw [acc_bind_silent (P := fun l u => l = u ∧ u.length = 4) (acc_readN 4)] at h
    obtain ⟨l, u1, u2, rfl, ⟨rfl, hl⟩, h⟩ := h
    obtain ⟨rfl, rfl, rfl⟩ := acc_ret.mp h
    have h1 := decUInt_lt e l
    have h2 := encUInt_decUInt e l
    rw [hl] at h1 h2
    have h1' : decUInt e l < 2 ^ 32 := by omega
    exact ⟨rfl, isI32_i32OfNat _ h1', by simp [encI32, i32_of_to _ h1', h2]⟩
  · rintro ⟨rfl, hv, rfl⟩
    have := run_readI32 multi e v [] hv
    simpa [Acc] using this

theorem acc_readF64 {multi : Bool} (e : Endian) (v : F64) (evs : List Ev) (u : List Byte) :
    Acc multi (readF64 e) v evs u ↔ evs = [] ∧ u = encF64 e v := by
  constructor
  · intro h
    unfold readF64 at h
    rw [acc_bind_silent (P := fun l u => l = u ∧ u.length = 8) (acc_readN 8)] at h
    obtain ⟨l, u1, u2, rfl, ⟨rfl, hl⟩, h⟩ := h
    obtain ⟨rfl, rfl, rfl⟩ := acc_ret.mp h
    have h1 := decUInt_lt e l
    have h2 := encUInt_decUInt e l
    rw [hl] at h1 h2
    refine ⟨rfl, ?_⟩
    unfold encF64
    rw [BitVec.toNat_ofNat, Nat.mod_eq_of_lt (by omega), h2]
    simp
  · rintro ⟨rfl, rfl⟩
    have := run_readF64 multi e v []
    simpa [Acc] using this

/-- the frame a header gives -/
def WkbInfo.frame (i : WkbInfo) : Frame := { order := i.endian, z := i.hasZ, m := i.hasM }

theorem acc_optF64 {multi : Bool} (b : Bool) (e : Endian) (v : Option F64) (evs : List Ev) (u : List Byte) :
    Acc multi (if b = true then Prog.bind (readF64 e) fun v => ret (some v) else ret none) v evs u ↔
      evs = [] ∧ (v.isSome = b ∧ u = v.toList.flatMap (encF64 e)) := by
  cases b with
  | false =>
    simp only [Bool.false_eq_true, if_false, acc_ret]
    constructor
    · rintro ⟨rfl, rfl, rfl⟩; simp
    · rintro ⟨rfl, h, rfl⟩
      cases v <;> simp_all
  | true =>
    simp only [if_true]
    rw [acc_bind_silent (P := fun v u => u = encF64 e v) (acc_readF64 e)]
    constructor
    · rintro ⟨a, u1, u2, rfl, rfl, h⟩
      obtain ⟨rfl, rfl, rfl⟩ := acc_ret.mp h
      simp
    · rintro ⟨rfl, h, rfl⟩
      cases v with
      | none => simp at h
      | some v => exact ⟨v, encF64 e v, [], by simp, rfl, acc_ret.mpr ⟨rfl, rfl, rfl⟩⟩

theorem acc_coord {multi : Bool} (info : WkbInfo) (c : Coord) (evs : List Ev) (u : List Byte) :
    Acc multi (readCoord64 info) c evs u ↔ evs = [] ∧ CoordIn info.frame c u := by
  unfold readCoord64 CoordIn coordBytes WkbInfo.frame
  simp only [bind_eq, pure_eq]
  rw [acc_bind_silent (P := fun v u => u = encF64 info.endian v) (acc_readF64 info.endian)]
  constructor
  · rintro ⟨x, u1, u2, rfl, rfl, h⟩
    rw [acc_bind_silent (P := fun v u => u = encF64 info.endian v) (acc_readF64 info.endian)] at h
    obtain ⟨y, u3, u4, rfl, rfl, h⟩ := h
    rw [acc_bind_silent (acc_optF64 info.hasZ info.endian)] at h
    obtain ⟨z, u5, u6, rfl, ⟨hz, rfl⟩, h⟩ := h
    rw [acc_bind_silent (acc_optF64 info.hasM info.endian)] at h
    obtain ⟨m, u7, u8, rfl, ⟨hm, rfl⟩, h⟩ := h
    obtain ⟨rfl, rfl, rfl⟩ := acc_ret.mp h
    exact ⟨rfl, ⟨hz, hm⟩, by simp⟩
  · rintro ⟨rfl, ⟨hz, hm⟩, rfl⟩
    obtain ⟨x, y, z, m⟩ := c
    refine ⟨x, encF64 info.endian x, _, by rw [List.append_assoc], rfl, ?_⟩
    rw [acc_bind_silent (P := fun v u => u = encF64 info.endian v) (acc_readF64 info.endian)]
    refine ⟨y, _, _, rfl, rfl, ?_⟩
    rw [acc_bind_silent (acc_optF64 info.hasZ info.endian)]
    refine ⟨z, _, _, by rw [List.flatMap_append], ⟨hz, rfl⟩, ?_⟩
    rw [acc_bind_silent (acc_optF64 info.hasM info.endian)]
    exact ⟨m, _, [], by simp, ⟨hm, rfl⟩, acc_ret.mpr ⟨rfl, rfl, rfl⟩⟩

/-- reading one coordinate and delivering it -/
theorem acc_coordStep {multi mu : Bool} (info : WkbInfo) (i : Nat) (evs : List Ev) (u : List Byte) :
    Acc multi (Prog.bind (processCoord info mu i) fun _ => ret ()) () evs u ↔
      ∃ c, evs = coordEvs mu i c ∧ CoordIn info.frame c u := by
  unfold processCoord emitCoord coordEvs
  simp only [bind_eq, pure_eq, bind_assoc]
  rw [acc_bind_silent (acc_coord info)]
  constructor
  · rintro ⟨c, u1, u2, rfl, hc, h⟩
    rw [acc_emitEv_bind] at h
    obtain ⟨evs', rfl, h⟩ := h
    obtain ⟨_, rfl, rfl⟩ := acc_ret.mp h
    exact ⟨c, rfl, by simpa using hc⟩
  · rintro ⟨c, rfl, hc⟩
    refine ⟨c, u, [], by simp, hc, ?_⟩
    rw [acc_emitEv_bind]
    exact ⟨[], rfl, acc_ret.mpr ⟨rfl, rfl, rfl⟩⟩

theorem acc_loop {α : Type} {multi : Bool} (R : α → List Byte → Prop) (f : Nat → α → List Ev)
    (body : Nat → Prog Unit) (h : ∀ i evs u, Acc multi (body i) () evs u ↔ ∃ x, evs = f i x ∧ R x u) (n : Nat) :
    ∀ i evs u, Acc multi (loop n i body) () evs u ↔
      ∃ xs : List α, xs.length = n ∧ evs = evList f i xs ∧ Cat R xs u := by
  induction n with
  | zero =>
    intro i evs u
    show Acc multi (ret ()) () evs u ↔ _
    rw [acc_ret]
    constructor
    · rintro ⟨_, rfl, rfl⟩; exact ⟨[], rfl, rfl, rfl⟩
    · rintro ⟨xs, hl, rfl, hc⟩
      have := List.eq_nil_of_length_eq_zero hl
      subst this
      exact ⟨rfl, rfl, hc⟩
  | succ n ih =>
    intro i evs u
    simp only [loop, bind_eq]
    rw [acc_bind]
    constructor
    · rintro ⟨⟨⟩, e1, e2, u1, u2, rfl, rfl, h1, h2⟩
      obtain ⟨x, rfl, hx⟩ := (h _ _ _).mp h1
      obtain ⟨xs, rfl, rfl, hc⟩ := (ih _ _ _).mp h2
      exact ⟨x :: xs, rfl, rfl, u1, u2, rfl, hx, hc⟩
    · rintro ⟨xs, hl, rfl, hc⟩
      cases xs with
      | nil => simp at hl
      | cons x xs =>
        obtain ⟨u1, u2, rfl, hx, hc⟩ := hc
        exact ⟨(), f i x, _, u1, u2, rfl, rfl, (h _ _ _).mpr ⟨x, rfl, hx⟩,
          (ih _ _ _).mpr ⟨xs, by simpa using hl, rfl, hc⟩⟩

/-- count, begin event, members, end event -/
theorem acc_framed {α : Type} {multi : Bool} (R : α → List Byte → Prop) (f : Nat → α → List Ev)
    (body : Nat → Prog Unit) (h : ∀ i evs u, Acc multi (body i) () evs u ↔ ∃ x, evs = f i x ∧ R x u)
    (e : Endian) (k : GKind) (tagged : Bool) (idx : Nat) (evs : List Ev) (u : List Byte) :
    Acc multi (Prog.bind (readU32 e) fun n => Prog.bind (emitEv (.gbegin k tagged n idx)) fun _ =>
        Prog.bind (loop n 0 body) fun _ => emitEv (.gend k tagged idx)) () evs u ↔
      ∃ xs, evs = bracket k tagged idx f xs ∧ Counted e R xs u := by
  rw [acc_bind_silent (acc_readU32 e)]
  constructor
  · rintro ⟨n, u1, u2, rfl, ⟨hn, rfl⟩, h1⟩
    rw [acc_emitEv_bind] at h1
    obtain ⟨evs, rfl, h1⟩ := h1
    rw [acc_bind] at h1
    obtain ⟨⟨⟩, e1, e2, u1, u2, rfl, rfl, h1, h2⟩ := h1
    obtain ⟨xs, rfl, rfl, hc⟩ := (acc_loop R f body h _ _ _ _).mp h1
    obtain ⟨rfl, rfl⟩ := acc_emitEv.mp h2
    exact ⟨xs, rfl, hn, u1, by simp, hc⟩
  · rintro ⟨xs, rfl, hn, bb, rfl, hc⟩
    refine ⟨xs.length, _, bb, rfl, ⟨hn, rfl⟩, ?_⟩
    rw [acc_emitEv_bind]
    refine ⟨_, rfl, ?_⟩
    rw [acc_bind]
    exact ⟨(), _, _, bb, [], rfl, by simp, (acc_loop R f body h _ _ _ _).mpr ⟨xs, rfl, rfl, hc⟩,
      acc_emitEv.mpr ⟨rfl, rfl⟩⟩

/-- the same with the question for `multi_dim()` between begin event and members -/
theorem acc_framedM {α : Type} {multi : Bool} (R : α → List Byte → Prop) (f : Nat → α → List Ev)
    (body : Bool → Nat → Prog Unit)
    (hb : ∀ i evs u, Acc multi (body multi i) () evs u ↔ ∃ x, evs = f i x ∧ R x u)
    (e : Endian) (k : GKind) (tagged : Bool) (idx : Nat) (evs : List Ev) (u : List Byte) :
    Acc multi (Prog.bind (readU32 e) fun n => Prog.bind (emitEv (.gbegin k tagged n idx)) fun _ =>
        Prog.bind multiDim fun mu => Prog.bind (loop n 0 (body mu)) fun _ => emitEv (.gend k tagged idx)) () evs u ↔
      ∃ xs, evs = bracket k tagged idx f xs ∧ Counted e R xs u := by
  rw [acc_bind_silent (acc_readU32 e)]
  constructor
  · rintro ⟨n, u1, u2, rfl, ⟨hn, rfl⟩, h1⟩
    rw [acc_emitEv_bind] at h1
    obtain ⟨evs, rfl, h1⟩ := h1
    rw [acc_multiDim_bind, acc_bind] at h1
    obtain ⟨⟨⟩, e1, e2, u1, u2, rfl, rfl, h1, h2⟩ := h1
    obtain ⟨xs, rfl, rfl, hc⟩ := (acc_loop R f _ hb _ _ _ _).mp h1
    obtain ⟨rfl, rfl⟩ := acc_emitEv.mp h2
    exact ⟨xs, rfl, hn, u1, by simp, hc⟩
  · rintro ⟨xs, rfl, hn, bb, rfl, hc⟩
    refine ⟨xs.length, _, bb, rfl, ⟨hn, rfl⟩, ?_⟩
    rw [acc_emitEv_bind]
    refine ⟨_, rfl, ?_⟩
    rw [acc_multiDim_bind, acc_bind]
    exact ⟨(), _, _, bb, [], rfl, by simp,
      (acc_loop R f _ hb _ _ _ _).mpr ⟨xs, rfl, rfl, hc⟩,
      acc_emitEv.mpr ⟨rfl, rfl⟩⟩

theorem acc_linestring (fo : FOps) {multi : Bool} (info : WkbInfo) (hc : info.isCompressed = false) (tagged : Bool)
    (idx : Nat) (evs : List Ev) (u : List Byte) :
    Acc multi (processLinestring fo info tagged idx) () evs u ↔
      ∃ cs, evs = lineEvs multi tagged idx cs ∧ PointsIn cs info.frame u := by
  have h := acc_framedM (multi := multi) (CoordIn info.frame) (coordEvs multi)
    (fun mu i => Prog.bind (processCoord info mu i) fun _ => ret ())
    (fun i evs u => acc_coordStep info i evs u) info.endian .lineString tagged idx evs u
  unfold processLinestring
  simp only [bind_eq, pure_eq, hc, Bool.false_eq_true, false_and, if_false]
  exact h

theorem acc_circularstring {multi : Bool} (info : WkbInfo) (idx : Nat) (evs : List Ev) (u : List Byte) :
    Acc multi (processCircularstring info idx) () evs u ↔
      ∃ cs, evs = circEvs multi idx cs ∧ PointsIn cs info.frame u := by
  have h := acc_framedM (multi := multi) (CoordIn info.frame) (coordEvs multi)
    (fun mu i => Prog.bind (processCoord info mu i) fun _ => ret ())
    (fun i evs u => acc_coordStep info i evs u) info.endian .circularString true idx evs u
  unfold processCircularstring
  simp only [bind_eq, pure_eq]
  exact h

theorem acc_polygon (fo : FOps) {multi : Bool} (info : WkbInfo) (hc : info.isCompressed = false) (tagged : Bool)
    (idx : Nat) (evs : List Ev) (u : List Byte) :
    Acc multi (processPolygon fo info tagged idx) () evs u ↔
      ∃ rings, evs = polyEvs multi tagged idx rings ∧ RingsIn rings info.frame u := by
  unfold processPolygon
  simp only [bind_eq]
  exact acc_framed (fun r => PointsIn r info.frame) (lineEvs multi false) _
    (fun i evs u => acc_linestring fo info hc false i evs u) info.endian .polygon tagged idx evs u

theorem acc_triangle (fo : FOps) {multi : Bool} (info : WkbInfo) (hc : info.isCompressed = false) (tagged : Bool)
    (idx : Nat) (evs : List Ev) (u : List Byte) :
    Acc multi (processTriangle fo info tagged idx) () evs u ↔
      ∃ rings, evs = triEvs multi tagged idx rings ∧ RingsIn rings info.frame u := by
  unfold processTriangle
  simp only [bind_eq]
  exact acc_framed (fun r => PointsIn r info.frame) (lineEvs multi false) _
    (fun i evs u => acc_linestring fo info hc false i evs u) info.endian .triangle tagged idx evs u

/-- `rh` accepts exactly the headers of the convention `H`. -/
structure HdrExact (H : LenientHeader) (rh : WkbInfo → Prog WkbInfo) : Prop where
  sound : ∀ {multi parent info evs u}, Acc multi (rh parent) info evs u →
    evs = [] ∧ info.isCompressed = false ∧
      ∃ code, info.baseType = WkbType.fromU32 code ∧ H parent.frame info.frame code u
  complete : ∀ (multi : Bool) (parent : WkbInfo) {f code u}, H parent.frame f code u →
    ∃ info : WkbInfo, info.isCompressed = false ∧ info.frame = f ∧ info.baseType = WkbType.fromU32 code ∧
      Acc multi (rh parent) info [] u

/-- a nested header and what depends on it -/
theorem acc_member {α : Type} {multi : Bool} {H : LenientHeader} {rh : WkbInfo → Prog WkbInfo} (hh : HdrExact H rh)
    (parent : WkbInfo) (k : WkbInfo → Prog Unit) (T : α → Nat → Prop) (f : α → List Ev)
    (B : α → Frame → List Byte → Prop)
    (hk : ∀ info code, info.isCompressed = false → info.baseType = WkbType.fromU32 code → ∀ evs u,
      (Acc multi (k info) () evs u ↔ ∃ x, evs = f x ∧ T x code ∧ B x info.frame u))
    (evs : List Ev) (u : List Byte) :
    Acc multi (Prog.bind (rh parent) k) () evs u ↔ ∃ x, evs = f x ∧ Member H parent.frame (T x) (B x) u := by
  rw [acc_bind]
  constructor
  · rintro ⟨info, e1, e2, u1, u2, rfl, rfl, h1, h2⟩
    obtain ⟨rfl, hc, code, hb, hH⟩ := hh.sound h1
    obtain ⟨x, rfl, hT, hB⟩ := (hk info code hc hb _ _).mp h2
    exact ⟨x, rfl, info.frame, code, u1, u2, rfl, hH, hT, hB⟩
  · rintro ⟨x, rfl, f', code, hb, bb, rfl, hH, hT, hB⟩
    obtain ⟨info, hc, rfl, hbase, h1⟩ := hh.complete multi parent hH
    exact ⟨info, [], f x, hb, bb, rfl, rfl, h1, (hk info code hc hbase _ _).mpr ⟨x, rfl, hT, hB⟩⟩

/-! ### side conditions -/

theorem cat_and {α : Type} (S : α → Prop) (R : α → List Byte → Prop) (xs : List α) (u : List Byte) :
    Cat (fun x u => S x ∧ R x u) xs u ↔ (∀ x ∈ xs, S x) ∧ Cat R xs u := by
  induction xs generalizing u with
  | nil => simp [Cat]
  | cons x xs ih =>
    simp only [Cat, ih, List.mem_cons, forall_eq_or_imp]
    constructor
    · rintro ⟨b1, b2, rfl, ⟨hs, hr⟩, hss, hrs⟩
      exact ⟨⟨hs, hss⟩, b1, b2, rfl, hr, hrs⟩
    · rintro ⟨⟨hs, hss⟩, b1, b2, rfl, hr, hrs⟩
      exact ⟨b1, b2, rfl, ⟨hs, hr⟩, hss, hrs⟩

theorem counted_and {α : Type} (S : α → Prop) (R : α → List Byte → Prop) (e : Endian) (xs : List α) (u : List Byte) :
    Counted e (fun x u => S x ∧ R x u) xs u ↔ (∀ x ∈ xs, S x) ∧ Counted e R xs u := by
  unfold Counted
  constructor
  · rintro ⟨hl, bb, rfl, hc⟩
    obtain ⟨h1, h2⟩ := (cat_and S R xs bb).mp hc
    exact ⟨h1, hl, bb, rfl, h2⟩
  · rintro ⟨h1, hl, bb, rfl, h2⟩
    exact ⟨hl, bb, rfl, (cat_and S R xs bb).mpr ⟨h1, h2⟩⟩

theorem member_and (H : LenientHeader) (f : Frame) (S : Prop) (T : Nat → Prop) (B : Frame → List Byte → Prop)
    (u : List Byte) : Member H f (fun c => T c ∧ S) B u ↔ S ∧ Member H f T B u := by
  unfold Member
  constructor
  · rintro ⟨f', code, hb, bb, rfl, hH, ⟨hT, hS⟩, hB⟩
    exact ⟨hS, f', code, hb, bb, rfl, hH, hT, hB⟩
  · rintro ⟨hS, f', code, hb, bb, rfl, hH, hT, hB⟩
    exact ⟨f', code, hb, bb, rfl, hH, ⟨hT, hS⟩, hB⟩

theorem member_and' (H : LenientHeader) (f : Frame) (S : Prop) (T : Nat → Prop) (B : Frame → List Byte → Prop) :
    Member H f (fun c => T c ∧ S) B = fun u => S ∧ Member H f T B u :=
  funext fun u => propext (member_and H f S T B u)

theorem fromU32_toU32 (t : WkbType) : WkbType.fromU32 t.toU32 = t := by cases t <;> rfl

theorem toU32_fromU32 (c : Nat) (h : WkbType.fromU32 c ≠ .unknown) : (WkbType.fromU32 c).toU32 = c := by
  have : (WkbType.fromU32 c).toU32 = c ∨ WkbType.fromU32 c = .unknown := by
    unfold WkbType.fromU32
    split <;> first | exact Or.inl rfl | exact Or.inr rfl
  exact this.resolve_right h

theorem fromU32_eq {c : Nat} {t : WkbType} (ht : t ≠ .unknown) : WkbType.fromU32 c = t ↔ c = t.toU32 := by
  constructor
  · rintro rfl; exact (toU32_fromU32 c ht).symm
  · rintro rfl; exact fromU32_toU32 t

/-! ### curves -/

def segType : Seg → Nat → Prop
  | .line _ => (· = 2)
  | .circ _ => (· = 8)

theorem segIn_eq (H : LenientHeader) (f : Frame) (s : Seg) : SegIn H f s = Member H f (segType s) (PointsIn s.coords) := by
  cases s <;> rfl

theorem acc_segment (fo : FOps) {multi : Bool} (info : WkbInfo) (code : Nat) (hc : info.isCompressed = false)
    (hb : info.baseType = WkbType.fromU32 code) (i : Nat) (evs : List Ev) (u : List Byte) :
    Acc multi (processSegment fo info i) () evs u ↔
      ∃ s, evs = segEvs multi i s ∧ segType s code ∧ PointsIn s.coords info.frame u := by
  unfold processSegment
  constructor
  · intro h
    split at h
    · rename_i ht
      rw [hb, fromU32_eq (by simp)] at ht
      obtain ⟨cs, rfl, hp⟩ := (acc_circularstring info i _ _).mp h
      exact ⟨.circ cs, rfl, ht, hp⟩
    · rename_i ht
      rw [hb, fromU32_eq (by simp)] at ht
      obtain ⟨cs, rfl, hp⟩ := (acc_linestring fo info hc false i _ _).mp h
      exact ⟨.line cs, rfl, ht, hp⟩
    · exact absurd h acc_fail.mp
  · rintro ⟨s, rfl, ht, hp⟩
    rw [hb]
    cases s with
    | line cs => cases ht; exact (acc_linestring fo info hc false i _ _).mpr ⟨cs, rfl, hp⟩
    | circ cs => cases ht; exact (acc_circularstring info i _ _).mpr ⟨cs, rfl, hp⟩

theorem acc_compound (fo : FOps) {multi : Bool} {H : LenientHeader} {rh : WkbInfo → Prog WkbInfo} (hh : HdrExact H rh)
    (info : WkbInfo) (idx depth : Nat) (evs : List Ev) (u : List Byte) :
    Acc multi (processCompoundcurve fo rh info idx depth) () evs u ↔
      ∃ ss, evs = bracket .compoundCurve true idx (segEvs multi) ss ∧ depth ≤ 128 ∧ CompoundIn H ss info.frame u := by
  unfold processCompoundcurve wkbMaxNestingDepth
  split
  · rw [acc_fail]
    constructor
    · exact False.elim
    · rintro ⟨_, _, h, _⟩; omega
  · simp only [bind_eq]
    rw [acc_framed (SegIn H info.frame) (segEvs multi)]
    · constructor
      · rintro ⟨ss, rfl, h⟩; exact ⟨ss, rfl, by omega, h⟩
      · rintro ⟨ss, rfl, _, h⟩; exact ⟨ss, rfl, h⟩
    · intro i evs u
      simp only [segIn_eq]
      exact acc_member hh info _ segType (segEvs multi i) (fun s => PointsIn s.coords)
        (fun info' code hc hb evs u => acc_segment fo info' code hc hb i evs u) evs u

def curveType : Curve → Nat → Prop
  | .seg s => segType s
  | .compound _ => (· = 9)

def curveBody (H : LenientHeader) : Curve → Frame → List Byte → Prop
  | .seg s => PointsIn s.coords
  | .compound ss => CompoundIn H ss

theorem curveIn_eq (H : LenientHeader) (f : Frame) (c : Curve) :
    CurveIn H f c = Member H f (curveType c) (curveBody H c) := by
  rcases c with ⟨_ | _⟩ | _ <;> rfl

theorem acc_curveBody (fo : FOps) {multi : Bool} {H : LenientHeader} {rh : WkbInfo → Prog WkbInfo} (hh : HdrExact H rh)
    (info : WkbInfo) (code : Nat) (hc : info.isCompressed = false) (hb : info.baseType = WkbType.fromU32 code)
    (idx depth : Nat) (hd : depth ≤ 129) (evs : List Ev) (u : List Byte) :
    Acc multi (processCurveBody fo rh info idx depth) () evs u ↔
      ∃ c, evs = curveEvs multi idx c ∧ (curveType c code ∧ depth + c.levels ≤ 129) ∧ curveBody H c info.frame u := by
  unfold processCurveBody
  constructor
  · intro h
    split at h
    · rename_i ht
      rw [hb, fromU32_eq (by simp)] at ht
      obtain ⟨cs, rfl, hp⟩ := (acc_circularstring info idx _ _).mp h
      exact ⟨.seg (.circ cs), rfl, ⟨ht, hd⟩, hp⟩
    · rename_i ht
      rw [hb, fromU32_eq (by simp)] at ht
      obtain ⟨cs, rfl, hp⟩ := (acc_linestring fo info hc false idx _ _).mp h
      exact ⟨.seg (.line cs), rfl, ⟨ht, hd⟩, hp⟩
    · rename_i ht
      rw [hb, fromU32_eq (by simp)] at ht
      obtain ⟨ss, rfl, h1, hp⟩ := (acc_compound fo hh info idx _ _ _).mp h
      exact ⟨.compound ss, rfl, ⟨ht, by simp only [Curve.levels]; omega⟩, hp⟩
    · exact absurd h acc_fail.mp
  · rintro ⟨c, rfl, ⟨ht, hl⟩, hp⟩
    rw [hb]
    rcases c with ⟨cs | cs⟩ | ss
    · cases ht; exact (acc_linestring fo info hc false idx _ _).mpr ⟨cs, rfl, hp⟩
    · cases ht; exact (acc_circularstring info idx _ _).mpr ⟨cs, rfl, hp⟩
    · cases ht
      exact (acc_compound fo hh info idx _ _ _).mpr ⟨ss, rfl, by simp only [Curve.levels] at hl; omega, hp⟩

theorem acc_curve (fo : FOps) {multi : Bool} {H : LenientHeader} {rh : WkbInfo → Prog WkbInfo} (hh : HdrExact H rh)
    (parent : WkbInfo) (idx depth : Nat) (hd : depth ≤ 129) (evs : List Ev) (u : List Byte) :
    Acc multi (processCurve fo rh parent idx depth) () evs u ↔
      ∃ c, evs = curveEvs multi idx c ∧ (depth + c.levels ≤ 129 ∧ CurveIn H parent.frame c u) := by
  unfold processCurve
  simp only [bind_eq]
  rw [acc_member hh parent _ (fun c code => curveType c code ∧ depth + c.levels ≤ 129) (curveEvs multi idx)
    (curveBody H) (fun info code hc hb evs u => acc_curveBody fo hh info code hc hb idx depth hd evs u)]
  simp only [member_and, curveIn_eq]

theorem acc_curvepolygon (fo : FOps) {multi : Bool} {H : LenientHeader} {rh : WkbInfo → Prog WkbInfo}
    (hh : HdrExact H rh) (info : WkbInfo) (idx depth : Nat) (evs : List Ev) (u : List Byte) :
    Acc multi (processCurvepolygon fo rh info idx depth) () evs u ↔
      ∃ rings, evs = bracket .curvePolygon true idx (curveEvs multi) rings ∧
        depth + (rings.map (fun c => 1 + c.levels)).foldr max 1 ≤ 129 ∧ CurvesIn H rings info.frame u := by
  unfold processCurvepolygon wkbMaxNestingDepth
  split
  · rw [acc_fail]
    constructor
    · exact False.elim
    · rintro ⟨rings, _, h, _⟩
      have := (foldr_max_le (fun c : Curve => 1 + c.levels) 1 (129 - depth) rings).mp (by omega)
      omega
  · simp only [bind_eq]
    rw [acc_framed (fun c u => depth + 1 + c.levels ≤ 129 ∧ CurveIn H info.frame c u) (curveEvs multi) _
      (fun i evs u => acc_curve fo hh info i (depth + 1) (by omega) evs u)]
    simp only [counted_and]
    have key : ∀ rings : List Curve, (∀ c ∈ rings, depth + 1 + c.levels ≤ 129) ↔
        depth + (rings.map (fun c => 1 + c.levels)).foldr max 1 ≤ 129 := by
      intro rings
      have := foldr_max_le (fun c : Curve => 1 + c.levels) 1 (129 - depth) rings
      constructor
      · intro hall
        have := this.mpr ⟨by omega, fun x hx => by have := hall x hx; omega⟩
        omega
      · intro h x hx
        have := (this.mp (by omega)).2 x hx
        omega
    simp only [key]
    rfl

def surfaceType : Surface → Nat → Prop
  | .polygon _ => (· = 3)
  | .curvePolygon _ => (· = 10)

def surfaceBody (H : LenientHeader) : Surface → Frame → List Byte → Prop
  | .polygon rings => RingsIn rings
  | .curvePolygon rings => CurvesIn H rings

theorem surfaceIn_eq (H : LenientHeader) (f : Frame) (s : Surface) :
    SurfaceIn H f s = Member H f (surfaceType s) (surfaceBody H s) := by
  cases s <;> rfl

theorem acc_surfaceBody (fo : FOps) {multi : Bool} {H : LenientHeader} {rh : WkbInfo → Prog WkbInfo}
    (hh : HdrExact H rh) (info : WkbInfo) (code : Nat) (hc : info.isCompressed = false)
    (hb : info.baseType = WkbType.fromU32 code) (i depth : Nat) (hd : depth ≤ 128) (evs : List Ev) (u : List Byte) :
    Acc multi (processSurfaceBody fo rh info i depth) () evs u ↔
      ∃ s, evs = surfaceEvs multi i s ∧ (surfaceType s code ∧ depth + s.levels ≤ 128) ∧ surfaceBody H s info.frame u := by
  unfold processSurfaceBody
  constructor
  · intro h
    split at h
    · rename_i ht
      rw [hb, fromU32_eq (by simp)] at ht
      obtain ⟨rings, rfl, hl, hp⟩ := (acc_curvepolygon fo hh info i _ _ _).mp h
      exact ⟨.curvePolygon rings, rfl, ⟨ht, by simp only [Surface.levels]; omega⟩, hp⟩
    · rename_i ht
      rw [hb, fromU32_eq (by simp)] at ht
      obtain ⟨rings, rfl, hp⟩ := (acc_polygon fo info hc false i _ _).mp h
      exact ⟨.polygon rings, rfl, ⟨ht, by simp only [Surface.levels]; omega⟩, hp⟩
    · exact absurd h acc_fail.mp
  · rintro ⟨s, rfl, ⟨ht, hl⟩, hp⟩
    rw [hb]
    cases s with
    | polygon rings => cases ht; exact (acc_polygon fo info hc false i _ _).mpr ⟨rings, rfl, hp⟩
    | curvePolygon rings =>
      cases ht
      exact (acc_curvepolygon fo hh info i _ _ _).mpr ⟨rings, rfl, by simp only [Surface.levels] at hl; omega, hp⟩

/-! ### all geometries -/

theorem acc_point {multi : Bool} (H : LenientHeader) (info : WkbInfo) (idx : Nat) (evs : List Ev) (u : List Byte) :
    Acc multi (processPoint info idx) () evs u ↔
      (evs = Geom.events multi idx .emptyPoint ∧ BodyIn H .emptyPoint info.frame u) ∨
      ∃ c, evs = Geom.events multi idx (.point c) ∧ BodyIn H (.point c) info.frame u := by
  unfold processPoint emitCoord
  simp only [bind_eq, pure_eq, BodyIn]
  rw [acc_bind_silent (acc_coord info)]
  constructor
  · rintro ⟨c, u1, u2, rfl, hc, h⟩
    by_cases hn : c.allNaN = true
    · simp only [hn, if_true] at h
      obtain ⟨rfl, rfl⟩ := acc_emitEv.mp h
      exact Or.inl ⟨by simp [Geom.events], c, (allNaN_iff c).mp hn, by simpa using hc⟩
    · simp only [hn] at h
      simp only [Bool.false_eq_true, if_false, acc_emitEv_bind, acc_multiDim_bind, bind_assoc, ret_bind, acc_emitEv] at h
      obtain ⟨e1, rfl, e2, rfl, rfl, rfl⟩ := h
      exact Or.inr ⟨c, by simp [Geom.events], fun ha => hn ((allNaN_iff c).mpr ha), by simpa using hc⟩
  · rintro (⟨rfl, c, hn, hc⟩ | ⟨c, rfl, hn, hc⟩)
    · refine ⟨c, u, [], by simp, hc, ?_⟩
      simp only [(allNaN_iff c).mpr hn, if_true, acc_emitEv]
      simp [Geom.events]
    · refine ⟨c, u, [], by simp, hc, ?_⟩
      have : ¬ c.allNaN = true := fun ha => hn ((allNaN_iff c).mp ha)
      simp only [this, Bool.false_eq_true, if_false, acc_emitEv_bind, acc_multiDim_bind, bind_assoc, ret_bind, acc_emitEv]
      simp [Geom.events]

theorem bodiesIn_iff (H : LenientHeader) (gs : List Geom) (f : Frame) (bs : List Byte) :
    BodiesIn H gs f bs ↔ Cat (fun g => Member H f (fun c => typeCode g = c) (BodyIn H g)) gs bs := by
  have key : ∀ g bs, Member H f (fun c => typeCode g = c) (BodyIn H g) bs ↔
      ∃ f' hb bb, bs = hb ++ bb ∧ H f f' (typeCode g) hb ∧ BodyIn H g f' bb := by
    intro g bs
    unfold Member
    constructor
    · rintro ⟨f', code, hb, bb, rfl, hH, rfl, hB⟩; exact ⟨f', hb, bb, rfl, hH, hB⟩
    · rintro ⟨f', hb, bb, rfl, hH, hB⟩; exact ⟨f', _, hb, bb, rfl, hH, rfl, hB⟩
  induction gs generalizing bs with
  | nil => simp [BodiesIn, Cat]
  | cons g gs ih => simp only [BodiesIn, Cat, ih, key]

/-- members whose type is not looked at -/
theorem acc_anyMember {α : Type} {multi : Bool} {H : LenientHeader} {rh : WkbInfo → Prog WkbInfo} (hh : HdrExact H rh)
    (parent : WkbInfo) (k : WkbInfo → Prog Unit) (f : α → List Ev) (B : α → Frame → List Byte → Prop)
    (hk : ∀ info, info.isCompressed = false → ∀ evs u,
      (Acc multi (k info) () evs u ↔ ∃ x, evs = f x ∧ B x info.frame u)) (evs : List Ev) (u : List Byte) :
    Acc multi (Prog.bind (rh parent) k) () evs u ↔ ∃ x, evs = f x ∧ Member H parent.frame anyType (B x) u := by
  refine acc_member hh parent k (fun _ => anyType) f B ?_ evs u
  intro info code hc _ evs u
  rw [hk info hc]
  simp [anyType]

theorem acc_members {α : Type} {multi : Bool} (R : α → List Byte → Prop) (f : Nat → α → List Ev)
    (body : Nat → Prog Unit) (h : ∀ i evs u, Acc multi (body i) () evs u ↔ ∃ x, evs = f i x ∧ R x u)
    (info : WkbInfo) (k : GKind) (idx : Nat) (evs : List Ev) (u : List Byte) :
    Acc multi (processMembers k info idx body) () evs u ↔
      ∃ xs, evs = bracket k true idx f xs ∧ Counted info.frame.order R xs u := by
  unfold processMembers
  simp only [bind_eq]
  exact acc_framed R f body h info.endian k true idx evs u

/-- a geometry whose type code is that of one constructor -/
theorem ex_code {α : Type} (mk : α → Geom) (code : Nat) (hmk : ∀ x, typeCode (mk x) = code)
    (hall : ∀ g, typeCode g = code → ∃ x, g = mk x) (P : Geom → Prop) :
    (∃ g, typeCode g = code ∧ P g) ↔ ∃ x, P (mk x) := by
  constructor
  · rintro ⟨g, hg, hp⟩
    obtain ⟨x, rfl⟩ := hall g hg
    exact ⟨x, hp⟩
  · rintro ⟨x, hp⟩; exact ⟨mk x, hmk x, hp⟩

theorem ex_multiPoint (P : Geom → Prop) : (∃ g, typeCode g = 4 ∧ P g) ↔ ∃ x, P (.multiPoint x) :=
  ex_code Geom.multiPoint 4 (fun _ => rfl) (fun g hg => by cases g <;> first | exact ⟨_, rfl⟩ | cases hg) P

theorem ex_lineString (P : Geom → Prop) : (∃ g, typeCode g = 2 ∧ P g) ↔ ∃ x, P (.lineString x) :=
  ex_code Geom.lineString 2 (fun _ => rfl) (fun g hg => by cases g <;> first | exact ⟨_, rfl⟩ | cases hg) P

theorem ex_circularString (P : Geom → Prop) : (∃ g, typeCode g = 8 ∧ P g) ↔ ∃ x, P (.circularString x) :=
  ex_code Geom.circularString 8 (fun _ => rfl) (fun g hg => by cases g <;> first | exact ⟨_, rfl⟩ | cases hg) P

theorem ex_compoundCurve (P : Geom → Prop) : (∃ g, typeCode g = 9 ∧ P g) ↔ ∃ x, P (.compoundCurve x) :=
  ex_code Geom.compoundCurve 9 (fun _ => rfl) (fun g hg => by cases g <;> first | exact ⟨_, rfl⟩ | cases hg) P

theorem ex_multiLineString (P : Geom → Prop) : (∃ g, typeCode g = 5 ∧ P g) ↔ ∃ x, P (.multiLineString x) :=
  ex_code Geom.multiLineString 5 (fun _ => rfl) (fun g hg => by cases g <;> first | exact ⟨_, rfl⟩ | cases hg) P

theorem ex_multiCurve (P : Geom → Prop) : (∃ g, typeCode g = 11 ∧ P g) ↔ ∃ x, P (.multiCurve x) :=
  ex_code Geom.multiCurve 11 (fun _ => rfl) (fun g hg => by cases g <;> first | exact ⟨_, rfl⟩ | cases hg) P

theorem ex_polygon (P : Geom → Prop) : (∃ g, typeCode g = 3 ∧ P g) ↔ ∃ x, P (.polygon x) :=
  ex_code Geom.polygon 3 (fun _ => rfl) (fun g hg => by cases g <;> first | exact ⟨_, rfl⟩ | cases hg) P

theorem ex_triangle (P : Geom → Prop) : (∃ g, typeCode g = 17 ∧ P g) ↔ ∃ x, P (.triangle x) :=
  ex_code Geom.triangle 17 (fun _ => rfl) (fun g hg => by cases g <;> first | exact ⟨_, rfl⟩ | cases hg) P

theorem ex_curvePolygon (P : Geom → Prop) : (∃ g, typeCode g = 10 ∧ P g) ↔ ∃ x, P (.curvePolygon x) :=
  ex_code Geom.curvePolygon 10 (fun _ => rfl) (fun g hg => by cases g <;> first | exact ⟨_, rfl⟩ | cases hg) P

theorem ex_multiPolygon (P : Geom → Prop) : (∃ g, typeCode g = 6 ∧ P g) ↔ ∃ x, P (.multiPolygon x) :=
  ex_code Geom.multiPolygon 6 (fun _ => rfl) (fun g hg => by cases g <;> first | exact ⟨_, rfl⟩ | cases hg) P

theorem ex_polyhedralSurface (P : Geom → Prop) : (∃ g, typeCode g = 15 ∧ P g) ↔ ∃ x, P (.polyhedralSurface x) :=
  ex_code Geom.polyhedralSurface 15 (fun _ => rfl) (fun g hg => by cases g <;> first | exact ⟨_, rfl⟩ | cases hg) P

theorem ex_tin (P : Geom → Prop) : (∃ g, typeCode g = 16 ∧ P g) ↔ ∃ x, P (.tin x) :=
  ex_code Geom.tin 16 (fun _ => rfl) (fun g hg => by cases g <;> first | exact ⟨_, rfl⟩ | cases hg) P

theorem ex_multiSurface (P : Geom → Prop) : (∃ g, typeCode g = 12 ∧ P g) ↔ ∃ x, P (.multiSurface x) :=
  ex_code Geom.multiSurface 12 (fun _ => rfl) (fun g hg => by cases g <;> first | exact ⟨_, rfl⟩ | cases hg) P

theorem ex_collection (P : Geom → Prop) : (∃ g, typeCode g = 7 ∧ P g) ↔ ∃ x, P (.collection x) :=
  ex_code Geom.collection 7 (fun _ => rfl) (fun g hg => by cases g <;> first | exact ⟨_, rfl⟩ | cases hg) P

/-- no other type code has a geometry -/
theorem typeCode_types (g : Geom) : WkbType.fromU32 (typeCode g) ∈ [WkbType.point, .multiPoint, .lineString,
    .circularString, .compoundCurve, .multiLineString, .multiCurve, .polygon, .triangle, .curvePolygon, .multiPolygon,
    .polyhedralSurface, .tin, .multiSurface, .geometryCollection] := by
  cases g <;> simp [typeCode, WkbType.fromU32]

theorem acc_geomN (fo : FOps) {H : LenientHeader} {rh : WkbInfo → Prog WkbInfo} (hh : HdrExact H rh) (multi : Bool)
    (fuel : Nat) : ∀ (depth : Nat), fuel + depth ≥ 130 → depth ≤ 129 → ∀ (info : WkbInfo) (code : Nat),
      info.isCompressed = false → info.baseType = WkbType.fromU32 code → ∀ (idx : Nat) (evs : List Ev) (u : List Byte),
      (Acc multi (processGeomN fo rh fuel info idx depth) () evs u ↔
        ∃ g, typeCode g = code ∧ evs = g.events multi idx ∧ depth + g.levels ≤ 128 ∧ BodyIn H g info.frame u) := by
  induction fuel with
  | zero => intro depth h1 h2; omega
  | succ fuel ih =>
    intro depth hf hd129 info code hc hb idx evs u
    unfold processGeomN wkbMaxNestingDepth
    by_cases hd : depth > 128
    · simp only [hd, if_true, acc_fail, false_iff]
      rintro ⟨g, _, _, h, _⟩
      omega
    simp only [hd, if_false]
    have hd' : depth ≤ 128 := by omega
    split
    · rename_i ht
      rw [hb, fromU32_eq (by simp)] at ht
      simp only [WkbType.toU32] at ht
      subst ht
      rw [acc_point H]
      constructor
      · rintro (⟨rfl, h⟩ | ⟨c, rfl, h⟩)
        · exact ⟨.emptyPoint, rfl, rfl, by simpa [Geom.levels] using hd', h⟩
        · exact ⟨.point c, rfl, rfl, by simpa [Geom.levels] using hd', h⟩
      · rintro ⟨g, hg, rfl, _, h⟩
        cases g <;> simp [typeCode] at hg
        · exact Or.inl ⟨rfl, h⟩
        · exact Or.inr ⟨_, rfl, h⟩
    all_goals try (rename_i ht; rw [hb, fromU32_eq (by simp)] at ht; simp only [WkbType.toU32] at ht; subst ht)
    · rw [ex_multiPoint]
      simp only [bind_eq, pure_eq, Geom.events, Geom.levels, BodyIn]
      rw [acc_framedM (fun c => Member H info.frame anyType (fun f' => CoordIn f' c)) (coordEvs multi)
        (fun mu i => Prog.bind (rh info) fun sub => Prog.bind (processCoord sub mu i) fun _ => ret ())
        (fun i evs u => acc_anyMember hh info _ _ _ (fun sub _ evs u => acc_coordStep sub i evs u) evs u)]
      simp only [show depth + 0 ≤ 128 from hd', true_and]
      rfl
    · rw [ex_lineString,
        acc_linestring fo info hc]
      simp only [Geom.events, Geom.levels, BodyIn, show depth + 0 ≤ 128 from hd', true_and]
    · rw [ex_circularString,
        acc_circularstring info]
      simp only [Geom.events, Geom.levels, BodyIn, show depth + 0 ≤ 128 from hd', true_and]
    · rw [ex_compoundCurve,
        acc_compound fo hh info]
      simp only [Geom.events, Geom.levels, BodyIn]
    · rw [ex_multiLineString]
      simp only [bind_eq, Geom.events, Geom.levels, BodyIn, show depth + 0 ≤ 128 from hd', true_and]
      exact acc_members _ _ _ (fun i evs u => acc_anyMember hh info _ (lineEvs multi false i) PointsIn
        (fun sub hc evs u => acc_linestring fo sub hc false i evs u) evs u) info _ idx evs u
    · rw [ex_multiCurve]
      simp only [Geom.events, Geom.levels, BodyIn]
      rw [acc_members _ _ _ (fun i evs u => acc_curve fo hh info i (depth + 1) (by omega) evs u) info]
      simp only [counted_and]
      have key : ∀ cs : List Curve, (∀ c ∈ cs, depth + 1 + c.levels ≤ 129) ↔
          depth + (cs.map Curve.levels).foldr max 0 ≤ 128 := by
        intro cs
        have := foldr_max_le Curve.levels 0 (128 - depth) cs
        constructor
        · intro hall
          have := this.mpr ⟨by omega, fun x hx => by have := hall x hx; omega⟩
          omega
        · intro h x hx
          have := (this.mp (by omega)).2 x hx
          omega
      simp only [key]
      rfl
    · rw [ex_polygon,
        acc_polygon fo info hc]
      simp only [Geom.events, Geom.levels, BodyIn, show depth + 0 ≤ 128 from hd', true_and]
    · rw [ex_triangle,
        acc_triangle fo info hc]
      simp only [Geom.events, Geom.levels, BodyIn, show depth + 0 ≤ 128 from hd', true_and]
    · rw [ex_curvePolygon,
        acc_curvepolygon fo hh info]
      simp only [Geom.events, Geom.levels, BodyIn]
      have key : ∀ n : Nat, depth + 1 + n ≤ 129 ↔ depth + n ≤ 128 := by omega
      simp only [key]
    · rw [ex_multiPolygon]
      simp only [bind_eq, Geom.events, Geom.levels, BodyIn, show depth + 0 ≤ 128 from hd', true_and]
      exact acc_members _ _ _ (fun i evs u => acc_anyMember hh info _ (polyEvs multi false i) RingsIn
        (fun sub hc evs u => acc_polygon fo sub hc false i evs u) evs u) info _ idx evs u
    · rw [ex_polyhedralSurface]
      simp only [bind_eq, Geom.events, Geom.levels, BodyIn, show depth + 0 ≤ 128 from hd', true_and]
      exact acc_members _ _ _ (fun i evs u => acc_anyMember hh info _ (polyEvs multi false i) RingsIn
        (fun sub hc evs u => acc_polygon fo sub hc false i evs u) evs u) info _ idx evs u
    · rw [ex_tin]
      simp only [bind_eq, Geom.events, Geom.levels, BodyIn, show depth + 0 ≤ 128 from hd', true_and]
      exact acc_members _ _ _ (fun i evs u => acc_anyMember hh info _ (triEvs multi false i) RingsIn
        (fun sub hc evs u => acc_triangle fo sub hc false i evs u) evs u) info _ idx evs u
    · rw [ex_multiSurface]
      simp only [bind_eq, Geom.events, Geom.levels, BodyIn]
      rw [acc_members _ _ _ (fun i evs u => acc_member hh info _
        (fun s c => surfaceType s c ∧ depth + s.levels ≤ 128) (surfaceEvs multi i) (surfaceBody H)
        (fun sub code hc hb evs u => acc_surfaceBody fo hh sub code hc hb i depth hd' evs u) evs u) info]
      simp only [member_and', counted_and]
      have key : ∀ ss : List Surface, (∀ s ∈ ss, depth + s.levels ≤ 128) ↔
          depth + (ss.map Surface.levels).foldr max 0 ≤ 128 := by
        intro ss
        have := foldr_max_le Surface.levels 0 (128 - depth) ss
        constructor
        · intro hall
          have := this.mpr ⟨by omega, fun x hx => by have := hall x hx; omega⟩
          omega
        · intro h x hx
          have := (this.mp (by omega)).2 x hx
          omega
      simp only [key, funext (surfaceIn_eq H info.frame)]
    · rw [ex_collection]
      simp only [bind_eq, events_collection, Geom.levels, BodyIn]
      rw [acc_members _ _ _ (fun i evs u => acc_member hh info _
        (fun g c => typeCode g = c ∧ depth + 1 + g.levels ≤ 128) (Geom.events multi i) (BodyIn H)
        (fun sub code hc hb evs u => by
          rw [ih (depth + 1) (by omega) (by omega) sub code hc hb i evs u]
          constructor
          · rintro ⟨g, h1, h2, h3, h4⟩; exact ⟨g, h2, ⟨h1, h3⟩, h4⟩
          · rintro ⟨g, h2, ⟨h1, h3⟩, h4⟩; exact ⟨g, h1, h2, h3, h4⟩) evs u) info]
      simp only [member_and', counted_and]
      have key : ∀ gs : List Geom, (∀ g ∈ gs, depth + 1 + g.levels ≤ 128) ↔ depth + levelsList gs ≤ 128 := by
        intro gs
        have := levelsList_le gs (128 - depth)
        constructor
        · intro hall
          have := this.mpr (fun x hx => by have := hall x hx; omega)
          omega
        · intro h x hx
          have := this.mp (by omega) x hx
          omega
      simp only [key, bodiesIn_iff]
      rfl
    · rename_i h1 h2 h3 h4 h5 h6 h7 h8 h9 h10 h11 h12 h13 h14 h15
      rw [acc_fail, false_iff]
      rintro ⟨g, rfl, _⟩
      have := typeCode_types g
      rw [← hb] at this
      simp only [List.mem_cons, List.not_mem_nil, or_false] at this
      rcases this with h | h | h | h | h | h | h | h | h | h | h | h | h | h | h <;> contradiction

end Geozero
