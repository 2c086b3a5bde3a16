import Verif.Lemmas.Cost

/-
A program logic for what a processor reserves from announced sizes: reading a byte brings `W`, a call that announces
`n` elements takes at most `W * n` and at most `cap`; the elements pay for it afterwards, if they come.
-/

namespace Geozero

/-- what a call takes, `w k n` for the begin of a geometry of kind `k` announcing `n` elements -/
def evWeight (w : GKind → Nat → Nat) : Ev → Nat
  | .gbegin k _ n _ => w k n
  | _ => 0

/-- what a list of calls takes -/
def weights (w : GKind → Nat → Nat) : List Ev → Nat
  | [] => 0
  | e :: evs => evWeight w e + weights w evs

/-- having brought `r` and taken `t`, the reader never has taken more than `B` above what it brought, and ends with `Q` -/
def Prog.Owes {α : Type} (W : Nat) (w : GKind → Nat → Nat) (B : Nat) (Q : α → Nat → Nat → Prop) : Nat → Nat → Prog α → Prop
  | r, t, .ret a => Q a r t
  | _, _, .fail _ => True
  | r, t, .read k => ∀ b, Prog.Owes W w B Q (r + W) t (k b)
  | r, t, .emit e k => t + evWeight w e ≤ r + B ∧ Prog.Owes W w B Q r (t + evWeight w e) k
  | r, t, .askMulti k => ∀ b, Prog.Owes W w B Q r t (k b)

/-- the reader brings `n` bytes more than it takes, and is never more than `D` times `cap` short on the way -/
structure Prog.Backs {α : Type} (W cap : Nat) (w : GKind → Nat → Nat) (n D : Nat) (p : Prog α) : Prop where
  owes : ∀ r t B, t + D * cap ≤ r + B → Prog.Owes W w B (fun _ r' t' => t' + r + W * n ≤ r' + t) r t p

namespace Prog

variable {α β : Type} {W cap : Nat} {w : GKind → Nat → Nat}

theorem Owes.mono {B : Nat} {Q R : α → Nat → Nat → Prop} {p : Prog α} {r t : Nat} (h : Owes W w B Q r t p)
    (hQ : ∀ a r t, Q a r t → R a r t) : Owes W w B R r t p := by
  induction p generalizing r t with
  | ret a => exact hQ a _ _ h
  | fail e => trivial
  | read k ih => intro b; exact ih b (h b)
  | emit e k ih => exact ⟨h.1, ih h.2⟩
  | askMulti k ih => intro b; exact ih b (h b)

theorem Owes.bind {B : Nat} {Q : α → Nat → Nat → Prop} {R : β → Nat → Nat → Prop} {p : Prog α} {f : α → Prog β} {r t : Nat}
    (hp : Owes W w B Q r t p) (hf : ∀ a r' t', Q a r' t' → Owes W w B R r' t' (f a)) : Owes W w B R r t (Prog.bind p f) := by
  induction p generalizing r t with
  | ret a => exact hf a r t hp
  | fail e => trivial
  | read k ih => intro b; exact ih b (hp b)
  | emit e k ih => exact ⟨hp.1, ih hp.2⟩
  | askMulti k ih => intro b; exact ih b (hp b)

theorem Owes.sound {σ : Type} {B : Nat} {Q : α → Nat → Nat → Prop} {p : Prog α} {r t : Nat} (h : Owes W w B Q r t p)
    (ht : t ≤ r + B) (P : Proc σ) (s : σ) (bs : List Byte) :
    t + weights w (interp P p s bs).2.1 ≤ r + W * bs.length + B ∧
    ∀ a rest, (interp P p s bs).2.2 = .ok (a, rest) →
      ∃ r', Q a r' (t + weights w (interp P p s bs).2.1) ∧ r' + W * rest.length = r + W * bs.length := by
  induction p generalizing s r t bs with
  | ret a =>
    refine ⟨by simp only [interp, weights]; omega, fun a' rest h' => ?_⟩
    simp only [interp, Except.ok.injEq, Prod.mk.injEq] at h'
    exact ⟨r, h'.1 ▸ h, by rw [h'.2]⟩
  | fail e => exact ⟨by simp only [interp, weights]; omega, fun _ _ h' => by cases h'⟩
  | read k ih =>
    cases bs with
    | nil => exact ⟨by simp only [interp, weights]; omega, fun _ _ h' => by cases h'⟩
    | cons b bs =>
      obtain ⟨h1, h2⟩ := ih b (h b) (by omega) s bs
      simp only [interp, List.length_cons, Nat.mul_add, Nat.mul_one]
      refine ⟨by omega, fun a rest h' => ?_⟩
      obtain ⟨c', h3, h4⟩ := h2 a rest h'
      exact ⟨c', h3, by omega⟩
  | emit e k ih =>
    obtain ⟨h1, h2⟩ := h
    simp only [interp]
    cases P.step s e with
    | error x =>
      refine ⟨?_, fun _ _ h' => by cases h'⟩
      simp only [weights]
      omega
    | ok s' =>
      obtain ⟨h3, h4⟩ := ih h2 h1 s' bs
      simp only [weights]
      refine ⟨?_, fun a rest h' => ?_⟩
      · show t + (evWeight w e + weights w (interp P k s' bs).2.1) ≤ _
        omega
      · obtain ⟨c', h5, h6⟩ := h4 a rest h'
        refine ⟨c', ?_, h6⟩
        rw [← Nat.add_assoc]
        exact h5
  | askMulti k ih => exact ih _ (h _) ht s bs

theorem Backs.weaken {p : Prog α} {n m D D' : Nat} (h : Backs W cap w n D p) (hm : m ≤ n) (hD : D ≤ D') :
    Backs W cap w m D' p :=
  ⟨fun r t B hB => (h.owes r t B (by have := Nat.mul_le_mul_right cap hD; omega)).mono fun _ _ _ h1 => by
    have := Nat.mul_le_mul_left W hm
    omega⟩

theorem Backs.bind {p : Prog α} {f : α → Prog β} {n m D : Nat} (hp : Backs W cap w n D p) (hf : ∀ a, Backs W cap w m D (f a)) :
    Backs W cap w (n + m) D (Prog.bind p f) :=
  ⟨fun r t B hB => (hp.owes r t B hB).bind fun a r' t' h1 => ((hf a).owes r' t' B (by omega)).mono fun _ _ _ h2 => by
    have := Nat.mul_add W n m
    omega⟩

theorem Backs.ret (a : α) (D : Nat) : Backs W cap w 0 D (.ret a) := ⟨fun r t B _ => by show t + r + W * 0 ≤ r + t; omega⟩
theorem Backs.fail (e : Err) (n D : Nat) : Backs W cap w n D (.fail e : Prog α) := ⟨fun _ _ _ _ => trivial⟩
theorem Backs.readByte (D : Nat) : Backs W cap w 1 D Prog.readByte := ⟨fun r t B _ b => by show t + r + W * 1 ≤ r + W + t; omega⟩
theorem Backs.multiDim (D : Nat) : Backs W cap w 0 D Prog.multiDim := ⟨fun r t B _ b => by show t + r + W * 0 ≤ r + t; omega⟩

theorem Backs.ite {c : Prop} [Decidable c] {p q : Prog α} {n D : Nat} (hp : Backs W cap w n D p) (hq : Backs W cap w n D q) :
    Backs W cap w n D (if c then p else q) := by split <;> assumption

/-- a call that announces nothing -/
theorem Backs.call {e : Ev} (he : evWeight w e = 0) (D : Nat) : Backs W cap w 0 D (emitEv e) :=
  ⟨fun r t B hB => ⟨by omega, by show t + evWeight w e + r + W * 0 ≤ r + t; omega⟩⟩

/-- a loop whose body brings one byte more than it takes -/
theorem Backs.loop {body : Nat → Prog Unit} {D : Nat} (h : ∀ i, Backs W cap w 1 D (body i)) (n i : Nat) :
    Backs W cap w n D (Prog.loop n i body) := by
  induction n generalizing i with
  | zero => exact .ret _ _
  | succ n ih => exact ((h i).bind fun _ => ih (i + 1)).weaken (by omega) (Nat.le_refl _)

/-- announce `n` elements, and then bring at least `n` -/
theorem Backs.announce {k : GKind} {tg : Bool} {n i m D : Nat} {f : Unit → Prog β} (h1 : w k n ≤ W * n) (h2 : w k n ≤ cap)
    (hm : n ≤ m) (hf : Backs W cap w m D (f ())) : Backs W cap w 0 (D + 1) (Prog.bind (emitEv (.gbegin k tg n i)) f) :=
  ⟨fun r t B hB => by
    rw [Nat.succ_mul] at hB
    refine ⟨by show t + w k n ≤ _; omega, (hf.owes r (t + w k n) B (by omega)).mono fun _ _ _ h3 => ?_⟩
    have := Nat.mul_le_mul_left W hm
    omega⟩

end Prog

open Prog

/-! ### WKB -/

section
variable {W cap : Nat} {w : GKind → Nat → Nat}

theorem backs_readN (n D : Nat) : Backs W cap w n D (readN n) := by
  induction n with
  | zero => exact .ret _ _
  | succ n ih =>
    unfold readN
    exact ((Backs.readByte D).bind fun _ => ih.bind fun _ => .ret _ _).weaken (by omega) (Nat.le_refl _)

theorem backs_readU32 (e : Endian) (D : Nat) : Backs W cap w 4 D (readU32 e) := (backs_readN 4 D).bind fun _ => .ret _ _
theorem backs_readI32 (e : Endian) (D : Nat) : Backs W cap w 4 D (readI32 e) := (backs_readN 4 D).bind fun _ => .ret _ _
theorem backs_readF64 (e : Endian) (D : Nat) : Backs W cap w 8 D (readF64 e) := (backs_readN 8 D).bind fun _ => .ret _ _
theorem backs_readF32 (e : Endian) (D : Nat) : Backs W cap w 4 D (readF32 e) := (backs_readN 4 D).bind fun _ => .ret _ _

theorem backs_readWkbHeader (D : Nat) : Backs W cap w 5 D readWkbHeader :=
  (Backs.readByte D).bind fun _ => (backs_readU32 _ D).bind fun _ => .ret _ _
theorem backs_readEwkbHeader (D : Nat) : Backs W cap w 5 D readEwkbHeader :=
  (Backs.readByte D).bind fun _ => (backs_readU32 _ D).bind fun _ =>
    (Backs.ite (((backs_readI32 _ D).bind fun _ => .ret _ _).weaken (Nat.zero_le _) (Nat.le_refl _)) (.ret _ _)).bind fun _ => .ret _ _
theorem backs_readF64s (e : Endian) (n D : Nat) : Backs W cap w 0 D (readF64s e n) := by
  induction n with
  | zero => exact .ret _ _
  | succ n ih => exact ((backs_readF64 _ D).bind fun _ => ih.bind fun _ => .ret _ _).weaken (Nat.zero_le _) (Nat.le_refl _)

theorem backs_readGpkgHeader (D : Nat) : Backs W cap w 0 D readGpkgHeader := by
  unfold readGpkgHeader
  refine Backs.weaken (n := 1 + (1 + 0)) ?_ (Nat.zero_le _) (Nat.le_refl _)
  refine (Backs.readByte D).bind fun _ => (Backs.readByte D).bind fun _ => Backs.ite ?_ (.fail _ _ _)
  refine Backs.weaken (n := 1 + (1 + 0)) ?_ (Nat.zero_le _) (Nat.le_refl _)
  refine (Backs.readByte D).bind fun _ => (Backs.readByte D).bind fun flags => ?_
  cases gpkgEnvLen flags with
  | none => exact .fail _ _ _
  | some n =>
    exact ((backs_readI32 _ D).bind fun _ => (backs_readF64s _ _ D).bind fun _ => (backs_readWkbHeader D).bind fun _ =>
      .ret _ _).weaken (Nat.zero_le _) (Nat.le_refl _)

theorem backs_readSpatialiteHeader (D : Nat) : Backs W cap w 0 D readSpatialiteHeader := by
  unfold readSpatialiteHeader
  refine Backs.weaken (n := 1 + 0) ?_ (Nat.zero_le _) (Nat.le_refl _)
  refine (Backs.readByte D).bind fun _ => Backs.ite ?_ (.fail _ _ _)
  refine Backs.weaken (n := 1 + (4 + 0)) ?_ (Nat.zero_le _) (Nat.le_refl _)
  refine (Backs.readByte D).bind fun _ => (backs_readI32 _ D).bind fun _ =>
    Backs.ite (((Backs.readByte D).bind fun _ => .ret _ _).weaken (Nat.zero_le _) (Nat.le_refl _)) ?_
  refine Backs.weaken (n := 0 + (1 + 0)) ?_ (Nat.zero_le _) (Nat.le_refl _)
  refine (backs_readF64s _ _ D).bind fun _ => (Backs.readByte D).bind fun _ => Backs.ite ?_ (.fail _ _ _)
  exact ((backs_readU32 _ D).bind fun _ => .ret _ _).weaken (Nat.zero_le _) (Nat.le_refl _)

theorem backs_readSpatialiteNestedHeader (i : WkbInfo) (D : Nat) : Backs W cap w 5 D (readSpatialiteNestedHeader i) := by
  unfold readSpatialiteNestedHeader
  exact (Backs.readByte D).bind fun _ => Backs.ite ((backs_readU32 _ D).bind fun _ => .ret _ _) (.fail _ _ _)

theorem backs_readMysqlHeader (D : Nat) : Backs W cap w 0 D readMysqlHeader := by
  unfold readMysqlHeader
  refine Backs.weaken (n := 4 + (5 + 0)) ?_ (Nat.zero_le _) (Nat.le_refl _)
  exact (backs_readU32 _ D).bind fun _ => Backs.ite ((backs_readWkbHeader D).bind fun _ => Backs.ite (.ret _ _) (.fail _ _ _))
    (.fail _ _ _)

theorem backs_readCoord64 (i : WkbInfo) (D : Nat) : Backs W cap w 16 D (readCoord64 i) :=
  (backs_readF64 _ D).bind fun _ => (backs_readF64 _ D).bind fun _ =>
    (Backs.ite (((backs_readF64 _ D).bind fun _ => .ret _ _).weaken (Nat.zero_le _) (Nat.le_refl _)) (.ret _ _)).bind fun _ =>
    (Backs.ite (((backs_readF64 _ D).bind fun _ => .ret _ _).weaken (Nat.zero_le _) (Nat.le_refl _)) (.ret _ _)).bind fun _ =>
      .ret _ _
theorem backs_readCoord32 (fo : FOps) (i : WkbInfo) (D : Nat) : Backs W cap w 8 D (readCoord32 fo i) :=
  (backs_readF32 _ D).bind fun _ => (backs_readF32 _ D).bind fun _ =>
    (Backs.ite (((backs_readF32 _ D).bind fun _ => .ret _ _).weaken (Nat.zero_le _) (Nat.le_refl _)) (.ret _ _)).bind fun _ =>
    (Backs.ite (((backs_readF64 _ D).bind fun _ => .ret _ _).weaken (Nat.zero_le _) (Nat.le_refl _)) (.ret _ _)).bind fun _ =>
      .ret _ _

theorem evWeight_coordEv (multi : Bool) (c : Coord) (i : Nat) : evWeight w (coordEv multi c i) = 0 := by
  unfold coordEv
  cases multi <;> rfl

theorem backs_processCoord (info : WkbInfo) (multi : Bool) (i D : Nat) : Backs W cap w 16 D (processCoord info multi i) :=
  (backs_readCoord64 info D).bind fun _ => (Backs.call (evWeight_coordEv ..) D).bind fun _ => .ret _ _

theorem backs_processCompressedCoord (fo : FOps) (info : WkbInfo) (multi : Bool) (i : Nat) (c : Coord) (D : Nat) :
    Backs W cap w 8 D (processCompressedCoord fo info multi i c) := by
  unfold processCompressedCoord
  refine Backs.bind (n := 8) (m := 0 + 0) (backs_readCoord32 fo info D) fun _ => ?_
  cases multi <;> exact (Backs.call rfl D).bind fun _ => .ret _ _

theorem backs_compressedLoop (fo : FOps) (info : WkbInfo) (multi : Bool) (n i : Nat) (c : Coord) (D : Nat) :
    Backs W cap w n D (compressedLoop fo info multi n i c) := by
  induction n generalizing i c with
  | zero => exact .ret _ _
  | succ n ih =>
    exact ((backs_processCompressedCoord fo info multi i c D).bind fun c => ih (i + 1) c).weaken (by omega) (Nat.le_refl _)

variable (h1 : ∀ k n, w k n ≤ W * n) (h2 : ∀ k n, w k n ≤ cap)
include h1 h2

/-- count, begin, members, end -/
theorem backs_framed {e : Endian} {k : GKind} {tg : Bool} {i D : Nat} {f : Nat → Prog Unit} {g : Ev} (hg : evWeight w g = 0)
    (hf : ∀ n, Backs W cap w n D (f n)) :
    Backs W cap w 4 (D + 1) (Prog.bind (readU32 e) fun n => Prog.bind (emitEv (.gbegin k tg n i)) fun _ =>
      Prog.bind (f n) fun _ => emitEv g) :=
  (backs_readU32 e _).bind fun n => .announce (h1 _ _) (h2 _ _) (m := n + 0) (by omega) ((hf n).bind fun _ => .call hg _)

theorem backs_processLinestring (fo : FOps) (info : WkbInfo) (t : Bool) (i : Nat) :
    Backs W cap w 4 1 (processLinestring fo info t i) := by
  unfold processLinestring
  refine (backs_readU32 _ _).bind fun n => .announce (D := 0) (h1 _ _) (h2 _ _) (m := 0 + (n + 0)) (by omega)
    ((Backs.multiDim 0).bind fun multi => Backs.bind ?_ fun _ => .call rfl _)
  split
  · exact ((backs_processCoord info multi 0 0).bind fun c => (backs_compressedLoop fo info multi _ _ c 0).bind fun _ =>
      (backs_processCoord info multi _ 0).bind fun _ => .ret _ _).weaken (by omega) (Nat.le_refl _)
  · exact .loop (fun i => ((backs_processCoord info multi i 0).bind fun _ => .ret _ _).weaken (by omega) (Nat.le_refl _)) _ _

theorem backs_processCircularstring (info : WkbInfo) (i : Nat) : Backs W cap w 4 1 (processCircularstring info i) := by
  unfold processCircularstring
  refine (backs_readU32 _ _).bind fun n => .announce (D := 0) (h1 _ _) (h2 _ _) (m := 0 + (n + 0)) (by omega)
    ((Backs.multiDim 0).bind fun multi => Backs.bind ?_ fun _ => .call rfl _)
  exact .loop (fun i => ((backs_processCoord info multi i 0).bind fun _ => .ret _ _).weaken (by omega) (Nat.le_refl _)) _ _

theorem backs_processPolygon (fo : FOps) (info : WkbInfo) (t : Bool) (i : Nat) : Backs W cap w 4 2 (processPolygon fo info t i) :=
  backs_framed h1 h2 (D := 1) rfl fun n => .loop (fun i =>
    (backs_processLinestring h1 h2 fo info false i).weaken (by omega) (Nat.le_refl _)) n 0

theorem backs_processTriangle (fo : FOps) (info : WkbInfo) (t : Bool) (i : Nat) : Backs W cap w 4 2 (processTriangle fo info t i) :=
  backs_framed h1 h2 (D := 1) rfl fun n => .loop (fun i =>
    (backs_processLinestring h1 h2 fo info false i).weaken (by omega) (Nat.le_refl _)) n 0

theorem backs_processSegment (fo : FOps) (info : WkbInfo) (i : Nat) : Backs W cap w 4 1 (processSegment fo info i) := by
  unfold processSegment
  split
  · exact backs_processCircularstring h1 h2 _ _
  · exact backs_processLinestring h1 h2 _ _ _ _
  · exact .fail _ _ _

theorem backs_processMembers (k : GKind) (info : WkbInfo) (i : Nat) {D : Nat} {member : Nat → Prog Unit}
    (h : ∀ i, Backs W cap w 4 D (member i)) : Backs W cap w 4 (D + 1) (processMembers k info i member) :=
  backs_framed h1 h2 rfl fun n => .loop (fun i => (h i).weaken (by omega) (Nat.le_refl _)) n 0

theorem backs_processPoint (info : WkbInfo) (i : Nat) : Backs W cap w 4 1 (processPoint info i) := by
  unfold processPoint
  refine ⟨fun r t B hB => ((backs_readCoord64 info 1).owes r t B hB).bind fun x r' t' h => ?_⟩
  have := h1 .point 1
  have := h2 .point 1
  show Owes _ _ _ _ _ _ (if _ then _ else _)
  split
  · exact ⟨by simp only [evWeight]; omega, by simp only [evWeight, Owes]; omega⟩
  · refine ⟨by simp only [evWeight]; omega, fun multi => ⟨?_, ?_, ?_⟩⟩
    · rw [evWeight_coordEv]; simp only [evWeight]; omega
    · rw [evWeight_coordEv]; simp only [evWeight]; omega
    · show t' + _ + evWeight w (coordEv multi x 0) + _ + _ + _ ≤ _
      rw [evWeight_coordEv]; simp only [evWeight]; omega

variable (fo : FOps) {rh : WkbInfo → Prog WkbInfo} (hrh : ∀ i D, Backs W cap w 0 D (rh i))
include hrh

theorem backs_rh {D : Nat} {p : WkbInfo} {f : WkbInfo → Prog Unit} (hf : ∀ i, Backs W cap w 4 D (f i)) :
    Backs W cap w 4 D (Prog.bind (rh p) f) := ((hrh p D).bind hf).weaken (by omega) (Nat.le_refl _)

theorem backs_processCompoundcurve (p : WkbInfo) (i d : Nat) : Backs W cap w 4 2 (processCompoundcurve fo rh p i d) := by
  unfold processCompoundcurve
  refine Backs.ite (.fail _ _ _) ?_
  exact backs_framed h1 h2 (D := 1) rfl fun n => .loop (fun i =>
    (backs_rh h1 h2 hrh fun _ => backs_processSegment h1 h2 fo _ i).weaken (by omega) (Nat.le_refl _)) n 0

theorem backs_processCurveBody (p : WkbInfo) (i d : Nat) : Backs W cap w 4 2 (processCurveBody fo rh p i d) := by
  unfold processCurveBody
  split
  · exact (backs_processCircularstring h1 h2 _ _).weaken (by omega) (by omega)
  · exact (backs_processLinestring h1 h2 _ _ _ _).weaken (by omega) (by omega)
  · exact backs_processCompoundcurve h1 h2 fo hrh _ _ _
  · exact .fail _ _ _

theorem backs_processCurve (p : WkbInfo) (i d : Nat) : Backs W cap w 4 2 (processCurve fo rh p i d) :=
  backs_rh h1 h2 hrh fun _ => backs_processCurveBody h1 h2 fo hrh _ _ _

theorem backs_processCurvepolygon (p : WkbInfo) (i d : Nat) : Backs W cap w 4 3 (processCurvepolygon fo rh p i d) := by
  unfold processCurvepolygon
  refine Backs.ite (.fail _ _ _) ?_
  exact backs_framed h1 h2 (D := 2) rfl fun n => .loop (fun i =>
    (backs_processCurve h1 h2 fo hrh p i _).weaken (by omega) (Nat.le_refl _)) n 0

/-- a curve polygon too deep is refused before it announces anything -/
theorem backs_processSurfaceBody (p : WkbInfo) (i d D : Nat) (hd : 128 ≤ d + D ∧ 2 ≤ D) (hD : d ≤ 127 → 3 ≤ D) :
    Backs W cap w 4 D (processSurfaceBody fo rh p i d) := by
  unfold processSurfaceBody
  split
  · by_cases h : d ≤ 127
    · exact (backs_processCurvepolygon h1 h2 fo hrh _ _ _).weaken (by omega) (hD h)
    · unfold processCurvepolygon
      rw [if_pos (by unfold wkbMaxNestingDepth; omega)]
      exact .fail _ _ _
  · exact (backs_processPolygon h1 h2 _ _ _ _).weaken (by omega) (by omega)
  · exact .fail _ _ _

theorem backs_processGeomN (fuel : Nat) (info : WkbInfo) (i d : Nat) (hd : fuel + d = 130) :
    Backs W cap w 4 (fuel + 1) (processGeomN fo rh fuel info i d) := by
  induction fuel generalizing info i d with
  | zero => exact .fail _ _ _
  | succ fuel ih =>
    unfold processGeomN
    by_cases hdd : d > wkbMaxNestingDepth
    · rw [if_pos hdd]; exact .fail _ _ _
    rw [if_neg hdd]
    unfold wkbMaxNestingDepth at hdd
    split
    · exact (backs_processPoint h1 h2 info i).weaken (by omega) (by omega)
    · refine Backs.weaken (D := 1) (n := 4) ?_ (by omega) (by omega)
      refine (backs_readU32 _ _).bind fun n => .announce (D := 0) (h1 _ _) (h2 _ _) (m := 0 + (n + 0)) (by omega)
        ((Backs.multiDim 0).bind fun multi => Backs.bind ?_ fun _ => .call rfl _)
      exact .loop (fun i => ((hrh info 0).bind fun sub => (backs_processCoord sub multi i 0).bind fun _ => .ret _ _).weaken
        (by omega) (Nat.le_refl _)) _ _
    · exact (backs_processLinestring h1 h2 _ _ _ _).weaken (by omega) (by omega)
    · exact (backs_processCircularstring h1 h2 _ _).weaken (by omega) (by omega)
    · exact (backs_processCompoundcurve h1 h2 fo hrh _ _ _).weaken (by omega) (by omega)
    · exact (backs_processMembers h1 h2 _ _ _ (D := 1) fun i => backs_rh h1 h2 hrh fun _ =>
        backs_processLinestring h1 h2 _ _ _ _).weaken (by omega) (by omega)
    · exact (backs_processMembers h1 h2 _ _ _ (D := 2) fun i => backs_processCurve h1 h2 fo hrh _ _ _).weaken (by omega) (by omega)
    · exact (backs_processPolygon h1 h2 _ _ _ _).weaken (by omega) (by omega)
    · exact (backs_processTriangle h1 h2 _ _ _ _).weaken (by omega) (by omega)
    · by_cases h : d ≤ 127
      · exact (backs_processCurvepolygon h1 h2 fo hrh _ _ _).weaken (by omega) (by omega)
      · unfold processCurvepolygon
        rw [if_pos (by unfold wkbMaxNestingDepth; omega)]
        exact .fail _ _ _
    · exact (backs_processMembers h1 h2 _ _ _ (D := 2) fun i => backs_rh h1 h2 hrh fun _ =>
        backs_processPolygon h1 h2 _ _ _ _).weaken (by omega) (by omega)
    · exact (backs_processMembers h1 h2 _ _ _ (D := 2) fun i => backs_rh h1 h2 hrh fun _ =>
        backs_processPolygon h1 h2 _ _ _ _).weaken (by omega) (by omega)
    · exact (backs_processMembers h1 h2 _ _ _ (D := 2) fun i => backs_rh h1 h2 hrh fun _ =>
        backs_processTriangle h1 h2 _ _ _ _).weaken (by omega) (by omega)
    · exact backs_processMembers h1 h2 _ _ _ (D := fuel + 1) fun i => backs_rh h1 h2 hrh fun _ =>
        backs_processSurfaceBody h1 h2 fo hrh _ _ _ _ (by omega) (by omega)
    · exact backs_processMembers h1 h2 _ _ _ fun i => backs_rh h1 h2 hrh fun _ => ih _ _ _ (by omega)
    · exact .fail _ _ _

theorem backs_processTop {top : Prog WkbInfo} (ht : ∀ D, Backs W cap w 0 D top) : Backs W cap w 0 131 (processTop fo top rh) :=
  ((ht 131).bind fun info => (Backs.call (e := .srid info.srid) rfl 131).bind fun _ =>
    backs_processGeomN h1 h2 fo hrh 130 info 0 0 rfl).weaken (Nat.zero_le _) (Nat.le_refl _)

end

theorem backs_wkb {W cap : Nat} {w : GKind → Nat → Nat} (h1 : ∀ k n, w k n ≤ W * n) (h2 : ∀ k n, w k n ≤ cap) (fo : FOps)
    (d : WkbDialect) : Backs W cap w 0 131 (processWkbTypeGeom fo d) := by
  have hw : ∀ i D, Backs W cap w 0 D (readWkbNestedHeader i) :=
    fun _ D => (backs_readWkbHeader D).weaken (Nat.zero_le _) (Nat.le_refl _)
  cases d with
  | wkb => exact backs_processTop h1 h2 fo hw (fun D => (backs_readWkbHeader D).weaken (Nat.zero_le _) (Nat.le_refl _))
  | ewkb =>
    exact backs_processTop h1 h2 fo (fun _ D => (backs_readEwkbHeader D).weaken (Nat.zero_le _) (Nat.le_refl _))
      (fun D => (backs_readEwkbHeader D).weaken (Nat.zero_le _) (Nat.le_refl _))
  | geopackage => exact backs_processTop h1 h2 fo hw backs_readGpkgHeader
  | spatiaLite =>
    exact backs_processTop h1 h2 fo (fun i D => (backs_readSpatialiteNestedHeader i D).weaken (Nat.zero_le _) (Nat.le_refl _))
      backs_readSpatialiteHeader
  | mySQL => exact backs_processTop h1 h2 fo hw backs_readMysqlHeader

/-- whatever the processor does: what the calls take is bounded by the bytes, up to 131 times `cap`; and by the bytes read alone
when reading succeeds -/
theorem weights_wkb {W cap : Nat} {w : GKind → Nat → Nat} (h1 : ∀ k n, w k n ≤ W * n) (h2 : ∀ k n, w k n ≤ cap) (fo : FOps)
    (d : WkbDialect) {σ : Type} (P : Proc σ) (s : σ) (bs : List Byte) :
    weights w (interp P (processWkbTypeGeom fo d) s bs).2.1 ≤ W * bs.length + 131 * cap ∧
    ∀ a rest, (interp P (processWkbTypeGeom fo d) s bs).2.2 = .ok (a, rest) →
      weights w (interp P (processWkbTypeGeom fo d) s bs).2.1 + W * rest.length ≤ W * bs.length := by
  obtain ⟨h3, h4⟩ := Owes.sound ((backs_wkb h1 h2 fo d).owes 0 0 (131 * cap) (by omega)) (by omega) P s bs
  refine ⟨by omega, fun a rest h => ?_⟩
  obtain ⟨r', h5, h6⟩ := h4 a rest h
  omega

end Geozero
