import Verif.Lemmas.Nesting

/-
A program logic for the number of calls: reading a byte earns a credit, a call costs some.
-/

namespace Geozero

/-- with `c` credits in hand the reader can pay every call, `cost` credits for each, from them and from what reading earns, one
credit for each byte; it ends with credits satisfying `Q` -/
def Prog.Pays {α : Type} (cost : Nat) (Q : α → Nat → Prop) : Nat → Prog α → Prop
  | c, .ret a => Q a c
  | _, .fail _ => True
  | c, .read k => ∀ b, Prog.Pays cost Q (c + 1) (k b)
  | c, .emit _ k => cost ≤ c ∧ Prog.Pays cost Q (c - cost) k
  | c, .askMulti k => ∀ b, Prog.Pays cost Q c (k b)

/-- the reader earns at least `n` credits, without needing any -/
structure Prog.Earns {α : Type} (cost n : Nat) (p : Prog α) : Prop where
  pays : ∀ c, Prog.Pays cost (fun _ c' => c + n ≤ c') c p

namespace Prog

variable {α β : Type} {cost : Nat}

theorem Pays.mono {Q R : α → Nat → Prop} {p : Prog α} {c c' : Nat} (h : Pays cost Q c p) (hc : c ≤ c')
    (hQ : ∀ a d d', Q a d → d ≤ d' → R a d') : Pays cost R c' p := by
  induction p generalizing c c' with
  | ret a => exact hQ a _ _ h hc
  | fail e => trivial
  | read k ih => intro b; exact ih b (h b) (by omega)
  | emit e k ih => exact ⟨Nat.le_trans h.1 hc, ih h.2 (by omega)⟩
  | askMulti k ih => intro b; exact ih b (h b) hc

theorem Pays.bind {Q : α → Nat → Prop} {R : β → Nat → Prop} {p : Prog α} {f : α → Prog β} {c : Nat} (hp : Pays cost Q c p)
    (hf : ∀ a c', Q a c' → Pays cost R c' (f a)) : Pays cost R c (Prog.bind p f) := by
  induction p generalizing c with
  | ret a => exact hf a c hp
  | fail e => trivial
  | read k ih => intro b; exact ih b (hp b)
  | emit e k ih => exact ⟨hp.1, ih hp.2⟩
  | askMulti k ih => intro b; exact ih b (hp b)

/-- after a part that earns `n` -/
theorem Earns.then {R : β → Nat → Prop} {p : Prog α} {f : α → Prog β} {c n : Nat} (hp : Earns cost n p)
    (hR : ∀ b d d', R b d → d ≤ d' → R b d') (hf : ∀ a, Pays cost R (c + n) (f a)) : Pays cost R c (Prog.bind p f) :=
  (hp.pays c).bind fun a _ h => (hf a).mono h hR

theorem Earns.weaken {p : Prog α} {n m : Nat} (h : Earns cost n p) (hm : m ≤ n) : Earns cost m p :=
  ⟨fun c => (h.pays c).mono (Nat.le_refl _) fun _ _ _ h1 h2 => by omega⟩

theorem Earns.bind {p : Prog α} {f : α → Prog β} {n m : Nat} (hp : Earns cost n p) (hf : ∀ a, Earns cost m (f a)) :
    Earns cost (n + m) (Prog.bind p f) :=
  ⟨fun c => hp.then (fun _ _ _ h1 h2 => by omega) fun a =>
    ((hf a).pays (c + n)).mono (Nat.le_refl _) fun _ _ _ h1 h2 => by omega⟩

theorem Earns.ret (a : α) : Earns cost 0 (.ret a) := ⟨fun _ => Nat.le_refl _⟩
theorem Earns.fail (e : Err) (n : Nat) : Earns cost n (.fail e : Prog α) := ⟨fun _ => trivial⟩
theorem Earns.readByte : Earns cost 1 Prog.readByte := ⟨fun _ _ => Nat.le_refl _⟩
theorem Earns.multiDim : Earns cost 0 Prog.multiDim := ⟨fun _ _ => Nat.le_refl _⟩

theorem Earns.ite {c : Prop} [Decidable c] {p q : Prog α} {n : Nat} (hp : Earns cost n p) (hq : Earns cost n q) :
    Earns cost n (if c then p else q) := by split <;> assumption

/-- a call, paid by what was earned before -/
theorem Earns.thenEmit {p : Prog α} {e : α → Ev} {n : Nat} (hp : Earns cost n p) (hn : cost ≤ n) :
    Earns cost (n - cost) (Prog.bind p fun a => emitEv (e a)) :=
  ⟨fun c => hp.then (fun _ _ _ h1 h2 => by omega) fun a => ⟨by omega, by show c + (n - cost) ≤ c + n - cost; omega⟩⟩

/-- a call and what follows -/
theorem Pays.call {R : β → Nat → Prop} {e : Ev} {f : Unit → Prog β} {c : Nat} (hc : cost ≤ c) (h : Pays cost R (c - cost) (f ())) :
    Pays cost R c (Prog.bind (emitEv e) f) := ⟨hc, h⟩

theorem Earns.loop {body : Nat → Prog Unit} (h : ∀ i, Earns cost 0 (body i)) (n i : Nat) : Earns cost 0 (Prog.loop n i body) := by
  induction n generalizing i with
  | zero => exact .ret _
  | succ n ih => exact (h i).bind fun _ => ih (i + 1)

/-- earn, begin, go on, end -/
theorem Earns.frame {p : Prog α} {f : α → Prog β} {b : α → Ev} {e : Ev} {n : Nat} (hp : Earns cost n p) (hn : 2 * cost ≤ n)
    (hf : ∀ a, Earns cost 0 (f a)) :
    Earns cost (n - 2 * cost) (Prog.bind p fun a => Prog.bind (emitEv (b a)) fun _ => Prog.bind (f a) fun _ => emitEv e) :=
  ⟨fun c => hp.then (fun _ _ _ h1 h2 => by omega) fun a => ⟨by omega,
    (hf a).then (fun _ _ _ h1 h2 => by omega) fun _ => ⟨by omega, by show c + (n - 2 * cost) ≤ _; omega⟩⟩⟩

theorem Pays.sound {σ : Type} {Q : α → Nat → Prop} {p : Prog α} {c : Nat} (h : Pays cost Q c p) (P : Proc σ) (s : σ)
    (bs : List Byte) :
    cost * (interp P p s bs).2.1.length ≤ c + bs.length ∧
    ∀ a rest, (interp P p s bs).2.2 = .ok (a, rest) →
      ∃ c', Q a c' ∧ cost * (interp P p s bs).2.1.length + c' + rest.length = c + bs.length := by
  induction p generalizing s c bs with
  | ret a =>
    refine ⟨Nat.zero_le _, fun a' rest h' => ?_⟩
    simp only [interp, Except.ok.injEq, Prod.mk.injEq] at h'
    exact ⟨c, h'.1 ▸ h, by simp [interp, h'.2]⟩
  | fail e => exact ⟨Nat.zero_le _, fun _ _ h' => by cases h'⟩
  | read k ih =>
    cases bs with
    | nil => exact ⟨Nat.zero_le _, fun _ _ h' => by cases h'⟩
    | cons b bs =>
      obtain ⟨h1, h2⟩ := ih b (h b) s bs
      simp only [interp, List.length_cons]
      refine ⟨by omega, fun a rest h' => ?_⟩
      obtain ⟨c', h3, h4⟩ := h2 a rest h'
      exact ⟨c', h3, by omega⟩
  | emit e k ih =>
    obtain ⟨h1, h2⟩ := h
    simp only [interp]
    cases P.step s e with
    | error x =>
      refine ⟨?_, fun _ _ h' => by cases h'⟩
      simp only [List.length_cons, List.length_nil]
      omega
    | ok s' =>
      obtain ⟨h3, h4⟩ := ih h2 s' bs
      simp only [List.length_cons, Nat.mul_add, Nat.mul_one]
      refine ⟨?_, fun a rest h' => ?_⟩
      · show cost * (interp P k s' bs).2.1.length + cost ≤ _
        omega
      · obtain ⟨c', h5, h6⟩ := h4 a rest h'
        refine ⟨c', h5, ?_⟩
        show cost * (interp P k s' bs).2.1.length + cost + _ + _ = _
        omega
  | askMulti k ih => exact ih _ (h _) s bs

end Prog

open Prog

/-! ### WKB -/

section
variable {cost : Nat}

theorem earns_readN (n : Nat) : Earns cost n (readN n) := by
  induction n with
  | zero => exact .ret _
  | succ n ih =>
    unfold readN
    exact (Earns.readByte.bind fun _ => ih.bind fun _ => .ret _).weaken (by omega)

theorem earns_readU32 (e : Endian) : Earns cost 4 (readU32 e) := (earns_readN 4).bind fun _ => .ret _
theorem earns_readI32 (e : Endian) : Earns cost 4 (readI32 e) := (earns_readN 4).bind fun _ => .ret _
theorem earns_readF64 (e : Endian) : Earns cost 8 (readF64 e) := (earns_readN 8).bind fun _ => .ret _
theorem earns_readF32 (e : Endian) : Earns cost 4 (readF32 e) := (earns_readN 4).bind fun _ => .ret _

theorem earns_readWkbHeader : Earns cost 5 readWkbHeader := Earns.readByte.bind fun _ => (earns_readU32 _).bind fun _ => .ret _
theorem earns_readEwkbHeader : Earns cost 5 readEwkbHeader :=
  Earns.readByte.bind fun _ => (earns_readU32 _).bind fun _ =>
    (Earns.ite (((earns_readI32 _).bind fun _ => .ret _).weaken (Nat.zero_le _)) (.ret _)).bind fun _ => .ret _
theorem earns_readF64s (e : Endian) (n : Nat) : Earns cost 0 (readF64s e n) := by
  induction n with
  | zero => exact .ret _
  | succ n ih => exact ((earns_readF64 _).bind fun _ => ih.bind fun _ => .ret _).weaken (Nat.zero_le _)

theorem earns_readGpkgHeader : Earns cost 5 readGpkgHeader := by
  unfold readGpkgHeader
  refine Earns.weaken (n := 1 + (1 + 3)) ?_ (by omega)
  refine Earns.readByte.bind fun _ => Earns.readByte.bind fun _ => Earns.ite ?_ (.fail _ _)
  refine Earns.weaken (n := 1 + (1 + 9)) ?_ (by omega)
  refine Earns.readByte.bind fun _ => Earns.readByte.bind fun flags => ?_
  cases gpkgEnvLen flags with
  | none => exact .fail _ _
  | some n =>
    exact (earns_readI32 _).bind fun _ => (earns_readF64s _ _).bind fun _ => earns_readWkbHeader.bind fun _ => .ret _

theorem earns_readSpatialiteHeader : Earns cost 5 readSpatialiteHeader := by
  unfold readSpatialiteHeader
  refine Earns.weaken (n := 1 + 5) ?_ (by omega)
  refine Earns.readByte.bind fun _ => Earns.ite ?_ (.fail _ _)
  refine Earns.weaken (n := 1 + (4 + 0)) ?_ (by omega)
  refine Earns.readByte.bind fun _ => (earns_readI32 _).bind fun _ =>
    Earns.ite ((Earns.readByte.bind fun _ => .ret _).weaken (Nat.zero_le _)) ?_
  refine Earns.weaken (n := 0 + (1 + 0)) ?_ (by omega)
  refine (earns_readF64s _ _).bind fun _ => Earns.readByte.bind fun _ => Earns.ite ?_ (.fail _ _)
  exact ((earns_readU32 _).bind fun _ => .ret _).weaken (Nat.zero_le _)

theorem earns_readSpatialiteNestedHeader (i : WkbInfo) : Earns cost 5 (readSpatialiteNestedHeader i) := by
  unfold readSpatialiteNestedHeader
  exact Earns.readByte.bind fun _ => Earns.ite ((earns_readU32 _).bind fun _ => .ret _) (.fail _ _)

theorem earns_readMysqlHeader : Earns cost 5 readMysqlHeader := by
  unfold readMysqlHeader
  refine Earns.weaken (n := 4 + (5 + 0)) ?_ (by omega)
  refine (earns_readU32 _).bind fun _ => Earns.ite (earns_readWkbHeader.bind fun _ => Earns.ite (.ret _) (.fail _ _)) (.fail _ _)

theorem earns_readCoord64 (i : WkbInfo) : Earns cost 16 (readCoord64 i) :=
  (earns_readF64 _).bind fun _ => (earns_readF64 _).bind fun _ =>
    (Earns.ite (((earns_readF64 _).bind fun _ => .ret _).weaken (Nat.zero_le _)) (.ret _)).bind fun _ =>
    (Earns.ite (((earns_readF64 _).bind fun _ => .ret _).weaken (Nat.zero_le _)) (.ret _)).bind fun _ => .ret _
theorem earns_readCoord32 (fo : FOps) (i : WkbInfo) : Earns cost 8 (readCoord32 fo i) :=
  (earns_readF32 _).bind fun _ => (earns_readF32 _).bind fun _ =>
    (Earns.ite (((earns_readF32 _).bind fun _ => .ret _).weaken (Nat.zero_le _)) (.ret _)).bind fun _ =>
    (Earns.ite (((earns_readF64 _).bind fun _ => .ret _).weaken (Nat.zero_le _)) (.ret _)).bind fun _ => .ret _
end

/-- a call after reading -/
theorem Prog.Earns.emitThen {α β : Type} {cost n : Nat} {p : Prog α} {e : α → Ev} {f : α → Prog β} (hp : Earns cost n p)
    (hn : cost ≤ n) (hf : ∀ a, Earns cost 0 (f a)) :
    Earns cost 0 (Prog.bind p fun a => Prog.bind (emitEv (e a)) fun _ => f a) :=
  ⟨fun c => hp.then (fun _ _ _ h1 h2 => by omega) fun a =>
    ⟨by omega, ((hf a).pays _).mono (Nat.le_refl _) fun _ _ _ h1 h2 => by omega⟩⟩

theorem earns_processCoord (info : WkbInfo) (multi : Bool) (i : Nat) : Earns 2 0 (processCoord info multi i) :=
  (earns_readCoord64 info).emitThen (f := fun c => .ret c) (by omega) fun _ => .ret _

theorem earns_processCompressedCoord (fo : FOps) (info : WkbInfo) (multi : Bool) (i : Nat) (c : Coord) :
    Earns 2 0 (processCompressedCoord fo info multi i c) := by
  unfold processCompressedCoord
  cases multi with
  | true => exact (earns_readCoord32 fo info).emitThen (f := fun _ => .ret _) (by omega) fun _ => .ret _
  | false => exact (earns_readCoord32 fo info).emitThen (f := fun _ => .ret _) (by omega) fun _ => .ret _

theorem earns_compressedLoop (fo : FOps) (info : WkbInfo) (multi : Bool) (n i : Nat) (c : Coord) :
    Earns 2 0 (compressedLoop fo info multi n i c) := by
  induction n generalizing i c with
  | zero => exact .ret _
  | succ n ih => exact (earns_processCompressedCoord fo info multi i c).bind fun c => ih (i + 1) c

/-- count, begin, members, end -/
theorem earns_framed {e : Endian} {b : Nat → Ev} {f : Nat → Prog Unit} {g : Ev} (hf : ∀ n, Earns 2 0 (f n)) :
    Earns 2 0 (Prog.bind (readU32 e) fun n => Prog.bind (emitEv (b n)) fun _ => Prog.bind (f n) fun _ => emitEv g) :=
  Earns.frame (earns_readU32 e) (by omega) hf

theorem earns_processLinestring (fo : FOps) (info : WkbInfo) (t : Bool) (i : Nat) : Earns 2 0 (processLinestring fo info t i) := by
  unfold processLinestring
  refine Earns.weaken (n := 4 - 2 * 2) ?_ (by omega)
  refine ⟨fun c => (earns_readU32 _).then (fun _ _ _ h1 h2 => by omega) fun n => .call (by omega)
    (Earns.multiDim.then (n := 0) (fun _ _ _ h1 h2 => by omega) fun multi => ?_)⟩
  refine Earns.then (n := 0) ?_ (fun _ _ _ h1 h2 => by omega) fun _ => ⟨by omega, by show c + (4 - 2 * 2) ≤ _; omega⟩
  refine Earns.ite ?_ (Earns.loop (fun i => (earns_processCoord info multi i).bind fun _ => .ret _) _ _)
  exact (earns_processCoord info multi 0).bind fun c => (earns_compressedLoop fo info multi _ _ c).bind fun _ =>
    (earns_processCoord info multi _).bind fun _ => .ret _

theorem earns_processCircularstring (info : WkbInfo) (i : Nat) : Earns 2 0 (processCircularstring info i) := by
  unfold processCircularstring
  refine Earns.weaken (n := 4 - 2 * 2) ?_ (by omega)
  refine ⟨fun c => (earns_readU32 _).then (fun _ _ _ h1 h2 => by omega) fun n => .call (by omega)
    (Earns.multiDim.then (n := 0) (fun _ _ _ h1 h2 => by omega) fun multi => ?_)⟩
  refine Earns.then (n := 0) ?_ (fun _ _ _ h1 h2 => by omega) fun _ => ⟨by omega, by show c + (4 - 2 * 2) ≤ _; omega⟩
  exact Earns.loop (fun i => (earns_processCoord info multi i).bind fun _ => .ret _) _ _

theorem earns_processPolygon (fo : FOps) (info : WkbInfo) (t : Bool) (i : Nat) : Earns 2 0 (processPolygon fo info t i) :=
  earns_framed fun n => Earns.loop (fun i => earns_processLinestring fo info false i) n 0

theorem earns_processTriangle (fo : FOps) (info : WkbInfo) (t : Bool) (i : Nat) : Earns 2 0 (processTriangle fo info t i) :=
  earns_framed fun n => Earns.loop (fun i => earns_processLinestring fo info false i) n 0

theorem earns_processSegment (fo : FOps) (info : WkbInfo) (i : Nat) : Earns 2 0 (processSegment fo info i) := by
  unfold processSegment
  split
  · exact earns_processCircularstring _ _
  · exact earns_processLinestring _ _ _ _
  · exact .fail _ _

theorem earns_processMembers (k : GKind) (info : WkbInfo) (i : Nat) {member : Nat → Prog Unit} (h : ∀ i, Earns 2 0 (member i)) :
    Earns 2 0 (processMembers k info i member) :=
  earns_framed fun n => Earns.loop h n 0

section
variable (fo : FOps) {rh : WkbInfo → Prog WkbInfo} (hrh : ∀ i, Earns 2 0 (rh i))
include hrh

theorem earns_processCompoundcurve (p : WkbInfo) (i d : Nat) : Earns 2 0 (processCompoundcurve fo rh p i d) := by
  unfold processCompoundcurve
  refine Earns.ite (.fail _ _) ?_
  exact earns_framed fun n => Earns.loop (fun i => (hrh p).bind fun _ => earns_processSegment fo _ i) n 0

theorem earns_processCurveBody (p : WkbInfo) (i d : Nat) : Earns 2 0 (processCurveBody fo rh p i d) := by
  unfold processCurveBody
  split
  · exact earns_processCircularstring _ _
  · exact earns_processLinestring _ _ _ _
  · exact earns_processCompoundcurve fo hrh _ _ _
  · exact .fail _ _

theorem earns_processCurve (p : WkbInfo) (i d : Nat) : Earns 2 0 (processCurve fo rh p i d) :=
  (hrh p).bind fun _ => earns_processCurveBody fo hrh _ _ _

theorem earns_processCurvepolygon (p : WkbInfo) (i d : Nat) : Earns 2 0 (processCurvepolygon fo rh p i d) := by
  unfold processCurvepolygon
  refine Earns.ite (.fail _ _) ?_
  exact earns_framed fun n => Earns.loop (fun i => earns_processCurve fo hrh p i _) n 0

theorem earns_processSurfaceBody (p : WkbInfo) (i d : Nat) : Earns 2 0 (processSurfaceBody fo rh p i d) := by
  unfold processSurfaceBody
  split
  · exact earns_processCurvepolygon fo hrh _ _ _
  · exact earns_processPolygon _ _ _ _
  · exact .fail _ _

theorem earns_processPoint (info : WkbInfo) (i : Nat) : Earns 2 0 (processPoint info i) := by
  unfold processPoint
  refine ⟨fun c => (earns_readCoord64 info).then (fun _ _ _ h1 h2 => by omega) fun x => ?_⟩
  show Pays _ _ _ (if _ then _ else _)
  split
  · exact ⟨by omega, by show c + 0 ≤ _; omega⟩
  · exact ⟨by omega, fun _ => ⟨by omega, by omega, by show c + 0 ≤ _; omega⟩⟩

theorem earns_processGeomN (fuel : Nat) (info : WkbInfo) (i d : Nat) : Earns 2 0 (processGeomN fo rh fuel info i d) := by
  induction fuel generalizing info i d with
  | zero => exact .fail _ _
  | succ fuel ih =>
    unfold processGeomN
    refine Earns.ite (.fail _ _) ?_
    split
    · exact earns_processPoint hrh info i
    · refine ⟨fun c => (earns_readU32 _).then (fun _ _ _ h1 h2 => by omega) fun n => .call (by omega)
    (Earns.multiDim.then (n := 0) (fun _ _ _ h1 h2 => by omega) fun multi => ?_)⟩
      exact Earns.then (n := 0) (Earns.loop (fun i => (hrh info).bind fun sub => (earns_processCoord sub multi i).bind fun _ => .ret _) _ _)
        (fun _ _ _ h1 h2 => by omega) fun _ => ⟨by omega, by show c + 0 ≤ _; omega⟩
    · exact earns_processLinestring _ _ _ _
    · exact earns_processCircularstring _ _
    · exact earns_processCompoundcurve fo hrh _ _ _
    · exact earns_processMembers _ _ _ fun i => (hrh info).bind fun _ => earns_processLinestring _ _ _ _
    · exact earns_processMembers _ _ _ fun i => earns_processCurve fo hrh _ _ _
    · exact earns_processPolygon _ _ _ _
    · exact earns_processTriangle _ _ _ _
    · exact earns_processCurvepolygon fo hrh _ _ _
    · exact earns_processMembers _ _ _ fun i => (hrh info).bind fun _ => earns_processPolygon _ _ _ _
    · exact earns_processMembers _ _ _ fun i => (hrh info).bind fun _ => earns_processPolygon _ _ _ _
    · exact earns_processMembers _ _ _ fun i => (hrh info).bind fun _ => earns_processTriangle _ _ _ _
    · exact earns_processMembers _ _ _ fun i => (hrh info).bind fun _ => earns_processSurfaceBody fo hrh _ _ _
    · exact earns_processMembers _ _ _ fun i => (hrh info).bind fun _ => ih _ _ _
    · exact .fail _ _

theorem earns_processTop {top : Prog WkbInfo} (ht : Earns 2 5 top) : Earns 2 0 (processTop fo top rh) :=
  ht.emitThen (f := fun info => processGeomN fo rh 130 info 0 0) (by omega) fun _ => earns_processGeomN fo hrh _ _ _ _
end

theorem earns_wkb (fo : FOps) (d : WkbDialect) : Earns 2 0 (processWkbTypeGeom fo d) := by
  cases d with
  | wkb => exact earns_processTop fo (fun _ => earns_readWkbHeader.weaken (Nat.zero_le _)) earns_readWkbHeader
  | ewkb => exact earns_processTop fo (fun _ => earns_readEwkbHeader.weaken (Nat.zero_le _)) earns_readEwkbHeader
  | geopackage => exact earns_processTop fo (fun _ => earns_readWkbHeader.weaken (Nat.zero_le _)) earns_readGpkgHeader
  | spatiaLite =>
    exact earns_processTop fo (fun _ => (earns_readSpatialiteNestedHeader _).weaken (Nat.zero_le _)) earns_readSpatialiteHeader
  | mySQL => exact earns_processTop fo (fun _ => earns_readWkbHeader.weaken (Nat.zero_le _)) earns_readMysqlHeader

end Geozero
