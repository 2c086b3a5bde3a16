import Verif.Lemmas.Prog
import Verif.Model.WkbReader
import Verif.Spec.Wkb
import Verif.Lemmas.WkbRead

/- Helper lemmas: what the WKB readers deliver on arbitrary input. -/

namespace Geozero
open Prog

/-- Hoare-style statement over all inputs: `P` of result and events on success, `F` of error and events
on failure. -/
def Sat {α : Type} (multi : Bool) (p : Prog α) (P : α → List Ev → Prop) (F : Err → List Ev → Prop) : Prop :=
  ∀ bs, match run multi p bs with
    | (evs, .ok (a, _)) => P a evs
    | (evs, .error e) => F e evs

theorem Sat.ret {α : Type} {multi : Bool} {a : α} {P : α → List Ev → Prop} {F : Err → List Ev → Prop}
    (h : P a []) : Sat multi (.ret a) P F := fun _ => h

theorem Sat.fail {α : Type} {multi : Bool} {e : Err} {P : α → List Ev → Prop} {F : Err → List Ev → Prop}
    (h : F e []) : Sat multi (.fail e) P F := fun _ => h

theorem Sat.bind {α β : Type} {multi : Bool} {p : Prog α} {f : α → Prog β} {P : α → List Ev → Prop}
    {F G : Err → List Ev → Prop} {Q : β → List Ev → Prop} (hp : Sat multi p P F)
    (hf : ∀ a evs, P a evs → Sat multi (f a) (fun b evs' => Q b (evs ++ evs')) (fun e evs' => G e (evs ++ evs')))
    (hF : ∀ e evs, F e evs → G e evs) : Sat multi (Prog.bind p f) Q G := by
  intro bs
  have h1 := hp bs
  rw [run_bind]
  unfold andThen
  rcases hr : run multi p bs with ⟨evs, r⟩
  rw [hr] at h1
  cases r with
  | error e => exact hF e evs h1
  | ok ab =>
    obtain ⟨a, rest⟩ := ab
    have h2 := hf a evs h1 rest
    simp only
    rcases hr2 : run multi (f a) rest with ⟨evs2, r2⟩
    rw [hr2] at h2
    cases r2 with
    | error e => exact h2
    | ok ab2 => exact h2

theorem Sat.mono {α : Type} {multi : Bool} {p : Prog α} {P P' : α → List Ev → Prop} {F F' : Err → List Ev → Prop}
    (h : Sat multi p P F) (hP : ∀ a evs, P a evs → P' a evs) (hF : ∀ e evs, F e evs → F' e evs) :
    Sat multi p P' F' := by
  intro bs
  have h1 := h bs
  rcases hr : run multi p bs with ⟨evs, r⟩
  rw [hr] at h1
  cases r with
  | error e => exact hF _ _ h1
  | ok ab => exact hP _ _ h1

/-- reads without events and without panics, result in `P` -/
def Silent {α : Type} (multi : Bool) (p : Prog α) (P : α → Prop) : Prop :=
  Sat multi p (fun a evs => P a ∧ evs = []) (fun e evs => e.isPanic = false ∧ evs = [])

theorem Silent.bind {α β : Type} {multi : Bool} {p : Prog α} {f : α → Prog β} {P : α → Prop} {Q : β → Prop}
    (hp : Silent multi p P) (hf : ∀ a, P a → Silent multi (f a) Q) : Silent multi (Prog.bind p f) Q := by
  refine Sat.bind hp ?_ (fun _ _ h => h)
  rintro a evs ⟨ha, rfl⟩
  exact hf a ha

theorem Silent.ret {α : Type} {multi : Bool} {a : α} {P : α → Prop} (h : P a) : Silent multi (.ret a) P :=
  Sat.ret ⟨h, rfl⟩

theorem Silent.fail {α : Type} {multi : Bool} {e : Err} {P : α → Prop} (h : e.isPanic = false) :
    Silent multi (.fail e) P := Sat.fail ⟨h, rfl⟩

theorem Silent.readByte {multi : Bool} : Silent multi readByte (fun _ => True) := by
  intro bs
  cases bs with
  | nil => exact ⟨rfl, rfl⟩
  | cons b bs => exact ⟨trivial, rfl⟩

theorem Silent.readN {multi : Bool} (n : Nat) : Silent multi (readN n) (fun _ => True) := by
  induction n with
  | zero => exact Silent.ret trivial
  | succ n ih => exact Silent.readByte.bind fun _ _ => ih.bind fun _ _ => Silent.ret trivial

theorem Silent.readU32 {multi : Bool} (e : Endian) : Silent multi (readU32 e) (fun _ => True) :=
  (Silent.readN 4).bind fun _ _ => Silent.ret trivial
theorem Silent.readI32 {multi : Bool} (e : Endian) : Silent multi (readI32 e) (fun _ => True) :=
  (Silent.readN 4).bind fun _ _ => Silent.ret trivial
theorem Silent.readF64 {multi : Bool} (e : Endian) : Silent multi (readF64 e) (fun _ => True) :=
  (Silent.readN 8).bind fun _ _ => Silent.ret trivial
theorem Silent.readF32 {multi : Bool} (e : Endian) : Silent multi (readF32 e) (fun _ => True) :=
  (Silent.readN 4).bind fun _ _ => Silent.ret trivial

theorem Silent.optF64 {multi : Bool} (e : Endian) (b : Bool) :
    Silent multi (if b then Prog.bind (Prog.readF64 e) (fun v => .ret (some v)) else .ret none)
      (fun _ => True) := by
  split
  · exact (Silent.readF64 e).bind fun _ _ => Silent.ret trivial
  · exact Silent.ret trivial

theorem Silent.readCoord64 {multi : Bool} (info : WkbInfo) : Silent multi (readCoord64 info) (fun _ => True) := by
  unfold Geozero.readCoord64
  refine (Silent.readF64 _).bind fun x _ => (Silent.readF64 _).bind fun y _ => ?_
  exact (Silent.optF64 _ _).bind fun z _ => (Silent.optF64 _ _).bind fun m _ => Silent.ret trivial

theorem Silent.readCoord32 {multi : Bool} (fo : FOps) (info : WkbInfo) :
    Silent multi (readCoord32 fo info) (fun _ => True) := by
  unfold Geozero.readCoord32
  refine (Silent.readF32 _).bind fun x _ => (Silent.readF32 _).bind fun y _ => ?_
  refine Silent.bind (P := fun _ => True) ?_ fun z _ => (Silent.optF64 _ _).bind fun m _ => Silent.ret trivial
  split
  · exact (Silent.readF32 _).bind fun _ _ => Silent.ret trivial
  · exact Silent.ret trivial

theorem Silent.readF64s {multi : Bool} (e : Endian) (n : Nat) : Silent multi (readF64s e n) (fun _ => True) := by
  induction n with
  | zero => exact Silent.ret trivial
  | succ n ih => exact (Silent.readF64 e).bind fun _ _ => ih.bind fun _ _ => Silent.ret trivial

/-- Event streams of members of a family `f`, up to a relabelling `ν` of events: all of some `x` with
`S x` on success; a prefix of that of some `x` with `T x` on failure, without panic. -/
def Str {α : Type} (multi : Bool) (ν : Ev → Ev) (S T : α → Prop) (f : α → List Ev) (p : Prog Unit) : Prop :=
  Sat multi p (fun _ evs => ∃ x, S x ∧ evs.map ν = (f x).map ν)
    (fun e evs => e.isPanic = false ∧ ∃ x, T x ∧ evs.map ν <+: (f x).map ν)

theorem Str.mono {α : Type} {multi : Bool} {ν : Ev → Ev} {S S' T T' : α → Prop} {f : α → List Ev} {p : Prog Unit}
    (h : Str multi ν S T f p) (hS : ∀ x, S x → S' x) (hT : ∀ x, T x → T' x) : Str multi ν S' T' f p := by
  refine Sat.mono h ?_ ?_
  · rintro _ evs ⟨x, hx, he⟩; exact ⟨x, hS x hx, he⟩
  · rintro e evs ⟨hp, x, hx, he⟩; exact ⟨hp, x, hT x hx, he⟩

/-- change of family -/
theorem Str.map {α β : Type} {multi : Bool} {ν : Ev → Ev} {S T : α → Prop} {S' T' : β → Prop} {f : α → List Ev}
    {f' : β → List Ev} {p : Prog Unit} (g : α → β) (h : Str multi ν S T f p)
    (hS : ∀ x, S x → S' (g x)) (hT : ∀ x, T x → T' (g x)) (hf : ∀ x, f' (g x) = f x) :
    Str multi ν S' T' f' p := by
  refine Sat.mono h ?_ ?_
  · rintro _ evs ⟨x, hx, he⟩; exact ⟨g x, hS x hx, by rw [hf]; exact he⟩
  · rintro e evs ⟨hp, x, hx, he⟩; exact ⟨hp, g x, hT x hx, by rw [hf]; exact he⟩

theorem Str.fail {α : Type} {multi : Bool} {ν : Ev → Ev} {S T : α → Prop} {f : α → List Ev} {e : Err}
    (x : α) (hx : T x) (he : e.isPanic = false) : Str multi ν S T f (.fail e) :=
  Sat.fail ⟨he, x, hx, by simp⟩

theorem Str.silent_bind {α β : Type} {multi : Bool} {ν : Ev → Ev} {S T : β → Prop} {f : β → List Ev}
    {p : Prog α} {k : α → Prog Unit} {P : α → Prop} (x : β) (hx : T x) (hp : Silent multi p P)
    (hk : ∀ a, P a → Str multi ν S T f (k a)) : Str multi ν S T f (Prog.bind p k) := by
  refine Sat.bind hp ?_ ?_
  · rintro a evs ⟨ha, rfl⟩
    exact hk a ha
  · rintro e evs ⟨he, rfl⟩
    exact ⟨he, x, hx, by simp⟩

theorem Str.loop {α : Type} {multi : Bool} {ν : Ev → Ev} {S T : α → Prop} {f : Nat → α → List Ev}
    {body : Nat → Prog Unit} (h : ∀ i, Str multi ν S T (f i) (body i)) :
    ∀ n i, Str multi ν (fun xs => xs.length = n ∧ ∀ x ∈ xs, S x) (fun xs => xs.length = n)
      (evList f i) (loop n i body) := by
  intro n
  induction n with
  | zero => intro i; exact Sat.ret ⟨[], ⟨rfl, by simp⟩, rfl⟩
  | succ n ih =>
    intro i
    refine Sat.bind (h i) ?_ ?_
    · rintro _ evs ⟨x, hx, he⟩
      refine Sat.mono (ih (i + 1)) ?_ ?_
      · rintro _ evs' ⟨xs, ⟨hl, hxs⟩, he'⟩
        refine ⟨x :: xs, ⟨by simp [hl], ?_⟩, ?_⟩
        · intro y hy
          rcases List.mem_cons.mp hy with rfl | hy
          · exact hx
          · exact hxs y hy
        · simp [evList, he, he']
      · rintro e evs' ⟨hp, xs, hl, he'⟩
        refine ⟨hp, x :: xs, by simp [hl], ?_⟩
        simp only [evList, List.map_append, he]
        exact (List.prefix_append_right_inj _).mpr he'
    · rintro e evs ⟨hp, x, hx, he⟩
      refine ⟨hp, x :: List.replicate n x, by simp, ?_⟩
      simp only [evList, List.map_append]
      exact he.trans (List.prefix_append _ _)

/-- begin event, loop, end event, for a known count -/
theorem Str.bracketN {α : Type} {multi : Bool} {ν : Ev → Ev} {S T : α → Prop} {f : Nat → α → List Ev}
    {body : Nat → Prog Unit} {k : GKind} {tagged : Bool} {idx : Nat}
    (h : ∀ i, Str multi ν S T (f i) (body i)) (n : Nat) :
    Str multi ν (fun xs => ∀ x ∈ xs, S x) (fun _ => True) (bracket k tagged idx f)
      (Prog.bind (emitEv (.gbegin k tagged n idx)) fun _ =>
        Prog.bind (Prog.loop n 0 body) fun _ => emitEv (.gend k tagged idx)) := by
  have hl := Str.loop h n 0
  refine Sat.bind (P := fun _ evs => evs = [.gbegin k tagged n idx]) (F := fun _ _ => False)
    (fun bs => rfl) ?_ (by simp)
  rintro _ evs rfl
  refine Sat.bind hl ?_ ?_
  · rintro _ evs ⟨xs, ⟨hlen, hxs⟩, he⟩
    intro bs
    refine ⟨xs, hxs, ?_⟩
    simp [bracket, he, hlen]
  · rintro e evs ⟨hp, xs, hlen, he⟩
    refine ⟨hp, xs, trivial, ?_⟩
    simp only [bracket, hlen, List.map_cons, List.map_append, List.singleton_append]
    exact List.cons_prefix_cons.mpr ⟨rfl, he.trans (List.prefix_append _ _)⟩

theorem Str.bracket {α : Type} {multi : Bool} {ν : Ev → Ev} {S T : α → Prop} {f : Nat → α → List Ev}
    {body : Nat → Prog Unit} {k : GKind} {tagged : Bool} {idx : Nat} {e : Endian}
    (h : ∀ i, Str multi ν S T (f i) (body i)) :
    Str multi ν (fun xs => ∀ x ∈ xs, S x) (fun _ => True) (bracket k tagged idx f)
      (Prog.bind (Prog.readU32 e) fun n => Prog.bind (emitEv (.gbegin k tagged n idx)) fun _ =>
        Prog.bind (Prog.loop n 0 body) fun _ => emitEv (.gend k tagged idx)) :=
  Str.silent_bind [] trivial (Silent.readU32 e) fun n _ => Str.bracketN h n

/-- the same with the question for the processor's dimension support in between -/
theorem Str.bracketM {α : Type} {multi : Bool} {ν : Ev → Ev} {S T : α → Prop} {f : Nat → α → List Ev}
    {body : Bool → Nat → Prog Unit} {k : GKind} {tagged : Bool} {idx : Nat} {e : Endian}
    (h : ∀ i, Str multi ν S T (f i) (body multi i)) :
    Str multi ν (fun xs => ∀ x ∈ xs, S x) (fun _ => True) (Geozero.bracket k tagged idx f)
      (Prog.bind (Prog.readU32 e) fun n => Prog.bind (emitEv (.gbegin k tagged n idx)) fun _ =>
        Prog.bind multiDim fun m => Prog.bind (Prog.loop n 0 (body m)) fun _ => emitEv (.gend k tagged idx)) := by
  refine Str.silent_bind [] trivial (Silent.readU32 e) fun n _ => ?_
  exact Str.bracketN h n

theorem Str.coord {multi : Bool} {ν : Ev → Ev} (info : WkbInfo) (i : Nat) :
    Str multi ν (fun _ => True) (fun _ => True) (coordEvs multi i)
      (Prog.bind (processCoord info multi i) fun _ => .ret ()) := by
  unfold processCoord
  simp only [bind_eq, bind_assoc]
  refine Str.silent_bind ⟨0#64, 0#64, none, none⟩ trivial (Silent.readCoord64 info) fun c _ => ?_
  intro bs
  exact ⟨c, trivial, rfl⟩

/-- Forget what compressed line strings get wrong: the announced size of line strings and the index of
coordinates. -/
def looseEv : Ev → Ev
  | .xy x y _ => .xy x y 0
  | .coord x y z m t tm _ => .coord x y z m t tm 0
  | .gbegin .lineString tagged _ idx => .gbegin .lineString tagged 0 idx
  | e => e

/-- The same, but keeping whether sizes and indices are zero. -/
def semiEv : Ev → Ev
  | .xy x y i => .xy x y (min i 1)
  | .coord x y z m t tm i => .coord x y z m t tm (min i 1)
  | .gbegin .lineString tagged n idx => .gbegin .lineString tagged (min n 1) idx
  | e => e

theorem loose_semi (e : Ev) : looseEv (semiEv e) = looseEv e := by
  cases e with
  | gbegin k => cases k <;> rfl
  | _ => rfl

theorem map_loose_semi (evs : List Ev) : (evs.map semiEv).map looseEv = evs.map looseEv := by
  rw [List.map_map]
  exact List.map_congr_left fun e _ => loose_semi e

/-- when line strings are delivered up to `ν` -/
def LineOk (ν : Ev → Ev) (info : WkbInfo) : Prop := info.isCompressed = false ∨ ν = semiEv

theorem semi_coordEv (multi : Bool) (c : Coord) (i : Nat) : semiEv (coordEv multi c i) = coordEv multi c (min i 1) := by
  unfold coordEv; split <;> rfl

theorem semi_begin (tagged : Bool) (n idx : Nat) :
    semiEv (.gbegin .lineString tagged n idx) = .gbegin .lineString tagged (min n 1) idx := rfl

theorem semi_end (k : GKind) (tagged : Bool) (idx : Nat) : semiEv (.gend k tagged idx) = .gend k tagged idx := rfl

theorem semi_coords (multi : Bool) (cs : List Coord) (i : Nat) (hi : 0 < i) :
    (evList (coordEvs multi) i cs).map semiEv = cs.map (fun c => coordEv multi c 1) := by
  induction cs generalizing i with
  | nil => rfl
  | cons c cs ih =>
    have : min i 1 = 1 := by omega
    simp [evList, coordEvs, semi_coordEv, ih (i + 1) (by omega), this]

theorem semi_lineEvs (multi tagged : Bool) (idx : Nat) (c : Coord) (cs : List Coord) :
    (lineEvs multi tagged idx (c :: cs)).map semiEv =
      .gbegin .lineString tagged 1 idx ::
        (coordEv multi c 0 :: cs.map (fun c => coordEv multi c 1) ++ [.gend .lineString tagged idx]) := by
  have : min (cs.length + 1) 1 = 1 := by omega
  simp [lineEvs, bracket, semi_begin, semi_end, evList, coordEvs, semi_coordEv, semi_coords multi cs 1 (by omega), this]

/-- some coordinates that are not the first, up to indices -/
def Coords (multi : Bool) (evs : List Ev) : Prop :=
  ∃ cs : List Coord, evs.map semiEv = cs.map (fun c => coordEv multi c 1)

/-- some coordinates, the first with index 0 -/
def Coords0 (multi : Bool) (evs : List Ev) : Prop :=
  evs = [] ∨ ∃ (c : Coord) (cs : List Coord), evs.map semiEv = coordEv multi c 0 :: cs.map (fun c => coordEv multi c 1)

theorem Coords.nil {multi : Bool} : Coords multi [] := ⟨[], rfl⟩

theorem Coords.append {multi : Bool} {a b : List Ev} (ha : Coords multi a) (hb : Coords multi b) :
    Coords multi (a ++ b) := by
  obtain ⟨x, hx⟩ := ha
  obtain ⟨y, hy⟩ := hb
  exact ⟨x ++ y, by simp [hx, hy]⟩

theorem Coords.first {multi : Bool} {b : List Ev} (c : Coord) (hb : Coords multi b) :
    ∃ (c' : Coord) (cs : List Coord), ([coordEv multi c 0] ++ b).map semiEv = coordEv multi c' 0 :: cs.map (fun c => coordEv multi c 1) := by
  obtain ⟨y, hy⟩ := hb
  exact ⟨c, y, by simp [hy, semi_coordEv]⟩

theorem Sat.processCoord {multi : Bool} (info : WkbInfo) (i : Nat) :
    Sat multi (processCoord info multi i) (fun c evs => evs = [coordEv multi c i])
      (fun e evs => e.isPanic = false ∧ evs = []) := by
  unfold Geozero.processCoord
  refine Sat.bind (Silent.readCoord64 info) ?_ (fun _ _ h => h)
  rintro c evs ⟨_, rfl⟩ bs
  rfl

theorem Sat.processCompressedCoord {multi : Bool} (fo : FOps) (info : WkbInfo) (i : Nat) (hi : 0 < i) (prev : Coord) :
    Sat multi (processCompressedCoord fo info multi i prev) (fun _ evs => Coords multi evs)
      (fun e evs => e.isPanic = false ∧ Coords multi evs) := by
  have hm : min i 1 = 1 := by omega
  unfold Geozero.processCompressedCoord
  refine Sat.bind (Silent.readCoord32 fo info) ?_ ?_
  · rintro c evs ⟨_, rfl⟩ bs
    cases multi with
    | false => exact ⟨[{ x := fo.add prev.x c.x, y := fo.add prev.y c.y }], by
        show [Ev.xy _ _ (min i 1)] = _
        rw [hm]; rfl⟩
    | true =>
      exact ⟨[{ x := fo.add prev.x c.x, y := fo.add prev.y c.y, z := match prev.z, c.z with
        | some a, some b => some (fo.add a b)
        | _, _ => none, m := c.m }], by
        show [Ev.coord _ _ _ _ _ _ (min i 1)] = _
        rw [hm]; rfl⟩
  · rintro e evs ⟨he, rfl⟩; exact ⟨he, Coords.nil⟩

theorem Sat.compressedLoop {multi : Bool} (fo : FOps) (info : WkbInfo) (n i : Nat) (hi : 0 < i) (prev : Coord) :
    Sat multi (compressedLoop fo info multi n i prev) (fun _ evs => Coords multi evs)
      (fun e evs => e.isPanic = false ∧ Coords multi evs) := by
  induction n generalizing i prev with
  | zero => exact Sat.ret Coords.nil
  | succ n ih =>
    refine Sat.bind (Sat.processCompressedCoord fo info i hi prev) ?_ (fun _ _ h => h)
    intro c evs hc
    exact Sat.mono (ih (i + 1) (by omega) c) (fun _ _ h => hc.append h) (fun _ _ h => ⟨h.1, hc.append h.2⟩)

theorem Str.linestring {multi : Bool} {ν : Ev → Ev} (fo : FOps) (info : WkbInfo) (h : LineOk ν info)
    (tagged : Bool) (idx : Nat) :
    Str multi ν (fun _ => True) (fun _ => True) (lineEvs multi tagged idx) (processLinestring fo info tagged idx) := by
  by_cases hc : info.isCompressed = true
  · have hν : ν = semiEv := by
      rcases h with h | h
      · rw [hc] at h; cases h
      · exact h
    subst hν
    unfold processLinestring
    simp only [bind_eq, hc, true_and]
    refine Str.silent_bind [] trivial (Silent.readU32 _) fun n _ => ?_
    refine Sat.bind (P := fun _ evs => evs = [.gbegin .lineString tagged n idx]) (F := fun _ _ => False)
      (fun bs => rfl) ?_ (by simp)
    rintro _ evs rfl
    refine Sat.bind (P := fun m evs => m = multi ∧ evs = []) (F := fun _ _ => False) (fun bs => ⟨rfl, rfl⟩) ?_
      (by simp)
    rintro m evs ⟨rfl, rfl⟩
    by_cases hn : n > 0
    · have hn1 : min n 1 = 1 := by omega
      simp only [hn, if_true]
      have key : Sat m (Prog.bind (Geozero.processCoord info m 0) fun c =>
          Prog.bind (Geozero.compressedLoop fo info m (n - 1 - 1) 1 c) fun _ =>
          Prog.bind (Geozero.processCoord info m n) fun _ => pure ())
          (fun _ evs => ∃ (c : Coord) (cs : List Coord), evs.map semiEv = coordEv m c 0 :: cs.map (fun c => coordEv m c 1))
          (fun e evs => e.isPanic = false ∧ Coords0 m evs) := by
        refine Sat.bind (Sat.processCoord info 0) ?_ (fun _ _ h => ⟨h.1, Or.inl h.2⟩)
        rintro c evs rfl
        refine Sat.bind (Sat.compressedLoop fo info _ 1 (by omega) c) ?_
          (fun _ _ h => ⟨h.1, Or.inr (Coords.first c h.2)⟩)
        intro _ evs2 h2
        refine Sat.bind (Sat.processCoord info n) ?_ (fun _ _ h => ⟨h.1, Or.inr (by
          rw [h.2, List.append_nil]; exact Coords.first c h2)⟩)
        rintro c' evs3 rfl bs
        simp only [pure_eq, run_ret, List.append_nil]
        exact Coords.first c (h2.append ⟨[c'], by simp [semi_coordEv, hn1]⟩)
      refine Sat.bind key ?_ ?_
      · rintro _ evs ⟨c, cs, hcs⟩ bs
        refine ⟨c :: cs, trivial, ?_⟩
        rw [semi_lineEvs]
        simp [hcs, semi_begin, semi_end, hn1]
      · rintro e evs ⟨hp, rfl | ⟨c, cs, hcs⟩⟩
        · refine ⟨hp, [⟨0#64, 0#64, none, none⟩], trivial, ?_⟩
          rw [semi_lineEvs]
          simp [semi_begin, hn1]
        · refine ⟨hp, c :: cs, trivial, ?_⟩
          rw [semi_lineEvs]
          simp [hcs, semi_begin, semi_end, hn1]
    · have : n = 0 := by omega
      subst this
      intro bs
      exact ⟨[], trivial, rfl⟩
  · have hc' : info.isCompressed = false := by simpa using hc
    unfold processLinestring
    simp only [bind_eq, hc', Bool.false_eq_true, false_and, if_false]
    exact (Str.bracketM (body := fun m i => Prog.bind (processCoord info m i) fun _ => pure ())
      fun i => Str.coord info i).mono (fun _ _ => trivial) (fun _ h => h)

theorem Str.circularstring {multi : Bool} {ν : Ev → Ev} (info : WkbInfo) (idx : Nat) :
    Str multi ν (fun _ => True) (fun _ => True) (circEvs multi idx) (processCircularstring info idx) := by
  unfold processCircularstring
  exact (Str.bracketM (body := fun m i => Prog.bind (processCoord info m i) fun _ => pure ())
    fun i => Str.coord info i).mono (fun _ _ => trivial) (fun _ h => h)

theorem Str.polygon {multi : Bool} {ν : Ev → Ev} (fo : FOps) (info : WkbInfo) (h : LineOk ν info)
    (tagged : Bool) (idx : Nat) :
    Str multi ν (fun _ => True) (fun _ => True) (polyEvs multi tagged idx) (processPolygon fo info tagged idx) :=
  (Str.bracket fun i => Str.linestring fo info h false i).mono (fun _ _ => trivial) (fun _ h => h)

theorem Str.triangle {multi : Bool} {ν : Ev → Ev} (fo : FOps) (info : WkbInfo) (h : LineOk ν info)
    (tagged : Bool) (idx : Nat) :
    Str multi ν (fun _ => True) (fun _ => True) (triEvs multi tagged idx) (processTriangle fo info tagged idx) :=
  (Str.bracket fun i => Str.linestring fo info h false i).mono (fun _ _ => trivial) (fun _ h => h)

theorem Str.segment {multi : Bool} {ν : Ev → Ev} (fo : FOps) (info : WkbInfo) (h : LineOk ν info) (i : Nat) :
    Str multi ν (fun _ => True) (fun _ => True) (segEvs multi i) (processSegment fo info i) := by
  unfold processSegment
  split
  · exact Str.map Seg.circ (Str.circularstring info i) (fun _ _ => trivial) (fun _ h => h) (fun _ => rfl)
  · exact Str.map Seg.line (Str.linestring fo info h false i) (fun _ _ => trivial) (fun _ h => h) (fun _ => rfl)
  · exact Str.fail (.line []) trivial rfl

/-- the nested header reader is silent and keeps line strings deliverable -/
def HdrSilent (ν : Ev → Ev) (rh : WkbInfo → Prog WkbInfo) : Prop :=
  ∀ multi info, LineOk ν info → Silent multi (rh info) (LineOk ν)

theorem Str.compoundcurve {multi : Bool} {ν : Ev → Ev} (fo : FOps) {rh : WkbInfo → Prog WkbInfo}
    (hrh : HdrSilent ν rh) (info : WkbInfo) (h : LineOk ν info) (idx depth : Nat) :
    Str multi ν (fun _ => depth ≤ 128) (fun _ => True) (Geozero.bracket .compoundCurve true idx (segEvs multi))
      (processCompoundcurve fo rh info idx depth) := by
  unfold processCompoundcurve
  split
  · exact Str.fail [] trivial rfl
  · rename_i hd
    refine (Str.bracket (T := fun _ => True) (S := fun _ => True) fun i => ?_).mono
      (fun _ _ => by unfold wkbMaxNestingDepth at hd; omega) (fun _ h => h)
    exact Str.silent_bind (.line []) trivial (hrh multi info h) fun sub hs => Str.segment fo sub hs i

theorem Str.curveBody {multi : Bool} {ν : Ev → Ev} (fo : FOps) {rh : WkbInfo → Prog WkbInfo}
    (hrh : HdrSilent ν rh) (info : WkbInfo) (h : LineOk ν info) (idx depth : Nat) (hd : depth ≤ 129) :
    Str multi ν (fun c => depth + c.levels ≤ 129) (fun _ => True) (curveEvs multi idx)
      (processCurveBody fo rh info idx depth) := by
  unfold processCurveBody
  split
  · exact Str.map (fun cs => Curve.seg (.circ cs)) (Str.circularstring info idx)
      (fun _ _ => by simp only [Curve.levels]; omega) (fun _ h => h) (fun _ => rfl)
  · exact Str.map (fun cs => Curve.seg (.line cs)) (Str.linestring fo info h false idx)
      (fun _ _ => by simp only [Curve.levels]; omega) (fun _ h => h) (fun _ => rfl)
  · exact Str.map Curve.compound (Str.compoundcurve fo hrh info h idx (depth + 1))
      (fun _ _ => by simp only [Curve.levels]; omega) (fun _ h => h) (fun _ => rfl)
  · exact Str.fail (.seg (.line [])) trivial rfl

theorem Str.curve {multi : Bool} {ν : Ev → Ev} (fo : FOps) {rh : WkbInfo → Prog WkbInfo}
    (hrh : HdrSilent ν rh) (info : WkbInfo) (h : LineOk ν info) (idx depth : Nat) (hd : depth ≤ 129) :
    Str multi ν (fun c => depth + c.levels ≤ 129) (fun _ => True) (curveEvs multi idx)
      (processCurve fo rh info idx depth) :=
  Str.silent_bind (.seg (.line [])) trivial (hrh multi info h) fun sub hs =>
    Str.curveBody fo hrh sub hs idx depth hd

theorem Str.curvepolygon {multi : Bool} {ν : Ev → Ev} (fo : FOps) {rh : WkbInfo → Prog WkbInfo}
    (hrh : HdrSilent ν rh) (info : WkbInfo) (h : LineOk ν info) (idx depth : Nat) :
    Str multi ν (fun rings => depth + (rings.map (fun c => 1 + c.levels)).foldr max 1 ≤ 129) (fun _ => True)
      (Geozero.bracket .curvePolygon true idx (curveEvs multi)) (processCurvepolygon fo rh info idx depth) := by
  unfold processCurvepolygon
  split
  · exact Str.fail [] trivial rfl
  · rename_i hd
    unfold wkbMaxNestingDepth at hd
    refine (Str.bracket fun i => Str.curve fo hrh info h i (depth + 1) (by omega)).mono ?_ (fun _ h => h)
    intro rings hr
    have := (foldr_max_le (fun c : Curve => 1 + c.levels) 1 (129 - depth) rings).mpr
      ⟨by omega, fun c hc => by have := hr c hc; omega⟩
    omega

theorem Str.point {multi : Bool} {ν : Ev → Ev} (info : WkbInfo) (idx : Nat) :
    Str multi ν (fun g : Geom => g.levels = 0) (fun _ => True) (Geom.events multi idx) (processPoint info idx) := by
  unfold processPoint
  refine Str.silent_bind .emptyPoint trivial (Silent.readCoord64 info) fun c _ => ?_
  split
  · intro bs; exact ⟨.emptyPoint, rfl, rfl⟩
  · intro bs; exact ⟨.point c, rfl, rfl⟩

theorem Str.members {α : Type} {multi : Bool} {ν : Ev → Ev} {S T : α → Prop} {f : Nat → α → List Ev}
    {body : Nat → Prog Unit} {k : GKind} {idx : Nat} {info : WkbInfo}
    (h : ∀ i, Str multi ν S T (f i) (body i)) :
    Str multi ν (fun xs => ∀ x ∈ xs, S x) (fun _ => True) (Geozero.bracket k true idx f)
      (processMembers k info idx body) := Str.bracket h

theorem Str.geomN {multi : Bool} {ν : Ev → Ev} (fo : FOps) {rh : WkbInfo → Prog WkbInfo}
    (hrh : HdrSilent ν rh) :
    ∀ (fuel : Nat) (info : WkbInfo) (idx depth : Nat), LineOk ν info → fuel + depth ≥ 130 → depth ≤ 129 →
    Str multi ν (fun g : Geom => depth + g.levels ≤ 128) (fun _ => True) (Geom.events multi idx)
      (processGeomN fo rh fuel info idx depth) := by
  intro fuel
  induction fuel with
  | zero => intro info idx depth _ h h'; omega
  | succ fuel ih =>
    intro info idx depth h hf hd
    unfold processGeomN
    split
    · exact Str.fail .emptyPoint trivial rfl
    rename_i hd128
    unfold wkbMaxNestingDepth at hd128
    have hd' : depth ≤ 128 := by omega
    split
    · exact (Str.point info idx).mono (fun g hg => by omega) (fun _ h => h)
    · refine Str.map Geom.multiPoint (S := fun _ => True) (T := fun _ => True)
        (f := Geozero.bracket .multiPoint true idx (coordEvs multi)) ?_
        (fun _ _ => by simp only [Geom.levels]; omega) (fun _ h => h) (fun _ => rfl)
      simp only [bind_eq]
      refine Str.silent_bind [] trivial (Silent.readU32 _) fun n _ => ?_
      refine (Str.bracketN (S := fun _ => True) (T := fun _ => True) (f := coordEvs multi) (ν := ν)
        (body := fun i => Prog.bind (rh info) fun sub => Prog.bind (processCoord sub multi i) fun _ => pure ())
        (fun i => Str.silent_bind ⟨0#64, 0#64, none, none⟩ trivial (hrh multi info h) fun sub _ =>
          Str.coord sub i) n).mono (fun _ _ => trivial) (fun _ h => h)
    · exact Str.map Geom.lineString (Str.linestring fo info h true idx)
        (fun _ _ => by simp only [Geom.levels]; omega) (fun _ h => h) (fun _ => rfl)
    · exact Str.map Geom.circularString (Str.circularstring info idx)
        (fun _ _ => by simp only [Geom.levels]; omega) (fun _ h => h) (fun _ => rfl)
    · exact Str.map Geom.compoundCurve (Str.compoundcurve fo hrh info h idx (depth + 1))
        (fun _ _ => by simp only [Geom.levels]; omega) (fun _ h => h) (fun _ => rfl)
    · exact Str.map Geom.multiLineString (Str.members (S := fun _ => True) (T := fun _ => True) fun i =>
          Str.silent_bind [] trivial (hrh multi info h) fun sub hs => Str.linestring fo sub hs false i)
        (fun _ _ => by simp only [Geom.levels]; omega) (fun _ h => h) (fun _ => rfl)
    · refine Str.map Geom.multiCurve (Str.members fun i => Str.curve fo hrh info h i (depth + 1) (by omega))
        ?_ (fun _ h => h) (fun _ => rfl)
      intro cs hcs
      simp only [Geom.levels]
      have := (foldr_max_le Curve.levels 0 (128 - depth) cs).mpr
        ⟨by omega, fun c hc => by have := hcs c hc; omega⟩
      omega
    · exact Str.map Geom.polygon (Str.polygon fo info h true idx)
        (fun _ _ => by simp only [Geom.levels]; omega) (fun _ h => h) (fun _ => rfl)
    · exact Str.map Geom.triangle (Str.triangle fo info h true idx)
        (fun _ _ => by simp only [Geom.levels]; omega) (fun _ h => h) (fun _ => rfl)
    · exact Str.map Geom.curvePolygon (Str.curvepolygon fo hrh info h idx (depth + 1))
        (fun _ _ => by simp only [Geom.levels]; omega) (fun _ h => h) (fun _ => rfl)
    · exact Str.map Geom.multiPolygon (Str.members (S := fun _ => True) (T := fun _ => True) fun i =>
          Str.silent_bind [] trivial (hrh multi info h) fun sub hs => Str.polygon fo sub hs false i)
        (fun _ _ => by simp only [Geom.levels]; omega) (fun _ h => h) (fun _ => rfl)
    · exact Str.map Geom.polyhedralSurface (Str.members (S := fun _ => True) (T := fun _ => True) fun i =>
          Str.silent_bind [] trivial (hrh multi info h) fun sub hs => Str.polygon fo sub hs false i)
        (fun _ _ => by simp only [Geom.levels]; omega) (fun _ h => h) (fun _ => rfl)
    · exact Str.map Geom.tin (Str.members (S := fun _ => True) (T := fun _ => True) fun i =>
          Str.silent_bind [] trivial (hrh multi info h) fun sub hs => Str.triangle fo sub hs false i)
        (fun _ _ => by simp only [Geom.levels]; omega) (fun _ h => h) (fun _ => rfl)
    · refine Str.map Geom.multiSurface (S := fun ss => ∀ s ∈ ss, depth + s.levels ≤ 128) (T := fun _ => True)
        (f := Geozero.bracket .multiSurface true idx (surfaceEvs multi)) (Str.members (T := fun _ => True) fun i => ?_)
        ?_ (fun _ h => h) (fun _ => rfl)
      · refine Str.silent_bind (.polygon []) trivial (hrh multi info h) fun sub hs => ?_
        unfold processSurfaceBody
        split
        · exact Str.map Surface.curvePolygon (Str.curvepolygon fo hrh sub hs i (depth + 1))
            (fun _ _ => by simp only [Surface.levels]; omega) (fun _ h => h) (fun _ => rfl)
        · exact Str.map Surface.polygon (Str.polygon fo sub hs false i)
            (fun _ _ => by simp only [Surface.levels]; omega) (fun _ h => h) (fun _ => rfl)
        · exact Str.fail (.polygon []) trivial rfl
      · intro ss hss
        simp only [Geom.levels]
        have := (foldr_max_le Surface.levels 0 (128 - depth) ss).mpr
          ⟨by omega, fun c hc => by have := hss c hc; omega⟩
        omega
    · refine Str.map Geom.collection (S := fun gs => ∀ g ∈ gs, depth + 1 + g.levels ≤ 128) (T := fun _ => True)
        (f := Geozero.bracket .collection true idx (Geom.events multi)) (Str.members (T := fun _ => True) fun i => ?_)
        ?_ (fun _ h => h) (fun gs => events_collection multi idx gs)
      · exact Str.silent_bind .emptyPoint trivial (hrh multi info h) fun sub hs =>
          ih sub i (depth + 1) hs (by omega) (by omega)
      · intro gs hgs
        simp only [Geom.levels]
        have := (levelsList_le gs (128 - depth)).mpr (fun g hg => by have := hgs g hg; omega)
        omega
    · exact Str.fail .emptyPoint trivial rfl

theorem Silent.wkbHeader {multi : Bool} {ν : Ev → Ev} : Silent multi readWkbHeader (LineOk ν) := by
  unfold readWkbHeader
  exact Silent.readByte.bind fun _ _ => (Silent.readU32 _).bind fun _ _ => Silent.ret (Or.inl rfl)

theorem Silent.ewkbHeader {multi : Bool} {ν : Ev → Ev} : Silent multi readEwkbHeader (LineOk ν) := by
  unfold readEwkbHeader
  refine Silent.readByte.bind fun _ _ => (Silent.readU32 _).bind fun t _ => Silent.bind (P := fun _ => True) ?_
    fun s _ => Silent.ret (Or.inl rfl)
  split
  · exact (Silent.readI32 _).bind fun _ _ => Silent.ret trivial
  · exact Silent.ret trivial

theorem Silent.gpkgHeader {multi : Bool} {ν : Ev → Ev} : Silent multi readGpkgHeader (LineOk ν) := by
  unfold readGpkgHeader
  refine Silent.readByte.bind fun _ _ => Silent.readByte.bind fun _ _ => ?_
  split
  · refine Silent.readByte.bind fun _ _ => Silent.readByte.bind fun _ _ => ?_
    split
    · exact Silent.fail rfl
    · exact (Silent.readI32 _).bind fun _ _ => (Silent.readF64s _ _).bind fun _ _ =>
        (Silent.wkbHeader (ν := ν)).bind fun _ _ => Silent.ret (Or.inl rfl)
  · exact Silent.fail rfl

theorem Silent.mysqlHeader {multi : Bool} {ν : Ev → Ev} : Silent multi readMysqlHeader (LineOk ν) := by
  unfold readMysqlHeader
  refine (Silent.readU32 _).bind fun _ _ => ?_
  split
  · refine (Silent.wkbHeader (ν := ν)).bind fun info h => ?_
    split
    · exact Silent.ret h
    · exact Silent.fail rfl
  · exact Silent.fail rfl

theorem Silent.spatialiteHeader {multi : Bool} : Silent multi readSpatialiteHeader (LineOk semiEv) := by
  unfold readSpatialiteHeader
  refine Silent.readByte.bind fun _ _ => ?_
  split
  · refine Silent.readByte.bind fun _ _ => (Silent.readI32 _).bind fun _ _ => ?_
    extract_lets srid
    split
    · exact Silent.readByte.bind fun _ _ => Silent.ret (Or.inr rfl)
    · refine (Silent.readF64s _ _).bind fun _ _ => Silent.readByte.bind fun _ _ => ?_
      split
      · exact (Silent.readU32 _).bind fun _ _ => Silent.ret (Or.inr rfl)
      · exact Silent.fail rfl
  · exact Silent.fail rfl

theorem hdrSilent_wkb {ν : Ev → Ev} : HdrSilent ν readWkbNestedHeader := fun _ _ _ => Silent.wkbHeader
theorem hdrSilent_ewkb {ν : Ev → Ev} : HdrSilent ν readEwkbNestedHeader := fun _ _ _ => Silent.ewkbHeader
theorem hdrSilent_spatialite : HdrSilent semiEv readSpatialiteNestedHeader := by
  intro multi info _
  unfold readSpatialiteNestedHeader
  refine Silent.readByte.bind fun _ _ => ?_
  split
  · exact (Silent.readU32 _).bind fun _ _ => Silent.ret (Or.inr rfl)
  · exact Silent.fail rfl

theorem Sat.top {multi : Bool} {ν : Ev → Ev} (fo : FOps) {top : Prog WkbInfo} {rh : WkbInfo → Prog WkbInfo}
    (htop : Silent multi top (LineOk ν)) (hrh : HdrSilent ν rh) :
    Sat multi (processTop fo top rh)
      (fun _ evs => ∃ srid g, g.levels ≤ 128 ∧ evs.map ν = (Ev.srid srid :: Geom.events multi 0 g).map ν)
      (fun e evs => e.isPanic = false ∧
        ∃ srid g, evs.map ν <+: (Ev.srid srid :: Geom.events multi 0 g).map ν) := by
  unfold processTop
  refine Sat.bind htop ?_ ?_
  · rintro info evs ⟨hi, rfl⟩
    refine Sat.bind (P := fun _ evs => evs = [.srid info.srid]) (F := fun _ _ => False) (fun bs => rfl) ?_ (by simp)
    rintro _ evs rfl
    refine Sat.mono (Str.geomN fo hrh 130 info 0 0 hi (by omega) (by omega)) ?_ ?_
    · rintro _ evs ⟨g, hg, he⟩
      exact ⟨info.srid, g, by omega, by simp [he]⟩
    · rintro e evs ⟨hp, g, _, he⟩
      refine ⟨hp, info.srid, g, ?_⟩
      simp only [List.nil_append, List.singleton_append, List.map_cons]
      exact List.cons_prefix_cons.mpr ⟨rfl, he⟩
  · rintro e evs ⟨he, rfl⟩
    exact ⟨he, none, .emptyPoint, by simp⟩

end Geozero
