import Verif.Lemmas.Adaptors
import Verif.Props.WkbRead

/-
C30 (bounds), C31 (coordinate wrapping), C32 (multiplexer), C33 (datasource as geometry source).
-/

namespace Geozero

/-! ## C30 -/

/-- what a bounding box of a list of positions is -/
def IsBounds (ps : List (F64 × F64)) : Option Bounds → Prop
  | none => ps = []
  | some b =>
    IsMin (ps.map Prod.fst) b.minX ∧ IsMax (ps.map Prod.fst) b.maxX ∧
    IsMin (ps.map Prod.snd) b.minY ∧ IsMax (ps.map Prod.snd) b.maxY

private theorem isBounds_of {ps : List (F64 × F64)} {s : Option Bounds} (h : BoundsOf ps s)
    (hn : ∀ p ∈ ps, NumPos p) : IsBounds ps s := by
  cases s with
  | none => exact h
  | some b => exact h.numeric hn

private theorem firstNum_of {ps : List (F64 × F64)} (hn : ∀ p ∈ ps, NumPos p) : FirstNum ps := by
  cases ps with
  | nil => trivial
  | cons p ps => exact hn p (by simp)

/-- For every stream of calls a `BoundsProcessor` accepts, none of whose positions is NaN: the bounds are absent
iff no position was delivered; otherwise each side is one of the delivered values and no position is outside. -/
theorem C30_bounds (evs : List FEv) (s : Option Bounds) (h : feed boundsProc.step none evs = .ok s)
    (hn : ∀ p ∈ positions evs, NumPos p) : IsBounds (positions evs) s :=
  isBounds_of (boundsProc_feed evs (ps := []) (s := none) rfl (firstNum_of hn) h) hn

/-- `None` iff no position was delivered. -/
theorem C30_none_iff (evs : List FEv) (s : Option Bounds) (h : feed boundsProc.step none evs = .ok s)
    (hn : ∀ p ∈ positions evs, NumPos p) : s = none ↔ positions evs = [] := by
  have := C30_bounds evs s h hn
  cases s with
  | none => exact ⟨fun _ => this, fun _ => rfl⟩
  | some b =>
    refine ⟨fun h => by simp at h, fun h => ?_⟩
    rw [h] at this
    exact absurd this.1.1 (by simp)

/-- The same for whatever source drives the processor, also one that fails or stops half-way: the bounds are those
of the positions delivered so far. -/
theorem C30_bounds_any_source {α : Type} (src : FProg α) (bs : List Byte)
    (hn : ∀ p ∈ positions (FProg.interp boundsProc src none bs).2.1, NumPos p) :
    IsBounds (positions (FProg.interp boundsProc src none bs).2.1) (FProg.interp boundsProc src none bs).1 :=
  isBounds_of (boundsProc_interp src bs (ps := []) rfl (firstNum_of hn)) hn

/-- NaN handling, per axis: if the first position is a number, later NaN values are ignored. -/
theorem C30_nan_ignored (evs : List FEv) (b : Bounds) (h : feed boundsProc.step none evs = .ok (some b))
    (p : F64 × F64) (ps : List (F64 × F64)) (hp : positions evs = p :: ps) (hn : NumPos p) :
    IsMin ((positions evs |>.map Prod.fst).filter (!·.isNaN)) b.minX ∧
    IsMax ((positions evs |>.map Prod.fst).filter (!·.isNaN)) b.maxX ∧
    IsMin ((positions evs |>.map Prod.snd).filter (!·.isNaN)) b.minY ∧
    IsMax ((positions evs |>.map Prod.snd).filter (!·.isNaN)) b.maxY :=
  boundsProc_feed evs (ps := []) (s := none) (s' := some b) rfl (by rw [List.nil_append, hp]; exact hn) h

/-- The claim without the restriction to numbers is false: a NaN in the first position stays. -/
theorem C30_nan_first_false :
    ∃ evs b, feed boundsProc.step none evs = .ok (some b) ∧ (1#64, 1#64) ∈ positions evs ∧ b.minX.isNaN = true ∧
      b.maxX.isNaN = true :=
  ⟨[.geom (.xy 0x7FF8000000000000#64 0#64 0), .geom (.xy 1#64 1#64 1)],
    ⟨0x7FF8000000000000#64, 0#64, 0x7FF8000000000000#64, 1#64⟩, by rfl, by decide, by decide, by decide⟩

/-- Bounds of a geometry without empty points: those of all its coordinates. -/
theorem C30_geometry (multi : Bool) (idx : Nat) (g : Geom) (s : Option Bounds)
    (h : feed boundsProc.step none ((g.events multi idx).map FEv.geom) = .ok s)
    (hn : ∀ c ∈ g.coords, NumPos (c.x, c.y)) : IsBounds (g.coords.map fun c => (c.x, c.y)) s := by
  have hp : positions ((g.events multi idx).map FEv.geom) = g.coords.map fun c => (c.x, c.y) := by
    rw [positions_geom, pos_geom]; rfl
  rw [← hp]
  refine C30_bounds _ s h ?_
  rw [hp]
  intro p hp
  obtain ⟨c, hc, rfl⟩ := List.mem_map.mp hp
  exact hn c hc

/-- the order used is the order of the doubles' values: `<` holds iff neither side is NaN and the values compare -/
theorem C30_order (x y : F64) :
    F64.lt x y = true ↔ x.isNaN = false ∧ y.isNaN = false ∧ x.value < y.value := F64.lt_iff x y

-- -0.0 and 0.0 have the same value; 1.0 < 2.0; -1.0 < 0.0; every finite double is below infinity
example : F64.value 0x8000000000000000#64 = F64.value 0#64 ∧
    F64.value 0x3FF0000000000000#64 = 2 ^ 1074 ∧ F64.value 0x4000000000000000#64 = 2 ^ 1075 ∧
    F64.value 0xBFF0000000000000#64 = - 2 ^ 1074 := by
  simp [F64.value, F64.magnitude]; exact ⟨by decide +kernel, by decide +kernel, by decide +kernel⟩
-- a two-point line: hypotheses of C30_geometry hold
example : feed boundsProc.step none
    (((Geom.lineString [⟨0x3FF0000000000000#64, 0x4000000000000000#64, none, none⟩,
      ⟨0x4000000000000000#64, 0xBFF0000000000000#64, none, none⟩]).events false 0).map FEv.geom) =
    .ok (some ⟨0x3FF0000000000000#64, 0xBFF0000000000000#64, 0x4000000000000000#64, 0x4000000000000000#64⟩) := by
  rfl

/-! ## C31 -/

/-- The wrapped processor receives the same stream of calls with every position transformed, whatever the stream,
the function and the processor (state, errors and answers included). -/
theorem C31_wrap_calls {σ : Type} (f : F64 → F64 → F64 × F64) (p : FProc σ) (evs : List FEv) (s : σ) :
    feed (wrapXY f p).step s evs = feed p.step s (evs.map (FEv.mapXY f)) := by
  induction evs generalizing s with
  | nil => rfl
  | cons e es ih =>
    simp only [List.map_cons, feed_cons, wrapXY_step]
    cases p.step s (e.mapXY f) with
    | error x => rfl
    | ok s' => exact ih s'

private theorem mapXY_prop (f : F64 → F64 → F64 × F64) (i : Nat) (n : Text) (v : ColVal) :
    FEv.mapXY f (.prop i n v) = .prop i n v := rfl

/-- Driving the wrapped processor from any source is the same as driving the inner processor from the source with
every position transformed: same final state, same outcome, same calls up to the transformation. -/
theorem C31_wrap_source {α σ : Type} (f : F64 → F64 → F64 × F64) (p : FProc σ) (src : FProg α) (s : σ)
    (bs : List Byte) :
    (FProg.interp p (src.mapXY f) s bs).1 = (FProg.interp (wrapXY f p) src s bs).1 ∧
    (FProg.interp p (src.mapXY f) s bs).2.1 = (FProg.interp (wrapXY f p) src s bs).2.1.map (FEv.mapXY f) ∧
    (FProg.interp p (src.mapXY f) s bs).2.2 = (FProg.interp (wrapXY f p) src s bs).2.2 := by
  induction src generalizing s bs with
  | ret a => exact ⟨rfl, rfl, rfl⟩
  | fail e => exact ⟨rfl, rfl, rfl⟩
  | read k ih =>
    cases bs with
    | nil => exact ⟨rfl, rfl, rfl⟩
    | cons b bs => exact ih b s bs
  | emit e k ih =>
    simp only [FProg.mapXY, FProg.interp, wrapXY, wrapEv_eq]
    cases p.step s (e.mapXY f) with
    | error x => exact ⟨rfl, rfl, rfl⟩
    | ok s' =>
      have := ih s' bs
      simp only [wrapXY, wrapEv_eq] at this
      exact ⟨this.1, by simp only [this.2.1, List.map_cons], this.2.2⟩
  | emitOk e k ih =>
    simp only [FProg.mapXY, FProg.interp, wrapXY, wrapEv_eq]
    cases p.step s (e.mapXY f) with
    | error x =>
      by_cases hx : x.isPanic = true
      · simp only [hx, if_true, List.map_cons, List.map_nil, and_self]
      · simp only [if_neg hx]
        have := ih (p.left s (e.mapXY f)) bs
        simp only [wrapXY, wrapEv_eq] at this
        exact ⟨this.1, by simp only [this.2.1, List.map_cons], this.2.2⟩
    | ok s' =>
      have := ih s' bs
      simp only [wrapXY, wrapEv_eq] at this
      exact ⟨this.1, by simp only [this.2.1, List.map_cons], this.2.2⟩
  | prop i n v k ih =>
    simp only [FProg.mapXY, FProg.interp, wrapXY, wrapEv_eq, mapXY_prop]
    cases p.step s (.prop i n v) with
    | error x => exact ⟨rfl, rfl, rfl⟩
    | ok s' =>
      have := ih (p.abort s (.prop i n v)) s' bs
      simp only [wrapXY, wrapEv_eq] at this
      exact ⟨this.1, by simp only [this.2.1, List.map_cons, mapXY_prop], this.2.2⟩
  | ask k ih =>
    have := ih (p.multi s) (p.dims s) s bs
    exact this

/-- Wrapping with `g` and then with `f` is wrapping once with `g` after `f`. -/
theorem C31_wrap_compose {σ : Type} (f g : F64 → F64 → F64 × F64) (p : FProc σ) :
    wrapXY f (wrapXY g p) = wrapXY (fun x y => g (f x y).1 (f x y).2) p := by
  have : ∀ e, wrapEv g (wrapEv f e) = wrapEv (fun x y => g (f x y).1 (f x y).2) e := by
    intro e
    cases e with
    | geom e => cases e <;> rfl
    | _ => rfl
  simp only [wrapXY, this]

/-- Wrapping with the identity changes nothing. -/
theorem C31_wrap_id {σ : Type} (p : FProc σ) : wrapXY (fun x y => (x, y)) p = p := by
  have : ∀ e, wrapEv (fun x y => (x, y)) e = e := by
    intro e
    cases e with
    | geom e => cases e <;> rfl
    | _ => rfl
  simp only [wrapXY, this]

/-- A processor behind a wrapper sees a geometry as the geometry with every position transformed: z, m, indices,
sizes and structure are untouched. -/
theorem C31_wrap_geometry {σ : Type} (f : F64 → F64 → F64 × F64) (p : FProc σ) (multi : Bool) (idx : Nat) (g : Geom)
    (s : σ) :
    feed (wrapXY f p).step s ((g.events multi idx).map FEv.geom) =
      feed p.step s (((g.mapXY f).events multi idx).map FEv.geom) := by
  rw [C31_wrap_calls, ← mapXY_geom, List.map_map, List.map_map]
  congr 1
  apply List.map_congr_left
  intro e _
  exact FEv.mapXY_geom f e

-- swapping x and y of a three-dimensional point
example : (Geom.point ⟨1#64, 2#64, some 3#64, none⟩).mapXY (fun x y => (y, x)) = .point ⟨2#64, 1#64, some 3#64, none⟩ :=
  rfl

/-! ## C32 -/

/-- a processor that records every call -/
def recorder (multi : Bool) (dims : Dims) (ans : Bool) : FProc (List FEv) where
  step s e := .ok (s ++ [e])
  abort _ _ := ans
  multi _ := multi
  dims _ := dims

/-- Whatever stream of calls a multiplexer accepts, each of its two processors has received exactly the calls of the
stream that are no SRID, empty point, or begin/end of a geometry collection, in order. -/
theorem C32_forwards_partial {σ τ : Type} (p : FProc σ) (q : FProc τ) (evs : List FEv) (s s' : σ) (t t' : τ)
    (h : feed (mux p q).step (s, t) evs = .ok (s', t')) :
    feed p.step s (evs.filter FEv.plain) = .ok s' ∧ feed q.step t (evs.filter FEv.plain) = .ok t' := by
  induction evs generalizing s t with
  | nil => simp only [feed, Except.ok.injEq, Prod.mk.injEq] at h; simp [h]
  | cons e es ih =>
    simp only [feed_cons, mux, muxForwards_eq] at h
    cases hf : e.plain with
    | false =>
      simp only [hf, Bool.false_eq_true, if_false] at h
      rw [List.filter_cons_of_neg (by simp [hf])]
      cases hd : defaultStep e with
      | error x => rw [hd] at h; cases h
      | ok u => rw [hd] at h; exact ih s t h
    | true =>
      simp only [hf, if_true, muxBoth] at h
      rw [List.filter_cons_of_pos hf, feed_cons, feed_cons]
      cases hp : p.step s e with
      | error x => rw [hp] at h; cases h
      | ok s1 =>
        rw [hp] at h
        simp only [] at h
        cases hq : q.step t e with
        | error x => rw [hq] at h; cases h
        | ok t1 => rw [hq] at h; exact ih s1 t1 h

/-- Conversely a stream without empty points on which neither processor fails is accepted. -/
theorem C32_accepts_partial {σ τ : Type} (p : FProc σ) (q : FProc τ) (evs : List FEv) (s s' : σ) (t t' : τ)
    (hp : feed p.step s (evs.filter FEv.plain) = .ok s') (hq : feed q.step t (evs.filter FEv.plain) = .ok t')
    (he : ∀ i, FEv.geom (.emptyPoint i) ∉ evs) : feed (mux p q).step (s, t) evs = .ok (s', t') := by
  induction evs generalizing s t with
  | nil => simp only [List.filter_nil, feed, Except.ok.injEq] at hp hq ⊢; simp [hp, hq]
  | cons e es ih =>
    have he' : ∀ i, FEv.geom (.emptyPoint i) ∉ es := fun i h => he i (by simp [h])
    simp only [feed_cons, mux, muxForwards_eq]
    cases hf : e.plain with
    | false =>
      rw [List.filter_cons_of_neg (by simp [hf])] at hp hq
      have : defaultStep e = .ok () := by
        cases e with
        | geom g =>
          cases g with
          | emptyPoint i => exact absurd (by simp) (he i)
          | _ => rfl
        | _ => rfl
      simp only [this, Bool.false_eq_true, if_false]
      exact ih s t hp hq he'
    | true =>
      rw [List.filter_cons_of_pos hf, feed_cons] at hp hq
      simp only [if_true, muxBoth]
      cases h1 : p.step s e with
      | error x => rw [h1] at hp; cases hp
      | ok s1 =>
        rw [h1] at hp
        cases h2 : q.step t e with
        | error x => rw [h2] at hq; cases hq
        | ok t1 => rw [h2] at hq; exact ih s1 t1 hp hq he'

private theorem filter_plain {evs : List FEv} (h : ∀ e ∈ evs, e.plain = true) : evs.filter FEv.plain = evs :=
  List.filter_eq_self.mpr h

/-- Missing for the full property: see the `_false` theorems below.  For a source whose calls are plain (no SRID, no
empty points, no geometry collections), and two two-dimensional processors giving the same answers to `property` and
failing on no call: each processor behind the multiplexer goes through exactly what it goes through alone, and the
multiplexed run makes the same calls with the same outcome. -/
theorem C32_multiplexer_partial {α σ τ : Type} (p : FProc σ) (q : FProc τ) (ans : FEv → Bool)
    (hpm : ∀ s, p.multi s = false) (hpd : ∀ s, p.dims s = {}) (hpa : ∀ s e, p.abort s e = ans e)
    (hqm : ∀ s, q.multi s = false) (hqd : ∀ s, q.dims s = {}) (hqa : ∀ s e, q.abort s e = ans e)
    (src : FProg α) (bs : List Byte) (s s' : σ) (t t' : τ)
    (calls : List FEv) (r : Except Err (α × List Byte))
    (hplain : ∀ e ∈ calls, e.plain = true)
    (hp : FProg.interp p src s bs = (s', calls, r)) (hps : feed p.step s calls = .ok s')
    (hq : FProg.interp q src t bs = (t', calls, r)) (hqs : feed q.step t calls = .ok t') :
    FProg.interp (mux p q) src (s, t) bs = ((s', t'), calls, r) := by
  have ap : FProg.Agrees p ⟨false, {}, ans⟩ (fun _ => True) :=
    ⟨fun s _ => hpm s, fun s _ => hpd s, fun s e _ => hpa s e, fun _ _ _ _ _ => trivial⟩
  have am : FProg.Agrees (mux p q) ⟨false, {}, ans⟩ (fun _ => True) :=
    ⟨fun _ _ => rfl, fun _ _ => rfl, fun s e _ => hqa s.2 e, fun _ _ _ _ _ => trivial⟩
  have hrun : (calls, r) = FProg.run ⟨false, {}, ans⟩ src bs := by
    have := FProg.interp_run_inv ap src s s' trivial bs (by rw [hp]; exact hps)
    rw [hp] at this
    exact this
  have hm : feed (mux p q).step (s, t) (FProg.run ⟨false, {}, ans⟩ src bs).1 = .ok (s', t') := by
    rw [← hrun]
    refine C32_accepts_partial p q calls s s' t t' ?_ ?_ ?_
    · rw [filter_plain hplain]; exact hps
    · rw [filter_plain hplain]; exact hqs
    · intro i h; exact absurd (hplain _ h) (by simp [FEv.plain])
  rw [FProg.interp_of_feed_ok am src (s, t) (s', t') trivial bs hm, ← hrun]

-- the hypotheses are met by two recorders reading a feature with a property and a point
example :
    let src : FProg Unit := do
      FProg.call (.ftBegin 0); FProg.call .propsBegin
      FProg.prop 0 [] (.bool true) (fun _ => FProg.ret ())
      FProg.call .propsEnd; FProg.call .geomBegin
      FProg.lift (Prog.emitEv (.gbegin .point true 1 0)); FProg.lift (Prog.emitEv (.xy 1#64 2#64 0))
      FProg.lift (Prog.emitEv (.gend .point true 0)); FProg.call .geomEnd; FProg.call (.ftEnd 0)
    (FProg.interp (mux (recorder false {} false) (recorder false {} false)) src ([], []) []).1.1 =
      (FProg.interp (recorder false {} false) src [] []).1 ∧
    (FProg.interp (recorder false {} false) src [] []).1.length = 10 := by
  decide

/-- What happens exactly, for any source and any two processors that do not fail (empty points excepted, see `C32_empty_point_false`):
the source is asked as by a two-dimensional processor that answers `property` as the second processor does; each of the two processors
receives the calls the source then makes, without SRIDs and without the begin and end of geometry collections. -/
theorem C32_multiplexer_exact {α σ τ : Type} (p : FProc σ) (q : FProc τ) (ans : FEv → Bool) (hqa : ∀ s e, q.abort s e = ans e)
    (src : FProg α) (bs : List Byte) (s s' : σ) (t t' : τ) (calls : List FEv) (r : Except Err (α × List Byte))
    (hrun : FProg.run { ans := ans } src bs = (calls, r)) (he : ∀ i, FEv.geom (.emptyPoint i) ∉ calls)
    (hp : feed p.step s (calls.filter FEv.plain) = .ok s') (hq : feed q.step t (calls.filter FEv.plain) = .ok t') :
    FProg.interp (mux p q) src (s, t) bs = ((s', t'), calls, r) := by
  have am : FProg.Agrees (mux p q) { ans := ans } (fun _ => True) :=
    ⟨fun _ _ => rfl, fun _ _ => rfl, fun s e _ => hqa s.2 e, fun _ _ _ _ _ => trivial⟩
  rw [FProg.interp_of_feed_ok am src (s, t) (s', t') trivial bs
    (by rw [hrun]; exact C32_accepts_partial p q calls s s' t t' hp hq he), hrun]

-- a collection with a point: both processors receive the point without the collection, whatever dimensions they want
example :
    let src : FProg Unit := do
      FProg.lift (Prog.emitEv (.gbegin .collection true 1 0)); FProg.lift (Prog.emitEv (.gbegin .point true 1 0))
      FProg.ask fun multi _ => FProg.call (.geom (coordEv multi ⟨1#64, 2#64, some 3#64, none⟩ 0))
      FProg.lift (Prog.emitEv (.gend .point true 0)); FProg.lift (Prog.emitEv (.gend .collection true 0))
    (FProg.run {} src []).1.filter FEv.plain =
      [.geom (.gbegin .point true 1 0), .geom (.xy 1#64 2#64 0), .geom (.gend .point true 0)] ∧
    (FProg.interp (mux (recorder true { z := true } true) (recorder false {} false)) src ([], []) []).1 =
      ([.geom (.gbegin .point true 1 0), .geom (.xy 1#64 2#64 0), .geom (.gend .point true 0)],
       [.geom (.gbegin .point true 1 0), .geom (.xy 1#64 2#64 0), .geom (.gend .point true 0)]) := by
  decide

/-- False in general: collections are not passed on. -/
theorem C32_collection_false :
    ∃ src : FProg Unit, (FProg.interp (mux (recorder false {} false) (recorder false {} false)) src ([], []) []).1.1 ≠
      (FProg.interp (recorder false {} false) src [] []).1 :=
  ⟨FProg.lift (Prog.emitEv (.gbegin .collection true 0 0)), by decide⟩

/-- False in general: empty points make the multiplexer fail although both processors accept them. -/
theorem C32_empty_point_false :
    ∃ src : FProg Unit, (FProg.interp (recorder false {} false) src [] []).2.2 = .ok ((), []) ∧
      ∃ x, (FProg.interp (mux (recorder false {} false) (recorder false {} false)) src ([], []) []).2.2 = .error x :=
  ⟨FProg.lift (Prog.emitEv (.emptyPoint 0)), rfl, _, rfl⟩

/-- False in general: a three-dimensional processor behind a multiplexer is not given z. -/
theorem C32_dimensions_false :
    ∃ src : FProg Unit,
      (FProg.interp (mux (recorder true { z := true } false) (recorder true { z := true } false)) src ([], []) []).1.1 ≠
        (FProg.interp (recorder true { z := true } false) src [] []).1 :=
  ⟨FProg.ask fun multi _ =>
      FProg.call (.geom (coordEv multi ⟨1#64, 2#64, some 3#64, none⟩ 0)), by decide⟩

/-- a reader with two properties that stops when told to -/
private def twoProps : FProg Unit :=
  FProg.prop 0 [] (.bool true) fun stop =>
    if stop then FProg.ret () else FProg.prop 1 [] (.bool false) fun _ => FProg.ret ()

/-- False in general: the answer of the second processor to `property` decides for both; the first one's is ignored.
The second processor asking to stop keeps properties from the first, and the first asking to stop is not heeded. -/
theorem C32_abort_false :
    ((FProg.interp (mux (recorder false {} false) (recorder false {} true)) twoProps ([], []) []).1.1.length = 1 ∧
      (FProg.interp (recorder false {} false) twoProps [] []).1.length = 2) ∧
    ((FProg.interp (mux (recorder false {} true) (recorder false {} false)) twoProps ([], []) []).1.1.length = 2 ∧
      (FProg.interp (recorder false {} true) twoProps [] []).1.length = 1) := by
  decide

/-! ## C33 -/

/-- Whatever stream of calls a datasource makes: its geometry calls except SRIDs, empty points and collection
begin/end reach the geometry processor, in order; nothing else does. -/
theorem C33_forwards_partial {σ : Type} (p : Prog.Proc σ) (evs : List FEv) (s s' : σ)
    (h : feed (dsGeom p).step s evs = .ok s') :
    feed p.step s ((geomEvs evs).filter fun e => (FEv.geom e).plain) = .ok s' := by
  induction evs generalizing s with
  | nil => exact h
  | cons e es ih =>
    simp only [feed_cons, dsGeom_step] at h
    cases e with
    | geom e =>
      simp only [geomEvs]
      simp only [] at h
      cases hf : (FEv.geom e).plain with
      | false =>
        rw [List.filter_cons_of_neg (by simp [hf])]
        simp only [hf, Bool.false_eq_true, if_false] at h
        cases hd : defaultStep (.geom e) with
        | error x => rw [hd] at h; cases h
        | ok u => rw [hd] at h; exact ih s h
      | true =>
        rw [List.filter_cons_of_pos (by simpa using hf)]
        simp only [hf, if_true] at h
        rw [feed_cons]
        cases hp : p.step s e with
        | error x => rw [hp] at h; cases h
        | ok s1 => rw [hp] at h; exact ih s1 h
    | _ => exact ih s h

private theorem dsGeom_accepts_filter {σ : Type} (p : Prog.Proc σ) (evs : List FEv) (s s' : σ)
    (he : ∀ i, FEv.geom (.emptyPoint i) ∉ evs)
    (h : feed p.step s ((geomEvs evs).filter fun e => (FEv.geom e).plain) = .ok s') : feed (dsGeom p).step s evs = .ok s' := by
  induction evs generalizing s with
  | nil => exact h
  | cons e es ih =>
    have hes : ∀ i, FEv.geom (.emptyPoint i) ∉ es := fun i hi => he i (by simp [hi])
    simp only [feed_cons, dsGeom_step]
    cases e with
    | geom e =>
      simp only [geomEvs] at h
      cases hf : (FEv.geom e).plain with
      | false =>
        rw [List.filter_cons_of_neg (by simp [hf])] at h
        have : defaultStep (.geom e) = .ok () := by
          cases e with
          | emptyPoint i => exact absurd (by simp) (he i)
          | _ => rfl
        simp only [hf, this, Bool.false_eq_true, if_false]
        exact ih s hes h
      | true =>
        rw [List.filter_cons_of_pos (by simpa using hf), feed_cons] at h
        simp only [hf, if_true]
        cases hp : p.step s e with
        | error x => rw [hp] at h; cases h
        | ok s1 => rw [hp] at h; exact ih s1 hes h
    | _ => exact ih s hes h

private theorem dsGeom_accepts {σ : Type} (p : Prog.Proc σ) (evs : List FEv) (s s' : σ)
    (hplain : ∀ e ∈ evs, e.plain = true)
    (h : feed p.step s (geomEvs evs) = .ok s') : feed (dsGeom p).step s evs = .ok s' := by
  induction evs generalizing s with
  | nil => exact h
  | cons e es ih =>
    have hes : ∀ e ∈ es, e.plain = true := fun e he => hplain e (by simp [he])
    simp only [feed_cons, dsGeom_step]
    cases e with
    | geom e =>
      simp only [geomEvs, feed_cons] at h
      simp only [hplain (.geom e) (by simp), if_true]
      cases hp : p.step s e with
      | error x => rw [hp] at h; cases h
      | ok s1 => rw [hp] at h; exact ih s1 hes h
    | _ => exact ih s hes h

/-- Missing for the full property: SRIDs, empty points, collections and z (see the `_false` theorems).  If all calls
the datasource makes (for a two-dimensional processor) are plain and the geometry processor accepts the geometry
calls among them, then it receives exactly these. -/
theorem C33_datasource_geometry_partial {σ : Type} (p : Prog.Proc σ) (src : FProg Unit)
    (bs : List Byte) (s s' : σ) (calls : List FEv) (r : Except Err (Unit × List Byte))
    (hrun : FProg.run { ans := fun _ => true } src bs = (calls, r))
    (hplain : ∀ e ∈ calls, e.plain = true)
    (h : feed p.step s (geomEvs calls) = .ok s') :
    datasourceProcessGeom src p s bs = (s', calls, r) := by
  have am : FProg.Agrees (dsGeom p) { ans := fun _ => true } (fun _ => True) :=
    ⟨fun _ _ => rfl, fun _ _ => rfl, fun _ _ _ => rfl, fun _ _ _ _ _ => trivial⟩
  have := FProg.interp_of_feed_ok am src s s' trivial bs (by rw [hrun]; exact dsGeom_accepts p calls s s' hplain h)
  rw [datasourceProcessGeom, this, hrun]

/-- What happens exactly, for any datasource and any geometry processor that does not fail (empty points excepted, see
`C33_empty_point_false`): the datasource is asked as by a two-dimensional processor, and the geometry calls it then makes reach the
processor, without SRIDs and without the begin and end of geometry collections. -/
theorem C33_datasource_geometry_exact {σ : Type} (p : Prog.Proc σ) (src : FProg Unit)
    (bs : List Byte) (s s' : σ) (calls : List FEv) (r : Except Err (Unit × List Byte))
    (hrun : FProg.run { ans := fun _ => true } src bs = (calls, r)) (he : ∀ i, FEv.geom (.emptyPoint i) ∉ calls)
    (h : feed p.step s ((geomEvs calls).filter fun e => (FEv.geom e).plain) = .ok s') :
    datasourceProcessGeom src p s bs = (s', calls, r) := by
  have am : FProg.Agrees (dsGeom p) { ans := fun _ => true } (fun _ => True) :=
    ⟨fun _ _ => rfl, fun _ _ => rfl, fun _ _ _ => rfl, fun _ _ _ _ _ => trivial⟩
  have := FProg.interp_of_feed_ok am src s s' trivial bs (by rw [hrun]; exact dsGeom_accepts_filter p calls s s' he h)
  rw [datasourceProcessGeom, this, hrun]

/-- records geometry calls -/
def geomRecorder (multi : Bool) : Prog.Proc (List Ev) where
  step s e := .ok (s ++ [e])
  multi _ := multi

example :
    let src : FProg Unit := do
      FProg.call (.ftBegin 0); FProg.call .geomBegin
      FProg.lift (Prog.emitEv (.gbegin .point true 1 0)); FProg.lift (Prog.emitEv (.xy 1#64 2#64 0))
      FProg.lift (Prog.emitEv (.gend .point true 0)); FProg.call .geomEnd; FProg.call (.ftEnd 0)
    (datasourceProcessGeom src (geomRecorder false) [] []).1 =
      [.gbegin .point true 1 0, .xy 1#64 2#64 0, .gend .point true 0] := by
  decide

-- a collection with a point: only the point arrives
example :
    let src : FProg Unit := do
      FProg.lift (Prog.emitEv (.gbegin .collection true 1 0)); FProg.lift (Prog.emitEv (.gbegin .point true 1 0))
      FProg.ask fun multi _ => FProg.call (.geom (coordEv multi ⟨1#64, 2#64, some 3#64, none⟩ 0))
      FProg.lift (Prog.emitEv (.gend .point true 0)); FProg.lift (Prog.emitEv (.gend .collection true 0))
    (datasourceProcessGeom src (geomRecorder true) [] []).1 =
      [.gbegin .point true 1 0, .xy 1#64 2#64 0, .gend .point true 0] := by
  decide

/-- False in general: collection begin and end are dropped. -/
theorem C33_collection_false :
    ∃ src : FProg Unit, (datasourceProcessGeom src (geomRecorder false) [] []).1 ≠
      geomEvs (FProg.interp (recorder false {} true) src [] []).1 :=
  ⟨FProg.lift (Prog.emitEv (.gbegin .collection true 0 0)), by decide⟩

/-- False in general: a three-dimensional processor is not given z. -/
theorem C33_dimensions_false :
    ∃ src : FProg Unit, (datasourceProcessGeom src (geomRecorder true) [] []).1 ≠
      geomEvs (FProg.interp (recorder true { z := true } true) src [] []).1 :=
  ⟨FProg.ask fun multi _ =>
      FProg.call (.geom (coordEv multi ⟨1#64, 2#64, some 3#64, none⟩ 0)), by decide⟩

/-- False in general: an empty point stops the datasource, although the processor accepts empty points. -/
theorem C33_empty_point_false :
    ∃ src : FProg Unit, (FProg.interp (recorder false {} true) src [] []).2.2 = .ok ((), []) ∧
      ∃ x, (datasourceProcessGeom src (geomRecorder false) [] []).2.2 = .error x :=
  ⟨FProg.lift (Prog.emitEv (.emptyPoint 0)), rfl, _, rfl⟩

end Geozero
