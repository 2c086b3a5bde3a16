import Verif.Spec.GeoTypes
import Verif.Lemmas.Rings
import Verif.Lemmas.Prog
import Verif.Lemmas.WkbSat
import Verif.Model.WkbWriter

/- Helper lemmas for geo-types. -/

namespace Geozero
open Prog

/-! ### lists of events -/

theorem evList_map {α β : Type} (f : Nat → β → List Ev) (h : α → β) (i : Nat) (xs : List α) :
    evList f i (xs.map h) = evList (fun j x => f j (h x)) i xs := by
  induction xs generalizing i with
  | nil => rfl
  | cons x xs ih => simp [evList, ih]

theorem run_forIdx {α : Type} {multi : Bool} {body : Nat → α → Prog Unit} {f : Nat → α → List Ev} (xs : List α)
    (h : ∀ i x, x ∈ xs → ∀ bs, run multi (body i x) bs = (f i x, .ok ((), bs))) (i : Nat) (bs : List Byte) :
    run multi (forIdx body i xs) bs = (evList f i xs, .ok ((), bs)) := by
  induction xs generalizing i with
  | nil => rfl
  | cons x xs ih =>
    simp only [forIdx]
    rw [run_bind_ok (h i x (by simp) bs), ih (fun i y hy => h i y (by simp [hy]))]
    rfl

theorem xyEv_eq (multi : Bool) (c : XY) (i : Nat) : xyEv multi c i = coordEv multi c.coord i := by
  cases multi <;> rfl

/-! ### reader -/

theorem run_geoCoord (multi : Bool) (c : XY) (i : Nat) (bs : List Byte) :
    run multi (geoProcessCoord c i) bs = (coordEvs multi i c.coord, .ok ((), bs)) := by
  simp [geoProcessCoord, coordEvs, xyEv_eq]

theorem run_geoLinestring (multi tagged : Bool) (cs : List XY) (idx : Nat) (bs : List Byte) :
    run multi (geoProcessLinestring cs tagged idx) bs
      = (lineEvs multi tagged idx (cs.map XY.coord), .ok ((), bs)) := by
  unfold geoProcessLinestring
  simp only [bind_eq, run_multiDim_bind, run_emitEv_bind]
  rw [run_bind_ok (run_forIdx (f := fun i c => coordEvs multi i c.coord) cs
    (fun i c _ bs => by simp [coordEvs, xyEv_eq]) 0 bs)]
  simp [lineEvs, bracket, evList_map]

theorem run_geoPolygon (multi tagged : Bool) (p : GPoly) (idx : Nat) (bs : List Byte) :
    run multi (geoProcessPolygon p tagged idx) bs = (polyEvs multi tagged idx p.rings, .ok ((), bs)) := by
  have hshift : ∀ (xs : List (List XY)) (i : Nat),
      evList (fun j (r : List XY) => lineEvs multi false (j + 1) (r.map XY.coord)) i xs
        = evList (fun j (r : List XY) => lineEvs multi false j (r.map XY.coord)) (i + 1) xs := by
    intro xs
    induction xs with
    | nil => intro i; rfl
    | cons x xs ih => intro i; simp [evList, ih]
  unfold geoProcessPolygon
  simp only [bind_eq, run_emitEv_bind]
  rw [run_bind_ok (run_geoLinestring multi false p.exterior 0 bs)]
  rw [run_bind_ok (run_forIdx (f := fun i r => lineEvs multi false (i + 1) (r.map XY.coord)) p.interiors
    (fun i r _ bs => run_geoLinestring multi false r (i + 1) bs) 0 bs)]
  simp [polyEvs, bracket, GPoly.rings, evList, evList_map, hshift]

mutual
theorem run_geoGeomN (multi : Bool) (idx : Nat) (bs : List Byte) :
    ∀ g : GeoGeom, run multi (geoProcessGeomN idx g) bs = (Geom.events multi idx g.denote, .ok ((), bs))
  | .point p => by
    simp only [geoProcessGeomN, bind_eq, run_emitEv_bind]
    rw [run_bind_ok (run_geoCoord multi p 0 bs)]
    simp [GeoGeom.denote, Geom.events, coordEvs]
  | .line a b => by
    simp only [geoProcessGeomN, bind_eq, run_emitEv_bind]
    rw [run_bind_ok (run_geoCoord multi a 0 bs), run_bind_ok (run_geoCoord multi b 1 bs)]
    simp [GeoGeom.denote, Geom.events, lineEvs, bracket, evList]
  | .lineString cs => by
    simp only [geoProcessGeomN]
    exact run_geoLinestring multi true cs idx bs
  | .polygon p => by
    simp only [geoProcessGeomN]
    exact run_geoPolygon multi true p idx bs
  | .multiPoint ps => by
    simp only [geoProcessGeomN, bind_eq, run_emitEv_bind]
    rw [run_bind_ok (run_forIdx (f := fun i c => coordEvs multi i c.coord) ps
      (fun i c _ bs => run_geoCoord multi c i bs) 0 bs)]
    simp [GeoGeom.denote, Geom.events, bracket, evList_map]
  | .multiLineString ls => by
    simp only [geoProcessGeomN, bind_eq, run_emitEv_bind]
    rw [run_bind_ok (run_forIdx (f := fun i l => lineEvs multi false i (l.map XY.coord)) ls
      (fun i l _ bs => run_geoLinestring multi false l i bs) 0 bs)]
    simp [GeoGeom.denote, Geom.events, bracket, evList_map]
  | .multiPolygon ps => by
    simp only [geoProcessGeomN, bind_eq, run_emitEv_bind]
    rw [run_bind_ok (run_forIdx (f := fun i p => polyEvs multi false i p.rings) ps
      (fun i p _ bs => run_geoPolygon multi false p i bs) 0 bs)]
    simp [GeoGeom.denote, Geom.events, bracket, evList_map]
  | .collection gs => by
    simp only [geoProcessGeomN, bind_eq, run_emitEv_bind]
    rw [run_bind_ok (run_geoMembers multi 0 bs gs)]
    have : (GeoGeom.denoteList gs).length = gs.length := by
      induction gs with
      | nil => rfl
      | cons g gs ih => simp [GeoGeom.denoteList, ih]
    simp [GeoGeom.denote, Geom.events, this]
  | .rect mn mx => by
    simp only [geoProcessGeomN, rectPolygon_eq]
    exact run_geoPolygon multi true _ idx bs
  | .triangle a b c => by
    simp only [geoProcessGeomN, trianglePolygon_eq]
    exact run_geoPolygon multi true _ idx bs

theorem run_geoMembers (multi : Bool) (i : Nat) (bs : List Byte) :
    ∀ gs : List GeoGeom, run multi (geoProcessMembers i gs) bs
      = (eventsList multi i (GeoGeom.denoteList gs), .ok ((), bs))
  | [] => rfl
  | g :: gs => by
    simp only [geoProcessMembers, GeoGeom.denoteList, eventsList]
    rw [run_bind_ok (run_geoGeomN multi i bs g), run_geoMembers multi (i + 1) bs gs]
end

/-! ### writer: what it accepts -/

namespace GeoWriter

/-- nothing in progress -/
def Idle (w : GeoWriter) : Prop := w.coords = none ∧ w.lineStrings = none ∧ w.polygons = none

theorem finish_idle {w : GeoWriter} (h : w.Idle) (g : GeoGeom) : (w.finish g).Idle := by
  unfold finish
  obtain ⟨h1, h2, h3⟩ := h
  split <;> exact ⟨h1, h2, h3⟩

theorem boundedVec_ok {α : Type} {size n : Nat} (h : Within size n) : boundedVec α size n = .ok ([], n * size) := by
  unfold boundedVec validateCapacity saturatingMul maxPreallocBytes
  unfold Within at h
  rw [if_neg (by omega)]

theorem boundedVec_cases (α : Type) (size n : Nat) :
    boundedVec α size n = .ok ([], n * size) ∨ boundedVec α size n = .error (.geometry "preallocation budget") := by
  unfold boundedVec validateCapacity
  split <;> simp_all
  split at * <;> simp_all

/-- accumulate the members of a list -/
theorem feed_evList {α β : Type} (st : GeoWriter → Ev → Except Err GeoWriter) (mk : List β → GeoWriter)
    (f : Nat → α → List Ev) (h : α → β) (xs : List α)
    (hx : ∀ x ∈ xs, ∀ i acc, feed st (mk acc) (f i x) = .ok (mk (acc ++ [h x]))) (i : Nat) (acc : List β) :
    feed st (mk acc) (evList f i xs) = .ok (mk (acc ++ xs.map h)) := by
  induction xs generalizing i acc with
  | nil => simp [evList]
  | cons x xs ih =>
    simp only [evList, feed_append, hx x (by simp)]
    rw [ih (fun y hy => hx y (by simp [hy]))]
    simp

theorem feed_coords (sz : ElemSizes) (w : GeoWriter) (cs : List Coord) (i : Nat) (acc : List XY) :
    feed (step sz) { w with coords := some acc } (evList (coordEvs false) i cs)
      = .ok { w with coords := some (acc ++ cs.map Coord.xyPart) } :=
  feed_evList (step sz) (fun acc => { w with coords := some acc }) (coordEvs false) Coord.xyPart cs
    (fun c _ i acc => by simp [coordEvs, coordEv, feed, step, Coord.xyPart]) i acc

theorem feed_line_untagged (sz : ElemSizes) (w : GeoWriter) (hc : w.coords = none) (ls : List (List XY))
    (cs : List Coord) (hb : Within sz.coord cs.length) (idx : Nat) :
    feed (step sz) { w with lineStrings := some ls } (lineEvs false false idx cs)
      = .ok { w with lineStrings := some (ls ++ [cs.map Coord.xyPart]) } := by
  simp only [lineEvs, bracket, feed_cons, step, gbegin, debugAssert, hc, Option.isNone_none, if_true,
    boundedVec_ok hb, feed_append]
  rw [feed_coords sz { w with lineStrings := some ls } cs 0 []]
  simp [feed, gend, step, hc]

theorem feed_rings (sz : ElemSizes) (w : GeoWriter) (hc : w.coords = none) (rings : List (List Coord))
    (hb : ∀ r ∈ rings, Within sz.coord r.length) (i : Nat) :
    feed (step sz) { w with lineStrings := some [] } (evList (lineEvs false false) i rings)
      = .ok { w with lineStrings := some (rings.map (List.map Coord.xyPart)) } := by
  have := feed_evList (step sz) (fun acc => { w with lineStrings := some acc }) (lineEvs false false)
    (List.map Coord.xyPart) rings (fun r hr i acc => feed_line_untagged sz w hc acc r (hb r hr) i) i []
  simpa using this

theorem makePolygon_eq (rings : List (List Coord)) : makePolygon (rings.map (List.map Coord.xyPart)) = polyOf rings := by
  cases rings with
  | nil => rfl
  | cons e is => simp [makePolygon, polyOf, GPoly.new, closeRing_eq, Function.comp_def]

theorem feed_poly_untagged (sz : ElemSizes) (w : GeoWriter) (hc : w.coords = none) (hl : w.lineStrings = none)
    (ps : List GPoly) (rings : List (List Coord)) (hb : Within sz.line rings.length)
    (hbr : ∀ r ∈ rings, Within sz.coord r.length) (idx : Nat) :
    feed (step sz) { w with polygons := some ps } (polyEvs false false idx rings)
      = .ok { w with polygons := some (ps ++ [polyOf rings]) } := by
  simp only [polyEvs, bracket, feed_cons, step, gbegin, debugAssert, hl, Option.isNone_none, if_true,
    boundedVec_ok hb, feed_append]
  rw [feed_rings sz { w with polygons := some ps } hc rings hbr 0]
  simp [feed, gend, step, makePolygon_eq, hl]

theorem geoList_cons (g : Geom) (gs : List Geom) (rs : List GeoGeom) (h : Geom.geoList (g :: gs) = some rs) :
    ∃ r rs', g.geo = some r ∧ Geom.geoList gs = some rs' ∧ rs = r :: rs' := by
  simp only [Geom.geoList] at h
  split at h
  · rename_i r rs' h1 h2
    exact ⟨r, rs', h1, h2, by simpa using h.symm⟩
  · simp at h

/-- The writer turns the stream of a representable geometry within budget into the corresponding value. -/
theorem feed_geom (sz : ElemSizes) : ∀ (g : Geom) (w : GeoWriter) (r : GeoGeom) (idx : Nat), w.Idle →
    g.geo = some r → g.Budget sz → feed (step sz) w (g.events false idx) = .ok (w.finish r) := by
  intro g
  induction g using Geom.ind with
  | emptyPoint => intro w r idx _ h; simp [Geom.geo] at h
  | circularString => intro w r idx _ h; simp [Geom.geo] at h
  | compoundCurve => intro w r idx _ h; simp [Geom.geo] at h
  | multiCurve => intro w r idx _ h; simp [Geom.geo] at h
  | triangle => intro w r idx _ h; simp [Geom.geo] at h
  | curvePolygon => intro w r idx _ h; simp [Geom.geo] at h
  | polyhedralSurface => intro w r idx _ h; simp [Geom.geo] at h
  | tin => intro w r idx _ h; simp [Geom.geo] at h
  | multiSurface => intro w r idx _ h; simp [Geom.geo] at h
  | point c =>
    intro w r idx hi h _
    simp only [Geom.geo, Option.some.injEq] at h
    subst h
    simp only [Geom.events, feed, step, gbegin, debugAssert, hi.1, coordEv, Bool.false_eq_true, if_false, gend,
      Option.isNone_none, if_true, List.nil_append, List.length_singleton, beq_self_eq_true, Coord.xyPart]
    rw [show ({ w with coords := none } : GeoWriter) = w by cases w; simp [Idle] at hi; simp [hi]]
  | multiPoint cs =>
    intro w r idx hi h hb
    simp only [Geom.geo, Option.some.injEq] at h
    subst h
    simp only [Geom.Budget] at hb
    simp only [Geom.events, bracket, feed_cons, step, gbegin, debugAssert, hi.1, Option.isNone_none, if_true,
      boundedVec_ok hb, feed_append]
    rw [feed_coords sz w cs 0 []]
    simp only [feed, step, gend, List.nil_append]
    rw [show ({ w with coords := none } : GeoWriter) = w by cases w; simp [Idle] at hi; simp [hi]]
  | lineString cs =>
    intro w r idx hi h hb
    simp only [Geom.geo, Option.some.injEq] at h
    subst h
    simp only [Geom.Budget] at hb
    simp only [Geom.events, lineEvs, bracket, feed_cons, step, gbegin, debugAssert, hi.1, Option.isNone_none, if_true,
      boundedVec_ok hb, feed_append]
    rw [feed_coords sz w cs 0 []]
    simp only [feed, step, gend, List.nil_append, if_true]
    rw [show ({ w with coords := none } : GeoWriter) = w by cases w; simp [Idle] at hi; simp [hi]]
  | multiLineString ls =>
    intro w r idx hi h hb
    simp only [Geom.geo, Option.some.injEq] at h
    subst h
    simp only [Geom.Budget] at hb
    simp only [Geom.events, bracket, feed_cons, step, gbegin, debugAssert, hi.2.1, Option.isNone_none, if_true,
      boundedVec_ok hb.1, feed_append]
    rw [feed_rings sz w hi.1 ls hb.2 0]
    simp only [feed, step, gend]
    rw [show ({ w with lineStrings := none } : GeoWriter) = w by cases w; simp [Idle] at hi; simp [hi]]
  | polygon rings =>
    intro w r idx hi h hb
    simp only [Geom.geo, Option.some.injEq] at h
    subst h
    simp only [Geom.Budget] at hb
    simp only [Geom.events, polyEvs, bracket, feed_cons, step, gbegin, debugAssert, hi.2.1, Option.isNone_none, if_true,
      boundedVec_ok hb.1, feed_append]
    rw [feed_rings sz w hi.1 rings hb.2 0]
    simp only [feed, step, gend, if_true, makePolygon_eq]
    rw [show ({ w with lineStrings := none } : GeoWriter) = w by cases w; simp [Idle] at hi; simp [hi]]
  | multiPolygon ps =>
    intro w r idx hi h hb
    simp only [Geom.geo, Option.some.injEq] at h
    subst h
    simp only [Geom.Budget] at hb
    simp only [Geom.events, bracket, feed_cons, step, gbegin, debugAssert, hi.2.2, Option.isNone_none, if_true,
      boundedVec_ok hb.1, feed_append]
    rw [feed_evList (step sz) (fun acc => { w with polygons := some acc }) (polyEvs false false) polyOf ps
      (fun p hp i acc => feed_poly_untagged sz w hi.1 hi.2.1 acc p (hb.2 p hp).1 (hb.2 p hp).2 i) 0 []]
    simp only [feed, step, gend, List.nil_append]
    rw [show ({ w with polygons := none } : GeoWriter) = w by cases w; simp [Idle] at hi; simp [hi]]
  | collection gs ih =>
    intro w r idx hi h hb
    simp only [Geom.geo, Option.map_eq_some_iff] at h
    obtain ⟨rs, hrs, rfl⟩ := h
    simp only [Geom.Budget] at hb
    rw [events_collection]
    simp only [bracket, feed_cons, step, gbegin, boundedVec_ok hb.1, feed_append]
    have key : ∀ (gs : List Geom) (rs : List GeoGeom) (acc : List GeoGeom) (i : Nat),
        (∀ g ∈ gs, ∀ (w : GeoWriter) (r : GeoGeom) (idx : Nat), w.Idle → g.geo = some r → g.Budget sz →
          feed (step sz) w (g.events false idx) = .ok (w.finish r)) →
        Geom.geoList gs = some rs → Geom.BudgetList sz gs →
        feed (step sz) { w with collections := acc :: w.collections } (evList (Geom.events false) i gs)
          = .ok { w with collections := (acc ++ rs) :: w.collections } := by
      intro gs
      induction gs with
      | nil =>
        intro rs acc i _ h _
        simp only [Geom.geoList, Option.some.injEq] at h
        subst h
        simp [evList]
      | cons g gs ihg =>
        intro rs acc i hg h hb
        obtain ⟨r, rs', h1, h2, rfl⟩ := geoList_cons g gs rs h
        simp only [Geom.BudgetList] at hb
        simp only [evList, feed_append]
        rw [hg g (by simp) { w with collections := acc :: w.collections } r i ⟨hi.1, hi.2.1, hi.2.2⟩ h1 hb.1]
        simp only [finish]
        rw [ihg rs' (acc ++ [r]) (i + 1) (fun g' hg' => hg g' (by simp [hg'])) h2 hb.2]
        simp
    rw [key gs rs [] 0 ih hrs hb.2]
    simp [feed, step, gend]

/-! ### writer: it never panics on a geometry stream -/

/-- feeding does not panic, and ends in `P` when it succeeds -/
def NP (sz : ElemSizes) (w : GeoWriter) (evs : List Ev) (P : GeoWriter → Prop) : Prop :=
  match feed (step sz) w evs with
  | .ok w' => P w'
  | .error e => e.isPanic = false

theorem NP.append {sz : ElemSizes} {w : GeoWriter} {a b : List Ev} {P Q : GeoWriter → Prop}
    (h : NP sz w a P) (hb : ∀ w', P w' → NP sz w' b Q) : NP sz w (a ++ b) Q := by
  unfold NP at *
  rw [feed_append]
  cases hf : feed (step sz) w a with
  | ok w' => rw [hf] at h; exact hb w' h
  | error e => rw [hf] at h; exact h

theorem NP.cons {sz : ElemSizes} {w : GeoWriter} {e : Ev} {b : List Ev} {P Q : GeoWriter → Prop}
    (h : NP sz w [e] P) (hb : ∀ w', P w' → NP sz w' b Q) : NP sz w (e :: b) Q :=
  NP.append (a := [e]) h hb

theorem NP.mono {sz : ElemSizes} {w : GeoWriter} {a : List Ev} {P Q : GeoWriter → Prop}
    (h : NP sz w a P) (hq : ∀ w', P w' → Q w') : NP sz w a Q := by
  unfold NP at *
  split <;> simp_all

theorem NP.evList {α : Type} {sz : ElemSizes} {P : GeoWriter → Prop} {f : Nat → α → List Ev} (xs : List α)
    (h : ∀ x ∈ xs, ∀ i w, P w → NP sz w (f i x) P) (i : Nat) (w : GeoWriter) (hw : P w) :
    NP sz w (evList f i xs) P := by
  induction xs generalizing i w with
  | nil => simpa [Geozero.evList, NP] using hw
  | cons x xs ih =>
    exact NP.append (h x (by simp) i w hw) fun w' hw' => ih (fun y hy => h y (by simp [hy])) (i + 1) w' hw'

theorem NP.nil {sz : ElemSizes} {w : GeoWriter} {P : GeoWriter → Prop} (h : P w) : NP sz w [] P := h

/-- what is in progress -/
def Prg (c l p : Bool) (w : GeoWriter) : Prop :=
  w.coords.isSome = c ∧ w.lineStrings.isSome = l ∧ w.polygons.isSome = p

theorem idle_iff (w : GeoWriter) : w.Idle ↔ Prg false false false w := by
  unfold Idle Prg
  cases w.coords <;> cases w.lineStrings <;> cases w.polygons <;> simp

theorem prg_finish {w : GeoWriter} {c l p : Bool} (h : Prg c l p w) (g : GeoGeom) : Prg c l p (w.finish g) := by
  unfold finish
  split <;> exact h

theorem np_coord {sz : ElemSizes} {w : GeoWriter} {c l p : Bool} (h : Prg c l p w) (x : Coord) (i : Nat) :
    NP sz w (coordEvs false i x) (fun w' => Prg c l p w' ∧ c = true) := by
  unfold NP coordEvs coordEv
  simp only [Bool.false_eq_true, if_false, feed, step]
  obtain ⟨h1, h2, h3⟩ := h
  cases hc : w.coords with
  | none => rfl
  | some cs => rw [hc] at h1; exact ⟨⟨h1, h2, h3⟩, h1.symm⟩

theorem np_coords {sz : ElemSizes} {w : GeoWriter} {c l p : Bool} (h : Prg c l p w) (cs : List Coord) (i : Nat) :
    NP sz w (Geozero.evList (coordEvs false) i cs) (Prg c l p) :=
  NP.evList cs (fun x _ i w hw => (np_coord hw x i).mono fun _ h => h.1) i w h

/-- a line string outside of a coordinate list -/
theorem np_line {sz : ElemSizes} {w : GeoWriter} {l p : Bool} (h : Prg false l p w) (tagged : Bool) (cs : List Coord)
    (idx : Nat) : NP sz w (lineEvs false tagged idx cs) (Prg false l p) := by
  refine NP.cons (P := Prg true l p) ?_ fun w' hw' => NP.append (np_coords hw' cs 0) fun w2 hw2 => ?_
  · obtain ⟨h1, h2, h3⟩ := h
    simp only [NP, feed, step, gbegin, debugAssert]
    rw [show w.coords = none by cases hc : w.coords <;> simp_all]
    rcases boundedVec_cases XY sz.coord cs.length with hb | hb
    · simp only [hb, Option.isNone_none, if_true]; exact ⟨rfl, h2, h3⟩
    · simp only [hb, Option.isNone_none, if_true]; rfl
  · obtain ⟨h1, h2, h3⟩ := hw2
    simp only [NP, feed, step, gend]
    cases hc : w2.coords with
    | none => rfl
    | some cs =>
      cases tagged with
      | true => simp only [if_true]; (apply prg_finish; exact ⟨rfl, h2, h3⟩)
      | false =>
        simp only [Bool.false_eq_true, if_false]
        cases hl : w2.lineStrings with
        | none => rfl
        | some ls => rw [hl] at h2; exact ⟨rfl, h2, h3⟩

/-- kinds the writer ignores -/
theorem np_ignored {sz : ElemSizes} {P : GeoWriter → Prop} {k : GKind}
    (hk : k = .circularString ∨ k = .compoundCurve ∨ k = .curvePolygon ∨ k = .multiCurve ∨ k = .multiSurface ∨
      k = .triangle ∨ k = .polyhedralSurface ∨ k = .tin) {α : Type} {f : Nat → α → List Ev} (xs : List α)
    (h : ∀ x ∈ xs, ∀ i w, P w → NP sz w (f i x) P) (tagged : Bool) (idx : Nat) (w : GeoWriter) (hw : P w) :
    NP sz w (bracket k tagged idx f xs) P := by
  refine NP.cons (P := P) ?_ fun w' hw' => NP.append (NP.evList xs h 0 w' hw') fun w2 hw2 => ?_
  · rcases hk with rfl | rfl | rfl | rfl | rfl | rfl | rfl | rfl <;> exact hw
  · rcases hk with rfl | rfl | rfl | rfl | rfl | rfl | rfl | rfl <;> exact hw2

theorem np_circ {sz : ElemSizes} {w : GeoWriter} {c l p : Bool} (h : Prg c l p w) (cs : List Coord) (idx : Nat) :
    NP sz w (circEvs false idx cs) (Prg c l p) :=
  np_ignored (Or.inl rfl) cs (fun x _ i w hw => (np_coord hw x i).mono fun _ h => h.1) true idx w h

theorem np_poly {sz : ElemSizes} {w : GeoWriter} {p : Bool} (h : Prg false false p w) (tagged : Bool)
    (rings : List (List Coord)) (idx : Nat) : NP sz w (polyEvs false tagged idx rings) (Prg false false p) := by
  refine NP.cons (P := Prg false true p) ?_ fun w' hw' =>
    NP.append (NP.evList rings (fun r _ i w hw => np_line hw false r i) 0 w' hw') fun w2 hw2 => ?_
  · obtain ⟨h1, h2, h3⟩ := h
    simp only [NP, feed, step, gbegin, debugAssert]
    rw [show w.lineStrings = none by cases hc : w.lineStrings <;> simp_all]
    rcases boundedVec_cases (List XY) sz.line rings.length with hb | hb
    · simp only [hb, Option.isNone_none, if_true]; exact ⟨h1, rfl, h3⟩
    · simp only [hb, Option.isNone_none, if_true]; rfl
  · obtain ⟨h1, h2, h3⟩ := hw2
    simp only [NP, feed, step, gend]
    cases hc : w2.lineStrings with
    | none => rfl
    | some ls =>
      cases tagged with
      | true => simp only [if_true]; (apply prg_finish; exact ⟨h1, rfl, h3⟩)
      | false =>
        simp only [Bool.false_eq_true, if_false]
        cases hl : w2.polygons with
        | none => rfl
        | some ps => rw [hl] at h3; exact ⟨h1, rfl, h3⟩

theorem np_tri {sz : ElemSizes} {w : GeoWriter} {p : Bool} (h : Prg false false p w) (tagged : Bool)
    (rings : List (List Coord)) (idx : Nat) : NP sz w (triEvs false tagged idx rings) (Prg false false p) :=
  np_ignored (by simp) rings (fun r _ i w hw => np_line hw false r i) tagged idx w h

theorem np_seg {sz : ElemSizes} {w : GeoWriter} {p : Bool} (h : Prg false false p w) (s : Seg) (idx : Nat) :
    NP sz w (segEvs false idx s) (Prg false false p) := by
  cases s with
  | line cs => exact np_line h false cs idx
  | circ cs => exact np_circ h cs idx

theorem np_curve {sz : ElemSizes} {w : GeoWriter} {p : Bool} (h : Prg false false p w) (c : Curve) (idx : Nat) :
    NP sz w (curveEvs false idx c) (Prg false false p) := by
  cases c with
  | seg s => exact np_seg h s idx
  | compound ss => exact np_ignored (by simp) ss (fun s _ i w hw => np_seg hw s i) true idx w h

theorem np_surface {sz : ElemSizes} {w : GeoWriter} {p : Bool} (h : Prg false false p w) (s : Surface) (idx : Nat) :
    NP sz w (surfaceEvs false idx s) (Prg false false p) := by
  cases s with
  | polygon rings => exact np_poly h false rings idx
  | curvePolygon rings => exact np_ignored (by simp) rings (fun c _ i w hw => np_curve hw c i) true idx w h

/-- Every complete geometry stream of any kind is handled without panic and leaves nothing in progress. -/
theorem np_geom (sz : ElemSizes) : ∀ (g : Geom) (w : GeoWriter) (idx : Nat), Prg false false false w →
    NP sz w (g.events false idx) (Prg false false false) := by
  intro g
  induction g using Geom.ind with
  | emptyPoint => intro w idx _; rfl
  | point c =>
    intro w idx h
    obtain ⟨h1, h2, h3⟩ := h
    have hc : w.coords = none := by cases hc : w.coords <;> simp_all
    simp only [Geom.events, NP, feed, step, gbegin, debugAssert, hc, coordEv, Bool.false_eq_true, if_false, gend,
      Option.isNone_none, if_true, List.nil_append, List.length_singleton, beq_self_eq_true]
    (apply prg_finish; exact ⟨rfl, h2, h3⟩)
  | multiPoint cs =>
    intro w idx h
    refine NP.cons (P := Prg true false false) ?_ fun w' hw' => NP.append (np_coords hw' cs 0) fun w2 hw2 => ?_
    · obtain ⟨h1, h2, h3⟩ := h
      simp only [NP, feed, step, gbegin, debugAssert]
      rw [show w.coords = none by cases hc : w.coords <;> simp_all]
      rcases boundedVec_cases XY sz.coord cs.length with hb | hb
      · simp only [hb, Option.isNone_none, if_true]; exact ⟨rfl, h2, h3⟩
      · simp only [hb, Option.isNone_none, if_true]; rfl
    · obtain ⟨h1, h2, h3⟩ := hw2
      simp only [NP, feed, step, gend]
      cases hc : w2.coords with
      | none => rfl
      | some cs => (apply prg_finish; exact ⟨rfl, h2, h3⟩)
  | lineString cs => intro w idx h; exact np_line h true cs idx
  | circularString cs => intro w idx h; exact np_circ h cs idx
  | compoundCurve ss =>
    intro w idx h; exact np_ignored (by simp) ss (fun s _ i w hw => np_seg hw s i) true idx w h
  | multiLineString ls =>
    intro w idx h
    refine NP.cons (P := Prg false true false) ?_ fun w' hw' =>
      NP.append (NP.evList ls (fun r _ i w hw => np_line hw false r i) 0 w' hw') fun w2 hw2 => ?_
    · obtain ⟨h1, h2, h3⟩ := h
      simp only [NP, feed, step, gbegin, debugAssert]
      rw [show w.lineStrings = none by cases hc : w.lineStrings <;> simp_all]
      rcases boundedVec_cases (List XY) sz.line ls.length with hb | hb
      · simp only [hb, Option.isNone_none, if_true]; exact ⟨h1, rfl, h3⟩
      · simp only [hb, Option.isNone_none, if_true]; rfl
    · obtain ⟨h1, h2, h3⟩ := hw2
      simp only [NP, feed, step, gend]
      cases hc : w2.lineStrings with
      | none => rfl
      | some ls => (apply prg_finish; exact ⟨h1, rfl, h3⟩)
  | multiCurve cs =>
    intro w idx h; exact np_ignored (by simp) cs (fun s _ i w hw => np_curve hw s i) true idx w h
  | polygon rings => intro w idx h; exact np_poly h true rings idx
  | triangle rings => intro w idx h; exact np_tri h true rings idx
  | curvePolygon rings =>
    intro w idx h; exact np_ignored (by simp) rings (fun s _ i w hw => np_curve hw s i) true idx w h
  | multiPolygon ps =>
    intro w idx h
    refine NP.cons (P := Prg false false true) ?_ fun w' hw' =>
      NP.append (NP.evList ps (fun r _ i w hw => np_poly hw false r i) 0 w' hw') fun w2 hw2 => ?_
    · obtain ⟨h1, h2, h3⟩ := h
      simp only [NP, feed, step, gbegin, debugAssert]
      rw [show w.polygons = none by cases hc : w.polygons <;> simp_all]
      rcases boundedVec_cases GPoly sz.poly ps.length with hb | hb
      · simp only [hb, Option.isNone_none, if_true]; exact ⟨h1, h2, rfl⟩
      · simp only [hb, Option.isNone_none, if_true]; rfl
    · obtain ⟨h1, h2, h3⟩ := hw2
      simp only [NP, feed, step, gend]
      cases hc : w2.polygons with
      | none => rfl
      | some ls => (apply prg_finish; exact ⟨h1, h2, rfl⟩)
  | polyhedralSurface ps =>
    intro w idx h; exact np_ignored (by simp) ps (fun s _ i w hw => np_poly hw false s i) true idx w h
  | tin ps =>
    intro w idx h; exact np_ignored (by simp) ps (fun s _ i w hw => np_tri hw false s i) true idx w h
  | multiSurface ss =>
    intro w idx h; exact np_ignored (by simp) ss (fun s _ i w hw => np_surface hw s i) true idx w h
  | collection gs ih =>
    intro w idx h
    rw [events_collection]
    refine NP.cons (P := Prg false false false) ?_ fun w' hw' =>
      NP.append (NP.evList gs (fun g hg i w hw => ih g hg w i hw) 0 w' hw') fun w2 hw2 => ?_
    · simp only [NP, feed, step, gbegin]
      rcases boundedVec_cases GeoGeom sz.geom gs.length with hb | hb
      · simp only [hb]; exact h
      · simp only [hb]; rfl
    · simp only [NP, feed, step, gend]
      cases hc : w2.collections with
      | nil => rfl
      | cons c cs => exact prg_finish (w := { w2 with collections := cs }) hw2 _

end GeoWriter
end Geozero

namespace Geozero
open Prog

/-! ### representation -/

theorem xyPart_coord (p : XY) : p.coord.xyPart = p := rfl

theorem map_xyPart_coord (l : List XY) : (l.map XY.coord).map Coord.xyPart = l := by
  simp [Function.comp_def, xyPart_coord]

theorem polyOf_ring {r : List XY} (h : Closes XY.Same r) : polyOf [r.map XY.coord] = { exterior := r, interiors := [] } := by
  simp [polyOf, Function.comp_def, xyPart_coord, closedUp_of_closes _ h]

theorem polyOf_rings {p : GPoly} (h : p.Closed) : polyOf p.rings = p := by
  obtain ⟨e, is⟩ := p
  simp only [GPoly.Closed, List.mem_cons, forall_eq_or_imp] at h
  have h2 : (is.map (List.map XY.coord)).map (fun r => closedUp XY.Same (r.map Coord.xyPart)) = is := by
    rw [List.map_map]
    conv => rhs; rw [← List.map_id is]
    refine List.map_congr_left fun r hr => ?_
    simp only [Function.comp_apply, map_xyPart_coord, closedUp_of_closes _ (h.2 r hr), id]
  show (⟨_, _⟩ : GPoly) = _
  rw [h2, map_xyPart_coord, closedUp_of_closes _ h.1]

mutual
theorem geo_denote : ∀ g : GeoGeom, g.Closed → g.denote.geo = some g.normal
  | .point _, _ => rfl
  | .line _ _, _ => rfl
  | .lineString cs, _ => by simp [GeoGeom.denote, Geom.geo, GeoGeom.normal, Function.comp_def, xyPart_coord]
  | .polygon p, h => by
    simp only [GeoGeom.Closed] at h; simp [GeoGeom.denote, Geom.geo, GeoGeom.normal, polyOf_rings h]
  | .multiPoint ps, _ => by simp [GeoGeom.denote, Geom.geo, GeoGeom.normal, Function.comp_def, xyPart_coord]
  | .multiLineString ls, _ => by simp [GeoGeom.denote, Geom.geo, GeoGeom.normal, Function.comp_def, xyPart_coord]
  | .multiPolygon ps, h => by
    simp only [GeoGeom.Closed] at h
    simp only [GeoGeom.denote, Geom.geo, GeoGeom.normal, List.map_map, Option.some.injEq, GeoGeom.multiPolygon.injEq]
    conv => rhs; rw [← List.map_id ps]
    exact List.map_congr_left fun p hp => polyOf_rings (h p hp)
  | .collection gs, h => by
    simp only [GeoGeom.Closed] at h
    simp [GeoGeom.denote, Geom.geo, GeoGeom.normal, geo_denoteList gs h]
  | .rect _ _, h => by
    simp only [GeoGeom.Closed] at h; simp only [GeoGeom.denote, Geom.geo, GeoGeom.normal, polyOf_ring h]
  | .triangle _ _ _, h => by
    simp only [GeoGeom.Closed] at h; simp only [GeoGeom.denote, Geom.geo, GeoGeom.normal, polyOf_ring h]

theorem geo_denoteList : ∀ gs : List GeoGeom, GeoGeom.ClosedList gs →
    Geom.geoList (GeoGeom.denoteList gs) = some (GeoGeom.normalList gs)
  | [], _ => rfl
  | g :: gs, h => by
    simp only [GeoGeom.ClosedList] at h
    simp [GeoGeom.denoteList, Geom.geoList, GeoGeom.normalList, geo_denote g h.1, geo_denoteList gs h.2]
end

mutual
theorem normal_denote : ∀ g : GeoGeom, g.normal.denote = g.denote
  | .point _ | .line _ _ | .lineString _ | .polygon _ | .multiPoint _ | .multiLineString _ | .multiPolygon _
  | .rect _ _ | .triangle _ _ _ => rfl
  | .collection gs => by simp [GeoGeom.normal, GeoGeom.denote, normal_denoteList gs]

theorem normal_denoteList : ∀ gs : List GeoGeom, GeoGeom.denoteList (GeoGeom.normalList gs) = GeoGeom.denoteList gs
  | [] => rfl
  | g :: gs => by simp [GeoGeom.normalList, GeoGeom.denoteList, normal_denote g, normal_denoteList gs]
end

mutual
theorem denote_noEmpty : ∀ g : GeoGeom, g.denote.hasEmptyPoint = false
  | .point _ | .line _ _ | .lineString _ | .polygon _ | .multiPoint _ | .multiLineString _ | .multiPolygon _
  | .rect _ _ | .triangle _ _ _ => rfl
  | .collection gs => by simpa [GeoGeom.denote, Geom.hasEmptyPoint] using denote_noEmptyList gs

theorem denote_noEmptyList : ∀ gs : List GeoGeom, Geom.hasEmptyPointList (GeoGeom.denoteList gs) = false
  | [] => rfl
  | g :: gs => by simp [GeoGeom.denoteList, Geom.hasEmptyPointList, denote_noEmpty g, denote_noEmptyList gs]
end

/-! ### storing a geo-types geometry -/

theorem conform_xyPart (d : Dims) (c : Coord) : (c.conform d).xyPart = c.xyPart := rfl

theorem polyOf_conform (d : Dims) (rings : List (List Coord)) :
    polyOf (rings.map (List.map (Coord.conform d))) = polyOf rings := by
  cases rings with
  | nil => rfl
  | cons e is => simp [polyOf, Function.comp_def, conform_xyPart]

theorem conform_allNaN {d : Dims} {p : XY} (h : Spec.AllNaN (p.coord.conform d)) : Spec.AllNaN p.coord :=
  ⟨h.1, h.2.1, by simp [XY.coord], by simp [XY.coord]⟩

mutual
theorem stored_geo (d : Dims) : ∀ g : GeoGeom, g.denote.hasNaNPoint = false →
    (g.denote.stored d).geo = g.denote.geo
  | .point p, h => by
    simp only [GeoGeom.denote, Geom.hasNaNPoint, decide_eq_false_iff_not] at h
    simp only [GeoGeom.denote, Geom.stored, Geom.map, Geom.nanEmpty, if_neg (fun hc => h (conform_allNaN hc)),
      Geom.geo, conform_xyPart]
  | .line _ _, _ => rfl
  | .lineString cs, _ => by simp [GeoGeom.denote, Geom.stored, Geom.map, Geom.nanEmpty, Geom.geo, Function.comp_def, conform_xyPart]
  | .polygon p, _ => by simp [GeoGeom.denote, Geom.stored, Geom.map, Geom.nanEmpty, Geom.geo, polyOf_conform]
  | .multiPoint ps, _ => by simp [GeoGeom.denote, Geom.stored, Geom.map, Geom.nanEmpty, Geom.geo, Function.comp_def, conform_xyPart]
  | .multiLineString ls, _ => by simp [GeoGeom.denote, Geom.stored, Geom.map, Geom.nanEmpty, Geom.geo, Function.comp_def, conform_xyPart]
  | .multiPolygon ps, _ => by simp [GeoGeom.denote, Geom.stored, Geom.map, Geom.nanEmpty, Geom.geo, Function.comp_def, polyOf_conform]
  | .rect _ _, _ => by
    simpa [GeoGeom.denote, Geom.stored, Geom.map, Geom.nanEmpty, Geom.geo] using polyOf_conform d [List.map XY.coord _]
  | .triangle _ _ _, _ => by
    simpa [GeoGeom.denote, Geom.stored, Geom.map, Geom.nanEmpty, Geom.geo] using polyOf_conform d [List.map XY.coord _]
  | .collection gs, h => by
    simp only [GeoGeom.denote, Geom.hasNaNPoint] at h
    simp only [GeoGeom.denote, Geom.stored, Geom.map, Geom.nanEmpty, Geom.geo, stored_geoList d gs h]

theorem stored_geoList (d : Dims) : ∀ gs : List GeoGeom, Geom.hasNaNPointList (GeoGeom.denoteList gs) = false →
    Geom.geoList (Geom.nanEmptyList (Geom.mapList (Coord.conform d) (GeoGeom.denoteList gs)))
      = Geom.geoList (GeoGeom.denoteList gs)
  | [], _ => rfl
  | g :: gs, h => by
    simp only [GeoGeom.denoteList, Geom.hasNaNPointList, Bool.or_eq_false_iff] at h
    have h1 := stored_geo d g h.1
    unfold Geom.stored at h1
    simp only [GeoGeom.denoteList, Geom.mapList, Geom.nanEmptyList, Geom.geoList, h1, stored_geoList d gs h.2]
end

mutual
theorem stored_budget (d : Dims) (sz : ElemSizes) : ∀ g : GeoGeom, g.denote.Budget sz → (g.denote.stored d).Budget sz
  | .point p, _ => by
    simp only [GeoGeom.denote, Geom.stored, Geom.map, Geom.nanEmpty]; split <;> simp [Geom.Budget]
  | .line _ _, h => h
  | .lineString cs, h => by simpa [GeoGeom.denote, Geom.stored, Geom.map, Geom.nanEmpty, Geom.Budget] using h
  | .polygon p, h => by simpa [GeoGeom.denote, Geom.stored, Geom.map, Geom.nanEmpty, Geom.Budget] using h
  | .multiPoint ps, h => by simpa [GeoGeom.denote, Geom.stored, Geom.map, Geom.nanEmpty, Geom.Budget] using h
  | .multiLineString ls, h => by simpa [GeoGeom.denote, Geom.stored, Geom.map, Geom.nanEmpty, Geom.Budget] using h
  | .multiPolygon ps, h => by simpa [GeoGeom.denote, Geom.stored, Geom.map, Geom.nanEmpty, Geom.Budget] using h
  | .rect _ _, h => by simpa [GeoGeom.denote, Geom.stored, Geom.map, Geom.nanEmpty, Geom.Budget] using h
  | .triangle _ _ _, h => by simpa [GeoGeom.denote, Geom.stored, Geom.map, Geom.nanEmpty, Geom.Budget] using h
  | .collection gs, h => by
    simp only [GeoGeom.denote, Geom.Budget] at h
    simp only [GeoGeom.denote, Geom.stored, Geom.map, Geom.nanEmpty, Geom.Budget]
    exact ⟨by simpa [stored_length d gs] using h.1, stored_budgetList d sz gs h.2⟩

theorem stored_length (d : Dims) : ∀ gs : List GeoGeom,
    (Geom.nanEmptyList (Geom.mapList (Coord.conform d) (GeoGeom.denoteList gs))).length = (GeoGeom.denoteList gs).length
  | [] => rfl
  | g :: gs => by simp [GeoGeom.denoteList, Geom.mapList, Geom.nanEmptyList, stored_length d gs]

theorem stored_budgetList (d : Dims) (sz : ElemSizes) : ∀ gs : List GeoGeom,
    Geom.BudgetList sz (GeoGeom.denoteList gs) →
    Geom.BudgetList sz (Geom.nanEmptyList (Geom.mapList (Coord.conform d) (GeoGeom.denoteList gs)))
  | [], _ => trivial
  | g :: gs, h => by
    simp only [GeoGeom.denoteList, Geom.BudgetList] at h
    have h1 := stored_budget d sz g h.1
    unfold Geom.stored at h1
    simp only [GeoGeom.denoteList, Geom.mapList, Geom.nanEmptyList, Geom.BudgetList]
    exact ⟨h1, stored_budgetList d sz gs h.2⟩
end

/-- element types are not zero sized -/
def ElemSizes.Pos (sz : ElemSizes) : Prop := 0 < sz.coord ∧ 0 < sz.line ∧ 0 < sz.poly ∧ 0 < sz.geom

theorem Within.lt {size n : Nat} (h : Within size n) (hp : 0 < size) : n < 2 ^ 32 := by
  unfold Within at h
  have : n * 1 ≤ n * size := Nat.mul_le_mul_left n hp
  omega

mutual
theorem denote_fits (sz : ElemSizes) (hz : sz.Pos) : ∀ g : GeoGeom, g.denote.Budget sz → g.denote.Fits
  | .point p, _ => trivial
  | .line _ _, _ => by simp [GeoGeom.denote, Geom.Fits, Geom.Lens]
  | .lineString cs, h => Within.lt h hz.1
  | .polygon p, h => ⟨h.1.lt hz.2.1, fun l hl => (h.2 l hl).lt hz.1⟩
  | .multiPoint ps, h => Within.lt h hz.1
  | .multiLineString ls, h => ⟨h.1.lt hz.2.1, fun l hl => (h.2 l hl).lt hz.1⟩
  | .multiPolygon ps, h => ⟨h.1.lt hz.2.2.1, fun p hp => ⟨(h.2 p hp).1.lt hz.2.1, fun l hl => ((h.2 p hp).2 l hl).lt hz.1⟩⟩
  | .rect _ _, h => ⟨h.1.lt hz.2.1, fun l hl => (h.2 l hl).lt hz.1⟩
  | .triangle _ _ _, h => ⟨h.1.lt hz.2.1, fun l hl => (h.2 l hl).lt hz.1⟩
  | .collection gs, h => by
    simp only [GeoGeom.denote, Geom.Budget] at h
    simp only [GeoGeom.denote, Geom.Fits, Geom.Lens]
    exact ⟨h.1.lt hz.2.2.2, denote_fitsList sz hz gs h.2⟩

theorem denote_fitsList (sz : ElemSizes) (hz : sz.Pos) : ∀ gs : List GeoGeom,
    Geom.BudgetList sz (GeoGeom.denoteList gs) → Geom.LensList (· < 2 ^ 32) (GeoGeom.denoteList gs)
  | [], _ => trivial
  | g :: gs, h => by
    simp only [GeoGeom.denoteList, Geom.BudgetList] at h
    simp only [GeoGeom.denoteList, Geom.LensList]
    exact ⟨denote_fits sz hz g h.1, denote_fitsList sz hz gs h.2⟩
end

/-! ### loose streams -/

namespace GeoWriter

/-- without a budget -/
def noBudget : ElemSizes := ⟨0, 0, 0, 0⟩

theorem step_noBudget (sz : ElemSizes) (w : GeoWriter) (e : Ev) :
    step sz w e = step noBudget w e ∨ ∃ x, step sz w e = .error x ∧ x.isPanic = false := by
  have hz : ∀ (α : Type) n, boundedVec α 0 n = .ok ([], 0) := by
    intro α n
    rw [boundedVec_ok (by simp [Within])]
    simp
  cases e with
  | gbegin k tagged size idx =>
    cases k with
    | multiPoint =>
      simp only [step, gbegin, debugAssert]
      split
      · rcases boundedVec_cases XY sz.coord size with h | h <;> simp [h, noBudget, hz, Err.isPanic]
      · simp
    | lineString =>
      simp only [step, gbegin, debugAssert]
      split
      · rcases boundedVec_cases XY sz.coord size with h | h <;> simp [h, noBudget, hz, Err.isPanic]
      · simp
    | multiLineString =>
      simp only [step, gbegin, debugAssert]
      split
      · rcases boundedVec_cases (List XY) sz.line size with h | h <;> simp [h, noBudget, hz, Err.isPanic]
      · simp
    | polygon =>
      simp only [step, gbegin, debugAssert]
      split
      · rcases boundedVec_cases (List XY) sz.line size with h | h <;> simp [h, noBudget, hz, Err.isPanic]
      · simp
    | multiPolygon =>
      simp only [step, gbegin, debugAssert]
      split
      · rcases boundedVec_cases GPoly sz.poly size with h | h <;> simp [h, noBudget, hz, Err.isPanic]
      · simp
    | collection =>
      simp only [step, gbegin]
      rcases boundedVec_cases GeoGeom sz.geom size with h | h <;> simp [h, noBudget, hz, Err.isPanic]
    | _ => exact Or.inl rfl
  | _ => exact Or.inl rfl

theorem feed_noBudget (sz : ElemSizes) (evs : List Ev) (w : GeoWriter) :
    feed (step sz) w evs = feed (step noBudget) w evs ∨
      ∃ x, feed (step sz) w evs = .error x ∧ x.isPanic = false := by
  induction evs generalizing w with
  | nil => exact Or.inl rfl
  | cons e es ih =>
    simp only [feed_cons]
    rcases step_noBudget sz w e with h | ⟨x, h, hx⟩
    · rw [h]
      cases step noBudget w e with
      | ok w' => exact ih w'
      | error x => exact Or.inl rfl
    · rw [h]; exact Or.inr ⟨x, rfl, hx⟩

theorem step_loose (w : GeoWriter) (e : Ev) : step noBudget w (looseEv e) = step noBudget w e := by
  have hz : ∀ (α : Type) n, boundedVec α 0 n = .ok ([], 0) := by
    intro α n
    rw [boundedVec_ok (by simp [Within])]
    simp
  cases e with
  | gbegin k tagged size idx => cases k <;> simp [looseEv, step, gbegin, noBudget, hz]
  | _ => rfl

theorem feed_loose (evs : List Ev) (w : GeoWriter) :
    feed (step noBudget) w (evs.map looseEv) = feed (step noBudget) w evs := by
  induction evs generalizing w with
  | nil => rfl
  | cons e es ih =>
    simp only [List.map_cons, feed_cons, step_loose]
    cases step noBudget w e with
    | ok w' => exact ih w'
    | error x => rfl

/-- A prefix of the stream of a geometry, up to line string sizes and coordinate indices, never makes the
writer panic. -/
theorem prefix_no_panic (sz : ElemSizes) (w : GeoWriter) (hw : w.Idle) (g : Geom) (srid : Option Int) (evs : List Ev)
    (h : evs.map looseEv <+: (Ev.srid srid :: Geom.events false 0 g).map looseEv) (x : Err)
    (hx : feed (step sz) w evs = .error x) : x.isPanic = false := by
  rcases feed_noBudget sz evs w with h1 | ⟨y, h1, hy⟩
  · rw [hx] at h1
    have h2 := feed_loose evs w
    rw [← h1] at h2
    obtain ⟨t, ht⟩ := h
    have h3 := feed_prefix_error (step noBudget) w _ t x h2
    rw [ht, feed_loose] at h3
    simp only [feed_cons, step] at h3
    have h4 := np_geom noBudget g w 0 ((idle_iff w).mp hw)
    unfold NP at h4
    rw [h3] at h4
    exact h4
  · rw [hx] at h1
    cases h1
    exact hy

end GeoWriter

namespace WkbWriter

theorem writeHeader_readDims {w w' : WkbWriter} {t : WkbType} (h : w.writeHeader t = .ok w') :
    w'.readDims = w.readDims := by
  unfold writeHeader writeMysqlHeader at h
  split at h
  · cases h; rfl
  · cases h; unfold writeEwkbHeader; extract_lets; grind [put]
  · split at h <;> (cases h; rfl)
  · split at h
    · cases hs : w.srid with
      | none => simp only [hs] at h; cases h; rfl
      | some v =>
        simp only [hs] at h
        by_cases hv : 0 ≤ v
        · simp only [if_pos hv] at h; cases h; rfl
        · simp only [if_neg hv] at h; cases h
    · cases h; rfl
  · cases h; unfold writeSpatialiteHeader; extract_lets; grind [put]

theorem headerAndSize_readDims {w w' : WkbWriter} {t : WkbType} {n : Nat} (h : w.headerAndSize t n = .ok w') :
    w'.readDims = w.readDims := by
  unfold headerAndSize at h
  split at h
  · rename_i w1 h1
    cases h
    exact (writeHeader_readDims h1 :)
  · cases h

theorem writeFooter_readDims (w : WkbWriter) : w.writeFooter.readDims = w.readDims := by
  unfold writeFooter; split <;> rfl

theorem step_readDims {w w' : WkbWriter} {e : Ev} (h : w.step e = .ok w') : w'.readDims = w.readDims := by
  have hc : ∀ x y z m, w.coordinate x y z m = .ok w' → w'.readDims = w.readDims := by
    intro x y z m h
    unfold coordinate at h
    split at h
    · split at h
      · rename_i w1 h1
        cases h
        exact (writeHeader_readDims h1 :)
      · cases h
    · cases h; rfl
  have hn : ∀ w1, w.nestDec = .ok w1 → w1.readDims = w.readDims := by
    intro w1 h
    unfold nestDec at h
    split at h
    · cases h
    · cases h; rfl
  cases e with
  | srid s => cases h; rfl
  | xy x y i => exact hc _ _ _ _ h
  | coord x y z m t tm i => exact hc _ _ _ _ h
  | emptyPoint i => cases h
  | gbegin k tagged size idx =>
    simp only [step, gbegin] at h
    split at h
    · exact writeHeader_readDims h
    · split at h
      · rename_i w1 h1; cases h; exact (headerAndSize_readDims h1 :)
      · cases h
    · split at h
      · exact (headerAndSize_readDims h :)
      · cases h; rfl
    · split at h
      · rename_i w1 h1; cases h; exact (headerAndSize_readDims h1 :)
      · cases h
    · split at h
      · rename_i w1 h1; cases h; exact (headerAndSize_readDims h1 :)
      · cases h
    · split at h
      · exact (headerAndSize_readDims h :)
      · exact (headerAndSize_readDims h :)
  | gend k tagged idx =>
    simp only [step, gend] at h
    split at h
    · split at h
      · rename_i w1 h1; cases h; rw [writeFooter_readDims]; exact (hn _ h1 :)
      · cases h
    · cases h; rw [writeFooter_readDims]
    · cases h; rw [writeFooter_readDims]
    · split at h
      · split at h
        · rename_i w1 h1; cases h; rw [writeFooter_readDims]; exact (hn _ h1 :)
        · cases h
      · cases h; rw [writeFooter_readDims]

end WkbWriter

/-- `to_wkb_dialect` of a source that delivers events the writer accepts -/
theorem toWkbDialect_ok {src : Prog Unit} {dl : WkbDialect} {d : Dims} {srid : Option Int} {env : List F64}
    {evs : List Ev} {w : WkbWriter} (hr : run d.multi src [] = (evs, .ok ((), [])))
    (hf : feed WkbWriter.step (WkbWriter.withOpts dl d srid env) evs = .ok w) :
    toWkbDialect src dl d srid env = .ok w.out := by
  unfold toWkbDialect
  rw [interp_of_feed_ok_inv WkbWriter.proc d.multi (fun w => w.readDims = d)
    (fun s h => by simp [WkbWriter.proc, h]) (fun s e s' h hs => by rw [← h]; exact WkbWriter.step_readDims hs)
    src _ w rfl [] (by rw [hr]; exact hf), hr]

end Geozero
