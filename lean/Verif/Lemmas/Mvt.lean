import Verif.Spec.Mvt
import Verif.Lemmas.F64Int
import Verif.Lemmas.GeoTypes
import Verif.Lemmas.Features

/- Helper lemmas for vector tiles. -/

namespace Geozero
open Prog

/-! ### reader -/

theorem ixyEv_eq (multi : Bool) (c : IXY) (i : Nat) : ixyEv multi c i = coordEv multi c.coord i := by
  cases multi <;> rfl

theorem run_mvtCoord (multi : Bool) (c : IXY) (i : Nat) (bs : List Byte) :
    run multi (mvtCoord c i) bs = (coordEvs multi i c.coord, .ok ((), bs)) := by
  simp [mvtCoord, coordEvs, ixyEv_eq]

theorem run_mvtLinestring (multi tagged : Bool) (cs : List IXY) (idx : Nat) (bs : List Byte) :
    run multi (mvtLinestring cs tagged idx) bs = (lineEvs multi tagged idx (cs.map IXY.coord), .ok ((), bs)) := by
  unfold mvtLinestring
  simp only [bind_eq, run_emitEv_bind]
  rw [run_bind_ok (run_forIdx (f := fun i c => coordEvs multi i c.coord) cs
    (fun i c _ bs => run_mvtCoord multi c i bs) 0 bs)]
  simp [lineEvs, bracket, evList_map]

theorem run_mvtPolygon (multi tagged : Bool) (p : IPoly) (idx : Nat) (bs : List Byte) :
    run multi (mvtPolygon p tagged idx) bs
      = (polyEvs multi tagged idx (p.rings.map (List.map IXY.coord)), .ok ((), bs)) := by
  have hshift : ∀ (xs : List (List IXY)) (i : Nat),
      evList (fun j (r : List IXY) => lineEvs multi false (j + 1) (r.map IXY.coord)) i xs
        = evList (fun j (r : List IXY) => lineEvs multi false j (r.map IXY.coord)) (i + 1) xs := by
    intro xs
    induction xs with
    | nil => intro i; rfl
    | cons x xs ih => intro i; simp [evList, ih]
  unfold mvtPolygon
  simp only [bind_eq, run_emitEv_bind]
  rw [run_bind_ok (run_mvtLinestring multi false p.exterior 0 bs)]
  rw [run_bind_ok (run_forIdx (f := fun i r => lineEvs multi false (i + 1) (r.map IXY.coord)) p.interiors
    (fun i r _ bs => run_mvtLinestring multi false r (i + 1) bs) 0 bs)]
  simp [polyEvs, bracket, IPoly.rings, evList, evList_map, hshift]

mutual
theorem run_mvtGeometry (multi : Bool) (idx : Nat) (bs : List Byte) :
    ∀ g : MvtGeom, g.Tile → run multi (mvtGeometry idx g) bs = (Geom.events multi idx g.denote, .ok ((), bs))
  | .point p, _ => by
    simp only [mvtGeometry, bind_eq, run_emitEv_bind]
    rw [run_bind_ok (run_mvtCoord multi p 0 bs)]
    simp [MvtGeom.denote, Geom.events, coordEvs]
  | .line _ _, h => h.elim
  | .rect _ _, h => h.elim
  | .triangle _ _ _, h => h.elim
  | .lineString cs, _ => by simp only [mvtGeometry]; exact run_mvtLinestring multi true cs idx bs
  | .polygon p, _ => by simp only [mvtGeometry]; exact run_mvtPolygon multi true p idx bs
  | .multiPoint ps, _ => by
    simp only [mvtGeometry, bind_eq, run_emitEv_bind]
    rw [run_bind_ok (run_forIdx (f := fun i c => coordEvs multi i c.coord) ps
      (fun i c _ bs => run_mvtCoord multi c i bs) 0 bs)]
    simp [MvtGeom.denote, Geom.events, bracket, evList_map]
  | .multiLineString ls, _ => by
    simp only [mvtGeometry, bind_eq, run_emitEv_bind]
    rw [run_bind_ok (run_forIdx (f := fun i l => lineEvs multi false i (l.map IXY.coord)) ls
      (fun i l _ bs => run_mvtLinestring multi false l i bs) 0 bs)]
    simp [MvtGeom.denote, Geom.events, bracket, evList_map]
  | .multiPolygon ps, _ => by
    simp only [mvtGeometry, bind_eq, run_emitEv_bind]
    rw [run_bind_ok (run_forIdx (f := fun i p => polyEvs multi false i (p.rings.map (List.map IXY.coord))) ps
      (fun i p _ bs => run_mvtPolygon multi false p i bs) 0 bs)]
    simp [MvtGeom.denote, Geom.events, bracket, evList_map]
  | .collection gs, h => by
    simp only [mvtGeometry, bind_eq, run_emitEv_bind]
    rw [run_bind_ok (run_mvtMembers multi 0 bs gs h)]
    have : (MvtGeom.denoteList gs).length = gs.length := by
      clear h
      induction gs with
      | nil => rfl
      | cons g gs ih => simp [MvtGeom.denoteList, ih]
    simp [MvtGeom.denote, Geom.events, this]

theorem run_mvtMembers (multi : Bool) (i : Nat) (bs : List Byte) :
    ∀ gs : List MvtGeom, MvtGeom.AllList (fun _ => True) (fun _ => True) gs →
      run multi (mvtMembers i gs) bs = (eventsList multi i (MvtGeom.denoteList gs), .ok ((), bs))
  | [], _ => rfl
  | g :: gs, h => by
    simp only [mvtMembers, MvtGeom.denoteList, eventsList]
    rw [run_bind_ok (run_mvtGeometry multi i bs g h.1), run_mvtMembers multi (i + 1) bs gs h.2]
end

mutual
theorem MvtGeom.All.mono {P P' : List IXY → Prop} {Q Q' : List (List IXY) → Prop} (hp : ∀ l, P l → P' l)
    (hq : ∀ l, Q l → Q' l) : ∀ g : MvtGeom, g.All P Q → g.All P' Q'
  | .point _, _ | .multiPoint _, _ => trivial
  | .lineString _, h => hp _ h
  | .multiLineString _, h => fun l hl => hp _ (h l hl)
  | .polygon _, h => hq _ h
  | .multiPolygon _, h => fun p hl => hq _ (h p hl)
  | .collection gs, h => MvtGeom.AllList.mono hp hq gs h

theorem MvtGeom.AllList.mono {P P' : List IXY → Prop} {Q Q' : List (List IXY) → Prop} (hp : ∀ l, P l → P' l)
    (hq : ∀ l, Q l → Q' l) : ∀ gs : List MvtGeom, MvtGeom.AllList P Q gs → MvtGeom.AllList P' Q' gs
  | [], _ => trivial
  | g :: gs, h => ⟨MvtGeom.All.mono hp hq g h.1, MvtGeom.AllList.mono hp hq gs h.2⟩
end

theorem MvtGeom.Minimal.tile {g : MvtGeom} (h : g.Minimal) : g.Tile :=
  MvtGeom.All.mono (fun _ _ => trivial) (fun _ _ => trivial) g h

theorem MvtGeom.allList_iff {P : List IXY → Prop} {Q : List (List IXY) → Prop} (gs : List MvtGeom) :
    MvtGeom.AllList P Q gs ↔ ∀ g ∈ gs, g.All P Q := by
  induction gs with
  | nil => simp [MvtGeom.AllList]
  | cons g gs ih => simp [MvtGeom.AllList, ih]

/-! ### rings -/

theorem distinct_eq_openRing (r : List IXY) : MvtWriter.distinctRingCoords r = (openRing r).length := by
  unfold MvtWriter.distinctRingCoords openRing
  split <;> simp

theorem closeIRing_eq (r : List IXY) : closeIRing r = closedUp Eq r := by
  cases r with
  | nil => rfl
  | cons c r =>
    have hl : (c :: r).getLast? = some ((c :: r).getLast (by simp)) := List.getLast?_eq_some_getLast _
    simp only [closeIRing, closedUp, List.head?_cons, hl, Option.getD_some]

theorem closeIRing_of_closed {r : List IXY} (h : r.head? = r.getLast?) : closeIRing r = r := by
  unfold closeIRing
  split
  · rfl
  · simp only [List.head?_cons] at h
    simp [← h]

theorem closedRing_close {r : List IXY} (h : 3 ≤ (openRing r).length) : ClosedRing (closeIRing r) := by
  unfold openRing at h
  split at h
  · rename_i hc
    rw [closeIRing_of_closed hc.2]
    refine ⟨r.dropLast, h, ?_⟩
    have hne : r ≠ [] := by intro h0; simp [h0] at hc
    have h1 : r.dropLast.head? = r.head? := by
      cases r with
      | nil => rfl
      | cons a t =>
        cases t with
        | nil => simp at hc
        | cons b t => simp
    rw [h1, hc.2, List.getLast?_eq_some_getLast hne]
    exact (List.dropLast_concat_getLast hne).symm
  · rename_i hc
    cases r with
    | nil => simp at h
    | cons a t =>
      have hl : ¬ ((a :: t).getLast?.getD a = a) := by
        intro he
        apply hc
        refine ⟨by omega, ?_⟩
        cases hg : (a :: t).getLast? with
        | none => simp at hg
        | some z => rw [hg] at he; simp at he; simp [he]
      exact ⟨a :: t, h, by simp only [closeIRing, if_neg hl]; simp⟩

/-! ### writer: what it accepts -/

namespace MvtWriter

/-- nothing in progress -/
def Idle (w : MvtWriter) : Prop := w.coords = none ∧ w.lineStrings = none ∧ w.polygons = none

theorem finish_idle {w : MvtWriter} (h : w.Idle) (g : MvtGeom) : (w.finish g).Idle := by
  unfold finish
  obtain ⟨h1, h2, h3⟩ := h
  split <;> exact ⟨h1, h2, h3⟩

/-- the error for too few coordinates -/
def tooFew : Err := .mvt "TooFewCoordinates"

/-- accumulate the members of a list, stopping at the first that is refused -/
theorem feed_evList {α β : Type} (st : MvtWriter → Ev → Except Err MvtWriter) (mk : List β → MvtWriter)
    (f : Nat → α → List Ev) (h : α → β) (D : α → Prop) (x0 : Err) (xs : List α)
    (hx : ∀ x ∈ xs, ∀ i acc, D x → feed st (mk acc) (f i x) = .ok (mk (acc ++ [h x])))
    (hn : ∀ x ∈ xs, ∀ i acc, ¬ D x → feed st (mk acc) (f i x) = .error x0) (i : Nat) (acc : List β) :
    ((∀ x ∈ xs, D x) → feed st (mk acc) (evList f i xs) = .ok (mk (acc ++ xs.map h))) ∧
    (¬ (∀ x ∈ xs, D x) → feed st (mk acc) (evList f i xs) = .error x0) := by
  induction xs generalizing i acc with
  | nil => simp [evList]
  | cons x xs ih =>
    have ih := fun i acc => ih (fun y hy => hx y (by simp [hy])) (fun y hy => hn y (by simp [hy])) i acc
    simp only [evList, feed_append]
    refine ⟨fun hd => ?_, fun hd => ?_⟩
    · rw [hx x (by simp) i acc (hd x (by simp))]
      simp only []
      rw [(ih (i + 1) (acc ++ [h x])).1 (fun y hy => hd y (by simp [hy]))]
      simp
    · by_cases hdx : D x
      · rw [hx x (by simp) i acc hdx]
        simp only []
        refine (ih (i + 1) (acc ++ [h x])).2 fun hall => hd ?_
        intro y hy
        rcases List.mem_cons.mp hy with rfl | hy
        · exact hdx
        · exact hall y hy
      · rw [hn x (by simp) i acc hdx]

theorem feed_coords (sz : ElemSizes) (tr : F64 → F64 → IXY) (w : MvtWriter) (cs : List Coord) (i : Nat) (acc : List IXY) :
    feed (step sz tr) { w with coords := some acc } (evList (coordEvs false) i cs)
      = .ok { w with coords := some (acc ++ tilePos tr cs) } :=
  (feed_evList (step sz tr) (fun acc => { w with coords := some acc }) (coordEvs false) (fun c => tr c.x c.y)
    (fun _ => True) .io cs (fun c _ i acc _ => by simp [coordEvs, coordEv, feed, step])
    (fun _ _ _ _ h => absurd trivial h) i acc).1 (fun _ _ => trivial)

theorem feed_line_untagged (sz : ElemSizes) (tr : F64 → F64 → IXY) (w : MvtWriter) (hc : w.coords = none)
    (ls : List (List IXY)) (cs : List Coord) (hb : Within sz.coord cs.length) (idx : Nat) :
    feed (step sz tr) { w with lineStrings := some ls } (lineEvs false false idx cs)
      = .ok { w with lineStrings := some (ls ++ [tilePos tr cs]) } := by
  simp only [lineEvs, bracket, feed_cons, step, gbegin, debugAssert, hc, Option.isNone_none, if_true,
    GeoWriter.boundedVec_ok hb, feed_append]
  rw [feed_coords sz tr { w with lineStrings := some ls } cs 0 []]
  simp [feed, gend, step, hc]

theorem feed_rings (sz : ElemSizes) (tr : F64 → F64 → IXY) (w : MvtWriter) (hc : w.coords = none)
    (rings : List (List Coord)) (hb : ∀ r ∈ rings, Within sz.coord r.length) (i : Nat) :
    feed (step sz tr) { w with lineStrings := some [] } (evList (lineEvs false false) i rings)
      = .ok { w with lineStrings := some (rings.map (tilePos tr)) } := by
  have := (feed_evList (step sz tr) (fun acc => { w with lineStrings := some acc }) (lineEvs false false)
    (tilePos tr) (fun _ => True) .io rings (fun r hr i acc _ => feed_line_untagged sz tr w hc acc r (hb r hr) i)
    (fun _ _ _ _ h => absurd trivial h) i []).1 (fun _ _ => trivial)
  simpa using this

theorem makePolygon_ok (tr : F64 → F64 → IXY) {rings : List (List Coord)} (h : drawablePoly tr rings) :
    makePolygon (rings.map (tilePos tr)) = .ok (tilePoly tr rings) := by
  obtain ⟨hne, hr⟩ := h
  cases rings with
  | nil => exact absurd rfl hne
  | cons e is =>
    have ha : ((e :: is).map (tilePos tr)).any (fun r => distinctRingCoords r < 3) = false := by
      simp only [List.any_eq_false, List.mem_map, decide_eq_true_eq, Nat.not_lt, forall_exists_index, and_imp]
      rintro _ r hm rfl
      rw [distinct_eq_openRing]
      exact hr r hm
    rw [List.map_cons] at ha
    simp [makePolygon, ha, IPoly.new, tilePoly, Function.comp_def, closeIRing_eq]

theorem makePolygon_few (tr : F64 → F64 → IXY) {rings : List (List Coord)} (h : ¬ drawablePoly tr rings) :
    makePolygon (rings.map (tilePos tr)) = .error tooFew := by
  cases rings with
  | nil => rfl
  | cons e is =>
    have ha : ((e :: is).map (tilePos tr)).any (fun r => distinctRingCoords r < 3) = true := by
      refine Decidable.byContradiction fun hc => h ⟨by simp, fun r hm => ?_⟩
      simp only [Bool.not_eq_true, List.any_eq_false, List.mem_map, decide_eq_true_eq, Nat.not_lt, forall_exists_index,
        and_imp] at hc
      have := hc _ r hm rfl
      rwa [distinct_eq_openRing] at this
    rw [List.map_cons] at ha
    simp [makePolygon, ha, tooFew]

theorem feed_poly_untagged (sz : ElemSizes) (tr : F64 → F64 → IXY) (w : MvtWriter) (hc : w.coords = none)
    (hl : w.lineStrings = none) (ps : List IPoly) (rings : List (List Coord)) (hb : Within sz.line rings.length)
    (hbr : ∀ r ∈ rings, Within sz.coord r.length) (idx : Nat) :
    (drawablePoly tr rings → feed (step sz tr) { w with polygons := some ps } (polyEvs false false idx rings)
      = .ok { w with polygons := some (ps ++ [tilePoly tr rings]) }) ∧
    (¬ drawablePoly tr rings → feed (step sz tr) { w with polygons := some ps } (polyEvs false false idx rings)
      = .error tooFew) := by
  simp only [polyEvs, bracket, feed_cons, step, gbegin, debugAssert, hl, Option.isNone_none, if_true,
    GeoWriter.boundedVec_ok hb, feed_append]
  rw [feed_rings sz tr { w with polygons := some ps } hc rings hbr 0]
  refine ⟨fun h => ?_, fun h => ?_⟩
  · simp [feed, gend, step, makePolygon_ok tr h, hl]
  · simp [feed, gend, step, makePolygon_few tr h]

theorem tileList_cons (tr : F64 → F64 → IXY) (g : Geom) (gs : List Geom) (rs : List MvtGeom)
    (h : Geom.tileList tr (g :: gs) = some rs) :
    ∃ r rs', g.tile tr = some r ∧ Geom.tileList tr gs = some rs' ∧ rs = r :: rs' := by
  simp only [Geom.tileList] at h
  split at h
  · rename_i r rs' h1 h2
    exact ⟨r, rs', h1, h2, by simpa using h.symm⟩
  · simp at h

theorem tile_of_kind (tr : F64 → F64 → IXY) : ∀ g : Geom, g.TileKind → ∃ r, g.tile tr = some r := by
  intro g
  induction g using Geom.ind with
  | point | lineString | polygon | multiPoint | multiLineString | multiPolygon => intro _; exact ⟨_, rfl⟩
  | collection gs ih =>
    intro h
    have : ∀ gs : List Geom, (∀ g ∈ gs, g.TileKind → ∃ r, g.tile tr = some r) → Geom.TileKindList gs →
        ∃ rs, Geom.tileList tr gs = some rs := by
      intro gs
      induction gs with
      | nil => intro _ _; exact ⟨[], rfl⟩
      | cons g gs ihg =>
        intro hg h
        obtain ⟨r, hr⟩ := hg g (by simp) h.1
        obtain ⟨rs, hrs⟩ := ihg (fun g' hg' => hg g' (by simp [hg'])) h.2
        exact ⟨r :: rs, by simp [Geom.tileList, hr, hrs]⟩
    obtain ⟨rs, hrs⟩ := this gs ih h
    exact ⟨.collection rs, by simp [Geom.tile, hrs]⟩
  | _ => intro h; exact h.elim

/-- The writer turns the stream of a representable geometry within budget into the corresponding tile geometry, or
refuses it if it is below the minimum. -/
theorem feed_geom (sz : ElemSizes) (tr : F64 → F64 → IXY) : ∀ (g : Geom) (w : MvtWriter) (r : MvtGeom) (idx : Nat),
    w.Idle → g.tile tr = some r → g.Budget sz →
    (g.Drawable tr → feed (step sz tr) w (g.events false idx) = .ok (w.finish r)) ∧
    (¬ g.Drawable tr → feed (step sz tr) w (g.events false idx) = .error tooFew) := by
  intro g
  induction g using Geom.ind with
  | emptyPoint => intro w r idx _ h; simp [Geom.tile] at h
  | circularString => intro w r idx _ h; simp [Geom.tile] at h
  | compoundCurve => intro w r idx _ h; simp [Geom.tile] at h
  | multiCurve => intro w r idx _ h; simp [Geom.tile] at h
  | triangle => intro w r idx _ h; simp [Geom.tile] at h
  | curvePolygon => intro w r idx _ h; simp [Geom.tile] at h
  | polyhedralSurface => intro w r idx _ h; simp [Geom.tile] at h
  | tin => intro w r idx _ h; simp [Geom.tile] at h
  | multiSurface => intro w r idx _ h; simp [Geom.tile] at h
  | point c =>
    intro w r idx hi h _
    simp only [Geom.tile, Option.some.injEq] at h
    subst h
    refine ⟨fun _ => ?_, fun hn => absurd trivial hn⟩
    simp only [Geom.events, feed, step, gbegin, debugAssert, hi.1, coordEv, Bool.false_eq_true, if_false, gend,
      Option.isNone_none, if_true, List.nil_append]
    rw [show ({ w with coords := none } : MvtWriter) = w by cases w; simp [Idle] at hi; simp [hi]]
  | multiPoint cs =>
    intro w r idx hi h hb
    simp only [Geom.tile, Option.some.injEq] at h
    subst h
    simp only [Geom.Budget] at hb
    refine ⟨fun _ => ?_, fun hn => absurd trivial hn⟩
    simp only [Geom.events, bracket, feed_cons, step, gbegin, debugAssert, hi.1, Option.isNone_none, if_true,
      GeoWriter.boundedVec_ok hb, feed_append]
    rw [feed_coords sz tr w cs 0 []]
    simp only [feed, step, gend, List.nil_append]
    rw [show ({ w with coords := none } : MvtWriter) = w by cases w; simp [Idle] at hi; simp [hi]]
  | lineString cs =>
    intro w r idx hi h hb
    simp only [Geom.tile, Option.some.injEq] at h
    subst h
    simp only [Geom.Budget] at hb
    simp only [Geom.events, lineEvs, bracket, feed_cons, step, gbegin, debugAssert, hi.1, Option.isNone_none, if_true,
      GeoWriter.boundedVec_ok hb, feed_append, Geom.Drawable]
    rw [feed_coords sz tr w cs 0 []]
    have hl : (tilePos tr cs).length = cs.length := by simp [tilePos]
    simp only [feed, step, gend, List.nil_append, if_true, hl]
    refine ⟨fun hd => ?_, fun hd => ?_⟩
    · rw [if_neg (by omega)]
      simp only []
      rw [show ({ w with coords := none } : MvtWriter) = w by cases w; simp [Idle] at hi; simp [hi]]
    · rw [if_pos (by omega)]; rfl
  | multiLineString ls =>
    intro w r idx hi h hb
    simp only [Geom.tile, Option.some.injEq] at h
    subst h
    simp only [Geom.Budget] at hb
    simp only [Geom.events, bracket, feed_cons, step, gbegin, debugAssert, hi.2.1, Option.isNone_none, if_true,
      GeoWriter.boundedVec_ok hb.1, feed_append, Geom.Drawable]
    rw [feed_rings sz tr w hi.1 ls hb.2 0]
    simp only [feed, step, gend]
    have ha : (ls.map (tilePos tr)).any (fun l => l.length < 2) = ls.any (fun l => l.length < 2) := by
      simp [List.any_map, Function.comp_def, tilePos]
    rw [ha]
    refine ⟨fun hd => ?_, fun hd => ?_⟩
    · rw [if_neg (by simpa using hd)]
      simp only []
      rw [show ({ w with lineStrings := none } : MvtWriter) = w by cases w; simp [Idle] at hi; simp [hi]]
    · rw [if_pos (by simpa using hd)]; rfl
  | polygon rings =>
    intro w r idx hi h hb
    simp only [Geom.tile, Option.some.injEq] at h
    subst h
    simp only [Geom.Budget] at hb
    simp only [Geom.events, polyEvs, bracket, feed_cons, step, gbegin, debugAssert, hi.2.1, Option.isNone_none, if_true,
      GeoWriter.boundedVec_ok hb.1, feed_append, Geom.Drawable]
    rw [feed_rings sz tr w hi.1 rings hb.2 0]
    refine ⟨fun hd => ?_, fun hd => ?_⟩
    · simp only [feed, step, gend, if_true, makePolygon_ok tr hd]
      rw [show ({ w with lineStrings := none } : MvtWriter) = w by cases w; simp [Idle] at hi; simp [hi]]
    · simp only [feed, step, gend, makePolygon_few tr hd]
  | multiPolygon ps =>
    intro w r idx hi h hb
    simp only [Geom.tile, Option.some.injEq] at h
    subst h
    simp only [Geom.Budget] at hb
    simp only [Geom.events, bracket, feed_cons, step, gbegin, debugAssert, hi.2.2, Option.isNone_none, if_true,
      GeoWriter.boundedVec_ok hb.1, feed_append, Geom.Drawable]
    have hk := feed_evList (step sz tr) (fun acc => { w with polygons := some acc }) (polyEvs false false) (tilePoly tr)
      (drawablePoly tr) tooFew ps
      (fun p hp i acc => (feed_poly_untagged sz tr w hi.1 hi.2.1 acc p (hb.2 p hp).1 (hb.2 p hp).2 i).1)
      (fun p hp i acc => (feed_poly_untagged sz tr w hi.1 hi.2.1 acc p (hb.2 p hp).1 (hb.2 p hp).2 i).2) 0 []
    refine ⟨fun hd => ?_, fun hd => ?_⟩
    · rw [hk.1 hd]
      simp only [feed, step, gend, List.nil_append]
      rw [show ({ w with polygons := none } : MvtWriter) = w by cases w; simp [Idle] at hi; simp [hi]]
    · rw [hk.2 hd]
  | collection gs ih =>
    intro w r idx hi h hb
    simp only [Geom.tile, Option.map_eq_some_iff] at h
    obtain ⟨rs, hrs, rfl⟩ := h
    simp only [Geom.Budget] at hb
    rw [events_collection]
    simp only [bracket, feed_cons, step, gbegin, GeoWriter.boundedVec_ok hb.1, feed_append, Geom.Drawable]
    have key : ∀ (gs : List Geom) (rs : List MvtGeom) (acc : List MvtGeom) (i : Nat),
        (∀ g ∈ gs, ∀ (w : MvtWriter) (r : MvtGeom) (idx : Nat), w.Idle → g.tile tr = some r → g.Budget sz →
          (g.Drawable tr → feed (step sz tr) w (g.events false idx) = .ok (w.finish r)) ∧
          (¬ g.Drawable tr → feed (step sz tr) w (g.events false idx) = .error tooFew)) →
        Geom.tileList tr gs = some rs → Geom.BudgetList sz gs →
        (Geom.DrawableList tr gs →
          feed (step sz tr) { w with collections := acc :: w.collections } (evList (Geom.events false) i gs)
            = .ok { w with collections := (acc ++ rs) :: w.collections }) ∧
        (¬ Geom.DrawableList tr gs →
          feed (step sz tr) { w with collections := acc :: w.collections } (evList (Geom.events false) i gs)
            = .error tooFew) := by
      intro gs
      induction gs with
      | nil =>
        intro rs acc i _ h _
        simp only [Geom.tileList, Option.some.injEq] at h
        subst h
        simp [evList, Geom.DrawableList]
      | cons g gs ihg =>
        intro rs acc i hg h hb
        obtain ⟨r, rs', h1, h2, rfl⟩ := tileList_cons tr g gs rs h
        simp only [Geom.BudgetList] at hb
        simp only [evList, feed_append, Geom.DrawableList]
        have hg1 := hg g (by simp) { w with collections := acc :: w.collections } r i ⟨hi.1, hi.2.1, hi.2.2⟩ h1 hb.1
        have hg2 := ihg rs' (acc ++ [r]) (i + 1) (fun g' hg' => hg g' (by simp [hg'])) h2 hb.2
        refine ⟨fun hd => ?_, fun hd => ?_⟩
        · rw [hg1.1 hd.1]
          simp only [finish]
          rw [hg2.1 hd.2]
          simp
        · by_cases hdg : g.Drawable tr
          · rw [hg1.1 hdg]
            simp only [finish]
            rw [hg2.2 fun hl => hd ⟨hdg, hl⟩]
          · rw [hg1.2 hdg]
    have hk := key gs rs [] 0 ih hrs hb.2
    refine ⟨fun hd => ?_, fun hd => ?_⟩
    · rw [hk.1 hd]
      simp [feed, step, gend]
    · rw [hk.2 hd]

/-! ### writer: everything it holds satisfies the minimum -/

/-- all complete geometries and polygons held satisfy the minimum -/
structure Inv (w : MvtWriter) : Prop where
  features : ∀ f ∈ w.features, f.geometry.Minimal
  geoms : ∀ g ∈ w.geoms, g.Minimal
  collections : ∀ c ∈ w.collections, ∀ g ∈ c, g.Minimal
  polygons : ∀ ps, w.polygons = some ps → ∀ p ∈ ps, ∀ r ∈ p.rings, ClosedRing r

theorem Inv.finish {w : MvtWriter} (h : w.Inv) {g : MvtGeom} (hg : g.Minimal) : (w.finish g).Inv := by
  unfold MvtWriter.finish
  split
  · rename_i c cs hc
    refine ⟨h.features, h.geoms, ?_, h.polygons⟩
    intro c' hc' g' hg'
    have := h.collections
    rw [hc] at this
    rcases List.mem_cons.mp hc' with rfl | hm
    · rcases List.mem_append.mp hg' with hm | hm
      · exact this c (by simp) g' hm
      · simp at hm; subst hm; exact hg
    · exact this c' (by simp [hm]) g' hg'
  · refine ⟨h.features, ?_, h.collections, h.polygons⟩
    intro g' hg'
    rcases List.mem_append.mp hg' with hm | hm
    · exact h.geoms g' hm
    · simp at hm; subst hm; exact hg

theorem makePolygon_minimal {ls : List (List IXY)} {p : IPoly} (h : makePolygon ls = .ok p) :
    ∀ r ∈ p.rings, ClosedRing r := by
  cases ls with
  | nil => cases h
  | cons e is =>
    simp only [makePolygon] at h
    split at h
    · cases h
    · rename_i ha
      simp only [Except.ok.injEq] at h
      subst h
      simp only [Bool.not_eq_true, List.any_eq_false, decide_eq_true_eq, Nat.not_lt] at ha
      intro r hr
      have : ∃ r0 ∈ e :: is, closeIRing r0 = r := by
        simp only [IPoly.rings, IPoly.new, List.mem_cons, List.mem_map] at hr
        rcases hr with rfl | ⟨r0, h0, rfl⟩
        · exact ⟨e, by simp, rfl⟩
        · exact ⟨r0, by simp [h0], rfl⟩
      obtain ⟨r0, h0, rfl⟩ := this
      have := ha r0 h0
      rw [distinct_eq_openRing] at this
      exact closedRing_close this

theorem Inv.step {sz : ElemSizes} {tr : F64 → F64 → IXY} {w w' : MvtWriter} {e : Ev} (h : w.Inv)
    (hs : MvtWriter.step sz tr w e = .ok w') : w'.Inv := by
  have hpoly : ∀ {ls p}, makePolygon ls = .ok p → (MvtGeom.polygon p).Minimal := fun hm =>
    ⟨by simp [IPoly.rings], makePolygon_minimal hm⟩
  have hcoords : ∀ v, ({ w with coords := v } : MvtWriter).Inv := fun v => ⟨h.features, h.geoms, h.collections, h.polygons⟩
  have hlines : ∀ v, ({ w with lineStrings := v } : MvtWriter).Inv :=
    fun v => ⟨h.features, h.geoms, h.collections, h.polygons⟩
  cases e with
  | srid s => cases hs; exact h
  | coord x y z m t tm i => cases hs; exact h
  | emptyPoint i => cases hs
  | xy x y i =>
    simp only [MvtWriter.step] at hs
    split at hs
    · cases hs
    · cases hs; exact hcoords _
  | gbegin k tagged size idx =>
    simp only [MvtWriter.step, gbegin, debugAssert] at hs
    split at hs
    · split at hs <;> cases hs
      exact hcoords _
    · split at hs <;> try cases hs
      split at hs <;> cases hs
      exact hcoords _
    · split at hs <;> try cases hs
      split at hs <;> cases hs
      exact hcoords _
    · split at hs <;> try cases hs
      split at hs <;> cases hs
      exact hlines _
    · split at hs <;> try cases hs
      split at hs <;> cases hs
      exact hlines _
    · split at hs <;> try cases hs
      rcases GeoWriter.boundedVec_cases IPoly sz.poly size with hb | hb
      · rw [hb] at hs; cases hs
        refine ⟨h.features, h.geoms, h.collections, ?_⟩
        rintro ps hps
        cases hps
        simp
      · rw [hb] at hs; cases hs
    · rcases GeoWriter.boundedVec_cases MvtGeom sz.geom size with hb | hb
      · rw [hb] at hs; cases hs
        refine ⟨h.features, h.geoms, ?_, h.polygons⟩
        intro c hc
        rcases List.mem_cons.mp hc with rfl | hc
        · simp
        · exact h.collections c hc
      · rw [hb] at hs; cases hs
    · cases hs; exact h
  | gend k tagged idx =>
    simp only [MvtWriter.step, gend] at hs
    split at hs
    · split at hs <;> cases hs
      exact (hcoords none).finish (g := .point _) trivial
    · split at hs <;> cases hs
      exact (hcoords none).finish (g := .multiPoint _) trivial
    · split at hs
      · cases hs
      · split at hs
        · split at hs
          · cases hs
          · cases hs
            rename_i hl
            exact (hcoords none).finish (g := .lineString _) (show 2 ≤ _ by omega)
        · split at hs
          · cases hs
          · cases hs; exact ⟨h.features, h.geoms, h.collections, h.polygons⟩
    · split at hs
      · cases hs
      · split at hs
        · cases hs
        · cases hs
          rename_i ls _ hl
          refine (hlines none).finish (g := .multiLineString _) ?_
          intro l hm
          simp only [List.any_eq_true, decide_eq_true_eq, not_exists, not_and, Nat.not_lt] at hl
          exact hl l hm
    · split at hs
      · cases hs
      · split at hs
        · cases hs
        · rename_i p hp
          split at hs
          · cases hs; exact (hlines none).finish (hpoly hp)
          · split at hs
            · cases hs
            · rename_i ps hps
              cases hs
              refine ⟨h.features, h.geoms, h.collections, ?_⟩
              intro ps' hps' q hq
              cases hps'
              rcases List.mem_append.mp hq with hm | hm
              · exact h.polygons ps hps q hm
              · simp at hm; subst hm; exact makePolygon_minimal hp
    · split at hs
      · cases hs
      · rename_i ps hps
        cases hs
        have h0 : ({ w with polygons := none } : MvtWriter).Inv :=
          ⟨h.features, h.geoms, h.collections, fun ps hps => by cases hps⟩
        exact h0.finish (g := .multiPolygon ps) (fun p hp => ⟨by simp [IPoly.rings], h.polygons ps hps p hp⟩)
    · split at hs
      · cases hs
      · rename_i c cs hc
        cases hs
        have h0 : ({ w with collections := cs } : MvtWriter).Inv :=
          ⟨h.features, h.geoms, fun c' hc' => h.collections c' (by rw [hc]; simp [hc']), h.polygons⟩
        exact h0.finish (g := .collection c) ((MvtGeom.allList_iff c).mpr (h.collections c (by rw [hc]; simp)))
    · cases hs; exact h

theorem Inv.take {w : MvtWriter} (h : w.Inv) : w.takeGeometry.2.Inv ∧ ∀ g, w.takeGeometry.1 = some g → g.Minimal := by
  unfold takeGeometry
  split
  · exact ⟨h, fun g hg => by cases hg⟩
  · rename_i g hg
    refine ⟨⟨h.features, by simp, h.collections, h.polygons⟩, fun g' hg' => ?_⟩
    cases hg'
    exact h.geoms g (by rw [hg]; simp)
  · refine ⟨⟨h.features, by simp, h.collections, h.polygons⟩, fun g' hg' => ?_⟩
    cases hg'
    exact (MvtGeom.allList_iff _).mpr h.geoms

theorem Inv.featureEnd {w : MvtWriter} (h : w.Inv) : w.featureEnd.Inv := by
  obtain ⟨h1, h2⟩ := h.take
  unfold MvtWriter.featureEnd
  split
  · rename_i w1 heq
    rw [heq] at h1; exact h1
  · rename_i g w1 heq
    rw [heq] at h1 h2
    refine ⟨?_, h1.geoms, h1.collections, h1.polygons⟩
    intro f hf
    rcases List.mem_append.mp hf with hm | hm
    · exact h1.features f hm
    · simp at hm; subst hm; exact h2 g rfl

theorem Inv.fstep {sz : ElemSizes} {tr : F64 → F64 → IXY} {w w' : MvtWriter} {e : FEv} (h : w.Inv)
    (hs : (fproc sz tr).step w e = .ok w') : w'.Inv := by
  cases e with
  | geom e => exact h.step hs
  | prop i n v => cases hs; exact ⟨h.features, h.geoms, h.collections, h.polygons⟩
  | ftBegin i => cases hs; exact ⟨h.features, h.geoms, h.collections, h.polygons⟩
  | ftEnd i => cases hs; exact h.featureEnd
  | _ => cases hs; exact h

theorem Inv.initial : (({} : MvtWriter)).Inv := ⟨by simp, by simp, by simp, by simp⟩

theorem Inv.feed {sz : ElemSizes} {tr : F64 → F64 → IXY} {w w' : MvtWriter} (evs : List FEv) (h : w.Inv)
    (hs : Geozero.feed (fproc sz tr).step w evs = .ok w') : w'.Inv := by
  induction evs generalizing w with
  | nil => cases hs; exact h
  | cons e es ih =>
    rw [feed_cons] at hs
    split at hs
    · rename_i w1 h1; exact ih (h.fstep h1) hs
    · cases hs

/-! ### writer: it panics only where the geo-types writer does -/

/-- same things in progress -/
def Sim (w : MvtWriter) (g : GeoWriter) : Prop :=
  w.coords.isSome = g.coords.isSome ∧ w.lineStrings.isSome = g.lineStrings.isSome ∧
    w.polygons.isSome = g.polygons.isSome ∧ w.collections.length = g.collections.length

/-- outcome of the geo-types writer for an outcome of this writer -/
def SimRes (a : Except Err MvtWriter) (b : Except Err GeoWriter) : Prop :=
  match a with
  | .ok w => (∃ g, b = .ok g ∧ Sim w g) ∨ ∃ e, b = .error e ∧ e.isPanic = true
  | .error x => x.isPanic = true → ∃ e, b = .error e ∧ e.isPanic = true

theorem Sim.finish {w : MvtWriter} {g : GeoWriter} (h : Sim w g) (a : MvtGeom) (b : GeoGeom) :
    Sim (w.finish a) (g.finish b) := by
  obtain ⟨h1, h2, h3, h4⟩ := h
  unfold MvtWriter.finish GeoWriter.finish
  cases hw : w.collections <;> cases hg : g.collections <;> simp_all [Sim]

theorem sim_step (sz : ElemSizes) (tr : F64 → F64 → IXY) {w : MvtWriter} {g : GeoWriter} (h : Sim w g) (e : Ev) :
    SimRes (step sz tr w e) (GeoWriter.step GeoWriter.noBudget g e) := by
  have hz : ∀ (α : Type) n, boundedVec α 0 n = .ok ([], 0) := by
    intro α n
    rw [GeoWriter.boundedVec_ok (by simp [Within])]
    simp
  obtain ⟨h1, h2, h3, h4⟩ := h
  cases e with
  | srid s => exact Or.inl ⟨g, rfl, h1, h2, h3, h4⟩
  | coord x y z m t tm i => exact Or.inl ⟨g, rfl, h1, h2, h3, h4⟩
  | emptyPoint i => intro hp; cases hp
  | xy x y i =>
    simp only [step, GeoWriter.step]
    cases hw : w.coords <;> cases hg : g.coords <;> simp_all [SimRes, Sim, Err.isPanic]
  | gbegin k tagged size idx =>
    cases k with
    | point =>
      simp only [step, gbegin, debugAssert, GeoWriter.step, GeoWriter.gbegin, GeoWriter.debugAssert]
      cases hw : w.coords <;> cases hg : g.coords <;> simp_all [SimRes, Sim, Err.isPanic]
    | multiPoint =>
      simp only [step, gbegin, debugAssert, GeoWriter.step, GeoWriter.gbegin, GeoWriter.debugAssert, GeoWriter.noBudget, hz]
      rcases GeoWriter.boundedVec_cases IXY sz.coord size with hb | hb <;> rw [hb] <;>
      cases hw : w.coords <;> cases hg : g.coords <;> simp_all [SimRes, Sim, Err.isPanic]
    | lineString =>
      simp only [step, gbegin, debugAssert, GeoWriter.step, GeoWriter.gbegin, GeoWriter.debugAssert, GeoWriter.noBudget, hz]
      rcases GeoWriter.boundedVec_cases IXY sz.coord size with hb | hb <;> rw [hb] <;>
      cases hw : w.coords <;> cases hg : g.coords <;> simp_all [SimRes, Sim, Err.isPanic]
    | multiLineString =>
      simp only [step, gbegin, debugAssert, GeoWriter.step, GeoWriter.gbegin, GeoWriter.debugAssert, GeoWriter.noBudget, hz]
      rcases GeoWriter.boundedVec_cases (List IXY) sz.line size with hb | hb <;> rw [hb] <;>
      cases hw : w.lineStrings <;> cases hg : g.lineStrings <;> simp_all [SimRes, Sim, Err.isPanic]
    | polygon =>
      simp only [step, gbegin, debugAssert, GeoWriter.step, GeoWriter.gbegin, GeoWriter.debugAssert, GeoWriter.noBudget, hz]
      rcases GeoWriter.boundedVec_cases (List IXY) sz.line size with hb | hb <;> rw [hb] <;>
      cases hw : w.lineStrings <;> cases hg : g.lineStrings <;> simp_all [SimRes, Sim, Err.isPanic]
    | multiPolygon =>
      simp only [step, gbegin, debugAssert, GeoWriter.step, GeoWriter.gbegin, GeoWriter.debugAssert, GeoWriter.noBudget, hz]
      rcases GeoWriter.boundedVec_cases IPoly sz.poly size with hb | hb <;> rw [hb] <;>
      cases hw : w.polygons <;> cases hg : g.polygons <;> simp_all [SimRes, Sim, Err.isPanic]
    | collection =>
      simp only [step, gbegin, GeoWriter.step, GeoWriter.gbegin, GeoWriter.noBudget, hz]
      rcases GeoWriter.boundedVec_cases MvtGeom sz.geom size with hb | hb <;> rw [hb] <;>
      simp_all [SimRes, Sim, Err.isPanic]
    | _ => exact Or.inl ⟨g, rfl, h1, h2, h3, h4⟩
  | gend k tagged idx =>
    cases k with
    | point =>
      simp only [step, gend, GeoWriter.step, GeoWriter.gend, GeoWriter.debugAssert]
      cases hw : w.coords with
      | none => intro hp; cases hp
      | some cs =>
        cases hg : g.coords with
        | none => simp [hw, hg] at h1
        | some ds =>
          cases cs with
          | nil => intro hp; cases hp
          | cons c cs =>
            by_cases hl : (ds.length == 1) = true
            · cases ds with
              | nil => simp at hl
              | cons d ds =>
                simp only [hl, if_true]
                refine Or.inl ⟨_, rfl, ?_⟩
                exact Sim.finish (w := { w with coords := none }) (g := { g with coords := none }) ⟨rfl, h2, h3, h4⟩ _ _
            · simp only [hl]
              exact Or.inr ⟨_, rfl, rfl⟩
    | multiPoint =>
      simp only [step, gend, GeoWriter.step, GeoWriter.gend]
      cases hw : w.coords with
      | none => intro hp; cases hp
      | some cs =>
        cases hg : g.coords with
        | none => simp [hw, hg] at h1
        | some ds =>
          refine Or.inl ⟨_, rfl, ?_⟩
          exact Sim.finish (w := { w with coords := none }) (g := { g with coords := none }) ⟨rfl, h2, h3, h4⟩ _ _
    | lineString =>
      simp only [step, gend, GeoWriter.step, GeoWriter.gend]
      cases hw : w.coords with
      | none => intro hp; cases hp
      | some cs =>
        cases hg : g.coords with
        | none => simp [hw, hg] at h1
        | some ds =>
          cases tagged with
          | true =>
            simp only [if_true]
            split
            · intro hp; cases hp
            · refine Or.inl ⟨_, rfl, ?_⟩
              exact Sim.finish (w := { w with coords := none }) (g := { g with coords := none }) ⟨rfl, h2, h3, h4⟩ _ _
          | false =>
            simp only [Bool.false_eq_true, if_false]
            cases hwl : w.lineStrings <;> cases hgl : g.lineStrings <;> simp_all [SimRes, Sim, Err.isPanic]
    | multiLineString =>
      simp only [step, gend, GeoWriter.step, GeoWriter.gend]
      cases hw : w.lineStrings with
      | none => intro hp; cases hp
      | some cs =>
        cases hg : g.lineStrings with
        | none => simp [hw, hg] at h2
        | some ds =>
          simp only []
          split
          · intro hp; cases hp
          · refine Or.inl ⟨_, rfl, ?_⟩
            exact Sim.finish (w := { w with lineStrings := none }) (g := { g with lineStrings := none }) ⟨h1, rfl, h3, h4⟩ _ _
    | polygon =>
      simp only [step, gend, GeoWriter.step, GeoWriter.gend]
      cases hw : w.lineStrings with
      | none => intro hp; cases hp
      | some cs =>
        cases hg : g.lineStrings with
        | none => simp [hw, hg] at h2
        | some ds =>
          simp only []
          cases hm : makePolygon cs with
          | error x =>
            intro hp
            have : x = tooFew := by
              cases cs with
              | nil => cases hm; rfl
              | cons e is =>
                simp only [makePolygon] at hm
                split at hm <;> cases hm
                rfl
            subst this
            cases hp
          | ok p =>
            cases tagged with
            | true =>
              simp only [if_true]
              refine Or.inl ⟨_, rfl, ?_⟩
              exact Sim.finish (w := { w with lineStrings := none }) (g := { g with lineStrings := none }) ⟨h1, rfl, h3, h4⟩ _ _
            | false =>
              simp only [Bool.false_eq_true, if_false]
              cases hwl : w.polygons <;> cases hgl : g.polygons <;> simp_all [SimRes, Sim, Err.isPanic]
    | multiPolygon =>
      simp only [step, gend, GeoWriter.step, GeoWriter.gend]
      cases hw : w.polygons with
      | none => intro hp; cases hp
      | some cs =>
        cases hg : g.polygons with
        | none => simp [hw, hg] at h3
        | some ds =>
          refine Or.inl ⟨_, rfl, ?_⟩
          exact Sim.finish (w := { w with polygons := none }) (g := { g with polygons := none }) ⟨h1, h2, rfl, h4⟩ _ _
    | collection =>
      simp only [step, gend, GeoWriter.step, GeoWriter.gend]
      cases hw : w.collections with
      | nil => intro hp; cases hp
      | cons c cs =>
        cases hg : g.collections with
        | nil => simp [hw, hg] at h4
        | cons d ds =>
          refine Or.inl ⟨_, rfl, ?_⟩
          refine Sim.finish (w := { w with collections := cs }) (g := { g with collections := ds }) ⟨h1, h2, h3, ?_⟩ _ _
          simpa [hw, hg] using h4
    | _ => exact Or.inl ⟨g, rfl, h1, h2, h3, h4⟩

theorem sim_feed (sz : ElemSizes) (tr : F64 → F64 → IXY) (evs : List Ev) {w : MvtWriter} {g : GeoWriter} (h : Sim w g)
    (x : Err) (hx : Geozero.feed (step sz tr) w evs = .error x) (hp : x.isPanic = true) :
    ∃ y, Geozero.feed (GeoWriter.step GeoWriter.noBudget) g evs = .error y ∧ y.isPanic = true := by
  induction evs generalizing w g with
  | nil => cases hx
  | cons e es ih =>
    simp only [feed_cons] at hx ⊢
    have hs := sim_step sz tr h e
    cases hw : step sz tr w e with
    | error z =>
      rw [hw] at hs hx
      cases hx
      obtain ⟨y, hy, hyp⟩ := hs hp
      exact ⟨y, by rw [hy], hyp⟩
    | ok w' =>
      rw [hw] at hs hx
      rcases hs with ⟨g', hg', hsim⟩ | ⟨y, hy, hyp⟩
      · rw [hg']; exact ih hsim hx
      · exact ⟨y, by rw [hy], hyp⟩

/-- A prefix of the stream of a geometry, up to line string sizes and coordinate indices, never makes the writer
panic. -/
theorem prefix_no_panic (sz : ElemSizes) (tr : F64 → F64 → IXY) (g : Geom) (srid : Option Int) (evs : List Ev)
    (h : evs.map looseEv <+: (Ev.srid srid :: Geom.events false 0 g).map looseEv) (x : Err)
    (hx : Geozero.feed (step sz tr) {} evs = .error x) : x.isPanic = false := by
  cases hp : x.isPanic with
  | false => rfl
  | true =>
    obtain ⟨y, hy, hyp⟩ := sim_feed sz tr evs (g := {}) ⟨rfl, rfl, rfl, rfl⟩ x hx hp
    have := GeoWriter.prefix_no_panic GeoWriter.noBudget {} ⟨rfl, rfl, rfl⟩ g srid evs h y hy
    rw [hyp] at this
    exact this

end MvtWriter
end Geozero

/-! ### exact coordinates -/

namespace Geozero
open Prog

/-- the transformation of the unscaled writer -/
def truncXY (x y : F64) : IXY := { x := x.toI32, y := y.toI32 }

theorem truncXY_coord (p : IXY) : truncXY p.coord.x p.coord.y = p := by
  have h : ∀ v : Int32, (F64.ofI32 v).toI32 = v := by
    intro v
    apply Int32.toInt_inj.mp
    have h1 := v.le_toInt
    have h2 := v.toInt_lt
    exact (F64.isInt_ofI32 v).truncTo.toI32 ⟨by omega, by omega⟩
  cases p
  simp [truncXY, IXY.coord, h]

theorem coord_truncXY {c : Coord} (h : c.TileExact) : (truncXY c.x c.y).coord = c := by
  obtain ⟨⟨n, h1, h2, h3⟩, ⟨m, k1, k2, k3⟩, hz, hm⟩ := h
  cases c
  simp only at *
  subst hz; subst hm
  simp [truncXY, IXY.coord, F64.ofI32_toI32 h1 h2 h3, F64.ofI32_toI32 k1 k2 k3]

theorem tilePos_coord (ps : List IXY) : tilePos truncXY (ps.map IXY.coord) = ps := by
  simp only [tilePos, List.map_map]
  conv => rhs; rw [← List.map_id ps]
  exact List.map_congr_left fun p _ => truncXY_coord p

theorem map_coord_tilePos {cs : List Coord} (h : ∀ c ∈ cs, c.TileExact) : (tilePos truncXY cs).map IXY.coord = cs := by
  simp only [tilePos, List.map_map]
  conv => rhs; rw [← List.map_id cs]
  exact List.map_congr_left fun p hp => coord_truncXY (h p hp)

theorem close_tilePos (tr : F64 → F64 → IXY) {r : List Coord} (h : r.head? = r.getLast?) :
    closeIRing (tilePos tr r) = tilePos tr r := by
  apply closeIRing_of_closed
  simp [tilePos, List.head?_map, List.getLast?_map, h]

theorem rings_tilePoly {rings : List (List Coord)} (hne : rings ≠ []) (hc : ringsClosed rings)
    (h : ∀ c ∈ rings.flatten, c.TileExact) :
    (tilePoly truncXY rings).rings.map (List.map IXY.coord) = rings := by
  cases rings with
  | nil => exact absurd rfl hne
  | cons e is =>
    have h1 : ∀ r ∈ e :: is, (closeIRing (tilePos truncXY r)).map IXY.coord = r := by
      intro r hr
      rw [close_tilePos _ (hc r hr)]
      exact map_coord_tilePos fun c hcm => h c (List.mem_flatten.mpr ⟨r, hr, hcm⟩)
    simp only [tilePoly, ← closeIRing_eq, IPoly.rings, List.map_cons, List.map_map]
    rw [h1 e (by simp)]
    congr 1
    conv => rhs; rw [← List.map_id is]
    exact List.map_congr_left fun r hr => h1 r (by simp [hr])

theorem denote_tile : ∀ (g : Geom) (r : MvtGeom), g.tile truncXY = some r → (∀ c ∈ g.coords, c.TileExact) →
    g.RingsClosed → g.Drawable truncXY → r.denote = g := by
  intro g
  induction g using Geom.ind with
  | point c =>
    intro r h he _ _
    simp only [Geom.tile, Option.some.injEq] at h; subst h
    simp only [MvtGeom.denote]
    rw [coord_truncXY (he c (by simp [Geom.coords]))]
  | lineString cs =>
    intro r h he _ _
    simp only [Geom.tile, Option.some.injEq] at h; subst h
    simp only [MvtGeom.denote]
    rw [map_coord_tilePos (fun c hc => he c (by simpa [Geom.coords] using hc))]
  | multiPoint cs =>
    intro r h he _ _
    simp only [Geom.tile, Option.some.injEq] at h; subst h
    simp only [MvtGeom.denote]
    rw [map_coord_tilePos (fun c hc => he c (by simpa [Geom.coords] using hc))]
  | multiLineString ls =>
    intro r h he _ _
    simp only [Geom.tile, Option.some.injEq] at h; subst h
    simp only [MvtGeom.denote, List.map_map]
    congr 1
    conv => rhs; rw [← List.map_id ls]
    exact List.map_congr_left fun l hl => map_coord_tilePos fun c hc =>
      he c (by simp only [Geom.coords]; exact List.mem_flatten.mpr ⟨l, hl, hc⟩)
  | polygon rings =>
    intro r h he hc hd
    simp only [Geom.tile, Option.some.injEq] at h; subst h
    simp only [MvtGeom.denote]
    simp only [Geom.Drawable] at hd
    simp only [Geom.RingsClosed] at hc
    rw [rings_tilePoly hd.1 hc (by simpa only [Geom.coords] using he)]
  | multiPolygon ps =>
    intro r h he hc hd
    simp only [Geom.tile, Option.some.injEq] at h; subst h
    simp only [MvtGeom.denote, List.map_map]
    simp only [Geom.Drawable] at hd
    simp only [Geom.RingsClosed] at hc
    congr 1
    conv => rhs; rw [← List.map_id ps]
    refine List.map_congr_left fun p hp => rings_tilePoly (hd p hp).1 (hc p hp) fun c hcm => he c ?_
    simp only [Geom.coords, List.mem_flatMap]
    exact ⟨p, hp, hcm⟩
  | collection gs ih =>
    intro r h he hc hd
    simp only [Geom.tile, Option.map_eq_some_iff] at h
    obtain ⟨rs, hrs, rfl⟩ := h
    simp only [MvtGeom.denote]
    congr 1
    have : ∀ (gs : List Geom) (rs : List MvtGeom), (∀ g ∈ gs, ∀ (r : MvtGeom), g.tile truncXY = some r →
        (∀ c ∈ g.coords, c.TileExact) → g.RingsClosed → g.Drawable truncXY → r.denote = g) →
        Geom.tileList truncXY gs = some rs → (∀ c ∈ Geom.coordsList gs, c.TileExact) → Geom.RingsClosedList gs →
        Geom.DrawableList truncXY gs → MvtGeom.denoteList rs = gs := by
      intro gs
      induction gs with
      | nil =>
        intro rs _ h _ _ _
        simp only [Geom.tileList, Option.some.injEq] at h
        subst h; rfl
      | cons g gs ihg =>
        intro rs hg h he hc hd
        obtain ⟨r, rs', h1, h2, rfl⟩ := MvtWriter.tileList_cons truncXY g gs rs h
        simp only [Geom.coordsList, List.mem_append] at he
        simp only [MvtGeom.denoteList]
        rw [hg g (by simp) r h1 (fun c hcm => he c (Or.inl hcm)) hc.1 hd.1,
          ihg rs' (fun g' hg' => hg g' (by simp [hg'])) h2 (fun c hcm => he c (Or.inr hcm)) hc.2 hd.2]
    exact this gs rs ih hrs (by simpa only [Geom.coords] using he) hc hd
  | _ => intro r h; simp [Geom.tile] at h

theorem ClosedRing.ends {r : List IXY} (h : ClosedRing r) : r.head? = r.getLast? := by
  obtain ⟨b, hb, rfl⟩ := h
  cases b with
  | nil => simp at hb
  | cons a t =>
    simp only [List.head?_cons, Option.toList_some, List.getLast?_concat, List.cons_append]
    rw [← List.cons_append, List.getLast?_concat]

theorem ClosedRing.openRing {r : List IXY} (h : ClosedRing r) : 3 ≤ (openRing r).length := by
  have he := h.ends
  obtain ⟨b, hb, rfl⟩ := h
  have hl : 2 ≤ (b ++ b.head?.toList).length := by simp; omega
  unfold Geozero.openRing
  rw [if_pos ⟨hl, he⟩]
  cases b with
  | nil => simp at hb
  | cons a t => simpa using hb

theorem tilePoly_denote {p : IPoly} (h : ∀ r ∈ p.rings, ClosedRing r) :
    tilePoly truncXY (p.rings.map (List.map IXY.coord)) = p := by
  obtain ⟨e, is⟩ := p
  simp only [IPoly.rings] at h
  simp only [IPoly.rings, List.map_cons, tilePoly, ← closeIRing_eq, tilePos_coord, List.map_map]
  have h1 := closeIRing_of_closed (h e (by simp)).ends
  have h2 : is.map ((fun r => closeIRing (tilePos truncXY r)) ∘ List.map IXY.coord) = is := by
    conv => rhs; rw [← List.map_id is]
    refine List.map_congr_left fun r hr => ?_
    simp only [Function.comp_apply, tilePos_coord, id]
    exact closeIRing_of_closed (h r (by simp [hr])).ends
  rw [h1, h2]

theorem drawablePoly_denote {p : IPoly} (h : ∀ r ∈ p.rings, ClosedRing r) :
    drawablePoly truncXY (p.rings.map (List.map IXY.coord)) := by
  refine ⟨by simp [IPoly.rings], ?_⟩
  intro r hr
  simp only [List.mem_map] at hr
  obtain ⟨r0, h0, rfl⟩ := hr
  rw [tilePos_coord]
  exact (h r0 h0).openRing

mutual
/-- a tile geometry satisfying the minimum is what the unscaled writer makes of what it denotes -/
theorem tile_denote : ∀ g : MvtGeom, g.Minimal → g.denote.tile truncXY = some g ∧ g.denote.Drawable truncXY
  | .point p, _ => ⟨by simp only [MvtGeom.denote, Geom.tile, truncXY_coord], trivial⟩
  | .line _ _, h => h.elim
  | .rect _ _, h => h.elim
  | .triangle _ _ _, h => h.elim
  | .lineString cs, h => ⟨by simp only [MvtGeom.denote, Geom.tile, tilePos_coord], by
      simpa only [MvtGeom.denote, Geom.Drawable, List.length_map] using (show 2 ≤ cs.length from h)⟩
  | .multiPoint cs, _ => ⟨by simp only [MvtGeom.denote, Geom.tile, tilePos_coord], trivial⟩
  | .multiLineString ls, h => by
    constructor
    · simp only [MvtGeom.denote, Geom.tile, List.map_map, Option.some.injEq, MvtGeom.multiLineString.injEq]
      conv => rhs; rw [← List.map_id ls]
      exact List.map_congr_left fun l _ => tilePos_coord l
    · simp only [MvtGeom.denote, Geom.Drawable, List.mem_map]
      rintro _ ⟨l, hl, rfl⟩
      simpa using h l hl
  | .polygon p, h => by
    constructor
    · simp only [MvtGeom.denote, Geom.tile, tilePoly_denote h.2]
    · simp only [MvtGeom.denote, Geom.Drawable]
      exact drawablePoly_denote h.2
  | .multiPolygon ps, h => by
    constructor
    · simp only [MvtGeom.denote, Geom.tile, List.map_map, Option.some.injEq, MvtGeom.multiPolygon.injEq]
      conv => rhs; rw [← List.map_id ps]
      exact List.map_congr_left fun p hp => tilePoly_denote (h p hp).2
    · simp only [MvtGeom.denote, Geom.Drawable, List.mem_map]
      rintro _ ⟨p, hp, rfl⟩
      exact drawablePoly_denote (h p hp).2
  | .collection gs, h => by
    have := tile_denoteList gs h
    exact ⟨by simp only [MvtGeom.denote, Geom.tile, this.1, Option.map_some], by
      simpa only [MvtGeom.denote, Geom.Drawable] using this.2⟩

theorem tile_denoteList : ∀ gs : List MvtGeom,
    MvtGeom.AllList (fun l => 2 ≤ l.length) (fun rings => rings ≠ [] ∧ ∀ r ∈ rings, ClosedRing r) gs →
    Geom.tileList truncXY (MvtGeom.denoteList gs) = some gs ∧ Geom.DrawableList truncXY (MvtGeom.denoteList gs)
  | [], _ => ⟨rfl, trivial⟩
  | g :: gs, h => by
    have h1 := tile_denote g h.1
    have h2 := tile_denoteList gs h.2
    exact ⟨by simp only [MvtGeom.denoteList, Geom.tileList, h1.1, h2.1], h1.2, h2.2⟩
end

/-! ### the features of a layer -/

theorem run_mvtProperties (env : FProg.Env) (ps : List (Text × MvtValue)) (i : Nat) (bs : List Byte) :
    FProg.run env (FProg.forIdx mvtProperty i ps) bs = (propEvs (tileProps i ps), .ok ((), bs)) := by
  induction ps generalizing i with
  | nil => rfl
  | cons p ps ih =>
    simp only [FProg.forIdx, mvtProperty, tileProps]
    cases p.2.column with
    | none => simp only [FProg.ret_bind]; exact ih (i + 1)
    | some v => simp only [FProg.run_call_bind, ih (i + 1)]; rfl

theorem run_mvtFeature (env : FProg.Env) (f : MvtFeature) (h : f.geometry.Tile) (i : Nat) (bs : List Byte) :
    FProg.run env (mvtFeature i f) bs = ((f.feat env.multi).evs i, .ok ((), bs)) := by
  unfold mvtFeature
  simp only [FProg.bind_eq, FProg.run_call_bind]
  rw [FProg.run_bind_ok (run_mvtProperties env f.properties 0 bs)]
  simp only [FProg.run_call_bind]
  rw [FProg.run_bind_ok (p := FProg.lift (mvtProcessGeom f)) (evs := (f.geometry.denote.events env.multi 0).map FEv.geom)
    (a := ()) (rest := bs) (by rw [FProg.run_lift, mvtProcessGeom, run_mvtGeometry env.multi 0 bs _ h])]
  simp [Feat.evs, MvtFeature.feat, Feat.propsPart, Feat.geomPart]

theorem run_mvtFeatures (env : FProg.Env) (fs : List MvtFeature) (h : ∀ f ∈ fs, f.geometry.Tile) (i : Nat)
    (bs : List Byte) :
    FProg.run env (FProg.forIdx mvtFeature i fs) bs = (featEvs i (fs.map (MvtFeature.feat env.multi)), .ok ((), bs)) := by
  induction fs generalizing i with
  | nil => rfl
  | cons f fs ih =>
    simp only [FProg.forIdx, List.map_cons, featEvs]
    rw [FProg.run_bind_ok (run_mvtFeature env f (h f (by simp)) i bs), ih (fun f hf => h f (by simp [hf]))]

namespace MvtWriter

theorem feed_props (sz : ElemSizes) (tr : F64 → F64 → IXY) (w : MvtWriter) (ps : List PropRec) :
    Geozero.feed (fproc sz tr).step w (propEvs ps)
      = .ok { w with properties := w.properties ++ ps.map fun p => (p.2.1, p.2.2.mvt) } := by
  induction ps generalizing w with
  | nil => simp [propEvs, Geozero.feed]
  | cons p ps ih =>
    have he : propEvs (p :: ps) = .prop p.1 p.2.1 p.2.2 :: propEvs ps := rfl
    rw [he, feed_cons]
    simp only [fproc]
    have := ih { w with properties := w.properties ++ [(p.2.1, p.2.2.mvt)] }
    simp only [fproc] at this
    rw [this]
    simp

theorem feed_geomEvs (sz : ElemSizes) (tr : F64 → F64 → IXY) (w : MvtWriter) (es : List Ev) :
    Geozero.feed (fproc sz tr).step w (es.map FEv.geom) = Geozero.feed (step sz tr) w es := by
  induction es generalizing w with
  | nil => rfl
  | cons e es ih =>
    simp only [List.map_cons, feed_cons]
    have he : (fproc sz tr).step w (.geom e) = step sz tr w e := rfl
    rw [he]
    cases step sz tr w e with
    | ok w' => exact ih w'
    | error x => rfl

theorem feed_propsPart (sz : ElemSizes) (tr : F64 → F64 → IXY) (w : MvtWriter) (f : Feat) :
    Geozero.feed (fproc sz tr).step w f.propsPart
      = .ok { w with properties := w.properties ++ (f.props.getD []).map fun p => (p.2.1, p.2.2.mvt) } := by
  unfold Feat.propsPart
  cases f.props with
  | none => simp [Geozero.feed]
  | some ps =>
    simp only [feed_cons]
    show Geozero.feed (fproc sz tr).step w (propEvs ps ++ [.propsEnd]) = _
    rw [feed_append, feed_props]
    rfl

/-- between features: no geometry in progress or waiting -/
def Rest (w : MvtWriter) : Prop := w.Idle ∧ w.geoms = [] ∧ w.collections = []

theorem feed_geomPart_empty (sz : ElemSizes) (tr : F64 → F64 → IXY) (w : MvtWriter) (f : Feat)
    (h : f.geom = none ∨ f.geom = some []) : Geozero.feed (fproc sz tr).step w f.geomPart = .ok w := by
  unfold Feat.geomPart
  rcases h with h | h <;> rw [h] <;> rfl

theorem feed_geomPart (sz : ElemSizes) (tr : F64 → F64 → IXY) (w : MvtWriter) (f : Feat) (g : Geom) (i : Nat)
    (r : MvtGeom) (hf : f.geom = some (g.events false i)) (hw : w.Rest) (hr : g.tile tr = some r) (hb : g.Budget sz)
    (hd : g.Drawable tr) :
    Geozero.feed (fproc sz tr).step w f.geomPart = .ok { w with geoms := [r] } := by
  unfold Feat.geomPart
  rw [hf]
  simp only [feed_cons]
  show Geozero.feed (fproc sz tr).step w ((g.events false i).map FEv.geom ++ [.geomEnd]) = _
  rw [feed_append, feed_geomEvs, (feed_geom sz tr g w r i hw.1 hr hb).1 hd]
  simp only [finish, hw.2.2, hw.2.1]
  rfl

theorem feed_feat (sz : ElemSizes) (tr : F64 → F64 → IXY) (w : MvtWriter) (f : Feat) (m : Option MvtFeature)
    (h : TileFeature sz tr f m) (i : Nat) (hw : w.Rest) :
    ∃ ps, Geozero.feed (fproc sz tr).step w (f.evs i)
      = .ok { w with properties := ps, features := w.features ++ m.toList } := by
  have hp0 : ∀ (w : MvtWriter), Geozero.feed (fproc sz tr).step w [.ftEnd i] = .ok w.featureEnd := fun _ => rfl
  have hw' : ({ w with properties := [] } : MvtWriter).Rest := hw
  have hrest : ∀ ps, ({ w with properties := ps } : MvtWriter).Rest := fun _ => hw
  unfold Feat.evs
  rw [feed_cons]
  show ∃ ps, Geozero.feed (fproc sz tr).step { w with properties := [] } _ = _
  rw [feed_append]
  cases h with
  | skip hg =>
    refine ⟨(f.props.getD []).map fun p => (p.2.1, p.2.2.mvt), ?_⟩
    have hparts : Geozero.feed (fproc sz tr).step { w with properties := [] }
        (if f.geomFirst then f.geomPart ++ f.propsPart else f.propsPart ++ f.geomPart)
        = .ok { w with properties := (f.props.getD []).map fun p => (p.2.1, p.2.2.mvt) } := by
      cases f.geomFirst
      · simp only [Bool.false_eq_true, if_false, feed_append, feed_propsPart, List.nil_append,
          feed_geomPart_empty sz tr _ f hg]
      · simp only [if_true, feed_append, feed_geomPart_empty sz tr _ f hg, feed_propsPart, List.nil_append]
    rw [hparts]
    simp only []
    rw [hp0]
    obtain ⟨_, h2, h3⟩ := hw
    simp [featureEnd, takeGeometry, h2]
  | keep g j r hg hr hb hd =>
    refine ⟨[], ?_⟩
    have hparts : Geozero.feed (fproc sz tr).step { w with properties := [] }
        (if f.geomFirst then f.geomPart ++ f.propsPart else f.propsPart ++ f.geomPart)
        = .ok { w with properties := (f.props.getD []).map (fun p => (p.2.1, p.2.2.mvt)), geoms := [r] } := by
      cases f.geomFirst
      · simp only [Bool.false_eq_true, if_false, feed_append, feed_propsPart, List.nil_append,
          feed_geomPart sz tr _ f g j r hg (hrest _) hr hb hd]
      · simp only [if_true, feed_append, feed_geomPart sz tr _ f g j r hg (hrest _) hr hb hd, feed_propsPart, List.nil_append]
    rw [hparts]
    simp only []
    rw [hp0]
    obtain ⟨_, h2, h3⟩ := hw
    cases w
    simp only at h2
    subst h2
    simp [featureEnd, takeGeometry]

theorem feed_feats (sz : ElemSizes) (tr : F64 → F64 → IXY) (fs : List Feat) (ms : List (Option MvtFeature))
    (h : TileFeatures sz tr fs ms) (w : MvtWriter) (i : Nat) (hw : w.Rest) :
    ∃ ps, Geozero.feed (fproc sz tr).step w (featEvs i fs)
      = .ok { w with properties := ps, features := w.features ++ ms.flatMap Option.toList } := by
  induction h generalizing w i with
  | nil => exact ⟨w.properties, by simp [featEvs, Geozero.feed]⟩
  | cons f m fs ms hf _ ih =>
    obtain ⟨ps, hps⟩ := feed_feat sz tr w f m hf i hw
    obtain ⟨qs, hqs⟩ := ih { w with properties := ps, features := w.features ++ m.toList } (i + 1) hw
    refine ⟨qs, ?_⟩
    simp only [featEvs, feed_append, hps]
    rw [hqs]
    simp

theorem agrees (sz : ElemSizes) (tr : F64 → F64 → IXY) : FProg.Agrees (fproc sz tr) {} (fun _ => True) :=
  ⟨fun _ _ => rfl, fun _ _ => rfl, fun _ _ _ => rfl, fun _ _ _ _ _ => trivial⟩

end MvtWriter

theorem noOk_mvtProcess (l : MvtLayer) : (mvtProcess l).NoOk := by
  unfold mvtProcess
  refine FProg.NoOk.bind (FProg.NoOk.call _) fun _ => FProg.NoOk.bind (FProg.NoOk.forIdx ?_ 0 _) fun _ => FProg.NoOk.call _
  intro i f
  refine FProg.NoOk.bind (FProg.NoOk.call _) fun _ => FProg.NoOk.bind (FProg.NoOk.call _) fun _ =>
    FProg.NoOk.bind (FProg.NoOk.forIdx ?_ 0 _) fun _ => FProg.NoOk.bind (FProg.NoOk.call _) fun _ =>
    FProg.NoOk.bind (FProg.NoOk.call _) fun _ => FProg.NoOk.bind (FProg.NoOk.lift _) fun _ =>
    FProg.NoOk.bind (FProg.NoOk.call _) fun _ => FProg.NoOk.call _
  intro j p
  unfold mvtProperty
  cases p.2.column with
  | none => trivial
  | some v => exact FProg.NoOk.call _

end Geozero
