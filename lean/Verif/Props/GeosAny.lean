import Verif.Spec.GeosParts
import Verif.Props.Geos
import Verif.Props.Reuse
import Verif.Props.SlCompressed

/-
C53, C45, C82: converting any geometry to GEOS, of whatever kind and nesting.
-/

namespace Geozero
open Prog

namespace GeosWriter

/-- a call that leaves the geometry made so far and the SRIDs as they are -/
def quiet : Ev → Bool
  | .srid _ => false
  | .gend .lineString tagged _ => !tagged
  | .gend .polygon tagged _ => !tagged
  | .gend .point _ _ => false
  | .gend .multiPoint _ _ => false
  | .gend .multiLineString _ _ => false
  | .gend .multiPolygon _ _ => false
  | _ => true

/-- the same geometry and SRIDs -/
def Same (w w' : GeosWriter) : Prop := w'.geom = w.geom ∧ w'.geomSrid = w.geomSrid ∧ w'.srid = w.srid

private theorem quiet_step (lib : GeosLib) {w w' : GeosWriter} {e : Ev} (he : quiet e = true) (h : step lib w e = .ok w') : Same w w' := by
  cases e with
  | srid s => cases he
  | xy x y i =>
    simp only [step, xy] at h
    split at h
    · cases h
    · split at h
      · cases h; exact ⟨rfl, rfl, rfl⟩
      · cases h
  | coord => cases h; exact ⟨rfl, rfl, rfl⟩
  | emptyPoint i => cases h
  | gbegin k tagged size i =>
    simp only [step, Except.ok.injEq] at h
    subst h
    cases k <;> try exact ⟨rfl, rfl, rfl⟩
    cases tagged <;> exact ⟨rfl, rfl, rfl⟩
  | gend k tagged i =>
    cases k with
    | lineString =>
      have ht : tagged = false := by cases tagged with
        | false => rfl
        | true => cases he
      subst ht
      cases h; exact ⟨rfl, rfl, rfl⟩
    | polygon =>
      have ht : tagged = false := by cases tagged with
        | false => rfl
        | true => cases he
      subst ht
      simp only [step, gend, polygonEnd] at h
      split at h
      · cases h
      · split at h
        · simp only [Bool.false_eq_true, if_false, Except.ok.injEq] at h; subst h; exact ⟨rfl, rfl, rfl⟩
        · cases h
    | point => cases he
    | multiPoint => cases he
    | multiLineString => cases he
    | multiPolygon => cases he
    | _ => cases h; exact ⟨rfl, rfl, rfl⟩

private theorem quiet_feed (lib : GeosLib) (evs : List Ev) (he : evs.all quiet = true) (w w' : GeosWriter)
    (h : feed (step lib) w evs = .ok w') : Same w w' := by
  induction evs generalizing w with
  | nil => cases h; exact ⟨rfl, rfl, rfl⟩
  | cons e evs ih =>
    simp only [List.all_cons, Bool.and_eq_true] at he
    rw [feed_cons] at h
    cases hs : step lib w e with
    | error x => rw [hs] at h; cases h
    | ok w1 =>
      rw [hs] at h
      obtain ⟨a, b, c⟩ := quiet_step lib he.1 hs
      obtain ⟨a', b', c'⟩ := ih he.2 w1 h
      exact ⟨a'.trans a, b'.trans b, c'.trans c⟩

private theorem quiet_evList {α : Type} (f : Nat → α → List Ev) (xs : List α) (h : ∀ i, ∀ x ∈ xs, (f i x).all quiet = true) (i : Nat) :
    (evList f i xs).all quiet = true := by
  induction xs generalizing i with
  | nil => rfl
  | cons x xs ih =>
    simp only [evList, List.all_append, Bool.and_eq_true]
    exact ⟨h i x (by simp), ih (fun i y hy => h i y (by simp [hy])) (i + 1)⟩

private theorem quiet_bracket {α : Type} (k : GKind) (tagged : Bool) (idx : Nat) (f : Nat → α → List Ev) (xs : List α)
    (hk : quiet (.gend k tagged idx) = true) (h : ∀ i, ∀ x ∈ xs, (f i x).all quiet = true) :
    (bracket k tagged idx f xs).all quiet = true := by
  simp only [bracket, List.all_cons, List.all_append, Bool.and_eq_true, List.all_nil, and_true]
  exact ⟨rfl, quiet_evList f xs h 0, hk⟩

private theorem quiet_coords (i : Nat) (c : Coord) : (coordEvs false i c).all quiet = true := rfl

private theorem quiet_line (i : Nat) (cs : List Coord) : (lineEvs false false i cs).all quiet = true :=
  quiet_bracket _ _ _ _ _ rfl fun i c _ => quiet_coords i c

private theorem quiet_seg (i : Nat) (s : Seg) : (segEvs false i s).all quiet = true := by
  cases s with
  | line cs => exact quiet_line i cs
  | circ cs => exact quiet_bracket _ _ _ _ _ rfl fun i c _ => quiet_coords i c

private theorem quiet_curve (i : Nat) (c : Curve) : (curveEvs false i c).all quiet = true := by
  cases c with
  | seg s => exact quiet_seg i s
  | compound ss => exact quiet_bracket _ _ _ _ _ rfl fun i s _ => quiet_seg i s

private theorem quiet_poly (i : Nat) (rs : List (List Coord)) : (polyEvs false false i rs).all quiet = true :=
  quiet_bracket _ _ _ _ _ rfl fun i r _ => quiet_line i r

private theorem quiet_tri (tagged : Bool) (i : Nat) (rs : List (List Coord)) : (triEvs false tagged i rs).all quiet = true :=
  quiet_bracket _ _ _ _ _ rfl fun i r _ => quiet_line i r

private theorem quiet_surface (i : Nat) (s : Surface) : (surfaceEvs false i s).all quiet = true := by
  cases s with
  | polygon rs => exact quiet_poly i rs
  | curvePolygon rs => exact quiet_bracket _ _ _ _ _ rfl fun i c _ => quiet_curve i c

private theorem short_of_coords {g : Geom} (h : g.coords.length < 2 ^ 32) : g.Short := by
  have key : ∀ (ls : List (List Coord)) (l : List Coord), l ∈ ls → l.length ≤ ls.flatten.length := fun ls l hl =>
    (List.sublist_flatten_of_mem hl).length_le
  cases g with
  | multiLineString ls => exact fun l hl => Nat.lt_of_le_of_lt (key ls l hl) (by simpa [Geom.coords] using h)
  | polygon ls => exact fun l hl => Nat.lt_of_le_of_lt (key ls l hl) (by simpa [Geom.coords] using h)
  | multiPolygon ps =>
    intro rs hr l hl
    have h2 : (ps.flatMap List.flatten).length < 2 ^ 32 := by simpa only [Geom.coords] using h
    have h3 : rs.flatten.length ≤ (ps.flatMap List.flatten).length := by
      rw [List.flatMap_def]
      exact key _ _ (List.mem_map_of_mem hr)
    exact Nat.lt_of_le_of_lt (Nat.le_trans (key rs l hl) h3) h2
  | multiPoint cs => simpa [Geom.coords, Geom.Short] using h
  | lineString cs => simpa [Geom.coords, Geom.Short] using h
  | _ => trivial

private theorem flatMap_le {α : Type} {f : α → List Coord} {xs : List α} {x : α} (hx : x ∈ xs) :
    (f x).length ≤ (xs.flatMap f).length := by
  rw [List.flatMap_def]
  exact (List.sublist_flatten_of_mem (List.mem_map_of_mem hx)).length_le

/-- `Same`, but the geometry replaced by `t` -/
def Now (t : Option GeosGeom) (w w' : GeosWriter) : Prop :=
  w'.geom = t.getD w.geom ∧ w'.geomSrid = (if t.isSome then w.srid.getD 0 else w.geomSrid) ∧ w'.srid = w.srid

private theorem Now.same {w w' : GeosWriter} (h : Same w w') : Now none w w' := by simpa [Now, Same] using h

private theorem Now.trans {a b : Option GeosGeom} {w w1 w2 : GeosWriter} (h1 : Now a w w1) (h2 : Now b w1 w2) :
    Now (b.or a) w w2 := by
  obtain ⟨x1, y1, z1⟩ := h1
  obtain ⟨x2, y2, z2⟩ := h2
  cases b with
  | none =>
    refine ⟨by simp [x2, x1], ?_, z2.trans z1⟩
    rw [y2]
    cases a <;> exact y1
  | some t => simp [Now, x2, y2, z2, z1]

/-- all basic parts have GEOS geometries if the library takes the geometry -/
private theorem basic_geos (lib : GeosLib) (g : Geom) (hb : g.Basic) : lib.Takes g ↔ (∃ t, g.geos = some t) ∧ lib.accepts g := by
  cases g with
  | polygon rs =>
    cases rs with
    | nil => simp [GeosLib.Takes, Geom.geos]
    | cons r rs => simp [GeosLib.Takes, Geom.geos, GeosLib.accepts]
  | multiPolygon ps =>
    simp only [GeosLib.Takes, Geom.geos, GeosLib.accepts]
    constructor
    · intro h
      rw [if_pos (by simp only [List.all_eq_true]; intro rs hr; simpa using (h rs hr).1)]
      exact ⟨⟨_, rfl⟩, fun rs hr => (h rs hr).2⟩
    · rintro ⟨⟨t, ht⟩, h⟩ rs hr
      split at ht
      · rename_i hall
        exact ⟨by simpa using List.all_eq_true.mp hall rs hr, h rs hr⟩
      · cases ht
  | point => simp [GeosLib.Takes, Geom.geos, GeosLib.accepts]
  | multiPoint => simp [GeosLib.Takes, Geom.geos, GeosLib.accepts]
  | lineString => simp [GeosLib.Takes, Geom.geos, GeosLib.accepts]
  | multiLineString => simp [GeosLib.Takes, Geom.geos, GeosLib.accepts]
  | _ => cases hb

private theorem basic_last (g : Geom) (hb : g.Basic) : g.geosLast = g.geos := by
  cases g <;> first | cases hb; done | simp [Geom.geosLast, Geom.basicParts]

private theorem basic_value (lib : GeosLib) (g : Geom) (hb : g.Basic) (hs : g.coords.length < 2 ^ 32) (i : Nat) (w w' : GeosWriter)
    (h : feed (step lib) w (g.events false i) = .ok w') : lib.Takes g ∧ Now g.geosLast w w' := by
  by_cases ht : lib.Takes g
  · refine ⟨ht, ?_⟩
    obtain ⟨⟨t, hg⟩, ha⟩ := (basic_geos lib g hb).mp ht
    obtain ⟨w1, h1, h2, h3, h4⟩ := feed_geom lib g t hg ha (short_of_coords hs) i w
    rw [h1, Except.ok.injEq] at h
    subst h
    rw [basic_last g hb, hg]
    exact ⟨h2, h3, h4⟩
  · obtain ⟨e, h1, -⟩ := feed_geom_err lib g hb (by
      by_cases hn : g.geos = none
      · exact .inl hn
      · obtain ⟨t, hg⟩ := Option.ne_none_iff_exists'.mp hn
        exact .inr fun ha => ht ((basic_geos lib g hb).mpr ⟨⟨t, hg⟩, ha⟩)) (short_of_coords hs) i w
    rw [h1] at h
    cases h

private theorem feed_evList_mem {α : Type} (lib : GeosLib) (f : Nat → α → List Ev) (xs : List α) (i : Nat) (w w' : GeosWriter)
    (h : feed (step lib) w (evList f i xs) = .ok w') (x : α) (hx : x ∈ xs) : ∃ j w1 w2, feed (step lib) w1 (f j x) = .ok w2 := by
  induction xs generalizing i w with
  | nil => cases hx
  | cons y ys ih =>
    simp only [evList, feed_append] at h
    cases hy : feed (step lib) w (f i y) with
    | error e => rw [hy] at h; cases h
    | ok w1 =>
      rw [hy] at h
      rcases List.mem_cons.mp hx with rfl | hx
      · exact ⟨i, w, w1, hy⟩
      · exact ih (i + 1) w1 h hx

private theorem feed_evList_ok {α : Type} (lib : GeosLib) (f : Nat → α → List Ev) (xs : List α)
    (h : ∀ x ∈ xs, ∀ j w, ∃ w', feed (step lib) w (f j x) = .ok w') (i : Nat) (w : GeosWriter) :
    ∃ w', feed (step lib) w (evList f i xs) = .ok w' := by
  induction xs generalizing i w with
  | nil => exact ⟨w, rfl⟩
  | cons y ys ih =>
    obtain ⟨w1, h1⟩ := h y (by simp) i w
    obtain ⟨w2, h2⟩ := ih (fun x hx => h x (by simp [hx])) (i + 1) w1
    exact ⟨w2, by simp only [evList, feed_append, h1]; exact h2⟩

/-- a kind whose begin and end the writer ignores -/
def ignored : GKind → Bool
  | .circularString | .compoundCurve | .multiCurve | .curvePolygon | .triangle | .polyhedralSurface | .tin | .multiSurface
  | .collection => true
  | _ => false

private theorem feed_ignored {α : Type} (lib : GeosLib) (k : GKind) (hk : ignored k = true) (tagged : Bool) (idx : Nat)
    (f : Nat → α → List Ev) (xs : List α) (w : GeosWriter) :
    feed (step lib) w (bracket k tagged idx f xs) = feed (step lib) w (evList f 0 xs) := by
  simp only [bracket, feed_cons, feed_append, step]
  have h1 : gbegin lib w k tagged xs.length = w := by cases k <;> first | cases hk; done | rfl
  rw [h1]
  cases feed (step lib) w (evList f 0 xs) with
  | error e => rfl
  | ok w1 =>
    have h2 : gend lib w1 k tagged = .ok w1 := by cases k <;> first | cases hk; done | rfl
    simp only [feed, step, h2]

private theorem feed_poly_takes (lib : GeosLib) (rs : List (List Coord)) (hs : ∀ l ∈ rs, l.length < 2 ^ 32) (i : Nat) (w w' : GeosWriter)
    (h : feed (step lib) w (polyEvs false false i rs) = .ok w') : rs ≠ [] ∧ lib.acceptsPoly rs := by
  rw [feed_polyBody lib rs hs i w false] at h
  by_cases hc : rs ≠ [] ∧ lib.acceptsPoly rs
  · exact hc
  · obtain ⟨e, h1, -⟩ := polygonEnd_err lib w rs (by
      by_cases hr : rs = []
      · exact .inl hr
      · exact .inr fun ha => hc ⟨hr, ha⟩) false
    rw [h1] at h
    cases h

private theorem feed_poly_ok (lib : GeosLib) (rs : List (List Coord)) (hs : ∀ l ∈ rs, l.length < 2 ^ 32)
    (h : rs ≠ [] ∧ lib.acceptsPoly rs) (i : Nat) (w : GeosWriter) : ∃ w', feed (step lib) w (polyEvs false false i rs) = .ok w' :=
  ⟨_, by rw [feed_polyBody lib rs hs i w false, polygonEnd_ok lib w rs h.1 h.2 false]⟩

private theorem flatten_le {ls : List (List Coord)} {l : List Coord} (hl : l ∈ ls) : l.length ≤ ls.flatten.length :=
  (List.sublist_flatten_of_mem hl).length_le

private theorem feed_line_ok (lib : GeosLib) (cs : List Coord) (h : cs.length < 2 ^ 32) (i : Nat) (w : GeosWriter) :
    ∃ w', feed (step lib) w (lineEvs false false i cs) = .ok w' := ⟨_, feed_lineU lib w i cs h⟩

private theorem feed_rings_ok (lib : GeosLib) (rs : List (List Coord)) (h : rs.flatten.length < 2 ^ 32) (tagged : Bool) (i : Nat)
    (w : GeosWriter) : ∃ w', feed (step lib) w (triEvs false tagged i rs) = .ok w' := by
  simp only [triEvs, feed_ignored lib .triangle rfl]
  exact feed_evList_ok lib _ rs (fun r hr => feed_line_ok lib r (Nat.lt_of_le_of_lt (flatten_le hr) h)) 0 w

private theorem feed_seg_ok (lib : GeosLib) (s : Seg) (ha : s.isArc = false) (h : s.coords.length < 2 ^ 32) (i : Nat) (w : GeosWriter) :
    ∃ w', feed (step lib) w (segEvs false i s) = .ok w' := by
  cases s with
  | line cs => exact feed_line_ok lib cs h i w
  | circ cs =>
    simp only [Seg.isArc, Bool.not_eq_false', List.isEmpty_iff] at ha
    subst ha
    simp only [segEvs, circEvs, feed_ignored lib .circularString rfl]
    exact ⟨w, rfl⟩

private theorem feed_curve_ok (lib : GeosLib) (c : Curve) (ha : c.hasArc = false) (h : c.coords.length < 2 ^ 32) (i : Nat) (w : GeosWriter) :
    ∃ w', feed (step lib) w (curveEvs false i c) = .ok w' := by
  cases c with
  | seg s => exact feed_seg_ok lib s ha h i w
  | compound ss =>
    simp only [Curve.hasArc, List.any_eq_false, Bool.not_eq_true] at ha
    simp only [curveEvs, feed_ignored lib .compoundCurve rfl]
    exact feed_evList_ok lib _ ss (fun s hs => feed_seg_ok lib s (ha s hs) (Nat.lt_of_le_of_lt (flatMap_le hs) h)) 0 w

private theorem feed_curves_ok (lib : GeosLib) (cs : List Curve) (ha : cs.any Curve.hasArc = false)
    (h : (cs.flatMap Curve.coords).length < 2 ^ 32) (i : Nat) (w : GeosWriter) :
    ∃ w', feed (step lib) w (evList (curveEvs false) i cs) = .ok w' := by
  simp only [List.any_eq_false, Bool.not_eq_true] at ha
  exact feed_evList_ok lib _ cs (fun c hc => feed_curve_ok lib c (ha c hc) (Nat.lt_of_le_of_lt (flatMap_le hc) h)) i w

mutual
private theorem parts_geos (lib : GeosLib) (g : Geom) (h : lib.Takes g) : ∀ p ∈ g.basicParts, ∃ t, p.geos = some t := by
  have basicly : g.Basic → g.basicParts = [g] → ∀ p ∈ g.basicParts, ∃ t, p.geos = some t := by
    intro hb he p hp
    rw [he, List.mem_singleton] at hp
    subst hp
    exact ((basic_geos lib _ hb).mp h).1
  cases g with
  | point c => exact basicly trivial (by simp [Geom.basicParts])
  | multiPoint c => exact basicly trivial (by simp [Geom.basicParts])
  | lineString c => exact basicly trivial (by simp [Geom.basicParts])
  | multiLineString c => exact basicly trivial (by simp [Geom.basicParts])
  | polygon c => exact basicly trivial (by simp [Geom.basicParts])
  | multiPolygon c => exact basicly trivial (by simp [Geom.basicParts])
  | collection gs =>
    simp only [GeosLib.Takes] at h
    simp only [Geom.basicParts]
    exact partsList_geos lib gs h
  | _ => simp [Geom.basicParts]

private theorem partsList_geos (lib : GeosLib) (gs : List Geom) (h : lib.TakesList gs) :
    ∀ p ∈ Geom.basicPartsList gs, ∃ t, p.geos = some t := by
  cases gs with
  | nil => simp [Geom.basicPartsList]
  | cons g gs =>
    simp only [GeosLib.TakesList] at h
    intro p hp
    simp only [Geom.basicPartsList, List.mem_append] at hp
    rcases hp with hp | hp
    · exact parts_geos lib g h.1 p hp
    · exact partsList_geos lib gs h.2 p hp
end

private theorem last_append (a b : List Geom) (hb : ∀ p ∈ b, ∃ t, p.geos = some t) :
    (a ++ b).getLast?.bind Geom.geos = (b.getLast?.bind Geom.geos).or (a.getLast?.bind Geom.geos) := by
  rw [List.getLast?_append]
  cases hl : b.getLast? with
  | none => simp
  | some p =>
    obtain ⟨t, ht⟩ := hb p (List.mem_of_getLast? hl)
    simp [ht]

mutual
private theorem feed_value (lib : GeosLib) (g : Geom) (hs : g.coords.length < 2 ^ 32) (i : Nat) (w w' : GeosWriter)
    (h : feed (step lib) w (g.events false i) = .ok w') : lib.Takes g ∧ g.hasEmptyPoint = false ∧ Now g.geosLast w w' := by
  have quietly : (g.events false i).all quiet = true → g.geosLast = none → Now g.geosLast w w' := by
    intro hq hl
    rw [hl]
    exact Now.same (quiet_feed lib _ hq w w' h)
  have basicly : g.Basic → g.hasEmptyPoint = false → lib.Takes g ∧ g.hasEmptyPoint = false ∧ Now g.geosLast w w' := fun hb he =>
    ⟨(basic_value lib g hb hs i w w' h).1, he, (basic_value lib g hb hs i w w' h).2⟩
  cases g with
  | emptyPoint => simp [Geom.events, feed, step] at h
  | point c => exact basicly trivial (by simp [Geom.hasEmptyPoint])
  | multiPoint c => exact basicly trivial (by simp [Geom.hasEmptyPoint])
  | lineString c => exact basicly trivial (by simp [Geom.hasEmptyPoint])
  | multiLineString c => exact basicly trivial (by simp [Geom.hasEmptyPoint])
  | polygon c => exact basicly trivial (by simp [Geom.hasEmptyPoint])
  | multiPolygon c => exact basicly trivial (by simp [Geom.hasEmptyPoint])
  | circularString cs =>
    refine ⟨by simp [GeosLib.Takes], by simp [Geom.hasEmptyPoint], quietly ?_ (by simp [Geom.geosLast, Geom.basicParts])⟩
    simp only [Geom.events]
    exact quiet_bracket _ _ _ _ _ rfl fun i c _ => quiet_coords i c
  | compoundCurve ss =>
    refine ⟨by simp [GeosLib.Takes], by simp [Geom.hasEmptyPoint], quietly ?_ (by simp [Geom.geosLast, Geom.basicParts])⟩
    simp only [Geom.events]
    exact quiet_bracket _ _ _ _ _ rfl fun i c _ => quiet_seg i c
  | multiCurve cs =>
    refine ⟨by simp [GeosLib.Takes], by simp [Geom.hasEmptyPoint], quietly ?_ (by simp [Geom.geosLast, Geom.basicParts])⟩
    simp only [Geom.events]
    exact quiet_bracket _ _ _ _ _ rfl fun i c _ => quiet_curve i c
  | curvePolygon cs =>
    refine ⟨by simp [GeosLib.Takes], by simp [Geom.hasEmptyPoint], quietly ?_ (by simp [Geom.geosLast, Geom.basicParts])⟩
    simp only [Geom.events]
    exact quiet_bracket _ _ _ _ _ rfl fun i c _ => quiet_curve i c
  | triangle rs =>
    refine ⟨by simp [GeosLib.Takes], by simp [Geom.hasEmptyPoint], quietly ?_ (by simp [Geom.geosLast, Geom.basicParts])⟩
    simp only [Geom.events]
    exact quiet_tri true i rs
  | tin ts =>
    refine ⟨by simp [GeosLib.Takes], by simp [Geom.hasEmptyPoint], quietly ?_ (by simp [Geom.geosLast, Geom.basicParts])⟩
    simp only [Geom.events]
    exact quiet_bracket _ _ _ _ _ rfl fun i c _ => quiet_tri false i c
  | polyhedralSurface ps =>
    refine ⟨?_, by simp [Geom.hasEmptyPoint], quietly ?_ (by simp [Geom.geosLast, Geom.basicParts])⟩
    · simp only [GeosLib.Takes]
      intro rs hr
      simp only [Geom.events, feed_ignored lib .polyhedralSurface rfl] at h
      obtain ⟨j, w1, w2, h1⟩ := feed_evList_mem lib _ ps 0 w w' h rs hr
      simp only [Geom.coords] at hs
      exact feed_poly_takes lib rs (fun l hl => Nat.lt_of_le_of_lt (Nat.le_trans (flatten_le hl) (flatMap_le hr)) hs) j w1 w2 h1
    · simp only [Geom.events]
      exact quiet_bracket _ _ _ _ _ rfl fun i c _ => quiet_poly i c
  | multiSurface ss =>
    refine ⟨?_, by simp [Geom.hasEmptyPoint], quietly ?_ (by simp [Geom.geosLast, Geom.basicParts])⟩
    · simp only [GeosLib.Takes]
      intro rs hr
      obtain ⟨s, hss, hr⟩ := List.mem_flatMap.mp hr
      cases s with
      | curvePolygon rings => cases hr
      | polygon rings =>
        simp only [Surface.polygons, List.mem_singleton] at hr
        subst hr
        simp only [Geom.events, feed_ignored lib .multiSurface rfl] at h
        obtain ⟨j, w1, w2, h1⟩ := feed_evList_mem lib _ ss 0 w w' h _ hss
        simp only [Geom.coords] at hs
        have h2 : rs.flatten.length ≤ (ss.flatMap Surface.coords).length := flatMap_le (f := Surface.coords) hss
        exact feed_poly_takes lib rs (fun l hl => Nat.lt_of_le_of_lt (Nat.le_trans (flatten_le hl) h2) hs) j w1 w2 h1
    · simp only [Geom.events]
      exact quiet_bracket _ _ _ _ _ rfl fun i c _ => quiet_surface i c
  | collection gs =>
    rw [events_collection, feed_ignored lib .collection rfl, ← eventsList_eq] at h
    have hs' : (Geom.coordsList gs).length < 2 ^ 32 := by simpa only [Geom.coords] using hs
    have := feed_values lib gs hs' 0 w w' h
    simp only [GeosLib.Takes, Geom.hasEmptyPoint, Geom.geosLast, Geom.basicParts]
    exact this

private theorem feed_values (lib : GeosLib) (gs : List Geom) (hs : (Geom.coordsList gs).length < 2 ^ 32) (i : Nat) (w w' : GeosWriter)
    (h : feed (step lib) w (eventsList false i gs) = .ok w') :
    lib.TakesList gs ∧ Geom.hasEmptyPointList gs = false ∧ Now ((Geom.basicPartsList gs).getLast?.bind Geom.geos) w w' := by
  cases gs with
  | nil =>
    simp only [eventsList, feed, Except.ok.injEq] at h
    subst h
    exact ⟨by simp [GeosLib.TakesList], by simp [Geom.hasEmptyPointList], by simp [Geom.basicPartsList, Now]⟩
  | cons g gs =>
    simp only [eventsList, feed_append] at h
    simp only [Geom.coordsList, List.length_append] at hs
    cases h1 : feed (step lib) w (g.events false i) with
    | error e => rw [h1] at h; cases h
    | ok w1 =>
      rw [h1] at h
      obtain ⟨a1, b1, c1⟩ := feed_value lib g (by omega) i w w1 h1
      obtain ⟨a2, b2, c2⟩ := feed_values lib gs (by omega) (i + 1) w1 w' h
      refine ⟨by simp only [GeosLib.TakesList]; exact ⟨a1, a2⟩, by simp [Geom.hasEmptyPointList, b1, b2], ?_⟩
      simp only [Geom.basicPartsList, last_append _ _ (partsList_geos lib gs a2)]
      exact c1.trans c2
end

mutual
private theorem feed_any_ok (lib : GeosLib) (g : Geom) (hs : g.coords.length < 2 ^ 32) (ht : lib.Takes g) (he : g.hasEmptyPoint = false)
    (ha : g.hasArc = false) (i : Nat) (w : GeosWriter) : ∃ w', feed (step lib) w (g.events false i) = .ok w' := by
  have basicly : g.Basic → ∃ w', feed (step lib) w (g.events false i) = .ok w' := by
    intro hb
    obtain ⟨⟨t, hg⟩, hacc⟩ := (basic_geos lib g hb).mp ht
    obtain ⟨w', h, -⟩ := feed_geom lib g t hg hacc (short_of_coords hs) i w
    exact ⟨w', h⟩
  cases g with
  | emptyPoint => simp [Geom.hasEmptyPoint] at he
  | point c => exact basicly trivial
  | multiPoint c => exact basicly trivial
  | lineString c => exact basicly trivial
  | multiLineString c => exact basicly trivial
  | polygon c => exact basicly trivial
  | multiPolygon c => exact basicly trivial
  | circularString cs =>
    simp only [Geom.hasArc] at ha
    simp only [Geom.events]
    exact feed_seg_ok lib (.circ cs) ha (by show cs.length < _; simpa [Geom.coords] using hs) i w
  | compoundCurve ss =>
    simp only [Geom.hasArc] at ha
    simp only [Geom.coords] at hs
    simp only [Geom.events]
    exact feed_curve_ok lib (.compound ss) ha hs i w
  | multiCurve cs =>
    simp only [Geom.hasArc] at ha
    simp only [Geom.coords] at hs
    simp only [Geom.events, feed_ignored lib .multiCurve rfl]
    exact feed_curves_ok lib cs ha hs 0 w
  | curvePolygon cs =>
    simp only [Geom.hasArc] at ha
    simp only [Geom.coords] at hs
    simp only [Geom.events, feed_ignored lib .curvePolygon rfl]
    exact feed_curves_ok lib cs ha hs 0 w
  | triangle rs =>
    simp only [Geom.coords] at hs
    simp only [Geom.events]
    exact feed_rings_ok lib rs hs true i w
  | tin ts =>
    simp only [Geom.coords] at hs
    simp only [Geom.events, feed_ignored lib .tin rfl]
    exact feed_evList_ok lib _ ts (fun t h => feed_rings_ok lib t (Nat.lt_of_le_of_lt (flatMap_le h) hs) false) 0 w
  | polyhedralSurface ps =>
    simp only [Geom.coords] at hs
    simp only [GeosLib.Takes] at ht
    simp only [Geom.events, feed_ignored lib .polyhedralSurface rfl]
    exact feed_evList_ok lib _ ps (fun rs hr => feed_poly_ok lib rs
      (fun l hl => Nat.lt_of_le_of_lt (Nat.le_trans (flatten_le hl) (flatMap_le hr)) hs) (ht rs hr)) 0 w
  | multiSurface ss =>
    simp only [Geom.coords] at hs
    simp only [GeosLib.Takes] at ht
    simp only [Geom.hasArc, List.any_eq_false, Bool.not_eq_true] at ha
    simp only [Geom.events, feed_ignored lib .multiSurface rfl]
    refine feed_evList_ok lib _ ss (fun s hss => ?_) 0 w
    have h2 : s.coords.length < 2 ^ 32 := Nat.lt_of_le_of_lt (flatMap_le hss) hs
    cases s with
    | polygon rs =>
      exact feed_poly_ok lib rs (fun l hl => Nat.lt_of_le_of_lt (flatten_le hl) h2)
        (ht rs (List.mem_flatMap.mpr ⟨_, hss, by simp [Surface.polygons]⟩))
    | curvePolygon cs =>
      intro j w
      simp only [surfaceEvs, feed_ignored lib .curvePolygon rfl]
      exact feed_curves_ok lib cs (ha _ hss) h2 0 w
  | collection gs =>
    simp only [GeosLib.Takes] at ht
    simp only [Geom.hasEmptyPoint] at he
    simp only [Geom.hasArc] at ha
    simp only [Geom.coords] at hs
    rw [events_collection, feed_ignored lib .collection rfl, ← eventsList_eq]
    exact feed_anys_ok lib gs hs ht he ha 0 w

private theorem feed_anys_ok (lib : GeosLib) (gs : List Geom) (hs : (Geom.coordsList gs).length < 2 ^ 32) (ht : lib.TakesList gs)
    (he : Geom.hasEmptyPointList gs = false) (ha : Geom.hasArcList gs = false) (i : Nat) (w : GeosWriter) :
    ∃ w', feed (step lib) w (eventsList false i gs) = .ok w' := by
  cases gs with
  | nil => exact ⟨w, rfl⟩
  | cons g gs =>
    simp only [Geom.coordsList, List.length_append] at hs
    simp only [GeosLib.TakesList] at ht
    simp only [Geom.hasEmptyPointList, Bool.or_eq_false_iff] at he
    simp only [Geom.hasArcList, Bool.or_eq_false_iff] at ha
    obtain ⟨w1, h1⟩ := feed_any_ok lib g (by omega) ht.1 he.1 ha.1 i w
    obtain ⟨w2, h2⟩ := feed_anys_ok lib gs (by omega) ht.2 he.2 ha.2 (i + 1) w1
    exact ⟨w2, by simp only [eventsList, feed_append, h1]; exact h2⟩
end

/-- what becomes of a writer in any state when it is given any geometry -/
private theorem feed_any (lib : GeosLib) (g : Geom) (hs : g.coords.length < 2 ^ 32) (i : Nat) (w : GeosWriter) :
    (∃ w', feed (step lib) w (g.events false i) = .ok w' ∧ lib.Takes g ∧ g.hasEmptyPoint = false ∧ Now g.geosLast w w') ∨
    ((∃ e, feed (step lib) w (g.events false i) = .error e) ∧ ¬ (lib.Takes g ∧ g.hasEmptyPoint = false ∧ g.hasArc = false)) := by
  cases h : feed (step lib) w (g.events false i) with
  | ok w' => exact .inl ⟨w', rfl, feed_value lib g hs i w w' h⟩
  | error e =>
    refine .inr ⟨⟨e, rfl⟩, ?_⟩
    rintro ⟨h1, h2, h3⟩
    obtain ⟨w', hw⟩ := feed_any_ok lib g hs h1 h2 h3 i w
    rw [h] at hw
    cases hw

end GeosWriter
/-- What is left of a geometry that was delivered with the SRID `s`: the last of its basic parts with this SRID, or, if there is none, the
geometry a new writer starts with, POINT EMPTY without an SRID. -/
def Geom.geosResult (g : Geom) (s : Option Int) : GeosGeom × Int :=
  match g.geosLast with
  | some t => (t, s.getD 0)
  | none => (.point [], 0)

/-- C53 (and C45) for any geometry, of whatever kind and nesting.  A source delivers it, with or without an SRID.  If there is a result, the
library takes the lines and polygons of the geometry, it has no empty point, and the result is the last of its basic parts.  If the library
takes them and there are no empty points and no circular strings with coordinates, there is a result. -/
theorem C53_any_geometry (lib : GeosLib) (src : Prog Unit) (bs rest : List Byte) (s : Option Int) (g : Geom)
    (hsrc : run false src bs = (.srid s :: g.events false 0, .ok ((), rest)) ∨
      s = none ∧ run false src bs = (g.events false 0, .ok ((), rest)))
    (hs : g.coords.length < 2 ^ 32) :
    (∀ r, toGeos lib src bs = .ok r → lib.Takes g ∧ g.hasEmptyPoint = false ∧ r = g.geosResult s) ∧
    (lib.Takes g → g.hasEmptyPoint = false → g.hasArc = false → toGeos lib src bs = .ok (g.geosResult s)) := by
  have hfeed : feed (GeosWriter.proc lib).step {} (run false src bs).1 =
      feed (GeosWriter.step lib) { srid := s } (g.events false 0) := by
    rcases hsrc with h | ⟨rfl, h⟩
    · rw [h]; rfl
    · rw [h]; rfl
  have hres : ∀ w', feed (GeosWriter.step lib) { srid := s } (g.events false 0) = .ok w' → toGeos lib src bs = .ok (w'.geom, w'.geomSrid) := by
    intro w' h
    unfold toGeos
    rw [interp_of_feed_ok (GeosWriter.proc lib) false (fun _ => rfl) src {} w' bs (hfeed.trans h)]
    rcases hsrc with h' | ⟨rfl, h'⟩ <;> rw [h']
  have herr : ∀ e, feed (GeosWriter.step lib) { srid := s } (g.events false 0) = .error e → toGeos lib src bs = .error e := by
    intro e h
    have := interp_of_feed_error (GeosWriter.proc lib) false (fun _ => rfl) src {} bs e (hfeed.trans h)
    unfold toGeos
    revert this
    rcases interp (GeosWriter.proc lib) src {} bs with ⟨w, evs, r⟩
    rintro rfl
    rfl
  have hval : ∀ w', GeosWriter.Now g.geosLast { srid := s } w' → (w'.geom, w'.geomSrid) = g.geosResult s := by
    rintro w' ⟨h1, h2, -⟩
    rw [h1, h2, Geom.geosResult]
    cases g.geosLast <;> rfl
  rcases GeosWriter.feed_any lib g hs 0 { srid := s } with ⟨w', h1, h2, h3, h4⟩ | ⟨⟨e, h1⟩, h2⟩
  · refine ⟨fun r hr => ?_, fun _ _ _ => by rw [hres w' h1, hval w' h4]⟩
    rw [hres w' h1, Except.ok.injEq] at hr
    exact ⟨h2, h3, by rw [← hr, hval w' h4]⟩
  · refine ⟨fun r hr => ?_, fun a b c => absurd ⟨a, b, c⟩ h2⟩
    rw [herr e h1] at hr
    cases hr

-- a collection of a triangle, a point and a collection of a line string and a compound curve: the line string is left
example :
    let g := Geom.collection [.triangle [exTriangle], .point ⟨1#64, 2#64, none, none⟩,
      .collection [.lineString exTriangle, .compoundCurve [.line exTriangle]]]
    exLib.Takes g ∧ g.hasEmptyPoint = false ∧ g.hasArc = false ∧ g.geosResult (some 4326) = (.lineString (exTriangle.map Coord.gpos), 4326) := by
  refine ⟨?_, ?_, ?_, ?_⟩ <;>
    simp [GeosLib.Takes, GeosLib.TakesList, GeosLib.accepts, exLib, exTriangle, Geom.hasEmptyPoint, Geom.hasEmptyPointList, Geom.hasArc,
      Geom.hasArcList, Seg.isArc, Geom.geosResult, Geom.geosLast, Geom.basicParts, Geom.basicPartsList, Geom.geos]

/-- C53, C45: a geometry that has no basic part but is taken — a triangle, a surface, a curve, an empty collection — becomes POINT EMPTY. -/
theorem C53_nothing_left_false (lib : GeosLib) (src : Prog Unit) (bs rest : List Byte) (s : Option Int) (g : Geom)
    (hsrc : run false src bs = (.srid s :: g.events false 0, .ok ((), rest))) (hs : g.coords.length < 2 ^ 32)
    (ht : lib.Takes g) (he : g.hasEmptyPoint = false) (ha : g.hasArc = false) (hb : g.basicParts = []) :
    toGeos lib src bs = .ok (.point [], 0) := by
  rw [(C53_any_geometry lib src bs rest s g (.inl hsrc) hs).2 ht he ha]
  simp [Geom.geosResult, Geom.geosLast, hb]

example : exLib.Takes (.polyhedralSurface [[exTriangle]]) ∧ (Geom.polyhedralSurface [[exTriangle]]).basicParts = [] ∧
    (Geom.polyhedralSurface [[exTriangle]]).hasArc = false := by
  refine ⟨?_, ?_, ?_⟩ <;> simp [GeosLib.Takes, GeosLib.acceptsPoly, exLib, exTriangle, Coord.gpos, Geom.basicParts, Geom.hasArc]

/-- C53: a circular string with coordinates is an error. -/
theorem C53_arc_rejected (lib : GeosLib) (src : Prog Unit) (bs : List Byte) (s : Option Int) (c : Coord) (cs : List Coord)
    (r : Except Err (Unit × List Byte)) (hsrc : run false src bs = (.srid s :: (Geom.circularString (c :: cs)).events false 0, r)) :
    toGeos lib src bs = .error GeosWriter.missing := by
  have := interp_of_feed_error (GeosWriter.proc lib) false (fun _ => rfl) src {} bs GeosWriter.missing (by
    rw [hsrc]
    simp [Geom.events, circEvs, bracket, evList, coordEvs, coordEv, feed, GeosWriter.proc, GeosWriter.step, GeosWriter.gbegin, GeosWriter.xy])
  unfold toGeos
  revert this
  rcases interp (GeosWriter.proc lib) src {} bs with ⟨w, evs, r⟩
  rintro rfl
  rfl

/-! ## C82: a `GeosWriter` used again -/

/-- Whatever the writer was used for before, also if that failed (`w` is any state): a source that delivers its SRID and a geometry of any
kind and nesting with at least one basic part and without circular strings gives a result exactly when a new writer does, and the same one.
Missing: geometries without basic part (`C82_geos_stale_false`), circular strings (`C82_geos_arc_false`), sources without SRID
(`C82_geos_srid_false`). -/
theorem C82_geos_any_partial (lib : GeosLib) (w : GeosWriter) (u : Use) (rest : List Byte) (s : Option Int) (g : Geom)
    (hu : run false u.1 u.2 = (.srid s :: g.events false 0, .ok ((), rest))) (hs : g.coords.length < 2 ^ 32)
    (hb : g.basicParts ≠ []) (ha : g.hasArc = false) (r : GeosGeom × Int) :
    geosAgain lib w u = .ok r ↔ toGeos lib u.1 u.2 = .ok r := by
  have key : ∀ w, geosAgain lib w u = .ok r ↔ lib.Takes g ∧ g.hasEmptyPoint = false ∧ r = g.geosResult s := by
    intro w
    have hfeed : feed (GeosWriter.proc lib).step w (run false u.1 u.2).1 =
        feed (GeosWriter.step lib) { w with srid := s } (g.events false 0) := by rw [hu]; rfl
    rcases GeosWriter.feed_any lib g hs 0 { w with srid := s } with ⟨w', h1, h2, h3, h4, h5, -⟩ | ⟨⟨e, h1⟩, h2⟩
    · have hr : geosAgain lib w u = .ok (w'.geom, w'.geomSrid) := by
        unfold geosAgain
        rw [interp_of_feed_ok (GeosWriter.proc lib) false (fun _ => rfl) u.1 w w' u.2 (hfeed.trans h1), hu]
      have hv : (w'.geom, w'.geomSrid) = g.geosResult s := by
        have : ∃ t, g.geosLast = some t := by
          obtain ⟨p, hp⟩ := Option.ne_none_iff_exists'.mp (mt List.getLast?_eq_none_iff.mp hb)
          obtain ⟨t, ht⟩ := GeosWriter.parts_geos lib g h2 p (List.mem_of_getLast? hp)
          exact ⟨t, by simp [Geom.geosLast, hp, ht]⟩
        obtain ⟨t, ht⟩ := this
        rw [h4, h5, Geom.geosResult, ht]
        rfl
      rw [hr, hv, Except.ok.injEq]
      exact ⟨fun h => ⟨h2, h3, h.symm⟩, fun h => h.2.2.symm⟩
    · have hr : geosAgain lib w u = .error e := by
        have := interp_of_feed_error (GeosWriter.proc lib) false (fun _ => rfl) u.1 w u.2 e (hfeed.trans h1)
        unfold geosAgain
        revert this
        rcases interp (GeosWriter.proc lib) u.1 w u.2 with ⟨w, evs, r⟩
        rintro rfl
        rfl
      rw [hr]
      exact ⟨fun h => (by cases h), fun h => absurd ⟨h.1, h.2.1, ha⟩ h2⟩
  exact (key w).trans (key {}).symm

/-- C82 fails for geometries without basic part: an empty collection after a point gives the point again, and a new writer POINT EMPTY. -/
theorem C82_geos_stale_false (lib : GeosLib) :
    geosAgain lib ((GeosWriter.proc lib).after {} [(geoProcessGeom (.point ⟨1#64, 2#64⟩), [])]) (geoProcessGeom (.collection []), []) =
      .ok (.point [⟨1#64, 2#64, none⟩], 0) ∧
    toGeos lib (geoProcessGeom (.collection [])) [] = .ok (.point [], 0) := by
  constructor <;> rfl

/-- C82 fails for circular strings: after a triangle a circular string is taken, by a new writer it is refused. -/
theorem C82_geos_arc_false (lib : GeosLib) (fo : FOps) :
    let arc : Use := (processWkbTypeGeom fo .wkb, [1, 8, 0, 0, 0, 1, 0, 0, 0] ++ List.replicate 16 0)
    let triangle : Use := (processWkbTypeGeom fo .wkb, [1, 17, 0, 0, 0, 1, 0, 0, 0, 1, 0, 0, 0] ++ List.replicate 16 0)
    geosAgain lib ((GeosWriter.proc lib).after {} [triangle]) arc = .ok (.point [], 0) ∧ toGeos lib arc.1 arc.2 = .error GeosWriter.missing := by
  constructor <;> rfl

/-! ## from blobs -/

/-- C53 from a blob of any dialect that is not compressed, for geometries of any kind and nesting: if there is a result it is the last basic
part with the SRID of the blob; and there is one if the library takes the lines and polygons and there are no empty points and arcs. -/
theorem C53_any_blob (lib : GeosLib) (fo : FOps) (dl : WkbDialect) (z m : Bool) (srid : Option Int) (g : Geom) (blob : List Byte)
    (h : Spec.Holds dl { z, m } srid g blob) (hl : g.levels ≤ 128) (hs : g.coords.length < 2 ^ 32) :
    (∀ r, geosFromWkb lib fo dl blob = .ok r → lib.Takes g ∧ g.hasEmptyPoint = false ∧ r = g.geosResult srid) ∧
    (lib.Takes g → g.hasEmptyPoint = false → g.hasArc = false → geosFromWkb lib fo dl blob = .ok (g.geosResult srid)) :=
  C53_any_geometry lib _ blob _ srid g (.inl ((holds_read fo dl z m srid g blob h hl).1 false)) hs

end Geozero
