import Verif.Spec.Wkt
import Verif.Lemmas.Prog
import Verif.Lemmas.GeoTypes

/- Helper lemmas about the WKT writer, printer, parser and reader. -/

namespace Geozero
open Spec Prog

namespace WktWriter

/-- no header is pending -/
def Calm (w : WktWriter) : Prop := w.header = w

def sepOf (i : Nat) : Text := if i > 0 then txt "," else []

/-- what a bracket prints -/
def body (b : Bool) (tag : Text) (items : List Text) : Text :=
  if b then tag ++ (if items = [] then txt " EMPTY" else parens items) else parens items

@[simp] theorem put_put (w : WktWriter) (a b : Text) : (w.put a).put b = w.put (a ++ b) := by simp [put]
@[simp] theorem put_nil (w : WktWriter) : w.put [] = w := by simp [put]

theorem comma_eq (w : WktWriter) (i : Nat) : w.comma i = w.put (sepOf i) := by
  unfold comma sepOf; split <;> simp

theorem calm_iff (w : WktWriter) : w.Calm ↔ (w.firstHeader && w.dialect == .ewkt) = false := by
  unfold Calm header
  constructor
  · intro h
    cases hc : (w.firstHeader && w.dialect == .ewkt) with
    | false => rfl
    | true =>
      exfalso
      simp only [hc, if_true] at h
      simp only [Bool.and_eq_true] at hc
      have := congrArg WktWriter.firstHeader h
      rw [hc.1] at this
      split at this
      · simp at this
      · split at this <;> simp at this
  · intro h; simp [h]

theorem calm_header (w : WktWriter) : w.header.Calm := by
  rw [calm_iff]
  unfold header
  split
  · split
    · simp
    · split <;> simp
  · simp_all

theorem Calm.put {w : WktWriter} (h : w.Calm) (t : Text) : (w.put t).Calm := by
  rw [calm_iff] at *; simpa [WktWriter.put] using h

theorem Calm.sizes {w : WktWriter} (h : w.Calm) (s : List Nat) : ({ w with sizes := s } : WktWriter).Calm := by
  rw [calm_iff] at *; simpa using h

theorem geomBegin_eq (w : WktWriter) (tag : Text) (b : Bool) (n idx : Nat) :
    w.geomBegin tag b n idx = { w.header.put (sepOf idx ++ (if b then tag else []) ++
      (if n = 0 then (if b then txt " " else []) ++ txt "EMPTY" else txt "(")) with sizes := n :: w.header.sizes } := by
  unfold geomBegin
  simp only [comma_eq]
  cases b <;> by_cases hn : n = 0 <;> simp [hn, put]

theorem feed_items {α : Type} (num : F64 → Text) (f : Nat → α → List Ev) (t : α → Text) (xs : List α)
    (hx : ∀ x ∈ xs, ∀ i (w : WktWriter), w.Calm → feed (step num) w (f i x) = .ok (w.put (sepOf i ++ t x)))
    (w : WktWriter) (hw : w.Calm) (i : Nat) :
    feed (step num) w (evList f i xs) = .ok (w.put ((if xs = [] then [] else sepOf i) ++ commaSep (xs.map t))) := by
  induction xs generalizing i w with
  | nil => simp [evList, commaSep, feed]
  | cons x xs ih =>
    simp only [evList, feed_append, hx x (by simp) i w hw]
    rw [ih (fun y hy => hx y (by simp [hy])) _ (hw.put _)]
    cases xs with
    | nil => simp [commaSep]
    | cons y ys => simp [commaSep, sepOf, txt, List.append_assoc]

theorem feed_bracket {α : Type} (num : F64 → Text) (k : GKind) (tagged b : Bool) (f : Nat → α → List Ev)
    (t : α → Text) (xs : List α)
    (hb : ∀ (w : WktWriter) idx, step num w (.gbegin k tagged xs.length idx) = .ok (w.geomBegin (tag k) b xs.length idx))
    (hx : ∀ x ∈ xs, ∀ i (w : WktWriter), w.Calm → feed (step num) w (f i x) = .ok (w.put (sepOf i ++ t x)))
    (w : WktWriter) (idx : Nat) :
    feed (step num) w (bracket k tagged idx f xs)
      = .ok (w.header.put (sepOf idx ++ body b (tag k) (xs.map t))) := by
  simp only [bracket, feed, hb]
  rw [feed_append, feed_items num f t xs hx _ (by rw [geomBegin_eq]; exact ((calm_header w).put _).sizes _)]
  rw [geomBegin_eq]
  cases xs with
  | nil => cases b <;> simp [feed, step, geomEnd, put, commaSep, body, parens, txt]
  | cons x xs =>
    cases b <;> simp [feed, step, geomEnd, put, body, parens, sepOf, List.append_assoc]

theorem all_ord (multi : Bool) (c : Coord) :
    (∀ v ∈ ordinates multi c, F64.isNaN v = true) ↔
      (if multi then (c.x.isNaN && c.y.isNaN && (c.z.map F64.isNaN).getD true && (c.m.map F64.isNaN).getD true) = true
        else (c.x.isNaN && c.y.isNaN) = true) := by
  obtain ⟨x, y, z, m⟩ := c
  cases multi <;> cases z <;> cases m <;> simp [ordinates, and_assoc]

theorem feed_coordEvs (num : F64 → Text) (multi : Bool) (c : Coord) (i : Nat) (w : WktWriter) :
    feed (step num) w (coordEvs multi i c) = .ok (w.put (sepOf i ++ wktCoord num multi c)) := by
  unfold wktCoord
  simp only [all_ord]
  cases multi
  · simp only [coordEvs, coordEv, feed, step, xy, comma_eq]
    cases hn : (c.x.isNaN && c.y.isNaN) <;> simp_all [ordinates, blankSep, txt]
  · simp only [coordEvs, coordEv, feed, step, coordinate, comma_eq, if_true]
    split
    · simp
    · obtain ⟨x, y, z, m⟩ := c
      cases z <;> cases m <;> simp [ordinates, blankSep, txt, optNum]

theorem feed_line_untagged (num : F64 → Text) (multi : Bool) (cs : List Coord) (i : Nat) (w : WktWriter) (hw : w.Calm) :
    feed (step num) w (lineEvs multi false i cs) = .ok (w.put (sepOf i ++ wktLine num multi cs)) := by
  have := feed_bracket num .lineString false false (coordEvs multi) (wktCoord num multi) cs
    (fun _ _ => rfl) (fun c _ i w _ => feed_coordEvs num multi c i w) w i
  rw [hw] at this
  simpa [lineEvs, body, wktLine] using this

theorem feed_poly_untagged (num : F64 → Text) (multi : Bool) (rs : List (List Coord)) (i : Nat) (w : WktWriter)
    (hw : w.Calm) :
    feed (step num) w (polyEvs multi false i rs) = .ok (w.put (sepOf i ++ wktPoly num multi rs)) := by
  have := feed_bracket num .polygon false false (lineEvs multi false) (wktLine num multi) rs
    (fun _ _ => rfl) (fun c _ i w hw => feed_line_untagged num multi c i w hw) w i
  rw [hw] at this
  simpa [polyEvs, body, wktPoly] using this

theorem feed_tri_untagged (num : F64 → Text) (multi : Bool) (rs : List (List Coord)) (i : Nat) (w : WktWriter)
    (hw : w.Calm) :
    feed (step num) w (triEvs multi false i rs) = .ok (w.put (sepOf i ++ wktPoly num multi rs)) := by
  have := feed_bracket num .triangle false false (lineEvs multi false) (wktLine num multi) rs
    (fun _ _ => rfl) (fun c _ i w hw => feed_line_untagged num multi c i w hw) w i
  rw [hw] at this
  simpa [triEvs, body, wktPoly] using this

theorem feed_seg (num : F64 → Text) (multi : Bool) (s : Seg) (i : Nat) (w : WktWriter) (hw : w.Calm) :
    feed (step num) w (segEvs multi i s) = .ok (w.put (sepOf i ++ wktSeg num multi s)) := by
  cases s with
  | line cs => exact feed_line_untagged num multi cs i w hw
  | circ cs =>
    have := feed_bracket num .circularString true true (coordEvs multi) (wktCoord num multi) cs
      (fun _ _ => rfl) (fun c _ i w _ => feed_coordEvs num multi c i w) w i
    rw [hw] at this
    simpa [segEvs, circEvs, body, wktSeg, Spec.tagged, tag] using this

theorem feed_curve (num : F64 → Text) (multi : Bool) (s : Curve) (i : Nat) (w : WktWriter) (hw : w.Calm) :
    feed (step num) w (curveEvs multi i s) = .ok (w.put (sepOf i ++ wktCurve num multi s)) := by
  cases s with
  | seg s => exact feed_seg num multi s i w hw
  | compound ss =>
    have := feed_bracket num .compoundCurve true true (segEvs multi) (wktSeg num multi) ss
      (fun _ _ => rfl) (fun c _ i w hw => feed_seg num multi c i w hw) w i
    rw [hw] at this
    simpa [curveEvs, body, wktCurve, Spec.tagged, tag] using this

theorem feed_surface (num : F64 → Text) (multi : Bool) (s : Surface) (i : Nat) (w : WktWriter) (hw : w.Calm) :
    feed (step num) w (surfaceEvs multi i s) = .ok (w.put (sepOf i ++ wktSurface num multi s)) := by
  cases s with
  | polygon rs => exact feed_poly_untagged num multi rs i w hw
  | curvePolygon cs =>
    have := feed_bracket num .curvePolygon true true (curveEvs multi) (wktCurve num multi) cs
      (fun _ _ => rfl) (fun c _ i w hw => feed_curve num multi c i w hw) w i
    rw [hw] at this
    simpa [surfaceEvs, body, wktSurface, Spec.tagged, tag] using this

theorem wktList_eq (num : F64 → Text) (multi : Bool) (gs : List Geom) : wktList num multi gs = gs.map (wkt num multi) := by
  induction gs with
  | nil => simp [wktList]
  | cons g gs ih => simp [wktList, ih]

theorem feed_geom (num : F64 → Text) (multi : Bool) (g : Geom) : ∀ (i : Nat) (w : WktWriter),
    feed (step num) w (g.events multi i) = .ok (w.header.put (sepOf i ++ wkt num multi g)) := by
  have hl := feed_line_untagged num multi
  have hp := feed_poly_untagged num multi
  have ht := feed_tri_untagged num multi
  have hs := feed_seg num multi
  have hc := feed_curve num multi
  have hf := feed_surface num multi
  have hk := feed_coordEvs num multi
  induction g using Geom.ind with
  | emptyPoint =>
    intro i w
    simp [Geom.events, feed, step, geomBegin_eq, geomEnd, put, wkt, txt]
  | point c =>
    intro i w
    simpa [bracket, evList, coordEvs, Geom.events, body, wkt, Spec.tagged, tag] using feed_bracket num .point true true
      (coordEvs multi) (wktCoord num multi) [c] (fun _ _ => rfl) (fun c _ i w _ => hk c i w) w i
  | multiPoint cs =>
    intro i w
    simpa [Geom.events, body, wkt, Spec.tagged, tag] using feed_bracket num .multiPoint true true (coordEvs multi)
      (wktCoord num multi) cs (fun _ _ => rfl) (fun c _ i w _ => hk c i w) w i
  | lineString cs =>
    intro i w
    simpa [Geom.events, lineEvs, body, wkt, Spec.tagged, tag] using feed_bracket num .lineString true true (coordEvs multi)
      (wktCoord num multi) cs (fun _ _ => rfl) (fun c _ i w _ => hk c i w) w i
  | circularString cs =>
    intro i w
    simpa [Geom.events, circEvs, body, wkt, Spec.tagged, tag] using feed_bracket num .circularString true true (coordEvs multi)
      (wktCoord num multi) cs (fun _ _ => rfl) (fun c _ i w _ => hk c i w) w i
  | compoundCurve ss =>
    intro i w
    simpa [Geom.events, body, wkt, Spec.tagged, tag] using feed_bracket num .compoundCurve true true (segEvs multi)
      (wktSeg num multi) ss (fun _ _ => rfl) (fun c _ i w hw => hs c i w hw) w i
  | multiLineString ls =>
    intro i w
    simpa [Geom.events, body, wkt, Spec.tagged, tag] using feed_bracket num .multiLineString true true (lineEvs multi false)
      (wktLine num multi) ls (fun _ _ => rfl) (fun c _ i w hw => hl c i w hw) w i
  | multiCurve cs =>
    intro i w
    simpa [Geom.events, body, wkt, Spec.tagged, tag] using feed_bracket num .multiCurve true true (curveEvs multi)
      (wktCurve num multi) cs (fun _ _ => rfl) (fun c _ i w hw => hc c i w hw) w i
  | polygon rs =>
    intro i w
    simpa [Geom.events, polyEvs, body, wkt, Spec.tagged, tag] using feed_bracket num .polygon true true (lineEvs multi false)
      (wktLine num multi) rs (fun _ _ => rfl) (fun c _ i w hw => hl c i w hw) w i
  | triangle rs =>
    intro i w
    simpa [Geom.events, triEvs, body, wkt, Spec.tagged, tag] using feed_bracket num .triangle true true (lineEvs multi false)
      (wktLine num multi) rs (fun _ _ => rfl) (fun c _ i w hw => hl c i w hw) w i
  | curvePolygon cs =>
    intro i w
    simpa [Geom.events, body, wkt, Spec.tagged, tag] using feed_bracket num .curvePolygon true true (curveEvs multi)
      (wktCurve num multi) cs (fun _ _ => rfl) (fun c _ i w hw => hc c i w hw) w i
  | multiPolygon ps =>
    intro i w
    simpa [Geom.events, body, wkt, Spec.tagged, tag] using feed_bracket num .multiPolygon true true (polyEvs multi false)
      (wktPoly num multi) ps (fun _ _ => rfl) (fun c _ i w hw => hp c i w hw) w i
  | polyhedralSurface ps =>
    intro i w
    simpa [Geom.events, body, wkt, Spec.tagged, tag] using feed_bracket num .polyhedralSurface true true (polyEvs multi false)
      (wktPoly num multi) ps (fun _ _ => rfl) (fun c _ i w hw => hp c i w hw) w i
  | tin ps =>
    intro i w
    simpa [Geom.events, body, wkt, Spec.tagged, tag] using feed_bracket num .tin true true (triEvs multi false)
      (wktPoly num multi) ps (fun _ _ => rfl) (fun c _ i w hw => ht c i w hw) w i
  | multiSurface ss =>
    intro i w
    simpa [Geom.events, body, wkt, Spec.tagged, tag] using feed_bracket num .multiSurface true true (surfaceEvs multi)
      (wktSurface num multi) ss (fun _ _ => rfl) (fun c _ i w hw => hf c i w hw) w i
  | collection gs ih =>
    intro i w
    rw [events_collection]
    simpa [body, wkt, Spec.tagged, tag, wktList_eq] using feed_bracket num .collection true true (Geom.events multi)
      (wkt num multi) gs (fun _ _ => rfl) (fun g hg i w hw => by rw [ih g hg i w, hw]) w i

end WktWriter
end Geozero
