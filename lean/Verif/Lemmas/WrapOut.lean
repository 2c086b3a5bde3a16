import Verif.Spec.WrapOut
import Verif.Lemmas.Wrap

/-
The writer of geo-types looks at positions only to see whether a ring is closed.
-/

namespace Geozero
open Spec

variable (f : F64 → F64 → F64 × F64)

theorem GeoGeom.mapXYList_eq (gs : List GeoGeom) : GeoGeom.mapXYList f gs = gs.map (GeoGeom.mapXY f) := by
  induction gs with
  | nil => rfl
  | cons g gs ih => simp [GeoGeom.mapXYList, ih]

namespace GeoWriter

/-- a writer with transformed positions -/
def mapXY (w : GeoWriter) : GeoWriter :=
  { geoms := w.geoms.map (GeoGeom.mapXY f)
    collections := w.collections.map (List.map (GeoGeom.mapXY f))
    polygons := w.polygons.map (List.map (GPoly.mapXY f))
    lineStrings := w.lineStrings.map (List.map (List.map (XY.mapXY f)))
    coords := w.coords.map (List.map (XY.mapXY f)) }

/-- the positions of unfinished geometries are among `ps` -/
structure Within (ps : List XY) (w : GeoWriter) : Prop where
  coords : ∀ cs, w.coords = some cs → ∀ c ∈ cs, c ∈ ps
  lines : ∀ ls, w.lineStrings = some ls → ∀ l ∈ ls, ∀ c ∈ l, c ∈ ps

end GeoWriter

variable {f}

theorem closeRing_mapXY {ps : List XY} (h : KeepsEquality f ps) (cs : List XY) (hc : ∀ c ∈ cs, c ∈ ps) :
    closeRing (cs.map (XY.mapXY f)) = (closeRing cs).map (XY.mapXY f) := by
  cases cs with
  | nil => rfl
  | cons c cs =>
    have hl : ((c :: cs).map (XY.mapXY f)).getLast?.getD (c.mapXY f) = ((c :: cs).getLast?.getD c).mapXY f := by
      rw [List.getLast?_map]
      cases (c :: cs).getLast? <;> rfl
    have hm : (c :: cs).getLast?.getD c ∈ ps := by
      cases hg : (c :: cs).getLast? with
      | none => exact hc c (by simp)
      | some d => exact hc d (List.mem_of_getLast? hg)
    have hf := h _ hm c (hc c (by simp))
    unfold closeRing
    simp only [List.map_cons] at hl ⊢
    rw [hl, hf]
    split <;> simp

theorem makePolygon_mapXY {ps : List XY} (h : KeepsEquality f ps) (ls : List (List XY)) (hl : ∀ l ∈ ls, ∀ c ∈ l, c ∈ ps) :
    GeoWriter.makePolygon (ls.map (List.map (XY.mapXY f))) = (GeoWriter.makePolygon ls).mapXY f := by
  cases ls with
  | nil => rfl
  | cons e is =>
    simp only [List.map_cons, GeoWriter.makePolygon, GPoly.new, GPoly.mapXY, closeRing_mapXY h e (hl e (by simp)), List.map_map]
    congr 1
    refine List.map_congr_left fun i hi => ?_
    exact closeRing_mapXY h i (hl i (by simp [hi]))

namespace GeoWriter

theorem finish_mapXY (w : GeoWriter) (g : GeoGeom) : (w.mapXY f).finish (g.mapXY f) = (w.finish g).mapXY f := by
  obtain ⟨gs, cs, p, l, c⟩ := w
  cases cs <;> simp [mapXY, finish]

theorem finish_coords (w : GeoWriter) (g : GeoGeom) : (w.finish g).coords = w.coords := by
  obtain ⟨gs, cs, p, l, c⟩ := w
  cases cs <;> rfl
theorem finish_lines (w : GeoWriter) (g : GeoGeom) : (w.finish g).lineStrings = w.lineStrings := by
  obtain ⟨gs, cs, p, l, c⟩ := w
  cases cs <;> rfl

theorem step_mapXY {ps : List XY} (h : KeepsEquality f ps) (sz : ElemSizes) (w : GeoWriter) (hw : w.Within ps) (e : Ev) :
    step sz (w.mapXY f) (e.mapXY f) = (step sz w e).map (mapXY f) := by
  cases e with
  | srid s => rfl
  | coord => rfl
  | emptyPoint => rfl
  | xy x y i =>
    simp only [Ev.mapXY, step, mapXY]
    cases w.coords with
    | none => rfl
    | some cs => simp [Except.map, mapXY, XY.mapXY]
  | gbegin k t size i =>
    simp only [Ev.mapXY, step]
    cases k <;> simp only [gbegin, debugAssert, boundedVec, mapXY, Option.isNone_map] <;>
      first
      | rfl
      | (split
         · first
           | rfl
           | (cases validateCapacity _ size <;> rfl)
         · rfl)
      | (cases validateCapacity _ size <;> rfl)
  | gend k t i =>
    simp only [Ev.mapXY, step]
    cases k with
    | point =>
      simp only [gend, mapXY]
      cases w.coords with
      | none => rfl
      | some cs =>
        simp only [Option.map, debugAssert, List.length_map]
        split
        · cases cs with
          | nil => rfl
          | cons c cs =>
            simp only [List.map_cons, Except.map]
            exact congrArg Except.ok (finish_mapXY { w with coords := none } (.point c))
        · rfl
    | multiPoint =>
      simp only [gend, mapXY]
      cases w.coords with
      | none => rfl
      | some cs => exact congrArg Except.ok (finish_mapXY { w with coords := none } (.multiPoint cs))
    | lineString =>
      simp only [gend, mapXY]
      cases w.coords with
      | none => rfl
      | some cs =>
        simp only [Option.map]
        split
        · exact congrArg Except.ok (finish_mapXY { w with coords := none } (.lineString cs))
        · cases w.lineStrings with
          | none => rfl
          | some ls =>
            simp only [Except.map, mapXY, List.map_append, List.map_cons, List.map_nil, Option.map]
    | multiLineString =>
      simp only [gend, mapXY]
      cases w.lineStrings with
      | none => rfl
      | some ls => exact congrArg Except.ok (finish_mapXY { w with lineStrings := none } (.multiLineString ls))
    | polygon =>
      simp only [gend, mapXY]
      cases hl : w.lineStrings with
      | none => rfl
      | some ls =>
        simp only [Option.map, makePolygon_mapXY h ls (hw.lines ls hl)]
        split
        · exact congrArg Except.ok (finish_mapXY { w with lineStrings := none } (.polygon (makePolygon ls)))
        · cases w.polygons with
          | none => rfl
          | some ps =>
            simp only [Except.map, mapXY, List.map_append, List.map_cons, List.map_nil, Option.map]
    | multiPolygon =>
      simp only [gend, mapXY]
      cases w.polygons with
      | none => rfl
      | some ps => exact congrArg Except.ok (finish_mapXY { w with polygons := none } (.multiPolygon ps))
    | collection =>
      simp only [gend, mapXY]
      cases w.collections with
      | nil => rfl
      | cons c cs =>
        have := finish_mapXY (f := f) { w with collections := cs } (.collection c)
        simp only [GeoGeom.mapXY, GeoGeom.mapXYList_eq] at this
        exact congrArg Except.ok this
    | _ => rfl

theorem Within.noCoords {ps : List XY} {w : GeoWriter} (hw : w.Within ps) : Within ps { w with coords := none } :=
  ⟨fun _ h => (nomatch h), hw.lines⟩
theorem Within.noLines {ps : List XY} {w : GeoWriter} (hw : w.Within ps) : Within ps { w with lineStrings := none } :=
  ⟨hw.coords, fun _ h => nomatch h⟩
theorem Within.newCoords {ps : List XY} {w : GeoWriter} (hw : w.Within ps) : Within ps { w with coords := some [] } :=
  ⟨fun _ h => by cases h; simp, hw.lines⟩
theorem Within.newLines {ps : List XY} {w : GeoWriter} (hw : w.Within ps) : Within ps { w with lineStrings := some [] } :=
  ⟨hw.coords, fun _ h => by cases h; simp⟩
theorem Within.finish {ps : List XY} {w : GeoWriter} (hw : w.Within ps) (g : GeoGeom) : Within ps (w.finish g) :=
  ⟨by rw [finish_coords]; exact hw.coords, by rw [finish_lines]; exact hw.lines⟩

theorem step_within {ps : List XY} (sz : ElemSizes) (w w' : GeoWriter) (hw : w.Within ps) (e : Ev)
    (he : ∀ p ∈ deliveredXY [e], p ∈ ps) (h : step sz w e = .ok w') : w'.Within ps := by
  cases e with
  | srid s => cases h; exact hw
  | coord => cases h; exact hw
  | emptyPoint => cases h
  | xy x y i =>
    simp only [step] at h
    cases hc : w.coords with
    | none => rw [hc] at h; cases h
    | some cs =>
      rw [hc] at h
      cases h
      refine ⟨fun cs' hcs c hm => ?_, hw.lines⟩
      cases hcs
      rcases List.mem_append.1 hm with hm | hm
      · exact hw.coords cs hc c hm
      · exact he c hm
  | gbegin k t size i =>
    simp only [step] at h
    cases k <;> simp only [gbegin, debugAssert, boundedVec] at h <;>
      first
      | (cases h; exact hw)
      | (split at h
         · first
           | (cases h; exact hw.newCoords)
           | (cases hv : validateCapacity _ size with
              | error x => rw [hv] at h; cases h
              | ok u =>
                rw [hv] at h; cases h
                first
                | exact hw.newCoords
                | exact hw.newLines
                | exact ⟨hw.coords, hw.lines⟩)
         · cases h)
      | (cases hv : validateCapacity _ size with
         | error x => rw [hv] at h; cases h
         | ok u => rw [hv] at h; cases h; exact ⟨hw.coords, hw.lines⟩)
  | gend k t i =>
    simp only [step] at h
    cases k with
    | point =>
      simp only [gend, debugAssert] at h
      cases hc : w.coords with
      | none => rw [hc] at h; cases h
      | some cs =>
        rw [hc] at h
        simp only at h
        split at h
        · cases cs with
          | nil => cases h
          | cons c cs => cases h; exact hw.noCoords.finish _
        · cases h
    | multiPoint =>
      simp only [gend] at h
      cases hc : w.coords with
      | none => rw [hc] at h; cases h
      | some cs => rw [hc] at h; cases h; exact hw.noCoords.finish _
    | lineString =>
      simp only [gend] at h
      cases hc : w.coords with
      | none => rw [hc] at h; cases h
      | some cs =>
        rw [hc] at h
        simp only at h
        split at h
        · cases h; exact hw.noCoords.finish _
        · cases hl : w.lineStrings with
          | none => rw [hl] at h; cases h
          | some ls =>
            rw [hl] at h
            cases h
            refine ⟨fun _ h => (nomatch h), fun ls' hls l hm => ?_⟩
            cases hls
            rcases List.mem_append.1 hm with hm | hm
            · exact hw.lines ls hl l hm
            · cases List.mem_singleton.1 hm
              exact hw.coords _ hc
    | multiLineString =>
      simp only [gend] at h
      cases hl : w.lineStrings with
      | none => rw [hl] at h; cases h
      | some ls => rw [hl] at h; cases h; exact hw.noLines.finish _
    | polygon =>
      simp only [gend] at h
      cases hl : w.lineStrings with
      | none => rw [hl] at h; cases h
      | some ls =>
        rw [hl] at h
        simp only at h
        split at h
        · cases h; exact hw.noLines.finish _
        · cases hp : w.polygons with
          | none => rw [hp] at h; cases h
          | some qs => rw [hp] at h; cases h; exact ⟨hw.coords, fun _ h => nomatch h⟩
    | multiPolygon =>
      simp only [gend] at h
      cases hp : w.polygons with
      | none => rw [hp] at h; cases h
      | some qs =>
        rw [hp] at h; cases h
        exact Within.finish (w := { w with polygons := none }) ⟨hw.coords, hw.lines⟩ _
    | collection =>
      simp only [gend] at h
      cases hp : w.collections with
      | nil => rw [hp] at h; cases h
      | cons c cs =>
        rw [hp] at h; cases h
        exact Within.finish (w := { w with collections := cs }) ⟨hw.coords, hw.lines⟩ _
    | _ => cases h; exact hw

theorem deliveredXY_cons (e : Ev) (es : List Ev) : deliveredXY (e :: es) = deliveredXY [e] ++ deliveredXY es := by
  cases e <;> rfl

theorem feedPart_mapXY {ps : List XY} (h : KeepsEquality f ps) (sz : ElemSizes) (es : List Ev) (w : GeoWriter) (hw : w.Within ps)
    (he : ∀ p ∈ deliveredXY es, p ∈ ps) :
    feedPart (step sz) (w.mapXY f) (es.map (Ev.mapXY f)) = ((feedPart (step sz) w es).1.mapXY f,
      (feedPart (step sz) w es).2.1.map (Ev.mapXY f), (feedPart (step sz) w es).2.2) := by
  induction es generalizing w with
  | nil => rfl
  | cons e es ih =>
    rw [deliveredXY_cons] at he
    simp only [List.map_cons, feedPart, step_mapXY h sz w hw e]
    cases hs : step sz w e with
    | error x => rfl
    | ok w' =>
      simp only [Except.map]
      rw [ih w' (step_within sz w w' hw e (fun p hp => he p (by simp [hp])) hs) fun p hp => he p (by simp [hp])]
      rfl

theorem takeGeometry_mapXY (w : GeoWriter) : (w.mapXY f).takeGeometry.1 = w.takeGeometry.1.map (GeoGeom.mapXY f) := by
  obtain ⟨gs, cs, p, l, c⟩ := w
  rcases gs with _ | ⟨g, _ | ⟨g', gs⟩⟩
  · rfl
  · rfl
  · simp [takeGeometry, mapXY, GeoGeom.mapXY, GeoGeom.mapXYList_eq]

end GeoWriter

theorem interp_geoWriter_mapXY (sz : ElemSizes) (src : Prog Unit) (bs : List Byte)
    (h : KeepsEquality f (deliveredXY (Prog.run false src bs).1)) :
    (Prog.interp (wrapGeom f (GeoWriter.proc sz)) src {} bs).1 = (Prog.interp (GeoWriter.proc sz) src {} bs).1.mapXY f ∧
    (Prog.interp (wrapGeom f (GeoWriter.proc sz)) src {} bs).2.2 = (Prog.interp (GeoWriter.proc sz) src {} bs).2.2 := by
  have hw := feedPart_wrap f (GeoWriter.proc sz) {} (Prog.run false src bs).1
  have hm := GeoWriter.feedPart_mapXY h sz (Prog.run false src bs).1 {} ⟨fun _ h => (nomatch h), fun _ h => (nomatch h)⟩ fun _ hp => hp
  have he : feedPart (GeoWriter.proc sz).step {} ((Prog.run false src bs).1.map (Ev.mapXY f)) =
      feedPart (GeoWriter.step sz) (GeoWriter.mapXY f {}) ((Prog.run false src bs).1.map (Ev.mapXY f)) := rfl
  rw [hw, hm] at he
  rw [interp_feedPart (wrapGeom f (GeoWriter.proc sz)) false (fun _ => rfl) src {} bs,
    interp_feedPart (GeoWriter.proc sz) false (fun _ => rfl) src {} bs]
  have h1 := congrArg Prod.fst he
  have h2 := congrArg (fun r => r.2.2) he
  simp only at h1 h2
  refine ⟨h1, ?_⟩
  simp only [h2]
  rfl

theorem toGeoWrapped_eq (sz : ElemSizes) (src : Prog Unit) (bs : List Byte)
    (h : KeepsEquality f (deliveredXY (Prog.run false src bs).1)) :
    toGeoWrapped f sz src bs = (toGeo sz src bs).map (GeoGeom.mapXY f) := by
  obtain ⟨h1, h2⟩ := interp_geoWriter_mapXY sz src bs h
  unfold toGeoWrapped toGeo
  revert h1 h2
  generalize Prog.interp (wrapGeom f (GeoWriter.proc sz)) src {} bs = a
  generalize Prog.interp (GeoWriter.proc sz) src {} bs = b
  obtain ⟨w, es, o⟩ := a
  obtain ⟨w', es', o'⟩ := b
  intro h1 h2
  simp only at h1 h2
  subst h1 h2
  cases o with
  | error e => rfl
  | ok r =>
    simp only [GeoWriter.takeGeometry_mapXY]
    cases w'.takeGeometry.1 <;> rfl

/-! ### what decides about errors -/

namespace GeoWriter

/-- what a writer looks like without its positions -/
def outline (w : GeoWriter) : Nat × Nat × Bool × Bool × Option Nat :=
  (w.geoms.length, w.collections.length, w.polygons.isSome, w.lineStrings.isSome, w.coords.map List.length)

theorem finish_outline (w w' : GeoWriter) (g g' : GeoGeom) (h : w.outline = w'.outline) :
    (w.finish g).outline = (w'.finish g').outline := by
  obtain ⟨gs, cs, p, l, c⟩ := w
  obtain ⟨gs', cs', p', l', c'⟩ := w'
  simp only [outline, Prod.mk.injEq] at h
  obtain ⟨h1, h2, h3, h4, h5⟩ := h
  cases cs <;> cases cs' <;> simp_all [finish, outline]

theorem step_outline (f : F64 → F64 → F64 × F64) (sz : ElemSizes) (w w' : GeoWriter) (e : Ev) (h : w.outline = w'.outline) :
    (step sz w (e.mapXY f)).map outline = (step sz w' e).map outline := by
  have h0 := h
  simp only [outline, Prod.mk.injEq] at h
  obtain ⟨h1, h2, h3, h4, h5⟩ := h
  have hc : w.coords.isNone = w'.coords.isNone := by
    have := congrArg Option.isNone h5
    simpa using this
  have hl : w.lineStrings.isNone = w'.lineStrings.isNone := by
    rw [← Option.not_isSome, ← Option.not_isSome, h4]
  have hp : w.polygons.isNone = w'.polygons.isNone := by
    rw [← Option.not_isSome, ← Option.not_isSome, h3]
  cases e with
  | srid s => simp [step, Ev.mapXY, Except.map, h0]
  | coord => simp [step, Ev.mapXY, Except.map, h0]
  | emptyPoint => rfl
  | xy x y i =>
    simp only [Ev.mapXY, step]
    cases hw : w.coords <;> cases hw' : w'.coords <;> simp_all [Except.map, outline]
  | gbegin k t size i =>
    simp only [Ev.mapXY, step]
    cases k <;> simp only [gbegin, debugAssert, boundedVec, hc, hl, hp] <;>
      first
      | (simp only [Except.map, h0]; done)
      | (split
         · first
           | (simp_all [Except.map, outline]; done)
           | (cases validateCapacity _ size <;> simp_all [Except.map, outline])
         · rfl)
      | (cases validateCapacity _ size <;> simp_all [Except.map, outline])
  | gend k t i =>
    simp only [Ev.mapXY, step]
    cases k with
    | point =>
      simp only [gend, debugAssert]
      cases hw : w.coords <;> cases hw' : w'.coords <;> simp only [hw, hw', Option.map, reduceCtorEq, Option.some.injEq] at h5
      · rfl
      · rename_i cs cs'
        simp only [h5]
        split
        · cases cs <;> cases cs' <;> simp only [List.length_cons, List.length_nil, Nat.add_one_ne_zero] at h5
          · rfl
          · cases h5
          · simp only [Except.map]
            exact congrArg Except.ok (finish_outline _ _ _ _ (by simp_all [outline]))
        · rfl
    | multiPoint =>
      simp only [gend]
      cases hw : w.coords <;> cases hw' : w'.coords <;> simp only [hw, hw', Option.map, reduceCtorEq, Option.some.injEq] at h5
      · rfl
      · exact congrArg Except.ok (finish_outline _ _ _ _ (by simp_all [outline]))
    | lineString =>
      simp only [gend]
      cases hw : w.coords <;> cases hw' : w'.coords <;> simp only [hw, hw', Option.map, reduceCtorEq, Option.some.injEq] at h5
      · rfl
      · simp only
        split
        · exact congrArg Except.ok (finish_outline _ _ _ _ (by simp_all [outline]))
        · cases hx : w.lineStrings <;> cases hx' : w'.lineStrings <;> simp_all [Except.map, outline]
    | multiLineString =>
      simp only [gend]
      cases hw : w.lineStrings <;> cases hw' : w'.lineStrings <;> simp only [hw, hw', Option.isSome, reduceCtorEq, Bool.false_eq_true] at h4
      · rfl
      · exact congrArg Except.ok (finish_outline _ _ _ _ (by simp_all [outline]))
    | polygon =>
      simp only [gend]
      cases hw : w.lineStrings <;> cases hw' : w'.lineStrings <;> simp only [hw, hw', Option.isSome, reduceCtorEq, Bool.false_eq_true] at h4
      · rfl
      · simp only
        split
        · exact congrArg Except.ok (finish_outline _ _ _ _ (by simp_all [outline]))
        · cases hx : w.polygons <;> cases hx' : w'.polygons <;> simp_all [Except.map, outline]
    | multiPolygon =>
      simp only [gend]
      cases hw : w.polygons <;> cases hw' : w'.polygons <;> simp only [hw, hw', Option.isSome, reduceCtorEq, Bool.false_eq_true] at h3
      · rfl
      · exact congrArg Except.ok (finish_outline _ _ _ _ (by simp_all [outline]))
    | collection =>
      simp only [gend]
      cases hw : w.collections <;> cases hw' : w'.collections <;> simp only [hw, hw', List.length_nil, List.length_cons] at h2
      · rfl
      · cases h2
      · cases h2
      · exact congrArg Except.ok (finish_outline _ _ _ _ (by simp_all [outline]))
    | _ => simp [gend, Except.map, h0]

theorem interp_outline (f : F64 → F64 → F64 × F64) (sz : ElemSizes) {α : Type} (src : Prog α) (w w' : GeoWriter) (bs : List Byte)
    (h : w.outline = w'.outline) :
    (Prog.interp (wrapGeom f (proc sz)) src w bs).1.outline = (Prog.interp (proc sz) src w' bs).1.outline ∧
    (Prog.interp (wrapGeom f (proc sz)) src w bs).2.2 = (Prog.interp (proc sz) src w' bs).2.2 := by
  induction src generalizing w w' bs with
  | ret a => exact ⟨h, rfl⟩
  | fail e => exact ⟨h, rfl⟩
  | read k ih =>
    cases bs with
    | nil => exact ⟨h, rfl⟩
    | cons b bs => exact ih b w w' bs h
  | emit e k ih =>
    have hs := step_outline f sz w w' e h
    have h1 : (wrapGeom f (proc sz)).step w e = step sz w (e.mapXY f) := rfl
    have h2 : (proc sz).step w' e = step sz w' e := rfl
    simp only [Prog.interp, h1, h2]
    cases ha : step sz w (e.mapXY f) <;> cases hb : step sz w' e <;> rw [ha, hb] at hs <;>
      simp only [Except.map, Except.error.injEq, Except.ok.injEq, reduceCtorEq] at hs
    · subst hs; exact ⟨h, rfl⟩
    · exact ih _ _ bs hs
  | askMulti k ih => exact ih false w w' bs h

theorem takeGeometry_isSome (w : GeoWriter) : w.takeGeometry.1.isSome = decide (0 < w.outline.1) := by
  obtain ⟨gs, cs, p, l, c⟩ := w
  rcases gs with _ | ⟨g, _ | ⟨g', gs⟩⟩ <;> simp [takeGeometry, outline]

end GeoWriter

theorem toGeoWrapped_error (f : F64 → F64 → F64 × F64) (sz : ElemSizes) (src : Prog Unit) (bs : List Byte) (e : Err) :
    toGeoWrapped f sz src bs = .error e ↔ toGeo sz src bs = .error e := by
  obtain ⟨h1, h2⟩ := GeoWriter.interp_outline f sz src {} {} bs rfl
  unfold toGeoWrapped toGeo
  revert h1 h2
  generalize Prog.interp (wrapGeom f (GeoWriter.proc sz)) src {} bs = a
  generalize Prog.interp (GeoWriter.proc sz) src {} bs = b
  obtain ⟨w, es, o⟩ := a
  obtain ⟨w', es', o'⟩ := b
  intro h1 h2
  simp only at h1 h2
  subst h2
  cases o with
  | error x => exact Iff.rfl
  | ok r =>
    have ha := GeoWriter.takeGeometry_isSome w
    have hb := GeoWriter.takeGeometry_isSome w'
    rw [h1, ← hb] at ha
    simp only
    cases hg : w.takeGeometry.1 <;> cases hg' : w'.takeGeometry.1 <;> simp_all

end Geozero
