import Verif.Spec.WkbCanon
import Verif.Lemmas.WkbTop

/- Helper lemmas: the exact bytes the WKB writer appends for each geometry. -/

namespace Geozero
open Spec
namespace WkbWriter

theorem cat_eq {α : Type} (f : α → List Byte) (xs : List α) (bs : List Byte) :
    Cat (fun x b => b = f x) xs bs ↔ bs = xs.flatMap f := by
  induction xs generalizing bs with
  | nil => simp [Cat]
  | cons x xs ih =>
    simp only [Cat, ih, List.flatMap_cons]
    constructor
    · rintro ⟨_, _, rfl, rfl, rfl⟩; rfl
    · rintro rfl; exact ⟨_, _, rfl, rfl, rfl⟩

theorem countedLe_map {α β : Type} (f : β → List Byte) (m : α → β) (xs : List α) :
    countedLe f (xs.map m) = encU32 .le xs.length ++ xs.flatMap fun x => f (m x) := by
  simp [countedLe, List.flatMap_map]

theorem laterHdr_eq (dl : WkbDialect) (d : Dims) (t : WkbType) : laterHdr dl d t = memberHeaderLe dl d t.toU32 := by
  cases dl <;> simp only [laterHdr, memberHeaderLe, ogcTypeId_eq, ewkbTypeId_eq]

/-- exact version of `Emits` -/
abbrev Puts (w w' : WkbWriter) (evs : List Ev) (b : List Byte) : Prop := Emits w w' evs (· = b)

private theorem of_counted {α : Type} {w w' : WkbWriter} {evs : List Ev} {hb b post : List Byte} {f : α → List Byte} {xs : List α}
    (h : Emits w w' evs (fun b => ∃ bb, b = hb ++ (encU32 .le xs.length ++ bb) ++ post ∧ Cat (fun x b => b = f x) xs bb))
    (hb' : b = hb ++ (encU32 .le xs.length ++ xs.flatMap f) ++ post) : Puts w w' evs b := by
  refine h.mono ?_
  rintro _ ⟨bb, rfl, hc⟩
  rw [(cat_eq _ _ _).mp hc, hb']

theorem puts_ring {d : Dims} {dl : WkbDialect} {w : WkbWriter} {idx : Nat} {cs : List Coord}
    (hs : w.geomState = .ringGeom) (hg : Good d dl w) (hf : foot w = []) :
    Puts w w (lineEvs d.multi false idx cs) (pointsLe (cs.map (Coord.conform d))) := by
  refine Emits.mono (emits_bracket (w0 := w) (pre := encU32 .le cs.length) (post := [])
    (R := fun (c : Coord) b => b = Spec.coordBytes .le (c.conform d)) ?_ ?_ ?_) ?_
  · simp [gbegin, hs, hg.endian]
  · intro c _ i b0
    refine ⟨_, ?_, rfl⟩
    have := step_coord (hg.put b0) (by simp [put, hs]) c i
    simp only [coordEvs, feed, this]
  · intro b
    simp [gend, nests, writeFooter_eq, foot_put, put_put, hf]
  · rintro b ⟨bb, rfl, hc⟩
    rw [(cat_eq _ _ _).mp hc, pointsLe, countedLe_map, List.append_nil]

theorem puts_points {d : Dims} {dl : WkbDialect} {w w' : WkbWriter} {k : GKind} {tagged : Bool}
    {hb : List Byte} {idx : Nat} {cs : List Coord} (hk : k = .lineString ∨ k = .circularString)
    (hs : w.geomState = .normal) (h : HdrStep w (kindType k) w' hb) (hg : Good d dl w') :
    Puts w w' (bracket k tagged idx (coordEvs d.multi) cs) (hb ++ pointsLe (cs.map (Coord.conform d)) ++ foot w') := by
  refine of_counted (emits_plain (R := fun (c : Coord) b => b = Spec.coordBytes .le (c.conform d)) ?_ h hg ?_)
    (by rw [pointsLe, countedLe_map])
  · rcases hk with rfl | rfl
    · left; simp [hs]
    · simp
  · intro c _ i b0
    refine ⟨_, ?_, rfl⟩
    have := step_coord (hg.put b0) (by simp [put, h.state, hs]) c i
    simp only [coordEvs, feed, this]

theorem puts_rings {d : Dims} {dl : WkbDialect} {w w' : WkbWriter} {k : GKind} {tagged : Bool}
    {hb : List Byte} {idx : Nat} {rings : List (List Coord)} (hk : k = .polygon ∨ k = .triangle)
    (hs : w.geomState = .normal) (h : HdrStep w (kindType k) w' hb) (hg : Good d dl w') (hf : foot w' = [] ∨ rings = []) :
    Puts w w' (bracket k tagged idx (lineEvs d.multi false) rings)
      (hb ++ ringsLe (rings.map (List.map (Coord.conform d))) ++ foot w') := by
  refine of_counted (emits_ringed (R := fun (r : List Coord) b => b = pointsLe (r.map (Coord.conform d))) hk hs h hg ?_)
    (by rw [ringsLe, countedLe_map])
  intro r hr i b0
  exact puts_ring rfl ((hg.geom _).put b0) (hf.resolve_right (List.ne_nil_of_mem hr))

theorem puts_points_member {d : Dims} {dl : WkbDialect} {w : WkbWriter} {k : GKind} {tagged : Bool} {n : Nat}
    {idx : Nat} {cs : List Coord} (hk : k = .lineString ∨ k = .circularString) (hn : (kindType k).toU32 = n)
    (hs : w.geomState = .normal) (hg : Good d dl w) (hf : foot w = []) :
    Puts w w (bracket k tagged idx (coordEvs d.multi) cs) (memberHeaderLe dl d n ++ pointsLe (cs.map (Coord.conform d))) := by
  have h := puts_points (tagged := tagged) (idx := idx) (cs := cs) hk hs (HdrStep.later hg (kindType k)) hg
  rw [hf, List.append_nil, laterHdr_eq, hn] at h
  exact h

theorem puts_rings_member {d : Dims} {dl : WkbDialect} {w : WkbWriter} {k : GKind} {tagged : Bool} {n : Nat}
    {idx : Nat} {rings : List (List Coord)} (hk : k = .polygon ∨ k = .triangle) (hn : (kindType k).toU32 = n)
    (hs : w.geomState = .normal) (hg : Good d dl w) (hf : foot w = []) :
    Puts w w (bracket k tagged idx (lineEvs d.multi false) rings)
      (memberHeaderLe dl d n ++ ringsLe (rings.map (List.map (Coord.conform d)))) := by
  have h := puts_rings (tagged := tagged) (idx := idx) (rings := rings) hk hs (HdrStep.later hg (kindType k)) hg (Or.inl hf)
  rw [hf, List.append_nil, laterHdr_eq, hn] at h
  exact h

theorem puts_seg {d : Dims} {dl : WkbDialect} {w : WkbWriter} {idx : Nat} {s : Seg}
    (hs : w.geomState = .normal) (hg : Good d dl w) (hf : foot w = []) :
    Puts w w (segEvs d.multi idx s) (segLe (memberHeaderLe dl d) (s.map (Coord.conform d))) := by
  cases s with
  | line cs => exact puts_points_member (Or.inl rfl) rfl hs hg hf
  | circ cs => exact puts_points_member (Or.inr rfl) rfl hs hg hf

theorem puts_compound {d : Dims} {dl : WkbDialect} {w w' : WkbWriter} {hb : List Byte} {idx : Nat} {ss : List Seg}
    (hs : w.geomState = .normal) (h : HdrStep w .compoundCurve w' hb) (hg : Good d dl w') (hf : foot w' = [] ∨ ss = []) :
    Puts w w' (bracket .compoundCurve true idx (segEvs d.multi) ss)
      (hb ++ countedLe (segLe (memberHeaderLe dl d)) (ss.map (Seg.map (Coord.conform d))) ++ foot w') := by
  refine of_counted (emits_plain (R := fun (s : Seg) b => b = segLe (memberHeaderLe dl d) (s.map (Coord.conform d)))
    (by simp) h hg ?_) (by rw [countedLe_map])
  intro s hsm i b0
  exact puts_seg (by simp [put, h.state, hs]) (hg.put b0) (hf.resolve_right (List.ne_nil_of_mem hsm))

theorem puts_curve {d : Dims} {dl : WkbDialect} {w : WkbWriter} {idx : Nat} {c : Curve}
    (hs : w.geomState = .normal) (hg : Good d dl w) (hf : foot w = []) :
    Puts w w (curveEvs d.multi idx c) (curveLe (memberHeaderLe dl d) (c.map (Coord.conform d))) := by
  cases c with
  | seg s => exact puts_seg hs hg hf
  | compound ss =>
    have h := puts_compound (idx := idx) (ss := ss) hs (HdrStep.later hg .compoundCurve) hg (Or.inl hf)
    rw [hf, List.append_nil, laterHdr_eq] at h
    exact h

theorem puts_curvepolygon {d : Dims} {dl : WkbDialect} {w w' : WkbWriter} {hb : List Byte} {idx : Nat} {rings : List Curve}
    (hs : w.geomState = .normal) (h : HdrStep w .curvePolygon w' hb) (hg : Good d dl w') (hf : foot w' = [] ∨ rings = []) :
    Puts w w' (bracket .curvePolygon true idx (curveEvs d.multi) rings)
      (hb ++ countedLe (curveLe (memberHeaderLe dl d)) (rings.map (Curve.map (Coord.conform d))) ++ foot w') := by
  refine of_counted (emits_plain (R := fun (c : Curve) b => b = curveLe (memberHeaderLe dl d) (c.map (Coord.conform d)))
    (by simp) h hg ?_) (by rw [countedLe_map])
  intro c hc i b0
  exact puts_curve (by simp [put, h.state, hs]) (hg.put b0) (hf.resolve_right (List.ne_nil_of_mem hc))

theorem puts_surface {d : Dims} {dl : WkbDialect} {w : WkbWriter} {idx : Nat} {s : Surface}
    (hs : w.geomState = .normal) (hg : Good d dl w) (hf : foot w = []) :
    Puts w w (surfaceEvs d.multi idx s) (surfaceLe (memberHeaderLe dl d) (s.map (Coord.conform d))) := by
  cases s with
  | polygon rings => exact puts_rings_member (Or.inl rfl) rfl hs hg hf
  | curvePolygon rings =>
    have h := puts_curvepolygon (idx := idx) (rings := rings) hs (HdrStep.later hg .curvePolygon) hg (Or.inl hf)
    rw [hf, List.append_nil, laterHdr_eq] at h
    exact h

theorem bodiesLe_eq (h : Nat → List Byte) (gs : List Geom) :
    bodiesLe h gs = gs.flatMap fun g => h (typeCode g) ++ bodyLe h g := by
  induction gs with
  | nil => rfl
  | cons g gs ih => simp [bodiesLe, ih]

theorem geomType_map (f : Coord → Coord) (g : Geom) : (geomType g).toU32 = typeCode (g.map f) := by
  cases g <;> rfl

/-- The writer appends exactly the little endian encoding. -/
theorem puts_geom {d : Dims} {dl : WkbDialect} (g : Geom) :
    ∀ (w w' : WkbWriter) (hb : List Byte) (idx : Nat), w.geomState = .normal →
      HdrStep w (geomType g) w' hb → Good d dl w' → g.hasEmptyPoint = false → (foot w' = [] ∨ NoParts g) →
      Puts w w' (g.events d.multi idx) (hb ++ bodyLe (memberHeaderLe dl d) (g.map (Coord.conform d)) ++ foot w') := by
  induction g using Geom.ind with
  | emptyPoint => intro _ _ _ _ _ _ _ h; simp [Geom.hasEmptyPoint] at h
  | point c =>
    intro w w' hb idx hs h hg _ _
    refine ⟨_, ?_, rfl⟩
    have h1 := h.self
    simp only [geomType] at h1
    have h2 := step_coord (hg.put hb) (by simp [put, h.state, hs]) c 0
    have h3 : step w (.gbegin .point true 1 idx) = .ok (w'.put hb) := h1
    have h4 : ∀ b, step (w'.put b) (.gend .point true idx) = .ok (w'.put (b ++ foot w')) := by
      intro b; simp [step, gend, nests, writeFooter_eq, foot_put, put_put]
    simp only [Geom.events, feed, h3, h2, put_put, h4, Geom.map, bodyLe]
  | multiPoint cs =>
    intro w w' hb idx hs h hg _ _
    refine of_counted (f := fun c => memberHeaderLe dl d 1 ++ Spec.coordBytes .le (Coord.conform d c)) (Emits.mono (emits_bracket
      (w0 := { w' with nestingLevel := w.nestingLevel + 1, geomState := .multiPointGeom })
      (pre := hb ++ encU32 .le cs.length) (post := foot w')
      (R := fun (c : Coord) b => b = memberHeaderLe dl d 1 ++ Spec.coordBytes .le (c.conform d)) ?_ ?_ ?_) ?_)
      (by rw [Geom.map, bodyLe, countedLe_map])
    · have := headerAndSize_step h hg cs.length (w.nestingLevel + 1)
      simp only [geomType] at this
      simp only [gbegin, this]
      rfl
    · intro c _ i b0
      refine ⟨_, ?_, rfl⟩
      have hgood : Good d dl ({ w' with nestingLevel := w.nestingLevel + 1, geomState := .multiPointGeom }.put b0) :=
        ⟨hg.1, hg.2, hg.3, hg.4⟩
      have := step_coord_multipoint hgood rfl c i
      rw [laterHdr_eq] at this
      simp only [coordEvs, feed, this]
      rfl
    · intro b
      have hw : ({ w' with nestingLevel := w.nestingLevel + 1, geomState := .multiPointGeom }.put b).nestDec
          = .ok ({ w' with geomState := .multiPointGeom }.put b) := by
        simp only [nestDec, put, ← h.nest]
      have hw2 : { ({ w' with geomState := .multiPointGeom }.put b) with geomState := .normal } = w'.put b := by
        simp only [put]
        rw [← hs, ← h.state]
      simp only [gend, hw, hw2, writeFooter_eq, foot_put, put_put]
    · rintro b ⟨bb, rfl, hc⟩
      exact ⟨bb, by simp [List.append_assoc], hc⟩
  | lineString cs => intro w w' hb idx hs h hg _ _; exact puts_points (Or.inl rfl) hs h hg
  | circularString cs => intro w w' hb idx hs h hg _ _; exact puts_points (Or.inr rfl) hs h hg
  | compoundCurve ss => intro w w' hb idx hs h hg _ hf; exact puts_compound hs h hg hf
  | multiLineString ls =>
    intro w w' hb idx hs h hg _ _
    refine of_counted (emits_nesting (R := fun (l : List Coord) b => b = memberHeaderLe dl d 2 ++ pointsLe (l.map (Coord.conform d)))
      rfl (by simp) h hg ?_) (by rw [Geom.map, bodyLe, countedLe_map])
    intro l hlm i b0
    have hg2 : Good d dl ({ w' with nestingLevel := w.nestingLevel + 1 }.put b0) := (hg.nest _).put b0
    exact puts_points_member (Or.inl rfl) rfl (by simp [put, h.state, hs]) hg2 (foot_nest _ _)
  | multiCurve cs =>
    intro w w' hb idx hs h hg _ _
    refine of_counted (emits_nesting (R := fun (c : Curve) b => b = curveLe (memberHeaderLe dl d) (c.map (Coord.conform d)))
      rfl (by simp) h hg ?_) (by rw [Geom.map, bodyLe, countedLe_map])
    intro c hcm i b0
    exact puts_curve (by simp [put, h.state, hs]) ((hg.nest _).put b0) (foot_nest _ _)
  | polygon rs => intro w w' hb idx hs h hg _ hf; exact puts_rings (Or.inl rfl) hs h hg hf
  | triangle rs => intro w w' hb idx hs h hg _ hf; exact puts_rings (Or.inr rfl) hs h hg hf
  | curvePolygon rs => intro w w' hb idx hs h hg _ hf; exact puts_curvepolygon hs h hg hf
  | multiPolygon ps =>
    intro w w' hb idx hs h hg _ _
    refine of_counted (emits_nesting
      (R := fun (p : List (List Coord)) b => b = memberHeaderLe dl d 3 ++ ringsLe (p.map (List.map (Coord.conform d)))) rfl (by simp) h hg ?_)
      (by rw [Geom.map, bodyLe, countedLe_map])
    intro p hp i b0
    have hg2 : Good d dl ({ w' with nestingLevel := w.nestingLevel + 1 }.put b0) := (hg.nest _).put b0
    exact puts_rings_member (Or.inl rfl) rfl (by simp [put, h.state, hs]) hg2 (foot_nest _ _)
  | polyhedralSurface ps =>
    intro w w' hb idx hs h hg _ hf
    refine of_counted (emits_plain
      (R := fun (p : List (List Coord)) b => b = memberHeaderLe dl d 3 ++ ringsLe (p.map (List.map (Coord.conform d)))) (by simp) h hg ?_)
      (by rw [Geom.map, bodyLe, countedLe_map])
    intro p hp i b0
    have he : foot w' = [] := hf.resolve_right (List.ne_nil_of_mem hp)
    exact puts_rings_member (Or.inl rfl) rfl (by simp [put, h.state, hs]) (hg.put b0) he
  | tin ps =>
    intro w w' hb idx hs h hg _ hf
    refine of_counted (emits_plain
      (R := fun (p : List (List Coord)) b => b = memberHeaderLe dl d 17 ++ ringsLe (p.map (List.map (Coord.conform d)))) (by simp) h hg ?_)
      (by rw [Geom.map, bodyLe, countedLe_map])
    intro p hp i b0
    have he : foot w' = [] := hf.resolve_right (List.ne_nil_of_mem hp)
    exact puts_rings_member (Or.inr rfl) rfl (by simp [put, h.state, hs]) (hg.put b0) he
  | multiSurface ss =>
    intro w w' hb idx hs h hg _ _
    refine of_counted (emits_nesting (R := fun (s : Surface) b => b = surfaceLe (memberHeaderLe dl d) (s.map (Coord.conform d)))
      rfl (by simp) h hg ?_) (by rw [Geom.map, bodyLe, countedLe_map])
    intro c hcm i b0
    exact puts_surface (by simp [put, h.state, hs]) ((hg.nest _).put b0) (foot_nest _ _)
  | collection gs ih =>
    intro w w' hb idx hs h hg hne _
    have hne' := (hasEmptyPointList_iff gs).mp (by simpa [Geom.hasEmptyPoint] using hne)
    rw [events_collection]
    refine of_counted (emits_nesting (R := fun (g : Geom) b => b = memberHeaderLe dl d (typeCode (g.map (Coord.conform d)))
      ++ bodyLe (memberHeaderLe dl d) (g.map (Coord.conform d))) rfl (by simp) h hg ?_)
      (by rw [Geom.map, bodyLe, bodiesLe_eq, mapList_eq, List.length_map, List.flatMap_map])
    intro g hgm i b0
    have hg2 : Good d dl ({ w' with nestingLevel := w.nestingLevel + 1 }.put b0) := (hg.nest _).put b0
    rw [← geomType_map]
    have h3 := ih g hgm _ _ _ i (by simp [put, h.state, hs]) (HdrStep.later hg2 (geomType g)) hg2
      (hne' g hgm) (Or.inl (foot_nest _ _))
    rw [foot_put, foot_nest, List.append_nil, laterHdr_eq] at h3
    exact h3

end WkbWriter
end Geozero
