import Verif.Lemmas.WkbWrite

/- Helper lemmas: what the SpatiaLite writer appends for an outermost geometry with a single part. -/

namespace Geozero
open Spec
namespace WkbWriter

/-- Outermost geometries in which every part is the last one: at most one ring, segment or patch on each
level that the SpatiaLite writer does not count as nested. -/
def slSingle : Geom → Bool
  | .polygon rs | .triangle rs => rs.length ≤ 1
  | .compoundCurve ss => ss.length ≤ 1
  | .curvePolygon cs => cs.length ≤ 1 && cs.all (fun c =>
      match c with
      | .seg _ => true
      | .compound ss => ss.length ≤ 1)
  | .polyhedralSurface ps | .tin ps => ps.length ≤ 1 && ps.all (fun p => p.length ≤ 1)
  | _ => true

/-- `k` copies of a footer -/
def feet (f : List Byte) (k : Nat) : List Byte := (List.replicate k f).flatten

theorem feet_zero (f : List Byte) : feet f 0 = [] := rfl

theorem feet_succ (f : List Byte) (k : Nat) : feet f (k + 1) = feet f k ++ f := by
  induction k with
  | zero => simp [feet]
  | succ k ih =>
    have h1 : feet f (k + 1 + 1) = f ++ feet f (k + 1) := by simp [feet, List.replicate_succ]
    have h2 : feet f (k + 1) = f ++ feet f k := by simp [feet, List.replicate_succ]
    rw [h1, ih, ← List.append_assoc, ← h2, ih]

/-- `R`, then one or more footers -/
def Ft (f : List Byte) (R : List Byte → Prop) (b : List Byte) : Prop :=
  ∃ bb k, b = bb ++ feet f (k + 1) ∧ R bb

theorem Ft.one {f : List Byte} {R : List Byte → Prop} {bb : List Byte} (h : R bb) : Ft f R (bb ++ f) :=
  ⟨bb, 0, by simp [feet], h⟩

theorem Ft.mono {f : List Byte} {R R' : List Byte → Prop} {b : List Byte} (h : Ft f R b)
    (hR : ∀ b, R b → R' b) : Ft f R' b := by
  obtain ⟨bb, k, rfl, h⟩ := h
  exact ⟨bb, k, rfl, hR _ h⟩

theorem Ft.cons {f : List Byte} {R R' : List Byte → Prop} {a b : List Byte} (h : Ft f R b)
    (hR : ∀ b, R b → R' (a ++ b)) : Ft f R' (a ++ b) := by
  obtain ⟨bb, k, rfl, h⟩ := h
  exact ⟨a ++ bb, k, by simp, hR _ h⟩

theorem cat_ft {α : Type} {f : List Byte} {R : α → List Byte → Prop} {xs : List α} {bb : List Byte}
    (hlen : xs.length ≤ 1) (hc : Cat (fun x => Ft f (R x)) xs bb) : Ft f (Cat R xs) (bb ++ f) := by
  match xs, hlen with
  | [], _ =>
    cases hc
    exact ⟨[], 0, by simp [feet], rfl⟩
  | [x], _ =>
    obtain ⟨b1, b2, rfl, ⟨b3, k, rfl, hr⟩, rfl⟩ := hc
    refine ⟨b3, k + 1, ?_, b3, [], by simp, hr, rfl⟩
    rw [feet_succ f (k + 1)]
    simp

theorem counted_ft {α : Type} {f : List Byte} {R : α → List Byte → Prop} {xs : List α} {hb bb : List Byte}
    (hlen : xs.length ≤ 1) (hc : Cat (fun x => Ft f (R x)) xs bb) :
    ∃ b, hb ++ (encU32 .le xs.length ++ bb) ++ f = hb ++ b ∧ Ft f (Counted .le R xs) b := by
  refine ⟨encU32 .le xs.length ++ (bb ++ f), by simp, Ft.cons (cat_ft hlen hc) ?_⟩
  intro b hb
  exact ⟨by omega, b, rfl, hb⟩

theorem emits_ring_one {d : Dims} {dl : WkbDialect} {w : WkbWriter} {idx : Nat} {cs : List Coord}
    (hs : w.geomState = .ringGeom) (hg : Good d dl w) (hlen : cs.length < 2 ^ 32) :
    Emits w w (lineEvs d.multi false idx cs)
      (fun b => ∃ bb, b = bb ++ foot w ∧ PointsBody (cs.map (Coord.conform d)) .le bb) := by
  refine Emits.mono (emits_bracket (w0 := w) (pre := encU32 .le cs.length) (post := foot w)
    (R := fun c b => b = Spec.coordBytes .le (c.conform d)) ?_ ?_ ?_) ?_
  · simp [gbegin, hs, hg.endian]
  · intro c _ i b0
    refine ⟨_, ?_, rfl⟩
    have := step_coord (hg.put b0) (by simp [put, hs]) c i
    simp only [coordEvs, feed, this]
  · intro b
    simp [gend, nests, writeFooter_eq, foot_put, put_put]
  · rintro b ⟨bb, rfl, hc⟩
    exact ⟨_, rfl, by simpa using hlen, bb, by simp, (cat_map _ _ _ _).mpr hc⟩

theorem emits_ring_ft {d : Dims} {dl : WkbDialect} {w : WkbWriter} {idx : Nat} {cs : List Coord}
    (hs : w.geomState = .ringGeom) (hg : Good d dl w) (hlen : cs.length < 2 ^ 32) :
    Emits w w (lineEvs d.multi false idx cs) (Ft (foot w) (PointsBody (cs.map (Coord.conform d)) .le)) := by
  refine Emits.mono (emits_ring_one hs hg hlen) ?_
  rintro b ⟨bb, rfl, hb⟩
  exact Ft.one hb

theorem emits_rings_ft {d : Dims} {dl : WkbDialect} {w w' : WkbWriter} {k : GKind} {tagged : Bool}
    {hb : List Byte} {idx : Nat} {rings : List (List Coord)} (hk : k = .polygon ∨ k = .triangle)
    (hs : w.geomState = .normal) (h : HdrStep w (kindType k) w' hb) (hg : Good d dl w')
    (hlen : rings.length ≤ 1) (hlens : ∀ l ∈ rings, l.length < 2 ^ 32) :
    Emits w w' (bracket k tagged idx (lineEvs d.multi false) rings)
      (fun b => ∃ bb, b = hb ++ bb ∧ Ft (foot w') (RingsBody (rings.map (List.map (Coord.conform d))) .le) bb) := by
  refine Emits.mono (emits_ringed (R := fun r => Ft (foot w') (PointsBody (r.map (Coord.conform d)) .le))
    hk hs h hg ?_) ?_
  · intro r hr i b0
    exact emits_ring_ft (w := { w' with geomState := .ringGeom }.put b0) rfl ((hg.geom _).put b0) (hlens r hr)
  · rintro b ⟨bb, rfl, hc⟩
    have hc' := (cat_map (List.map (Coord.conform d)) (fun r => Ft (foot w') (PointsBody r .le)) rings bb).mpr hc
    obtain ⟨b, h1, h2⟩ := counted_ft (hb := hb) (by simpa using hlen) hc'
    exact ⟨b, by simpa using h1, h2⟩

theorem nested_ft {d : Dims} {dl : WkbDialect} {t : WkbType} {body : Endian → List Byte → Prop} {f : List Byte} :
    ∀ b, (∃ bb, b = laterHdr dl d t ++ bb ∧ Ft f (body .le) bb) →
      Ft f (Nested (specHeader dl d) .le t.toU32 body) b := by
  rintro b ⟨bb, rfl, hb⟩
  exact Ft.cons hb fun b hb => ⟨.le, laterHdr dl d t, b, rfl, laterHdr_spec dl d t, hb⟩

theorem emits_seg_ft {d : Dims} {dl : WkbDialect} {w : WkbWriter} {idx : Nat} {s : Seg}
    (hs : w.geomState = .normal) (hg : Good d dl w) (hl : Geom.Lens.SegLens (· < 2 ^ 32) s) :
    Emits w w (segEvs d.multi idx s)
      (Ft (foot w) (SegRel (specHeader dl d) .le (s.map (Coord.conform d)))) := by
  cases s with
  | line cs =>
    refine Emits.mono (emits_points (k := .lineString) (tagged := false) (Or.inl rfl) hs (HdrStep.later hg _) hg hl)
      fun b hb => nested_ft (t := .lineString) b ?_
    obtain ⟨bb, rfl, hb⟩ := hb
    exact ⟨bb ++ foot w, by simp [kindType], Ft.one hb⟩
  | circ cs =>
    refine Emits.mono (emits_points (k := .circularString) (tagged := true) (Or.inr rfl) hs (HdrStep.later hg _) hg hl)
      fun b hb => nested_ft (t := .circularString) b ?_
    obtain ⟨bb, rfl, hb⟩ := hb
    exact ⟨bb ++ foot w, by simp [kindType], Ft.one hb⟩

theorem emits_compound_ft {d : Dims} {dl : WkbDialect} {w w' : WkbWriter} {hb : List Byte} {idx : Nat}
    {ss : List Seg} (hs : w.geomState = .normal) (h : HdrStep w .compoundCurve w' hb) (hg : Good d dl w')
    (hlen : ss.length ≤ 1) (hl : ∀ s ∈ ss, Geom.Lens.SegLens (· < 2 ^ 32) s) :
    Emits w w' (bracket .compoundCurve true idx (segEvs d.multi) ss)
      (fun b => ∃ bb, b = hb ++ bb ∧
        Ft (foot w') (CompoundBody (specHeader dl d) (ss.map (Seg.map (Coord.conform d))) .le) bb) := by
  refine Emits.mono (emits_plain
    (R := fun s => Ft (foot w') (SegRel (specHeader dl d) .le (s.map (Coord.conform d)))) (by simp) h hg ?_) ?_
  · intro s hsm i b0
    exact emits_seg_ft (w := w'.put b0) (by simp [put, h.state, hs]) (hg.put b0) (hl s hsm)
  · rintro b ⟨bb, rfl, hc⟩
    have hc' := (cat_map (Seg.map (Coord.conform d)) (fun s => Ft (foot w') (SegRel (specHeader dl d) .le s))
      ss bb).mpr hc
    obtain ⟨b, h1, h2⟩ := counted_ft (hb := hb) (by simpa using hlen) hc'
    exact ⟨b, by simpa using h1, h2⟩

theorem emits_curve_ft {d : Dims} {dl : WkbDialect} {w : WkbWriter} {idx : Nat} {c : Curve}
    (hs : w.geomState = .normal) (hg : Good d dl w) (hl : Geom.Lens.CurveLens (· < 2 ^ 32) c)
    (h1 : ∀ ss, c = .compound ss → ss.length ≤ 1) :
    Emits w w (curveEvs d.multi idx c)
      (Ft (foot w) (CurveRel (specHeader dl d) .le (c.map (Coord.conform d)))) := by
  cases c with
  | seg s => exact emits_seg_ft hs hg hl
  | compound ss =>
    exact Emits.mono (emits_compound_ft hs (HdrStep.later hg _) hg (h1 ss rfl) hl.2)
      (nested_ft (t := .compoundCurve))

/-- The SpatiaLite writer appends the specification encoding and one or more end marks. -/
theorem emits_geom_ft {d : Dims} {dl : WkbDialect} (g : Geom) (w w' : WkbWriter) (hb : List Byte) (idx : Nat)
    (hs : w.geomState = .normal) (h : HdrStep w (geomType g) w' hb) (hg : Good d dl w') (hl : g.Fits)
    (he : g.hasEmptyPoint = false) (h1 : slSingle g = true) :
    Emits w w' (g.events d.multi idx) (fun b => ∃ bb, b = hb ++ bb ∧
        Ft (foot w') (Body d (specHeader dl d) (g.stored d) .le) bb) := by
  have safe : slSafe g = true → Emits w w' (g.events d.multi idx) (fun b => ∃ bb, b = hb ++ bb ∧
        Ft (foot w') (Body d (specHeader dl d) (g.stored d) .le) bb) := by
    intro hsafe
    refine Emits.mono (emits_geom g w w' hb idx hs h hg hl he (Or.inr hsafe)) ?_
    rintro b ⟨bb, rfl, hb⟩
    exact ⟨bb ++ foot w', by simp, Ft.one hb⟩
  cases g with
  | polygon rs => exact emits_rings_ft (Or.inl rfl) hs h hg (by simpa [slSingle] using h1) hl.2
  | triangle rs => exact emits_rings_ft (Or.inr rfl) hs h hg (by simpa [slSingle] using h1) hl.2
  | compoundCurve ss => exact emits_compound_ft hs h hg (by simpa [slSingle] using h1) hl.2
  | curvePolygon cs =>
    simp only [slSingle, Bool.and_eq_true, decide_eq_true_eq, List.all_eq_true] at h1
    refine Emits.mono (emits_plain
      (R := fun c => Ft (foot w') (CurveRel (specHeader dl d) .le (c.map (Coord.conform d)))) (by simp) h hg ?_) ?_
    · intro c hc i b0
      refine emits_curve_ft (w := w'.put b0) (by simp [put, h.state, hs]) (hg.put b0) (hl.2 c hc) ?_
      rintro ss rfl
      simpa using h1.2 _ hc
    · rintro b ⟨bb, rfl, hc⟩
      have hc' := (cat_map (Curve.map (Coord.conform d))
        (fun s => Ft (foot w') (CurveRel (specHeader dl d) .le s)) cs bb).mpr hc
      obtain ⟨b, h1, h2⟩ := counted_ft (hb := hb) (by simpa using h1.1) hc'
      exact ⟨b, by simpa using h1, h2⟩
  | polyhedralSurface ps =>
    simp only [slSingle, Bool.and_eq_true, decide_eq_true_eq, List.all_eq_true] at h1
    refine Emits.mono (emits_plain (R := fun p => Ft (foot w') (Nested (specHeader dl d) .le 3
      (RingsBody (p.map (List.map (Coord.conform d)))))) (by simp) h hg ?_) ?_
    · intro p hp i b0
      exact Emits.mono (emits_rings_ft (k := .polygon) (Or.inl rfl) (by simp [put, h.state, hs])
        (HdrStep.later (hg.put b0) _) (hg.put b0) (h1.2 p hp) (hl.2 p hp).2) (nested_ft (t := .polygon))
    · rintro b ⟨bb, rfl, hc⟩
      have hc' := (cat_map (List.map (List.map (Coord.conform d))) (fun p => Ft (foot w') (Nested (specHeader dl d) .le 3
        (RingsBody p))) ps bb).mpr hc
      obtain ⟨b, h1, h2⟩ := counted_ft (hb := hb) (by simpa using h1.1) hc'
      exact ⟨b, by simpa using h1, h2⟩
  | tin ps =>
    simp only [slSingle, Bool.and_eq_true, decide_eq_true_eq, List.all_eq_true] at h1
    refine Emits.mono (emits_plain (R := fun p => Ft (foot w') (Nested (specHeader dl d) .le 17
      (RingsBody (p.map (List.map (Coord.conform d)))))) (by simp) h hg ?_) ?_
    · intro p hp i b0
      exact Emits.mono (emits_rings_ft (k := .triangle) (Or.inr rfl) (by simp [put, h.state, hs])
        (HdrStep.later (hg.put b0) _) (hg.put b0) (h1.2 p hp) (hl.2 p hp).2) (nested_ft (t := .triangle))
    · rintro b ⟨bb, rfl, hc⟩
      have hc' := (cat_map (List.map (List.map (Coord.conform d))) (fun p => Ft (foot w') (Nested (specHeader dl d) .le 17
        (RingsBody p))) ps bb).mpr hc
      obtain ⟨b, h1, h2⟩ := counted_ft (hb := hb) (by simpa using h1.1) hc'
      exact ⟨b, by simpa using h1, h2⟩
  | _ => exact safe rfl

end WkbWriter
end Geozero
