import Verif.Props.Tessellator

/-
C59 and C60: exactly what is filled and what an OBJ document describes.
-/

namespace Geozero
namespace Tess

private theorem filledFrom_append (a b : List TessPart) (pend : List (List Coord)) :
    filledFrom pend (a ++ b) = filledFrom pend a ++ filledFrom (looseAfter pend a) b := by
  induction a generalizing pend with
  | nil => rfl
  | cons p a ih => cases p <;> simp [filledFrom, looseAfter, ih]

private theorem looseAfter_append (a b : List TessPart) (pend : List (List Coord)) :
    looseAfter pend (a ++ b) = looseAfter (looseAfter pend a) b := by
  induction a generalizing pend with
  | nil => rfl
  | cons p a ih => cases p <;> simp [looseAfter, ih]

/-- The calls deliver the fills of the parts and leave the loose lines behind, or fail because a tessellator does. -/
private def Parts (ly : Lyon) (evs : List Ev) (parts : List TessPart) : Prop :=
  ∀ (t : Tess) (pend : List (List Coord)) (out : List VOut), t.Rings (polyPath ly.cast pend) out →
    match feed (step ly) t evs with
    | .ok t' => ∃ vs, FillsOf ly (filledFrom pend parts) vs ∧ t'.Rings (polyPath ly.cast (looseAfter pend parts)) (out ++ vs)
    | .error _ => ¬ ly.Total

private theorem Parts.nil {ly : Lyon} : Parts ly [] [] := fun t pend out h => ⟨[], .nil, by simpa [looseAfter] using h⟩

private theorem Parts.append {ly : Lyon} {a b : List Ev} {p q : List TessPart} (ha : Parts ly a p) (hb : Parts ly b q) :
    Parts ly (a ++ b) (p ++ q) := by
  intro t pend out h
  have h1 := ha t pend out h
  rw [feed_append]
  cases hf : feed (step ly) t a with
  | error e => rw [hf] at h1; exact h1
  | ok t1 =>
    rw [hf] at h1
    obtain ⟨v1, f1, r1⟩ := h1
    have h2 := hb t1 _ _ r1
    simp only
    cases hg : feed (step ly) t1 b with
    | error e => rw [hg] at h2; exact h2
    | ok t2 =>
      rw [hg] at h2
      obtain ⟨v2, f2, r2⟩ := h2
      refine ⟨v1 ++ v2, ?_, ?_⟩
      · rw [filledFrom_append]; exact FillsOf.append f1 f2
      · rw [looseAfter_append, ← List.append_assoc]; exact r2

private theorem Parts.members {α : Type} {ly : Lyon} (f : Nat → α → List Ev) (parts : α → List TessPart) (xs : List α)
    (h : ∀ x ∈ xs, ∀ i, Parts ly (f i x) (parts x)) (i : Nat) : Parts ly (evList f i xs) (xs.flatMap parts) := by
  induction xs generalizing i with
  | nil => exact .nil
  | cons x xs ih =>
    rw [List.flatMap_cons]
    exact Parts.append (h x (by simp) i) (ih (fun y hy => h y (by simp [hy])) (i + 1))

private theorem Parts.bracket {α : Type} {ly : Lyon} (k : GKind) (tagged : Bool) (i : Nat) (f : Nat → α → List Ev) (xs : List α)
    (parts : α → List TessPart) (hk : k ≠ .lineString ∧ k ≠ .polygon) (h : ∀ x ∈ xs, ∀ i, Parts ly (f i x) (parts x)) :
    Parts ly (Geozero.bracket k tagged i f xs) (xs.flatMap parts) := by
  intro t pend out ht
  have hb : step ly t (.gbegin k tagged xs.length i) = .ok t := by cases k <;> first | rfl | simp at hk
  have he : ∀ t', step ly t' (.gend k tagged i) = .ok t' := by intro t'; cases k <;> first | rfl | simp at hk
  have h := Parts.members f parts xs h 0 t pend out ht
  simp only [Geozero.bracket, feed_cons, hb, feed_append, he, feed]
  revert h
  cases feed (step ly) t (evList f 0 xs) <;> exact id

private theorem polyPath_append (cast : F64 → Float32Bits) (a b : List (List Coord)) :
    polyPath cast (a ++ b) = polyPath cast a ++ polyPath cast b := by simp [polyPath]

private theorem Parts.loose (ly : Lyon) (cs : List Coord) (i : Nat) : Parts ly (lineEvs false false i cs) [.loose cs] := by
  intro t pend out h
  obtain ⟨t', e, h'⟩ := feed_ring ly cs i t _ out h
  rw [e]
  refine ⟨[], .nil, ?_⟩
  simpa [looseAfter, polyPath] using h'

private theorem Parts.line (ly : Lyon) (cs : List Coord) (i : Nat) : Parts ly (lineEvs false true i cs) [.line cs] := by
  intro t pend out ht
  obtain ⟨t1, e1, e2, e3⟩ := feed_line ly cs { t with numRings := 1 } _ out ⟨ht.1, ht.2.1, ht.2.2⟩
  have hfeed : feed (step ly) t (lineEvs false true i cs) = linestringEnd ly t1 true := by
    simp only [lineEvs, Geozero.bracket, feed_cons, step, if_true, feed_append, e1]
    simp only [feed, step]
    cases linestringEnd ly t1 true <;> rfl
  rw [hfeed]
  simp only [linestringEnd, e2, if_true, PathBuilder.build, Bool.and_false, Bool.false_eq_true, if_false, tessellateLine]
  cases hs : ly.stroke (polyPath ly.cast pend ++ ringPath ly.cast cs) with
  | ok u => exact ⟨[], .nil, rfl, rfl, by simp [e3]⟩
  | error e =>
    intro hl
    obtain ⟨u, hu⟩ := hl.stroke (polyPath ly.cast pend ++ ringPath ly.cast cs)
    rw [hs] at hu
    cases hu

private theorem Parts.area (ly : Lyon) (rs : List (List Coord)) (tagged : Bool) (i : Nat) :
    Parts ly (polyEvs false tagged i rs) [.area rs] := by
  intro t pend out ht
  obtain ⟨t1, e1, h1, h2, h3⟩ := feed_rings ly rs 0 { t with numRings := rs.length } _ out ⟨ht.1, ht.2.1, ht.2.2⟩
  rw [← polyPath_append] at h2
  have hfeed : feed (step ly) t (polyEvs false tagged i rs) = polygonEnd ly t1 := by
    simp only [polyEvs, Geozero.bracket, feed_cons, step, feed_append, e1]
    simp only [feed, step]
    cases polygonEnd ly t1 <;> rfl
  have hend : polygonEnd ly t1 = match tessellatePoly ly (polyPath ly.cast (pend ++ rs)) with
      | .error e => .error e
      | .ok vs => .ok { t1 with started := false, builder := {}, out := t1.out ++ vs } := by
    simp only [polygonEnd, closeStarted, h1, h2, PathBuilder.build, Bool.and_false, Bool.false_eq_true, if_false]
    cases tessellatePoly ly (polyPath ly.cast (pend ++ rs)) <;> rfl
  rw [hfeed, hend]
  unfold tessellatePoly
  cases hf : ly.fill (polyPath ly.cast (pend ++ rs)) with
  | error e =>
    intro hl
    obtain ⟨_, _, _, h, _⟩ := hl.fill (polyPath ly.cast (pend ++ rs))
    rw [hf] at h
    cases h
  | ok q =>
    obtain ⟨vs, is⟩ := q
    cases ht : triples is with
    | none =>
      obtain ⟨e, he⟩ := triples_of_triangles is ht
      simp only [he]
      intro hl
      obtain ⟨_, _, _, h, h'⟩ := hl.fill (polyPath ly.cast (pend ++ rs))
      rw [hf] at h
      cases h
      rw [ht] at h'
      cases h'
    | some ts =>
      simp only [triangles_of_triples is ts ht]
      exact ⟨_, by simpa [filledFrom] using FillsOf.cons ⟨vs, is, ts, hf, ht, rfl⟩ FillsOf.nil, rfl, rfl, by rw [h3]⟩

private theorem Parts.seg (ly : Lyon) (s : Seg) (h : s.Lineal) (i : Nat) : Parts ly (segEvs false i s) [s.part] := by
  cases s with
  | line cs => exact Parts.loose ly cs i
  | circ cs => exact h.elim

private theorem flatMap_single {α β : Type} (f : α → β) (xs : List α) : (xs.flatMap fun x => [f x]) = xs.map f := by
  induction xs with
  | nil => rfl
  | cons x xs ih => simp [ih]

private theorem Parts.curve (ly : Lyon) (c : Curve) (h : c.Lineal) (i : Nat) : Parts ly (curveEvs false i c) c.tessParts := by
  cases c with
  | seg s => exact Parts.seg ly s h i
  | compound ss =>
    have := Parts.bracket (ly := ly) .compoundCurve true i (segEvs false) ss (fun s => [s.part]) (by simp) fun s hs i => Parts.seg ly s (h s hs) i
    rw [flatMap_single] at this
    exact this

private theorem Parts.surface (ly : Lyon) (s : Surface) (h : s.Lineal) (i : Nat) : Parts ly (surfaceEvs false i s) s.tessParts := by
  cases s with
  | polygon rs => exact Parts.area ly rs false i
  | curvePolygon cs => exact Parts.bracket .curvePolygon true i (curveEvs false) cs Curve.tessParts (by simp) fun c hc i => Parts.curve ly c (h c hc) i

private theorem Parts.geom (ly : Lyon) (g : Geom) (hg : g.Lineal) (i : Nat) : Parts ly (g.events false i) g.tessParts := by
  induction hg generalizing i with
  | lineString cs => simpa only [Geom.events, Geom.tessParts] using Parts.line ly cs i
  | compoundCurve ss h => simpa only [Geom.events, Geom.tessParts, curveEvs, Curve.tessParts] using Parts.curve ly (.compound ss) h i
  | multiLineString ls =>
    have := Parts.bracket (ly := ly) .multiLineString true i (lineEvs false false) ls (fun l => [.loose l]) (by simp) fun l _ i => Parts.loose ly l i
    rw [flatMap_single] at this
    simpa only [Geom.events, Geom.tessParts] using this
  | multiCurve cs h =>
    simpa only [Geom.events, Geom.tessParts] using
      Parts.bracket (ly := ly) .multiCurve true i (curveEvs false) cs Curve.tessParts (by simp) fun c hc i => Parts.curve ly c (h c hc) i
  | polygon rs => simpa only [Geom.events, Geom.tessParts] using Parts.area ly rs true i
  | triangle rs =>
    have := Parts.bracket (ly := ly) .triangle true i (lineEvs false false) rs (fun l => [.loose l]) (by simp) fun l _ i => Parts.loose ly l i
    rw [flatMap_single] at this
    simpa only [Geom.events, Geom.tessParts, triEvs] using this
  | curvePolygon cs h =>
    simpa only [Geom.events, Geom.tessParts] using
      Parts.bracket (ly := ly) .curvePolygon true i (curveEvs false) cs Curve.tessParts (by simp) fun c hc i => Parts.curve ly c (h c hc) i
  | multiPolygon ps =>
    have := Parts.bracket (ly := ly) .multiPolygon true i (polyEvs false false) ps (fun rs => [.area rs]) (by simp) fun rs _ i => Parts.area ly rs false i
    rw [flatMap_single] at this
    simpa only [Geom.events, Geom.tessParts] using this
  | polyhedralSurface ps =>
    have := Parts.bracket (ly := ly) .polyhedralSurface true i (polyEvs false false) ps (fun rs => [.area rs]) (by simp) fun rs _ i => Parts.area ly rs false i
    rw [flatMap_single] at this
    simpa only [Geom.events, Geom.tessParts] using this
  | tin ts =>
    have := Parts.bracket (ly := ly) .tin true i (triEvs false false) ts (fun rs => rs.map .loose) (by simp) fun rs _ i => by
      have := Parts.bracket (ly := ly) .triangle false i (lineEvs false false) rs (fun l => [.loose l]) (by simp) fun l _ i => Parts.loose ly l i
      rw [flatMap_single] at this
      exact this
    simpa only [Geom.events, Geom.tessParts] using this
  | multiSurface ss h =>
    simpa only [Geom.events, Geom.tessParts] using
      Parts.bracket (ly := ly) .multiSurface true i (surfaceEvs false) ss Surface.tessParts (by simp) fun s hs i => Parts.surface ly s (h s hs) i
  | collection gs h ih =>
    rw [events_collection]
    simpa only [Geom.tessParts, Geom.tessPartsList_eq] using
      Parts.bracket (ly := ly) .collection true i (Geom.events false) gs Geom.tessParts (by simp) fun g hm i => ih g hm i

private theorem Parts.feats (ly : Lyon) (fs : List Feat) (parts : List TessPart) (h : LinealFeats fs parts) (k : Nat) :
    Parts ly (geomCalls (featEvs k fs)) parts := by
  induction h generalizing k with
  | nil => exact .nil
  | none hf h ih =>
    simp only [featEvs, geomCalls_append, geomCalls_feat, hf, Option.getD_none, List.nil_append]
    exact ih (k + 1)
  | some g i hf hg h ih =>
    simp only [featEvs, geomCalls_append, geomCalls_feat, hf, Option.getD_some]
    exact Parts.append (Parts.geom ly g hg i) (ih (k + 1))

end Tess

/-- What is filled, exactly, for a dataset whose geometries have no points and no circular strings: each polygon together with the loose
lines (of multi line strings, curves and triangles) that came after the polygon or separate line string before it; other geometries
contribute nothing of their own.  It can only fail if a tessellator fails. -/
theorem C59_filled_exact (ly : Lyon) (name : Option Text) (fs : List Feat) (parts : List TessPart) (h : LinealFeats fs parts) :
    (∀ t, feed (Tess.fstep ly) {} (datasetEvs name fs) = .ok t → FillsOf ly (filledFrom [] parts) t.out) ∧
    (ly.Total → ∃ t, feed (Tess.fstep ly) {} (datasetEvs name fs) = .ok t) := by
  have hr := Tess.Parts.feats ly fs parts h 0 {} [] [] ⟨rfl, rfl, rfl⟩
  have he : Tess.geomCalls (datasetEvs name fs) = Tess.geomCalls (featEvs 0 fs) := by
    show Tess.geomCalls (featEvs 0 fs ++ [.dsEnd]) = _
    rw [Tess.geomCalls_append]
    exact List.append_nil _
  rw [Tess.feed_fstep, he]
  cases hf : feed (Tess.step ly) {} (Tess.geomCalls (featEvs 0 fs)) with
  | ok t =>
    rw [hf] at hr
    obtain ⟨vs, h1, -, -, h2⟩ := hr
    refine ⟨fun t' ht' => ?_, fun _ => ⟨t, rfl⟩⟩
    cases ht'
    rw [h2]
    simpa using h1
  | error e =>
    rw [hf] at hr
    exact ⟨fun t' ht' => (nomatch ht'), fun hl => absurd hl hr⟩

example : LinealFeats [{ geom := some ((Geom.multiLineString [exTessRing]).events false 0) }, {},
      { geom := some ((Geom.triangle [exTessRing]).events false 2) }, { geom := some ((Geom.polygon [exTessRing]).events false 3) }]
    [.loose exTessRing, .loose exTessRing, .area [exTessRing]] ∧
    filledFrom [] [.loose exTessRing, .loose exTessRing, .area [exTessRing]] = [[exTessRing, exTessRing, exTessRing]] :=
  ⟨.some (parts := [.loose exTessRing, .area [exTessRing]]) (.multiLineString [exTessRing]) _ rfl (.multiLineString _) (.none rfl
    (.some (parts := [.area [exTessRing]]) (.triangle [exTessRing]) _ rfl (.triangle _)
      (.some (parts := []) (.polygon [exTessRing]) _ rfl (.polygon _) .nil))), rfl⟩

private theorem objDocument_cons (o : VOut) (out : List VOut) (lines : List ObjLine) (h : objDocument (o :: out) = .ok lines) :
    ∃ l ls, objLine o = .ok l ∧ objDocument out = .ok ls ∧ lines = l :: ls := by
  unfold objDocument at h ⊢
  rw [List.mapM_cons] at h
  cases ho : objLine o with
  | error e => rw [ho] at h; cases h
  | ok l =>
    rw [ho] at h
    cases hr : out.mapM objLine with
    | error e => rw [hr] at h; cases h
    | ok ls => rw [hr] at h; cases h; exact ⟨l, ls, rfl, rfl, rfl⟩

private theorem objLine_triangle (a b c : Nat) (l : ObjLine) (h : objLine (.triangle a b c) = .ok l) : l = .f (a + 1) (b + 1) (c + 1) := by
  unfold objLine objIndex at h
  by_cases h1 : a + 1 < 2 ^ 16 <;> simp only [h1, if_true, if_false] at h
  · by_cases h2 : b + 1 < 2 ^ 16 <;> simp only [h2, if_true, if_false] at h
    · by_cases h3 : c + 1 < 2 ^ 16 <;> simp only [h3, if_true, if_false] at h
      · cases h; rfl
      · cases h
    · cases h
  · cases h

/-- What an OBJ document describes, exactly, for any calls to the output: every triangle, made of vertices counted from the first vertex of
the whole document. -/
theorem C60_obj_exact (out : List VOut) (lines : List ObjLine) (h : objDocument out = .ok lines) :
    objTriangles lines = fillTriangles (outVertices out) (outTriangles out) := by
  have key : objVertices lines = outVertices out ∧ objFaces lines = (outTriangles out).map fun t => (t.1 + 1, t.2.1 + 1, t.2.2 + 1) := by
    induction out generalizing lines with
    | nil => cases h; exact ⟨rfl, rfl⟩
    | cons o out ih =>
      obtain ⟨l, ls, h1, h2, rfl⟩ := objDocument_cons o out lines h
      obtain ⟨i1, i2⟩ := ih ls h2
      cases o with
      | vertex p => cases h1; exact ⟨by simp [objVertices, outVertices, i1], by simp [objFaces, outTriangles, i2]⟩
      | triangle a b c =>
        cases objLine_triangle a b c l h1
        exact ⟨by simp [objVertices, outVertices, i1], by simp [objFaces, outTriangles, i2]⟩
  unfold objTriangles fillTriangles
  rw [key.1, key.2, List.map_map]
  rfl

/-- The document is printed if and only if no triangle refers to a vertex from the 65536th on; otherwise printing panics. -/
theorem C60_obj_printed_iff (out : List VOut) :
    (∃ lines, objDocument out = .ok lines) ↔ ∀ t ∈ outTriangles out, t.1 < 65535 ∧ t.2.1 < 65535 ∧ t.2.2 < 65535 := by
  induction out with
  | nil => exact ⟨fun _ => by simp [outTriangles], fun _ => ⟨[], rfl⟩⟩
  | cons o out ih =>
    have hcons : (∃ lines, objDocument (o :: out) = .ok lines) ↔ (∃ l, objLine o = .ok l) ∧ ∃ ls, objDocument out = .ok ls := by
      constructor
      · rintro ⟨lines, h⟩
        obtain ⟨l, ls, h1, h2, -⟩ := objDocument_cons o out lines h
        exact ⟨⟨l, h1⟩, ls, h2⟩
      · rintro ⟨⟨l, h1⟩, ls, h2⟩
        refine ⟨l :: ls, ?_⟩
        unfold objDocument at h2 ⊢
        rw [List.mapM_cons, h1, h2]
        rfl
    rw [hcons, ih]
    cases o with
    | vertex p => exact ⟨fun h => h.2, fun h => ⟨⟨_, rfl⟩, h⟩⟩
    | triangle a b c =>
      have hl : (∃ l, objLine (.triangle a b c) = .ok l) ↔ a < 65535 ∧ b < 65535 ∧ c < 65535 := by
        unfold objLine objIndex
        by_cases h1 : a + 1 < 2 ^ 16 <;> simp only [h1, if_true, if_false]
        · by_cases h2 : b + 1 < 2 ^ 16 <;> simp only [h2, if_true, if_false]
          · by_cases h3 : c + 1 < 2 ^ 16 <;> simp only [h3, if_true, if_false]
            · exact ⟨fun _ => by omega, fun _ => ⟨_, rfl⟩⟩
            · exact ⟨fun ⟨_, h⟩ => (nomatch h), fun h => by omega⟩
          · exact ⟨fun ⟨_, h⟩ => (nomatch h), fun h => by omega⟩
        · exact ⟨fun ⟨_, h⟩ => (nomatch h), fun h => by omega⟩
      rw [hl]
      simp only [outTriangles, List.mem_cons, forall_eq_or_imp]

example : ∃ lines, objDocument [.vertex ⟨1, 2⟩, .vertex ⟨3, 4⟩, .triangle 1 0 1, .vertex ⟨5, 6⟩, .triangle 0 0 65534] = .ok lines :=
  (C60_obj_printed_iff _).mpr (by decide)

end Geozero
