import Verif.Spec.Tessellator
import Verif.Lemmas.Feature

/-
Properties of the tessellator: C59, C60.
-/

namespace Geozero
namespace Tess

/-- nothing in progress -/
def Clean (t : Tess) : Prop := t.started = false ∧ t.builder = {}

/-- between rings: no sub-path in progress, the rings so far in the builder -/
def Rings (t : Tess) (cmds : List PathCmd) (out : List VOut) : Prop :=
  t.started = false ∧ t.builder = { cmds, inSub := false } ∧ t.out = out

theorem feed_rest (ly : Lyon) (cs : List Coord) (i : Nat) (hi : i ≠ 0) (t : Tess) (cmds : List PathCmd)
    (hb : t.builder = { cmds, inSub := true }) :
    feed (step ly) t (evList (coordEvs false) i cs) = .ok { t with
      builder := { cmds := cmds ++ cs.map (fun c => PathCmd.lineTo ⟨ly.cast c.x, ly.cast c.y⟩), inSub := true } } := by
  induction cs generalizing i t cmds with
  | nil =>
    simp only [evList, feed, List.map_nil, List.append_nil, ← hb]
  | cons c cs ih =>
    simp only [evList, coordEvs, coordEv, List.cons_append, List.nil_append, feed_cons, step, xy, hi, if_false, hb,
      PathBuilder.lineTo, Bool.not_true, Bool.and_false, Bool.false_eq_true]
    rw [ih (i + 1) (by omega) _ _ rfl]
    simp

/-- the coordinates of a line, then `close` -/
theorem feed_line (ly : Lyon) (cs : List Coord) (t : Tess) (cmds : List PathCmd) (out : List VOut) (h : t.Rings cmds out) :
    ∃ t', feed (step ly) t (evList (coordEvs false) 0 cs) = .ok t' ∧
      t'.closeStarted ly = .ok { cmds := cmds ++ ringPath ly.cast cs, inSub := false } ∧ t'.out = out := by
  obtain ⟨h1, h2, h3⟩ := h
  cases cs with
  | nil => exact ⟨t, rfl, by simp [closeStarted, h1, h2, ringPath], h3⟩
  | cons c cs =>
    simp only [evList, coordEvs, coordEv, List.cons_append, List.nil_append, feed_cons, step, xy, h2,
      PathBuilder.begin, Bool.and_false, Bool.false_eq_true, if_false, if_true]
    rw [feed_rest ly cs (0 + 1) (by omega) _ _ rfl]
    refine ⟨_, rfl, ?_, h3⟩
    simp [closeStarted, PathBuilder.close, ringPath]

theorem feed_ring (ly : Lyon) (cs : List Coord) (i : Nat) (t : Tess) (cmds : List PathCmd) (out : List VOut) (h : t.Rings cmds out) :
    ∃ t', feed (step ly) t (lineEvs false false i cs) = .ok t' ∧ t'.Rings (cmds ++ ringPath ly.cast cs) out := by
  obtain ⟨t', e1, e2, e3⟩ := feed_line ly cs t cmds out h
  refine ⟨{ t' with started := false, builder := { cmds := cmds ++ ringPath ly.cast cs, inSub := false } }, ?_, rfl, rfl, e3⟩
  simp only [lineEvs, bracket, feed_cons, step, Bool.false_eq_true, if_false, feed_append, e1]
  simp [feed, step, linestringEnd, e2]

theorem feed_rings (ly : Lyon) (rs : List (List Coord)) (i : Nat) (t : Tess) (cmds : List PathCmd) (out : List VOut)
    (h : t.Rings cmds out) :
    ∃ t', feed (step ly) t (evList (lineEvs false false) i rs) = .ok t' ∧ t'.Rings (cmds ++ polyPath ly.cast rs) out := by
  induction rs generalizing i t cmds with
  | nil => exact ⟨t, rfl, by simpa [polyPath] using h⟩
  | cons r rs ih =>
    obtain ⟨t1, e1, h1⟩ := feed_ring ly r i t cmds out h
    obtain ⟨t2, e2, h2⟩ := ih (i + 1) t1 _ h1
    refine ⟨t2, ?_, by simpa [polyPath] using h2⟩
    simp only [evList, feed_append, e1, e2]

theorem triangles_of_triples : ∀ (is : List Nat) (ts : List (Nat × Nat × Nat)), triples is = some ts →
    triangles is = .ok (ts.map fun t => VOut.triangle t.1 t.2.1 t.2.2)
  | [], ts, h => by
    cases h
    rfl
  | [_], _, h => by cases h
  | [_, _], _, h => by cases h
  | a :: b :: c :: rest, ts, h => by
    simp only [triples, Option.map_eq_some_iff] at h
    obtain ⟨ts', h', rfl⟩ := h
    simp [triangles, triangles_of_triples rest ts' h']

theorem triples_of_triangles : ∀ (is : List Nat), triples is = none → ∃ e, triangles is = .error e
  | [], h => by cases h
  | [_], _ => ⟨_, rfl⟩
  | [_, _], _ => ⟨_, rfl⟩
  | a :: b :: c :: rest, h => by
    simp only [triples, Option.map_eq_none_iff] at h
    obtain ⟨e, he⟩ := triples_of_triangles rest h
    exact ⟨e, by simp [triangles, he]⟩

/-- The calls deliver the fills of some polygons and leave nothing behind, or fail because a tessellator does. -/
def Res (ly : Lyon) (t : Tess) (evs : List Ev) (areas : List (List (List Coord))) : Prop :=
  match feed (step ly) t evs with
  | .ok t' => t'.Clean ∧ ∃ vs, FillsOf ly areas vs ∧ t'.out = t.out ++ vs
  | .error _ => ¬ ly.Total

/-- one polygon, tagged or not -/
theorem res_poly (ly : Lyon) (rs : List (List Coord)) (tagged : Bool) (i : Nat) (t : Tess) (ht : t.Clean) :
    Res ly t (polyEvs false tagged i rs) [rs] := by
  obtain ⟨t1, e1, h1, h2, h3⟩ := feed_rings ly rs 0 { t with numRings := rs.length } [] t.out ⟨ht.1, ht.2, rfl⟩
  simp only [List.nil_append] at h2
  have hfeed : feed (step ly) t (polyEvs false tagged i rs) = polygonEnd ly t1 := by
    simp only [polyEvs, bracket, feed_cons, step, feed_append, e1]
    simp only [feed, step]
    cases polygonEnd ly t1 <;> rfl
  have hend : polygonEnd ly t1 = match tessellatePoly ly (polyPath ly.cast rs) with
      | .error e => .error e
      | .ok vs => .ok { t1 with started := false, builder := {}, out := t1.out ++ vs } := by
    simp only [polygonEnd, closeStarted, h1, h2, PathBuilder.build, Bool.and_false, Bool.false_eq_true, if_false]
    cases tessellatePoly ly (polyPath ly.cast rs) <;> rfl
  unfold Res
  rw [hfeed, hend]
  unfold tessellatePoly
  cases hf : ly.fill (polyPath ly.cast rs) with
  | error e =>
    intro hl
    obtain ⟨_, _, _, h, _⟩ := hl.fill (polyPath ly.cast rs)
    rw [hf] at h
    cases h
  | ok q =>
    obtain ⟨vs, is⟩ := q
    cases ht : triples is with
    | none =>
      obtain ⟨e, he⟩ := triples_of_triangles is ht
      simp only [he]
      intro hl
      obtain ⟨_, _, _, h, h'⟩ := hl.fill (polyPath ly.cast rs)
      rw [hf] at h
      cases h
      rw [ht] at h'
      cases h'
    | some ts =>
      simp only [triangles_of_triples is ts ht]
      exact ⟨⟨rfl, rfl⟩, _, by simpa using FillsOf.cons ⟨vs, is, ts, hf, ht, rfl⟩ FillsOf.nil, by rw [h3]⟩

theorem res_tagged_line (ly : Lyon) (cs : List Coord) (i : Nat) (t : Tess) (ht : t.Clean) :
    Res ly t (lineEvs false true i cs) [] := by
  obtain ⟨t1, e1, e2, e3⟩ := feed_line ly cs { t with numRings := 1 } [] t.out ⟨ht.1, ht.2, rfl⟩
  simp only [List.nil_append] at e2
  have hfeed : feed (step ly) t (lineEvs false true i cs) = linestringEnd ly t1 true := by
    simp only [lineEvs, bracket, feed_cons, step, if_true, feed_append, e1]
    simp only [feed, step]
    cases linestringEnd ly t1 true <;> rfl
  unfold Res
  rw [hfeed]
  simp only [linestringEnd, e2, if_true, PathBuilder.build, Bool.and_false, Bool.false_eq_true, if_false, tessellateLine]
  cases hs : ly.stroke (ringPath ly.cast cs) with
  | ok u => exact ⟨⟨rfl, rfl⟩, [], .nil, by simp [e3]⟩
  | error e =>
    intro hl
    obtain ⟨u, hu⟩ := hl.stroke (ringPath ly.cast cs)
    rw [hs] at hu
    cases hu

theorem FillsOf.append {ly : Lyon} {p q : List (List (List Coord))} {a b : List VOut} (h : FillsOf ly p a) (h' : FillsOf ly q b) :
    FillsOf ly (p ++ q) (a ++ b) := by
  induction h with
  | nil => exact h'
  | cons h hs ih =>
    rw [List.append_assoc]
    exact .cons h ih

theorem Res.nil {ly : Lyon} {t : Tess} (ht : t.Clean) : Res ly t [] [] := ⟨ht, [], .nil, by simp⟩

theorem Res.append {ly : Lyon} {t : Tess} {a b : List Ev} {p q : List (List (List Coord))} (h : Res ly t a p)
    (hb : ∀ t', t'.Clean → Res ly t' b q) : Res ly t (a ++ b) (p ++ q) := by
  unfold Res at h ⊢
  rw [feed_append]
  cases hf : feed (step ly) t a with
  | error e =>
    rw [hf] at h
    exact h
  | ok t1 =>
    rw [hf] at h
    obtain ⟨c1, v1, f1, o1⟩ := h
    have h2 := hb t1 c1
    unfold Res at h2
    simp only
    cases hg : feed (step ly) t1 b with
    | error e =>
      rw [hg] at h2
      exact h2
    | ok t2 =>
      rw [hg] at h2
      obtain ⟨c2, v2, f2, o2⟩ := h2
      exact ⟨c2, v1 ++ v2, FillsOf.append f1 f2, by rw [o2, o1, List.append_assoc]⟩

/-- members that each deliver their polygons and leave nothing behind -/
theorem res_members {α : Type} (ly : Lyon) (f : Nat → α → List Ev) (areas : α → List (List (List Coord))) (xs : List α)
    (h : ∀ x ∈ xs, ∀ i (t : Tess), t.Clean → Res ly t (f i x) (areas x)) (i : Nat) (t : Tess) (ht : t.Clean) :
    Res ly t (evList f i xs) (xs.flatMap areas) := by
  induction xs generalizing i t with
  | nil => exact .nil ht
  | cons x xs ih =>
    rw [List.flatMap_cons]
    exact Res.append (h x (by simp) i t ht) fun t' ht' => ih (fun y hy => h y (by simp [hy])) (i + 1) t' ht'

/-- a container whose begin and end calls do nothing -/
theorem res_bracket {α : Type} (ly : Lyon) (k : GKind) (i : Nat) (f : Nat → α → List Ev) (xs : List α) (t : Tess)
    (areas : List (List (List Coord))) (hk : k ≠ .lineString ∧ k ≠ .polygon) (h : Res ly t (evList f 0 xs) areas) :
    Res ly t (bracket k true i f xs) areas := by
  have hb : step ly t (.gbegin k true xs.length i) = .ok t := by cases k <;> first | rfl | simp at hk
  have he : ∀ t', step ly t' (.gend k true i) = .ok t' := by intro t'; cases k <;> first | rfl | simp at hk
  unfold Res at h ⊢
  simp only [bracket, feed_cons, hb, feed_append, he, feed]
  revert h
  cases feed (step ly) t (evList f 0 xs) <;> exact id

theorem res_solid (ly : Lyon) (g : Geom) (hg : g.Solid) (i : Nat) (t : Tess) (ht : t.Clean) :
    Res ly t (g.events false i) g.areas := by
  induction hg generalizing i t with
  | lineString cs => simpa only [Geom.events, Geom.areas] using res_tagged_line ly cs i t ht
  | polygon rs => simpa only [Geom.events, Geom.areas] using res_poly ly rs true i t ht
  | multiPolygon ps =>
    have := res_members ly (polyEvs false false) (fun rs => [rs]) ps (fun rs _ i t ht => res_poly ly rs false i t ht) 0 t ht
    simp only [Geom.events]
    exact res_bracket ly .multiPolygon i _ ps t _ (by simp) (by simpa [Geom.areas] using this)
  | polyhedralSurface ps =>
    have := res_members ly (polyEvs false false) (fun rs => [rs]) ps (fun rs _ i t ht => res_poly ly rs false i t ht) 0 t ht
    simp only [Geom.events]
    exact res_bracket ly .polyhedralSurface i _ ps t _ (by simp) (by simpa [Geom.areas] using this)
  | multiSurface ss h =>
    have := res_members ly (surfaceEvs false) Surface.area ss (fun s hs i t ht => by
      obtain ⟨rs, rfl⟩ := h s hs
      exact res_poly ly rs false i t ht) 0 t ht
    simp only [Geom.events]
    exact res_bracket ly .multiSurface i _ ss t _ (by simp) (by simpa [Geom.areas] using this)
  | collection gs h ih =>
    have := res_members ly (Geom.events false) Geom.areas gs (fun g hm i t ht => ih g hm i t ht) 0 t ht
    rw [events_collection]
    exact res_bracket ly .collection i _ gs t _ (by simp) (by simpa [Geom.areas, Geom.areasList_eq] using this)

/-- the geometry calls among the calls of a dataset -/
def geomCalls (evs : List FEv) : List Ev := evs.filterMap fun e => match e with | .geom e => some e | _ => none

theorem feed_fstep (ly : Lyon) (evs : List FEv) (t : Tess) : feed (fstep ly) t evs = feed (step ly) t (geomCalls evs) := by
  induction evs generalizing t with
  | nil => rfl
  | cons e evs ih =>
    cases e with
    | geom e =>
      simp only [geomCalls, List.filterMap_cons, feed_cons, fstep]
      cases step ly t e with
      | ok t' => exact ih t'
      | error x => rfl
    | _ => exact ih t

theorem geomCalls_append (a b : List FEv) : geomCalls (a ++ b) = geomCalls a ++ geomCalls b := List.filterMap_append

theorem geomCalls_geoms (es : List Ev) : geomCalls (es.map FEv.geom) = es := by
  induction es with
  | nil => rfl
  | cons e es ih => simpa [geomCalls] using ih

theorem geomCalls_feat (f : Feat) (k : Nat) : geomCalls (f.evs k) = f.geom.getD [] := by
  have hp : geomCalls f.propsPart = [] := by
    unfold Feat.propsPart
    cases f.props with
    | none => rfl
    | some ps =>
      have : geomCalls (propEvs ps) = [] := by
        induction ps with
        | nil => rfl
        | cons p ps ih => exact ih
      show geomCalls (propEvs ps ++ [.propsEnd]) = []
      rw [geomCalls_append, this]
      rfl
  have hg : geomCalls f.geomPart = f.geom.getD [] := by
    unfold Feat.geomPart
    cases f.geom with
    | none => rfl
    | some es =>
      show geomCalls (es.map FEv.geom ++ [.geomEnd]) = es
      rw [geomCalls_append, geomCalls_geoms]
      exact List.append_nil _
  unfold Feat.evs
  show geomCalls (_ ++ [.ftEnd k]) = _
  rw [geomCalls_append]
  have hend : geomCalls [.ftEnd k] = [] := rfl
  rw [hend, List.append_nil]
  cases f.geomFirst <;> simp [geomCalls_append, hp, hg]

theorem res_feats (ly : Lyon) (fs : List Feat) (areas : List (List (List Coord))) (h : SolidFeats fs areas) (k : Nat) (t : Tess)
    (ht : t.Clean) : Res ly t (geomCalls (featEvs k fs)) areas := by
  induction h generalizing k t with
  | nil => exact .nil ht
  | none hf h ih =>
    simp only [featEvs, geomCalls_append, geomCalls_feat, hf, Option.getD_none, List.nil_append]
    exact ih (k + 1) t ht
  | some g i hf hg h ih =>
    simp only [featEvs, geomCalls_append, geomCalls_feat, hf, Option.getD_some]
    exact Res.append (res_solid ly g hg i t ht) fun t' ht' => ih (k + 1) t' ht'

end Tess

/-- C59, partial: for a dataset whose geometries consist of polygons and separate line strings, the output receives for
every polygon, in order, the vertices and triangles of the fill of exactly its own rings (with single precision positions), and
nothing else; it can only fail if a tessellator fails.  Missing: points, multi line strings, triangles and curves, for which it
is false (`C59_point_false`, `C59_multi_line_false`). -/
theorem C59_fills_partial (ly : Lyon) (name : Option Text) (fs : List Feat) (areas : List (List (List Coord)))
    (h : SolidFeats fs areas) :
    (∀ t, feed (Tess.fstep ly) {} (datasetEvs name fs) = .ok t → FillsOf ly areas t.out) ∧
    (ly.Total → ∃ t, feed (Tess.fstep ly) {} (datasetEvs name fs) = .ok t) := by
  have hr := Tess.res_feats ly fs areas h 0 {} ⟨rfl, rfl⟩
  have he : Tess.geomCalls (datasetEvs name fs) = Tess.geomCalls (featEvs 0 fs) := by
    show Tess.geomCalls (featEvs 0 fs ++ [.dsEnd]) = _
    rw [Tess.geomCalls_append]
    exact List.append_nil _
  unfold Tess.Res at hr
  rw [Tess.feed_fstep, he]
  cases hf : feed (Tess.step ly) {} (Tess.geomCalls (featEvs 0 fs)) with
  | ok t =>
    rw [hf] at hr
    obtain ⟨_, vs, h1, h2⟩ := hr
    refine ⟨fun t' ht' => ?_, fun _ => ⟨t, rfl⟩⟩
    cases ht'
    rw [h2]
    simpa using h1
  | error e =>
    rw [hf] at hr
    exact ⟨fun t' ht' => (nomatch ht'), fun hl => absurd hl hr⟩

/-- a fill that gives one triangle for the expected path and none for any other -/
def exLyon (checked : Bool) (expected : List PathCmd) : Lyon where
  checked
  cast _ := 0
  fill path := .ok ([⟨0, 0⟩], if path = expected then [0, 0, 0] else [])
  stroke _ := .ok ()

theorem exLyon_total (checked : Bool) (expected : List PathCmd) : (exLyon checked expected).Total where
  fill path := by
    by_cases h : path = expected
    · exact ⟨[⟨0, 0⟩], [0, 0, 0], [(0, 0, 0)], by simp [exLyon, h], rfl⟩
    · exact ⟨[⟨0, 0⟩], [], [], by simp [exLyon, h], rfl⟩
  stroke _ := ⟨(), rfl⟩

/-- the fill of the expected polygon has a triangle -/
theorem exLyon_fills (checked : Bool) (rs : List (List Coord)) :
    ¬ FillsOf (exLyon checked (polyPath (fun _ => 0) rs)) [rs] [.vertex ⟨0, 0⟩] := by
  intro h
  generalize ho : [VOut.vertex ⟨0, 0⟩] = o at h
  cases h with
  | cons h hs =>
    cases hs
    obtain ⟨vs, is, ts, h1, h2, rfl⟩ := h
    simp only [exLyon, if_true, Except.ok.injEq, Prod.mk.injEq] at h1
    obtain ⟨rfl, rfl⟩ := h1
    cases h2
    cases ho

/-- the ring of the examples -/
def exTessRing : List Coord := [{ x := 0#64, y := 0#64 }, { x := 1#64, y := 0#64 }, { x := 1#64, y := 1#64 }]

/-- non-vacuity: a line, a polygon and a multi polygon in three features, one feature without geometry; the tessellator
succeeds with one triangle for each of the two polygons -/
example : SolidFeats
    [{ geom := some ((Geom.lineString exTessRing).events false 0) }, {},
      { geom := some ((Geom.polygon [exTessRing]).events false 2) }, { geom := some ((Geom.multiPolygon [[exTessRing]]).events false 3) }]
    [[exTessRing], [exTessRing]] :=
  .some _ _ rfl (.lineString _) (.none rfl (.some _ _ rfl (.polygon _) (.some (areas := []) (.multiPolygon [[exTessRing]]) _ rfl (.multiPolygon _) .nil)))

example : (feed (Tess.step (exLyon true (polyPath (fun _ => 0) [exTessRing]))) {} ((Geom.multiPolygon [[exTessRing], [exTessRing]]).events false 0)).map
    Tess.out = .ok [.vertex ⟨0, 0⟩, .triangle 0 0 0, .vertex ⟨0, 0⟩, .triangle 0 0 0] := rfl

/-- C59 fails after a point: its position stays in the path builder, so the polygon after it is not filled from its own rings
(without lyon's assertions) or the tessellator panics (with them). -/
theorem C59_point_false : ∃ (ly : Lyon) (g : Geom), ly.Total ∧
    (∃ t, feed (Tess.step { ly with checked := false }) {} (g.events false 0) = .ok t ∧ ¬ FillsOf ly g.areas t.out) ∧
    (∃ e, feed (Tess.step { ly with checked := true }) {} (g.events false 0) = .error e ∧ e.isPanic = true) := by
  refine ⟨exLyon false (polyPath (fun _ => 0) [exTessRing]), .collection [.point { x := 5#64, y := 5#64 }, .polygon [exTessRing]],
    exLyon_total _ _, ⟨{ numRings := 1, out := [.vertex ⟨0, 0⟩] }, rfl, ?_⟩, _, rfl, rfl⟩
  exact exLyon_fills _ [exTessRing]

/-- C59 fails after a multi line string: its lines are filled together with the next polygon. -/
theorem C59_multi_line_false : ∃ (ly : Lyon) (g : Geom) (t : Tess), ly.Total ∧
    feed (Tess.step ly) {} (g.events false 0) = .ok t ∧ ¬ FillsOf ly g.areas t.out := by
  refine ⟨exLyon true (polyPath (fun _ => 0) [exTessRing]), .collection [.multiLineString [exTessRing], .polygon [exTessRing]],
    { numRings := 1, out := [.vertex ⟨0, 0⟩] }, exLyon_total _ _, rfl, ?_⟩
  exact exLyon_fills _ [exTessRing]

/-- the OBJ document of the calls made to the output -/
def objDocument (out : List VOut) : Except Err (List ObjLine) := out.mapM objLine

/-- C60, partial: the OBJ document of a single polygon describes exactly the triangles of its fill.  Missing: several
polygons (`C60_obj_false`). -/
theorem C60_obj_partial (vs : List P32) (ts : List (Nat × Nat × Nat)) (lines : List ObjLine)
    (h : objDocument (vs.map VOut.vertex ++ ts.map fun t => VOut.triangle t.1 t.2.1 t.2.2) = .ok lines) :
    objTriangles lines = fillTriangles vs ts := by
  unfold objDocument at h
  rw [List.mapM_append] at h
  have hv : ∀ vs : List P32, (vs.map VOut.vertex).mapM objLine = .ok (vs.map ObjLine.v) := by
    intro vs
    induction vs with
    | nil => rfl
    | cons v vs ih => simp only [List.map_cons, List.mapM_cons, ih]; rfl
  rw [hv] at h
  have ht : ∀ (ts : List (Nat × Nat × Nat)) (ls : List ObjLine), (ts.map fun t => VOut.triangle t.1 t.2.1 t.2.2).mapM objLine = .ok ls →
      ls = ts.map fun t => ObjLine.f (t.1 + 1) (t.2.1 + 1) (t.2.2 + 1) := by
    intro ts
    induction ts with
    | nil => intro ls h; cases h; rfl
    | cons t ts ih =>
      intro ls h
      obtain ⟨a, b, c⟩ := t
      simp only [List.map_cons, List.mapM_cons, objLine, objIndex] at h
      by_cases h1 : a + 1 < 2 ^ 16 <;> simp only [h1, if_true, if_false] at h
      · by_cases h2 : b + 1 < 2 ^ 16 <;> simp only [h2, if_true, if_false] at h
        · by_cases h3 : c + 1 < 2 ^ 16 <;> simp only [h3, if_true, if_false] at h
          · cases hr : (ts.map fun t => VOut.triangle t.1 t.2.1 t.2.2).mapM objLine with
            | error e => rw [hr] at h; cases h
            | ok ls' =>
              rw [hr] at h
              cases h
              rw [ih ls' hr]
              rfl
          · cases h
        · cases h
      · cases h
  cases hr : (ts.map fun t => VOut.triangle t.1 t.2.1 t.2.2).mapM objLine with
  | error e => rw [hr] at h; cases h
  | ok ls =>
    rw [hr] at h
    cases h
    rw [ht ts ls hr]
    have e1 : objVertices (vs.map ObjLine.v ++ ts.map fun t => ObjLine.f (t.1 + 1) (t.2.1 + 1) (t.2.2 + 1)) = vs := by
      clear hr
      induction vs with
      | nil =>
        induction ts with
        | nil => rfl
        | cons t ts ih => exact ih
      | cons v vs ih => simp only [List.map_cons, List.cons_append, objVertices, ih]
    have e2 : objFaces (vs.map ObjLine.v ++ ts.map fun t => ObjLine.f (t.1 + 1) (t.2.1 + 1) (t.2.2 + 1))
        = ts.map fun t => (t.1 + 1, t.2.1 + 1, t.2.2 + 1) := by
      clear hr e1
      induction vs with
      | nil =>
        induction ts with
        | nil => rfl
        | cons t ts ih => simp only [List.map_nil, List.nil_append, List.map_cons, objFaces] at ih ⊢; rw [ih]
      | cons v vs ih => exact ih
    unfold objTriangles fillTriangles
    rw [e1, e2, List.map_map]
    rfl

/-- ... and it does not fail as long as there are fewer than 65536 vertices. -/
theorem C60_obj_succeeds_partial (vs : List P32) (ts : List (Nat × Nat × Nat)) (hv : vs.length < 2 ^ 16)
    (ht : ∀ t ∈ ts, t.1 < vs.length ∧ t.2.1 < vs.length ∧ t.2.2 < vs.length) :
    ∃ lines, objDocument (vs.map VOut.vertex ++ ts.map fun t => VOut.triangle t.1 t.2.1 t.2.2) = .ok lines := by
  have hall : ∀ l : List VOut, (∀ o ∈ l, ∃ x, objLine o = .ok x) → ∃ ls, l.mapM objLine = .ok ls := by
    intro l
    induction l with
    | nil => exact fun _ => ⟨[], rfl⟩
    | cons o l ih =>
      intro h
      obtain ⟨x, hx⟩ := h o (by simp)
      obtain ⟨ls, hls⟩ := ih fun o' ho' => h o' (by simp [ho'])
      refine ⟨x :: ls, ?_⟩
      rw [List.mapM_cons, hx, hls]
      rfl
  refine hall _ fun o ho => ?_
  rw [List.mem_append, List.mem_map, List.mem_map] at ho
  rcases ho with ⟨v, _, rfl⟩ | ⟨t, hm, rfl⟩
  · exact ⟨_, rfl⟩
  · obtain ⟨h1, h2, h3⟩ := ht t hm
    refine ⟨.f (t.1 + 1) (t.2.1 + 1) (t.2.2 + 1), ?_⟩
    simp only [objLine, objIndex, show t.1 + 1 < 2 ^ 16 by omega, show t.2.1 + 1 < 2 ^ 16 by omega, show t.2.2 + 1 < 2 ^ 16 by omega,
      if_true]
    rfl

/-- non-vacuity: one triangle -/
example : objDocument ([⟨1, 2⟩, ⟨3, 4⟩, ⟨5, 6⟩].map VOut.vertex ++ [(2, 0, 1)].map fun t => VOut.triangle t.1 t.2.1 t.2.2)
    = .ok [.v ⟨1, 2⟩, .v ⟨3, 4⟩, .v ⟨5, 6⟩, .f 3 1 2] := rfl

/-- C60 fails for two polygons: the indices of the second count its own vertices, so its faces in the document are made of the
vertices of the first. -/
theorem C60_obj_false : ∃ (v1 v2 : List P32) (t1 t2 : List (Nat × Nat × Nat)) (lines : List ObjLine),
    objDocument ((v1.map VOut.vertex ++ t1.map fun t => VOut.triangle t.1 t.2.1 t.2.2) ++
      (v2.map VOut.vertex ++ t2.map fun t => VOut.triangle t.1 t.2.1 t.2.2)) = .ok lines ∧
    objTriangles lines ≠ fillTriangles v1 t1 ++ fillTriangles v2 t2 ∧
    objTriangles lines = fillTriangles v1 t1 ++ fillTriangles v1 t1 :=
  ⟨[⟨1, 2⟩, ⟨3, 4⟩, ⟨5, 6⟩], [⟨7, 8⟩, ⟨9, 10⟩, ⟨11, 12⟩], [(0, 1, 2)], [(0, 1, 2)], _, rfl, by decide, by decide⟩

/-- ... and the last of 65536 vertices cannot be referred to: the addition overflows. -/
theorem C60_overflow_false (a b : Nat) (h1 : a + 1 < 2 ^ 16) (h2 : b + 1 < 2 ^ 16) :
    ∃ e, objDocument [.triangle a b 65535] = .error e ∧ e.isPanic = true := by
  refine ⟨.panic "attempt to add with overflow", ?_, rfl⟩
  simp only [objDocument, List.mapM_cons, List.mapM_nil, objLine, objIndex, h1, h2, if_true]
  rfl

end Geozero
