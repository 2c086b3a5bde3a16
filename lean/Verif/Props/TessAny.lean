import Verif.Spec.TessAny
import Verif.Props.TessExact

/-
C59: what is filled for datasets of any geometries.
-/

namespace Geozero
namespace Tess

private def St (t : Tess) (p : OpenPath) (out : List VOut) : Prop :=
  t.started = p.isOpen ∧ t.builder = { cmds := p.cmds, inSub := p.isOpen } ∧ t.out = out

private theorem pathsFrom_append (cast : F64 → Float32Bits) (a b : List TessBit) (p : OpenPath) :
    pathsFrom cast p (a ++ b) = pathsFrom cast p a ++ pathsFrom cast (pathAfter cast p a) b := by
  induction a generalizing p with
  | nil => rfl
  | cons x a ih => cases x <;> simp [pathsFrom, pathAfter, ih]

private theorem pathAfter_append (cast : F64 → Float32Bits) (a b : List TessBit) (p : OpenPath) :
    pathAfter cast p (a ++ b) = pathAfter cast (pathAfter cast p a) b := by
  induction a generalizing p with
  | nil => rfl
  | cons x a ih => cases x <;> simp [pathAfter, ih]

private theorem close_isOpen (p : OpenPath) : p.close.isOpen = false := by
  unfold OpenPath.close
  split
  · rfl
  · rename_i h; simpa using h

private theorem dots_isOpen (cast : F64 → Float32Bits) (p : OpenPath) (cs : List Coord) :
    (p.dots cast cs).isOpen = (p.isOpen || !cs.isEmpty) := by
  cases cs <;> simp [OpenPath.dots]

private theorem overlaps_append (cast : F64 → Float32Bits) (a b : List TessBit) (p : OpenPath) :
    overlaps p.isOpen (a ++ b) = (overlaps p.isOpen a || overlaps (pathAfter cast p a).isOpen b) := by
  induction a generalizing p with
  | nil => rfl
  | cons x a ih =>
    cases x with
    | dots cs => simp only [List.cons_append, overlaps, pathAfter, ← dots_isOpen cast, ih, Bool.or_assoc]
    | loose cs =>
      have := ih (p.loose cast cs)
      rw [OpenPath.loose, close_isOpen] at this
      simp only [List.cons_append, overlaps, pathAfter, this, Bool.or_assoc, OpenPath.loose]
    | line cs =>
      have := ih {}
      simp only [List.cons_append, overlaps, pathAfter, this, Bool.or_assoc]
    | area rs =>
      have := ih {}
      simp only [List.cons_append, overlaps, pathAfter, this, Bool.or_assoc]

private theorem FillsOfPaths.append {ly : Lyon} {p q : List (List PathCmd)} {a b : List VOut} (ha : FillsOfPaths ly p a)
    (hb : FillsOfPaths ly q b) : FillsOfPaths ly (p ++ q) (a ++ b) := by
  induction ha with
  | nil => exact hb
  | cons h _ ih => rw [List.append_assoc]; exact .cons h ih

private theorem triangles_panic : ∀ (is : List Nat), triples is = none → ∃ e, triangles is = .error e ∧ e.isPanic = true
  | [], h => by cases h
  | [_], _ => ⟨_, rfl, rfl⟩
  | [_, _], _ => ⟨_, rfl, rfl⟩
  | a :: b :: c :: rest, h => by
    simp only [triples, Option.map_eq_none_iff] at h
    obtain ⟨e, he, hp⟩ := triangles_panic rest h
    exact ⟨e, by simp [triangles, he], hp⟩

/-- The calls deliver the fills of the parts and leave the path behind, or panic because a tessellator fails or, with assertions,
because sub-paths overlap. -/
private def Bits (ly : Lyon) (evs : List Ev) (bits : List TessBit) : Prop :=
  ∀ (t : Tess) (p : OpenPath) (out : List VOut), St t p out →
    match feed (step ly) t evs with
    | .ok t' => (ly.checked = true → overlaps p.isOpen bits = false) ∧
      ∃ vs, FillsOfPaths ly (pathsFrom ly.cast p bits) vs ∧ St t' (pathAfter ly.cast p bits) (out ++ vs)
    | .error e => e.isPanic = true ∧ (ly.Total → ly.checked = true ∧ overlaps p.isOpen bits = true)

private theorem Bits.nil {ly : Lyon} : Bits ly [] [] :=
  fun t p out h => ⟨fun _ => rfl, [], .nil, by simpa [pathAfter] using h⟩

private theorem Bits.append {ly : Lyon} {a b : List Ev} {x y : List TessBit} (ha : Bits ly a x) (hb : Bits ly b y) :
    Bits ly (a ++ b) (x ++ y) := by
  intro t p out h
  have h1 := ha t p out h
  rw [feed_append, overlaps_append ly.cast]
  cases hf : feed (step ly) t a with
  | error e =>
    rw [hf] at h1
    exact ⟨h1.1, fun hl => ⟨(h1.2 hl).1, by simp [(h1.2 hl).2]⟩⟩
  | ok t1 =>
    rw [hf] at h1
    obtain ⟨o1, v1, f1, r1⟩ := h1
    have h2 := hb t1 _ _ r1
    simp only
    cases hg : feed (step ly) t1 b with
    | error e =>
      rw [hg] at h2
      exact ⟨h2.1, fun hl => ⟨(h2.2 hl).1, by simp [(h2.2 hl).2]⟩⟩
    | ok t2 =>
      rw [hg] at h2
      obtain ⟨o2, v2, f2, r2⟩ := h2
      refine ⟨fun hc => by simp [o1 hc, o2 hc], v1 ++ v2, ?_, ?_⟩
      · rw [pathsFrom_append]; exact FillsOfPaths.append f1 f2
      · rw [pathAfter_append, ← List.append_assoc]; exact r2

private theorem Bits.members {α : Type} {ly : Lyon} (f : Nat → α → List Ev) (bits : α → List TessBit) (xs : List α)
    (h : ∀ x ∈ xs, ∀ i, Bits ly (f i x) (bits x)) (i : Nat) : Bits ly (evList f i xs) (xs.flatMap bits) := by
  induction xs generalizing i with
  | nil => exact .nil
  | cons x xs ih =>
    rw [List.flatMap_cons]
    exact Bits.append (h x (by simp) i) (ih (fun y hy => h y (by simp [hy])) (i + 1))

private theorem Bits.around {ly : Lyon} (k : GKind) (tagged : Bool) (n i : Nat) (evs : List Ev) (bits : List TessBit)
    (hk : k ≠ .lineString ∧ k ≠ .polygon) (h : Bits ly evs bits) :
    Bits ly (.gbegin k tagged n i :: (evs ++ [.gend k tagged i])) bits := by
  intro t p out ht
  have hb : step ly t (.gbegin k tagged n i) = .ok t := by cases k <;> first | rfl | simp at hk
  have he : ∀ t', step ly t' (.gend k tagged i) = .ok t' := by intro t'; cases k <;> first | rfl | simp at hk
  have h := h t p out ht
  simp only [feed_cons, hb, feed_append, he, feed]
  revert h
  cases feed (step ly) t evs <;> exact id

private theorem Bits.bracket {α : Type} {ly : Lyon} (k : GKind) (tagged : Bool) (i : Nat) (f : Nat → α → List Ev) (xs : List α)
    (bits : α → List TessBit) (hk : k ≠ .lineString ∧ k ≠ .polygon) (h : ∀ x ∈ xs, ∀ i, Bits ly (f i x) (bits x)) :
    Bits ly (Geozero.bracket k tagged i f xs) (xs.flatMap bits) :=
  Bits.around k tagged _ i _ _ hk (Bits.members f bits xs h 0)

private theorem flatMap_bit {α : Type} (f : α → TessBit) (xs : List α) : (xs.flatMap fun x => [f x]) = xs.map f := by
  induction xs with
  | nil => rfl
  | cons x xs ih => simp [ih]

private theorem Bits.bracket1 {α : Type} {ly : Lyon} (k : GKind) (tagged : Bool) (i : Nat) (f : Nat → α → List Ev) (xs : List α)
    (bit : α → TessBit) (hk : k ≠ .lineString ∧ k ≠ .polygon) (h : ∀ x ∈ xs, ∀ i, Bits ly (f i x) [bit x]) :
    Bits ly (Geozero.bracket k tagged i f xs) (xs.map bit) := by
  have := Bits.bracket k tagged i f xs (fun x => [bit x]) hk h
  rwa [flatMap_bit] at this

/-- the positions of a sequence -/
private theorem feed_dots (ly : Lyon) (cs : List Coord) (t : Tess) (p : OpenPath) (out : List VOut) (h : St t p out) :
    match feed (step ly) t (evList (coordEvs false) 0 cs) with
    | .ok t' => (ly.checked = true → (p.isOpen && !cs.isEmpty) = false) ∧ St t' (p.dots ly.cast cs) out
    | .error e => e.isPanic = true ∧ ly.checked = true ∧ (p.isOpen && !cs.isEmpty) = true := by
  obtain ⟨h1, h2, h3⟩ := h
  cases cs with
  | nil => exact ⟨fun _ => by simp, h1, h2, h3⟩
  | cons c cs =>
    simp only [evList, coordEvs, coordEv, List.cons_append, List.nil_append, feed_cons, step, xy, h2, PathBuilder.begin, if_true]
    cases hc : ly.checked && p.isOpen with
    | true =>
      simp only [if_true]
      simp only [Bool.and_eq_true] at hc
      exact ⟨rfl, hc.1, by simp [hc.2]⟩
    | false =>
      simp only [Bool.false_eq_true, if_false, if_true]
      rw [feed_rest ly cs (0 + 1) (by omega) _ _ rfl]
      refine ⟨fun h => by simpa [h] using hc, rfl, ?_, h3⟩
      simp [OpenPath.dots]

private theorem close_eq (ly : Lyon) {t : Tess} {p : OpenPath} {out : List VOut} (h : St t p out) :
    t.closeStarted ly = .ok { cmds := p.close.cmds, inSub := false } := by
  obtain ⟨h1, h2, -⟩ := h
  obtain ⟨cmds, o⟩ := p
  cases o <;> simp [closeStarted, h1, h2, PathBuilder.close, OpenPath.close]

private theorem Bits.dots (ly : Lyon) (k : GKind) (tagged : Bool) (i : Nat) (cs : List Coord) (hk : k ≠ .lineString ∧ k ≠ .polygon) :
    Bits ly (Geozero.bracket k tagged i (coordEvs false) cs) [.dots cs] := by
  refine Bits.around k tagged _ i _ _ hk fun t p out ht => ?_
  have h := feed_dots ly cs t p out ht
  revert h
  cases feed (step ly) t (evList (coordEvs false) 0 cs) with
  | ok t' => exact fun h => ⟨fun hc => by simpa [overlaps] using h.1 hc, [], .nil, by simpa [pathAfter] using h.2⟩
  | error e => exact fun h => ⟨h.1, fun _ => ⟨h.2.1, by simp only [overlaps, h.2.2, Bool.true_or]⟩⟩

private theorem feed_loose (ly : Lyon) (cs : List Coord) (i : Nat) (t : Tess) (p : OpenPath) (out : List VOut) (h : St t p out) :
    match feed (step ly) t (lineEvs false false i cs) with
    | .ok t' => (ly.checked = true → (p.isOpen && !cs.isEmpty) = false) ∧ St t' (p.loose ly.cast cs) out
    | .error e => e.isPanic = true ∧ ly.checked = true ∧ (p.isOpen && !cs.isEmpty) = true := by
  have h := feed_dots ly cs t p out h
  simp only [lineEvs, Geozero.bracket, feed_cons, step, Bool.false_eq_true, if_false, feed_append]
  revert h
  cases feed (step ly) t (evList (coordEvs false) 0 cs) with
  | ok t' =>
    intro h
    simp only [feed, step, linestringEnd, close_eq ly h.2, Bool.false_eq_true, if_false]
    refine ⟨h.1, ?_, ?_, h.2.2.2⟩
    · simp [OpenPath.loose, close_isOpen]
    · simp [OpenPath.loose, close_isOpen]
  | error e => exact id

private theorem Bits.loose (ly : Lyon) (cs : List Coord) (i : Nat) : Bits ly (lineEvs false false i cs) [.loose cs] := by
  intro t p out ht
  have h := feed_loose ly cs i t p out ht
  revert h
  cases feed (step ly) t (lineEvs false false i cs) with
  | ok t' => exact fun h => ⟨fun hc => by simpa [overlaps] using h.1 hc, [], .nil, by simpa [pathAfter] using h.2⟩
  | error e => exact fun h => ⟨h.1, fun _ => ⟨h.2.1, by simp only [overlaps, h.2.2, Bool.true_or]⟩⟩

private theorem Bits.line (ly : Lyon) (cs : List Coord) (i : Nat) : Bits ly (lineEvs false true i cs) [.line cs] := by
  intro t p out ht
  have h := feed_dots ly cs { t with numRings := 1 } p out ht
  simp only [lineEvs, Geozero.bracket, feed_cons, step, if_true, feed_append]
  revert h
  cases feed (step ly) { t with numRings := 1 } (evList (coordEvs false) 0 cs) with
  | error e => exact fun h => ⟨h.1, fun _ => ⟨h.2.1, by simp only [overlaps, h.2.2, Bool.true_or]⟩⟩
  | ok t' =>
    intro h
    simp only [feed, step, linestringEnd, close_eq ly h.2, if_true, PathBuilder.build, Bool.and_false, Bool.false_eq_true,
      if_false, tessellateLine]
    cases hs : ly.stroke (p.dots ly.cast cs).close.cmds with
    | ok u => exact ⟨fun hc => by simpa [overlaps] using h.1 hc, [], .nil, rfl, rfl, by simp [h.2.2.2]⟩
    | error e =>
      refine ⟨rfl, fun hl => ?_⟩
      obtain ⟨u, hu⟩ := hl.stroke (p.dots ly.cast cs).close.cmds
      rw [hs] at hu
      cases hu

private theorem feed_closed_rings (ly : Lyon) (rs : List (List Coord)) (i : Nat) (t : Tess) (p : OpenPath) (out : List VOut)
    (hp : p.isOpen = false) (h : St t p out) :
    ∃ t', feed (step ly) t (evList (lineEvs false false) i rs) = .ok t' ∧ St t' (rs.foldl (OpenPath.loose ly.cast) p) out := by
  induction rs generalizing i t p with
  | nil => exact ⟨t, rfl, h⟩
  | cons r rs ih =>
    have h1 := feed_loose ly r i t p out h
    simp only [evList, feed_append]
    revert h1
    cases feed (step ly) t (lineEvs false false i r) with
    | error e => rw [hp]; exact fun h => by simp at h
    | ok t1 => exact fun h1 => ih (i + 1) t1 _ (close_isOpen _) h1.2

private theorem feed_open_rings (ly : Lyon) (rs : List (List Coord)) (i : Nat) (t : Tess) (p : OpenPath) (out : List VOut)
    (h : St t p out) :
    match feed (step ly) t (evList (lineEvs false false) i rs) with
    | .ok t' => (ly.checked = true → (p.isOpen && !(rs.headD []).isEmpty) = false) ∧
      St t' (rs.foldl (OpenPath.loose ly.cast) p) out
    | .error e => e.isPanic = true ∧ ly.checked = true ∧ (p.isOpen && !(rs.headD []).isEmpty) = true := by
  cases rs with
  | nil => exact ⟨fun _ => by simp, h⟩
  | cons r rs =>
    have h1 := feed_loose ly r i t p out h
    simp only [evList, feed_append]
    revert h1
    cases feed (step ly) t (lineEvs false false i r) with
    | error e => exact id
    | ok t1 =>
      intro h1
      obtain ⟨t2, e2, h2⟩ := feed_closed_rings ly rs (i + 1) t1 _ out (close_isOpen _) h1.2
      simp only [e2]
      exact ⟨h1.1, h2⟩

private theorem Bits.area (ly : Lyon) (rs : List (List Coord)) (tagged : Bool) (i : Nat) :
    Bits ly (polyEvs false tagged i rs) [.area rs] := by
  intro t p out ht
  have h := feed_open_rings ly rs 0 { t with numRings := rs.length } p out ht
  simp only [polyEvs, Geozero.bracket, feed_cons, step, feed_append]
  revert h
  cases feed (step ly) { t with numRings := rs.length } (evList (lineEvs false false) 0 rs) with
  | error e => exact fun h => ⟨h.1, fun _ => ⟨h.2.1, by simp only [overlaps, h.2.2, Bool.true_or]⟩⟩
  | ok t1 =>
    intro h
    simp only [feed, step, polygonEnd, close_eq ly h.2, PathBuilder.build, Bool.and_false, Bool.false_eq_true, if_false,
      tessellatePoly]
    cases hf : ly.fill (rs.foldl (OpenPath.loose ly.cast) p).close.cmds with
    | error e =>
      refine ⟨rfl, fun hl => ?_⟩
      obtain ⟨_, _, _, h', _⟩ := hl.fill (rs.foldl (OpenPath.loose ly.cast) p).close.cmds
      rw [hf] at h'
      cases h'
    | ok q =>
      obtain ⟨vs, is⟩ := q
      cases htr : triples is with
      | none =>
        obtain ⟨e, he, hep⟩ := triangles_panic is htr
        simp only [he]
        refine ⟨hep, fun hl => ?_⟩
        obtain ⟨_, _, _, h1, h2⟩ := hl.fill (rs.foldl (OpenPath.loose ly.cast) p).close.cmds
        rw [hf] at h1
        cases h1
        rw [htr] at h2
        cases h2
      | some ts =>
        simp only [triangles_of_triples is ts htr]
        exact ⟨fun hc => by simpa [overlaps] using h.1 hc, _,
          by simpa [pathsFrom] using FillsOfPaths.cons ⟨vs, is, ts, hf, htr, rfl⟩ FillsOfPaths.nil, rfl, rfl, by rw [h.2.2.2]⟩

private theorem Bits.seg (ly : Lyon) (s : Seg) (i : Nat) : Bits ly (segEvs false i s) [s.bit] := by
  cases s with
  | line cs => exact Bits.loose ly cs i
  | circ cs => exact Bits.dots ly .circularString true i cs (by simp)

private theorem Bits.curve (ly : Lyon) (c : Curve) (i : Nat) : Bits ly (curveEvs false i c) c.bits := by
  cases c with
  | seg s => exact Bits.seg ly s i
  | compound ss => exact Bits.bracket1 .compoundCurve true i (segEvs false) ss Seg.bit (by simp) fun s _ i => Bits.seg ly s i

private theorem Bits.surface (ly : Lyon) (s : Surface) (i : Nat) : Bits ly (surfaceEvs false i s) s.bits := by
  cases s with
  | polygon rs => exact Bits.area ly rs false i
  | curvePolygon cs => exact Bits.bracket .curvePolygon true i (curveEvs false) cs Curve.bits (by simp) fun c _ i => Bits.curve ly c i

private theorem Bits.geom (ly : Lyon) : ∀ (g : Geom), g.NoEmptyPoint → ∀ i, Bits ly (g.events false i) g.bits
  | .emptyPoint, h, _ => by simp [Geom.NoEmptyPoint] at h
  | .point c, _, i => by
    simp only [Geom.events, Geom.bits]
    exact Bits.dots ly .point true i [c] (by simp)
  | .multiPoint cs, _, i => by
    simpa only [Geom.events, Geom.bits] using Bits.dots ly .multiPoint true i cs (by simp)
  | .circularString cs, _, i => by
    simpa only [Geom.events, Geom.bits, circEvs] using Bits.dots ly .circularString true i cs (by simp)
  | .lineString cs, _, i => by simpa only [Geom.events, Geom.bits] using Bits.line ly cs i
  | .compoundCurve ss, _, i => by
    simpa only [Geom.events, Geom.bits] using
      Bits.bracket1 (ly := ly) .compoundCurve true i (segEvs false) ss Seg.bit (by simp) fun s _ i => Bits.seg ly s i
  | .multiLineString ls, _, i => by
    simpa only [Geom.events, Geom.bits] using
      Bits.bracket1 (ly := ly) .multiLineString true i (lineEvs false false) ls .loose (by simp) fun l _ i => Bits.loose ly l i
  | .multiCurve cs, _, i => by
    simpa only [Geom.events, Geom.bits] using
      Bits.bracket (ly := ly) .multiCurve true i (curveEvs false) cs Curve.bits (by simp) fun c _ i => Bits.curve ly c i
  | .polygon rs, _, i => by simpa only [Geom.events, Geom.bits] using Bits.area ly rs true i
  | .triangle rs, _, i => by
    simpa only [Geom.events, Geom.bits, triEvs] using
      Bits.bracket1 (ly := ly) .triangle true i (lineEvs false false) rs .loose (by simp) fun l _ i => Bits.loose ly l i
  | .curvePolygon cs, _, i => by
    simpa only [Geom.events, Geom.bits] using
      Bits.bracket (ly := ly) .curvePolygon true i (curveEvs false) cs Curve.bits (by simp) fun c _ i => Bits.curve ly c i
  | .multiPolygon ps, _, i => by
    simpa only [Geom.events, Geom.bits] using
      Bits.bracket1 (ly := ly) .multiPolygon true i (polyEvs false false) ps .area (by simp) fun rs _ i => Bits.area ly rs false i
  | .polyhedralSurface ps, _, i => by
    simpa only [Geom.events, Geom.bits] using
      Bits.bracket1 (ly := ly) .polyhedralSurface true i (polyEvs false false) ps .area (by simp) fun rs _ i => Bits.area ly rs false i
  | .tin ts, _, i => by
    simpa only [Geom.events, Geom.bits] using
      Bits.bracket (ly := ly) .tin true i (triEvs false false) ts (fun rs => rs.map .loose) (by simp) fun rs _ i =>
        Bits.bracket1 (ly := ly) .triangle false i (lineEvs false false) rs .loose (by simp) fun l _ i => Bits.loose ly l i
  | .multiSurface ss, _, i => by
    simpa only [Geom.events, Geom.bits] using
      Bits.bracket (ly := ly) .multiSurface true i (surfaceEvs false) ss Surface.bits (by simp) fun s _ i => Bits.surface ly s i
  | .collection gs, h, i => by
    rw [events_collection]
    simp only [Geom.NoEmptyPoint] at h
    simpa only [Geom.bits, Geom.bitsList_eq] using
      Bits.bracket (ly := ly) .collection true i (Geom.events false) gs Geom.bits (by simp) fun g hm i => Bits.geom ly g (h g hm) i

private theorem Bits.feats (ly : Lyon) (fs : List Feat) (bits : List TessBit) (h : BitFeats fs bits) (k : Nat) :
    Bits ly (geomCalls (featEvs k fs)) bits := by
  induction h generalizing k with
  | nil => exact .nil
  | none hf h ih =>
    simp only [featEvs, geomCalls_append, geomCalls_feat, hf, Option.getD_none, List.nil_append]
    exact ih (k + 1)
  | some g i hf hg h ih =>
    simp only [featEvs, geomCalls_append, geomCalls_feat, hf, Option.getD_some]
    exact Bits.append (Bits.geom ly g hg i) (ih (k + 1))

end Tess

/-- What is filled, exactly, for every dataset of geometries without empty points: one path for each polygon, made of all positions
since the polygon or separate line string before it, where points and circular strings leave their sub-path open (`pathsFrom`).
With total tessellators the only failure is a panic of the assertions of lyon's path builder, exactly if positions arrive while such a
sub-path is open. -/
theorem C59_filled_any_geometry (ly : Lyon) (name : Option Text) (fs : List Feat) (bits : List TessBit) (h : BitFeats fs bits) :
    (∀ t, feed (Tess.fstep ly) {} (datasetEvs name fs) = .ok t → FillsOfPaths ly (pathsFrom ly.cast {} bits) t.out) ∧
    (∀ e, feed (Tess.fstep ly) {} (datasetEvs name fs) = .error e → e.isPanic = true) ∧
    (ly.Total → ((∃ t, feed (Tess.fstep ly) {} (datasetEvs name fs) = .ok t) ↔ (ly.checked = true → overlaps false bits = false))) := by
  have hr := Tess.Bits.feats ly fs bits h 0 {} {} [] ⟨rfl, rfl, rfl⟩
  have he : Tess.geomCalls (datasetEvs name fs) = Tess.geomCalls (featEvs 0 fs) := by
    show Tess.geomCalls (featEvs 0 fs ++ [.dsEnd]) = _
    rw [Tess.geomCalls_append]
    exact List.append_nil _
  rw [Tess.feed_fstep, he]
  cases hf : feed (Tess.step ly) {} (Tess.geomCalls (featEvs 0 fs)) with
  | ok t =>
    rw [hf] at hr
    obtain ⟨ho, vs, h1, -, -, h2⟩ := hr
    refine ⟨fun t' ht' => ?_, fun e he => (nomatch he), fun _ => ⟨fun _ => ho, fun _ => ⟨t, rfl⟩⟩⟩
    cases ht'
    rw [h2]
    simpa using h1
  | error e =>
    rw [hf] at hr
    refine ⟨fun t' ht' => (nomatch ht'), fun e' he' => ?_, fun hl => ⟨fun ⟨t, ht⟩ => (nomatch ht), fun hc => ?_⟩⟩
    · cases he'; exact hr.1
    · have h3 := hr.2 hl
      have h4 := hc h3.1
      rw [h3.2] at h4
      cases h4

/-- A point before a polygon: its position is in the path that is filled, and the path builder with assertions panics; a polygon
without rings after a point "fills" the point. -/
example :
    BitFeats [{ geom := some ((Geom.point { x := 1#64, y := 2#64 }).events false 0) }, {},
        { geom := some ((Geom.polygon [exTessRing]).events false 2) }]
      [.dots [{ x := 1#64, y := 2#64 }], .area [exTessRing]] ∧
    overlaps false [.dots [{ x := 1#64, y := 2#64 }], .area [exTessRing]] = true ∧
    pathsFrom (fun _ => 0) {} [.dots [{ x := 1#64, y := 2#64 }], .area [exTessRing]] =
      [.begin ⟨0, 0⟩ :: polyPath (fun _ => 0) [exTessRing]] ∧
    overlaps false [.dots [{ x := 1#64, y := 2#64 }], .area [], .area [exTessRing]] = false ∧
    pathsFrom (fun _ => 0) {} [.dots [{ x := 1#64, y := 2#64 }], .area [], .area [exTessRing]] =
      [[.begin ⟨0, 0⟩, .close], polyPath (fun _ => 0) [exTessRing]] :=
  ⟨.some (.point _) 0 rfl (by simp [Geom.NoEmptyPoint]) (.none rfl (.some (.polygon _) 2 rfl (by simp [Geom.NoEmptyPoint]) .nil)),
    rfl, rfl, rfl, rfl⟩

end Geozero
