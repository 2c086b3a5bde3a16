import Verif.Props.Gdal

/-
C54 for the other dimensions of the GDAL writer (`to_gdal_ndim`).
-/

namespace Geozero

open Prog

namespace GdalNd

/-- the writer as it handles `coordinate` when m is asked for -/
private def stepM (w : GdalWriter) : Ev → Except Err GdalWriter
  | .coord x y z _ _ _ idx => w.put idx ⟨x, y, z.getD F64.zero⟩
  | e => w.step e

private theorem like_stepM : GdalWriter.Like stepM true id :=
  ⟨fun _ _ _ => rfl, fun _ _ _ _ _ => rfl, fun _ _ _ _ => rfl⟩

private def isXY : Ev → Bool
  | .xy _ _ _ => true
  | _ => false

/-- the kinds the writer creates -/
private def Six (w : GdalWriter) : Prop :=
  w.geom.kind = some .point ∨ w.geom.kind = some .lineString ∨ w.geom.kind = some .polygon ∨ w.geom.kind = some .multiPoint ∨
    w.geom.kind = some .multiLineString ∨ w.geom.kind = some .multiPolygon

private theorem base_measured {s : GdalNd} (hm : s.hasM = true) (h6 : Six s.w) :
    ∃ k, s.w.geom.kind = some k ∧ wkbBaseType s.geometryType = ogrCode k ∧ ogrCode k ∈ [1, 2, 3, 4, 5, 6] := by
  rcases h6 with h | h | h | h | h | h <;>
  · refine ⟨_, h, ?_, by decide⟩
    simp only [geometryType, hm, h, if_true]
    cases s.hasZ <;> rfl

private theorem put_kind {w w' : GdalWriter} {i : Nat} {p : OgrPt} (h : w.put i p = .ok w') : w'.geom.kind = w.geom.kind := by
  unfold GdalWriter.put at h
  split at h
  · cases h; exact GdalWriter.setPoint2d_kind _ _ _
  · cases h; exact GdalWriter.setPoint2d_kind _ _ _
  · split at h
    · rename_i g hg; cases h; exact GdalWriter.addGeometry_kind hg
    · cases h
  all_goals
    first
    | (unfold GdalWriter.setLine at h
       split at h <;> first | (cases h; first | rfl | exact GdalWriter.onMember_kind _ _ _) | cases h)
    | cases h

private theorem line_kind {w w' : GdalWriter} (h : w.linestringBegin false = .ok w') : w'.geom.kind = w.geom.kind := by
  simp only [GdalWriter.linestringBegin, Bool.false_eq_true, if_false] at h
  split at h
  · split at h
    · rename_i g hg; cases h; exact GdalWriter.addGeometry_kind hg
    · cases h
  · split at h
    · rename_i g hg; cases h; exact GdalWriter.addGeometry_kind hg
    · cases h
  · split at h
    · cases h
    · split at h
      · cases h; exact GdalWriter.onMember_kind _ _ _
      · cases h
  · cases h

private theorem poly_kind {w w' : GdalWriter} (h : w.polygonBegin false = .ok w') : w'.geom.kind = w.geom.kind := by
  simp only [GdalWriter.polygonBegin, Bool.false_eq_true, if_false] at h
  split at h
  · rename_i g hg; cases h; exact GdalWriter.addGeometry_kind hg
  · cases h

private theorem line_begin_kind {w w' : GdalWriter} (h : w.linestringBegin false = .ok w') :
    w.geom.kind = some .multiLineString ∨ w.geom.kind = some .polygon ∨ w.geom.kind = some .multiPolygon := by
  simp only [GdalWriter.linestringBegin, Bool.false_eq_true, if_false] at h
  split at h
  · simp_all
  · simp_all
  · simp_all
  · cases h

private theorem six_of_kind {w w' : GdalWriter} (h : w'.geom.kind = w.geom.kind) (h6 : Six w) : Six w' := by
  unfold Six at *; rwa [h]

/-- with m asked for, all calls but `xy` do what the two-dimensional writer does, with z stored -/
private theorem step_measured (d : Dims) (hd : d.m = true) {s : GdalNd} (hm : s.hasM = true) (h6 : Six s.w) (e : Ev) (he : isXY e = false)
    {w' : GdalWriter} (h : stepM s.w e = .ok w') : ∃ s', step d s e = .ok s' ∧ s'.w = w' ∧ s'.hasM = true ∧ Six s'.w := by
  cases e with
  | srid x => cases h; exact ⟨s, rfl, rfl, hm, h6⟩
  | xy x y i => cases he
  | coord x y z m t tm i =>
    simp only [stepM] at h
    obtain ⟨k, hk, hb, hmem⟩ := base_measured hm h6
    simp only [step, coordinate, hb, hmem, if_true, h]
    exact ⟨_, rfl, rfl, by simp [hm], six_of_kind (put_kind h) h6⟩
  | emptyPoint i => cases h
  | gend k t i =>
    have : stepM s.w (.gend k t i) = .ok s.w := rfl
    rw [this] at h; cases h
    exact ⟨s, rfl, rfl, hm, h6⟩
  | gbegin k t n i =>
    cases k
    case point => cases h; exact ⟨_, rfl, rfl, hd, .inl rfl⟩
    case multiPoint => cases h; exact ⟨_, rfl, rfl, hd, by simp [Six, fresh, GdalWriter.replace, GdalWriter.empty, OgrGeom.kind]⟩
    case multiLineString => cases h; exact ⟨_, rfl, rfl, hd, by simp [Six, fresh, GdalWriter.replace, GdalWriter.empty, OgrGeom.kind]⟩
    case multiPolygon => cases h; exact ⟨_, rfl, rfl, hd, by simp [Six, fresh, GdalWriter.replace, GdalWriter.empty, OgrGeom.kind]⟩
    case lineString =>
      cases t with
      | true => cases h; exact ⟨_, rfl, rfl, hd, by simp [Six, fresh, GdalWriter.replace, GdalWriter.empty, OgrGeom.kind]⟩
      | false =>
        have h : s.w.linestringBegin false = .ok w' := h
        obtain ⟨k, hk, hb, hmem⟩ := base_measured hm h6
        have hc : ogrCode k ∈ [3, 5, 6] := by
          rcases line_begin_kind h with h' | h' | h' <;> rw [hk] at h' <;> cases h' <;> decide
        simp only [step, linestringBegin, Bool.false_eq_true, if_false, hb, hc, if_true, h]
        exact ⟨_, rfl, rfl, by simp [hm], six_of_kind (line_kind h) h6⟩
    case polygon =>
      cases t with
      | true => cases h; exact ⟨_, rfl, rfl, hd, by simp [Six, fresh, GdalWriter.replace, GdalWriter.empty, OgrGeom.kind]⟩
      | false =>
        have h : s.w.polygonBegin false = .ok w' := h
        simp only [step, polygonBegin, Bool.false_eq_true, if_false, h]
        exact ⟨_, rfl, rfl, by simp [hm], six_of_kind (poly_kind h) h6⟩
    all_goals
      cases h; exact ⟨s, rfl, rfl, hm, h6⟩

private theorem feed_measured (d : Dims) (hd : d.m = true) (es : List Ev) : ∀ (s : GdalNd), s.hasM = true → Six s.w →
    (∀ e ∈ es, isXY e = false) → ∀ w', feed stepM s.w es = .ok w' → ∃ s', feed (step d) s es = .ok s' ∧ s'.w = w' := by
  induction es with
  | nil => intro s _ _ _ w' h; cases h; exact ⟨s, rfl, rfl⟩
  | cons e es ih =>
    intro s hm h6 hx w' h
    simp only [feed_cons] at h
    cases h1 : stepM s.w e with
    | error x => rw [h1] at h; cases h
    | ok w1 =>
      rw [h1] at h
      obtain ⟨s1, g1, g2, g3, g4⟩ := step_measured d hd hm h6 e (hx e (by simp)) h1
      obtain ⟨s', g5, g6⟩ := ih s1 g3 g4 (fun e he => hx e (by simp [he])) w' (by rw [g2]; exact h)
      exact ⟨s', by simp only [feed_cons, g1]; exact g5, g6⟩

private theorem noXY_evList {α : Type} (f : Nat → α → List Ev) (xs : List α) (h : ∀ x, ∀ i, ∀ e ∈ f i x, isXY e = false) (i : Nat) :
    ∀ e ∈ evList f i xs, isXY e = false := by
  induction xs generalizing i with
  | nil => simp [evList]
  | cons x xs ih =>
    intro e he
    rcases List.mem_append.mp he with he | he
    · exact h x i e he
    · exact ih (i + 1) e he

private theorem noXY_bracket {α : Type} (k : GKind) (t : Bool) (idx : Nat) (f : Nat → α → List Ev) (xs : List α)
    (h : ∀ x, ∀ i, ∀ e ∈ f i x, isXY e = false) : ∀ e ∈ bracket k t idx f xs, isXY e = false := by
  intro e he
  simp only [bracket, List.mem_cons, List.mem_append, List.not_mem_nil, or_false] at he
  rcases he with rfl | he | rfl
  · rfl
  · exact noXY_evList f xs h 0 e he
  · rfl

private theorem noXY_coord (c : Coord) (i : Nat) : ∀ e ∈ coordEvs true i c, isXY e = false := by
  intro e he; simp [coordEvs, coordEv] at he; subst he; rfl

private theorem noXY_line (t : Bool) (cs : List Coord) (i : Nat) : ∀ e ∈ lineEvs true t i cs, isXY e = false :=
  noXY_bracket _ _ _ _ _ fun c i => noXY_coord c i

private theorem noXY_poly (t : Bool) (rs : List (List Coord)) (i : Nat) : ∀ e ∈ polyEvs true t i rs, isXY e = false :=
  noXY_bracket _ _ _ _ _ fun c i => noXY_line _ c i

/-- the calls of a basic geometry: a begin that replaces the current geometry, and no `xy` -/
private theorem basic_begin (g : Geom) (hb : g.Basic) (idx : Nat) :
    ∃ k n es, g.events true idx = .gbegin k true n idx :: es ∧ (∀ e ∈ es, isXY e = false) ∧
      ∀ d s, ∃ w, stepM s.w (.gbegin k true n idx) = .ok w ∧ step d s (.gbegin k true n idx) = .ok (fresh d w) ∧ Six w := by
  have six : ∀ w : GdalWriter, ∀ k, k ∈ [GKind.point, .lineString, .polygon, .multiPoint, .multiLineString, .multiPolygon] →
      Six (w.replace (GdalWriter.empty k)) := by
    intro w k hk
    simp only [List.mem_cons, List.not_mem_nil, or_false] at hk
    rcases hk with rfl | rfl | rfl | rfl | rfl | rfl <;>
      simp [Six, GdalWriter.replace, GdalWriter.empty, OgrGeom.kind]
  cases g with
  | point c =>
    refine ⟨_, _, _, rfl, ?_, fun d s => ⟨_, rfl, rfl, six _ _ (by simp)⟩⟩
    intro e he
    simp only [coordEv, if_true, List.mem_cons, List.not_mem_nil, or_false] at he
    rcases he with rfl | rfl <;> rfl
  | multiPoint cs =>
    exact ⟨_, _, _, by simp only [Geom.events]; rfl, fun e he => noXY_bracket .multiPoint true idx _ _ (fun c i => noXY_coord c i) e (by simp only [bracket]; exact List.mem_cons_of_mem _ he),
      fun d s => ⟨_, rfl, rfl, six _ _ (by simp)⟩⟩
  | lineString cs =>
    exact ⟨_, _, _, by simp only [Geom.events]; rfl, fun e he => noXY_line true cs idx e (by simp only [lineEvs, bracket]; exact List.mem_cons_of_mem _ he),
      fun d s => ⟨_, rfl, rfl, six _ _ (by simp)⟩⟩
  | multiLineString ls =>
    exact ⟨_, _, _, by simp only [Geom.events]; rfl, fun e he => noXY_bracket .multiLineString true idx _ _ (fun c i => noXY_line _ c i) e (by simp only [bracket]; exact List.mem_cons_of_mem _ he),
      fun d s => ⟨_, rfl, rfl, six _ _ (by simp)⟩⟩
  | polygon rs =>
    exact ⟨_, _, _, by simp only [Geom.events]; rfl, fun e he => noXY_poly true rs idx e (by simp only [polyEvs, bracket]; exact List.mem_cons_of_mem _ he),
      fun d s => ⟨_, rfl, rfl, six _ _ (by simp)⟩⟩
  | multiPolygon ps =>
    exact ⟨_, _, _, by simp only [Geom.events]; rfl, fun e he => noXY_bracket .multiPolygon true idx _ _ (fun c i => noXY_poly _ c i) e (by simp only [bracket]; exact List.mem_cons_of_mem _ he),
      fun d s => ⟨_, rfl, rfl, six _ _ (by simp)⟩⟩
  | _ => exact absurd hb (by simp [Geom.Basic])

private theorem feed_basic_measured (d : Dims) (hd : d.m = true) (g : Geom) (hb : g.Basic) (idx : Nat) (s : GdalNd) :
    ∃ s', feed (step d) s (g.events true idx) = .ok s' ∧ s'.w.geom = g.ogr := by
  obtain ⟨w', h1, h2⟩ := GdalWriter.feed_basic like_stepM g hb idx s.w
  obtain ⟨k, n, es, he, hx, hs⟩ := basic_begin g hb idx
  obtain ⟨w, g1, g2, g3⟩ := hs d s
  rw [he] at h1 ⊢
  simp only [feed_cons, g1] at h1
  obtain ⟨s', h3, h4⟩ := feed_measured d hd es (fresh d w) hd g3 hx w' h1
  refine ⟨s', by simp only [feed_cons, g2]; exact h3, ?_⟩
  rw [h4, h2]
  congr 1
  cases g <;> first | rfl | (simp [Geom.map]; done) | exact hb.elim

/-- with z but not m asked for, the geometry is always one with z and without m, which the writer does not recognise -/
private def OnlyZ (s : GdalNd) : Prop := s.hasZ = true ∧ s.hasM = false

private theorem base_onlyZ {s : GdalNd} (h : OnlyZ s) : wkbBaseType s.geometryType ∉ [1, 2, 3, 4, 5, 6] ∧ s.geometryType ∉ [1, 2, 3, 4, 5, 6] := by
  obtain ⟨h1, h2⟩ := h
  simp only [geometryType, h1, h2, Bool.false_eq_true, if_false, if_true, wkbBaseType]
  rcases s.w.geom.kind with _ | k
  · decide
  · cases k <;> decide

private theorem step_onlyZ (d : Dims) (hz : d.z = true) (hm : d.m = false) {s s' : GdalNd} (h : OnlyZ s) (e : Ev) (hs : step d s e = .ok s') :
    OnlyZ s' := by
  have hb := base_onlyZ h
  obtain ⟨h1, h2⟩ := h
  cases e with
  | srid x => cases hs; exact ⟨h1, h2⟩
  | xy x y i => simp only [step, xy, hb.2, if_false] at hs; cases hs
  | coord x y z m t tm i => simp only [step, coordinate, hb.1, if_false] at hs; cases hs
  | emptyPoint i => cases hs
  | gend k t i =>
    have : step d s (.gend k t i) = .ok s := rfl
    rw [this] at hs; cases hs; exact ⟨h1, h2⟩
  | gbegin k t n i =>
    cases k
    case point => cases hs; exact ⟨hz, hm⟩
    case multiPoint => cases hs; exact ⟨hz, hm⟩
    case multiLineString => cases hs; exact ⟨hz, hm⟩
    case multiPolygon => cases hs; exact ⟨hz, hm⟩
    case lineString =>
      simp only [step, linestringBegin] at hs
      split at hs
      · cases hs; exact ⟨hz, hm⟩
      · split at hs
        · split at hs <;> cases hs
          exact ⟨by simp [h1], by simp [h2, hm]⟩
        · cases hs
    case polygon =>
      simp only [step, polygonBegin] at hs
      split at hs
      · cases hs; exact ⟨hz, hm⟩
      · split at hs <;> cases hs
        exact ⟨by simp [h1], by simp [h2, hm]⟩
    all_goals
      cases hs; exact ⟨h1, h2⟩

private def isCoord : Ev → Bool
  | .coord _ _ _ _ _ _ _ => true
  | _ => false

private theorem feed_onlyZ (d : Dims) (hz : d.z = true) (hm : d.m = false) (es : List Ev) (hc : ∃ e ∈ es, isCoord e = true) :
    ∀ s, OnlyZ s → ∃ x, feed (step d) s es = .error x := by
  induction es with
  | nil => obtain ⟨e, he, _⟩ := hc; cases he
  | cons e es ih =>
    intro s hs
    simp only [feed_cons]
    cases h : step d s e with
    | error x => exact ⟨x, rfl⟩
    | ok s' =>
      refine ih ?_ s' (step_onlyZ d hz hm hs e h)
      obtain ⟨e', he', hc'⟩ := hc
      rcases List.mem_cons.mp he' with rfl | he'
      · cases e' <;> first | cases hc' | skip
        simp only [step, coordinate, (base_onlyZ hs).1, if_false] at h
        cases h
      · exact ⟨e', he', hc'⟩

private theorem coord_evList {α : Type} (f : Nat → α → List Ev) (xs : List α) (x : α) (hx : x ∈ xs)
    (h : ∀ i, ∃ e ∈ f i x, isCoord e = true) (i : Nat) : ∃ e ∈ evList f i xs, isCoord e = true := by
  induction xs generalizing i with
  | nil => cases hx
  | cons y ys ih =>
    rcases List.mem_cons.mp hx with rfl | hx
    · obtain ⟨e, he, hc⟩ := h i
      exact ⟨e, List.mem_append.mpr (.inl he), hc⟩
    · obtain ⟨e, he, hc⟩ := ih hx (i + 1)
      exact ⟨e, List.mem_append.mpr (.inr he), hc⟩

private theorem coord_bracket {α : Type} (k : GKind) (t : Bool) (idx : Nat) (f : Nat → α → List Ev) (xs : List α) (x : α) (hx : x ∈ xs)
    (h : ∀ i, ∃ e ∈ f i x, isCoord e = true) : ∃ e ∈ bracket k t idx f xs, isCoord e = true := by
  obtain ⟨e, he, hc⟩ := coord_evList f xs x hx h 0
  exact ⟨e, by simp [bracket, he], hc⟩

private theorem coord_coords (k : GKind) (t : Bool) (idx : Nat) (cs : List Coord) (h : cs ≠ []) :
    ∃ e ∈ bracket k t idx (coordEvs true) cs, isCoord e = true := by
  obtain ⟨c, cs, rfl⟩ := List.exists_cons_of_ne_nil h
  exact coord_bracket _ _ _ _ _ c (by simp) fun i => ⟨_, List.mem_singleton.mpr rfl, rfl⟩

private theorem coord_rings (k : GKind) (t : Bool) (idx : Nat) (rs : List (List Coord)) (h : rs.flatten ≠ []) :
    ∃ e ∈ bracket k t idx (lineEvs true false) rs, isCoord e = true := by
  obtain ⟨r, hr, hne⟩ : ∃ r ∈ rs, r ≠ [] := by
    refine Classical.byContradiction fun hc => h ?_
    rw [List.flatten_eq_nil_iff]
    intro r hr
    exact Classical.byContradiction fun hn => hc ⟨r, hr, hn⟩
  exact coord_bracket _ _ _ _ _ r hr fun i => coord_coords _ _ _ r hne

private theorem coord_basic (g : Geom) (hb : g.Basic) (hc : g.coords ≠ []) (idx : Nat) : ∃ e ∈ g.events true idx, isCoord e = true := by
  cases g with
  | point c => exact ⟨coordEv true c 0, by simp [Geom.events], rfl⟩
  | multiPoint cs => simp only [Geom.events]; exact coord_coords _ _ _ _ hc
  | lineString cs => simp only [Geom.events]; exact coord_coords _ _ _ _ hc
  | multiLineString ls => simp only [Geom.events]; exact coord_rings _ _ _ _ hc
  | polygon rs => simp only [Geom.events]; exact coord_rings _ _ _ _ hc
  | multiPolygon ps =>
    simp only [Geom.events]
    obtain ⟨r, hr, hne⟩ : ∃ r ∈ ps, r.flatten ≠ [] := by
      refine Classical.byContradiction fun hcc => hc ?_
      simp only [Geom.coords, List.flatMap_eq_nil_iff]
      intro r hr
      exact Classical.byContradiction fun hn => hcc ⟨r, hr, hn⟩
    exact coord_bracket _ _ _ _ _ r hr fun i => coord_rings _ _ _ r hne
  | _ => exact absurd hb (by simp [Geom.Basic])

end GdalNd

/-- Converting to GDAL with m among the dimensions: a geometry of one of the six basic kinds arrives with x, y and z of every
coordinate (0 where there is none); m is dropped. -/
theorem C54_to_gdal_measured_partial (d : Dims) (hd : d.m = true) (src : Prog Unit) (bs rest : List Byte) (s : Option Int) (g : Geom)
    (hb : g.Basic)
    (hsrc : run true src bs = (.srid s :: g.events true 0, .ok ((), rest)) ∨ run true src bs = (g.events true 0, .ok ((), rest))) :
    ∃ r, toGdalNdim d src bs = .ok r ∧ r.w.geom = g.ogr ∧
      r.w.geom.denote = some (g.map fun c => { x := c.x, y := c.y, z := some (c.z.getD F64.zero), m := none }) := by
  obtain ⟨r, h1, h2⟩ := GdalNd.feed_basic_measured d hd g hb 0 {}
  have hmul : d.multi = true := by simp [Dims.multi, hd]
  have hf : feed (GdalNd.proc d).step {} (run true src bs).1 = .ok r := by
    rcases hsrc with h | h <;> rw [h] <;> exact h1
  have h3 := interp_of_feed_ok (GdalNd.proc d) true (fun _ => hmul) src {} r bs hf
  refine ⟨r, ?_, h2, by rw [h2]; exact denote_ogr g⟩
  unfold toGdalNdim
  rw [h3]
  rcases hsrc with h | h <;> rw [h]

/-- Converting to GDAL with z but without m: every geometry of one of the six basic kinds that has a coordinate is rejected. -/
theorem C54_z_rejected (d : Dims) (hz : d.z = true) (hm : d.m = false) (src : Prog Unit) (bs : List Byte) (s : Option Int) (g : Geom)
    (hb : g.Basic) (hc : g.coords ≠ []) (r : Except Err (Unit × List Byte))
    (hsrc : run true src bs = (.srid s :: g.events true 0, r) ∨ run true src bs = (g.events true 0, r)) :
    ∃ e, toGdalNdim d src bs = .error e := by
  have hmul : d.multi = true := by simp [Dims.multi, hz]
  obtain ⟨x, hx⟩ : ∃ x, feed (GdalNd.step d) {} (g.events true 0) = .error x := by
    obtain ⟨k, n, es, he, -, hs⟩ := GdalNd.basic_begin g hb 0
    obtain ⟨w, -, h2, -⟩ := hs d {}
    have hce := GdalNd.coord_basic g hb hc 0
    rw [he] at hce ⊢
    obtain ⟨e, hmem, hcoord⟩ := hce
    rcases List.mem_cons.mp hmem with rfl | hmem
    · cases hcoord
    · obtain ⟨x, hx⟩ := GdalNd.feed_onlyZ d hz hm es ⟨e, hmem, hcoord⟩ (GdalNd.fresh d w) ⟨hz, hm⟩
      exact ⟨x, by simp only [feed_cons, h2]; exact hx⟩
  have hf : feed (GdalNd.proc d).step {} (run true src bs).1 = .error x := by
    rcases hsrc with h | h <;> rw [h] <;> exact hx
  have h3 := interp_of_feed_error (GdalNd.proc d) true (fun _ => hmul) src {} bs x hf
  unfold toGdalNdim
  split
  · rename_i h; rw [h] at h3; cases h3
  · exact ⟨_, rfl⟩

/-- So m is lost, without an error: points that differ in m only give the same OGR geometry; and a geometry asked for with m only
gets a z. -/
theorem C54_m_lost_false (x y a b : F64) (d : Dims) (hd : d.m = true) :
    ∃ r, toGdalNdim d ((Geom.point ⟨x, y, none, some a⟩).events true 0 |>.foldr Prog.emit (.ret ())) [] = .ok r ∧
      toGdalNdim d ((Geom.point ⟨x, y, none, some b⟩).events true 0 |>.foldr Prog.emit (.ret ())) [] = .ok r ∧
      r.hasZ = true := by
  obtain ⟨z, m, t, tm⟩ := d
  cases hd
  refine ⟨⟨⟨.node (some .point) [⟨x, y, F64.zero⟩] [], .own⟩, true, true⟩, ?_, ?_, rfl⟩ <;> cases z <;>
    simp [toGdalNdim, Geom.events, coordEv, Prog.interp, GdalNd.proc, GdalNd.step, GdalNd.fresh, GdalWriter.replace, GdalWriter.empty,
      GdalNd.coordinate, GdalNd.geometryType, GdalNd.wkbBaseType, GdalNd.ogrCode, OgrGeom.kind, GdalWriter.put, GdalWriter.setPoint2d]

/-- non-vacuity: a polygon with z and m, its stream, and the dimensions -/
example : ∃ r, toGdalNdim { z := true, m := true }
    ((Geom.polygon [[⟨0#64, 0#64, some 1#64, some 2#64⟩], []]).events true 0 |>.foldr Prog.emit (.ret ())) [] = .ok r ∧
    r.w.geom = (Geom.polygon [[⟨0#64, 0#64, some 1#64, some 2#64⟩], []]).ogr := by
  obtain ⟨r, h1, h2, -⟩ := C54_to_gdal_measured_partial { z := true, m := true } rfl
    ((Geom.polygon [[⟨0#64, 0#64, some 1#64, some 2#64⟩], []]).events true 0 |>.foldr Prog.emit (.ret ())) [] [] none
    (Geom.polygon [[⟨0#64, 0#64, some 1#64, some 2#64⟩], []]) trivial (.inr rfl)
  exact ⟨r, h1, h2⟩

example : ({ z := true } : Dims).m = false ∧ (Geom.lineString [⟨0#64, 0#64, some 1#64, none⟩]).Basic ∧
    (Geom.lineString [⟨0#64, 0#64, some 1#64, none⟩]).coords ≠ [] := ⟨rfl, trivial, by simp [Geom.coords]⟩

end Geozero
