import Verif.Spec.WktShown
import Verif.Props.WktConv
import Verif.Props.WkbCanon

/-
C20 without restriction on the coordinates: when exactly do two geometries give the same text?
-/

namespace Geozero
open Prog Spec WktWriter

/-- a coordinate showing the given numbers -/
private def canonNum (v : Option F64) : F64 := v.getD 0x7FF8000000000000#64

private def canonCoord : List (Option F64) → Coord
  | [x, y] => ⟨canonNum x, canonNum y, none, none⟩
  | [x, y, z] => ⟨canonNum x, canonNum y, some (canonNum z), none⟩
  | [x, y, z, m] => ⟨canonNum x, canonNum y, some (canonNum z), some (canonNum m)⟩
  | _ => ⟨canonNum none, canonNum none, none, none⟩

private def normCoord (multi : Bool) (c : Coord) : Coord := canonCoord (coordShown multi c)

private theorem shown_canonNum (v : F64) : ordinateShown (canonNum (ordinateShown v)) = ordinateShown v := by
  cases h : v.isNaN with
  | true => simp only [ordinateShown, h, if_true, canonNum, Option.getD_none]; rfl
  | false => simp [ordinateShown, h, canonNum]

private theorem isNaN_canonNum (v : F64) : (canonNum (ordinateShown v)).isNaN = v.isNaN := by
  cases h : v.isNaN with
  | true => simp only [ordinateShown, h, if_true, canonNum, Option.getD_none]; rfl
  | false => simp [ordinateShown, h, canonNum]

private theorem ordinates_norm (multi : Bool) (c : Coord) (h : ¬ ∀ v ∈ ordinates multi c, F64.isNaN v = true) :
    ordinates multi (normCoord multi c) = (ordinates multi c).map fun v => canonNum (ordinateShown v) := by
  unfold normCoord coordShown
  rw [if_neg h]
  obtain ⟨x, y, z, m⟩ := c
  cases multi
  · rfl
  · cases z <;> cases m <;> rfl

private theorem ordinates_norm_nan (multi : Bool) (c : Coord) (h : ∀ v ∈ ordinates multi c, F64.isNaN v = true) :
    normCoord multi c = canonCoord [] := by
  unfold normCoord coordShown
  rw [if_pos h]

private theorem nan_canon (multi : Bool) : ∀ v ∈ ordinates multi (canonCoord []), F64.isNaN v = true := by
  have e : F64.isNaN (canonNum none) = true := rfl
  intro v hv
  cases multi <;> simp [ordinates, canonCoord] at hv <;> rw [hv] <;> exact e

private theorem allNaN_norm (multi : Bool) (c : Coord) :
    (∀ v ∈ ordinates multi (normCoord multi c), F64.isNaN v = true) ↔ ∀ v ∈ ordinates multi c, F64.isNaN v = true := by
  by_cases h : ∀ v ∈ ordinates multi c, F64.isNaN v = true
  · rw [ordinates_norm_nan multi c h]
    exact ⟨fun _ => h, fun _ => nan_canon multi⟩
  · rw [ordinates_norm multi c h]
    simp [isNaN_canonNum]

private theorem shown_norm (multi : Bool) (c : Coord) : coordShown multi (normCoord multi c) = coordShown multi c := by
  by_cases h : ∀ v ∈ ordinates multi c, F64.isNaN v = true
  · rw [coordShown, if_pos ((allNaN_norm multi c).mpr h), coordShown, if_pos h]
  · rw [coordShown, if_neg (fun h' => h ((allNaN_norm multi c).mp h')), coordShown, if_neg h, ordinates_norm multi c h,
      List.map_map]
    exact List.map_congr_left fun v _ => shown_canonNum v

private theorem norm_norm (multi : Bool) (c : Coord) : normCoord multi (normCoord multi c) = normCoord multi c := by
  rw [normCoord, shown_norm]; rfl

private theorem num_canonNum {N : NumText} (K : NanText N) (v : F64) : N.num (canonNum (ordinateShown v)) = N.num v := by
  cases h : v.isNaN with
  | true => rw [K.num_nan _ ((isNaN_canonNum v).trans h), K.num_nan v h]
  | false => simp [ordinateShown, h, canonNum]

private theorem wktCoord_norm {N : NumText} (K : NanText N) (multi : Bool) (c : Coord) :
    wktCoord N.num multi (normCoord multi c) = wktCoord N.num multi c := by
  by_cases h : ∀ v ∈ ordinates multi c, F64.isNaN v = true
  · rw [wktCoord, if_pos ((allNaN_norm multi c).mpr h), wktCoord, if_pos h]
  · rw [wktCoord, if_neg (fun h' => h ((allNaN_norm multi c).mp h')), wktCoord, if_neg h, ordinates_norm multi c h,
      List.map_map]
    congr 1
    exact List.map_congr_left fun v _ => num_canonNum K v

/-- a parser of coordinates with NaNs -/
private def readCoord {N : NumText} (K : NanText N) (s : Text) : Option (Coord × Text) :=
  match s.dropWhile (fun c => !isDelim c) with
  | ' ' :: _ => parseCoord (fun t => if t = K.nan then some (canonNum none) else N.parse t) s
  | r => some (canonCoord [], r)

private theorem span_delim (l : Text) (h : ∀ c ∈ l, isDelim c = false) (c : Char) (r : Text) (hc : isDelim c = true) :
    (l ++ c :: r).dropWhile (fun c => !isDelim c) = c :: r := by
  induction l with
  | nil => simp [hc]
  | cons a l ih => simp [h a (by simp), ih (fun x hx => h x (by simp [hx]))]

private theorem readCoord_ok {N : NumText} (K : NanText N) (multi : Bool) (c : Coord) (hc : normCoord multi c = c) :
    Parses (readCoord K) (wktCoord N.num multi) c := by
  intro rest hr
  by_cases h : ∀ v ∈ ordinates multi c, F64.isNaN v = true
  · have hcc : c = canonCoord [] := by rw [← hc]; exact ordinates_norm_nan multi c h
    rw [wktCoord, if_pos h]
    obtain ⟨r, hr | hr⟩ := hr
    · subst hr
      simp only [readCoord, span_delim (txt "EMPTY") (by decide) ',' r rfl]
      rw [hcc]; rfl
    · subst hr
      simp only [readCoord, span_delim (txt "EMPTY") (by decide) ')' r rfl]
      rw [hcc]; rfl
  · rw [wktCoord, if_neg h]
    have ho := ordinates_norm multi c h
    rw [hc] at ho
    have hchars : ∀ v : F64, ∀ a ∈ N.num v, isDelim a = false := by
      intro v a ha
      cases hv : v.isNaN with
      | true => rw [K.num_nan v hv] at ha; exact K.nan_chars a ha
      | false => exact N.num_chars v hv a ha
    have hp : ∀ v ∈ ordinates multi c,
        (fun t => if t = K.nan then some (canonNum none) else N.parse t) (N.num v) = some v := by
      intro v hv
      rw [ho] at hv
      obtain ⟨u, _, hu⟩ := List.mem_map.mp hv
      cases hn : v.isNaN with
      | true =>
        simp only [K.num_nan v hn, if_true]
        rw [← hu, isNaN_canonNum] at hn
        rw [← hu]
        simp [ordinateShown, hn]
      | false => simp only [K.num_ne_nan v hn, if_false, N.parse_num v hn]
    obtain ⟨x, y, ts, hxy⟩ : ∃ x y ts, ordinates multi c = x :: y :: ts := by
      cases multi <;> exact ⟨_, _, _, rfl⟩
    have hlen : (ordinates multi c).length ≤ 4 := by
      obtain ⟨x, y, z, m⟩ := c
      cases multi <;> cases z <;> cases m <;> simp [ordinates]
    have hnums := parseNums_of N.num (fun t => if t = K.nan then some (canonNum none) else N.parse t) (ordinates multi c)
      (by rw [hxy]; simp) (fun v hv => ⟨hchars v, hp v hv⟩) 4 hlen rest hr
    have hspan : (blankSep ((ordinates multi c).map N.num) ++ rest).dropWhile (fun c => !isDelim c) =
        ' ' :: (blankSep ((y :: ts).map N.num) ++ rest) := by
      rw [hxy]
      have e : blankSep ((x :: y :: ts).map N.num) ++ rest = N.num x ++ ' ' :: (blankSep ((y :: ts).map N.num) ++ rest) := by
        simp [blankSep]
      rw [e]
      exact span_delim _ (hchars x) ' ' _ rfl
    simp only [readCoord, hspan, parseCoord, hnums]
    have hcn : canonCoord ((ordinates multi c).map ordinateShown) = c := by
      conv => rhs; rw [← hc]
      rw [normCoord, coordShown, if_neg h]
    obtain ⟨x, y, z, m⟩ := c
    cases multi
    · cases z with
      | some z => simp [ordinates, canonCoord] at hcn
      | none =>
        cases m with
        | some m => simp [ordinates, canonCoord] at hcn
        | none => simp [ordinates]
    · cases z with
      | none =>
        cases m with
        | some m => simp [ordinates, canonCoord] at hcn
        | none => simp [ordinates]
      | some z => cases m <;> simp [ordinates]

/-! ### rebuilding a geometry from its tree and its coordinates -/

private def Rebuilds {α : Type} (mp : (Coord → Coord) → α → α) (cs : α → List Coord) (a : α) : Prop :=
  ∀ a', mp (fun _ => ⟨F64.zero, F64.zero, none, none⟩) a = mp (fun _ => ⟨F64.zero, F64.zero, none, none⟩) a' →
    (cs a).length = (cs a').length ∧ ∀ f, (cs a).map f = (cs a').map f → mp f a = mp f a'

private theorem rebuilds_list {α : Type} (mp : (Coord → Coord) → α → α) (cs : α → List Coord) (xs : List α)
    (h : ∀ x ∈ xs, Rebuilds mp cs x) : Rebuilds (fun f => List.map (mp f)) (fun xs => xs.flatMap cs) xs := by
  induction xs with
  | nil =>
    intro ys hy
    have : ys = [] := by simpa using hy.symm
    subst this
    exact ⟨rfl, fun _ _ => rfl⟩
  | cons x xs ih =>
    intro ys hy
    cases ys with
    | nil => simp at hy
    | cons y ys =>
      simp only [List.map_cons, List.cons.injEq] at hy
      obtain ⟨h1, h2⟩ := h x (by simp) y hy.1
      obtain ⟨h3, h4⟩ := ih (fun z hz => h z (by simp [hz])) ys hy.2
      refine ⟨by simp only [List.flatMap_cons, List.length_append, h1, h3], fun f hf => ?_⟩
      simp only [List.flatMap_cons, List.map_append] at hf
      obtain ⟨e1, e2⟩ := List.append_inj hf (by simpa using h1)
      simp only [List.map_cons, h2 f e1, h4 f e2]

private theorem rebuilds_coords (cs : List Coord) : Rebuilds (fun f => List.map f) id cs := by
  intro cs' h
  exact ⟨by simpa using congrArg List.length h, fun f hf => hf⟩

private theorem rebuilds_lines (ls : List (List Coord)) : Rebuilds (fun f => List.map (List.map f)) List.flatten ls := by
  have := rebuilds_list (fun f => List.map f) id ls (fun l _ => rebuilds_coords l)
  have e : (fun xs : List (List Coord) => xs.flatMap id) = List.flatten := by funext xs; simp
  rwa [e] at this

private theorem rebuilds_polys (ps : List (List (List Coord))) :
    Rebuilds (fun f => List.map (List.map (List.map f))) (fun ps => ps.flatMap List.flatten) ps :=
  rebuilds_list (fun f => List.map (List.map f)) List.flatten ps (fun l _ => rebuilds_lines l)

private theorem rebuilds_seg (s : Seg) : Rebuilds Seg.map Seg.coords s := by
  intro s' h
  cases s with
  | line cs =>
    cases s' with
    | line cs' =>
      obtain ⟨h1, h2⟩ := rebuilds_coords cs cs' (by simpa [Seg.map] using h)
      exact ⟨h1, fun f hf => congrArg Seg.line (h2 f hf)⟩
    | circ cs' => simp [Seg.map] at h
  | circ cs =>
    cases s' with
    | circ cs' =>
      obtain ⟨h1, h2⟩ := rebuilds_coords cs cs' (by simpa [Seg.map] using h)
      exact ⟨h1, fun f hf => congrArg Seg.circ (h2 f hf)⟩
    | line cs' => simp [Seg.map] at h

private theorem rebuilds_segs (ss : List Seg) : Rebuilds (fun f => List.map (Seg.map f)) (fun ss => ss.flatMap Seg.coords) ss :=
  rebuilds_list Seg.map Seg.coords ss (fun s _ => rebuilds_seg s)

private theorem rebuilds_curve (c : Curve) : Rebuilds Curve.map Curve.coords c := by
  intro c' h
  cases c with
  | seg s =>
    cases c' with
    | seg s' =>
      obtain ⟨h1, h2⟩ := rebuilds_seg s s' (by simpa [Curve.map] using h)
      exact ⟨h1, fun f hf => congrArg Curve.seg (h2 f hf)⟩
    | compound ss' => simp [Curve.map] at h
  | compound ss =>
    cases c' with
    | compound ss' =>
      obtain ⟨h1, h2⟩ := rebuilds_segs ss ss' (Curve.compound.inj h)
      exact ⟨h1, fun f hf => congrArg Curve.compound (h2 f hf)⟩
    | seg s' => simp [Curve.map] at h

private theorem rebuilds_curves (cs : List Curve) :
    Rebuilds (fun f => List.map (Curve.map f)) (fun cs => cs.flatMap Curve.coords) cs :=
  rebuilds_list Curve.map Curve.coords cs (fun s _ => rebuilds_curve s)

private theorem rebuilds_surface (s : Surface) : Rebuilds Surface.map Surface.coords s := by
  intro s' h
  cases s with
  | polygon rs =>
    cases s' with
    | polygon rs' =>
      obtain ⟨h1, h2⟩ := rebuilds_lines rs rs' (Surface.polygon.inj h)
      exact ⟨h1, fun f hf => congrArg Surface.polygon (h2 f hf)⟩
    | curvePolygon rs' => simp [Surface.map] at h
  | curvePolygon rs =>
    cases s' with
    | curvePolygon rs' =>
      obtain ⟨h1, h2⟩ := rebuilds_curves rs rs' (Surface.curvePolygon.inj h)
      exact ⟨h1, fun f hf => congrArg Surface.curvePolygon (h2 f hf)⟩
    | polygon rs' => simp [Surface.map] at h

private theorem rebuilds_surfaces (cs : List Surface) :
    Rebuilds (fun f => List.map (Surface.map f)) (fun cs => cs.flatMap Surface.coords) cs :=
  rebuilds_list Surface.map Surface.coords cs (fun s _ => rebuilds_surface s)

private theorem rebuilds_geom (g : Geom) : Rebuilds Geom.map Geom.coords g := by
  induction g using Geom.ind with
  | emptyPoint =>
    intro g' h
    cases g' <;> simp [Geom.map] at h
    exact ⟨rfl, fun _ _ => rfl⟩
  | point c =>
    intro g' h
    cases g' <;> simp [Geom.map] at h
    exact ⟨rfl, fun f hf => by simpa [Geom.coords, Geom.map] using hf⟩
  | multiPoint cs =>
    intro g' h
    cases g' <;> first | (simp only [Geom.map, reduceCtorEq] at h; done) | skip
    obtain ⟨h1, h2⟩ := rebuilds_coords _ _ (Geom.multiPoint.inj h)
    exact ⟨h1, fun f hf => congrArg Geom.multiPoint (h2 f hf)⟩
  | lineString cs =>
    intro g' h
    cases g' <;> first | (simp only [Geom.map, reduceCtorEq] at h; done) | skip
    obtain ⟨h1, h2⟩ := rebuilds_coords _ _ (Geom.lineString.inj h)
    exact ⟨h1, fun f hf => congrArg Geom.lineString (h2 f hf)⟩
  | circularString cs =>
    intro g' h
    cases g' <;> first | (simp only [Geom.map, reduceCtorEq] at h; done) | skip
    obtain ⟨h1, h2⟩ := rebuilds_coords _ _ (Geom.circularString.inj h)
    exact ⟨h1, fun f hf => congrArg Geom.circularString (h2 f hf)⟩
  | compoundCurve ss =>
    intro g' h
    cases g' <;> first | (simp only [Geom.map, reduceCtorEq] at h; done) | skip
    obtain ⟨h1, h2⟩ := rebuilds_segs _ _ (Geom.compoundCurve.inj h)
    exact ⟨h1, fun f hf => congrArg Geom.compoundCurve (h2 f hf)⟩
  | multiLineString ls =>
    intro g' h
    cases g' <;> first | (simp only [Geom.map, reduceCtorEq] at h; done) | skip
    obtain ⟨h1, h2⟩ := rebuilds_lines _ _ (Geom.multiLineString.inj h)
    exact ⟨h1, fun f hf => congrArg Geom.multiLineString (h2 f hf)⟩
  | multiCurve cs =>
    intro g' h
    cases g' <;> first | (simp only [Geom.map, reduceCtorEq] at h; done) | skip
    obtain ⟨h1, h2⟩ := rebuilds_curves _ _ (Geom.multiCurve.inj h)
    exact ⟨h1, fun f hf => congrArg Geom.multiCurve (h2 f hf)⟩
  | polygon rs =>
    intro g' h
    cases g' <;> first | (simp only [Geom.map, reduceCtorEq] at h; done) | skip
    obtain ⟨h1, h2⟩ := rebuilds_lines _ _ (Geom.polygon.inj h)
    exact ⟨h1, fun f hf => congrArg Geom.polygon (h2 f hf)⟩
  | triangle rs =>
    intro g' h
    cases g' <;> first | (simp only [Geom.map, reduceCtorEq] at h; done) | skip
    obtain ⟨h1, h2⟩ := rebuilds_lines _ _ (Geom.triangle.inj h)
    exact ⟨h1, fun f hf => congrArg Geom.triangle (h2 f hf)⟩
  | curvePolygon rs =>
    intro g' h
    cases g' <;> first | (simp only [Geom.map, reduceCtorEq] at h; done) | skip
    obtain ⟨h1, h2⟩ := rebuilds_curves _ _ (Geom.curvePolygon.inj h)
    exact ⟨h1, fun f hf => congrArg Geom.curvePolygon (h2 f hf)⟩
  | multiPolygon ps =>
    intro g' h
    cases g' <;> first | (simp only [Geom.map, reduceCtorEq] at h; done) | skip
    obtain ⟨h1, h2⟩ := rebuilds_polys _ _ (Geom.multiPolygon.inj h)
    exact ⟨h1, fun f hf => congrArg Geom.multiPolygon (h2 f hf)⟩
  | polyhedralSurface ps =>
    intro g' h
    cases g' <;> first | (simp only [Geom.map, reduceCtorEq] at h; done) | skip
    obtain ⟨h1, h2⟩ := rebuilds_polys _ _ (Geom.polyhedralSurface.inj h)
    exact ⟨h1, fun f hf => congrArg Geom.polyhedralSurface (h2 f hf)⟩
  | tin ps =>
    intro g' h
    cases g' <;> first | (simp only [Geom.map, reduceCtorEq] at h; done) | skip
    obtain ⟨h1, h2⟩ := rebuilds_polys _ _ (Geom.tin.inj h)
    exact ⟨h1, fun f hf => congrArg Geom.tin (h2 f hf)⟩
  | multiSurface ss =>
    intro g' h
    cases g' <;> first | (simp only [Geom.map, reduceCtorEq] at h; done) | skip
    obtain ⟨h1, h2⟩ := rebuilds_surfaces _ _ (Geom.multiSurface.inj h)
    exact ⟨h1, fun f hf => congrArg Geom.multiSurface (h2 f hf)⟩
  | collection gs ih =>
    intro g' h
    cases g' with
    | collection gs' =>
      simp only [Geom.map, mapList_eq, Geom.collection.injEq] at h
      obtain ⟨h1, h2⟩ := rebuilds_list Geom.map Geom.coords gs ih gs' h
      refine ⟨by simpa only [Geom.coords, Geom.coordsList_eq] using h1, fun f hf => ?_⟩
      simp only [Geom.map, mapList_eq, Geom.collection.injEq]
      exact h2 f (by simpa only [Geom.coords, Geom.coordsList_eq] using hf)
    | _ => exact absurd h (by simp [Geom.map])

private theorem coords_seg_map (f : Coord → Coord) (s : Seg) : (s.map f).coords = s.coords.map f := by cases s <;> rfl

private theorem coords_curve_map (f : Coord → Coord) (s : Curve) : (s.map f).coords = s.coords.map f := by
  cases s with
  | seg s => exact coords_seg_map f s
  | compound ss =>
    simp only [Curve.map, Curve.coords, List.flatMap_map, List.map_flatMap, coords_seg_map]

private theorem coords_surface_map (f : Coord → Coord) (s : Surface) : (s.map f).coords = s.coords.map f := by
  cases s with
  | polygon rs => simp [Surface.map, Surface.coords, List.map_flatten]
  | curvePolygon ss =>
    simp only [Surface.map, Surface.coords, List.flatMap_map, List.map_flatMap, coords_curve_map]

theorem Geom.coords_map (f : Coord → Coord) (g : Geom) : (g.map f).coords = g.coords.map f := by
  induction g using Geom.ind with
  | collection gs ih =>
    simp only [Geom.map, mapList_eq, Geom.coords, Geom.coordsList_eq, List.flatMap_map, List.map_flatMap]
    induction gs with
    | nil => rfl
    | cons g gs ihl =>
      simp only [List.flatMap_cons, ih g (by simp), ihl fun g' h' => ih g' (List.mem_cons_of_mem _ h')]
  | _ => simp [Geom.map, Geom.coords, List.flatMap_map, List.map_flatMap, coords_seg_map, coords_curve_map,
      coords_surface_map, List.map_flatten]

private theorem alike_iff (multi : Bool) (g g' : Geom) :
    LookAlike multi g g' ↔ g.map (normCoord multi) = g'.map (normCoord multi) := by
  constructor
  · rintro ⟨h1, h2⟩
    refine (rebuilds_geom g g' h1).2 _ ?_
    have := congrArg (List.map canonCoord) h2
    have e : canonCoord ∘ coordShown multi = normCoord multi := by funext c; rw [Function.comp, normCoord]
    simpa only [List.map_map, e] using this
  · intro h
    constructor
    · have := congrArg tree h
      simpa only [tree, Geom.map_map'] using this
    · have := congrArg (fun g => g.coords.map (coordShown multi)) h
      simp only [Geom.coords_map, List.map_map] at this
      have e : coordShown multi ∘ normCoord multi = coordShown multi := by funext c; rw [Function.comp, shown_norm]
      simpa only [e] using this

private theorem wkt_eq_iff {N : NumText} (K : NanText N) (multi : Bool) (g g' : Geom) :
    wkt N.num multi g = wkt N.num multi g' ↔ LookAlike multi g g' := by
  have hn : ∀ g, wkt N.num multi (g.map (normCoord multi)) = wkt N.num multi g := fun g =>
    wkt_map_coords N.num multi multi (fun _ => True) (normCoord multi) (fun c _ => wktCoord_norm K multi c) g
      (allCoords_trivial g)
  rw [alike_iff]
  constructor
  · intro h
    have hp := fun g : Geom => parseGeom_of N.num multi (readCoord K) (fun c => normCoord multi c = c)
      (fun c h => readCoord_ok K multi c h) (g.map (normCoord multi)) (by
        intro c hc
        rw [Geom.coords_map] at hc
        obtain ⟨d, _, rfl⟩ := List.mem_map.mp hc
        exact norm_norm multi d) _ (Nat.le_refl _) []
    have a := hp g
    have b := hp g'
    rw [hn] at a b
    rw [h, b] at a
    simpa using a.symm
  · intro h
    rw [← hn g, h, hn g']

/-- C20, exactly: whatever their coordinates, two geometries give the same text if and only if they look alike: the same
tree, and coordinates showing the same numbers in the same order. -/
theorem C20_same_text_iff {N : NumText} (K : NanText N) (dims : Dims) (srid s srid' s' : Option Int) (g g' : Geom) :
    ∃ w w', feed (step N.num) (withOpts .wkt dims srid) (.srid s :: g.events dims.multi 0) = .ok w ∧
      feed (step N.num) (withOpts .wkt dims srid') (.srid s' :: g'.events dims.multi 0) = .ok w' ∧
      (w.out = w'.out ↔ LookAlike dims.multi g g') := by
  obtain ⟨w, h1, h2⟩ := C19_wkt_writer_prints N.num .wkt dims srid s g
  obtain ⟨w', h1', h2'⟩ := C19_wkt_writer_prints N.num .wkt dims srid' s' g'
  refine ⟨w, w', h1, h1', ?_⟩
  rw [h2, h2']
  simpa using wkt_eq_iff K dims.multi g g'

private theorem expect_srid_prefix (v : Int) (hv : v ≠ 0) (t : Text) :
    sridPrefix (some v) ++ t = txt "SRID=" ++ ((toString v).toList ++ ';' :: t) := by
  simp [sridPrefix, hv, txt]

private theorem sridPrefix_filter (a : Option Int) :
    sridPrefix a = sridPrefix (a.filter (· ≠ 0)) := by
  cases a with
  | none => rfl
  | some v =>
    by_cases hv : v = 0
    · subst hv; rfl
    · simp [Option.filter, hv]

private theorem prefix_eq_iff (num : F64 → Text) (multi : Bool) (a b : Option Int) (g g' : Geom) :
    sridPrefix a ++ wkt num multi g = sridPrefix b ++ wkt num multi g' ↔
      a.filter (· ≠ 0) = b.filter (· ≠ 0) ∧ wkt num multi g = wkt num multi g' := by
  have hx : ∀ v : Int, v ≠ 0 → ∀ g g', sridPrefix (some v) ++ wkt num multi g ≠ wkt num multi g' := by
    intro v hv g g' h
    have := expect_srid_geom num multi g'
    rw [← h, expect_srid_prefix v hv, expect_append] at this
    cases this
  have key : ∀ a b : Option Int, (∀ v ∈ a, v ≠ 0) → (∀ v ∈ b, v ≠ 0) →
      (sridPrefix a ++ wkt num multi g = sridPrefix b ++ wkt num multi g' ↔ a = b ∧ wkt num multi g = wkt num multi g') := by
    intro a b ha hb
    cases a with
    | none =>
      cases b with
      | none => simp [sridPrefix]
      | some v =>
        simp only [reduceCtorEq, false_and, iff_false]
        intro h
        exact hx v (hb v rfl) _ _ h.symm
    | some u =>
      cases b with
      | none =>
        simp only [reduceCtorEq, false_and, iff_false]
        intro h
        exact hx u (ha u rfl) _ _ h
      | some v =>
        rw [expect_srid_prefix u (ha u rfl), expect_srid_prefix v (hb v rfl)]
        constructor
        · intro h
          have h' := List.append_cancel_left h
          have su := span_semicolon (toString u).toList (wkt num multi g) (toString_int_chars u)
          have sv := span_semicolon (toString v).toList (wkt num multi g') (toString_int_chars v)
          have e1 : (toString u).toList = (toString v).toList := by rw [← su.1, ← sv.1, h']
          have e2 : ';' :: wkt num multi g = ';' :: wkt num multi g' := by rw [← su.2, ← sv.2, h']
          have e3 : u = v := by rw [← parseInt_toString u, e1, parseInt_toString]
          exact ⟨congrArg some e3, (List.cons.inj e2).2⟩
        · rintro ⟨h1, h2⟩
          cases h1
          rw [h2]
  rw [sridPrefix_filter a, sridPrefix_filter b]
  refine key _ _ ?_ ?_ <;>
  · intro v hv
    simpa using (Option.mem_filter_iff.mp hv).2

/-- C20 for EWKT, exactly: the same text if and only if the geometries look alike and the SRID shown is the same (0 is as
good as none). -/
theorem C20_same_ewkt_iff {N : NumText} (K : NanText N) (dims : Dims) (srid s srid' s' : Option Int) (g g' : Geom) :
    ∃ w w', feed (step N.num) (withOpts .ewkt dims srid) (.srid s :: g.events dims.multi 0) = .ok w ∧
      feed (step N.num) (withOpts .ewkt dims srid') (.srid s' :: g'.events dims.multi 0) = .ok w' ∧
      (w.out = w'.out ↔ (srid.or s).filter (· ≠ 0) = (srid'.or s').filter (· ≠ 0) ∧ LookAlike dims.multi g g') := by
  obtain ⟨w, h1, h2⟩ := C19_wkt_writer_prints N.num .ewkt dims srid s g
  obtain ⟨w', h1', h2'⟩ := C19_wkt_writer_prints N.num .ewkt dims srid' s' g'
  refine ⟨w, w', h1, h1', ?_⟩
  rw [h2, h2']
  simp only [if_true]
  rw [prefix_eq_iff, wkt_eq_iff K]

/-- non-vacuity: a number format that prints every NaN alike -/
def decimalOrNaN : NumText where
  num v := if v.isNaN then txt "NaN" else Nat.toDigits 10 v.toNat
  parse := decimalBits.parse
  num_ne v h := by simp only [h, Bool.false_eq_true, if_false]; exact decimalBits.num_ne v h
  num_chars v h := by simp only [h, Bool.false_eq_true, if_false]; exact decimalBits.num_chars v h
  parse_num v h := by simp only [h, Bool.false_eq_true, if_false]; exact decimalBits.parse_num v h

def decimalNaN : NanText decimalOrNaN where
  nan := txt "NaN"
  nan_chars := by decide
  num_nan v h := by simp [decimalOrNaN, h]
  num_ne_nan v h := by
    simp only [decimalOrNaN, h, Bool.false_eq_true, if_false]
    intro e
    have := Nat.isDigit_of_mem_toDigits (b := 10) (n := v.toNat) (c := 'N') (by decide) (by decide) (by rw [e]; decide)
    exact absurd this (by decide)

/-- non-vacuity: z taken for m, and two NaNs, look alike; a NaN beside a number is not taken for another one, nor an
all-NaN point for the empty point -/
example : LookAlike true (.lineString [⟨0#64, 1#64, some 2#64, none⟩, ⟨0x7FF8000000000000#64, 1#64, none, none⟩])
    (.lineString [⟨0#64, 1#64, none, some 2#64⟩, ⟨0xFFF8000000000000#64, 1#64, none, none⟩]) := ⟨rfl, by simp [Geom.coords, coordShown, ordinates, ordinateShown, F64.isNaN]⟩

example : ¬ LookAlike true (.point ⟨0x7FF8000000000000#64, 1#64, none, none⟩)
    (.point ⟨1#64, 0x7FF8000000000000#64, none, none⟩) := fun h => absurd h.2 (by simp [Geom.coords, coordShown, ordinates, ordinateShown, F64.isNaN])

example : ¬ LookAlike false (.point ⟨0x7FF8000000000000#64, 0x7FF8000000000000#64, none, none⟩) .emptyPoint :=
  fun h => absurd h.1 (by simp [tree, Geom.map])

end Geozero
