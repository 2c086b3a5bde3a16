import Verif.Props.GeoFeature

/-
C57 and C58 for newline-delimited GeoJSON, exactly: what the conversion to geo-types features does with any sequence of lines.
-/

namespace Geozero
open Prog

/-- a line with a feature -/
abbrev featureLine (f : GjFeature) : Except Err GeoJsonValue := .ok (.feature f)

/-- a line with a bare geometry -/
abbrev geometryLine (g : GjGeom) : Except Err GeoJsonValue := .ok (.geometry g)

/-- Lines whose positions have at least two numbers, whose geometries stay within the allocation limits and whose parser does
not panic. -/
def GeoLines (sz : ElemSizes) (lines : List (Except Err GeoJsonValue)) : Prop :=
  (∀ f, featureLine f ∈ lines → ∀ g, f.geometry = some g → g.Ok ∧ g.geom.Budget sz) ∧
  (∀ g, geometryLine g ∈ lines → g.Ok ∧ g.geom.Budget sz) ∧
  ∀ e, .error e ∈ lines → e.isPanic = false

private theorem gj_geo : {g : GjGeom} → g.Ok → ∃ r, g.geom.geo = some r := by
  intro g h
  induction h with
  | collection h ih =>
    rename_i gs
    have : ∀ gs : List GjGeom, (∀ g ∈ gs, ∃ r, g.geom.geo = some r) → ∃ rs, Geom.geoList (gs.map GjGeom.geom) = some rs := by
      intro gs h
      induction gs with
      | nil => exact ⟨[], rfl⟩
      | cons g gs ih =>
        obtain ⟨r, hr⟩ := h g (by simp)
        obtain ⟨rs, hrs⟩ := ih fun x hx => h x (by simp [hx])
        exact ⟨r :: rs, by simp [Geom.geoList, hr, hrs]⟩
    obtain ⟨rs, hrs⟩ := this gs ih
    exact ⟨.collection rs, by simp [GjGeom.geom, Geom.geo, hrs]⟩
  | _ => simp [GjGeom.geom, Geom.geo]

namespace GeoFeatureWriter

/-- what becomes of a writer fed with the lines from number `i` on -/
private def outc (sz : ElemSizes) (bs : List Byte) (w : GeoFeatureWriter) (i : Nat) (lines : List (Except Err GeoJsonValue)) :
    Except Err GeoFeatureWriter :=
  match feed (step sz) w (FProg.run stopEnv (FProg.forIdx gjLineItem i lines) bs).1 with
  | .error e => .error e
  | .ok w' =>
    match (FProg.run stopEnv (FProg.forIdx gjLineItem i lines) bs).2 with
    | .ok _ => .ok w'
    | .error e => .error e

/-- outside features: `n` geometries are pending -/
private def Between (w : GeoFeatureWriter) (n : Nat) : Prop :=
  w.geom.Idle ∧ w.geom.collections = [] ∧ w.next = none ∧ w.geom.geoms.length = n

private theorem ready_iff (w : GeoFeatureWriter) : w.Ready ↔ w.Between 0 := by
  obtain ⟨⟨a, b, c, d, e⟩, n, fs⟩ := w
  simp only [Ready, Between, GeoWriter.Idle, List.length_eq_zero_iff, GeoWriter.mk.injEq]
  constructor
  · rintro ⟨⟨rfl, rfl, rfl, rfl, rfl⟩, h⟩; exact ⟨⟨rfl, rfl, rfl⟩, rfl, h, rfl⟩
  · rintro ⟨⟨rfl, rfl, rfl⟩, rfl, h, rfl⟩; exact ⟨⟨rfl, rfl, rfl, rfl, rfl⟩, h⟩

private theorem outc_cons {sz : ElemSizes} {bs : List Byte} {w w' : GeoFeatureWriter} {i : Nat} {l : Except Err GeoJsonValue}
    {evs : List FEv} (h : FProg.run stopEnv (gjLineItem i l) bs = (evs, .ok ((), bs))) (hf : feed (step sz) w evs = .ok w')
    (ls : List (Except Err GeoJsonValue)) : outc sz bs w i (l :: ls) = outc sz bs w' (i + 1) ls := by
  have e : FProg.run stopEnv (FProg.forIdx gjLineItem i (l :: ls)) bs =
      (evs ++ (FProg.run stopEnv (FProg.forIdx gjLineItem (i + 1) ls) bs).1,
        (FProg.run stopEnv (FProg.forIdx gjLineItem (i + 1) ls) bs).2) := by
    simp only [FProg.forIdx]
    rw [FProg.run_bind_ok h]
  unfold outc
  rw [e]
  simp only [feed_append, hf]

private theorem outc_cons_error {sz : ElemSizes} {bs : List Byte} {w : GeoFeatureWriter} {i : Nat} {l : Except Err GeoJsonValue}
    {evs : List FEv} {e : Err} (h : FProg.run stopEnv (gjLineItem i l) bs = (evs, .ok ((), bs)))
    (hf : feed (step sz) w evs = .error e) (ls : List (Except Err GeoJsonValue)) : outc sz bs w i (l :: ls) = .error e := by
  have e : FProg.run stopEnv (FProg.forIdx gjLineItem i (l :: ls)) bs =
      (evs ++ (FProg.run stopEnv (FProg.forIdx gjLineItem (i + 1) ls) bs).1,
        (FProg.run stopEnv (FProg.forIdx gjLineItem (i + 1) ls) bs).2) := by
    simp only [FProg.forIdx]
    rw [FProg.run_bind_ok h]
  unfold outc
  rw [e]
  simp only [feed_append, hf]

private theorem run_feature_line {f : GjFeature} (hf : f.Ok) (i : Nat) (bs : List Byte) :
    FProg.run stopEnv (gjLineItem i (featureLine f)) bs = ((f.feat false 0).evs i, .ok ((), bs)) :=
  run_gjFeature stopEnv f hf i 0 bs

private theorem run_geometry_line {g : GjGeom} (hg : g.Ok) (i : Nat) (bs : List Byte) :
    FProg.run stopEnv (gjLineItem i (geometryLine g)) bs = ((g.geom.events false i).map FEv.geom, .ok ((), bs)) := by
  show FProg.run stopEnv (FProg.lift (gjGeomN i g)) bs = _
  rw [FProg.run_lift, run_gjGeomN _ hg i bs]

private theorem feature_some {sz : ElemSizes} {bs : List Byte} {w : GeoFeatureWriter} (hw : w.Between 0) {i : Nat} {f : GjFeature}
    {g : GjGeom} (hg : f.geometry = some g) (hok : g.Ok) (hb : g.geom.Budget sz) (ls : List (Except Err GeoJsonValue)) :
    ∃ (r : GeoGeom) (x : GeoFeature), g.geom.geo = some r ∧ x.Has r (gjProps (f.properties.getD [])) ∧
      outc sz bs w i (featureLine f :: ls) = outc sz bs { w with features := w.features ++ [x] } (i + 1) ls := by
  obtain ⟨r, hr⟩ := gj_geo hok
  have hfo : f.Ok := by intro g' h'; rw [hg] at h'; cases h'; exact hok
  have h1 := feed_feat sz (f.feat false 0) g.geom 0 r (by simp [GjFeature.feat, hg]) hr hb i w ((ready_iff w).mpr hw)
  refine ⟨r, _, hr, ?_, outc_cons (run_feature_line hfo i bs) h1 ls⟩
  have hp : (f.feat false 0).props.getD [] = gjProps (f.properties.getD []) := by
    cases hp : f.properties <;> simp [GjFeature.feat, hp, gjProps, enumFrom]
  refine ⟨rfl, fun name => ?_⟩
  rw [hp]
  show Option.map OwnedVal.column ((lastValue _ name).map ColVal.owned) = lastValue _ name
  cases lastValue (gjProps (f.properties.getD [])) name <;> simp [column_owned]

private theorem feature_none {sz : ElemSizes} {bs : List Byte} {w : GeoFeatureWriter} (hw : w.Between 0) {i : Nat} {f : GjFeature}
    (hg : f.geometry = none) (ls : List (Except Err GeoJsonValue)) :
    outc sz bs w i (featureLine f :: ls) = .error (.featureGeometry "missing geometry") := by
  obtain ⟨h1, h2⟩ := (ready_iff w).mpr hw
  refine outc_cons_error (run_feature_line (by intro g' h'; rw [hg] at h'; cases h') i bs) ?_ ls
  have hgp : (f.feat false 0).geomPart = [] := by simp [Feat.geomPart, GjFeature.feat, hg]
  unfold Feat.evs
  rw [hgp]
  simp only [feed_cons, step, featureBegin, check, h1, h2, List.isEmpty_nil, if_true, Option.isNone_none, List.nil_append,
    List.append_nil, ite_self, feed_append]
  rw [feed_propsPart sz (f.feat false 0) _ rfl]
  simp [feed, step, featureEnd, GeoWriter.takeGeometry]

private theorem feature_pending {sz : ElemSizes} {bs : List Byte} {w : GeoFeatureWriter} {n : Nat} (hw : w.Between (n + 1)) {i : Nat}
    {f : GjFeature} (hf : f.Ok) (ls : List (Except Err GeoJsonValue)) :
    outc sz bs w i (featureLine f :: ls) = .error (.panic "debug_assert") := by
  refine outc_cons_error (run_feature_line hf i bs) ?_ ls
  have h : w.geom.geoms.isEmpty = false := by
    cases h : w.geom.geoms with
    | nil => have := hw.2.2.2; rw [h] at this; cases this
    | cons _ _ => rfl
  simp [Feat.evs, feed, step, featureBegin, check, h]

private theorem geometry_line {sz : ElemSizes} {bs : List Byte} {w : GeoFeatureWriter} {n : Nat} (hw : w.Between n) {i : Nat}
    {g : GjGeom} (hok : g.Ok) (hb : g.geom.Budget sz) (ls : List (Except Err GeoJsonValue)) :
    ∃ w', w'.Between (n + 1) ∧ w'.features = w.features ∧
      outc sz bs w i (geometryLine g :: ls) = outc sz bs w' (i + 1) ls := by
  obtain ⟨r, hr⟩ := gj_geo hok
  obtain ⟨h1, h2, h3, h4⟩ := hw
  have hfeed := GeoWriter.feed_geom sz g.geom w.geom r i h1 hr hb
  refine ⟨{ w with geom := w.geom.finish r }, ⟨GeoWriter.finish_idle h1 r, ?_, h3, ?_⟩, rfl, ?_⟩
  · simp [GeoWriter.finish, h2]
  · simp [GeoWriter.finish, h2, h4]
  · refine outc_cons (run_geometry_line hok i bs) ?_ ls
    rw [feed_geoms, hfeed]

private theorem bad_line {sz : ElemSizes} {bs : List Byte} {w : GeoFeatureWriter} {i : Nat} {l : Except Err GeoJsonValue} {e : Err}
    (h : gjLineItem i l = .fail e) (ls : List (Except Err GeoJsonValue)) : outc sz bs w i (l :: ls) = .error e := by
  have e : FProg.run stopEnv (FProg.forIdx gjLineItem i (l :: ls)) bs = ([], .error e) := by
    simp only [FProg.forIdx]
    rw [h]
    rfl
  unfold outc
  rw [e]
  rfl

end GeoFeatureWriter

open GeoFeatureWriter

private theorem toGeoFeatures_lines (sz : ElemSizes) (lines : List (Except Err GeoJsonValue)) (bs : List Byte) :
    toGeoFeatures sz (readGeoJsonLines lines) bs = (outc sz bs {} 0 lines).map GeoFeatureWriter.features := by
  have hrun : (FProg.run stopEnv (readGeoJsonLines lines) bs).1 =
        .dsBegin none :: ((FProg.run stopEnv (FProg.forIdx gjLineItem 0 lines) bs).1 ++
          match (FProg.run stopEnv (FProg.forIdx gjLineItem 0 lines) bs).2 with | .ok _ => [.dsEnd] | .error _ => []) ∧
      (∀ e, (FProg.run stopEnv (FProg.forIdx gjLineItem 0 lines) bs).2 = .error e →
        (FProg.run stopEnv (readGeoJsonLines lines) bs).2 = .error e) ∧
      (∀ a, (FProg.run stopEnv (FProg.forIdx gjLineItem 0 lines) bs).2 = .ok a →
        ∃ b, (FProg.run stopEnv (readGeoJsonLines lines) bs).2 = .ok b) := by
    simp only [readGeoJsonLines, FProg.bind_eq, FProg.run_call_bind]
    cases h : FProg.run stopEnv (FProg.forIdx gjLineItem 0 lines) bs with
    | mk evs o =>
      cases o with
      | error e =>
        rw [FProg.run_bind_err h]
        simp
      | ok a =>
        obtain ⟨u, rest⟩ := a
        rw [FProg.run_bind_ok h]
        simp [FProg.call, FProg.run]
  obtain ⟨h1, h2, h3⟩ := hrun
  have hno := noOk_gjLines lines
  unfold toGeoFeatures outc
  generalize FProg.run stopEnv (FProg.forIdx gjLineItem 0 lines) bs = q at h1 h2 h3
  obtain ⟨evs, o⟩ := q
  simp only at h1 h2 h3 ⊢
  cases hf : feed (step sz) {} evs with
  | error e =>
    have hfe : feed (proc sz).step {} (FProg.run stopEnv (readGeoJsonLines lines) bs).1 = .error e := by
      rw [h1, feed_cons]
      show feed (step sz) {} (_ ++ _) = _
      rw [feed_append, hf]
    have hi := FProg.interp_of_feed_error (GeoFeatureWriter.agrees sz) _ hno {} trivial bs e hfe
    generalize FProg.interp (proc sz) (readGeoJsonLines lines) {} bs = q at hi
    obtain ⟨w, evs, o⟩ := q
    simp only at hi
    subst hi
    rfl
  | ok w =>
    have hfe : feed (proc sz).step {} (FProg.run stopEnv (readGeoJsonLines lines) bs).1 = .ok w := by
      rw [h1, feed_cons]
      show feed (step sz) {} (_ ++ _) = _
      rw [feed_append, hf]
      cases o <;> rfl
    have hi := FProg.interp_of_feed_ok (GeoFeatureWriter.agrees sz) (readGeoJsonLines lines) {} w trivial bs hfe
    rw [hi]
    cases o with
    | error e =>
      have := h2 e rfl
      generalize FProg.run stopEnv (readGeoJsonLines lines) bs = q at this ⊢
      obtain ⟨evs', o'⟩ := q
      simp only at this
      subst this
      rfl
    | ok a =>
      obtain ⟨b, this⟩ := h3 a rfl
      generalize FProg.run stopEnv (readGeoJsonLines lines) bs = q at this ⊢
      obtain ⟨evs', o'⟩ := q
      simp only at this
      subst this
      rfl

/-- geometries, then a feature -/
private def GeomsThenFeature (lines : List (Except Err GeoJsonValue)) : Prop :=
  ∃ gs f rest, lines = List.map geometryLine gs ++ featureLine f :: rest

private theorem gtf_geom (g : GjGeom) (ls : List (Except Err GeoJsonValue)) :
    GeomsThenFeature (geometryLine g :: ls) ↔ GeomsThenFeature ls := by
  constructor
  · rintro ⟨gs, f, rest, h⟩
    cases gs with
    | nil => simp at h
    | cons g' gs => exact ⟨gs, f, rest, (List.cons.inj h).2⟩
  · rintro ⟨gs, f, rest, h⟩
    exact ⟨g :: gs, f, rest, by rw [h]; rfl⟩

/-- C58's bad form -/
private def Bad (lines : List (Except Err GeoJsonValue)) : Prop :=
  ∃ fs gs f rest, (∀ f ∈ fs, f.geometry.isSome) ∧ gs ≠ [] ∧
    lines = List.map featureLine fs ++ (List.map geometryLine gs ++ featureLine f :: rest)

private theorem bad_feature (f : GjFeature) (ls : List (Except Err GeoJsonValue)) :
    Bad (featureLine f :: ls) ↔ f.geometry.isSome ∧ Bad ls := by
  constructor
  · rintro ⟨fs, gs, f', rest, h1, h2, h⟩
    cases fs with
    | nil =>
      cases gs with
      | nil => exact absurd rfl h2
      | cons g gs => simp at h
    | cons a fs =>
      simp only [List.map_cons, List.cons_append, List.cons.injEq, Except.ok.injEq, GeoJsonValue.feature.injEq] at h
      obtain ⟨rfl, h⟩ := h
      exact ⟨h1 _ (by simp), fs, gs, f', rest, fun x hx => h1 x (by simp [hx]), h2, h⟩
  · rintro ⟨h0, fs, gs, f', rest, h1, h2, h⟩
    refine ⟨f :: fs, gs, f', rest, ?_, h2, by rw [h]; rfl⟩
    intro x hx
    rcases List.mem_cons.mp hx with rfl | hx
    · exact h0
    · exact h1 x hx

private theorem bad_geom (g : GjGeom) (ls : List (Except Err GeoJsonValue)) :
    Bad (geometryLine g :: ls) ↔ GeomsThenFeature ls := by
  constructor
  · rintro ⟨fs, gs, f', rest, h1, h2, h⟩
    cases fs with
    | nil =>
      cases gs with
      | nil => exact absurd rfl h2
      | cons g' gs => exact ⟨gs, f', rest, (List.cons.inj h).2⟩
    | cons a fs => simp at h
  · rintro ⟨gs, f, rest, h⟩
    exact ⟨[], g :: gs, f, rest, by simp, by simp, by rw [h]; rfl⟩

private theorem GeoLines.tail {sz : ElemSizes} {l : Except Err GeoJsonValue} {ls : List (Except Err GeoJsonValue)}
    (h : GeoLines sz (l :: ls)) : GeoLines sz ls :=
  ⟨fun f hf => h.1 f (List.mem_cons_of_mem _ hf), fun g hg => h.2.1 g (List.mem_cons_of_mem _ hg),
    fun e he => h.2.2 e (List.mem_cons_of_mem _ he)⟩

private theorem panics_pending (sz : ElemSizes) (bs : List Byte) (lines : List (Except Err GeoJsonValue)) (hl : GeoLines sz lines)
    (w : GeoFeatureWriter) (n i : Nat) (hw : w.Between (n + 1)) :
    (∃ x, outc sz bs w i lines = .error x ∧ x.isPanic = true) ↔ GeomsThenFeature lines := by
  induction lines generalizing w n i with
  | nil =>
    constructor
    · rintro ⟨x, h, -⟩; cases h
    · rintro ⟨gs, f, rest, h⟩; simp at h
  | cons l ls ih =>
    rcases l with e | v
    · rw [bad_line (e := e) (by rfl)]
      have := hl.2.2 e (by simp)
      constructor
      · rintro ⟨x, h, hx⟩; cases h; rw [this] at hx; cases hx
      · rintro ⟨gs, f, rest, h⟩; cases gs <;> simp at h
    · cases v with
      | featureCollection fs =>
        rw [bad_line (e := lineError) (by rfl)]
        constructor
        · rintro ⟨x, h, hx⟩; cases h; cases hx
        · rintro ⟨gs, f, rest, h⟩; cases gs <;> simp at h
      | geometry g =>
        obtain ⟨hok, hb⟩ := hl.2.1 g (by simp)
        obtain ⟨w', hw', -, he⟩ := geometry_line (bs := bs) (i := i) hw hok hb ls
        rw [he, ih hl.tail w' _ _ hw']
        exact (gtf_geom g ls).symm
      | feature f =>
        rw [feature_pending hw (fun g hg => (hl.1 f (by simp) g hg).1)]
        exact ⟨fun _ => ⟨[], f, ls, rfl⟩, fun _ => ⟨_, rfl, rfl⟩⟩

private theorem panics_ready (sz : ElemSizes) (bs : List Byte) (lines : List (Except Err GeoJsonValue)) (hl : GeoLines sz lines)
    (w : GeoFeatureWriter) (i : Nat) (hw : w.Between 0) :
    (∃ x, outc sz bs w i lines = .error x ∧ x.isPanic = true) ↔ Bad lines := by
  induction lines generalizing w i with
  | nil =>
    constructor
    · rintro ⟨x, h, -⟩; cases h
    · rintro ⟨fs, gs, f, rest, -, -, h⟩; simp at h
  | cons l ls ih =>
    rcases l with e | v
    · rw [bad_line (e := e) (by rfl)]
      have := hl.2.2 e (by simp)
      constructor
      · rintro ⟨x, h, hx⟩; cases h; rw [this] at hx; cases hx
      · rintro ⟨fs, gs, f, rest, -, -, h⟩; cases fs <;> cases gs <;> simp at h
    · cases v with
      | featureCollection fs =>
        rw [bad_line (e := lineError) (by rfl)]
        constructor
        · rintro ⟨x, h, hx⟩; cases h; cases hx
        · rintro ⟨fs, gs, f, rest, -, -, h⟩; cases fs <;> cases gs <;> simp at h
      | geometry g =>
        obtain ⟨hok, hb⟩ := hl.2.1 g (by simp)
        obtain ⟨w', hw', -, he⟩ := geometry_line (bs := bs) (i := i) hw hok hb ls
        rw [he, panics_pending sz bs ls hl.tail w' _ _ hw']
        exact (bad_geom g ls).symm
      | feature f =>
        rw [show Bad (.ok (.feature f) :: ls) ↔ _ from bad_feature f ls]
        cases hg : f.geometry with
        | none =>
          rw [show outc sz bs w i (.ok (.feature f) :: ls) = _ from feature_none hw hg ls]
          constructor
          · rintro ⟨x, h, hx⟩; cases h; cases hx
          · rintro ⟨h, -⟩; cases h
        | some g =>
          obtain ⟨hok, hb⟩ := hl.1 f (by simp) g hg
          obtain ⟨r, x, -, -, he⟩ := feature_some (bs := bs) (i := i) hw hg hok hb ls
          rw [show outc sz bs w i (.ok (.feature f) :: ls) = _ from he,
            ih hl.tail _ _ (show Between { w with features := w.features ++ [x] } 0 from hw)]
          simp

/-- C58 for newline-delimited GeoJSON, exactly: the conversion to geo-types features panics if and only if the lines begin with
features that have a geometry, then one or more bare geometries, then a feature. -/
theorem C58_lines_iff (sz : ElemSizes) (lines : List (Except Err GeoJsonValue)) (hl : GeoLines sz lines) (bs : List Byte) :
    (∃ x, toGeoFeatures sz (readGeoJsonLines lines) bs = .error x ∧ x.isPanic = true) ↔
      ∃ fs gs f rest, (∀ f ∈ fs, f.geometry.isSome) ∧ gs ≠ [] ∧
        lines = List.map featureLine fs ++ (List.map geometryLine gs ++ featureLine f :: rest) := by
  rw [toGeoFeatures_lines]
  refine Iff.trans ?_ (panics_ready sz bs lines hl {} 0 ((ready_iff _).mp ⟨rfl, rfl⟩))
  cases outc sz bs {} 0 lines with
  | ok w => simp [Except.map]
  | error e => simp [Except.map]

private theorem ok_pending (sz : ElemSizes) (bs : List Byte) (lines : List (Except Err GeoJsonValue)) (hl : GeoLines sz lines)
    (w : GeoFeatureWriter) (n i : Nat) (hw : w.Between (n + 1)) :
    (∃ gs, lines = List.map geometryLine gs ∧ ∃ w', outc sz bs w i lines = .ok w' ∧ w'.features = w.features) ∨
    ((∀ gs, lines ≠ List.map geometryLine gs) ∧ ∃ e, outc sz bs w i lines = .error e) := by
  induction lines generalizing w n i with
  | nil => exact .inl ⟨[], rfl, w, rfl, rfl⟩
  | cons l ls ih =>
    have other : ∀ v, (∀ g, l ≠ geometryLine g) → outc sz bs w i (l :: ls) = .error v →
        (∀ gs, l :: ls ≠ List.map geometryLine gs) ∧ ∃ e, outc sz bs w i (l :: ls) = .error e := by
      intro v hv he
      refine ⟨fun gs h => ?_, v, he⟩
      cases gs with
      | nil => cases h
      | cons g gs => exact hv g (List.cons.inj h).1
    rcases l with e | v
    · exact .inr (other e (by intro g h; cases h) (bad_line (by rfl) ls))
    · cases v with
      | featureCollection fs => exact .inr (other lineError (by intro g h; cases h) (bad_line (by rfl) ls))
      | feature f =>
        exact .inr (other _ (by intro g h; cases h) (feature_pending hw (fun g hg => (hl.1 f (by simp) g hg).1) ls))
      | geometry g =>
        obtain ⟨hok, hb⟩ := hl.2.1 g (by simp)
        obtain ⟨w', hw', hfe, he⟩ := geometry_line (bs := bs) (i := i) hw hok hb ls
        rw [show outc sz bs w i (.ok (.geometry g) :: ls) = _ from he]
        rcases ih hl.tail w' _ (i + 1) hw' with ⟨gs, h, w2, h2, h3⟩ | ⟨h, h2⟩
        · exact .inl ⟨g :: gs, by rw [h]; rfl, w2, h2, h3.trans hfe⟩
        · refine .inr ⟨fun gs h' => ?_, h2⟩
          cases gs with
          | nil => cases h'
          | cons g' gs => exact h gs (List.cons.inj h').2

/-- the features a geo-types conversion makes of GeoJSON features -/
inductive GjConverted : List GjFeature → List GeoFeature → Prop
  | nil : GjConverted [] []
  | cons (f : GjFeature) (g : GjGeom) (r : GeoGeom) (x : GeoFeature) (fs : List GjFeature) (xs : List GeoFeature)
      (hg : f.geometry = some g) (hr : g.geom.geo = some r) (hx : x.Has r (gjProps (f.properties.getD [])))
      (h : GjConverted fs xs) : GjConverted (f :: fs) (x :: xs)

private theorem ok_ready (sz : ElemSizes) (bs : List Byte) (lines : List (Except Err GeoJsonValue)) (hl : GeoLines sz lines)
    (w : GeoFeatureWriter) (i : Nat) (hw : w.Between 0) :
    (∃ fs gs xs, lines = List.map featureLine fs ++ List.map geometryLine gs ∧ GjConverted fs xs ∧
      ∃ w', outc sz bs w i lines = .ok w' ∧ w'.features = w.features ++ xs) ∨
    ((∀ fs gs, (∀ f ∈ fs, f.geometry.isSome) → lines ≠ List.map featureLine fs ++ List.map geometryLine gs) ∧
      ∃ e, outc sz bs w i lines = .error e) := by
  induction lines generalizing w i with
  | nil => exact .inl ⟨[], [], [], rfl, .nil, w, rfl, by simp⟩
  | cons l ls ih =>
    have other : ∀ v, (∀ g, l ≠ geometryLine g) → (∀ f, f.geometry.isSome → l ≠ featureLine f) →
        outc sz bs w i (l :: ls) = .error v →
        (∀ fs gs, (∀ f ∈ fs, f.geometry.isSome) → l :: ls ≠ List.map featureLine fs ++ List.map geometryLine gs) ∧
          ∃ e, outc sz bs w i (l :: ls) = .error e := by
      intro v hv hv' he
      refine ⟨fun fs gs hfs h => ?_, v, he⟩
      cases fs with
      | nil =>
        cases gs with
        | nil => cases h
        | cons g gs => exact hv g (List.cons.inj h).1
      | cons f fs => exact hv' f (hfs f (by simp)) (List.cons.inj h).1
    rcases l with e | v
    · exact .inr (other e (by intro g h; cases h) (by intro g _ h; cases h) (bad_line (by rfl) ls))
    · cases v with
      | featureCollection fs =>
        exact .inr (other lineError (by intro g h; cases h) (by intro g _ h; cases h) (bad_line (by rfl) ls))
      | feature f =>
        cases hg : f.geometry with
        | none =>
          refine .inr (other _ (by intro g h; cases h) ?_ (feature_none hw hg ls))
          intro f' hf' h
          cases h
          rw [hg] at hf'
          cases hf'
        | some g =>
          obtain ⟨hok, hb⟩ := hl.1 f (by simp) g hg
          obtain ⟨r, x, hr, hx, he⟩ := feature_some (bs := bs) (i := i) hw hg hok hb ls
          rw [show outc sz bs w i (.ok (.feature f) :: ls) = _ from he]
          rcases ih hl.tail _ (i + 1) (show Between { w with features := w.features ++ [x] } 0 from hw) with
            ⟨fs, gs, xs, h, hc, w2, h2, h3⟩ | ⟨h, h2⟩
          · refine .inl ⟨f :: fs, gs, x :: xs, by rw [h]; rfl, .cons f g r x fs xs hg hr hx hc, w2, h2, ?_⟩
            rw [h3]
            simp
          · refine .inr ⟨fun fs gs hfs h' => ?_, h2⟩
            cases fs with
            | nil => cases gs <;> simp at h'
            | cons f' fs => exact h fs gs (fun y hy => hfs y (by simp [hy])) (List.cons.inj h').2
      | geometry g =>
        obtain ⟨hok, hb⟩ := hl.2.1 g (by simp)
        obtain ⟨w', hw', hfe, he⟩ := geometry_line (bs := bs) (i := i) hw hok hb ls
        rw [show outc sz bs w i (.ok (.geometry g) :: ls) = _ from he]
        rcases ok_pending sz bs ls hl.tail w' _ (i + 1) hw' with ⟨gs, h, w2, h2, h3⟩ | ⟨h, h2⟩
        · exact .inl ⟨[], g :: gs, [], by rw [h]; rfl, .nil, w2, h2, by rw [h3, hfe]; simp⟩
        · refine .inr ⟨fun fs gs hfs h' => ?_, h2⟩
          cases fs with
          | nil =>
            cases gs with
            | nil => cases h'
            | cons g' gs => exact h gs (List.cons.inj h').2
          | cons f' fs => simp at h'

private theorem GjConverted.isSome {fs : List GjFeature} {xs : List GeoFeature} (h : GjConverted fs xs) :
    ∀ f ∈ fs, f.geometry.isSome := by
  induction h with
  | nil => simp
  | cons f g r x fs xs hg _ _ _ ih =>
    intro y hy
    rcases List.mem_cons.mp hy with rfl | hy
    · rw [hg]; rfl
    · exact ih y hy

/-- C57 for newline-delimited GeoJSON, exactly: the conversion succeeds if and only if the lines are features with a geometry
followed by bare geometries; it then gives the features, and the geometries are lost. -/
theorem C57_lines_iff (sz : ElemSizes) (lines : List (Except Err GeoJsonValue)) (hl : GeoLines sz lines) (bs : List Byte) :
    ((∃ xs, toGeoFeatures sz (readGeoJsonLines lines) bs = .ok xs) ↔
      ∃ fs gs, (∀ f ∈ fs, f.geometry.isSome) ∧ lines = List.map featureLine fs ++ List.map geometryLine gs) ∧
    ∀ xs, toGeoFeatures sz (readGeoJsonLines lines) bs = .ok xs →
      ∃ fs gs, lines = List.map featureLine fs ++ List.map geometryLine gs ∧ GjConverted fs xs := by
  rw [toGeoFeatures_lines]
  rcases ok_ready sz bs lines hl {} 0 ((ready_iff _).mp ⟨rfl, rfl⟩) with ⟨fs, gs, xs, h, hc, w, h2, h3⟩ | ⟨h, e, h2⟩
  · rw [h2]
    simp only [Except.map, h3]
    refine ⟨⟨fun _ => ⟨fs, gs, hc.isSome, h⟩, fun _ => ⟨_, rfl⟩⟩, ?_⟩
    rintro ys hy
    cases hy
    exact ⟨fs, gs, h, hc⟩
  · rw [h2]
    simp only [Except.map]
    refine ⟨⟨fun ⟨xs, h⟩ => (by cases h), fun ⟨fs, gs, hfs, hls⟩ => absurd hls (h fs gs hfs)⟩, fun xs h => (by cases h)⟩

/-- non-vacuity: a feature, a geometry and a feature again -/
example : GeoLines ⟨16, 24, 48, 56⟩ [featureLine ⟨none, some (.point [1#64, 2#64])⟩, geometryLine (.point [1#64, 2#64]),
    featureLine ⟨none, none⟩, .error .columnNotFound] := by
  refine ⟨?_, ?_, ?_⟩
  · intro f hf g hg
    simp at hf
    rcases hf with rfl | rfl
    · cases hg; exact ⟨.point (by decide), by simp [GjGeom.geom, Geom.Budget]⟩
    · cases hg
  · intro g hg
    simp at hg
    subst hg
    exact ⟨.point (by decide), by simp [GjGeom.geom, Geom.Budget]⟩
  · intro e he
    simp at he
    subst he
    rfl

end Geozero
