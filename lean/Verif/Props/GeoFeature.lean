import Verif.Spec.GeoFeature
import Verif.Props.GeoTypes
import Verif.Props.GeoJson
import Verif.Props.Mvt
import Verif.Props.Gpx

/-
Properties of the conversion to geo-types features: C57, C58.
-/

namespace Geozero
open Prog

theorem column_owned (v : ColVal) : v.owned.column = v := by cases v <;> rfl

namespace GeoFeatureWriter

/-- between features -/
def Ready (w : GeoFeatureWriter) : Prop := w.geom = {} ∧ w.next = none

theorem feed_geoms (sz : ElemSizes) (es : List Ev) (w : GeoFeatureWriter) :
    feed (step sz) w (es.map FEv.geom) =
      match feed (GeoWriter.step sz) w.geom es with
      | .ok geom => .ok { w with geom }
      | .error x => .error x := by
  induction es generalizing w with
  | nil => rfl
  | cons e es ih =>
    simp only [List.map_cons, feed_cons, step]
    cases h : GeoWriter.step sz w.geom e with
    | ok geom => simp only [ih]
    | error x => rfl

theorem feed_propEvs (sz : ElemSizes) (ps : List PropRec) (w : GeoFeatureWriter) (m : Text → Option OwnedVal) (hw : w.next = some m) :
    feed (step sz) w (propEvs ps) = .ok { w with
      next := some fun k => match lastValue ps k with | some v => some v.owned | none => m k } := by
  induction ps generalizing w m with
  | nil =>
    cases w
    cases hw
    rfl
  | cons p ps ih =>
    obtain ⟨i, n, v⟩ := p
    simp only [propEvs, List.map_cons, feed_cons, step, property, hw]
    have := ih { w with next := some fun k => if k = n then some v.owned else m k } _ rfl
    simp only [propEvs] at this
    rw [this]
    congr 2
    congr 1
    funext k
    simp only [lastValue, List.reverse_cons, List.find?_append, List.find?_cons, List.find?_nil]
    by_cases hk : k = n
    · subst hk
      cases ps.reverse.find? (fun p => decide (p.2.1 = k)) <;> simp
    · have : ¬ n = k := fun h => hk h.symm
      cases ps.reverse.find? (fun p => decide (p.2.1 = k)) <;> simp [this, hk]

theorem feed_propsPart (sz : ElemSizes) (f : Feat) (w : GeoFeatureWriter) (hw : w.next = some fun _ => none) :
    feed (step sz) w f.propsPart = .ok { w with next := some fun k => (lastValue (f.props.getD []) k).map ColVal.owned } := by
  unfold Feat.propsPart
  cases f.props with
  | none => cases w; cases hw; rfl
  | some ps =>
    simp only [feed_cons, step, feed_append]
    rw [feed_propEvs sz ps w _ hw]
    simp only [feed, step, Option.getD_some]
    congr 2
    congr 1
    funext k
    cases lastValue ps k <;> rfl

theorem feed_geomPart (sz : ElemSizes) (f : Feat) (g : Geom) (i : Nat) (r : GeoGeom) (hf : f.geom = some (g.events false i))
    (hg : g.geo = some r) (hb : g.Budget sz) (w : GeoFeatureWriter) (hw : w.geom = {}) :
    feed (step sz) w f.geomPart = .ok { w with geom := { geoms := [r] } } := by
  have h := GeoWriter.feed_geom sz g {} r i ⟨rfl, rfl, rfl⟩ hg hb
  unfold Feat.geomPart
  rw [hf]
  simp only [feed_cons, step, hw, check, List.isEmpty_nil, if_true, feed_append, feed_geoms, h]
  simp [feed, step, GeoWriter.finish]

theorem feed_feat (sz : ElemSizes) (f : Feat) (g : Geom) (i : Nat) (r : GeoGeom) (hf : f.geom = some (g.events false i))
    (hg : g.geo = some r) (hb : g.Budget sz) (k : Nat) (w : GeoFeatureWriter) (hw : w.Ready) :
    feed (step sz) w (f.evs k) = .ok { w with
      features := w.features ++ [⟨r, fun n => (lastValue (f.props.getD []) n).map ColVal.owned⟩] } := by
  obtain ⟨h1, h2⟩ := hw
  unfold Feat.evs
  cases f.geomFirst
  · simp only [feed_cons, step, featureBegin, check, h1, h2, List.isEmpty_nil, if_true, Option.isNone_none, Bool.false_eq_true,
      if_false, feed_append]
    rw [feed_propsPart sz f _ rfl]
    simp only
    rw [feed_geomPart sz f g i r hf hg hb _ rfl]
    simp [feed, step, featureEnd, GeoWriter.takeGeometry]
  · simp only [feed_cons, step, featureBegin, check, h1, h2, List.isEmpty_nil, if_true, Option.isNone_none, feed_append]
    rw [feed_geomPart sz f g i r hf hg hb _ rfl]
    simp only
    rw [feed_propsPart sz f _ rfl]
    simp [feed, step, featureEnd, GeoWriter.takeGeometry]

theorem feed_feats (sz : ElemSizes) (fs : List Feat) (rs : List GeoGeom) (h : GeoFeats sz fs rs) (k : Nat) (w : GeoFeatureWriter)
    (hw : w.Ready) :
    ∃ xs, feed (step sz) w (featEvs k fs) = .ok { w with features := w.features ++ xs } ∧ xs.length = fs.length ∧
      ∀ j (hj : j < fs.length) (hr : j < rs.length) (hx : j < xs.length), xs[j].Has rs[j] (fs[j].props.getD []) := by
  induction h generalizing k w with
  | nil => exact ⟨[], by simp [featEvs], rfl, fun j hj => absurd hj (by simp)⟩
  | cons f fs g i r rs hf hg hb h ih =>
    simp only [featEvs, feed_append]
    rw [feed_feat sz f g i r hf hg hb k w hw]
    simp only
    obtain ⟨xs, h1, h2, h3⟩ := ih (k + 1) { w with
      features := w.features ++ [⟨r, fun n => (lastValue (f.props.getD []) n).map ColVal.owned⟩] } hw
    refine ⟨⟨r, fun n => (lastValue (f.props.getD []) n).map ColVal.owned⟩ :: xs, ?_, by simp [h2], ?_⟩
    · rw [h1]
      simp
    · intro j hj hr hx
      cases j with
      | zero =>
        refine ⟨rfl, fun name => ?_⟩
        show Option.map OwnedVal.column ((lastValue (f.props.getD []) name).map ColVal.owned) = lastValue (f.props.getD []) name
        cases lastValue (f.props.getD []) name <;> simp [column_owned]
      | succ j => exact h3 j (by simpa using hj) (by simpa using hr) (by simpa using hx)

theorem agrees (sz : ElemSizes) : FProg.Agrees (proc sz) { ans := fun _ => true } (fun _ => True) :=
  ⟨fun _ _ => rfl, fun _ _ => rfl, fun _ _ _ => rfl, fun _ _ _ _ _ => trivial⟩

end GeoFeatureWriter

/-- what a source does when every property is answered with `true` -/
abbrev stopEnv : FProg.Env := { ans := fun _ => true }

/-- C57.  A source that delivers a dataset whose features all have geometries geo-types can represent (whatever it does
with the answers to properties, as long as this is what it delivers) gives one geo-types feature per feature, in order, with
its geometry and, for every name, the last value delivered, of the same type. -/
theorem C57_features (sz : ElemSizes) (src : FProg Unit) (bs rest : List Byte) (name : Option Text)
    (fs : List Feat) (rs : List GeoGeom) (hsrc : FProg.run stopEnv src bs = (datasetEvs name fs, .ok ((), rest)))
    (h : GeoFeats sz fs rs) :
    ∃ xs, toGeoFeatures sz src bs = .ok xs ∧ xs.length = fs.length ∧
      ∀ j (hj : j < fs.length) (hr : j < rs.length) (hx : j < xs.length), xs[j].Has rs[j] (fs[j].props.getD []) := by
  obtain ⟨xs, h1, h2, h3⟩ := GeoFeatureWriter.feed_feats sz fs rs h 0 {} ⟨rfl, rfl⟩
  refine ⟨xs, ?_, h2, h3⟩
  have hf : feed (GeoFeatureWriter.proc sz).step {} (FProg.run stopEnv src bs).1 = .ok { features := xs } := by
    rw [hsrc]
    simp only [datasetEvs, GeoFeatureWriter.proc, feed_cons, GeoFeatureWriter.step, feed_append, h1]
    rfl
  unfold toGeoFeatures
  rw [FProg.interp_of_feed_ok (GeoFeatureWriter.agrees sz) src {} _ trivial bs hf, hsrc]

/-- C57, access: `property` of such a feature is the value of the last property with the name, converted, or
`ColumnNotFound`. -/
theorem C57_property (fmt : Fmt) (x : GeoFeature) (r : GeoGeom) (ps : List PropRec) (h : x.Has r ps) (ty : ReadTy) (name : Text) :
    x.property fmt ty name =
      match lastValue ps name with
      | none => .error .columnNotFound
      | some v => getValue fmt ty v := by
  have := h.properties name
  unfold GeoFeature.property
  rw [← this]
  cases x.properties name <;> rfl

/-- non-vacuity: two features, the first with two properties of the same name -/
def exFeats : List Feat :=
  [{ props := some [(0, txt "a", .string (txt "x")), (1, txt "b", .bool true), (2, txt "a", .int 5)],
     geom := some ((Geom.point { x := 1#64, y := 2#64 }).events false 0) },
   { geom := some ((Geom.lineString [{ x := 1#64, y := 2#64 }]).events false 1), geomFirst := true }]

example : FProg.NoOk (FProg.forIdx (fun _ e => FProg.call e) 0 (datasetEvs none exFeats)) ∧
    FProg.run stopEnv (FProg.forIdx (fun _ e => FProg.call e) 0 (datasetEvs none exFeats)) [] = (datasetEvs none exFeats, .ok ((), [])) ∧
    GeoFeats ⟨16, 24, 48, 56⟩ exFeats [.point ⟨1#64, 2#64⟩, .lineString [⟨1#64, 2#64⟩]] :=
  ⟨FProg.NoOk.forIdx (fun _ _ => FProg.NoOk.call _) _ _, rfl,
    .cons _ _ _ 0 _ _ rfl rfl trivial (.cons _ _ (Geom.lineString [{ x := 1#64, y := 2#64 }]) 1 _ _ rfl rfl
      (by simp [Geom.Budget, Within]) .nil)⟩

theorem GeoFeats.of_map {α : Type} {sz : ElemSizes} (feat : Nat → α → Feat) (r : α → GeoGeom) (xs : List α)
    (h : ∀ x ∈ xs, ∀ i, ∃ (g : Geom) (j : Nat), (feat i x).geom = some (g.events false j) ∧ g.geo = some (r x) ∧ g.Budget sz)
    (i : Nat) : GeoFeats sz ((enumFrom i xs).map fun p => feat p.1 p.2) (xs.map r) := by
  induction xs generalizing i with
  | nil => exact .nil
  | cons x xs ih =>
    obtain ⟨g, j, h1, h2, h3⟩ := h x (by simp) i
    exact .cons _ _ g j _ _ h1 h2 h3 (ih (fun y hy => h y (by simp [hy])) (i + 1))

theorem GeoFeats.of_map' {α : Type} {sz : ElemSizes} (feat : α → Feat) (r : α → GeoGeom) (xs : List α)
    (h : ∀ x ∈ xs, ∃ (g : Geom) (j : Nat), (feat x).geom = some (g.events false j) ∧ g.geo = some (r x) ∧ g.Budget sz) :
    GeoFeats sz (xs.map feat) (xs.map r) := by
  induction xs with
  | nil => exact .nil
  | cons x xs ih =>
    obtain ⟨g, j, h1, h2, h3⟩ := h x (by simp)
    exact .cons _ _ g j _ _ h1 h2 h3 (ih fun y hy => h y (by simp [hy]))

theorem enumFrom_length {α : Type} (xs : List α) (i : Nat) : (enumFrom i xs).length = xs.length := by
  induction xs generalizing i with
  | nil => rfl
  | cons x xs ih => simp [enumFrom, ih]

theorem enumFrom_get {α : Type} (xs : List α) (i j : Nat) (h : j < xs.length) (h' : j < (enumFrom i xs).length) :
    (enumFrom i xs)[j] = (i + j, xs[j]) := by
  induction xs generalizing i j with
  | nil => simp at h
  | cons x xs ih =>
    cases j with
    | zero => rfl
    | succ j =>
      simp only [enumFrom, List.getElem_cons_succ]
      rw [ih (i + 1) j (by simpa using h)]
      simp only [Prod.mk.injEq, and_true]
      omega

theorem noOk_gjProps (ps : Option (List (Text × GjVal))) : (gjPropertiesPart ps).NoOk := by
  cases ps with
  | none => trivial
  | some ps =>
    refine FProg.NoOk.bind (FProg.NoOk.call _) fun _ => FProg.NoOk.bind (FProg.NoOk.forIdx ?_ 0 _) fun _ => FProg.NoOk.call _
    intro i p
    unfold gjProperty
    cases p.2.column <;> trivial

theorem noOk_gjGeometry (i : Nat) (g : Option GjGeom) : (gjGeometryPart i g).NoOk := by
  cases g with
  | none => trivial
  | some g => exact FProg.NoOk.bind (FProg.NoOk.call _) fun _ => FProg.NoOk.bind (FProg.NoOk.lift _) fun _ => FProg.NoOk.call _

theorem noOk_gjCollection (fs : List GjFeature) : (processGeoJson (.featureCollection fs)).NoOk := by
  refine FProg.NoOk.bind (FProg.NoOk.call _) fun _ => FProg.NoOk.bind (FProg.NoOk.forIdx ?_ 0 _) fun _ => FProg.NoOk.call _
  intro i f
  exact FProg.NoOk.bind (FProg.NoOk.call _) fun _ => FProg.NoOk.bind (noOk_gjProps _) fun _ =>
    FProg.NoOk.bind (noOk_gjGeometry _ _) fun _ => FProg.NoOk.call _

theorem noOk_gjLines (lines : List (Except Err GeoJsonValue)) : (readGeoJsonLines lines).NoOk := by
  refine FProg.NoOk.bind (FProg.NoOk.call _) fun _ => FProg.NoOk.bind (FProg.NoOk.forIdx ?_ 0 _) fun _ => FProg.NoOk.call _
  intro i l
  cases l with
  | error e => trivial
  | ok v =>
    cases v with
    | featureCollection fs => trivial
    | geometry g => exact FProg.NoOk.lift _
    | feature f =>
      exact FProg.NoOk.bind (FProg.NoOk.call _) fun _ => FProg.NoOk.bind (noOk_gjProps _) fun _ =>
        FProg.NoOk.bind (noOk_gjGeometry _ _) fun _ => FProg.NoOk.call _

/-- C57 for GeoJSON: a feature collection whose features all have representable geometries gives, in order, features with
those geometries and the properties that are not null. -/
theorem C57_geojson (sz : ElemSizes) (fs : List GjFeature) (hf : ∀ f ∈ fs, f.Ok) (r : GjFeature → GeoGeom)
    (hg : ∀ f ∈ fs, ∃ g, f.geometry = some g ∧ g.geom.geo = some (r f) ∧ g.geom.Budget sz) (bs : List Byte) :
    ∃ xs, toGeoFeatures sz (processGeoJson (.featureCollection fs)) bs = .ok xs ∧ xs.length = fs.length ∧
      ∀ j (hj : j < fs.length) (hx : j < xs.length), xs[j].Has (r fs[j]) (gjProps (fs[j].properties.getD [])) := by
  have h := GeoFeats.of_map (sz := sz) (fun i (f : GjFeature) => f.feat false i) r fs (fun f hm i => by
    obtain ⟨g, h1, h2, h3⟩ := hg f hm
    exact ⟨g.geom, i, by simp [GjFeature.feat, h1], h2, h3⟩) 0
  obtain ⟨xs, h1, h2, h3⟩ := C57_features sz _ bs bs none _ _
    (C26_feature_collection stopEnv fs hf bs) h
  have hl : xs.length = fs.length := by rw [h2]; simp [enumFrom_length]
  refine ⟨xs, h1, hl, fun j hj hx => ?_⟩
  have := h3 j (by simpa [enumFrom_length] using hj) (by simpa using hj) hx
  simp only [List.getElem_map, enumFrom_get fs 0 j hj, GjFeature.feat] at this
  cases hp : fs[j].properties with
  | none => simpa [hp, gjProps, enumFrom] using this
  | some ps => simpa [hp] using this

/-- C57 for GeoJSON text whose root is a feature -/
theorem C57_geojson_feature (sz : ElemSizes) (f : GjFeature) (hf : f.Ok) (g : GjGeom) (r : GeoGeom) (h1 : f.geometry = some g)
    (h2 : g.geom.geo = some r) (h3 : g.geom.Budget sz) (bs : List Byte) :
    ∃ x, toGeoFeatures sz (processGeoJson (.feature f)) bs = .ok [x] ∧ x.Has r (gjProps (f.properties.getD [])) := by
  have hrun := C26_feature stopEnv f hf bs
  rw [if_neg (by simp [h1])] at hrun
  obtain ⟨xs, e1, e2, e3⟩ := C57_features sz _ bs bs none _ [r] hrun
    (.cons _ _ g.geom 0 r [] (by simp [GjFeature.feat, h1]) h2 h3 .nil)
  match xs, e2, e1, e3 with
  | [x], _, e1, e3 =>
    refine ⟨x, e1, ?_⟩
    have := e3 0 (by simp) (by simp) (by simp)
    simp only [List.getElem_cons_zero, GjFeature.feat] at this
    cases hp : f.properties with
    | none => simpa [hp, gjProps, enumFrom] using this
    | some ps => simpa [hp] using this

/-- C57 for newline-delimited GeoJSON features -/
theorem C57_geojson_lines (sz : ElemSizes) (fs : List GjFeature) (hf : ∀ f ∈ fs, f.Ok) (r : GjFeature → GeoGeom)
    (hg : ∀ f ∈ fs, ∃ g, f.geometry = some g ∧ g.geom.geo = some (r f) ∧ g.geom.Budget sz) (bs : List Byte) :
    ∃ xs, toGeoFeatures sz (readGeoJsonLines (fs.map fun f => .ok (.feature f))) bs = .ok xs ∧ xs.length = fs.length ∧
      ∀ j (hj : j < fs.length) (hx : j < xs.length), xs[j].Has (r fs[j]) (gjProps (fs[j].properties.getD [])) := by
  have h := GeoFeats.of_map' (sz := sz) (GjFeature.feat false 0) r fs (fun f hm => by
    obtain ⟨g, h1, h2, h3⟩ := hg f hm
    exact ⟨g.geom, 0, by simp [GjFeature.feat, h1], h2, h3⟩)
  obtain ⟨xs, h1, h2, h3⟩ := C57_features sz _ bs bs none _ _ (C26_feature_lines stopEnv fs hf bs) h
  have hl : xs.length = fs.length := by rw [h2]; simp
  refine ⟨xs, h1, hl, fun j hj hx => ?_⟩
  have := h3 j (by simpa using hj) (by simpa using hj) hx
  simp only [List.getElem_map, GjFeature.feat] at this
  cases hp : fs[j].properties with
  | none => simpa [hp, gjProps, enumFrom] using this
  | some ps => simpa [hp] using this

/-- C57 for CSV: every row whose geometry field has a representable geometry, with the other columns as strings -/
theorem C57_csv (sz : ElemSizes) (parse : Text → Except Err WktGeom) (geometry : Text → Geom) (t : CsvTable) (ht : t.Ok)
    (r : Text → GeoGeom)
    (hg : ∀ w ∈ t.rows, w.2.1 ≠ [] ∧ (∃ g, parse w.2.1 = .ok g ∧ g.NoEmptyMember ∧ g.denote = geometry w.2.1) ∧
      (geometry w.2.1).geo = some (r w.2.1) ∧ (geometry w.2.1).Budget sz) (bs : List Byte) :
    ∃ xs, toGeoFeatures sz (processCsvFeatures parse (.ok t.headers) (t.rows.map fun r => .ok (r.1 ++ r.2.1 :: r.2.2))
        t.column) bs = .ok xs ∧ xs.length = t.rows.length ∧
      ∀ j (hj : j < t.rows.length) (hx : j < xs.length), xs[j].Has (r t.rows[j].2.1)
        (enumFrom 0 ((t.pre ++ t.post).zip ((t.rows[j].1 ++ t.rows[j].2.2).map ColVal.string))) := by
  have h := GeoFeats.of_map' (sz := sz) (t.feat false geometry) (fun w => r w.2.1) t.rows (fun w hm => by
    obtain ⟨h1, _, h2, h3⟩ := hg w hm
    exact ⟨geometry w.2.1, 0, by simp [CsvTable.feat, h1], h2, h3⟩)
  obtain ⟨xs, h1, h2, h3⟩ := C57_features sz _ bs bs none _ _
    (C29_csv_reader parse geometry t ht (fun w hm _ => (hg w hm).2.1) stopEnv bs) h
  have hl : xs.length = t.rows.length := by rw [h2]; simp
  refine ⟨xs, h1, hl, fun j hj hx => ?_⟩
  have := h3 j (by simpa using hj) (by simpa using hj) hx
  simpa [CsvTable.feat] using this

/-- C57 for a vector tile layer -/
theorem C57_mvt (sz : ElemSizes) (l : MvtLayer) (h : ∀ f ∈ l.features, f.geometry.Tile) (r : MvtFeature → GeoGeom)
    (hg : ∀ f ∈ l.features, f.geometry.denote.geo = some (r f) ∧ f.geometry.denote.Budget sz) (bs : List Byte) :
    ∃ xs, toGeoFeatures sz (mvtProcess l) bs = .ok xs ∧ xs.length = l.features.length ∧
      ∀ j (hj : j < l.features.length) (hx : j < xs.length),
        xs[j].Has (r l.features[j]) (tileProps 0 l.features[j].properties) := by
  have h' := GeoFeats.of_map' (sz := sz) (MvtFeature.feat false) r l.features (fun f hm => by
    obtain ⟨h2, h3⟩ := hg f hm
    exact ⟨f.geometry.denote, 0, rfl, h2, h3⟩)
  obtain ⟨xs, h1, h2, h3⟩ := C57_features sz _ bs bs (some l.name) _ _ (C49_read stopEnv l h bs) h'
  have hl : xs.length = l.features.length := by rw [h2]; simp
  refine ⟨xs, h1, hl, fun j hj hx => ?_⟩
  have := h3 j (by simpa using hj) (by simpa using hj) hx
  simpa [MvtFeature.feat] using this

/-- non-vacuity: a GeoJSON feature with a point, a null and a string property -/
example : ∀ f ∈ [(⟨some [(txt "n", .null), (txt "a", .string (txt "x"))], some (.point [1#64, 2#64])⟩ : GjFeature)],
    f.Ok ∧ ∃ g, f.geometry = some g ∧ g.geom.geo = some (.point ⟨1#64, 2#64⟩) ∧ g.geom.Budget ⟨16, 24, 48, 56⟩ := by
  intro f hf
  rw [List.mem_singleton.mp hf]
  refine ⟨?_, _, rfl, by simp [GjGeom.geom, Geom.geo, Coord.xyPart, posCoord], by simp [GjGeom.geom, Geom.Budget]⟩
  intro g hg
  cases hg
  exact .point (by simp)

/-- non-vacuity: a tile feature with a point -/
example : ∀ f ∈ [(⟨.point ⟨-1, 0⟩, [(txt "a", .sint 5)]⟩ : MvtFeature)], f.geometry.Tile ∧
    f.geometry.denote.Budget ⟨16, 24, 48, 56⟩ ∧ ∃ r, f.geometry.denote.geo = some r := by
  intro f hf
  rw [List.mem_singleton.mp hf]
  exact ⟨by simp [MvtGeom.Tile, MvtGeom.All], trivial, _, rfl⟩

/-- C57, no geometry: after features that do have one, a feature without a geometry section makes the whole conversion
fail with "missing geometry". -/
theorem C57_missing_geometry (sz : ElemSizes) (src : FProg Unit) (hno : src.NoOk) (bs : List Byte) (name : Option Text)
    (fs : List Feat) (rs : List GeoGeom) (f : Feat) (more : List Feat) (out : Except Err (Unit × List Byte))
    (hsrc : FProg.run stopEnv src bs = (datasetEvs name (fs ++ f :: more), out)) (h : GeoFeats sz fs rs) (hf : f.geom = none) :
    toGeoFeatures sz src bs = .error (.featureGeometry "missing geometry") := by
  have hfe : feed (GeoFeatureWriter.proc sz).step {} (FProg.run stopEnv src bs).1 = .error (.featureGeometry "missing geometry") := by
    rw [hsrc]
    obtain ⟨xs, h1, -, -⟩ := GeoFeatureWriter.feed_feats sz fs rs h 0 {} ⟨rfl, rfl⟩
    have happ : ∀ (a b : List Feat) (i : Nat), featEvs i (a ++ b) = featEvs i a ++ featEvs (i + a.length) b := by
      intro a b
      induction a with
      | nil => intro i; rfl
      | cons x a ih =>
        intro i
        simp only [List.cons_append, featEvs, ih, List.append_assoc, List.length_cons]
        congr 3
        omega
    have hfeat : ∀ (k : Nat) (w : GeoFeatureWriter), w.Ready →
        feed (GeoFeatureWriter.step sz) w (f.evs k) = .error (.featureGeometry "missing geometry") := by
      intro k w ⟨h1, h2⟩
      have hgp : f.geomPart = [] := by unfold Feat.geomPart; rw [hf]
      unfold Feat.evs
      rw [hgp]
      simp only [feed_cons, GeoFeatureWriter.step, GeoFeatureWriter.featureBegin, GeoFeatureWriter.check, h1, h2,
        List.isEmpty_nil, if_true, Option.isNone_none, List.nil_append, List.append_nil, ite_self, feed_append]
      rw [GeoFeatureWriter.feed_propsPart sz f _ rfl]
      simp [feed, GeoFeatureWriter.step, GeoFeatureWriter.featureEnd, GeoWriter.takeGeometry]
    simp only [datasetEvs, GeoFeatureWriter.proc, feed_cons, GeoFeatureWriter.step, feed_append, happ, featEvs, h1]
    rw [hfeat _ _ ⟨rfl, rfl⟩]
  unfold toGeoFeatures
  have := FProg.interp_of_feed_error (GeoFeatureWriter.agrees sz) src hno {} trivial bs _ hfe
  generalize hi : FProg.interp (GeoFeatureWriter.proc sz) src {} bs = q at this
  obtain ⟨w, evs, o⟩ := q
  simp only at this
  rw [this]

namespace GeoFeatureWriter

theorem property_no_panic (sz : ElemSizes) (ps : List PropRec) (w : GeoFeatureWriter) (hw : w.next.isSome) :
    ∃ m, feed (step sz) w (propEvs ps) = .ok { w with next := some m } := by
  obtain ⟨m, hm⟩ := Option.isSome_iff_exists.mp hw
  exact ⟨_, feed_propEvs sz ps w m hm⟩

/-- no panic on a list of calls, and a condition on the writer if they succeed -/
def NPF (sz : ElemSizes) (w : GeoFeatureWriter) (evs : List FEv) (Q : GeoFeatureWriter → Prop) : Prop :=
  match feed (step sz) w evs with
  | .ok w' => Q w'
  | .error e => e.isPanic = false

theorem NPF.append {sz : ElemSizes} {w : GeoFeatureWriter} {a b : List FEv} {P Q : GeoFeatureWriter → Prop}
    (h : NPF sz w a P) (hb : ∀ w', P w' → NPF sz w' b Q) : NPF sz w (a ++ b) Q := by
  unfold NPF at *
  rw [feed_append]
  cases hf : feed (step sz) w a with
  | ok w' => rw [hf] at h; exact hb w' h
  | error e => rw [hf] at h; exact h

/-- nothing in progress in the geometry writer; properties being collected or not -/
def Calm (props empty : Bool) (w : GeoFeatureWriter) : Prop :=
  GeoWriter.Prg false false false w.geom ∧ w.next.isSome = props ∧ (empty = true → w.geom.geoms = [])

theorem npf_propsPart (sz : ElemSizes) (f : Feat) (b : Bool) (w : GeoFeatureWriter) (hw : w.Calm true b) :
    NPF sz w f.propsPart (Calm true b) := by
  unfold NPF Feat.propsPart
  cases f.props with
  | none => exact hw
  | some ps =>
    obtain ⟨m, hm⟩ := property_no_panic sz ps w hw.2.1
    simp only [feed_cons, step, feed_append, hm]
    exact ⟨hw.1, rfl, hw.2.2⟩

theorem npf_geomPart (sz : ElemSizes) (f : Feat) (hf : f.GeomOk) (w : GeoFeatureWriter) (hw : w.Calm true true) :
    NPF sz w f.geomPart (Calm true false) := by
  unfold NPF Feat.geomPart
  rcases hf with hf | ⟨g, i, hf⟩ <;> rw [hf]
  · exact ⟨hw.1, hw.2.1, fun h => by simp at h⟩
  · have := GeoWriter.np_geom sz g w.geom i hw.1
    unfold GeoWriter.NP at this
    simp only [feed_cons, step, check, hw.2.2 rfl, List.isEmpty_nil, if_true, feed_append, feed_geoms]
    cases hg : feed (GeoWriter.step sz) w.geom (g.events false i) with
    | ok geom =>
      rw [hg] at this
      exact ⟨this, hw.2.1, fun h => by simp at h⟩
    | error x =>
      rw [hg] at this
      exact this

theorem npf_feat (sz : ElemSizes) (f : Feat) (hf : f.GeomOk) (k : Nat) (w : GeoFeatureWriter) (hw : w.Calm false true) :
    NPF sz w (f.evs k) (Calm false true) := by
  have hn : w.next.isNone = true := by
    have := hw.2.1
    cases h : w.next <;> simp_all
  have hbegin : NPF sz w [.ftBegin k] (Calm true true) := by
    simp only [NPF, feed, step, featureBegin, check, hw.2.2 rfl, hn, List.isEmpty_nil, if_true]
    exact ⟨hw.1, rfl, fun _ => hw.2.2 rfl⟩
  have hend : ∀ w', Calm true false w' → NPF sz w' [.ftEnd k] (Calm false true) := by
    intro w' hw'
    obtain ⟨m, hm⟩ := Option.isSome_iff_exists.mp hw'.2.1
    simp only [NPF, feed, step, featureEnd, GeoWriter.takeGeometry, hm]
    rcases hg : w'.geom.geoms with _ | ⟨a, _ | ⟨b, l⟩⟩
    · rfl
    · exact ⟨hw'.1, rfl, fun _ => rfl⟩
    · exact ⟨hw'.1, rfl, fun _ => rfl⟩
  unfold Feat.evs
  refine NPF.append (a := [.ftBegin k]) hbegin fun w1 h1 => ?_
  refine NPF.append (P := Calm true false) ?_ hend
  cases f.geomFirst
  · exact NPF.append (npf_propsPart sz f true w1 h1) fun w2 h2 => npf_geomPart sz f hf w2 h2
  · exact NPF.append (npf_geomPart sz f hf w1 h1) fun w2 h2 => npf_propsPart sz f false w2 h2

theorem npf_feats (sz : ElemSizes) (fs : List Feat) (hf : ∀ f ∈ fs, f.GeomOk) (k : Nat) (w : GeoFeatureWriter)
    (hw : w.Calm false true) : NPF sz w (featEvs k fs) (Calm false true) := by
  induction fs generalizing k w with
  | nil => exact hw
  | cons f fs ih =>
    exact NPF.append (npf_feat sz f (hf f (by simp)) k w hw) fun w' hw' => ih (fun y hy => hf y (by simp [hy])) (k + 1) w' hw'

end GeoFeatureWriter

/-- C58.  If the calls of a source are those of a dataset, or its beginning when the source fails, whatever the kinds
and sizes of its geometries, the conversion to geo-types features does not panic (no debug assertion fails) unless the source
does. -/
theorem C58_no_panic_partial (sz : ElemSizes) (src : FProg Unit) (hno : src.NoOk) (bs : List Byte) (name : Option Text) (fs : List Feat)
    (hf : ∀ f ∈ fs, f.GeomOk) (hsrc : (FProg.run stopEnv src bs).1 <+: datasetEvs name fs)
    (hp : ∀ x, (FProg.run stopEnv src bs).2 = .error x → x.isPanic = false) (x : Err)
    (h : toGeoFeatures sz src bs = .error x) : x.isPanic = false := by
  obtain ⟨t, ht⟩ := hsrc
  have hall : GeoFeatureWriter.NPF sz {} (datasetEvs name fs) (fun _ => True) := by
    refine GeoFeatureWriter.NPF.append (a := [.dsBegin name]) (P := GeoFeatureWriter.Calm false true)
      ⟨⟨rfl, rfl, rfl⟩, rfl, fun _ => rfl⟩ fun w hw => ?_
    exact GeoFeatureWriter.NPF.append (GeoFeatureWriter.npf_feats sz fs hf 0 w hw) fun _ _ => trivial
  cases hr : feed (GeoFeatureWriter.proc sz).step {} (FProg.run stopEnv src bs).1 with
  | ok w =>
    have hi := FProg.interp_of_feed_ok (GeoFeatureWriter.agrees sz) src {} w trivial bs hr
    unfold toGeoFeatures at h
    rw [hi] at h
    change (match (w, FProg.run stopEnv src bs) with
      | (w, _, Except.ok _) => Except.ok w.features
      | (_, _, Except.error e) => Except.error e) = _ at h
    generalize FProg.run stopEnv src bs = q at h hp
    obtain ⟨evs, o⟩ := q
    cases o with
    | ok a => cases h
    | error e =>
      cases h
      exact hp _ rfl
  | error e =>
    have hi := FProg.interp_of_feed_error (GeoFeatureWriter.agrees sz) src hno {} trivial bs e hr
    unfold toGeoFeatures at h
    generalize FProg.interp (GeoFeatureWriter.proc sz) src {} bs = q at h hi
    obtain ⟨w, evs, o⟩ := q
    simp only at hi
    subst hi
    cases h
    unfold GeoFeatureWriter.NPF at hall
    rw [← ht, feed_append] at hall
    have : feed (GeoFeatureWriter.step sz) {} (FProg.run stopEnv src bs).1 = .error x := hr
    rw [this] at hall
    exact hall

/-- C58 for GeoJSON: no feature collection makes the conversion panic. -/
theorem C58_geojson_partial (sz : ElemSizes) (fs : List GjFeature) (hf : ∀ f ∈ fs, f.Ok) (bs : List Byte) (x : Err)
    (h : toGeoFeatures sz (processGeoJson (.featureCollection fs)) bs = .error x) : x.isPanic = false := by
  have hr := C26_feature_collection stopEnv fs hf bs
  refine C58_no_panic_partial sz _ (noOk_gjCollection fs) bs none _ ?_ (by rw [hr]; exact List.prefix_refl _)
    (by rw [hr]; intro x hx; cases hx) x h
  intro f hm
  obtain ⟨p, -, rfl⟩ := List.mem_map.mp hm
  cases hg : p.2.geometry with
  | none => exact .inl (by simp [GjFeature.feat, hg])
  | some g => exact .inr ⟨g.geom, p.1, by simp [GjFeature.feat, hg]⟩

/-- C58 for a vector tile layer -/
theorem C58_mvt_partial (sz : ElemSizes) (l : MvtLayer) (hl : ∀ f ∈ l.features, f.geometry.Tile) (bs : List Byte) (x : Err)
    (h : toGeoFeatures sz (mvtProcess l) bs = .error x) : x.isPanic = false := by
  have hr := C49_read stopEnv l hl bs
  refine C58_no_panic_partial sz _ (noOk_mvtProcess l) bs (some l.name) _ ?_ (by rw [hr]; exact List.prefix_refl _)
    (by rw [hr]; intro x hx; cases hx) x h
  intro f hm
  obtain ⟨f', -, rfl⟩ := List.mem_map.mp hm
  exact .inr ⟨f'.geometry.denote, 0, rfl⟩

/-- C58 for CSV -/
theorem C58_csv_partial (sz : ElemSizes) (parse : Text → Except Err WktGeom) (geometry : Text → Geom) (t : CsvTable) (ht : t.Ok)
    (hg : ∀ w ∈ t.rows, w.2.1 ≠ [] → ∃ g, parse w.2.1 = .ok g ∧ g.NoEmptyMember ∧ g.denote = geometry w.2.1)
    (bs : List Byte) (x : Err)
    (h : toGeoFeatures sz (processCsvFeatures parse (.ok t.headers) (t.rows.map fun r => .ok (r.1 ++ r.2.1 :: r.2.2)) t.column)
      bs = .error x) : x.isPanic = false := by
  have hr := C29_csv_reader parse geometry t ht hg stopEnv bs
  refine C58_no_panic_partial sz _ (noOk_csv parse _ _ _) bs none _ ?_ (by rw [hr]; exact List.prefix_refl _)
    (by rw [hr]; intro x hx; cases hx) x h
  intro f hm
  obtain ⟨w, -, rfl⟩ := List.mem_map.mp hm
  by_cases hw : w.2.1 = []
  · exact .inl (by simp [CsvTable.feat, hw])
  · exact .inr ⟨geometry w.2.1, 0, by simp [CsvTable.feat, hw]⟩

/-- non-vacuity: a circular string, which geo-types cannot represent, and a feature without geometry -/
example : ∀ f ∈ [({ geom := some ((Geom.circularString [{ x := 1#64, y := 2#64 }]).events false 0) } : Feat), { props := some [] }],
    f.GeomOk := by
  intro f hf
  simp only [List.mem_cons, List.not_mem_nil, or_false] at hf
  rcases hf with rfl | rfl
  · exact .inr ⟨_, _, rfl⟩
  · exact .inl rfl

/-- ... but outside the documented order it can: a geometry line before a feature line in newline-delimited GeoJSON trips
the assertion that no geometry is pending. -/
theorem C58_lines_false (sz : ElemSizes) : ∃ lines : List (Except Err GeoJsonValue), (∀ l ∈ lines, l.isOk) ∧
    ∃ x, toGeoFeatures sz (readGeoJsonLines lines) [] = .error x ∧ x.isPanic = true :=
  ⟨[.ok (.geometry (.point [1#64, 2#64])), .ok (.feature ⟨none, some (.point [1#64, 2#64])⟩)], by simp [Except.isOk, Except.toBool],
    .panic "debug_assert", rfl, rfl⟩

/-- C57 fails for sources that deliver bare geometries without dataset and feature calls (GPX and WKT readers, and GeoJSON whose
root is a geometry): the conversion succeeds without any feature, whatever the geometry. -/
theorem C57_bare_geometry_false (sz : ElemSizes) (src : Prog Unit) (bs : List Byte) (xs : List GeoFeature)
    (h : toGeoFeatures sz (FProg.lift src) bs = .ok xs) : xs = [] := by
  have hf : ∀ (p : Prog Unit) (w : GeoFeatureWriter) (bs : List Byte), w.features = [] →
      (FProg.interp (GeoFeatureWriter.proc sz) (FProg.lift p) w bs).1.features = [] := by
    intro p
    induction p with
    | ret a => intro w bs hw; exact hw
    | fail e => intro w bs hw; exact hw
    | read k ih =>
      intro w bs hw
      cases bs with
      | nil => exact hw
      | cons b bs => exact ih b w bs hw
    | emit e k ih =>
      intro w bs hw
      simp only [FProg.lift, FProg.interp, GeoFeatureWriter.proc, GeoFeatureWriter.step]
      cases GeoWriter.step sz w.geom e with
      | ok geom => exact ih _ _ hw
      | error x => exact hw
    | askMulti k ih =>
      intro w bs hw
      simp only [FProg.lift, FProg.interp]
      exact ih _ _ _ hw
  have := hf src {} bs rfl
  unfold toGeoFeatures at h
  generalize FProg.interp (GeoFeatureWriter.proc sz) (FProg.lift src) {} bs = q at h this
  obtain ⟨w, evs, o⟩ := q
  cases o with
  | ok a =>
    cases h
    exact this
  | error e => cases h

/-- for instance a GPX document with one waypoint -/
example : toGeoFeatures ⟨16, 24, 48, 56⟩ (gpxProcess (.ok { waypoints := [⟨1#64, 2#64⟩] })) [] = .ok [] := rfl

/-- C57 fails for a source of properties that stops when the processor tells it to (as documented for `property`): the
feature only gets its first property. -/
theorem C57_abort_false (sz : ElemSizes) : ∃ (ps : List PropRec) (xs : List GeoFeature),
    toGeoFeatures sz (FProg.bind (FProg.call (.ftBegin 0)) fun _ => FProg.bind (FProg.call .propsBegin) fun _ =>
      FProg.bind (propsProg ps) fun _ => FProg.bind (FProg.call .propsEnd) fun _ => FProg.bind (FProg.call .geomBegin) fun _ =>
      FProg.bind (FProg.lift (geoProcessGeom (.point ⟨0#64, 0#64⟩))) fun _ => FProg.bind (FProg.call .geomEnd) fun _ =>
      FProg.call (.ftEnd 0)) [] = .ok xs ∧
    lastValue ps (txt "b") = some (.int 2) ∧ ∀ x ∈ xs, (x.properties (txt "b")).isNone :=
  ⟨[(0, txt "a", .int 1), (1, txt "b", .int 2)], _, rfl, rfl, fun x hx => by
    rw [List.mem_singleton.mp hx]
    rfl⟩

end Geozero
