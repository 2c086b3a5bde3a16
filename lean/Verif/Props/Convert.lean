import Verif.Props.GeoJson
import Verif.Props.Gpx
import Verif.Props.Geos
import Verif.Props.Gdal
import Verif.Props.Mvt
import Verif.Props.ShpConv

/-
C48 for further sources: GPX, GEOS, GDAL, vector tile layers.
-/

namespace Geozero
open Json Spec

/-- GPX to GeoJSON: a document without empty parts and with at most one route becomes the geometry collection of its waypoints, tracks and
routes. -/
theorem C48_gpx_partial (num : F64 → Text) (d : GpxDoc) (hd : d.Full) (hn : ∀ p ∈ d.points, IsNumber (num p.x) ∧ IsNumber (num p.y)) :
    ∃ t, toJson num (readGpx (.ok d)) [] = .ok t ∧ IsText t (Rfc7946.geometry num false d.geom) := by
  refine C48_to_json num _ [] [] d.geom [] (Or.inl rfl) (by simpa using C43_gpx_partial d hd false []) (.collection ?_)
  have hc : ∀ p ∈ d.points, p.coord.AllOrds (fun x => IsNumber (num x)) false := fun p hp => ⟨(hn p hp).1, (hn p hp).2, by simp⟩
  intro g hg
  simp only [List.mem_append, List.mem_map] at hg
  rcases hg with (⟨p, hp, rfl⟩ | ⟨t, ht, rfl⟩) | hg
  · exact .point (hc p (by simp [GpxDoc.points, hp]))
  · refine .multiLineString ?_
    intro l hl c hcl
    obtain ⟨s, hs, rfl⟩ := List.mem_map.1 hl
    obtain ⟨p, hp, rfl⟩ := List.mem_map.1 hcl
    exact hc p (by simp only [GpxDoc.points, List.mem_append, List.mem_flatten]; exact .inl (.inr ⟨s, ⟨t, ht, hs⟩, hp⟩))
  · by_cases hr : d.routes = []
    · simp [hr] at hg
    · simp only [hr, if_false, List.mem_singleton] at hg
      subst hg
      refine .multiLineString ?_
      intro l hl c hcl
      obtain ⟨s, hs, rfl⟩ := List.mem_map.1 hl
      obtain ⟨p, hp, rfl⟩ := List.mem_map.1 hcl
      exact hc p (by simp only [GpxDoc.points, List.mem_append, List.mem_flatten]; exact .inr ⟨s, hs, hp⟩)

example : exGpx.Full ∧ exGpx.points.length = 9 ∧ ∀ p ∈ exGpx.points, IsNumber ((fun _ => txt "1.5") p.x) ∧ IsNumber ((fun _ => txt "1.5") p.y) :=
  ⟨by simp [GpxDoc.Full, exGpx], by decide, fun _ _ => ⟨number_15, number_15⟩⟩

/-- An empty first segment of a track makes the output invalid: nothing is written for it, but the next one is preceded by a comma. -/
theorem C48_gpx_empty_segment_false :
    ∃ d t, toJson (fun _ => txt "0") (readGpx (.ok d)) [] = .ok t ∧ ¬ ∃ v, IsText t v :=
  ⟨{ tracks := [[[], [⟨0#64, 0#64⟩]]] }, _, rfl, not_text (by decide +kernel)⟩

/-- GEOS to GeoJSON: every GEOS geometry without empty points whose x and y are printed as numbers. -/
theorem C48_geos_partial (num : F64 → Text) (g : GeosGeom) (h : g.NoEmptyPoint)
    (hg : g.denote.IsGeoJson (fun c => c.AllOrds (fun x => IsNumber (num x)) false)) :
    ∃ t, toJson num (geosProcessGeom g) [] = .ok t ∧ IsText t (Rfc7946.geometry num false g.denote) :=
  C48_to_json num _ [] [] g.denote [] (Or.inl rfl) (by simpa using C53_reader_partial g h false []) hg

/-- GDAL to GeoJSON: every OGR geometry without empty points that denotes a geometry of a GeoJSON type. -/
theorem C48_gdal_partial (num : F64 → Text) (blank : OgrPt) (t : OgrGeom) (h : t.NoEmptyPoint) (g : Geom) (ht : t.denote = some g)
    (hg : g.IsGeoJson (fun c => c.AllOrds (fun x => IsNumber (num x)) false)) :
    ∃ out, toJson num (ogrProcessGeom blank t) [] = .ok out ∧ IsText out (Rfc7946.geometry num false g) :=
  C48_to_json num _ [] [] g [] (Or.inl rfl) (by simpa using (C54_reader_partial blank t h false []).1 g ht) hg

example : (GeosGeom.collection [.point [⟨1#64, 2#64, some 3#64⟩], .multiPoint [[⟨1#64, 2#64, none⟩]]]).NoEmptyPoint ∧
    (GeosGeom.collection [.point [⟨1#64, 2#64, some 3#64⟩], .multiPoint [[⟨1#64, 2#64, none⟩]]]).denote.IsGeoJson
      (fun c => c.AllOrds (fun x => IsNumber ((fun _ => txt "1.5") x)) false) := by
  refine ⟨by simp [GeosGeom.NoEmptyPoint, GeosGeom.NoEmptyPointList], ?_⟩
  simp only [GeosGeom.denote, GeosGeom.denoteList]
  refine .collection ?_
  intro g hg
  simp only [List.mem_cons, List.not_mem_nil, or_false] at hg
  rcases hg with rfl | rfl
  · exact .point ⟨number_15, number_15, by simp⟩
  · exact .multiPoint (fun c _ => ⟨number_15, number_15, by simp⟩)

example : (OgrGeom.node (some .multiPoint) [] [.node (some .point) [⟨1#64, 2#64, 3#64⟩] []]).NoEmptyPoint ∧
    (OgrGeom.node (some .multiPoint) [] [.node (some .point) [⟨1#64, 2#64, 3#64⟩] []]).denote =
      some (.multiPoint [⟨1#64, 2#64, some 3#64, none⟩]) ∧
    (Geom.multiPoint [⟨1#64, 2#64, some 3#64, none⟩]).IsGeoJson
      (fun c => c.AllOrds (fun x => IsNumber ((fun _ => txt "1.5") x)) false) :=
  ⟨by simp [OgrGeom.NoEmptyPoint, OgrGeom.NoEmptyPointList], rfl, .multiPoint fun c _ => ⟨number_15, number_15, by simp⟩⟩

/-- the data of a tile feature whose values are all known -/
def MvtFeature.data (f : MvtFeature) : FeatureData where
  props := some (f.properties.map fun p => (p.1, p.2.column.getD (.bool false)))
  geom := some f.geometry.denote

private theorem tileProps_known (ps : List (Text × MvtValue)) (h : ∀ p ∈ ps, p.2 ≠ .null) (i : Nat) :
    tileProps i ps = enumFrom i (ps.map fun p => (p.1, p.2.column.getD (.bool false))) := by
  induction ps generalizing i with
  | nil => rfl
  | cons p ps ih =>
    have hp := h p (by simp)
    have hr := ih (fun q hq => h q (by simp [hq])) (i + 1)
    obtain ⟨n, v⟩ := p
    cases v <;> first | exact absurd rfl hp | simp [tileProps, enumFrom, MvtValue.column, hr]

/-- Vector tile layer to GeoJSON: a layer whose name and texts are plain, without null values, becomes the feature collection of its
features. -/
theorem C48_mvt_layer_partial (fmt : Fmt) (decode : Text → Json) (l : MvtLayer) (hn : PlainText l.name ∧ '"' ∉ l.name)
    (ht : ∀ f ∈ l.features, f.geometry.Tile) (hv : ∀ f ∈ l.features, ∀ p ∈ f.properties, p.2 ≠ .null)
    (hp : ∀ f ∈ l.features, f.data.Printable fmt decode false) :
    ∃ out, processToJson fmt (mvtProcess l) [] = .ok out ∧
      IsText out (Rfc7946.featureCollection fmt decode false (some l.name) (l.features.map MvtFeature.data)) := by
  have hrun := C49_read {} l ht []
  have hfe : l.features.map (MvtFeature.feat false) = (l.features.map MvtFeature.data).map (FeatureData.feat false) := by
    rw [List.map_map]
    apply List.map_congr_left
    intro f hf
    simp only [MvtFeature.feat, MvtFeature.data, FeatureData.feat, Function.comp, Option.map_some, tileProps_known _ (hv f hf)]
  obtain ⟨w, hw, hj⟩ := C24_feature_collection_partial fmt decode false (some l.name) (l.features.map MvtFeature.data)
    (by intro n h; cases h; exact hn) (by intro d hd; obtain ⟨f, hf, rfl⟩ := List.mem_map.1 hd; exact hp f hf) {}
  have := FProg.interp_of_feed_ok (agrees_geojson fmt) (mvtProcess l) {} w rfl [] (by
    rw [hrun]
    show feed _ _ (datasetEvs (some l.name) (l.features.map (MvtFeature.feat false))) = _
    rw [hfe]
    exact hw)
  refine ⟨w.out, ?_, hj⟩
  unfold processToJson
  rw [this, hrun]

-- a layer with a point and two values
example : let f : MvtFeature := { geometry := .point ⟨1, 2⟩, properties := [(txt "a", .string (txt "b")), (txt "c", .double 1#64)] }
    f.geometry.Tile ∧ (∀ p ∈ f.properties, p.2 ≠ .null) ∧ f.data.Printable ⟨fun _ => txt "1.5", fun _ => txt "1.5"⟩ (fun _ => .null) false := by
  refine ⟨by simp [MvtGeom.Tile, MvtGeom.All], by simp, ?_, ?_, ?_⟩
  · intro ps hps; cases hps; decide
  · intro ps hps p hp
    cases hps
    simp only [List.map, List.mem_cons, List.not_mem_nil, or_false] at hp
    rcases hp with rfl | rfl
    · show PlainText (txt "b"); decide
    · exact number_15
  · intro g hg
    cases hg
    exact .point ⟨number_15, number_15, by simp⟩

set_option maxRecDepth 4000 in
/-- A null value before another one makes the output invalid: it is left out, but the value after it is preceded by a comma. -/
theorem C48_mvt_null_false (fmt : Fmt) : ∃ l out, (∀ f ∈ l.features, f.geometry.Tile) ∧
    processToJson fmt (mvtProcess l) [] = .ok out ∧ ¬ ∃ v, IsText out v := by
  refine ⟨{ name := [], extent := 4096, features := [{ geometry := .multiPoint [], properties := [(txt "a", .null), (txt "b", .bool true)] }] },
    _, ?_, rfl, not_text ?_⟩
  · simp [MvtGeom.Tile, MvtGeom.All]
  · show parse (txt ("{\n\"type\": \"FeatureCollection\",\n\"name\": \"\",\n\"features\": [{\"type\": \"Feature\", " ++
      "\"properties\": {, \"b\": true}, \"geometry\": {\"type\": \"MultiPoint\", \"coordinates\": []}}]}")) = none
    decide +kernel

end Geozero
