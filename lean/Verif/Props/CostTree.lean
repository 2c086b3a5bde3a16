import Verif.Lemmas.CostTree

/-
C75, readers of what a parser or another library has produced: the number of calls is at most the size of the value
(Spec/CostTree.lean), for every processor, also when it or the reader fails, and for values no parser should produce.
-/

namespace Geozero
open Spec Prog

/-- a processor that accepts every call; it asks for two dimensions -/
def quiet : Proc Unit := { step := fun _ _ => .ok (), multi := fun _ => false }

/-- the same for features -/
def fquiet : FProc Unit := { step := fun _ _ => .ok (), multi := fun _ => false, dims := fun _ => {} }

/-- geo-types geometries -/
theorem C75_geo_types {σ : Type} (g : GeoGeom) (P : Proc σ) (s : σ) (bs : List Byte) :
    (interp P (geoProcessGeom g) s bs).2.1.length ≤ geoSize g := (atMost_geo 0 g).sound P s bs

/-- the bound is reached -/
example (p : XY) : geoSize (.collection [.point p, .polygon ⟨[p, p], [[p], []]⟩, .multiPoint [p]]) = 19 ∧
    (interp quiet (geoProcessGeom (.collection [.point p, .polygon ⟨[p, p], [[p], []]⟩, .multiPoint [p]])) () []).2.1.length = 19 :=
  ⟨rfl, rfl⟩

/-- GEOS geometries -/
theorem C75_geos {σ : Type} (g : GeosGeom) (P : Proc σ) (s : σ) (bs : List Byte) :
    (interp P (geosProcessGeom g) s bs).2.1.length ≤ geosSize g := (atMost_geos 0 g).sound P s bs

example (p : GPos) : geosSize (.collection [.point [], .polygon [p, p] [[p], []], .multiPoint [[p], []]]) = 18 ∧
    (interp quiet (geosProcessGeom (.collection [.point [], .polygon [p, p] [[p], []], .multiPoint [[p], []]])) () []).2.1.length
      = 18 := ⟨rfl, rfl⟩

/-- GDAL geometries, also those whose members have the wrong type -/
theorem C75_gdal {σ : Type} (blank : OgrPt) (g : OgrGeom) (P : Proc σ) (s : σ) (bs : List Byte) :
    (interp P (ogrProcessGeom blank g) s bs).2.1.length ≤ ogrSize g := (atMost_ogr blank 0 g).sound P s bs

/-- reached by an empty point; four calls of five for a line of two points -/
example (p : OgrPt) : ogrSize (.node (some .point) [] []) = 3 ∧
    (interp quiet (ogrProcessGeom p (.node (some .point) [] [])) () []).2.1.length = 3 ∧
    ogrSize (.node (some .lineString) [p, p] []) = 5 ∧
    (interp quiet (ogrProcessGeom p (.node (some .lineString) [p, p] [])) () []).2.1.length = 4 := ⟨rfl, rfl, rfl, rfl⟩

/-- parsed WKT -/
theorem C75_wkt_read {σ : Type} (g : WktGeom) (P : Proc σ) (s : σ) (bs : List Byte) :
    (interp P (wktProcessGeom g) s bs).2.1.length ≤ wktSize g := (atMost_wkt 0 g).sound P s bs

example (c : Coord) : wktSize (.collection [.point (some c), .polygon [[c, c], []], .multiPoint [some c]]) = 16 ∧
    (interp quiet (wktProcessGeom (.collection [.point (some c), .polygon [[c, c], []], .multiPoint [some c]])) () []).2.1.length
      = 16 := ⟨rfl, rfl⟩

/-- GeoJSON documents, as a data set and as a geometry -/
theorem C75_geojson_read {σ : Type} (v : GeoJsonValue) (P : FProc σ) (s : σ) (bs : List Byte) :
    (FProg.interp P (processGeoJson v) s bs).2.1.length ≤ gjDocSize v := (atMost_processGeoJson v).sound P s bs

example (x : F64) :
    gjDocSize (.featureCollection [⟨some [(txt "a", .bool true)], some (.lineString [[x, x], [x, x]])⟩, ⟨none, none⟩]) = 19 ∧
    (FProg.interp fquiet (processGeoJson
      (.featureCollection [⟨some [(txt "a", .bool true)], some (.lineString [[x, x], [x, x]])⟩, ⟨none, none⟩])) () []).2.1.length
      = 15 := ⟨rfl, rfl⟩

theorem C75_geojson_geom_read {σ : Type} (v : GeoJsonValue) (P : Proc σ) (s : σ) (bs : List Byte) :
    (interp P (processGeoJsonGeom v) s bs).2.1.length ≤ gjDocSize v := by
  refine AtMost.sound ?_ P s bs
  have hf : ∀ f : GjFeature, gjGeometrySize f.geometry ≤ gjFeatureSize f := fun f => by simp only [gjFeatureSize]; omega
  cases v with
  | geometry g => exact atMost_gj 0 g
  | feature f =>
    have h := hf f
    unfold processGeoJsonGeom
    dsimp only [gjDocSize]
    cases hg : f.geometry with
    | none => exact trivial
    | some g =>
      rw [hg] at h
      exact (atMost_gj 0 g).mono (Nat.le_trans h (by omega))
  | featureCollection fs =>
    refine (AtMost.forIdx (w := gjSize) (fs.filterMap GjFeature.geometry) (fun i g _ => atMost_gj i g) 0).mono ?_
    dsimp only [gjDocSize]
    refine Nat.le_trans ?_ (Nat.le_add_left _ 2)
    induction fs with
    | nil => exact Nat.le_refl _
    | cons f fs ih =>
      have h := hf f
      simp only [List.filterMap_cons, List.map_cons, List.sum_cons]
      cases hg : f.geometry with
      | none => simp only; omega
      | some g =>
        rw [hg] at h
        have h' : gjGeometrySize (some g) = gjSize g := rfl
        simp only [List.map_cons, List.sum_cons]
        omega

example (x : F64) :
    (interp quiet (processGeoJsonGeom (.featureCollection [⟨none, some (.point [x, x])⟩, ⟨none, none⟩])) () []).2.1.length = 3 := rfl

/-- newline-delimited GeoJSON as a data set: lines that do not parse and collections among them count for what they are, or for
nothing -/
theorem C75_geojson_lines_read {σ : Type} (lines : List (Except Err GeoJsonValue)) (P : FProc σ) (s : σ) (bs : List Byte) :
    (FProg.interp P (readGeoJsonLines lines) s bs).2.1.length ≤ 2 + (lines.map gjLineSize).sum :=
  (FProg.AtMost.frame (FProg.AtMost.forIdx lines (fun i l _ => atMost_gjLineItem i l) 0)).sound P s bs

/-- and as one geometry -/
theorem C75_geojson_line_geometries_read {σ : Type} (lines : List (Except Err GeoJsonValue)) (P : Proc σ) (s : σ) (bs : List Byte) :
    (interp P (readGeoJsonLineGeometries lines) s bs).2.1.length ≤ 2 + (lines.map gjLineSize).sum :=
  (atMost_gjLineGeoms false 0 lines).sound P s bs

/-- reached by lines that are geometries -/
example (x : F64) :
    (interp quiet (readGeoJsonLineGeometries [.ok (.geometry (.point [x, x])), .ok (.geometry (.lineString []))]) () []).2.1.length
      = 2 + ([.ok (.geometry (.point [x, x])), .ok (.geometry (.lineString []))].map gjLineSize).sum ∧
    (FProg.interp fquiet (readGeoJsonLines [.ok (.geometry (.point [x, x])), .ok (.geometry (.lineString []))]) () []).2.1.length
      = 2 + ([.ok (.geometry (.point [x, x])), .ok (.geometry (.lineString []))].map gjLineSize).sum := ⟨rfl, rfl⟩

/-- the features of a GeoJSON text one by one, each a data set of its own -/
theorem C75_geojson_features_read {σ : Type} (fs : List (Except Err GjFeature)) (P : FProc σ) (s : σ) (bs : List Byte) :
    (FProg.interp P (readGeoJsonFc fs) s bs).2.1.length ≤
      (fs.map fun f => gjLineSize (f.map GeoJsonValue.feature)).sum := by
  refine FProg.AtMost.sound (FProg.AtMost.forIdx fs (fun i f _ => ?_) 0) P s bs
  cases f with
  | error e => exact trivial
  | ok f => exact atMost_gjSingle i f

example (x : F64) : (FProg.interp fquiet (readGeoJsonFc [.ok ⟨some [], some (.point [x, x])⟩, .error .columnNotFound]) () []).2.1.length
    = ([(.ok ⟨some [], some (.point [x, x])⟩ : Except Err GjFeature), .error .columnNotFound].map fun f =>
        gjLineSize (f.map GeoJsonValue.feature)).sum := rfl

/-- the layers of a tile -/
theorem C75_mvt_read {σ : Type} (l : MvtLayer) (P : FProc σ) (s : σ) (bs : List Byte) :
    (FProg.interp P (mvtProcess l) s bs).2.1.length ≤ mvtLayerSize l :=
  (FProg.AtMost.frame (FProg.AtMost.forIdx l.features (fun i f _ => atMost_mvtFeature i f) 0)).sound P s bs

example (p : IXY) (l : MvtLayer) (h : l.features = [⟨.polygon ⟨[p, p, p], [[p]]⟩, [(txt "a", .bool true)]⟩]) :
    mvtLayerSize l = 19 ∧ (FProg.interp fquiet (mvtProcess l) () []).2.1.length = 19 := by
  obtain ⟨⟩ := l
  cases h
  exact ⟨rfl, rfl⟩

/-- GPX documents -/
theorem C75_gpx_read {σ : Type} (d : GpxDoc) (P : Proc σ) (s : σ) (bs : List Byte) :
    (interp P (readGpx (.ok d)) s bs).2.1.length ≤ gpxSize d := (atMost_gpx d).sound P s bs

example (p : XY) : gpxSize ⟨[p], [[[p, p]]], [[p]]⟩ = 16 ∧
    (interp quiet (readGpx (.ok ⟨[p], [[[p, p]]], [[p]]⟩)) () []).2.1.length = 16 := ⟨rfl, rfl⟩

/-- CSV as a data set: the geometry column is the first with the name asked for -/
theorem C75_csv_read {σ : Type} (parse : Text → Except Err WktGeom) (headers : List Text) (records : List (Except Err (List Text)))
    (column : Text) (i : Nat) (hi : headers.findIdx? (· == column) = some i) (P : FProc σ) (s : σ) (bs : List Byte) :
    (FProg.interp P (processCsvFeatures parse (.ok headers) records column) s bs).2.1.length ≤
      2 + (records.map (csvRecordSize parse i)).sum := by
  refine FProg.AtMost.sound ?_ P s bs
  unfold processCsvFeatures
  simp only [hi]
  exact FProg.AtMost.frame (FProg.AtMost.forIdx records (fun j r _ => atMost_csvFeature parse headers i j r) 0)

/-- CSV as one geometry -/
theorem C75_csv_geom_read {σ : Type} (parse : Text → Except Err WktGeom) (headers : List Text) (records : List (Except Err (List Text)))
    (column : Text) (i : Nat) (hi : headers.findIdx? (· == column) = some i) (P : Proc σ) (s : σ) (bs : List Byte) :
    (interp P (processCsvGeom parse (.ok headers) records column) s bs).2.1.length ≤
      2 + (records.map (csvFieldSize parse i)).sum := by
  refine AtMost.sound ?_ P s bs
  unfold processCsvGeom
  simp only [hi]
  exact atMost_csvGeom parse i records

/-- without the column there is at most the call that begins the data set -/
theorem C75_csv_no_column {σ : Type} (parse : Text → Except Err WktGeom) (headers : List Text) (records : List (Except Err (List Text)))
    (column : Text) (hi : headers.findIdx? (· == column) = none) (P : FProc σ) (s : σ) (bs : List Byte) :
    (FProg.interp P (processCsvFeatures parse (.ok headers) records column) s bs).2.1.length ≤ 1 := by
  refine FProg.AtMost.sound ?_ P s bs
  unfold processCsvFeatures
  simp only [hi]
  exact (FProg.AtMost.call _).bind fun _ => FProg.AtMost.fail _ 0

/-- a column beside the geometry, two records of which the second has no geometry: 21 calls allowed, 17 made, and the bound for
one geometry is reached -/
example (c : Coord) : [txt "a", txt "g"].findIdx? (· == txt "g") = some 1 ∧
    2 + (([.ok [txt "1", txt "p"], .ok [txt "2", []]] : List (Except Err (List Text))).map
      (csvRecordSize (fun t => if t = [] then .error .columnNotFound else .ok (.point (some c))) 1)).sum = 21 ∧
    (FProg.interp fquiet (processCsvFeatures (fun t => if t = [] then .error .columnNotFound else .ok (.point (some c)))
      (.ok [txt "a", txt "g"]) [.ok [txt "1", txt "p"], .ok [txt "2", []]] (txt "g")) () []).2.1.length = 17 ∧
    (interp quiet (processCsvGeom (fun t => if t = [] then .error .columnNotFound else .ok (.point (some c)))
      (.ok [txt "a", txt "g"]) [.ok [txt "1", txt "p"], .ok [txt "2", txt "q"]] (txt "g")) () []).2.1.length = 8 := ⟨rfl, rfl, rfl, rfl⟩

end Geozero
