import Verif.Lemmas.Wrap
import Verif.Props.Adaptors
import Verif.Props.WkbRead
import Verif.Props.Shp
import Verif.Props.Dims

/-
C86: Transforming the coordinates on the way from a reader to a processor is the same as transforming the geometry first.
-/

namespace Geozero
open Spec Prog

variable (f : F64 → F64 → F64 × F64)

/-! ### C86 -/

/-- the wrapper of the statements below is what a reader of geometries sees of the wrapper of the code -/
theorem C86_wrapper {σ : Type} (P : FProc σ) : geomPart (wrapXY f P) = wrapGeom f (geomPart P) := by
  simp only [geomPart, wrapGeom, wrapXY, wrapEv_eq, FEv.mapXY_geom]

/-- WKT, whatever the parser makes of the text -/
theorem C86_wkt (parse : Text → Except Err WktGeom) (t : Text) :
    ReadsAs f (processWktText parse t) (processWktText (fun t => (parse t).map (WktGeom.mapXY f)) t) := (mov_wktText f parse t).sound

/-- geo-types; a rectangle or triangle is read as the polygon of its transformed corners -/
theorem C86_geo_types (i : Nat) (g : GeoGeom) : ReadsAs f (geoProcessGeomN i g) (geoProcessGeomN i (g.mapXY f)) :=
  (mov_geoN f i g).sound

theorem C86_geos (i : Nat) (g : GeosGeom) : ReadsAs f (geosGeomN i g) (geosGeomN i (g.mapXY f)) := (mov_geosN f i g).sound

/-- OGR geometries, if the transformation leaves the coordinate at which GDAL reports empty points where it is -/
theorem C86_gdal_partial (b : OgrPt) (hb : f b.x b.y = (b.x, b.y)) (i : Nat) (g : OgrGeom) :
    ReadsAs f (ogrGeomN b i g) (ogrGeomN b i (g.mapXY f)) := by
  have h := (mov_ogrN f b i g).sound
  have : b.mapXY f = b := by simp [OgrPt.mapXY, hb]
  rwa [this] at h

/-- otherwise an empty point of OGR is read as the transformed point at that coordinate, while the transformed geometry is still
empty -/
theorem C86_gdal_false : ∃ (f : F64 → F64 → F64 × F64) (b : OgrPt) (g : OgrGeom), ¬ ReadsAs f (ogrGeomN b 0 g) (ogrGeomN b 0 (g.mapXY f)) :=
  ⟨fun _ _ => (1#64, 1#64), ⟨0#64, 0#64, 0#64⟩, .node (some .point) [] [], fun h => by
    have := h Unit ⟨fun _ _ => .ok (), fun _ => false⟩ () []
    cases this⟩

theorem C86_gpx (parsed : Except String GpxDoc) : ReadsAs f (readGpx parsed) (readGpx (parsed.map (GpxDoc.mapXY f))) :=
  (mov_gpx f parsed).sound

/-- the geometries of a GeoJSON document -/
theorem C86_geojson_geometry (v : GeoJsonValue) : ReadsAs f (processGeoJsonGeom v) (processGeoJsonGeom (v.mapXY f)) :=
  (mov_geoJsonGeom f v).sound

/-- the geometries of newline-delimited GeoJSON -/
theorem C86_geojson_line_geometries (ls : List (Except Err GeoJsonValue)) :
    ReadsAs f (readGeoJsonLineGeometries ls) (readGeoJsonLineGeometries (ls.map (Except.map (GeoJsonValue.mapXY f)))) :=
  (mov_lineGeometries f ls).sound

/-- the geometries of a CSV file -/
theorem C86_csv_geometry (parse : Text → Except Err WktGeom) (headers : Except Err (List Text))
    (records : List (Except Err (List Text))) (column : Text) :
    ReadsAs f (processCsvGeom parse headers records column)
      (processCsvGeom (fun t => (parse t).map (WktGeom.mapXY f)) headers records column) :=
  (mov_csvGeom f parse headers records column).sound

theorem fmoved_sound {α : Type} {p q : FProg α} (h : FProg.Moved f p q) : FReadsAs f p q := by
  intro σ P s bs
  unfold FProg.Moved at h
  subst h
  obtain ⟨h1, h2, h3⟩ := C31_wrap_source f P p s bs
  exact Prod.ext h1 (Prod.ext h2 h3)

/-- the features of a GeoJSON document -/
theorem C86_geojson (parsed : Except Err GeoJsonValue) :
    FReadsAs f (readGeoJson parsed) (readGeoJson (parsed.map (GeoJsonValue.mapXY f))) := fmoved_sound f (fmov_readGeoJson f parsed)

/-- the features of a feature collection that is read one by one -/
theorem C86_geojson_features (fs : List (Except Err GjFeature)) :
    FReadsAs f (readGeoJsonFc fs) (readGeoJsonFc (fs.map (Except.map (GjFeature.mapXY f)))) := fmoved_sound f (fmov_readGeoJsonFc f fs)

/-- the features of newline-delimited GeoJSON -/
theorem C86_geojson_lines (ls : List (Except Err GeoJsonValue)) :
    FReadsAs f (readGeoJsonLines ls) (readGeoJsonLines (ls.map (Except.map (GeoJsonValue.mapXY f)))) :=
  fmoved_sound f (fmov_readGeoJsonLines f ls)

/-- the features of a CSV file -/
theorem C86_csv (parse : Text → Except Err WktGeom) (headers : Except Err (List Text))
    (records : List (Except Err (List Text))) (column : Text) :
    FReadsAs f (processCsvFeatures parse headers records column)
      (processCsvFeatures (fun t => (parse t).map (WktGeom.mapXY f)) headers records column) :=
  fmoved_sound f (fmov_csvFeatures f parse headers records column)

/-- a shape of a shapefile, if the transformation keeps the orientation of the rings of a polygon (for other shapes the condition is
empty) -/
theorem C86_shape_partial (ar : ShpArith) (s : ShpShape) (h : KeepsOrientation ar f s) :
    FReadsAs f (s.process ar) ((s.mapXY f).process ar) := fmoved_sound f (fmov_shape f ar s h)

/-- axes swapped -/
def swapXY (x y : F64) : F64 × F64 := (y, x)

/-- a square and, inside it, a smaller one the other way round -/
def squareWithHole : ShpShape :=
  .multipart true [0, 5, 10] ([(0, 0), (0, 9), (9, 9), (9, 0), (0, 0), (3, 3), (6, 3), (6, 6), (3, 6), (3, 3)].map fun p =>
    ⟨F64.ofI32 p.1, F64.ofI32 p.2⟩) [] []

/-- otherwise holes may become polygons: with swapped axes the transformed shape is read as two polygons, while the shape itself is
one with a hole -/
theorem C86_shape_false : ∃ (f : F64 → F64 → F64 × F64) (ar : ShpArith) (s : ShpShape), ar.ExactTo (2 ^ 31 - 1) ∧
    ¬ FReadsAs f (s.process ar) ((s.mapXY f).process ar) :=
  ⟨swapXY, i32Arith, squareWithHole, i32Arith_exact, fun h => by
    have := congrArg (fun r => r.2.1.length) (h Unit (acceptingProc {}) () [])
    revert this
    decide +kernel⟩

/-! #### WKB: a blob of the geometry and a blob of the transformed geometry -/

theorem C86_wkb (fo : FOps) (d d' : Dims) (e e' : Endian) (g : Geom) (bs bs' rest : List Byte) (h : OgcWkb d e g bs)
    (h' : OgcWkb d' e' (g.mapXY f) bs') (hl : g.levels ≤ 128) :
    BlobReadsAs f (processWkbTypeGeom fo .wkb) (bs ++ rest) (bs' ++ rest) :=
  blobReadsAs f fun multi => by
    rw [C06_wkb_decodes fo d e g bs rest multi h hl,
      C06_wkb_decodes fo d' e' _ bs' rest multi h' (by rw [Geom.levels_mapXY]; exact hl), ← mapXY_geom]
    rfl

theorem C86_ewkb (fo : FOps) (d d' : Dims) (e e' : Endian) (srid : Option Int) (hs : ∀ s ∈ srid, isI32 s) (g : Geom)
    (bs bs' rest : List Byte) (h : Ewkb d e srid g bs) (h' : Ewkb d' e' srid (g.mapXY f) bs') (hl : g.levels ≤ 128) :
    BlobReadsAs f (processWkbTypeGeom fo .ewkb) (bs ++ rest) (bs' ++ rest) :=
  blobReadsAs f fun multi => by
    rw [C06_ewkb_decodes fo d e srid hs g bs rest multi h hl,
      C06_ewkb_decodes fo d' e' srid hs _ bs' rest multi h' (by rw [Geom.levels_mapXY]; exact hl), ← mapXY_geom]
    rfl

/-- the envelope of the header need not fit the geometry -/
theorem C86_gpkg (fo : FOps) (d d' : Dims) (e e' : Endian) (srid : Int) (hs : isI32 srid) (env env' : List F64) (g : Geom)
    (bs bs' rest : List Byte) (h : Gpkg d e e srid env g bs) (h' : Gpkg d' e' e' srid env' (g.mapXY f) bs') (hl : g.levels ≤ 128) :
    BlobReadsAs f (processWkbTypeGeom fo .geopackage) (bs ++ rest) (bs' ++ rest) :=
  blobReadsAs f fun multi => by
    rw [C06_gpkg_decodes_partial fo d e srid hs env g bs rest multi h hl,
      C06_gpkg_decodes_partial fo d' e' srid hs env' _ bs' rest multi h' (by rw [Geom.levels_mapXY]; exact hl), ← mapXY_geom]
    rfl

theorem C86_mysql (fo : FOps) (d d' : Dims) (srid : Nat) (hs : srid < 2 ^ 31) (g : Geom) (bs bs' rest : List Byte)
    (h : MySql d srid g bs) (h' : MySql d' srid (g.mapXY f) bs') (hl : g.levels ≤ 128) :
    BlobReadsAs f (processWkbTypeGeom fo .mySQL) (bs ++ rest) (bs' ++ rest) :=
  blobReadsAs f fun multi => by
    rw [C06_mysql_decodes fo d srid hs g bs rest multi h hl,
      C06_mysql_decodes fo d' srid hs _ bs' rest multi h' (by rw [Geom.levels_mapXY]; exact hl), ← mapXY_geom]
    rfl

theorem C86_spatialite (fo : FOps) (d d' : Dims) (e e' : Endian) (srid : Int) (hs : isI32 srid) (mbr mbr' : List F64) (g : Geom)
    (bs bs' rest : List Byte) (h : SpatiaLite d e srid mbr g bs) (h' : SpatiaLite d' e' srid mbr' (g.mapXY f) bs')
    (hl : g.levels ≤ 128) : BlobReadsAs f (processWkbTypeGeom fo .spatiaLite) (bs ++ rest) (bs' ++ rest) :=
  blobReadsAs f fun multi => by
    rw [C06_spatialite_decodes fo d e srid hs mbr g bs rest multi h hl,
      C06_spatialite_decodes fo d' e' srid hs mbr' _ bs' rest multi h' (by rw [Geom.levels_mapXY]; exact hl), ← mapXY_geom]
    rfl

/-! ### non-vacuity -/

/-- a processor that keeps the calls it gets -/
def callKeeper : Proc (List Ev) where
  step s e := .ok (s ++ [e])
  multi _ := false

/-- a rectangle read behind the wrapper that swaps the axes: the processor gets the corners, y first -/
example : (interp (wrapGeom swapXY callKeeper) (geoProcessGeomN 0 (.rect ⟨1#64, 2#64⟩ ⟨3#64, 4#64⟩)) [] []).1 =
    [.gbegin .polygon true 1 0, .gbegin .lineString false 5 0, .xy 2#64 3#64 0, .xy 4#64 3#64 1, .xy 4#64 1#64 2, .xy 2#64 1#64 3,
      .xy 2#64 3#64 4, .gend .lineString false 0, .gend .polygon true 0] := rfl

/-- a GeoJSON line with heights: the transformed document has the axes swapped and keeps the heights -/
example : (GjGeom.lineString [[1#64, 2#64, 3#64], [4#64, 5#64]]).mapXY swapXY = .lineString [[2#64, 1#64, 3#64], [5#64, 4#64]] := rfl

/-- a transformation that keeps the orientation, of a polygon with a hole: moving to the right by 5 -/
example : KeepsOrientation i32Arith (fun x y => (i32Arith.add x (F64.ofI32 5), y)) squareWithHole := fun a n => by
  generalize hl : List.map (fun p : Int32 × Int32 => (⟨F64.ofI32 p.1, F64.ofI32 p.2⟩ : XY)) _ = l
  have h10 : l.length = 10 := by rw [← hl]; rfl
  rw [show (l.drop a).take n = (l.drop (min a 10)).take (min n 10) from by
    by_cases ha : a ≤ 10
    · rw [Nat.min_eq_left ha]
      by_cases hn : n ≤ 10
      · rw [Nat.min_eq_left hn]
      · rw [List.take_of_length_le (by simp; omega), List.take_of_length_le (by simp; omega)]
    · rw [List.drop_of_length_le (by omega), List.drop_of_length_le (by omega)]; simp]
  have ha : min a 10 < 11 := by omega
  have hn : min n 10 < 11 := by omega
  generalize min a 10 = a' at ha ⊢
  generalize min n 10 = n' at hn ⊢
  subst hl
  revert n' a'
  decide +kernel

/-- for lines every transformation will do -/
example : KeepsOrientation i32Arith swapXY (.multipart false [0, 2] [⟨1#64, 2#64⟩, ⟨3#64, 4#64⟩] [] []) := trivial

/-- a blob of a point and a blob of the point with swapped axes meet the hypotheses -/
example : OgcWkb {} .le (.point { x := 1#64, y := 2#64 }) ((1 :: encU32 .le 1) ++ (encF64 .le 1#64 ++ encF64 .le 2#64 ++ [])) ∧
    OgcWkb {} .be ((Geom.point { x := 1#64, y := 2#64 }).mapXY swapXY) ((0 :: encU32 .be 1) ++ (encF64 .be 2#64 ++ encF64 .be 1#64 ++ [])) :=
  ⟨⟨⟨rfl, rfl⟩, _, _, rfl, rfl, by unfold AllNaN; decide, rfl⟩, ⟨⟨rfl, rfl⟩, _, _, rfl, rfl, by unfold AllNaN; decide, rfl⟩⟩

/-- a reader that moves a position is not one: it would not commute with the wrapper -/
example : ¬ ReadsAs swapXY (emitEv (.xy 1#64 2#64 0)) (emitEv (.xy 1#64 2#64 0)) := fun h => by
  have := congrArg Prod.fst (h _ callKeeper [] [])
  exact absurd this (by decide)

end Geozero
