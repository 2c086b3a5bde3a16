import Verif.Lemmas.Dims

/-
C85: What a processor answers when it is asked for its dimensions changes nothing but the dimensions it gets.
-/

namespace Geozero
open Spec Prog

/-! ### C85 -/

/-- the five dialects of WKB, compressed SpatiaLite too -/
theorem C85_wkb (fo : FOps) (d : WkbDialect) : OnlyDims (processWkbTypeGeom fo d) := (sim_wkb fo d).sound

/-- WKT, from its text on, whatever the parser makes of it -/
theorem C85_wkt (parse : Text → Except Err WktGeom) (t : Text) : OnlyDims (processWktText parse t) := (sim_wktText parse t).sound

theorem C85_geo_types (i : Nat) (g : GeoGeom) : OnlyDims (geoProcessGeomN i g) := (sim_geoN i g).sound

theorem C85_geos (i : Nat) (g : GeosGeom) : OnlyDims (geosGeomN i g) := (sim_geosN i g).sound

theorem C85_gdal (b : OgrPt) (i : Nat) (g : OgrGeom) : OnlyDims (ogrGeomN b i g) := (sim_ogrN b i g).sound

theorem C85_mvt_geometry (i : Nat) (g : MvtGeom) : OnlyDims (mvtGeometry i g) := (sim_mvtN i g).sound

theorem C85_gpx (parsed : Except String GpxDoc) : OnlyDims (readGpx parsed) := (sim_gpx parsed).sound

/-- the geometries of a GeoJSON document -/
theorem C85_geojson_geometry (v : GeoJsonValue) : OnlyDims (processGeoJsonGeom v) := (sim_geoJsonGeom v).sound

/-- the geometries of newline-delimited GeoJSON -/
theorem C85_geojson_line_geometries (ls : List (Except Err GeoJsonValue)) : OnlyDims (readGeoJsonLineGeometries ls) :=
  (sim_lineGeometries ls).sound

/-- the geometries of a CSV file -/
theorem C85_csv_geometry (parse : Text → Except Err WktGeom) (headers : Except Err (List Text))
    (records : List (Except Err (List Text))) (column : Text) : OnlyDims (processCsvGeom parse headers records column) :=
  (sim_csvGeom parse headers records column).sound

/-- the features of a GeoJSON document -/
theorem C85_geojson (parsed : Except Err GeoJsonValue) : FOnlyDims (readGeoJson parsed) := (fsim_readGeoJson parsed).sound

/-- the features of a feature collection that is read one by one -/
theorem C85_geojson_features (fs : List (Except Err GjFeature)) : FOnlyDims (readGeoJsonFc fs) := (fsim_readGeoJsonFc fs).sound

/-- the features of newline-delimited GeoJSON -/
theorem C85_geojson_lines (ls : List (Except Err GeoJsonValue)) : FOnlyDims (readGeoJsonLines ls) :=
  (fsim_readGeoJsonLines ls).sound

/-- the features of a CSV file -/
theorem C85_csv (parse : Text → Except Err WktGeom) (headers : Except Err (List Text))
    (records : List (Except Err (List Text))) (column : Text) : FOnlyDims (processCsvFeatures parse headers records column) :=
  (fsim_processCsvFeatures parse headers records column).sound

/-- the features of a tile layer -/
theorem C85_mvt (l : MvtLayer) : FOnlyDims (mvtProcess l) := (fsim_mvtProcess l).sound

/-- the shapes of a shapefile -/
theorem C85_shp_geometries (ar : ShpArith) : FOnlyDims (shpGeometries ar) := (fsim_shpGeometries ar).sound

/-- the features of a shapefile -/
theorem C85_shp_features (ar : ShpArith) (rows : List (Except Err ShpRow)) : FOnlyDims (shpFeatures ar rows) :=
  (fsim_shpFeatures ar rows).sound

/-! ### what this says about the calls alone -/

theorem run_interp_accepting {α : Type} (multi : Bool) (p : Prog α) (bs : List Byte) :
    run multi p bs = (interp (⟨fun _ _ => .ok (), fun _ => multi⟩ : Proc Unit) p () bs).2 := by
  induction p generalizing bs with
  | ret a => rfl
  | fail e => rfl
  | read k ih => cases bs with
    | nil => rfl
    | cons b bs => exact ih b bs
  | emit e k ih =>
    have := ih bs
    simp only [run, interp, this]
  | askMulti k ih => exact ih multi bs

/-- a reader that is told that two dimensions are wanted makes the calls it makes otherwise, without the further dimensions, and
succeeds on the same inputs -/
theorem C85_calls {α : Type} (p : Prog α) (h : OnlyDims p) (multi : Bool) (bs : List Byte) :
    run false p bs = ((run multi p bs).1.map flatEv, (run multi p bs).2) := by
  have := h Unit ⟨fun _ _ => .ok (), fun _ => multi⟩ (fun _ _ => rfl) () bs
  rw [run_interp_accepting multi, run_interp_accepting false]
  have h2 := congrArg Prod.snd this
  exact h2

/-- so a processor that does not ask for further dimensions never gets a call with them -/
theorem C85_no_coordinate {α : Type} (p : Prog α) (h : OnlyDims p) (bs : List Byte) (e : Ev) (he : e ∈ (run false p bs).1) :
    flatEv e = e := by
  rw [C85_calls p h true bs] at he
  obtain ⟨e', _, rfl⟩ := List.mem_map.1 he
  cases e' <;> rfl

/-- and two processors that look at x and y only, answering differently, can not be told apart by what a reader does with them -/
theorem C85_same_outcome {α σ : Type} (p : Prog α) (h : OnlyDims p) (P : Proc σ) (hP : Flat P) (multi : σ → Bool) (s : σ)
    (bs : List Byte) :
    (interp { P with multi := multi } p s bs).1 = (interp P p s bs).1 ∧
    (interp { P with multi := multi } p s bs).2.2 = (interp P p s bs).2.2 := by
  have h1 := h σ P hP s bs
  have h2 := h σ { P with multi := multi } (fun s e => hP s e) s bs
  have h3 : twoDim { P with multi := multi } = twoDim P := rfl
  rw [h3, h1] at h2
  simp only [Prod.mk.injEq] at h2
  exact ⟨h2.1.symm, h2.2.2.symm⟩

/-- a feature processor that accepts every call -/
def acceptingProc (env : FProg.Env) : FProc Unit where
  step _ _ := .ok ()
  abort _ e := env.ans e
  multi _ := env.multi
  dims _ := env.dims

theorem frun_finterp_accepting {α : Type} (env : FProg.Env) (p : FProg α) (bs : List Byte) :
    FProg.run env p bs = (FProg.interp (acceptingProc env) p () bs).2 := by
  induction p generalizing bs with
  | ret a => rfl
  | fail e => rfl
  | read k ih => cases bs with
    | nil => rfl
    | cons b bs => exact ih b bs
  | emit e k ih =>
    have := ih bs
    simp only [FProg.run, FProg.interp, this]; rfl
  | emitOk e k ih =>
    have := ih bs
    simp only [FProg.run, FProg.interp, this]; rfl
  | prop i n v k ih =>
    have := ih (env.ans (.prop i n v)) bs
    simp only [FProg.run, FProg.interp, this]; rfl
  | ask k ih => exact ih env.multi env.dims bs

/-- the same for readers of features, whatever dimensions are asked for -/
theorem C85_feature_calls {α : Type} (p : FProg α) (h : FOnlyDims p) (env : FProg.Env) (bs : List Byte) :
    FProg.run { env with multi := false, dims := {} } p bs = ((FProg.run env p bs).1.map flatFEv, (FProg.run env p bs).2) := by
  have := h Unit (acceptingProc env) ⟨fun _ _ => rfl, fun _ _ => rfl⟩ () bs
  rw [frun_finterp_accepting env, frun_finterp_accepting]
  have h2 := congrArg Prod.snd this
  exact h2

/-! ### non-vacuity -/

/-- a processor that looks at x and y only: it counts the points -/
def pointCounter (multi : Bool) : Proc Nat where
  step n e := match flatEv e with
    | .xy _ _ _ => .ok (n + 1)
    | _ => .ok n
  multi _ := multi

/-- non-vacuity: the processor meets the hypothesis -/
example (multi : Bool) : Flat (pointCounter multi) := fun s e => by cases e <;> rfl

/-- non-vacuity: for a point with three dimensions the two answers lead to different calls -/
example (fo : FOps) : interp (pointCounter true) (processWkbTypeGeom fo .wkb) 0 ([1] ++ encU32 .le 1001 ++ List.replicate 24 0) =
    (1, [.srid none, .gbegin .point true 1 0, .coord 0#64 0#64 (some 0#64) none none none 0, .gend .point true 0], .ok ((), [])) :=
  rfl
example (fo : FOps) : interp (pointCounter false) (processWkbTypeGeom fo .wkb) 0 ([1] ++ encU32 .le 1001 ++ List.replicate 24 0) =
    (1, [.srid none, .gbegin .point true 1 0, .xy 0#64 0#64 0, .gend .point true 0], .ok ((), [])) := rfl

/-- not every reader is like that: one that fails when further dimensions are wanted, and one that drops a point -/
example : ¬ OnlyDims (.askMulti fun b => if b then .fail .io else .ret () : Prog Unit) := fun h => by
  have := h Nat (pointCounter true) (fun s e => by cases e <;> rfl) 0 []
  cases this
example : ¬ OnlyDims (.askMulti fun b => if b then .ret () else emitEv (.xy 0#64 0#64 0) : Prog Unit) := fun h => by
  have := h Nat (pointCounter true) (fun s e => by cases e <;> rfl) 0 []
  cases this

end Geozero
