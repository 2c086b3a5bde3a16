import Verif.Lemmas.WkbWrite
import Verif.Lemmas.WkbHeaders

/- Helper lemmas: first headers of each dialect; properties of `Geom.stored`. -/

namespace Geozero
open Spec Prog

theorem mapList_eq (f : Coord → Coord) (gs : List Geom) : Geom.mapList f gs = gs.map (Geom.map f) := by
  induction gs with
  | nil => rfl
  | cons g gs ih => simp [Geom.mapList, ih]

theorem nanEmptyList_eq (gs : List Geom) : Geom.nanEmptyList gs = gs.map Geom.nanEmpty := by
  induction gs with
  | nil => rfl
  | cons g gs ih => simp [Geom.nanEmptyList, ih]

theorem Coord.conform_hasDims (d : Dims) (c : Coord) : HasDims d (c.conform d) := by
  unfold HasDims Coord.conform
  cases d.z <;> cases d.m <;> simp

theorem Coord.conform_eq (d : Dims) (c : Coord) (h : HasDims d c) : c.conform d = c := by
  obtain ⟨x, y, z, m⟩ := c
  obtain ⟨hz, hm⟩ := h
  unfold Coord.conform
  simp only at hz hm
  rw [← hz, ← hm]
  cases z <;> cases m <;> simp

theorem List.map_self {α : Type} {f : α → α} {xs : List α} (h : ∀ x ∈ xs, f x = x) : xs.map f = xs := by
  rw [List.map_congr_left h, List.map_id']

section map_id
variable {P : Coord → Prop} {f : Coord → Coord}

theorem Seg.map_self (hf : ∀ c, P c → f c = c) (s : Seg) (h : AllCoords.SegCoords P s) : s.map f = s := by
  cases s <;> simp only [Seg.map] <;> rw [List.map_self fun c hc => hf c (h c hc)]

theorem Curve.map_self (hf : ∀ c, P c → f c = c) (s : Curve) (h : AllCoords.CurveCoords P s) : s.map f = s := by
  cases s with
  | seg s => simp only [Curve.map]; rw [Seg.map_self hf s h]
  | compound ss => simp only [Curve.map]; rw [List.map_self fun s hs => Seg.map_self hf s (h s hs)]

theorem rings_map_self (hf : ∀ c, P c → f c = c) (rs : List (List Coord)) (h : ∀ l ∈ rs, ∀ c ∈ l, P c) :
    rs.map (List.map f) = rs :=
  List.map_self fun l hl => List.map_self fun c hc => hf c (h l hl c hc)

theorem Surface.map_self (hf : ∀ c, P c → f c = c) (s : Surface) (h : AllCoords.SurfaceCoords P s) :
    s.map f = s := by
  cases s with
  | polygon rs => simp only [Surface.map]; rw [rings_map_self hf rs h]
  | curvePolygon rs => simp only [Surface.map]; rw [List.map_self fun s hs => Curve.map_self hf s (h s hs)]

theorem Geom.map_self (hf : ∀ c, P c → f c = c) (g : Geom) (h : AllCoords P g) : g.map f = g := by
  induction g using Geom.ind with
  | emptyPoint => rfl
  | point c => simp only [Geom.map]; rw [hf c h]
  | multiPoint cs => simp only [Geom.map]; rw [List.map_self fun c hc => hf c (h c hc)]
  | lineString cs => simp only [Geom.map]; rw [List.map_self fun c hc => hf c (h c hc)]
  | circularString cs => simp only [Geom.map]; rw [List.map_self fun c hc => hf c (h c hc)]
  | compoundCurve ss => simp only [Geom.map]; rw [List.map_self fun s hs => Seg.map_self hf s (h s hs)]
  | multiLineString ls => simp only [Geom.map]; rw [rings_map_self hf ls h]
  | multiCurve cs => simp only [Geom.map]; rw [List.map_self fun s hs => Curve.map_self hf s (h s hs)]
  | polygon ls => simp only [Geom.map]; rw [rings_map_self hf ls h]
  | triangle ls => simp only [Geom.map]; rw [rings_map_self hf ls h]
  | curvePolygon cs => simp only [Geom.map]; rw [List.map_self fun s hs => Curve.map_self hf s (h s hs)]
  | multiPolygon ps => simp only [Geom.map]; rw [List.map_self fun p hp => rings_map_self hf p (h p hp)]
  | polyhedralSurface ps => simp only [Geom.map]; rw [List.map_self fun p hp => rings_map_self hf p (h p hp)]
  | tin ps => simp only [Geom.map]; rw [List.map_self fun p hp => rings_map_self hf p (h p hp)]
  | multiSurface ss => simp only [Geom.map]; rw [List.map_self fun s hs => Surface.map_self hf s (h s hs)]
  | collection gs ih =>
    simp only [Geom.map, mapList_eq]
    rw [List.map_self fun g hg => ih g hg ((allCoordsList_iff _ _).mp h g hg)]

end map_id

theorem hasNaNPointList_iff (gs : List Geom) :
    Geom.hasNaNPointList gs = false ↔ ∀ g ∈ gs, g.hasNaNPoint = false := by
  induction gs with
  | nil => simp [Geom.hasNaNPointList]
  | cons g gs ih => simp [Geom.hasNaNPointList, ih]

theorem Geom.nanEmpty_self (g : Geom) (h : g.hasNaNPoint = false) : g.nanEmpty = g := by
  induction g using Geom.ind with
  | point c =>
    have : ¬ AllNaN c := by simpa [Geom.hasNaNPoint] using h
    simp [Geom.nanEmpty, this]
  | collection gs ih =>
    have := (hasNaNPointList_iff gs).mp (by simpa [Geom.hasNaNPoint] using h)
    simp only [Geom.nanEmpty, nanEmptyList_eq]
    rw [List.map_self fun g hg => ih g hg (this g hg)]
  | _ => rfl

/-- Nothing is lost when the geometry already has the dimensions and has no NaN point. -/
theorem Geom.stored_eq (d : Dims) (g : Geom) (hd : AllCoords (HasDims d) g) (hn : g.hasNaNPoint = false) :
    g.stored d = g := by
  unfold Geom.stored
  rw [Geom.map_self (Coord.conform_eq d) g hd, Geom.nanEmpty_self g hn]

section all_map
variable {P : Coord → Prop} {f : Coord → Coord}

theorem Seg.all_map (hf : ∀ c, P (f c)) (s : Seg) : AllCoords.SegCoords P (s.map f) := by
  cases s <;> simp [Seg.map, AllCoords.SegCoords, hf]

theorem Curve.all_map (hf : ∀ c, P (f c)) (s : Curve) : AllCoords.CurveCoords P (s.map f) := by
  cases s with
  | seg s => exact Seg.all_map hf s
  | compound ss => simp [Curve.map, AllCoords.CurveCoords, Seg.all_map hf]

theorem Surface.all_map (hf : ∀ c, P (f c)) (s : Surface) : AllCoords.SurfaceCoords P (s.map f) := by
  cases s with
  | polygon rs => simp [Surface.map, AllCoords.SurfaceCoords, hf]
  | curvePolygon ss => simp [Surface.map, AllCoords.SurfaceCoords, Curve.all_map hf]

theorem Geom.all_map (hf : ∀ c, P (f c)) (g : Geom) : AllCoords P (g.map f) := by
  induction g using Geom.ind with
  | collection gs ih =>
    simp only [Geom.map, mapList_eq, AllCoords, allCoordsList_iff]
    simpa using ih
  | _ => simp [Geom.map, AllCoords, hf, Seg.all_map hf, Curve.all_map hf, Surface.all_map hf]

end all_map

theorem Geom.all_nanEmpty {P : Coord → Prop} (g : Geom) (h : AllCoords P g) : AllCoords P g.nanEmpty := by
  induction g using Geom.ind with
  | collection gs ih =>
    have := (allCoordsList_iff _ _).mp h
    simp only [Geom.nanEmpty, nanEmptyList_eq, AllCoords, allCoordsList_iff]
    simp only [List.mem_map, forall_exists_index, and_imp, forall_apply_eq_imp_iff₂]
    exact fun g hg => ih g hg (this g hg)
  | point c =>
    simp only [Geom.nanEmpty]
    split
    · trivial
    · exact h
  | _ => exact h

theorem Geom.stored_hasDims (d : Dims) (g : Geom) : AllCoords (HasDims d) (g.stored d) :=
  Geom.all_nanEmpty _ (Geom.all_map (Coord.conform_hasDims d) g)

theorem levelsList_eq (gs : List Geom) : levelsList gs = (gs.map (fun g => 1 + g.levels)).foldr max 0 := by
  induction gs with
  | nil => rfl
  | cons g gs ih => simp [levelsList, ih]

theorem Curve.levels_map (f : Coord → Coord) (c : Curve) : (c.map f).levels = c.levels := by
  cases c <;> rfl

theorem Surface.levels_map (f : Coord → Coord) (s : Surface) : (s.map f).levels = s.levels := by
  cases s with
  | polygon rs => rfl
  | curvePolygon rs => simp [Surface.map, Surface.levels, List.map_map, Function.comp_def, Curve.levels_map]

theorem Geom.levels_map (f : Coord → Coord) (g : Geom) : (g.map f).levels = g.levels := by
  induction g using Geom.ind with
  | collection gs ih =>
    simp only [Geom.map, mapList_eq, Geom.levels, levelsList_eq, List.map_map, Function.comp_def]
    rw [List.map_congr_left fun g hg => by rw [ih g hg]]
  | multiCurve cs =>
    simp [Geom.map, Geom.levels, List.map_map, Function.comp_def, Curve.levels_map]
  | multiSurface cs =>
    simp [Geom.map, Geom.levels, List.map_map, Function.comp_def, Surface.levels_map]
  | curvePolygon cs =>
    simp [Geom.map, Geom.levels, List.map_map, Function.comp_def, Curve.levels_map]
  | _ => rfl

theorem Geom.levels_nanEmpty (g : Geom) : g.nanEmpty.levels = g.levels := by
  induction g using Geom.ind with
  | collection gs ih =>
    simp only [Geom.nanEmpty, nanEmptyList_eq, Geom.levels, levelsList_eq, List.map_map, Function.comp_def]
    rw [List.map_congr_left fun g hg => by rw [ih g hg]]
  | point c => simp only [Geom.nanEmpty]; split <;> rfl
  | _ => rfl

theorem Geom.levels_stored (d : Dims) (g : Geom) : (g.stored d).levels = g.levels := by
  unfold Geom.stored; rw [Geom.levels_nanEmpty, Geom.levels_map]

namespace WkbWriter

/-- the writer after its first header -/
def started (w : WkbWriter) : WkbWriter := { w with firstHeader := false }

theorem hdrStep_ewkb (d : Dims) (srid : Option Int) (env : List F64) (t : WkbType) :
    HdrStep (withOpts .ewkb d srid env) t (started (withOpts .ewkb d srid env))
      (orderMark .le :: encU32 .le (ewkbCode d srid.isSome t.toU32) ++ srid.toList.flatMap (encI32 .le)) := by
  refine ⟨fun nl => ?_, rfl, rfl⟩
  cases srid <;>
    simp [writeHeader, writeEwkbHeader, withOpts, withExtendedOpts, started, put, byteOrder, ewkbTypeId_eq,
      orderMark]

theorem good_started {dl : WkbDialect} {d rd : Dims} {srid : Option Int} {env : List F64} {ed : Dims} {x y : Bool} :
    Good d dl (started (withExtendedOpts dl d rd srid env ed x y)) :=
  ⟨rfl, rfl, rfl, Or.inl rfl⟩

theorem hdrStep_gpkg (d rd : Dims) (srid : Option Int) (env : List F64) (ed : Dims) (x y : Bool) (t : WkbType) :
    HdrStep (withExtendedOpts .geopackage d rd srid env ed x y) t
      (started (withExtendedOpts .geopackage d rd srid env ed x y))
      (([0x47, 0x50, 0, UInt8.ofNat (gpkgFlags (withExtendedOpts .geopackage d rd srid env ed x y))]
        ++ encI32 .le (srid.getD 0) ++ env.flatMap (encF64 .le))
        ++ orderMark .le :: encU32 .le (ogcCode d t.toU32)) := by
  refine ⟨fun nl => ?_, rfl, rfl⟩
  simp [writeHeader, writeGpkgHeader, writeWkbHeader, withExtendedOpts, started, put, byteOrder,
    ogcTypeId_eq, orderMark, gpkgFlags]

theorem hdrStep_mysql (d : Dims) (srid : Option Int) (env : List F64) (t : WkbType)
    (hs : ∀ s ∈ srid, 0 ≤ s) :
    HdrStep (withOpts .mySQL d srid env) t (started (withOpts .mySQL d srid env))
      (encU32 .le (srid.getD 0).toNat ++ orderMark .le :: encU32 .le (ogcCode d t.toU32)) := by
  refine ⟨fun nl => ?_, rfl, rfl⟩
  cases srid with
  | none =>
    simp [writeHeader, writeMysqlHeader, writeWkbHeader, withOpts, withExtendedOpts, started, put, byteOrder,
      ogcTypeId_eq, orderMark]
  | some s =>
    have := hs s rfl
    simp [writeHeader, writeMysqlHeader, writeWkbHeader, withOpts, withExtendedOpts, started, put, byteOrder,
      ogcTypeId_eq, orderMark, this]

theorem hdrStep_spatialite (d : Dims) (srid : Option Int) (env : List F64) (t : WkbType) :
    HdrStep (withOpts .spatiaLite d srid env) t (started (withOpts .spatiaLite d srid env))
      ([0, orderMark .le] ++ encI32 .le (srid.getD 0)
        ++ (if env = [] then [F64.zero, F64.zero, F64.zero, F64.zero] else env).flatMap (encF64 .le) ++ [0x7C]
        ++ encU32 .le (ogcCode d t.toU32)) := by
  refine ⟨fun nl => ?_, rfl, rfl⟩
  cases env <;>
  simp [writeHeader, writeSpatialiteHeader, withOpts, withExtendedOpts, started, put, byteOrder,
    ogcTypeId_eq, orderMark]

end WkbWriter
end Geozero
