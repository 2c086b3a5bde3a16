import Verif.Lemmas.SlAccept
import Verif.Props.SlCompressed

/-
C76 and C64 for SpatiaLite BLOBs with compressed geometries at any place.
-/

namespace Geozero
open Prog Spec

/-- C76 for SpatiaLite: which byte strings the reader takes for a geometry, how much of them it reads and with which calls,
whatever is compressed in them. -/
theorem C76_spatialite_accepts_exactly (fo : FOps) (multi : Bool) (bs rest : List Byte) (evs : List Ev) :
    run multi (processWkbTypeGeom fo .spatiaLite) bs = (evs, .ok ((), rest)) ↔
      ∃ srid g used, bs = used ++ rest ∧ Sl.Blob fo srid g used ∧ g.levels ≤ 128 ∧
        evs = .srid (if srid = 0 then none else some srid) :: g.events multi 0 := by
  show run multi (processTop fo readSpatialiteHeader readSpatialiteNestedHeader) bs = _ ↔ _
  rw [Sl.acc_top fo Sl.topExact Sl.hdrExact]
  constructor
  · rintro ⟨srid, g, f, hb, bb, rfl, ⟨s, flags, rfl, hs, ho, h⟩, hB, hl, rfl⟩
    refine ⟨s, g, _, rfl, ⟨hs, flags, f, bb, ho, hB, ?_⟩, hl, rfl⟩
    rcases h with ⟨hf, hc, hp, d, hz, hm, rfl⟩ | ⟨hf, mbr, w, hm, hw, hc, hp, hd, rfl⟩
    · exact Or.inl ⟨hf, hc, hp, d, hz, hm, rfl⟩
    · exact Or.inr ⟨hf, mbr, w, hm, hw, hc, hp, hd, rfl⟩
  · rintro ⟨s, g, used, rfl, ⟨hs, flags, f, bb, ho, hB, h⟩, hl, rfl⟩
    rcases h with ⟨hf, hc, hp, d, hz, hm, rfl⟩ | ⟨hf, mbr, w, hm, hw, hc, hp, hd, rfl⟩
    · exact ⟨_, g, f, _, bb, rfl, ⟨s, flags, rfl, hs, ho, Or.inl ⟨hf, hc, hp, d, hz, hm, rfl⟩⟩, hB, hl, rfl⟩
    · exact ⟨_, g, f, _, bb, rfl, ⟨s, flags, rfl, hs, ho, Or.inr ⟨hf, mbr, w, hm, hw, hc, hp, hd, rfl⟩⟩, hB, hl, rfl⟩

/-! ### the calls are those of the geometry meant, but for the index of the last vertex of a packed line string -/

private theorem evList_map_idx {α β : Type} (f : Nat → α → List Ev) (f' : Nat → β → List Ev) (m : α → β) (xs : List α)
    (h : ∀ x ∈ xs, ∀ i, (f i x).map idxEv = (f' i (m x)).map idxEv) (i : Nat) :
    (evList f i xs).map idxEv = (evList f' i (xs.map m)).map idxEv := by
  induction xs generalizing i with
  | nil => rfl
  | cons x xs ih =>
    simp only [evList, List.map_append, List.map_cons, h x (List.mem_cons_self ..),
      ih (fun y hy => h y (List.mem_cons_of_mem _ hy))]

private theorem bracket_idx {α β : Type} (k : GKind) (t : Bool) (f : Nat → α → List Ev) (f' : Nat → β → List Ev) (m : α → β)
    (xs : List α) (h : ∀ x ∈ xs, ∀ i, (f i x).map idxEv = (f' i (m x)).map idxEv) (i : Nat) :
    (bracket k t i f xs).map idxEv = (bracket k t i f' (xs.map m)).map idxEv := by
  simp only [bracket, List.map_cons, List.map_append, List.length_map, evList_map_idx f f' m xs h]

private theorem line_idx (multi tagged : Bool) (l : Sl.Line) (h : l.Honest) (i : Nat) :
    (Sl.lineEvs multi tagged i l).map idxEv = (lineEvs multi tagged i l.vertices).map idxEv := by
  cases l with
  | plain cs => rfl
  | packed n cs last =>
    obtain ⟨rfl, h2⟩ : n = cs.length + 1 ∧ 2 ≤ n := h
    have e1 : min (cs.length + 1) 1 = min cs.length 1 := by omega
    simp only [Sl.lineEvs, Sl.Line.vertices, lineEvs, bracket, slEvList_append, List.map_cons, List.map_append, evList, coordEvs,
      idx_coordEv, e1, List.length_append, List.length_cons, List.length_nil, List.map_nil, List.append_nil,
      List.append_assoc, Nat.zero_add]

private theorem rings_idx' (k : GKind) (multi tagged : Bool) (ls : List Sl.Line) (h : ∀ l ∈ ls, l.Honest) (i : Nat) :
    (bracket k tagged i (Sl.lineEvs multi false) ls).map idxEv
      = (bracket k tagged i (lineEvs multi false) (ls.map Sl.Line.vertices)).map idxEv :=
  bracket_idx _ _ _ _ _ _ (fun l hl => line_idx multi false l (h l hl)) i

private theorem seg_idx (multi : Bool) (s : Sl.Seg) (h : ∀ l ∈ s.lines, l.Honest) (i : Nat) :
    (Sl.segEvs multi i s).map idxEv = (segEvs multi i s.meant).map idxEv := by
  cases s with
  | line l => exact line_idx multi false l (h l (List.mem_singleton.mpr rfl)) i
  | circ cs => rfl

private theorem segs_idx (multi : Bool) (ss : List Sl.Seg) (h : ∀ l ∈ ss.flatMap Sl.Seg.lines, l.Honest) (i : Nat) :
    (bracket .compoundCurve true i (Sl.segEvs multi) ss).map idxEv
      = (bracket .compoundCurve true i (segEvs multi) (ss.map Sl.Seg.meant)).map idxEv :=
  bracket_idx _ _ _ _ _ _ (fun s hs => seg_idx multi s fun l hl => h l (List.mem_flatMap.mpr ⟨s, hs, hl⟩)) i

private theorem curve_idx (multi : Bool) (c : Sl.Curve) (h : ∀ l ∈ c.lines, l.Honest) (i : Nat) :
    (Sl.curveEvs multi i c).map idxEv = (curveEvs multi i c.meant).map idxEv := by
  cases c with
  | seg s => exact seg_idx multi s h i
  | compound ss => exact segs_idx multi ss h i

private theorem curves_idx (k : GKind) (multi : Bool) (cs : List Sl.Curve) (h : ∀ l ∈ cs.flatMap Sl.Curve.lines, l.Honest)
    (i : Nat) : (bracket k true i (Sl.curveEvs multi) cs).map idxEv
      = (bracket k true i (curveEvs multi) (cs.map Sl.Curve.meant)).map idxEv :=
  bracket_idx _ _ _ _ _ _ (fun s hs => curve_idx multi s fun l hl => h l (List.mem_flatMap.mpr ⟨s, hs, hl⟩)) i

private theorem surface_idx (multi : Bool) (s : Sl.Surface) (h : ∀ l ∈ s.lines, l.Honest) (i : Nat) :
    (Sl.surfaceEvs multi i s).map idxEv = (surfaceEvs multi i s.meant).map idxEv := by
  cases s with
  | polygon rings => exact rings_idx' _ multi false rings h i
  | curvePolygon rings => exact curves_idx _ multi rings h i

mutual
theorem geom_idx (multi : Bool) (g : Sl.Geom) (h : ∀ l ∈ g.lines, l.Honest) (i : Nat) :
    (g.events multi i).map idxEv = (g.meant.events multi i).map idxEv := by
  cases g with
  | emptyPoint => rfl
  | point c => rfl
  | multiPoint cs => rfl
  | circularString cs => rfl
  | lineString l => exact line_idx multi true l (h l (List.mem_singleton.mpr rfl)) i
  | compoundCurve ss => exact segs_idx multi ss h i
  | multiLineString ls => exact rings_idx' _ multi true ls h i
  | polygon ls => exact rings_idx' _ multi true ls h i
  | triangle ls => exact rings_idx' _ multi true ls h i
  | multiCurve cs => exact curves_idx _ multi cs h i
  | curvePolygon cs => exact curves_idx _ multi cs h i
  | multiPolygon ps =>
    exact bracket_idx _ _ _ _ (List.map Sl.Line.vertices) ps
      (fun p hp => rings_idx' _ multi false p fun l hl => h l (List.mem_flatten.mpr ⟨p, hp, hl⟩)) i
  | polyhedralSurface ps =>
    exact bracket_idx _ _ _ _ (List.map Sl.Line.vertices) ps
      (fun p hp => rings_idx' _ multi false p fun l hl => h l (List.mem_flatten.mpr ⟨p, hp, hl⟩)) i
  | tin ps =>
    exact bracket_idx _ _ _ _ (List.map Sl.Line.vertices) ps
      (fun p hp => rings_idx' _ multi false p fun l hl => h l (List.mem_flatten.mpr ⟨p, hp, hl⟩)) i
  | multiSurface ss =>
    exact bracket_idx _ _ _ _ _ ss (fun s hs => surface_idx multi s fun l hl => h l (List.mem_flatMap.mpr ⟨s, hs, hl⟩)) i
  | collection gs =>
    obtain ⟨h1, h2⟩ := geoms_idx multi gs h 0
    simp only [Sl.Geom.events, Sl.Geom.meant, Geom.events, List.map_cons, List.map_append, h1, h2]

private theorem geoms_idx (multi : Bool) (gs : List Sl.Geom) (h : ∀ l ∈ Sl.linesList gs, l.Honest) (i : Nat) :
    (Sl.eventsList multi i gs).map idxEv = (eventsList multi i (Sl.meantList gs)).map idxEv ∧
      (Sl.meantList gs).length = gs.length := by
  cases gs with
  | nil => exact ⟨rfl, rfl⟩
  | cons g gs =>
    simp only [Sl.linesList, List.mem_append] at h
    obtain ⟨h1, h2⟩ := geoms_idx multi gs (fun l hl => h l (Or.inr hl)) (i + 1)
    simp only [Sl.eventsList, Sl.meantList, eventsList, List.map_append, List.length_cons, h1, h2,
      geom_idx multi g (fun l hl => h l (Or.inl hl)) i, and_self]
end

private theorem curve_levels (c : Sl.Curve) : c.meant.levels = c.levels := by cases c <;> rfl

private theorem surface_levels (s : Sl.Surface) : s.meant.levels = s.levels := by
  cases s with
  | polygon rings => rfl
  | curvePolygon rings => simp [Sl.Surface.meant, Surface.levels, Sl.Surface.levels, Function.comp_def, curve_levels]

mutual
theorem meant_levels (g : Sl.Geom) : g.meant.levels = g.levels := by
  cases g with
  | multiCurve cs => simp [Sl.Geom.meant, Geom.levels, Sl.Geom.levels, Function.comp_def, curve_levels]
  | curvePolygon cs => simp [Sl.Geom.meant, Geom.levels, Sl.Geom.levels, Function.comp_def, curve_levels]
  | multiSurface cs => simp [Sl.Geom.meant, Geom.levels, Sl.Geom.levels, Function.comp_def, surface_levels]
  | collection gs => simp only [Sl.Geom.meant, Geom.levels, Sl.Geom.levels, meant_levelsList gs]
  | _ => rfl
private theorem meant_levelsList (gs : List Sl.Geom) : levelsList (Sl.meantList gs) = Sl.levelsList gs := by
  cases gs with
  | nil => rfl
  | cons g gs => simp only [Sl.meantList, levelsList, Sl.levelsList, meant_levels g, meant_levelsList gs]
end

/-- C64 for compressed geometries at any place.  A SpatiaLite BLOB converts to WKT, to WKB of any dialect, to geo-types,
GeoJSON, SVG and vector tiles exactly like a blob of any dialect that holds the geometry it stands for, whichever of its
parts are compressed; every compressed line string has to announce its number of vertices, which is at least two. -/
theorem C64_packed_anywhere_like_plain_partial (fo : FOps) (z m : Bool) (srid : Int) (g : Sl.Geom) (used rest : List Byte)
    (h : Sl.Blob fo srid g used) (hh : ∀ l ∈ g.lines, l.Honest) (hl : g.levels ≤ 128) (dl : WkbDialect) (plain : List Byte)
    (hp : Holds dl { z, m } (if srid = 0 then none else some srid) g.meant plain) :
    (∀ num dialect dims s, (GeoSource.ofWkb fo .spatiaLite (used ++ rest)).toWktWithOpts num dialect dims s
      = (GeoSource.ofWkb fo dl plain).toWktWithOpts num dialect dims s) ∧
    (∀ dialect dims s env, (GeoSource.ofWkb fo .spatiaLite (used ++ rest)).toWkbDialect dialect dims s env
      = (GeoSource.ofWkb fo dl plain).toWkbDialect dialect dims s env) ∧
    (∀ sz, geoFromWkb fo sz .spatiaLite (used ++ rest) = geoFromWkb fo sz dl plain) ∧
    (∀ num, geoJsonFromWkb fo num .spatiaLite (used ++ rest) = geoJsonFromWkb fo num dl plain) ∧
    (∀ svg, svgFromWkb svg fo .spatiaLite (used ++ rest) = svgFromWkb svg fo dl plain) ∧
    (∀ ar sz, mvtFromWkb ar sz fo .spatiaLite (used ++ rest) = mvtFromWkb ar sz fo dl plain) := by
  refine like_plain_of_run fo z m srid g.meant (used ++ rest) (fun multi => ?_) dl plain hp (by rw [meant_levels]; exact hl)
  refine ⟨_, rest, (C76_spatialite_accepts_exactly fo multi _ rest _).mpr ⟨srid, g, used, rfl, h, hl, rfl⟩, ?_⟩
  simp only [List.map_cons, geom_idx multi g hh 0]

/-! ### the hypotheses can be met -/

/-- a multi line string of a packed line string with three vertices and a plain one with two -/
private def exPacked (fo : FOps) : Sl.Geom :=
  .multiLineString [
    .packed 3 (⟨1#64, 2#64, some 3#64, none⟩ :: inner fo ⟨1#64, 2#64, some 3#64, none⟩ [⟨1#32, 2#32, some 3#32, none⟩])
      ⟨7#64, 8#64, some 9#64, none⟩,
    .plain [⟨1#64, 2#64, some 3#64, none⟩, ⟨7#64, 8#64, some 9#64, none⟩]]

private theorem exPacked_blob (fo : FOps) : ∃ used, Sl.Blob fo 4326 (exPacked fo) used := by
  have hB : ∃ bb, Sl.BodyIn fo Sl.nestedHeader (exPacked fo) ⟨⟨.le, true, false⟩, false⟩ bb := by
    refine ⟨_, by simp, _, rfl, _, _, rfl, ⟨⟨⟨.le, true, false⟩, true⟩, 2, _, _, rfl,
      ⟨rfl, 1001002, by decide, by decide, by decide, rfl⟩, trivial, rfl, by decide, _, _, rfl, Or.inl rfl, by simp [Sl.DeltaIn],
        _, _, ⟨⟨rfl, rfl⟩, rfl⟩, ⟨⟨rfl, rfl⟩, rfl⟩, rfl⟩, _, _, rfl,
      ⟨⟨⟨.le, true, false⟩, false⟩, 2, _, _, rfl, ⟨rfl, 1002, by decide, by decide, by decide, rfl⟩, trivial,
        ⟨by decide, _, rfl, _, _, rfl, ⟨⟨rfl, rfl⟩, rfl⟩, _, _, rfl, ⟨⟨rfl, rfl⟩, rfl⟩, rfl⟩, by simp⟩, rfl⟩
  obtain ⟨bb, hB⟩ := hB
  exact ⟨_, by decide, 1, _, bb, by decide, hB, Or.inr ⟨by decide, [1#64, 2#64, 7#64, 8#64], 1005, rfl,
    by decide, rfl, by decide, by simp [ThousandsDims], rfl⟩⟩

example (fo : FOps) : ∃ used plain, Sl.Blob fo 4326 (exPacked fo) used ∧ (∀ l ∈ (exPacked fo).lines, l.Honest) ∧
    (exPacked fo).levels ≤ 128 ∧
    Holds .ewkb { z := true, m := false } (if (4326 : Int) = 0 then none else some 4326) (exPacked fo).meant plain := by
  obtain ⟨used, h⟩ := exPacked_blob fo
  have hB : ∃ bb, Body { z := true, m := false } (ewkbHeader { z := true, m := false }) (exPacked fo).meant .le bb :=
    ⟨_, by simp, _, rfl, _, _, rfl, ⟨.le, _, _, rfl, rfl, by simp [Sl.Line.vertices, inner], _, rfl, _, _, rfl, rfl,
      _, _, rfl, rfl, _, _, rfl, rfl, rfl⟩, _, _, rfl,
      ⟨.le, _, _, rfl, rfl, by simp [Sl.Line.vertices], _, rfl, _, _, rfl, rfl, _, _, rfl, rfl, rfl⟩, rfl⟩
  obtain ⟨bb, hB⟩ := hB
  refine ⟨used, _, h, ?_, Nat.zero_le _, by decide, .le, ?_, bb, hB, rfl⟩
  · simp [exPacked, Sl.Geom.lines, Sl.Line.Honest, inner]
  · simp [exPacked, Sl.Geom.meant, AllCoords, Geom.coords, Sl.Line.vertices, inner, HasDims, Delta.apply]

end Geozero
