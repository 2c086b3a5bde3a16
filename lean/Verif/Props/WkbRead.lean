import Verif.Lemmas.WkbTop

/-
C06, C10, C12, C14: what the WKB readers do with encodings of the specification.
-/

namespace Geozero
open Spec Prog

/-- common part of the dialects: the body after a top-level header -/
private theorem run_top (fo : FOps) {d : Dims} {H : HeaderSpec} {rh : WkbInfo → Prog WkbInfo}
    (hh : HdrOk d H rh) (top : Prog WkbInfo) (g : Geom) (e : Endian) (info : WkbInfo)
    (hi : InfoOk d e (WkbType.fromU32 (typeCode g)) info) (multi : Bool) (hb bb rest : List Byte)
    (htop : ∀ r, run multi top (hb ++ r) = ([], .ok (info, r)))
    (hc : AllCoords (HasDims d) g) (hbody : Body d H g e bb) :
    Outcome (g.levels ≤ 128) (.srid info.srid :: g.events multi 0) rest
      (run multi (processTop fo top rh) (hb ++ bb ++ rest)) := by
  have h := run_geomN fo hh multi g 130 0 (by omega) (by omega) e info hi hc 0 bb rest hbody
  unfold processTop
  simp only [bind_eq, List.append_assoc]
  rw [run_bind_ok_nil (htop (bb ++ rest))]
  simp only [run_emitEv_bind]
  constructor
  · intro hl
    rw [h.1 (by omega)]
  · intro hl
    obtain ⟨evs', hp, hr⟩ := h.2 (by omega)
    exact ⟨.srid info.srid :: evs', List.cons_prefix_cons.mpr ⟨rfl, hp⟩, by rw [hr]⟩

/-! ### C06: the readers decode every encoding of the specification, whatever byte order each nested
geometry chose -/

/-- The numbers counted as NaN, hence as an empty point, are the IEEE 754 patterns with all exponent bits set and a
significand that is not zero, quiet or signalling, of either sign. -/
theorem C06_nan_pattern (x : F64) :
    x.isNaN = true ↔ x.toNat / 2 ^ 52 % 2 ^ 11 = 2 ^ 11 - 1 ∧ x.toNat % 2 ^ 52 ≠ 0 := by
  have hx := x.isLt
  unfold F64.isNaN
  simp only [decide_eq_true_eq]
  omega

example : F64.isNaN 0xFFF0000000000001#64 = true ∧ F64.isNaN 0x7FF0000000000000#64 = false := by decide

/-- Outcome of reading an OGC WKB encoding. -/
private theorem ogc_outcome (fo : FOps) (d : Dims) (e : Endian) (g : Geom) (bs rest : List Byte) (multi : Bool)
    (h : OgcWkb d e g bs) :
    Outcome (g.levels ≤ 128) (.srid none :: g.events multi 0) rest
      (run multi (processWkbTypeGeom fo .wkb) (bs ++ rest)) := by
  obtain ⟨hc, hb, bb, rfl, hhb, hbody⟩ := h
  unfold ogcHeader at hhb
  subst hhb
  exact run_top fo (hdrOk_ogc d) readWkbHeader g e
    { endian := e, baseType := WkbType.fromU32 (typeCode g), hasZ := d.z, hasM := d.m, srid := none,
      isCompressed := false, envelope := [] } ⟨rfl, rfl, rfl, rfl, rfl⟩ multi _ bb rest
    (fun r => run_readWkbHeader d e _ (typeCode_le g) multi r) hc hbody

private theorem ewkb_outcome (fo : FOps) (d : Dims) (e : Endian) (srid : Option Int) (hs : ∀ s ∈ srid, isI32 s)
    (g : Geom) (bs rest : List Byte) (multi : Bool) (h : Ewkb d e srid g bs) :
    Outcome (g.levels ≤ 128) (.srid srid :: g.events multi 0) rest
      (run multi (processWkbTypeGeom fo .ewkb) (bs ++ rest)) := by
  obtain ⟨hc, bb, hbody, rfl⟩ := h
  refine run_top fo (hdrOk_ewkb d) readEwkbHeader g e
    { endian := e, baseType := WkbType.fromU32 (typeCode g), hasZ := d.z, hasM := d.m, srid := srid,
      isCompressed := false, envelope := [] } ⟨rfl, rfl, rfl, rfl, rfl⟩ multi _ bb rest ?_ hc hbody
  intro r
  rw [List.append_assoc]
  exact run_readEwkbHeader d e srid hs _ (typeCode_le g) multi r

private theorem gpkg_outcome (fo : FOps) (d : Dims) (e : Endian) (srid : Int) (hs : isI32 srid) (env : List F64)
    (g : Geom) (bs rest : List Byte) (multi : Bool) (h : Gpkg d e e srid env g bs) :
    Outcome (g.levels ≤ 128) (.srid (some srid) :: g.events multi 0) rest
      (run multi (processWkbTypeGeom fo .geopackage) (bs ++ rest)) := by
  obtain ⟨hb, wb, rfl, hhb, hc, hb2, bb, rfl, hhb2, hbody⟩ := h
  unfold ogcHeader at hhb2
  subst hhb2
  rw [← List.append_assoc]
  refine run_top fo (hdrOk_ogc d) readGpkgHeader g e
    { endian := e, baseType := WkbType.fromU32 (typeCode g), hasZ := d.z, hasM := d.m, srid := some srid,
      isCompressed := false, envelope := env } ⟨rfl, rfl, rfl, rfl, rfl⟩ multi _ bb rest ?_ hc hbody
  intro r
  rw [List.append_assoc]
  exact run_readGpkgHeader d e e srid hs env hb hhb _ (typeCode_le g) multi r

private theorem mysql_outcome (fo : FOps) (d : Dims) (srid : Nat) (hs : srid < 2 ^ 31)
    (g : Geom) (bs rest : List Byte) (multi : Bool) (h : MySql d srid g bs) :
    Outcome (g.levels ≤ 128) (.srid (some (srid : Int)) :: g.events multi 0) rest
      (run multi (processWkbTypeGeom fo .mySQL) (bs ++ rest)) := by
  obtain ⟨wb, rfl, hc, hb2, bb, rfl, hhb2, hbody⟩ := h
  unfold ogcHeader at hhb2
  subst hhb2
  rw [← List.append_assoc]
  refine run_top fo (hdrOk_ogc d) readMysqlHeader g .le
    { endian := .le, baseType := WkbType.fromU32 (typeCode g), hasZ := d.z, hasM := d.m,
      srid := some (srid : Int), isCompressed := false, envelope := [] } ⟨rfl, rfl, rfl, rfl, rfl⟩ multi _ bb
      rest ?_ hc hbody
  intro r
  rw [List.append_assoc]
  exact run_readMysqlHeader d srid hs _ (typeCode_le g) multi r

private theorem spatialite_outcome (fo : FOps) (d : Dims) (e : Endian) (srid : Int) (hs : isI32 srid)
    (mbr : List F64) (g : Geom) (bs rest : List Byte) (multi : Bool) (h : SpatiaLite d e srid mbr g bs) :
    Outcome (g.levels ≤ 128) (.srid (if srid = 0 then none else some srid) :: g.events multi 0) (0xFE :: rest)
      (run multi (processWkbTypeGeom fo .spatiaLite) (bs ++ rest)) := by
  obtain ⟨hm, hc, bb, hbody, rfl⟩ := h
  have := run_top fo (hdrOk_spatialite d) readSpatialiteHeader g e
    { endian := e, baseType := WkbType.fromU32 (typeCode g), hasZ := d.z, hasM := d.m,
      srid := slSrid srid, isCompressed := false, envelope := mbr } ⟨rfl, rfl, rfl, rfl, rfl⟩ multi _ bb
      (0xFE :: rest) (fun r => run_readSpatialiteHeader d e srid hs mbr hm _ (typeCode_le g) multi r) hc hbody
  simpa [List.append_assoc, slSrid, processWkbTypeGeom, processSpatialiteGeom] using this

/-- Plain WKB: every encoding, in any mixture of byte orders, is decoded to exactly the documented
event stream of the geometry it encodes; exactly its own bytes are consumed. -/
theorem C06_wkb_decodes (fo : FOps) (d : Dims) (e : Endian) (g : Geom) (bs rest : List Byte) (multi : Bool)
    (h : OgcWkb d e g bs) (hl : g.levels ≤ 128) :
    run multi (processWkbTypeGeom fo .wkb) (bs ++ rest)
      = (.srid none :: g.events multi 0, .ok ((), rest)) :=
  (ogc_outcome fo d e g bs rest multi h).1 hl

/-- EWKB. -/
theorem C06_ewkb_decodes (fo : FOps) (d : Dims) (e : Endian) (srid : Option Int) (hs : ∀ s ∈ srid, isI32 s)
    (g : Geom) (bs rest : List Byte) (multi : Bool) (h : Ewkb d e srid g bs) (hl : g.levels ≤ 128) :
    run multi (processWkbTypeGeom fo .ewkb) (bs ++ rest)
      = (.srid srid :: g.events multi 0, .ok ((), rest)) :=
  (ewkb_outcome fo d e srid hs g bs rest multi h).1 hl

/-- GeoPackage, when header and top-level geometry have the same byte order (see C14 for the rest);
nested geometries are still free to choose. -/
theorem C06_gpkg_decodes_partial (fo : FOps) (d : Dims) (e : Endian) (srid : Int) (hs : isI32 srid)
    (env : List F64) (g : Geom) (bs rest : List Byte) (multi : Bool) (h : Gpkg d e e srid env g bs)
    (hl : g.levels ≤ 128) :
    run multi (processWkbTypeGeom fo .geopackage) (bs ++ rest)
      = (.srid (some srid) :: g.events multi 0, .ok ((), rest)) :=
  (gpkg_outcome fo d e srid hs env g bs rest multi h).1 hl

/-- MySQL: nested geometries may be big endian, the outermost one is little endian. -/
theorem C06_mysql_decodes (fo : FOps) (d : Dims) (srid : Nat) (hs : srid < 2 ^ 31)
    (g : Geom) (bs rest : List Byte) (multi : Bool) (h : MySql d srid g bs) (hl : g.levels ≤ 128) :
    run multi (processWkbTypeGeom fo .mySQL) (bs ++ rest)
      = (.srid (some (srid : Int)) :: g.events multi 0, .ok ((), rest)) :=
  (mysql_outcome fo d srid hs g bs rest multi h).1 hl

/-- SpatiaLite (uncompressed): SRID 0 means "none"; the end mark stays unread. -/
theorem C06_spatialite_decodes (fo : FOps) (d : Dims) (e : Endian) (srid : Int) (hs : isI32 srid)
    (mbr : List F64) (g : Geom) (bs rest : List Byte) (multi : Bool) (h : SpatiaLite d e srid mbr g bs)
    (hl : g.levels ≤ 128) :
    run multi (processWkbTypeGeom fo .spatiaLite) (bs ++ rest)
      = (.srid (if srid = 0 then none else some srid) :: g.events multi 0, .ok ((), 0xFE :: rest)) :=
  (spatialite_outcome fo d e srid hs mbr g bs rest multi h).1 hl

/-! ### C10: nesting -/

/-- Too deeply nested input is rejected with the nesting error, after a prefix of the events. -/
theorem C10_wkb_too_deep (fo : FOps) (d : Dims) (e : Endian) (g : Geom) (bs rest : List Byte) (multi : Bool)
    (h : OgcWkb d e g bs) (hl : 128 < g.levels) :
    ∃ evs, evs <+: (.srid none :: g.events multi 0) ∧
      run multi (processWkbTypeGeom fo .wkb) (bs ++ rest) = (evs, .error (.maxNesting 128)) :=
  (ogc_outcome fo d e g bs rest multi h).2 (by omega)

theorem C10_ewkb_too_deep (fo : FOps) (d : Dims) (e : Endian) (srid : Option Int) (hs : ∀ s ∈ srid, isI32 s)
    (g : Geom) (bs rest : List Byte) (multi : Bool) (h : Ewkb d e srid g bs) (hl : 128 < g.levels) :
    ∃ evs, evs <+: (.srid srid :: g.events multi 0) ∧
      run multi (processWkbTypeGeom fo .ewkb) (bs ++ rest) = (evs, .error (.maxNesting 128)) :=
  (ewkb_outcome fo d e srid hs g bs rest multi h).2 (by omega)

theorem C10_gpkg_too_deep (fo : FOps) (d : Dims) (e : Endian) (srid : Int) (hs : isI32 srid)
    (env : List F64) (g : Geom) (bs rest : List Byte) (multi : Bool) (h : Gpkg d e e srid env g bs)
    (hl : 128 < g.levels) :
    ∃ evs, evs <+: (.srid (some srid) :: g.events multi 0) ∧
      run multi (processWkbTypeGeom fo .geopackage) (bs ++ rest) = (evs, .error (.maxNesting 128)) :=
  (gpkg_outcome fo d e srid hs env g bs rest multi h).2 (by omega)

theorem C10_mysql_too_deep (fo : FOps) (d : Dims) (srid : Nat) (hs : srid < 2 ^ 31)
    (g : Geom) (bs rest : List Byte) (multi : Bool) (h : MySql d srid g bs) (hl : 128 < g.levels) :
    ∃ evs, evs <+: (.srid (some (srid : Int)) :: g.events multi 0) ∧
      run multi (processWkbTypeGeom fo .mySQL) (bs ++ rest) = (evs, .error (.maxNesting 128)) :=
  (mysql_outcome fo d srid hs g bs rest multi h).2 (by omega)

theorem C10_spatialite_too_deep (fo : FOps) (d : Dims) (e : Endian) (srid : Int) (hs : isI32 srid)
    (mbr : List F64) (g : Geom) (bs rest : List Byte) (multi : Bool) (h : SpatiaLite d e srid mbr g bs)
    (hl : 128 < g.levels) :
    ∃ evs, evs <+: (.srid (if srid = 0 then none else some srid) :: g.events multi 0) ∧
      run multi (processWkbTypeGeom fo .spatiaLite) (bs ++ rest) = (evs, .error (.maxNesting 128)) :=
  (spatialite_outcome fo d e srid hs mbr g bs rest multi h).2 (by omega)

/-! ### C12: dimensions and SRID without decoding -/

theorem headerResult_of {p : Prog WkbInfo} {bs rest : List Byte} {i : WkbInfo}
    (h : run false p bs = ([], .ok (i, rest))) : headerResult p bs = some i := by
  unfold headerResult; rw [h]

/-- The dimensions and SRID reported without decoding a plain WKB value. -/
theorem C12_wkb_introspection (d : Dims) (e : Endian) (g : Geom) (bs rest : List Byte) (h : OgcWkb d e g bs) :
    wkbDims .wkb (bs ++ rest) = { z := d.z, m := d.m } ∧ wkbSrid .wkb (bs ++ rest) = none := by
  obtain ⟨hc, hb, bb, rfl, hhb, hbody⟩ := h
  unfold ogcHeader at hhb
  subst hhb
  have := run_readWkbHeader d e (typeCode g) (typeCode_le g) false (bb ++ rest)
  rw [← List.append_assoc] at this
  simp only [wkbDims, topHeader, headerResult_of this, WkbInfo.dims, wkbSrid, and_self]

theorem C12_ewkb_introspection (d : Dims) (e : Endian) (srid : Option Int) (hs : ∀ s ∈ srid, isI32 s)
    (g : Geom) (bs rest : List Byte) (h : Ewkb d e srid g bs) :
    wkbDims .ewkb (bs ++ rest) = { z := d.z, m := d.m } ∧ wkbSrid .ewkb (bs ++ rest) = srid := by
  obtain ⟨hc, bb, hbody, rfl⟩ := h
  have := run_readEwkbHeader d e srid hs (typeCode g) (typeCode_le g) false (bb ++ rest)
  rw [← List.append_assoc, ← List.append_assoc] at this
  simp only [wkbDims, topHeader, headerResult_of this, WkbInfo.dims, wkbSrid, Option.bind_some, and_self]

/-- GeoPackage: header and body may even have different byte orders. -/
theorem C12_gpkg_introspection (d : Dims) (he e : Endian) (srid : Int) (hs : isI32 srid) (env : List F64)
    (g : Geom) (bs rest : List Byte) (h : Gpkg d he e srid env g bs) :
    wkbDims .geopackage (bs ++ rest) = { z := d.z, m := d.m } ∧
      wkbSrid .geopackage (bs ++ rest) = some srid := by
  obtain ⟨hb, wb, rfl, hhb, hc, hb2, bb, rfl, hhb2, hbody⟩ := h
  unfold ogcHeader at hhb2
  subst hhb2
  have := run_readGpkgHeader d he e srid hs env hb hhb (typeCode g) (typeCode_le g) false (bb ++ rest)
  rw [← List.append_assoc, ← List.append_assoc, List.append_assoc hb] at this
  simp only [wkbDims, topHeader, headerResult_of this, WkbInfo.dims, wkbSrid, Option.bind_some, and_self]

theorem C12_mysql_introspection (d : Dims) (srid : Nat) (hs : srid < 2 ^ 31)
    (g : Geom) (bs rest : List Byte) (h : MySql d srid g bs) :
    wkbDims .mySQL (bs ++ rest) = { z := d.z, m := d.m } ∧
      wkbSrid .mySQL (bs ++ rest) = some (srid : Int) := by
  obtain ⟨wb, rfl, hc, hb2, bb, rfl, hhb2, hbody⟩ := h
  unfold ogcHeader at hhb2
  subst hhb2
  have := run_readMysqlHeader d srid hs (typeCode g) (typeCode_le g) false (bb ++ rest)
  rw [← List.append_assoc, ← List.append_assoc, List.append_assoc (encU32 .le srid)] at this
  simp only [wkbDims, topHeader, headerResult_of this, WkbInfo.dims, wkbSrid, Option.bind_some, and_self]

theorem C12_spatialite_introspection (d : Dims) (e : Endian) (srid : Int) (hs : isI32 srid)
    (mbr : List F64) (g : Geom) (bs rest : List Byte) (h : SpatiaLite d e srid mbr g bs) :
    wkbDims .spatiaLite (bs ++ rest) = { z := d.z, m := d.m } ∧
      wkbSrid .spatiaLite (bs ++ rest) = (if srid = 0 then none else some srid) := by
  obtain ⟨hm, hc, bb, hbody, rfl⟩ := h
  have := run_readSpatialiteHeader d e srid hs mbr hm (typeCode g) (typeCode_le g) false (bb ++ [0xFE] ++ rest)
  rw [← List.append_assoc, ← List.append_assoc] at this
  simp only [wkbDims, topHeader, headerResult_of this, WkbInfo.dims, wkbSrid, Option.bind_some, slSrid, and_self]

/-! ### Non-vacuity: concrete encodings -/

/-- a collection holding a big-endian point inside a little-endian collection, z and m present -/
private def demoDims : Dims := { z := true }
private def demoGeom : Geom := .collection [.point ⟨1#64, 2#64, some 3#64, none⟩, .lineString []]
private def demoBytes : List Byte :=
  (1 :: encU32 .le 1007) ++ (encU32 .le 2
    ++ (((0 :: encU32 .be 1001) ++ (encF64 .be 1#64 ++ encF64 .be 2#64 ++ encF64 .be 3#64))
    ++ ((1 :: encU32 .le 1002) ++ encU32 .le 0)))

private theorem demo_ok : OgcWkb demoDims .le demoGeom demoBytes := by
  refine ⟨?_, 1 :: encU32 .le 1007, _, rfl, rfl, ?_⟩
  · simp [demoGeom, demoDims, AllCoords, AllCoordsList, HasDims]
  · refine ⟨by decide, _, rfl, ?_⟩
    refine ⟨(0 :: encU32 .be 1001) ++ (encF64 .be 1#64 ++ encF64 .be 2#64 ++ encF64 .be 3#64),
      (1 :: encU32 .le 1002) ++ encU32 .le 0, rfl, ⟨.be, _, _, rfl, rfl, ?_⟩, ?_⟩
    · refine ⟨?_, ?_⟩
      · decide
      · decide
    · refine ⟨_, [], by simp, ⟨.le, 1 :: encU32 .le 1002, encU32 .le 0, rfl, rfl, ?_⟩, rfl⟩
      exact ⟨by decide, [], rfl, rfl⟩

example : OgcWkb demoDims .le demoGeom demoBytes ∧ demoGeom.levels ≤ 128 := ⟨demo_ok, by decide⟩
example : ∃ bs, Ewkb demoDims .be (some 4326) (.lineString []) bs ∧ isI32 4326 :=
  ⟨_, ⟨by simp [AllCoords], _, ⟨by decide, [], rfl, rfl⟩, rfl⟩, by decide⟩
example : ∃ bs, Gpkg demoDims .le .le 4326 [0#64, 0#64, 0#64, 0#64] demoGeom bs :=
  ⟨_, _, _, rfl, ⟨0, 1, false, false, by simp [EnvelopeCode], rfl⟩, demo_ok⟩
example : ∃ bs, MySql demoDims 4326 demoGeom bs := ⟨_, _, rfl, demo_ok⟩
example : ∃ bs, SpatiaLite demoDims .be 4326 [0#64, 0#64, 0#64, 0#64] (.lineString []) bs :=
  ⟨_, rfl, by simp [AllCoords], _, ⟨by decide, [], rfl, rfl⟩, rfl⟩

/-- nested collections, `n` deep -/
private def nestGeom : Nat → Geom
  | 0 => .lineString []
  | n + 1 => .collection [nestGeom n]

private theorem nestGeom_enc (n : Nat) : ∃ bb, Body {} (ogcHeader {}) (nestGeom n) .le bb := by
  induction n with
  | zero => exact ⟨_, by decide, [], rfl, rfl⟩
  | succ n ih =>
    obtain ⟨bb, h⟩ := ih
    refine ⟨_, by simp, _, rfl, _, [], (List.append_nil _).symm, ⟨.le, _, bb, rfl, rfl, h⟩, rfl⟩

private theorem nestGeom_levels (n : Nat) : (nestGeom n).levels = n := by
  induction n with
  | zero => rfl
  | succ n ih => simp [nestGeom, Geom.levels, levelsList, ih]; omega

private theorem nestGeom_coords (n : Nat) : AllCoords (HasDims {}) (nestGeom n) := by
  induction n with
  | zero => simp [nestGeom, AllCoords]
  | succ n ih => simp only [nestGeom, AllCoords, AllCoordsList, and_true]; exact ih

/-- every depth, also beyond the limit, has an encoding -/
example (n : Nat) : ∃ g bs, OgcWkb {} .le g bs ∧ g.levels = n := by
  obtain ⟨bb, h⟩ := nestGeom_enc n
  exact ⟨nestGeom n, _, ⟨nestGeom_coords n, _, bb, rfl, rfl, h⟩, nestGeom_levels n⟩

/-! ### C14: GeoPackage header and body in different byte orders -/

private def mixedBytes : List Byte :=
  ([0x47, 0x50, 0, 1] ++ encI32 .le 4326) ++ ((0 :: encU32 .be 1) ++ (encF64 .be 1#64 ++ encF64 .be 2#64))

/-- The property C14 is **false** of the code: a GeoPackage blob whose header is little endian and whose
geometry is big endian (which the GeoPackage specification allows) is decoded to other coordinates. -/
theorem C14_gpkg_mixed_order_false :
    ¬ ∀ (fo : FOps) (d : Dims) (he e : Endian) (srid : Int) (env : List F64) (g : Geom) (bs : List Byte)
        (multi : Bool), isI32 srid → Gpkg d he e srid env g bs → g.levels ≤ 128 →
        run multi (processWkbTypeGeom fo .geopackage) bs
          = (.srid (some srid) :: g.events multi 0, .ok ((), [])) := by
  intro h
  have hg : Gpkg {} .le .be 4326 [] (.point ⟨1#64, 2#64, none, none⟩) mixedBytes := by
    refine ⟨_, _, rfl, ⟨0, 0, false, false, by simp [EnvelopeCode], rfl⟩, ?_, 0 :: encU32 .be 1, _, rfl, rfl, ?_⟩
    · simp [AllCoords, HasDims]
    · exact ⟨by decide, by decide⟩
  have := h ⟨fun _ => 0#64, fun a _ => a⟩ {} .le .be 4326 [] _ _ false (by decide) hg (by decide)
  have h2 := congrArg Prod.fst this
  exact absurd h2 (by decide)

/-- C14 holds when header and top-level geometry agree on the byte order (same statement as
`C06_gpkg_decodes_partial`); missing: headers whose byte order differs, for which it is false. -/
theorem C14_gpkg_same_order_partial (fo : FOps) (d : Dims) (he e : Endian) (hhe : he = e) (srid : Int)
    (hs : isI32 srid) (env : List F64) (g : Geom) (bs rest : List Byte) (multi : Bool)
    (h : Gpkg d he e srid env g bs) (hl : g.levels ≤ 128) :
    run multi (processWkbTypeGeom fo .geopackage) (bs ++ rest)
      = (.srid (some srid) :: g.events multi 0, .ok ((), rest)) := by
  subst hhe
  exact C06_gpkg_decodes_partial fo d he srid hs env g bs rest multi h hl

end Geozero
