import Verif.Spec.WkbSpatialite
import Verif.Lemmas.WkbTop
import Verif.Lemmas.WkbHeaders

/-
C06 for the SpatiaLite variants: TinyPoint and compressed line strings and polygons.
-/

namespace Geozero
open Prog Spec

theorem run_tinyHeader (d : Dims) (e : Endian) (srid : Int) (hs : isI32 srid) (multi : Bool) (rest : List Byte) :
    run multi readSpatialiteHeader ([0, orderMark e + 128] ++ encI32 e srid ++ [tinyCode d] ++ rest) =
      ([], .ok ({ endian := e, baseType := .point, hasZ := d.z, hasM := d.m, srid := slSrid srid,
                  isCompressed := false, envelope := [] }, rest)) := by
  unfold readSpatialiteHeader
  have he : Endian.ofLE ((orderMark e + 128).toNat % 2 == 1) = e := by cases e <;> rfl
  have ht : ((orderMark e + 128).toNat / 128 % 2 == 1) = true := by cases e <;> rfl
  simp only [bind_eq, pure_eq, List.cons_append, List.nil_append, List.append_assoc, run_readByte_cons,
    if_true, he, ht]
  rw [run_bind_ok_nil (run_readI32 multi e srid _ hs)]
  simp only [run_readByte_cons, run_ret]
  obtain ⟨z, m, t, tm⟩ := d
  cases z <;> cases m <;> rfl

open Classical in
/-- C06, TinyPoint: every TinyPoint BLOB is decoded to its point (or empty point), in either byte order and all
four dimensions. -/
theorem C06_tinypoint_decodes (fo : FOps) (d : Dims) (e : Endian) (srid : Int) (hs : isI32 srid) (c : Coord)
    (hc : HasDims d c) (rest : List Byte) (multi : Bool) :
    run multi (processWkbTypeGeom fo .spatiaLite) (tinyPoint d e srid c ++ rest)
      = (.srid (if srid = 0 then none else some srid) ::
          (if AllNaN c then Geom.emptyPoint else .point c).events multi 0, .ok ((), 0xFE :: rest)) := by
  have h1 := run_tinyHeader d e srid hs multi (coordBytes e c ++ (0xFE :: rest))
  have e1 : tinyPoint d e srid c ++ rest
      = [0, orderMark e + 128] ++ encI32 e srid ++ [tinyCode d] ++ (coordBytes e c ++ (0xFE :: rest)) := by
    simp [tinyPoint, List.append_assoc]
  rw [e1]
  simp only [processWkbTypeGeom, processSpatialiteGeom, processTop, bind_eq]
  rw [run_bind_ok_nil h1]
  simp only [run_emitEv_bind, processGeomN, wkbMaxNestingDepth, gt_iff_lt, Nat.not_lt_zero, if_false]
  by_cases hn : AllNaN c
  · rw [run_emptyPoint d e .point _ ⟨rfl, rfl, rfl, rfl, rfl⟩ c hc hn multi 0]
    simp [hn, slSrid, Geom.events]
  · rw [run_point d e .point _ ⟨rfl, rfl, rfl, rfl, rfl⟩ c hc hn multi 0]
    simp [hn, slSrid]

theorem run_readF32 (multi : Bool) (e : Endian) (v : BitVec 32) (rest : List Byte) :
    run multi (readF32 e) (encF32 e v ++ rest) = ([], .ok (v, rest)) := by
  unfold readF32
  rw [run_bind_ok_nil (run_readN multi 4 (encF32 e v) rest (by simp [encF32]))]
  simp only [run_ret, encF32, decUInt_encUInt]
  have : v.toNat % 256 ^ 4 = v.toNat := Nat.mod_eq_of_lt (by have := v.isLt; omega)
  rw [this]
  simp

/-- reading one difference -/
theorem run_delta (fo : FOps) (d : Dims) (e : Endian) (info : WkbInfo) (he : info.endian = e) (hz : info.hasZ = d.z)
    (hm : info.hasM = d.m) (δ : Delta) (hd : δ.HasDims d) (multi : Bool) (rest : List Byte) :
    run multi (readCoord32 fo info) (deltaBytes e δ ++ rest) =
      ([], .ok ({ x := fo.of32 δ.x, y := fo.of32 δ.y, z := δ.z.map fo.of32, m := δ.m }, rest)) := by
  obtain ⟨x, y, z, m⟩ := δ
  obtain ⟨h1, h2⟩ := hd
  simp only at h1 h2
  unfold readCoord32 deltaBytes
  simp only [bind_eq, pure_eq, List.append_assoc, he, hz, hm]
  rw [run_bind_ok_nil (run_readF32 multi e x _), run_bind_ok_nil (run_readF32 multi e y _)]
  cases hdz : d.z <;> cases hdm : d.m <;> rw [hdz] at h1 <;> rw [hdm] at h2 <;>
    cases z <;> cases m <;> simp_all [bind_assoc]
  · rw [run_bind_ok_nil (run_readF64 multi e _ _)]
    simp
  · rw [run_bind_ok_nil (run_readF32 multi e _ _)]
    simp
  · rw [run_bind_ok_nil (run_readF32 multi e _ _), run_bind_ok_nil (run_readF64 multi e _ _)]
    simp

/-- the differences; without `multi` the reader forgets z and m, which `coordEv` then does not show either -/
theorem run_inner (fo : FOps) (d : Dims) (e : Endian) (info : WkbInfo) (he : info.endian = e) (hz : info.hasZ = d.z)
    (hm : info.hasM = d.m) (multi : Bool) (δs : List Delta) (hd : ∀ δ ∈ δs, δ.HasDims d) (i : Nat) (p q : Coord)
    (hp : p.x = q.x ∧ p.y = q.y ∧ (multi = true → p = q)) (rest : List Byte) :
    run multi (compressedLoop fo info multi δs.length i p) (δs.flatMap (deltaBytes e) ++ rest) =
      (evList (coordEvs multi) i (inner fo q δs), .ok ((), rest)) := by
  induction δs generalizing i p q with
  | nil => simp [compressedLoop, inner, evList]
  | cons δ δs ih =>
    have hr := run_delta fo d e info he hz hm δ (hd δ (by simp)) multi (δs.flatMap (deltaBytes e) ++ rest)
    simp only [List.length_cons, compressedLoop, processCompressedCoord, bind_eq, List.flatMap_cons, List.append_assoc]
    rw [bind_assoc, run_bind_ok_nil hr]
    cases multi with
    | true =>
      obtain rfl := hp.2.2 rfl
      have := ih (fun x hx => hd x (by simp [hx])) (i + 1) (δ.apply fo p) (δ.apply fo p) ⟨rfl, rfl, fun _ => rfl⟩
      simp only [if_true, pure_eq, Prog.bind_assoc, run_emitEv_bind, ret_bind]
      obtain ⟨px, py, pz, pm⟩ := p
      obtain ⟨dx, dy, dz, dm⟩ := δ
      cases pz <;> cases dz <;> simp_all [inner, evList, coordEvs, coordEv, Delta.apply]
    | false =>
      have := ih (fun x hx => hd x (by simp [hx])) (i + 1)
        { x := fo.add p.x (fo.of32 δ.x), y := fo.add p.y (fo.of32 δ.y), z := none, m := none } (δ.apply fo q)
        ⟨by simp [Delta.apply, hp.1], by simp [Delta.apply, hp.2.1], by simp⟩
      simp only [Bool.false_eq_true, if_false, pure_eq, Prog.bind_assoc, run_emitEv_bind, ret_bind]
      rw [this]
      simp [inner, evList, coordEvs, coordEv, Delta.apply, hp.1, hp.2.1]

/-- the events of a compressed line string: as for the vertices it stands for, except that the last one is
delivered with index `n` instead of `n - 1` -/
def compressedLineEvs (fo : FOps) (multi tagged : Bool) (idx : Nat) (first : Coord) (δs : List Delta) (last : Coord) : List Ev :=
  .gbegin .lineString tagged (δs.length + 2) idx ::
    (evList (coordEvs multi) 0 (first :: inner fo first δs) ++
      [coordEv multi last (δs.length + 2), .gend .lineString tagged idx])

theorem run_compressedLine (fo : FOps) (d : Dims) (e : Endian) (info : WkbInfo) (he : info.endian = e)
    (hz : info.hasZ = d.z) (hm : info.hasM = d.m) (hcmp : info.isCompressed = true) (multi tagged : Bool) (idx : Nat)
    (first : Coord) (hf : HasDims d first) (δs : List Delta) (hd : ∀ δ ∈ δs, δ.HasDims d) (last : Coord)
    (hl : HasDims d last) (hn : δs.length + 2 < 2 ^ 32) (rest : List Byte) :
    run multi (processLinestring fo info tagged idx) (compressedBytes e first δs last ++ rest)
      = (compressedLineEvs fo multi tagged idx first δs last, .ok ((), rest)) := by
  have hc : ∀ c, HasDims d c → ∀ rest i, run multi (processCoord info multi i) (coordBytes e c ++ rest)
      = ([coordEv multi c i], .ok (c, rest)) := by
    intro c hc rest i
    have := run_processCoord d e info.baseType { info with isCompressed := false } ⟨he, rfl, hz, hm, rfl⟩ c hc multi multi i rest
    exact this
  simp only [processLinestring, compressedBytes, bind_eq, List.append_assoc, he]
  rw [run_bind_ok_nil (run_readU32 multi e _ _ hn)]
  simp only [run_emitEv_bind, run_multiDim_bind, hcmp, true_and, gt_iff_lt, Nat.zero_lt_succ, if_true]
  rw [bind_assoc, run_bind_ok (hc first hf _ 0), bind_assoc]
  have hlen : δs.length + 2 - 1 - 1 = δs.length := by omega
  rw [hlen, run_bind_ok (run_inner fo d e info he hz hm multi δs hd 1 first first ⟨rfl, rfl, fun _ => rfl⟩ _), bind_assoc,
    run_bind_ok (hc last hl rest _)]
  simp [compressedLineEvs, evList, coordEvs]

theorem run_compressedHeader (d : Dims) (e : Endian) (srid : Int) (hs : isI32 srid) (mbr : List F64)
    (hm : mbr.length = 4) (c : Nat) (h : c ≤ 17) (multi : Bool) (rest : List Byte) :
    run multi readSpatialiteHeader ([0, orderMark e] ++ encI32 e srid ++ mbr.flatMap (encF64 e) ++ [0x7C]
      ++ encU32 e (1000000 + ogcCode d c) ++ rest) =
      ([], .ok ({ endian := e, baseType := WkbType.fromU32 c, hasZ := d.z, hasM := d.m,
                  srid := slSrid srid, isCompressed := decide (0 < ogcCode d c), envelope := mbr }, rest)) := by
  unfold readSpatialiteHeader
  have he : Endian.ofLE ((orderMark e).toNat % 2 == 1) = e := by cases e <;> rfl
  have ht : ((orderMark e).toNat / 128 % 2 == 1) = false := by cases e <;> rfl
  simp only [bind_eq, pure_eq, List.cons_append, List.nil_append, List.append_assoc, run_readByte_cons,
    if_true, he, ht]
  rw [run_bind_ok_nil (run_readI32 multi e srid _ hs)]
  simp only [Bool.false_eq_true, if_false]
  rw [← hm, run_bind_ok_nil (run_readF64s e mbr multi _)]
  simp only [run_readByte_cons, if_true]
  have hlt : ogcCode d c < 4000 := by unfold ogcCode; split <;> omega
  rw [run_bind_ok_nil (run_readU32 multi e _ _ (by omega))]
  have hmod : (1000000 + ogcCode d c) % 1000000 = ogcCode d c := by omega
  have hmod2 : (1000000 + ogcCode d c) % 1000 = ogcCode d c % 1000 := by omega
  simp [ogcCode_mod d c h, hmod, hmod2, ogcCode_z d c h, ogcCode_m d c h, slSrid]

/-- C06, compressed line strings: every vertex is recovered (first and last in full precision, the inner ones by
adding up the differences).  Partial because the index of the last coordinate is one too high
(`C08_spatialite_compressed_false`). -/
theorem C06_compressed_linestring_partial (fo : FOps) (d : Dims) (e : Endian) (srid : Int) (hs : isI32 srid) (mbr : List F64)
    (hm : mbr.length = 4) (first last : Coord) (δs : List Delta) (hf : HasDims d first) (hl : HasDims d last)
    (hd : ∀ δ ∈ δs, δ.HasDims d) (hn : δs.length + 2 < 2 ^ 32) (rest : List Byte) (multi : Bool) :
    run multi (processWkbTypeGeom fo .spatiaLite) (compressedBlob d e srid mbr 2 (compressedBytes e first δs last) ++ rest)
      = (.srid (if srid = 0 then none else some srid) :: compressedLineEvs fo multi true 0 first δs last,
          .ok ((), 0xFE :: rest)) := by
  have h1 := run_compressedHeader d e srid hs mbr hm 2 (by decide) multi (compressedBytes e first δs last ++ (0xFE :: rest))
  rw [show WkbType.fromU32 2 = .lineString from rfl] at h1
  have e1 : compressedBlob d e srid mbr 2 (compressedBytes e first δs last) ++ rest = [0, orderMark e] ++ encI32 e srid ++ mbr.flatMap (encF64 e) ++ [0x7C]
      ++ encU32 e (1000000 + ogcCode d 2) ++ (compressedBytes e first δs last ++ (0xFE :: rest)) := by
    simp [compressedBlob, List.append_assoc]
  rw [e1]
  simp only [processWkbTypeGeom, processSpatialiteGeom, processTop, bind_eq]
  rw [run_bind_ok_nil h1]
  simp only [run_emitEv_bind, processGeomN, wkbMaxNestingDepth, gt_iff_lt, Nat.not_lt_zero, if_false]
  have hpos : 0 < ogcCode d 2 := by unfold ogcCode; split <;> omega
  rw [run_compressedLine fo d e _ rfl rfl rfl (by simp [hpos]) multi true 0 first hf δs hd last hl hn]
  simp [slSrid]

/-- C06, compressed polygons: the same for every ring. -/
theorem C06_compressed_polygon_partial (fo : FOps) (d : Dims) (e : Endian) (srid : Int) (hs : isI32 srid) (mbr : List F64)
    (hm : mbr.length = 4) (rings : List (Coord × List Delta × Coord)) (hr : rings.length < 2 ^ 32)
    (hd : ∀ r ∈ rings, HasDims d r.1 ∧ HasDims d r.2.2 ∧ (∀ δ ∈ r.2.1, δ.HasDims d) ∧ r.2.1.length + 2 < 2 ^ 32)
    (rest : List Byte) (multi : Bool) :
    run multi (processWkbTypeGeom fo .spatiaLite) (compressedBlob d e srid mbr 3
        (encU32 e rings.length ++ rings.flatMap fun r => compressedBytes e r.1 r.2.1 r.2.2) ++ rest)
      = (.srid (if srid = 0 then none else some srid) ::
          bracket .polygon true 0 (fun i (r : Coord × List Delta × Coord) =>
            compressedLineEvs fo multi false i r.1 r.2.1 r.2.2) rings, .ok ((), 0xFE :: rest)) := by
  generalize hbody : (encU32 e rings.length ++ rings.flatMap fun r => compressedBytes e r.1 r.2.1 r.2.2) = body
  have h1 := run_compressedHeader d e srid hs mbr hm 3 (by decide) multi (body ++ (0xFE :: rest))
  rw [show WkbType.fromU32 3 = .polygon from rfl] at h1
  have e1 : compressedBlob d e srid mbr 3 body ++ rest = [0, orderMark e] ++ encI32 e srid ++ mbr.flatMap (encF64 e) ++ [0x7C]
      ++ encU32 e (1000000 + ogcCode d 3) ++ (body ++ (0xFE :: rest)) := by
    simp [compressedBlob, List.append_assoc]
  rw [e1]
  simp only [processWkbTypeGeom, processSpatialiteGeom, processTop, bind_eq]
  rw [run_bind_ok_nil h1]
  simp only [run_emitEv_bind, processGeomN, wkbMaxNestingDepth, gt_iff_lt, Nat.not_lt_zero, if_false]
  have hpos : 0 < ogcCode d 3 := by unfold ogcCode; split <;> omega
  simp only [processPolygon, bind_eq]
  rw [← hbody, List.append_assoc, run_bind_ok_nil (run_readU32 multi e _ _ hr)]
  simp only [run_emitEv_bind]
  have hloop : ∀ (rs : List (Coord × List Delta × Coord)) (i : Nat) (tail : List Byte) (info : WkbInfo),
      info.endian = e → info.hasZ = d.z → info.hasM = d.m → info.isCompressed = true → (∀ r ∈ rs, r ∈ rings) →
      run multi (loop rs.length i fun i => processLinestring fo info false i)
        ((rs.flatMap fun r => compressedBytes e r.1 r.2.1 r.2.2) ++ tail)
      = (evList (fun i (r : Coord × List Delta × Coord) => compressedLineEvs fo multi false i r.1 r.2.1 r.2.2) i rs,
          .ok ((), tail)) := by
    intro rs
    induction rs with
    | nil => intros; rfl
    | cons r rs ih =>
      intro i tail info he hz hm hc hmem
      obtain ⟨a, b, c, n⟩ := hd r (hmem r (by simp))
      simp only [List.length_cons, loop, List.flatMap_cons, List.append_assoc]
      rw [run_bind_ok (run_compressedLine fo d e info he hz hm hc multi false i r.1 a r.2.1 c r.2.2 b n _),
        ih (i + 1) tail info he hz hm hc (fun x hx => hmem x (by simp [hx]))]
      simp [evList]
  rw [run_bind_ok (hloop rings 0 (0xFE :: rest) _ rfl rfl rfl (by simp [hpos]) (fun _ h => h))]
  simp [slSrid, bracket]

/-- non-vacuity: a compressed XYZ line string with one inner vertex -/
example : HasDims ⟨true, false, false, false⟩ ⟨1#64, 2#64, some 3#64, none⟩ ∧
    (⟨1#32, 2#32, some 3#32, none⟩ : Delta).HasDims ⟨true, false, false, false⟩ := by
  simp [HasDims, Delta.HasDims]

end Geozero
