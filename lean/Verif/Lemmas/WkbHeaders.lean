import Verif.Lemmas.WkbRead

/- Helper lemmas: header decoding in each dialect. -/

namespace Geozero
open Prog Spec

theorem ofLE_orderMark (e : Endian) : Endian.ofLE (orderMark e != 0) = e := by
  cases e <;> rfl

theorem ogcCode_mod (d : Dims) (c : Nat) (h : c ≤ 17) : ogcCode d c % 1000 = c := by
  unfold ogcCode; split <;> omega

theorem ogcCode_lt (d : Dims) (c : Nat) (h : c ≤ 17) : ogcCode d c < 2 ^ 32 := by
  unfold ogcCode; split <;> omega

theorem ogcCode_z (d : Dims) (c : Nat) (h : c ≤ 17) :
    (ogcCode d c / 1000 == 1 || ogcCode d c / 1000 == 3) = d.z := by
  unfold ogcCode
  split <;> rename_i hz hm <;> rw [hz] <;> simp <;> omega

theorem ogcCode_m (d : Dims) (c : Nat) (h : c ≤ 17) :
    (ogcCode d c / 1000 == 2 || ogcCode d c / 1000 == 3) = d.m := by
  unfold ogcCode
  split <;> rename_i hz hm <;> rw [hm] <;> simp <;> omega

/-- the OGC header reader, on a header of the specification -/
theorem run_readWkbHeader (d : Dims) (e : Endian) (c : Nat) (h : c ≤ 17) (multi : Bool) (rest : List Byte) :
    run multi readWkbHeader (orderMark e :: encU32 e (ogcCode d c) ++ rest) =
      ([], .ok ({ endian := e, baseType := WkbType.fromU32 c, hasZ := d.z, hasM := d.m, srid := none,
                  isCompressed := false, envelope := [] }, rest)) := by
  unfold readWkbHeader
  simp only [bind_eq, pure_eq, List.cons_append, run_readByte_cons, ofLE_orderMark]
  rw [run_bind_ok_nil (run_readU32 multi e _ _ (ogcCode_lt d c h))]
  simp only [run_ret, ogcCode_mod d c h, ogcCode_z d c h, ogcCode_m d c h]

theorem hdrOk_ogc (d : Dims) : HdrOk d (ogcHeader d) readWkbNestedHeader := by
  intro outer e t0 _ e' c hb _ h2 hH multi rest
  unfold ogcHeader at hH
  subst hH
  exact ⟨_, ⟨rfl, rfl, rfl, rfl, rfl⟩, run_readWkbHeader d e' c h2 multi rest⟩

theorem ewkbCode_lt (d : Dims) (s : Bool) (c : Nat) (h : c ≤ 17) : ewkbCode d s c < 2 ^ 32 := by
  unfold ewkbCode; split <;> split <;> split <;> omega

theorem ewkbCode_mod (d : Dims) (s : Bool) (c : Nat) (h : c ≤ 17) : ewkbCode d s c % 256 = c := by
  unfold ewkbCode; split <;> split <;> split <;> omega

theorem testBitN_eq (n k : Nat) (b : Bool) (h : n / 2 ^ k % 2 = if b then 1 else 0) : testBitN n k = b := by
  unfold testBitN; rw [h]; cases b <;> rfl

theorem ewkbCode_z (d : Dims) (s : Bool) (c : Nat) (h : c ≤ 17) : testBitN (ewkbCode d s c) 31 = d.z := by
  apply testBitN_eq
  unfold ewkbCode
  cases d.z <;> cases d.m <;> cases s <;> simp only [Bool.false_eq_true, if_true, if_false] <;> omega

theorem ewkbCode_m (d : Dims) (s : Bool) (c : Nat) (h : c ≤ 17) : testBitN (ewkbCode d s c) 30 = d.m := by
  apply testBitN_eq
  unfold ewkbCode
  cases d.z <;> cases d.m <;> cases s <;> simp only [Bool.false_eq_true, if_true, if_false] <;> omega

theorem ewkbCode_s (d : Dims) (s : Bool) (c : Nat) (h : c ≤ 17) : testBitN (ewkbCode d s c) 29 = s := by
  apply testBitN_eq
  unfold ewkbCode
  cases d.z <;> cases d.m <;> cases s <;> simp only [Bool.false_eq_true, if_true, if_false] <;> omega

theorem run_readEwkbHeader (d : Dims) (e : Endian) (srid : Option Int) (hs : ∀ s ∈ srid, isI32 s)
    (c : Nat) (h : c ≤ 17) (multi : Bool) (rest : List Byte) :
    run multi readEwkbHeader (orderMark e :: encU32 e (ewkbCode d srid.isSome c)
        ++ (srid.toList.flatMap (encI32 e) ++ rest)) =
      ([], .ok ({ endian := e, baseType := WkbType.fromU32 c, hasZ := d.z, hasM := d.m, srid := srid,
                  isCompressed := false, envelope := [] }, rest)) := by
  unfold readEwkbHeader
  simp only [bind_eq, pure_eq, List.cons_append, run_readByte_cons, ofLE_orderMark]
  rw [run_bind_ok_nil (run_readU32 multi e _ _ (ewkbCode_lt d _ c h))]
  simp only [ewkbCode_mod d _ c h, ewkbCode_z d _ c h, ewkbCode_m d _ c h, ewkbCode_s d _ c h]
  cases srid with
  | none => simp
  | some s =>
    simp only [Option.isSome_some, if_true, Option.toList_some, List.flatMap_cons, List.flatMap_nil,
      List.append_nil, bind_assoc]
    rw [run_bind_ok_nil (run_readI32 multi e s _ (hs s rfl))]
    simp

theorem hdrOk_ewkb (d : Dims) : HdrOk d (ewkbHeader d) readEwkbNestedHeader := by
  intro outer e t0 _ e' c hb _ h2 hH multi rest
  unfold ewkbHeader at hH
  subst hH
  exact ⟨_, ⟨rfl, rfl, rfl, rfl, rfl⟩, run_readEwkbHeader d e' none (by simp) c h2 multi rest⟩

theorem run_readF64s (e : Endian) (env : List F64) (multi : Bool) (rest : List Byte) :
    run multi (readF64s e env.length) (env.flatMap (encF64 e) ++ rest) = ([], .ok (env, rest)) := by
  induction env with
  | nil => rfl
  | cons x xs ih =>
    simp only [List.length_cons, readF64s, bind_eq, pure_eq, List.flatMap_cons, List.append_assoc]
    rw [run_bind_ok_nil (run_readF64 multi e x _), run_bind_ok_nil ih]
    rfl

theorem hdrOk_spatialite (d : Dims) : HdrOk d (spatialiteHeader d) readSpatialiteNestedHeader := by
  intro outer e t0 ho e' c hb _ h2 hH multi rest
  unfold spatialiteHeader at hH
  obtain ⟨rfl, rfl⟩ := hH
  refine ⟨{ endian := e', baseType := WkbType.fromU32 c, hasZ := d.z, hasM := d.m, srid := outer.srid,
            isCompressed := false, envelope := [] }, ⟨rfl, rfl, rfl, rfl, rfl⟩, ?_⟩
  unfold readSpatialiteNestedHeader
  simp only [bind_eq, pure_eq, List.cons_append, run_readByte_cons, if_true, ho.endian]
  rw [run_bind_ok_nil (run_readU32 multi e' _ _ (ogcCode_lt d c h2))]
  have : ¬ ogcCode d c > 1000000 := by unfold ogcCode; split <;> omega
  simp [ogcCode_mod d c h2, this, ho.z, ho.m]

/-- GeoPackage flags byte of the specification -/
theorem gpkgFlags_ok (e : Endian) (code n : Nat) (extended empty : Bool) (h : EnvelopeCode code n) :
    let f : Byte := UInt8.ofNat ((if e = .le then 1 else 0) + 2 * code + (if empty then 16 else 0)
          + (if extended then 32 else 0))
    gpkgEnvLen f = some n ∧ Endian.ofLE (f.toNat % 2 == 1) = e := by
  unfold EnvelopeCode at h
  rcases h with ⟨rfl, rfl⟩ | ⟨rfl, rfl⟩ | ⟨rfl, rfl⟩ | ⟨rfl, rfl⟩ | ⟨rfl, rfl⟩ <;>
    cases e <;> cases extended <;> cases empty <;> decide

theorem run_readGpkgHeader (d : Dims) (he e : Endian) (srid : Int) (hs : isI32 srid) (env : List F64)
    (hb : List Byte) (hhb : GpkgHeader he srid env hb)
    (c : Nat) (h : c ≤ 17) (multi : Bool) (rest : List Byte) :
    run multi readGpkgHeader (hb ++ (orderMark e :: encU32 e (ogcCode d c) ++ rest)) =
      ([], .ok ({ endian := he, baseType := WkbType.fromU32 c, hasZ := d.z, hasM := d.m, srid := some srid,
                  isCompressed := false, envelope := env }, rest)) := by
  obtain ⟨version, code, extended, empty, henv, rfl⟩ := hhb
  obtain ⟨h1, h2⟩ := gpkgFlags_ok he code env.length extended empty henv
  unfold readGpkgHeader
  simp only [bind_eq, pure_eq, List.cons_append, List.nil_append, List.append_assoc, run_readByte_cons,
    and_self, if_true, h1, h2]
  rw [run_bind_ok_nil (run_readI32 multi he srid _ hs), run_bind_ok_nil (run_readF64s he env multi _)]
  have := run_readWkbHeader d e c h multi rest
  simp only [List.cons_append] at this
  rw [run_bind_ok_nil this]
  rfl

theorem run_readMysqlHeader (d : Dims) (srid : Nat) (hs : srid < 2 ^ 31)
    (c : Nat) (h : c ≤ 17) (multi : Bool) (rest : List Byte) :
    run multi readMysqlHeader (encU32 .le srid ++ (orderMark .le :: encU32 .le (ogcCode d c) ++ rest)) =
      ([], .ok ({ endian := .le, baseType := WkbType.fromU32 c, hasZ := d.z, hasM := d.m,
                  srid := some (srid : Int), isCompressed := false, envelope := [] }, rest)) := by
  unfold readMysqlHeader
  simp only [bind_eq, pure_eq]
  rw [run_bind_ok_nil (run_readU32 multi .le srid _ (by omega))]
  simp only [hs, if_true]
  rw [run_bind_ok_nil (run_readWkbHeader d .le c h multi rest)]
  rfl

/-- SRID 0 in a SpatiaLite blob means "none" to the reader -/
def slSrid (s : Int) : Option Int := if s = 0 then none else some s

theorem run_readSpatialiteHeader (d : Dims) (e : Endian) (srid : Int) (hs : isI32 srid) (mbr : List F64)
    (hm : mbr.length = 4) (c : Nat) (h : c ≤ 17) (multi : Bool) (rest : List Byte) :
    run multi readSpatialiteHeader ([0, orderMark e] ++ encI32 e srid ++ mbr.flatMap (encF64 e) ++ [0x7C]
      ++ encU32 e (ogcCode d c) ++ rest) =
      ([], .ok ({ endian := e, baseType := WkbType.fromU32 c, hasZ := d.z, hasM := d.m,
                  srid := slSrid srid, isCompressed := false, envelope := mbr }, rest)) := by
  unfold readSpatialiteHeader
  have he : Endian.ofLE ((orderMark e).toNat % 2 == 1) = e := by cases e <;> rfl
  have ht : ((orderMark e).toNat / 128 % 2 == 1) = false := by cases e <;> rfl
  simp only [bind_eq, pure_eq, List.cons_append, List.nil_append, List.append_assoc, run_readByte_cons,
    if_true, he, ht]
  rw [run_bind_ok_nil (run_readI32 multi e srid _ hs)]
  simp only [Bool.false_eq_true, if_false]
  rw [← hm, run_bind_ok_nil (run_readF64s e mbr multi _)]
  simp only [run_readByte_cons, if_true]
  rw [run_bind_ok_nil (run_readU32 multi e _ _ (ogcCode_lt d c h))]
  have hn : ¬ ogcCode d c > 1000000 := by unfold ogcCode; split <;> omega
  have hmod : ogcCode d c % 1000000 = ogcCode d c := by
    apply Nat.mod_eq_of_lt; unfold ogcCode; split <;> omega
  simp [ogcCode_mod d c h, hn, hmod, ogcCode_z d c h, ogcCode_m d c h, slSrid]

end Geozero
