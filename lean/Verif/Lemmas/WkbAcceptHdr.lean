import Verif.Lemmas.WkbAccept
import Verif.Props.WkbAny

/- Helper lemmas: exactly which headers the WKB readers accept, and what refusing compressed types
changes. -/

namespace Geozero
open Prog Spec

theorem ofLE_mark (b : Byte) : Endian.ofLE (b != 0) = lenientOrder b := by
  unfold Endian.ofLE lenientOrder
  by_cases h : b = 0 <;> simp [h]

theorem ofLE_flag (b : Byte) :
    Endian.ofLE (b.toNat % 2 == 1) = (if b.toNat % 2 = 1 then Endian.le else Endian.be) := by
  unfold Endian.ofLE
  by_cases h : b.toNat % 2 = 1 <;> simp [h]

/-- the header record of an OGC header -/
def ogcInfo (mark : Byte) (word : Nat) : WkbInfo :=
  { endian := lenientOrder mark
    baseType := WkbType.fromU32 (word % 1000)
    hasZ := word / 1000 == 1 || word / 1000 == 3
    hasM := word / 1000 == 2 || word / 1000 == 3
    srid := none, isCompressed := false, envelope := [] }

theorem acc_wkbHeader {multi : Bool} (info : WkbInfo) (evs : List Ev) (u : List Byte) :
    Acc multi readWkbHeader info evs u ↔ evs = [] ∧
      ∃ mark word, word < 2 ^ 32 ∧ info = ogcInfo mark word ∧ u = mark :: encU32 (lenientOrder mark) word := by
  unfold readWkbHeader
  simp only [bind_eq, pure_eq, ofLE_mark]
  rw [acc_bind_silent (P := fun a u => u = [a]) acc_readByte]
  constructor
  · rintro ⟨mark, u1, u2, rfl, rfl, h⟩
    rw [acc_bind_silent (acc_readU32 _)] at h
    obtain ⟨word, u3, u4, rfl, ⟨hw, rfl⟩, h⟩ := h
    obtain ⟨rfl, rfl, rfl⟩ := acc_ret.mp h
    exact ⟨rfl, mark, word, hw, rfl, by simp⟩
  · rintro ⟨rfl, mark, word, hw, rfl, rfl⟩
    refine ⟨mark, [mark], _, rfl, rfl, ?_⟩
    rw [acc_bind_silent (acc_readU32 _)]
    exact ⟨word, _, [], (List.append_nil _).symm, ⟨hw, rfl⟩, acc_ret.mpr ⟨rfl, rfl, rfl⟩⟩

theorem thousands_iff (k : Nat) (z m : Bool) :
    ThousandsDims k z m ↔ z = (k == 1 || k == 3) ∧ m = (k == 2 || k == 3) := by
  unfold ThousandsDims
  constructor
  · rintro ⟨h1, h2⟩
    exact ⟨Bool.eq_iff_iff.mpr (by rw [h1]; simp), Bool.eq_iff_iff.mpr (by rw [h2]; simp)⟩
  · rintro ⟨rfl, rfl⟩
    simp

theorem frame_ext {f f' : Frame} (h1 : f.order = f'.order) (h2 : f.z = f'.z) (h3 : f.m = f'.m) : f = f' := by
  cases f; cases f'; simp_all

theorem hdrExact_ogc : HdrExact lenientOgc readWkbNestedHeader where
  sound := by
    intro multi parent info evs u h
    obtain ⟨rfl, mark, word, hw, rfl, rfl⟩ := (acc_wkbHeader info evs u).mp h
    exact ⟨rfl, rfl, word % 1000, rfl, mark, word, hw, rfl, rfl, (thousands_iff _ _ _).mpr ⟨rfl, rfl⟩, rfl⟩
  complete := by
    rintro multi parent f code u ⟨mark, word, hw, ho, rfl, hd, rfl⟩
    obtain ⟨hz, hm⟩ := (thousands_iff _ _ _).mp hd
    refine ⟨ogcInfo mark word, rfl, frame_ext ho.symm hz.symm hm.symm, rfl, ?_⟩
    exact (acc_wkbHeader _ _ _).mpr ⟨rfl, mark, word, hw, rfl, by rw [ho]⟩

/-- the header record of an EWKB header -/
def ewkbInfo (mark : Byte) (word : Nat) (srid : Option Int) : WkbInfo :=
  { endian := lenientOrder mark
    baseType := WkbType.fromU32 (word % 256)
    hasZ := testBitN word 31
    hasM := testBitN word 30
    srid := srid, isCompressed := false, envelope := [] }

theorem testBitN_iff (w k : Nat) : testBitN w k = true ↔ HasBit w k := by
  simp [testBitN, HasBit]

private theorem acc_optI32 {multi : Bool} (b : Bool) (e : Endian) (v : Option Int) (evs : List Ev) (u : List Byte) :
    Acc multi (if b = true then Prog.bind (readI32 e) fun v => ret (some v) else ret none) v evs u ↔
      evs = [] ∧ (v.isSome = b ∧ (∀ s ∈ v, isI32 s) ∧ u = v.toList.flatMap (encI32 e)) := by
  cases b with
  | false =>
    simp only [Bool.false_eq_true, if_false, acc_ret]
    constructor
    · rintro ⟨rfl, rfl, rfl⟩; simp
    · rintro ⟨rfl, h, _, rfl⟩
      cases v <;> simp_all
  | true =>
    simp only [if_true]
    rw [acc_bind_silent (acc_readI32 e)]
    constructor
    · rintro ⟨a, u1, u2, rfl, ⟨hi, rfl⟩, h⟩
      obtain ⟨rfl, rfl, rfl⟩ := acc_ret.mp h
      simp [hi]
    · rintro ⟨rfl, h, hi, rfl⟩
      cases v with
      | none => simp at h
      | some v => exact ⟨v, encI32 e v, [], by simp, ⟨hi v rfl, rfl⟩, acc_ret.mpr ⟨rfl, rfl, rfl⟩⟩

theorem acc_ewkbHeader {multi : Bool} (info : WkbInfo) (evs : List Ev) (u : List Byte) :
    Acc multi readEwkbHeader info evs u ↔ evs = [] ∧
      ∃ mark word srid, word < 2 ^ 32 ∧ srid.isSome = testBitN word 29 ∧ (∀ s ∈ srid, isI32 s) ∧
        info = ewkbInfo mark word srid ∧
        u = mark :: encU32 (lenientOrder mark) word ++ srid.toList.flatMap (encI32 (lenientOrder mark)) := by
  unfold readEwkbHeader
  simp only [bind_eq, pure_eq, ofLE_mark]
  rw [acc_bind_silent (P := fun a u => u = [a]) acc_readByte]
  constructor
  · rintro ⟨mark, u1, u2, rfl, rfl, h⟩
    rw [acc_bind_silent (acc_readU32 _)] at h
    obtain ⟨word, u3, u4, rfl, ⟨hw, rfl⟩, h⟩ := h
    rw [acc_bind_silent (acc_optI32 _ _)] at h
    obtain ⟨srid, u5, u6, rfl, ⟨h1, h2, rfl⟩, h⟩ := h
    obtain ⟨rfl, rfl, rfl⟩ := acc_ret.mp h
    exact ⟨rfl, mark, word, srid, hw, h1, h2, rfl, by simp⟩
  · rintro ⟨rfl, mark, word, srid, hw, h1, h2, rfl, rfl⟩
    refine ⟨mark, [mark], _, rfl, rfl, ?_⟩
    rw [acc_bind_silent (acc_readU32 _)]
    refine ⟨word, _, _, rfl, ⟨hw, rfl⟩, ?_⟩
    rw [acc_bind_silent (acc_optI32 _ _)]
    exact ⟨srid, _, [], by simp, ⟨h1, h2, rfl⟩, acc_ret.mpr ⟨rfl, rfl, rfl⟩⟩

/-- `top` accepts exactly the outermost headers `P` describes. -/
structure TopExact (P : Option Int → Frame → Nat → List Byte → Prop) (top : Prog WkbInfo) : Prop where
  sound : ∀ {multi info evs u}, Acc multi top info evs u →
    evs = [] ∧ info.isCompressed = false ∧
      ∃ code, info.baseType = WkbType.fromU32 code ∧ P info.srid info.frame code u
  complete : ∀ (multi : Bool) {srid f code u}, P srid f code u →
    ∃ info : WkbInfo, info.isCompressed = false ∧ info.srid = srid ∧ info.frame = f ∧
      info.baseType = WkbType.fromU32 code ∧ Acc multi top info [] u

theorem topExact_ogc : TopExact (fun srid f code u => srid = none ∧ lenientOgc f f code u) readWkbHeader where
  sound := by
    intro multi info evs u h
    obtain ⟨rfl, mark, word, hw, rfl, rfl⟩ := (acc_wkbHeader info evs u).mp h
    exact ⟨rfl, rfl, word % 1000, rfl, rfl, mark, word, hw, rfl, rfl, (thousands_iff _ _ _).mpr ⟨rfl, rfl⟩, rfl⟩
  complete := by
    rintro multi srid f code u ⟨rfl, mark, word, hw, ho, rfl, hd, rfl⟩
    obtain ⟨hz, hm⟩ := (thousands_iff _ _ _).mp hd
    refine ⟨ogcInfo mark word, rfl, rfl, frame_ext ho.symm hz.symm hm.symm, rfl, ?_⟩
    exact (acc_wkbHeader _ _ _).mpr ⟨rfl, mark, word, hw, rfl, by rw [ho]⟩

theorem topExact_ewkb : TopExact (fun srid f code u => LenientEwkbHeader f code srid u) readEwkbHeader where
  sound := by
    intro multi info evs u h
    obtain ⟨rfl, mark, word, srid, hw, h1, h2, rfl, rfl⟩ := (acc_ewkbHeader info evs u).mp h
    exact ⟨rfl, rfl, word % 256, rfl, mark, word, hw, rfl, rfl, testBitN_iff _ _, testBitN_iff _ _,
      by rw [← testBitN_iff, ← h1]; exact Iff.rfl, h2, rfl⟩
  complete := by
    rintro multi srid f code u ⟨mark, word, hw, ho, rfl, hz, hm, hs, hi, rfl⟩
    have key : ∀ (b : Bool) k, (b = true ↔ HasBit word k) → b = testBitN word k := by
      intro b k h
      rw [← testBitN_iff] at h
      exact Bool.eq_iff_iff.mpr h
    refine ⟨ewkbInfo mark word srid, rfl, rfl, frame_ext ho.symm (key _ _ hz).symm (key _ _ hm).symm, rfl, ?_⟩
    exact (acc_ewkbHeader _ _ _).mpr ⟨rfl, mark, word, srid, hw, key _ _ hs, hi, rfl, by rw [ho]⟩

theorem hdrExact_ewkb : HdrExact lenientEwkb readEwkbNestedHeader where
  sound := by
    intro multi parent info evs u h
    obtain ⟨h1, h2, code, h3, h4⟩ := topExact_ewkb.sound h
    exact ⟨h1, h2, code, h3, _, h4⟩
  complete := by
    rintro multi parent f code u ⟨srid, h⟩
    obtain ⟨info, h1, _, h2, h3, h4⟩ := topExact_ewkb.complete multi h
    exact ⟨info, h1, h2, h3, h4⟩

theorem acc_readF64s {multi : Bool} (e : Endian) (n : Nat) (xs : List F64) (evs : List Ev) (u : List Byte) :
    Acc multi (readF64s e n) xs evs u ↔ evs = [] ∧ (xs.length = n ∧ u = xs.flatMap (encF64 e)) := by
  induction n generalizing xs evs u with
  | zero =>
    show Acc multi (ret []) xs evs u ↔ _
    rw [acc_ret]
    constructor
    · rintro ⟨rfl, rfl, rfl⟩; simp
    · rintro ⟨rfl, h, rfl⟩
      have := List.eq_nil_of_length_eq_zero h
      subst this
      simp
  | succ n ih =>
    simp only [readF64s, bind_eq, pure_eq]
    rw [acc_bind_silent (acc_readF64 e)]
    constructor
    · rintro ⟨x, u1, u2, rfl, rfl, h⟩
      rw [acc_bind_silent ih] at h
      obtain ⟨ys, u3, u4, rfl, ⟨hl, rfl⟩, h⟩ := h
      obtain ⟨rfl, rfl, rfl⟩ := acc_ret.mp h
      exact ⟨rfl, by simp [hl], by simp⟩
    · rintro ⟨rfl, hl, rfl⟩
      cases xs with
      | nil => simp at hl
      | cons x xs =>
        refine ⟨x, _, _, by rw [List.flatMap_cons], rfl, ?_⟩
        rw [acc_bind_silent ih]
        exact ⟨xs, _, [], by simp, ⟨by simpa using hl, rfl⟩, acc_ret.mpr ⟨rfl, rfl, rfl⟩⟩

theorem gpkgEnvLen_iff (flags : Byte) (n : Nat) :
    gpkgEnvLen flags = some n ↔ EnvelopeCode (flags.toNat / 2 % 8) n := by
  unfold gpkgEnvLen EnvelopeCode
  split <;> simp_all <;> omega

/-- what a GeoPackage header says -/
def GpkgTop (srid : Option Int) (f : Frame) (code : Nat) (u : List Byte) : Prop :=
  ∃ (s : Int) (version flags : Byte) (env : List F64) (fi : Frame) (hb : List Byte), srid = some s ∧
    f.order = (if flags.toNat % 2 = 1 then Endian.le else Endian.be) ∧ f.z = fi.z ∧ f.m = fi.m ∧
    EnvelopeCode (flags.toNat / 2 % 8) env.length ∧ isI32 s ∧ lenientOgc fi fi code hb ∧
    u = [0x47, 0x50, version, flags] ++ encI32 f.order s ++ env.flatMap (encF64 f.order) ++ hb

theorem topExact_gpkg : TopExact GpkgTop readGpkgHeader where
  sound := by
    intro multi info evs u h
    unfold readGpkgHeader at h
    simp only [bind_eq, pure_eq, ofLE_flag] at h
    rw [acc_bind_silent (P := fun a u => u = [a]) acc_readByte] at h
    obtain ⟨m0, u1, u2, rfl, rfl, h⟩ := h
    rw [acc_bind_silent (P := fun a u => u = [a]) acc_readByte] at h
    obtain ⟨m1, u1, u2, rfl, rfl, h⟩ := h
    split at h
    case isFalse => exact absurd h acc_fail.mp
    case isTrue hm =>
    obtain ⟨rfl, rfl⟩ := hm
    rw [acc_bind_silent (P := fun a u => u = [a]) acc_readByte] at h
    obtain ⟨version, u1, u2, rfl, rfl, h⟩ := h
    rw [acc_bind_silent (P := fun a u => u = [a]) acc_readByte] at h
    obtain ⟨flags, u1, u2, rfl, rfl, h⟩ := h
    split at h
    · exact absurd h acc_fail.mp
    rename_i n hn
    rw [acc_bind_silent (acc_readI32 _)] at h
    obtain ⟨s, u1, u2, rfl, ⟨hs, rfl⟩, h⟩ := h
    rw [acc_bind_silent (acc_readF64s _ _)] at h
    obtain ⟨env, u1, u2, rfl, ⟨rfl, rfl⟩, h⟩ := h
    rw [acc_bind] at h
    obtain ⟨ogc, e1, e2, u1, u2, rfl, rfl, h, h'⟩ := h
    obtain ⟨rfl, rfl, rfl⟩ := acc_ret.mp h'
    obtain ⟨rfl, _, code, hb, _, hP⟩ := topExact_ogc.sound h
    exact ⟨rfl, rfl, code, hb, s, version, flags, env, ogc.frame, u1, rfl, rfl, rfl, rfl,
      (gpkgEnvLen_iff _ _).mp hn, hs, hP, by simp [WkbInfo.frame]⟩
  complete := by
    rintro multi srid f code u ⟨s, version, flags, env, fi, hb, rfl, ho, hz, hm, hc, hs, hP, rfl⟩
    obtain ⟨ogc, h1, h2, rfl, h4, h5⟩ := topExact_ogc.complete multi (srid := none) ⟨rfl, hP⟩
    refine ⟨⟨f.order, ogc.baseType, ogc.hasZ, ogc.hasM, some s, env, false⟩, rfl, rfl, frame_ext rfl hz.symm hm.symm, h4, ?_⟩
    unfold readGpkgHeader
    simp only [bind_eq, pure_eq, ofLE_flag, ← ho]
    rw [acc_bind_silent (P := fun a u => u = [a]) acc_readByte]
    refine ⟨0x47, _, _, by simp only [List.cons_append, List.nil_append, List.append_assoc]; exact List.singleton_append.symm, rfl, ?_⟩
    rw [acc_bind_silent (P := fun a u => u = [a]) acc_readByte]
    refine ⟨0x50, _, _, List.singleton_append.symm, rfl, ?_⟩
    rw [if_pos ⟨rfl, rfl⟩]
    rw [acc_bind_silent (P := fun a u => u = [a]) acc_readByte]
    refine ⟨version, _, _, List.singleton_append.symm, rfl, ?_⟩
    rw [acc_bind_silent (P := fun a u => u = [a]) acc_readByte]
    refine ⟨flags, _, _, List.singleton_append.symm, rfl, ?_⟩
    rw [(gpkgEnvLen_iff flags env.length).mpr hc]
    simp only
    rw [acc_bind_silent (acc_readI32 _)]
    refine ⟨s, _, _, rfl, ⟨hs, by rw [← ho]⟩, ?_⟩
    rw [acc_bind_silent (acc_readF64s _ _)]
    refine ⟨env, _, _, rfl, ⟨rfl, by rw [← ho]⟩, ?_⟩
    rw [acc_bind]
    refine ⟨ogc, [], [], hb, [], rfl, by simp, h5, acc_ret.mpr ⟨?_, rfl, rfl⟩⟩
    rw [← ho]

/-- what a MySQL header says -/
def MysqlTop (srid : Option Int) (f : Frame) (code : Nat) (u : List Byte) : Prop :=
  ∃ (s : Nat) (hb : List Byte), srid = some (s : Int) ∧ s < 2 ^ 31 ∧ f.order = .le ∧ lenientOgc f f code hb ∧
    u = encU32 .le s ++ hb

theorem topExact_mysql : TopExact MysqlTop readMysqlHeader where
  sound := by
    intro multi info evs u h
    unfold readMysqlHeader at h
    simp only [bind_eq, pure_eq] at h
    rw [acc_bind_silent (acc_readU32 _)] at h
    obtain ⟨s, u1, u2, rfl, ⟨_, rfl⟩, h⟩ := h
    split at h
    case isFalse => exact absurd h acc_fail.mp
    case isTrue hs =>
    rw [acc_bind] at h
    obtain ⟨ogc, e1, e2, u1, u2, rfl, rfl, h, h'⟩ := h
    obtain ⟨rfl, hc, code, hb, _, hP⟩ := topExact_ogc.sound h
    split at h'
    case isFalse => exact absurd h' acc_fail.mp
    case isTrue he =>
    obtain ⟨rfl, rfl, rfl⟩ := acc_ret.mp h'
    exact ⟨rfl, hc, code, hb, s, u1, rfl, hs, he, hP, by simp⟩
  complete := by
    rintro multi srid f code u ⟨s, hb, rfl, hs, ho, hP, rfl⟩
    obtain ⟨ogc, h1, h2, rfl, h4, h5⟩ := topExact_ogc.complete multi (srid := none) ⟨rfl, hP⟩
    refine ⟨{ ogc with srid := some (s : Int) }, h1, rfl, rfl, h4, ?_⟩
    unfold readMysqlHeader
    simp only [bind_eq, pure_eq]
    rw [acc_bind_silent (acc_readU32 _)]
    refine ⟨s, _, _, rfl, ⟨by omega, rfl⟩, ?_⟩
    rw [if_pos hs, acc_bind]
    refine ⟨ogc, [], [], hb, [], rfl, by simp, h5, ?_⟩
    have : ogc.endian = .le := ho
    rw [if_pos this]
    exact acc_ret.mpr ⟨rfl, rfl, rfl⟩

theorem acc_refuse {multi : Bool} (p : Prog WkbInfo) (info : WkbInfo) (evs : List Ev) (u : List Byte) :
    Acc multi (refuseCompressed p) info evs u ↔ Acc multi p info evs u ∧ info.isCompressed = false := by
  unfold refuseCompressed
  simp only [bind_eq, pure_eq]
  rw [acc_bind]
  constructor
  · rintro ⟨i, e1, e2, u1, u2, rfl, rfl, h, h'⟩
    split at h'
    · exact absurd h' acc_fail.mp
    · rename_i hc
      obtain ⟨rfl, rfl, rfl⟩ := acc_ret.mp h'
      exact ⟨by simpa using h, by simpa using hc⟩
  · rintro ⟨h, hc⟩
    refine ⟨info, evs, [], u, [], by simp, by simp, h, ?_⟩
    rw [if_neg (by simp [hc])]
    exact acc_ret.mpr ⟨rfl, rfl, rfl⟩

theorem hdrExact_spatialite :
    HdrExact lenientSpatialite (fun i => refuseCompressed (readSpatialiteNestedHeader i)) where
  sound := by
    intro multi parent info evs u h0
    obtain ⟨h, hc⟩ := (acc_refuse _ _ _ _).mp h0
    clear h0
    unfold readSpatialiteNestedHeader at h
    simp only [bind_eq, pure_eq] at h
    rw [acc_bind_silent (P := fun a u => u = [a]) acc_readByte] at h
    obtain ⟨m0, u1, u2, rfl, rfl, h⟩ := h
    split at h
    case isFalse => exact absurd h acc_fail.mp
    case isTrue hm =>
    subst hm
    rw [acc_bind_silent (acc_readU32 _)] at h
    obtain ⟨w, u1, u2, rfl, ⟨_, rfl⟩, h⟩ := h
    obtain ⟨rfl, rfl, rfl⟩ := acc_ret.mp h
    simp only [decide_eq_false_iff_not, Nat.not_lt] at hc
    exact ⟨rfl, by simpa using hc, w % 1000, rfl, rfl, w, by omega, rfl, by simp [WkbInfo.frame]⟩
  complete := by
    rintro multi parent f code u ⟨rfl, w, hw, rfl, rfl⟩
    refine ⟨⟨parent.endian, WkbType.fromU32 (w % 1000), parent.hasZ, parent.hasM, parent.srid, [], decide (w > 1000000)⟩,
      by simp; omega, rfl, rfl, ?_⟩
    rw [acc_refuse]
    refine ⟨?_, by simp; omega⟩
    unfold readSpatialiteNestedHeader
    simp only [bind_eq, pure_eq]
    rw [acc_bind_silent (P := fun a u => u = [a]) acc_readByte]
    refine ⟨0x69, _, _, List.singleton_append.symm, rfl, ?_⟩
    rw [if_pos rfl, acc_bind_silent (acc_readU32 _)]
    exact ⟨w, _, [], (List.append_nil _).symm, ⟨by omega, rfl⟩, acc_ret.mpr ⟨rfl, rfl, rfl⟩⟩

/-- what a SpatiaLite header without compression says -/
def SpatialiteTop (srid : Option Int) (f : Frame) (code : Nat) (u : List Byte) : Prop :=
  ∃ (s : Int) (flags : Byte), srid = (if s = 0 then none else some s) ∧ isI32 s ∧
    f.order = (if flags.toNat % 2 = 1 then Endian.le else Endian.be) ∧
    ((128 ≤ flags.toNat ∧ code = 1 ∧ ∃ d : Byte, (f.z = true ↔ d = 2 ∨ d = 4) ∧ (f.m = true ↔ d = 3 ∨ d = 4) ∧
        u = [0, flags] ++ encI32 f.order s ++ [d]) ∨
      (flags.toNat < 128 ∧ ∃ (mbr : List F64) (word : Nat), mbr.length = 4 ∧ word ≤ 1000000 ∧
        code = word % 1000 ∧ ThousandsDims (word % 1000000 / 1000) f.z f.m ∧
        u = [0, flags] ++ encI32 f.order s ++ mbr.flatMap (encF64 f.order) ++ [0x7C] ++ encU32 f.order word))

theorem bit7_iff (b : Byte) : (b.toNat / 128 % 2 == 1) = true ↔ 128 ≤ b.toNat := by
  have := b.toNat_lt
  simp
  omega

theorem topExact_spatialite : TopExact SpatialiteTop (refuseCompressed readSpatialiteHeader) where
  sound := by
    intro multi info evs u h0
    obtain ⟨h, hc⟩ := (acc_refuse _ _ _ _).mp h0
    clear h0
    unfold readSpatialiteHeader at h
    simp only [bind_eq, pure_eq, ofLE_flag] at h
    rw [acc_bind_silent (P := fun a u => u = [a]) acc_readByte] at h
    obtain ⟨m0, u1, u2, rfl, rfl, h⟩ := h
    split at h
    case isFalse => exact absurd h acc_fail.mp
    case isTrue hm =>
    subst hm
    rw [acc_bind_silent (P := fun a u => u = [a]) acc_readByte] at h
    obtain ⟨flags, u1, u2, rfl, rfl, h⟩ := h
    rw [acc_bind_silent (acc_readI32 _)] at h
    obtain ⟨s, u1, u2, rfl, ⟨hs, rfl⟩, h⟩ := h
    split at h
    case isTrue ht =>
      rw [bit7_iff] at ht
      rw [acc_bind_silent (P := fun a u => u = [a]) acc_readByte] at h
      obtain ⟨d, u1, u2, rfl, rfl, h⟩ := h
      obtain ⟨rfl, rfl, rfl⟩ := acc_ret.mp h
      exact ⟨rfl, rfl, 1, rfl, s, flags, rfl, hs, rfl, Or.inl ⟨ht, rfl, d, by simp [WkbInfo.frame],
        by simp [WkbInfo.frame], by simp [WkbInfo.frame]⟩⟩
    case isFalse ht =>
      rw [bit7_iff] at ht
      rw [acc_bind_silent (acc_readF64s _ _)] at h
      obtain ⟨mbr, u1, u2, rfl, ⟨hl, rfl⟩, h⟩ := h
      rw [acc_bind_silent (P := fun a u => u = [a]) acc_readByte] at h
      obtain ⟨m1, u1, u2, rfl, rfl, h⟩ := h
      split at h
      case isFalse => exact absurd h acc_fail.mp
      case isTrue hm =>
      subst hm
      rw [acc_bind_silent (acc_readU32 _)] at h
      obtain ⟨w, u1, u2, rfl, ⟨_, rfl⟩, h⟩ := h
      obtain ⟨rfl, rfl, rfl⟩ := acc_ret.mp h
      simp only [decide_eq_false_iff_not, Nat.not_lt] at hc
      exact ⟨rfl, by simpa using hc, w % 1000, rfl, s, flags, rfl, hs, rfl, Or.inr ⟨by omega, mbr, w, hl, by omega, rfl,
        (thousands_iff _ _ _).mpr ⟨rfl, rfl⟩, by simp [WkbInfo.frame]⟩⟩
  complete := by
    rintro multi srid f code u ⟨s, flags, rfl, hs, ho, h⟩
    rcases h with ⟨hf, rfl, d, hz, hm, rfl⟩ | ⟨hf, mbr, w, hl, hw, rfl, hd, rfl⟩
    · have hz' : f.z = (d == 2 || d == 4) := Bool.eq_iff_iff.mpr (by rw [hz]; simp)
      have hm' : f.m = (d == 3 || d == 4) := Bool.eq_iff_iff.mpr (by rw [hm]; simp)
      refine ⟨⟨f.order, .point, d == 2 || d == 4, d == 3 || d == 4, if s = 0 then none else some s, [], false⟩,
        rfl, rfl, frame_ext rfl hz'.symm hm'.symm, rfl, ?_⟩
      rw [acc_refuse]
      refine ⟨?_, rfl⟩
      unfold readSpatialiteHeader
      simp only [bind_eq, pure_eq, ofLE_flag, ← ho]
      rw [acc_bind_silent (P := fun a u => u = [a]) acc_readByte]
      refine ⟨0, _, _, by simp only [List.cons_append, List.nil_append, List.append_assoc]; exact List.singleton_append.symm, rfl, ?_⟩
      rw [if_pos rfl, acc_bind_silent (P := fun a u => u = [a]) acc_readByte]
      refine ⟨flags, _, _, List.singleton_append.symm, rfl, ?_⟩
      rw [acc_bind_silent (acc_readI32 _)]
      refine ⟨s, _, _, rfl, ⟨hs, by rw [← ho]⟩, ?_⟩
      rw [if_pos ((bit7_iff flags).mpr hf), acc_bind_silent (P := fun a u => u = [a]) acc_readByte]
      refine ⟨d, _, [], (List.append_nil _).symm, rfl, acc_ret.mpr ⟨?_, rfl, rfl⟩⟩
      rw [← ho]
    · obtain ⟨hz, hm⟩ := (thousands_iff _ _ _).mp hd
      refine ⟨⟨f.order, WkbType.fromU32 (w % 1000), w % 1000000 / 1000 == 1 || w % 1000000 / 1000 == 3,
        w % 1000000 / 1000 == 2 || w % 1000000 / 1000 == 3, if s = 0 then none else some s, mbr, decide (w > 1000000)⟩,
        by simp; omega, rfl, frame_ext rfl hz.symm hm.symm, rfl, ?_⟩
      rw [acc_refuse]
      refine ⟨?_, by simp; omega⟩
      unfold readSpatialiteHeader
      simp only [bind_eq, pure_eq, ofLE_flag, ← ho]
      rw [acc_bind_silent (P := fun a u => u = [a]) acc_readByte]
      refine ⟨0, _, _, by simp only [List.cons_append, List.nil_append, List.append_assoc]; exact List.singleton_append.symm, rfl, ?_⟩
      rw [if_pos rfl, acc_bind_silent (P := fun a u => u = [a]) acc_readByte]
      refine ⟨flags, _, _, List.singleton_append.symm, rfl, ?_⟩
      rw [acc_bind_silent (acc_readI32 _)]
      refine ⟨s, _, _, rfl, ⟨hs, by rw [← ho]⟩, ?_⟩
      rw [if_neg (by rw [bit7_iff]; omega), acc_bind_silent (acc_readF64s _ _)]
      refine ⟨mbr, _, _, rfl, ⟨hl, by rw [← ho]⟩, ?_⟩
      rw [acc_bind_silent (P := fun a u => u = [a]) acc_readByte]
      refine ⟨0x7C, _, _, List.singleton_append.symm, rfl, ?_⟩
      rw [if_pos rfl, acc_bind_silent (acc_readU32 _)]
      refine ⟨w, _, [], (List.append_nil _).symm, ⟨by omega, by rw [← ho]⟩, acc_ret.mpr ⟨?_, rfl, rfl⟩⟩
      rw [← ho]

/-- a whole read: header, SRID call, geometry -/
theorem acc_top (fo : FOps) {H : LenientHeader} {P : Option Int → Frame → Nat → List Byte → Prop}
    {top : Prog WkbInfo} {rh : WkbInfo → Prog WkbInfo} (ht : TopExact P top) (hh : HdrExact H rh) (multi : Bool)
    (evs : List Ev) (bs rest : List Byte) :
    run multi (processTop fo top rh) bs = (evs, .ok ((), rest)) ↔
      ∃ srid g f hb bb, bs = hb ++ bb ++ rest ∧ P srid f (typeCode g) hb ∧ BodyIn H g f bb ∧ g.levels ≤ 128 ∧
        evs = .srid srid :: g.events multi 0 := by
  rw [acc_iff]
  unfold processTop
  simp only [bind_eq]
  constructor
  · rintro ⟨u, rfl, h⟩
    rw [acc_bind] at h
    obtain ⟨info, e1, e2, u1, u2, rfl, rfl, h1, h2⟩ := h
    obtain ⟨rfl, hc, code, hb, hP⟩ := ht.sound h1
    rw [acc_emitEv_bind] at h2
    obtain ⟨e3, rfl, h2⟩ := h2
    obtain ⟨g, rfl, rfl, hl, hB⟩ := (acc_geomN fo hh multi 130 0 (by omega) (by omega) info code hc hb 0 _ _).mp h2
    exact ⟨info.srid, g, info.frame, u1, u2, rfl, hP, hB, by omega, rfl⟩
  · rintro ⟨srid, g, f, hb, bb, rfl, hP, hB, hl, rfl⟩
    obtain ⟨info, hc, rfl, rfl, hbase, h1⟩ := ht.complete multi hP
    refine ⟨hb ++ bb, rfl, ?_⟩
    rw [acc_bind]
    refine ⟨info, [], _, hb, bb, rfl, rfl, h1, ?_⟩
    rw [acc_emitEv_bind]
    exact ⟨_, rfl, (acc_geomN fo hh multi 130 0 (by omega) (by omega) info _ hc hbase 0 _ _).mpr
      ⟨g, rfl, rfl, by omega, hB⟩⟩

/-! ### Refusing compressed types only removes accepted inputs -/

/-- whatever `p` accepts, `q` accepts in the same way -/
def Below {α : Type} (p q : Prog α) : Prop := ∀ multi a evs u, Acc multi p a evs u → Acc multi q a evs u

theorem Below.refl {α : Type} (p : Prog α) : Below p p := fun _ _ _ _ h => h

theorem Below.bind {α β : Type} {p q : Prog α} {k l : α → Prog β} (h : Below p q) (hk : ∀ a, Below (k a) (l a)) :
    Below (Prog.bind p k) (Prog.bind q l) := by
  intro multi a evs u hp
  rw [acc_bind] at hp ⊢
  obtain ⟨x, e1, e2, u1, u2, rfl, rfl, h1, h2⟩ := hp
  exact ⟨x, e1, e2, u1, u2, rfl, rfl, h _ _ _ _ h1, hk x _ _ _ _ h2⟩

theorem Below.loop {b c : Nat → Prog Unit} (h : ∀ i, Below (b i) (c i)) (n i : Nat) :
    Below (loop n i b) (loop n i c) := by
  induction n generalizing i with
  | zero => exact Below.refl _
  | succ n ih => exact Below.bind (h i) fun _ => ih (i + 1)

theorem Below.members {b c : Nat → Prog Unit} (h : ∀ i, Below (b i) (c i)) (k : GKind) (info : WkbInfo) (idx : Nat) :
    Below (processMembers k info idx b) (processMembers k info idx c) :=
  Below.bind (Below.refl _) fun _ => Below.bind (Below.refl _) fun _ => Below.bind (Below.loop h _ _) fun _ =>
    Below.refl _

theorem Below.compound (fo : FOps) {r r' : WkbInfo → Prog WkbInfo} (h : ∀ i, Below (r i) (r' i)) (info : WkbInfo)
    (idx depth : Nat) : Below (processCompoundcurve fo r info idx depth) (processCompoundcurve fo r' info idx depth) := by
  unfold processCompoundcurve
  split
  · exact Below.refl _
  · exact Below.bind (Below.refl _) fun _ => Below.bind (Below.refl _) fun _ =>
      Below.bind (Below.loop (fun _ => Below.bind (h _) fun _ => Below.refl _) _ _) fun _ => Below.refl _

theorem Below.curve (fo : FOps) {r r' : WkbInfo → Prog WkbInfo} (h : ∀ i, Below (r i) (r' i)) (info : WkbInfo)
    (idx depth : Nat) : Below (processCurve fo r info idx depth) (processCurve fo r' info idx depth) := by
  refine Below.bind (h _) fun i => ?_
  unfold processCurveBody
  split
  · exact Below.refl _
  · exact Below.refl _
  · exact Below.compound fo h _ _ _
  · exact Below.refl _

theorem Below.curvepolygon (fo : FOps) {r r' : WkbInfo → Prog WkbInfo} (h : ∀ i, Below (r i) (r' i)) (info : WkbInfo)
    (idx depth : Nat) : Below (processCurvepolygon fo r info idx depth) (processCurvepolygon fo r' info idx depth) := by
  unfold processCurvepolygon
  split
  · exact Below.refl _
  · exact Below.bind (Below.refl _) fun _ => Below.bind (Below.refl _) fun _ =>
      Below.bind (Below.loop (fun _ => Below.curve fo h _ _ _) _ _) fun _ => Below.refl _

theorem Below.geomN (fo : FOps) {r r' : WkbInfo → Prog WkbInfo} (h : ∀ i, Below (r i) (r' i)) (fuel : Nat) :
    ∀ (info : WkbInfo) (idx depth : Nat),
      Below (processGeomN fo r fuel info idx depth) (processGeomN fo r' fuel info idx depth) := by
  induction fuel with
  | zero => intro _ _ _; exact Below.refl _
  | succ fuel ih =>
    intro info idx depth
    unfold processGeomN
    split
    · exact Below.refl _
    split
    · exact Below.refl _
    · exact Below.bind (Below.refl _) fun _ => Below.bind (Below.refl _) fun _ => Below.bind (Below.refl _) fun _ =>
        Below.bind (Below.loop (fun _ => Below.bind (h _) fun _ => Below.refl _) _ _) fun _ => Below.refl _
    · exact Below.refl _
    · exact Below.refl _
    · exact Below.compound fo h _ _ _
    · exact Below.members (fun _ => Below.bind (h _) fun _ => Below.refl _) _ _ _
    · exact Below.members (fun _ => Below.curve fo h _ _ _) _ _ _
    · exact Below.refl _
    · exact Below.refl _
    · exact Below.curvepolygon fo h _ _ _
    · exact Below.members (fun _ => Below.bind (h _) fun _ => Below.refl _) _ _ _
    · exact Below.members (fun _ => Below.bind (h _) fun _ => Below.refl _) _ _ _
    · exact Below.members (fun _ => Below.bind (h _) fun _ => Below.refl _) _ _ _
    · refine Below.members (fun _ => Below.bind (h _) fun i => ?_) _ _ _
      unfold processSurfaceBody
      split
      · exact Below.curvepolygon fo h _ _ _
      · exact Below.refl _
      · exact Below.refl _
    · exact Below.members (fun _ => Below.bind (h _) fun _ => ih _ _ _) _ _ _
    · exact Below.refl _

theorem Below.refuse (p : Prog WkbInfo) : Below (refuseCompressed p) p :=
  fun _ _ _ _ h => ((acc_refuse _ _ _ _).mp h).1

theorem Below.top (fo : FOps) {t t' : Prog WkbInfo} {r r' : WkbInfo → Prog WkbInfo} (ht : Below t t')
    (h : ∀ i, Below (r i) (r' i)) : Below (processTop fo t r) (processTop fo t' r') :=
  Below.bind ht fun _ => Below.bind (Below.refl _) fun _ => Below.geomN fo h _ _ _ _

theorem Below.run {α : Type} {p q : Prog α} (h : Below p q) {multi : Bool} {bs rest : List Byte} {evs : List Ev} {a : α}
    (hp : Prog.run multi p bs = (evs, .ok (a, rest))) : Prog.run multi q bs = (evs, .ok (a, rest)) := by
  rw [acc_iff] at hp ⊢
  obtain ⟨u, rfl, hu⟩ := hp
  exact ⟨u, rfl, h _ _ _ _ hu⟩

end Geozero
