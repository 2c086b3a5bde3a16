import Verif.Lemmas.WkbLenient

/-
C76: exactly which bytes the WKB readers accept, and what they make of them.
-/

namespace Geozero
open Prog Spec

/-- A read of plain WKB succeeds if and only if the input starts with a byte string `LenientWkb` describes,
of a geometry nested at most 128 levels deep; it consumes exactly that string, and the calls it makes are the
SRID call and the documented calls of that geometry. -/
theorem C76_wkb_accepts_exactly (fo : FOps) (multi : Bool) (bs rest : List Byte) (evs : List Ev) :
    run multi (processWkbTypeGeom fo .wkb) bs = (evs, .ok ((), rest)) ↔
      ∃ g used, bs = used ++ rest ∧ LenientWkb g used ∧ g.levels ≤ 128 ∧ evs = .srid none :: g.events multi 0 := by
  show run multi (processTop fo readWkbHeader readWkbNestedHeader) bs = _ ↔ _
  rw [acc_top fo topExact_ogc hdrExact_ogc]
  constructor
  · rintro ⟨srid, g, f, hb, bb, rfl, ⟨rfl, hP⟩, hB, hl, rfl⟩
    exact ⟨g, hb ++ bb, rfl, ⟨f, hb, bb, rfl, hP, hB⟩, hl, rfl⟩
  · rintro ⟨g, used, rfl, ⟨f, hb, bb, rfl, hP, hB⟩, hl, rfl⟩
    exact ⟨none, g, f, hb, bb, rfl, ⟨rfl, hP⟩, hB, hl, rfl⟩

/-- The same for EWKB, with the SRID the outermost header carries. -/
theorem C76_ewkb_accepts_exactly (fo : FOps) (multi : Bool) (bs rest : List Byte) (evs : List Ev) :
    run multi (processWkbTypeGeom fo .ewkb) bs = (evs, .ok ((), rest)) ↔
      ∃ srid g used, bs = used ++ rest ∧ LenientEwkb srid g used ∧ g.levels ≤ 128 ∧
        evs = .srid srid :: g.events multi 0 := by
  show run multi (processTop fo readEwkbHeader readEwkbNestedHeader) bs = _ ↔ _
  rw [acc_top fo topExact_ewkb hdrExact_ewkb]
  constructor
  · rintro ⟨srid, g, f, hb, bb, rfl, hP, hB, hl, rfl⟩
    exact ⟨srid, g, hb ++ bb, rfl, ⟨f, hb, bb, rfl, hP, hB⟩, hl, rfl⟩
  · rintro ⟨srid, g, used, rfl, ⟨f, hb, bb, rfl, hP, hB⟩, hl, rfl⟩
    exact ⟨srid, g, f, hb, bb, rfl, hP, hB, hl, rfl⟩

/-- The same for GeoPackage blobs. -/
theorem C76_gpkg_accepts_exactly (fo : FOps) (multi : Bool) (bs rest : List Byte) (evs : List Ev) :
    run multi (processWkbTypeGeom fo .geopackage) bs = (evs, .ok ((), rest)) ↔
      ∃ srid g used, bs = used ++ rest ∧ LenientGpkg srid g used ∧ g.levels ≤ 128 ∧
        evs = .srid (some srid) :: g.events multi 0 := by
  show run multi (processTop fo readGpkgHeader readWkbNestedHeader) bs = _ ↔ _
  rw [acc_top fo topExact_gpkg hdrExact_ogc]
  constructor
  · rintro ⟨srid, g, f, hb, bb, rfl, ⟨s, version, flags, env, fi, ib, rfl, ho, hz, hm, hc, hs, hP, rfl⟩, hB, hl, rfl⟩
    refine ⟨s, g, _, rfl, ⟨version, flags, f.order, env, fi, ib, bb, ho, hc, hs, hP, ?_, rfl⟩, hl, rfl⟩
    rw [show ({ fi with order := f.order } : Frame) = f from frame_ext rfl hz.symm hm.symm]
    exact hB
  · rintro ⟨s, g, used, rfl, ⟨version, flags, e, env, fi, ib, bb, ho, hc, hs, hP, hB, rfl⟩, hl, rfl⟩
    exact ⟨some s, g, { fi with order := e }, _, bb, rfl,
      ⟨s, version, flags, env, fi, ib, rfl, ho, rfl, rfl, hc, hs, hP, rfl⟩, hB, hl, rfl⟩

/-- The same for MySQL geometries. -/
theorem C76_mysql_accepts_exactly (fo : FOps) (multi : Bool) (bs rest : List Byte) (evs : List Ev) :
    run multi (processWkbTypeGeom fo .mySQL) bs = (evs, .ok ((), rest)) ↔
      ∃ srid g used, bs = used ++ rest ∧ LenientMySql srid g used ∧ g.levels ≤ 128 ∧
        evs = .srid (some (srid : Int)) :: g.events multi 0 := by
  show run multi (processTop fo readMysqlHeader readWkbNestedHeader) bs = _ ↔ _
  rw [acc_top fo topExact_mysql hdrExact_ogc]
  constructor
  · rintro ⟨srid, g, f, hb, bb, rfl, ⟨s, ib, rfl, hs, ho, hP, rfl⟩, hB, hl, rfl⟩
    exact ⟨s, g, _, rfl, ⟨f, ib, bb, hs, ho, hP, hB, rfl⟩, hl, rfl⟩
  · rintro ⟨s, g, used, rfl, ⟨f, ib, bb, hs, ho, hP, hB, rfl⟩, hl, rfl⟩
    exact ⟨some (s : Int), g, f, _, bb, rfl, ⟨s, ib, rfl, hs, ho, hP, rfl⟩, hB, hl, rfl⟩

private theorem spatialite_refused (fo : FOps) (multi : Bool) (bs rest : List Byte) (evs : List Ev) :
    run multi (processTop fo (refuseCompressed readSpatialiteHeader)
        (fun i => refuseCompressed (readSpatialiteNestedHeader i))) bs = (evs, .ok ((), rest)) ↔
      ∃ srid g used, bs = used ++ rest ∧ LenientSpatiaLite srid g used ∧ g.levels ≤ 128 ∧
        evs = .srid (if srid = 0 then none else some srid) :: g.events multi 0 := by
  rw [acc_top fo topExact_spatialite hdrExact_spatialite]
  constructor
  · rintro ⟨srid, g, f, hb, bb, rfl, ⟨s, flags, rfl, hs, ho, h⟩, hB, hl, rfl⟩
    refine ⟨s, g, _, rfl, ⟨hs, flags, f, bb, ho, hB, ?_⟩, hl, rfl⟩
    rcases h with ⟨hf, hc, d, hz, hm, rfl⟩ | ⟨hf, mbr, w, hm, hw, hc, hd, rfl⟩
    · exact Or.inl ⟨hf, hc, d, hz, hm, rfl⟩
    · exact Or.inr ⟨hf, mbr, w, hm, hw, hc, hd, rfl⟩
  · rintro ⟨s, g, used, rfl, ⟨hs, flags, f, bb, ho, hB, h⟩, hl, rfl⟩
    rcases h with ⟨hf, hc, d, hz, hm, rfl⟩ | ⟨hf, mbr, w, hm, hw, hc, hd, rfl⟩
    · exact ⟨_, g, f, _, bb, rfl, ⟨s, flags, rfl, hs, ho, Or.inl ⟨hf, hc, d, hz, hm, rfl⟩⟩, hB, hl, rfl⟩
    · exact ⟨_, g, f, _, bb, rfl, ⟨s, flags, rfl, hs, ho, Or.inr ⟨hf, mbr, w, hm, hw, hc, hd, rfl⟩⟩, hB, hl, rfl⟩

/-- The same for SpatiaLite BLOBs, for input in which the reader meets no compressed geometry. -/
theorem C76_spatialite_plain_accepts_exactly (fo : FOps) (multi : Bool) (bs rest : List Byte) (evs : List Ev)
    (hu : UncompressedInput fo multi bs) :
    run multi (processWkbTypeGeom fo .spatiaLite) bs = (evs, .ok ((), rest)) ↔
      ∃ srid g used, bs = used ++ rest ∧ LenientSpatiaLite srid g used ∧ g.levels ≤ 128 ∧
        evs = .srid (if srid = 0 then none else some srid) :: g.events multi 0 := by
  rw [← hu]
  exact spatialite_refused fo multi bs rest evs

/-- Whatever the input: a byte string `LenientSpatiaLite` describes is accepted. -/
theorem C76_spatialite_accepts (fo : FOps) (multi : Bool) (srid : Int) (g : Geom) (used rest : List Byte)
    (h : LenientSpatiaLite srid g used) (hl : g.levels ≤ 128) :
    run multi (processWkbTypeGeom fo .spatiaLite) (used ++ rest) =
      (.srid (if srid = 0 then none else some srid) :: g.events multi 0, .ok ((), rest)) :=
  Below.run (Below.top fo (Below.refuse _) fun _ => Below.refuse _)
    ((spatialite_refused fo multi _ _ _).mpr ⟨srid, g, used, rfl, h, hl, rfl⟩)

/-- Encodings according to the standards are among the accepted byte strings, so the acceptance theorems
contain those about encodings (C06). -/
theorem C76_standard_is_accepted (d : Dims) (e : Endian) (g : Geom) (bs : List Byte) :
    (OgcWkb d e g bs → LenientWkb g bs) ∧
    (∀ srid, (∀ s ∈ srid, isI32 s) → Ewkb d e srid g bs → LenientEwkb srid g bs) ∧
    (∀ srid env, isI32 srid → Gpkg d e e srid env g bs → LenientGpkg srid g bs) ∧
    (∀ srid, srid < 2 ^ 31 → MySql d srid g bs → LenientMySql srid g bs) ∧
    (∀ srid mbr, isI32 srid → SpatiaLite d e srid mbr g bs → ∃ used, bs = used ++ [0xFE] ∧ LenientSpatiaLite srid g used) := by
  have hp := typeCode_pos g
  have hq := typeCode_le g
  refine ⟨?_, ?_, ?_, ?_, ?_⟩
  · rintro ⟨hc, hb, bb, rfl, hH, hB⟩
    exact ⟨frameOf d e, hb, bb, rfl, relaxes_ogc d _ _ _ _ hp hq hH, bodyIn_of (relaxes_ogc d) g e bb hc hB⟩
  · rintro srid hs ⟨hc, bb, hB, rfl⟩
    exact ⟨frameOf d e, _, bb, rfl, ewkbHeader_of d e srid hs _ hp hq, bodyIn_of (relaxes_ewkb d) g e bb hc hB⟩
  · rintro srid env hs ⟨gb, wb, rfl, ⟨version, code, ext, emp, hcode, rfl⟩, hc, hb, bb, rfl, hH, hB⟩
    have hcode5 : code < 5 := by rcases hcode with h | h | h | h | h <;> omega
    have hf : ∃ flags : Byte, flags = UInt8.ofNat ((if e = .le then 1 else 0) + 2 * code + (if emp then 16 else 0)
          + (if ext then 32 else 0)) ∧ e = (if flags.toNat % 2 = 1 then Endian.le else Endian.be) ∧
          flags.toNat / 2 % 8 = code := by
      refine ⟨_, rfl, ?_, ?_⟩
      · cases e <;> cases emp <;> cases ext <;> simp <;> omega
      · cases e <;> cases emp <;> cases ext <;> simp <;> omega
    obtain ⟨flags, hflags, ho, hcd⟩ := hf
    refine ⟨version, flags, e, env, frameOf d e, hb, bb, ho, by rw [hcd]; exact hcode, hs,
      relaxes_ogc d e e _ _ hp hq hH, bodyIn_of (relaxes_ogc d) g e bb hc hB, ?_⟩
    rw [hflags]
    simp
  · rintro srid hs ⟨wb, rfl, hc, hb, bb, rfl, hH, hB⟩
    exact ⟨frameOf d .le, hb, bb, hs, rfl, relaxes_ogc d _ _ _ _ hp hq hH, bodyIn_of (relaxes_ogc d) g .le bb hc hB,
      by simp⟩
  · rintro srid mbr hs ⟨hm, hc, bb, hB, rfl⟩
    obtain ⟨_, hw, hcd, _, hd⟩ := ogcCode_facts d _ hp hq
    refine ⟨_, rfl, hs, orderMark e, frameOf d e, bb, ?_, bodyIn_of (relaxes_spatialite d) g e bb hc hB, Or.inr
      ⟨by cases e <;> decide, mbr, ogcCode d (typeCode g), hm, hw, hcd.symm, hd, rfl⟩⟩
    cases e <;> rfl

/-- No input can be taken for two geometries: what is consumed and what is delivered follow from the input,
and no accepted byte string is a proper prefix of another. -/
theorem C76_accepted_strings_are_unambiguous (g g' : Geom) (u u' rest rest' : List Byte) (h : LenientWkb g u)
    (h' : LenientWkb g' u') (hl : g.levels ≤ 128) (hl' : g'.levels ≤ 128) (heq : u ++ rest = u' ++ rest') (multi : Bool) :
    u = u' ∧ g.events multi 0 = g'.events multi 0 := by
  have fo : FOps := ⟨fun _ => 0, fun a _ => a⟩
  have h1 := (C76_wkb_accepts_exactly fo multi (u ++ rest) rest _).mpr ⟨g, u, rfl, h, hl, rfl⟩
  have h2 := (C76_wkb_accepts_exactly fo multi (u' ++ rest') rest' _).mpr ⟨g', u', rfl, h', hl', rfl⟩
  rw [heq, h2] at h1
  simp only [Prod.mk.injEq, List.cons.injEq, Except.ok.injEq, true_and] at h1
  obtain ⟨he, hr⟩ := h1
  subst hr
  exact ⟨List.append_cancel_right heq, he.symm⟩

/-! ### The standard alone does not describe what is accepted -/

/-- a point with byte order mark 2 -/
private def oddMark : List Byte := (2 :: encU32 .le 1) ++ (encF64 .le 1#64 ++ encF64 .le 2#64)

/-- a multi point whose member says it is a polygon -/
private def oddMember : List Byte :=
  (1 :: encU32 .le 4) ++ (encU32 .le 1 ++ ((1 :: encU32 .le 3) ++ (encF64 .le 1#64 ++ encF64 .le 2#64)))

/-- a multi point with a member that has a z ordinate -/
private def oddDims : List Byte :=
  (1 :: encU32 .le 4) ++ (encU32 .le 1 ++ ((1 :: encU32 .le 1001) ++
    (encF64 .le 1#64 ++ encF64 .le 2#64 ++ encF64 .le 3#64)))

private theorem oddMark_lenient : LenientWkb (.point ⟨1#64, 2#64, none, none⟩) oddMark :=
  ⟨⟨.le, false, false⟩, _, _, rfl, ⟨2, 1, by decide, rfl, rfl, by unfold ThousandsDims; decide, rfl⟩,
    by simp [AllNaN, F64.isNaN], ⟨rfl, rfl⟩, by simp [coordBytes]⟩

private theorem oddMember_lenient : LenientWkb (.multiPoint [⟨1#64, 2#64, none, none⟩]) oddMember :=
  ⟨⟨.le, false, false⟩, _, _, rfl, ⟨1, 4, by decide, rfl, rfl, by unfold ThousandsDims; decide, rfl⟩, by decide, _, rfl, _, [], by simp; rfl,
    ⟨⟨.le, false, false⟩, 3, _, _, rfl, ⟨1, 3, by decide, rfl, rfl, by unfold ThousandsDims; decide, rfl⟩, trivial, ⟨rfl, rfl⟩,
      by simp [coordBytes]⟩, rfl⟩

private theorem oddDims_lenient : LenientWkb (.multiPoint [⟨1#64, 2#64, some 3#64, none⟩]) oddDims :=
  ⟨⟨.le, false, false⟩, _, _, rfl, ⟨1, 4, by decide, rfl, rfl, by unfold ThousandsDims; decide, rfl⟩, by decide, _, rfl, _, [], by simp; rfl,
    ⟨⟨.le, true, false⟩, 1, _, _, rfl, ⟨1, 1001, by decide, rfl, rfl, by unfold ThousandsDims; decide, rfl⟩, trivial, ⟨rfl, rfl⟩,
      by simp [coordBytes]⟩, rfl⟩

private theorem oddMark_not_standard (d : Dims) (e : Endian) (g : Geom) : ¬ OgcWkb d e g oddMark := by
  rintro ⟨_, hb, bb, h, rfl, _⟩
  have h0 : oddMark.head? = some 2 := rfl
  rw [h] at h0
  cases e <;> simp [orderMark] at h0

private theorem encU32_inj (e : Endian) (v w : Nat) (hv : v < 2 ^ 32) (hw : w < 2 ^ 32) (h : encU32 e v = encU32 e w) :
    v = w := by
  have h1 := decUInt_encUInt e 4 v
  have h2 := decUInt_encUInt e 4 w
  unfold encU32 at h
  rw [h, h2] at h1
  omega

/-- a standard encoding that starts like the two strings above is a multi point of one member without z and m -/
private theorem member_standard {d : Dims} {e : Endian} {g : Geom} {word : Nat} (hw : word < 2 ^ 32) {tail : List Byte}
    (h : OgcWkb d e g ((1 :: encU32 .le 4) ++ (encU32 .le 1 ++ ((1 :: encU32 .le word) ++ tail)))) : word = 1 := by
  obtain ⟨_, hb, bb, h, rfl, hB⟩ := h
  have hp := typeCode_pos g
  have hq := typeCode_le g
  obtain ⟨hw1, hw2, hw3, _⟩ := ogcCode_facts d _ hp hq
  have he : e = .le := by
    cases e with
    | le => rfl
    | be => simp [orderMark] at h
  subst he
  simp only [List.cons_append, List.cons.injEq] at h
  obtain ⟨h1, h2⟩ := List.append_inj h.2 (by simp)
  have hcode := encU32_inj .le _ _ (by omega) hw1 h1
  have hd : d.z = false ∧ d.m = false ∧ typeCode g = 4 := by
    rw [← hcode] at hw3
    unfold ogcCode at hcode
    cases hz : d.z <;> cases hm : d.m <;> simp only [hz, hm] at hcode <;> first | omega | exact ⟨rfl, rfl, by omega⟩
  obtain ⟨hz, hm, hg⟩ := hd
  obtain ⟨cs, rfl⟩ : ∃ cs, g = .multiPoint cs := by
    cases g <;> first | exact ⟨_, rfl⟩ | cases hg
  obtain ⟨hlen, b2, hb2, hcat⟩ := hB
  rw [hb2] at h2
  obtain ⟨h3, h4⟩ := List.append_inj h2 (by simp)
  have hl := encU32_inj .le _ _ (by omega) hlen h3
  cases cs with
  | nil => simp at hl
  | cons c cs =>
    obtain ⟨b3, b4, rfl, ⟨e', hd', b5, rfl, rfl, _⟩, _⟩ := hcat
    have he' : e' = .le := by
      cases e' with
      | le => rfl
      | be => simp [orderMark] at h4
    subst he'
    simp only [List.cons_append, List.append_assoc, List.cons.injEq] at h4
    obtain ⟨h5, _⟩ := List.append_inj h4.2 (by simp)
    have hone : ogcCode d 1 = 1 := by simp [ogcCode, hz, hm]
    rw [hone] at h5
    exact encU32_inj .le _ _ hw (by omega) h5

/-- That only encodings according to the standard are accepted is **false** of the code, in three independent
ways: the byte order mark may be any byte, a member of a multi geometry may say it has another type, and it may
have other dimensions than the geometry it is a member of. -/
theorem C76_only_standard_encodings_false (fo : FOps) :
    ∀ bs ∈ [oddMark, oddMember, oddDims], (∀ d e g, ¬ OgcWkb d e g bs) ∧
      ∃ g : Geom, run true (processWkbTypeGeom fo .wkb) bs = (.srid none :: g.events true 0, .ok ((), [])) := by
  intro bs hbs
  simp only [List.mem_cons, List.not_mem_nil, or_false] at hbs
  rcases hbs with rfl | rfl | rfl
  · exact ⟨oddMark_not_standard, _, (C76_wkb_accepts_exactly fo true _ [] _).mpr
      ⟨_, _, (List.append_nil _).symm, oddMark_lenient, by decide, rfl⟩⟩
  · refine ⟨fun d e g h => ?_, _, (C76_wkb_accepts_exactly fo true _ [] _).mpr
      ⟨_, _, (List.append_nil _).symm, oddMember_lenient, by decide, rfl⟩⟩
    have := member_standard (word := 3) (by omega) h
    omega
  · refine ⟨fun d e g h => ?_, _, (C76_wkb_accepts_exactly fo true _ [] _).mpr
      ⟨_, _, (List.append_nil _).symm, oddDims_lenient, by decide, rfl⟩⟩
    have := member_standard (word := 1001) (by omega) h
    omega

/- The hypotheses are met: each dialect has accepted byte strings, in both byte orders. -/
example : ∃ bs, LenientEwkb (some 4326) (.lineString []) bs :=
  ⟨_, (C76_standard_is_accepted {} .be (.lineString []) _).2.1 (some 4326) (by simp; decide)
    ⟨by simp [AllCoords], _, ⟨by decide, [], rfl, rfl⟩, rfl⟩⟩
example : ∃ bs, LenientMySql 4326 (.lineString []) bs :=
  ⟨_, (C76_standard_is_accepted {} .le (.lineString []) _).2.2.2.1 4326 (by decide)
    ⟨_, rfl, by simp [AllCoords], _, _, rfl, rfl, by decide, [], rfl, rfl⟩⟩
example : ∃ bs, LenientGpkg (-1) (.lineString []) bs :=
  ⟨_, (C76_standard_is_accepted {} .be (.lineString []) _).2.2.1 (-1) [] (by decide)
    ⟨_, _, rfl, ⟨0, 0, false, true, by simp [EnvelopeCode], rfl⟩, by simp [AllCoords], _, _, rfl, rfl, by decide, [], rfl, rfl⟩⟩
/-- a tiny point -/
example : LenientSpatiaLite 0 (.point ⟨1#64, 2#64, none, none⟩)
    ([0, 0x81] ++ encI32 .le 0 ++ [1] ++ (encF64 .le 1#64 ++ encF64 .le 2#64)) :=
  ⟨by decide, 0x81, ⟨.le, false, false⟩, _, rfl, ⟨by simp [AllNaN, F64.isNaN], ⟨rfl, rfl⟩, by simp [coordBytes]⟩,
    Or.inl ⟨by decide, rfl, 1, by decide, by decide, rfl⟩⟩
/-- a SpatiaLite blob without compressed geometries -/
example (fo : FOps) : UncompressedInput fo true
    ([0, 0x81] ++ encI32 .le 0 ++ [1] ++ (encF64 .le 1#64 ++ encF64 .le 2#64)) := by
  have h : LenientSpatiaLite 0 (.point ⟨1#64, 2#64, none, none⟩)
      ([0, 0x81] ++ encI32 .le 0 ++ [1] ++ (encF64 .le 1#64 ++ encF64 .le 2#64)) :=
    ⟨by decide, 0x81, ⟨.le, false, false⟩, _, rfl, ⟨by simp [AllNaN, F64.isNaN], ⟨rfl, rfl⟩, by simp [coordBytes]⟩,
      Or.inl ⟨by decide, rfl, 1, by decide, by decide, rfl⟩⟩
  have h1 := (spatialite_refused fo true _ [] _).mpr ⟨0, _, _, (List.append_nil _).symm, h, by decide, rfl⟩
  have h2 := C76_spatialite_accepts fo true 0 _ _ [] h (by decide)
  rw [List.append_nil] at h2
  unfold UncompressedInput
  rw [h1, h2]

end Geozero
