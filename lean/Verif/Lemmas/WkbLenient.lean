import Verif.Lemmas.WkbAcceptHdr

/- Helper lemmas: encodings of the specification are among the byte strings the readers take. -/

namespace Geozero
open Prog Spec

/-- the frame of a strict encoding -/
def frameOf (d : Dims) (e : Endian) : Frame := { order := e, z := d.z, m := d.m }

/-- headers of the strict convention are headers of the lenient one -/
def Relaxes (d : Dims) (H : HeaderSpec) (L : LenientHeader) : Prop :=
  ∀ e e' c hb, 1 ≤ c → c ≤ 17 → H e e' c hb → L (frameOf d e) (frameOf d e') c hb

theorem Cat.mono {α : Type} {R R' : α → List Byte → Prop} {xs : List α} {bs : List Byte}
    (h : ∀ x ∈ xs, ∀ b, R x b → R' x b) (hc : Cat R xs bs) : Cat R' xs bs := by
  induction xs generalizing bs with
  | nil => exact hc
  | cons x xs ih =>
    obtain ⟨b1, b2, rfl, h1, h2⟩ := hc
    exact ⟨b1, b2, rfl, h x (by simp) b1 h1, ih (fun y hy => h y (by simp [hy])) h2⟩

theorem Counted.mono {α : Type} {R R' : α → List Byte → Prop} {e : Endian} {xs : List α} {bs : List Byte}
    (h : ∀ x ∈ xs, ∀ b, R x b → R' x b) (hc : Counted e R xs bs) : Counted e R' xs bs := by
  obtain ⟨hl, bb, rfl, hc⟩ := hc
  exact ⟨hl, bb, rfl, Cat.mono h hc⟩

theorem Nested.member {d : Dims} {H : HeaderSpec} {L : LenientHeader} (hL : Relaxes d H L) {e : Endian} {c : Nat}
    (h1 : 1 ≤ c) (h2 : c ≤ 17) {T : Nat → Prop} (hT : T c) {body : Endian → List Byte → Prop}
    {body' : Frame → List Byte → Prop} (hb : ∀ e' b, body e' b → body' (frameOf d e') b) {bs : List Byte}
    (h : Nested H e c body bs) : Member L (frameOf d e) T body' bs := by
  obtain ⟨e', hd, bb, rfl, hH, hB⟩ := h
  exact ⟨frameOf d e', c, hd, bb, rfl, hL _ _ _ _ h1 h2 hH, hT, hb _ _ hB⟩

theorem pointsIn_of {d : Dims} {e : Endian} {cs : List Coord} (hc : ∀ c ∈ cs, HasDims d c) {bs : List Byte}
    (h : PointsBody cs e bs) : PointsIn cs (frameOf d e) bs :=
  Counted.mono (fun c hm _ hb => ⟨hc c hm, hb⟩) h

theorem ringsIn_of {d : Dims} {e : Endian} {rs : List (List Coord)} (hc : ∀ r ∈ rs, ∀ c ∈ r, HasDims d c)
    {bs : List Byte} (h : RingsBody rs e bs) : RingsIn rs (frameOf d e) bs :=
  Counted.mono (fun r hm _ hb => pointsIn_of (hc r hm) hb) h

theorem segIn_of {d : Dims} {H : HeaderSpec} {L : LenientHeader} (hL : Relaxes d H L) {e : Endian} (s : Seg)
    (hc : AllCoords.SegCoords (HasDims d) s) {bs : List Byte} (h : SegRel H e s bs) : SegIn L (frameOf d e) s bs := by
  cases s with
  | line cs => exact Nested.member (T := (· = 2)) hL (by omega) (by omega) rfl (fun _ _ hb => pointsIn_of hc hb) h
  | circ cs => exact Nested.member (T := (· = 8)) hL (by omega) (by omega) rfl (fun _ _ hb => pointsIn_of hc hb) h

theorem compoundIn_of {d : Dims} {H : HeaderSpec} {L : LenientHeader} (hL : Relaxes d H L) {e : Endian} (ss : List Seg)
    (hc : ∀ s ∈ ss, AllCoords.SegCoords (HasDims d) s) {bs : List Byte} (h : CompoundBody H ss e bs) :
    CompoundIn L ss (frameOf d e) bs :=
  Counted.mono (fun s hm _ hb => segIn_of hL s (hc s hm) hb) h

theorem curveIn_of {d : Dims} {H : HeaderSpec} {L : LenientHeader} (hL : Relaxes d H L) {e : Endian} (c : Curve)
    (hc : AllCoords.CurveCoords (HasDims d) c) {bs : List Byte} (h : CurveRel H e c bs) :
    CurveIn L (frameOf d e) c bs := by
  cases c with
  | seg s => exact segIn_of hL s hc h
  | compound ss =>
    exact Nested.member (T := (· = 9)) hL (by omega) (by omega) rfl (fun _ _ hb => compoundIn_of hL ss hc hb) h

theorem curvesIn_of {d : Dims} {H : HeaderSpec} {L : LenientHeader} (hL : Relaxes d H L) {e : Endian} (cs : List Curve)
    (hc : ∀ c ∈ cs, AllCoords.CurveCoords (HasDims d) c) {bs : List Byte} (h : CurvesBody H cs e bs) :
    CurvesIn L cs (frameOf d e) bs :=
  Counted.mono (fun c hm _ hb => curveIn_of hL c (hc c hm) hb) h

theorem bodyIn_of {d : Dims} {H : HeaderSpec} {L : LenientHeader} (hL : Relaxes d H L) (g : Geom) :
    ∀ (e : Endian) (bs : List Byte), AllCoords (HasDims d) g → Body d H g e bs → BodyIn L g (frameOf d e) bs := by
  induction g using Geom.ind <;> intro e bs hc hb
  · obtain ⟨c, hcd, hn, rfl⟩ := hb
    exact ⟨c, hn, hcd, rfl⟩
  · exact ⟨hb.1, hc, hb.2⟩
  · exact Counted.mono (fun c hm _ hb => Nested.member hL (by omega) (by omega) trivial (fun _ _ hb => ⟨hc c hm, hb⟩) hb) hb
  · exact pointsIn_of hc hb
  · exact pointsIn_of hc hb
  · exact compoundIn_of hL _ hc hb
  · exact Counted.mono (fun l hm _ hb => Nested.member hL (by omega) (by omega) trivial
      (fun _ _ hb => pointsIn_of (hc l hm) hb) hb) hb
  · exact curvesIn_of hL _ hc hb
  · exact ringsIn_of hc hb
  · exact ringsIn_of hc hb
  · exact curvesIn_of hL _ hc hb
  · exact Counted.mono (fun l hm _ hb => Nested.member hL (by omega) (by omega) trivial
      (fun _ _ hb => ringsIn_of (hc l hm) hb) hb) hb
  · exact Counted.mono (fun l hm _ hb => Nested.member hL (by omega) (by omega) trivial
      (fun _ _ hb => ringsIn_of (hc l hm) hb) hb) hb
  · exact Counted.mono (fun l hm _ hb => Nested.member hL (by omega) (by omega) trivial
      (fun _ _ hb => ringsIn_of (hc l hm) hb) hb) hb
  · refine Counted.mono (fun s hm _ hb => ?_) hb
    cases s with
    | polygon rings =>
      exact Nested.member (T := (· = 3)) hL (by omega) (by omega) rfl (fun _ _ hb => ringsIn_of (hc _ hm) hb) hb
    | curvePolygon rings =>
      exact Nested.member (T := (· = 10)) hL (by omega) (by omega) rfl (fun _ _ hb => curvesIn_of hL _ (hc _ hm) hb) hb
  · rename_i gs ih
    obtain ⟨hl, bb, rfl, hbs⟩ := hb
    refine ⟨hl, bb, rfl, ?_⟩
    have hcl := (allCoordsList_iff _ _).mp hc
    clear hl hc
    induction gs generalizing bb with
    | nil => exact hbs
    | cons g gs ihg =>
      obtain ⟨b1, b2, rfl, ⟨e', hd, b3, rfl, hH, hB⟩, h2⟩ := hbs
      refine ⟨hd ++ b3, b2, rfl, ⟨frameOf d e', hd, b3, rfl, hL _ _ _ _ (typeCode_pos g) (typeCode_le g) hH,
        ih g (by simp) e' b3 (hcl g (by simp)) hB⟩, ?_⟩
      exact ihg (fun x hx => ih x (by simp [hx])) b2 h2 (fun x hx => hcl x (by simp [hx]))

theorem ogcCode_facts (d : Dims) (c : Nat) (h1 : 1 ≤ c) (h2 : c ≤ 17) :
    ogcCode d c < 2 ^ 32 ∧ ogcCode d c ≤ 1000000 ∧ ogcCode d c % 1000 = c ∧
      ThousandsDims (ogcCode d c / 1000) d.z d.m ∧ ThousandsDims (ogcCode d c % 1000000 / 1000) d.z d.m := by
  unfold ogcCode ThousandsDims
  cases d.z <;> cases d.m <;> simp only <;> refine ⟨by omega, by omega, by omega, ?_, ?_⟩ <;>
    simp only [Bool.false_eq_true, true_iff, false_iff] <;> omega

theorem lenientOrder_mark (e : Endian) : lenientOrder (orderMark e) = e := by cases e <;> decide

theorem relaxes_ogc (d : Dims) : Relaxes d (ogcHeader d) lenientOgc := by
  intro e e' c hb h1 h2 h
  obtain ⟨hw, _, hc, hd, _⟩ := ogcCode_facts d c h1 h2
  exact ⟨orderMark e', ogcCode d c, hw, (lenientOrder_mark e').symm, hc.symm, hd, h⟩

theorem ewkbHeader_of (d : Dims) (e : Endian) (srid : Option Int) (hs : ∀ s ∈ srid, isI32 s) (c : Nat) (h1 : 1 ≤ c)
    (h2 : c ≤ 17) : LenientEwkbHeader (frameOf d e) c srid
      (orderMark e :: encU32 e (ewkbCode d srid.isSome c) ++ srid.toList.flatMap (encI32 e)) := by
  refine ⟨orderMark e, ewkbCode d srid.isSome c, ewkbCode_lt d _ c h2, (lenientOrder_mark e).symm,
    (ewkbCode_mod d _ c h2).symm, ?_, ?_, ?_, hs, rfl⟩
  · rw [← testBitN_iff, ewkbCode_z d _ c h2]; rfl
  · rw [← testBitN_iff, ewkbCode_m d _ c h2]; rfl
  · rw [← testBitN_iff, ewkbCode_s d _ c h2]

theorem relaxes_ewkb (d : Dims) : Relaxes d (ewkbHeader d) lenientEwkb := by
  intro e e' c hb h1 h2 h
  have := ewkbHeader_of d e' none (by simp) c h1 h2
  refine ⟨none, ?_⟩
  unfold ewkbHeader at h
  rw [h]
  simpa using this

theorem relaxes_spatialite (d : Dims) : Relaxes d (spatialiteHeader d) lenientSpatialite := by
  rintro e e' c hb h1 h2 ⟨rfl, rfl⟩
  obtain ⟨_, hw, hc, _⟩ := ogcCode_facts d c h1 h2
  exact ⟨rfl, ogcCode d c, hw, hc.symm, rfl⟩

end Geozero
