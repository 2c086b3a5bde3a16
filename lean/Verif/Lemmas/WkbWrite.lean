import Verif.Lemmas.Bytes
import Verif.Model.WkbWriter
import Verif.Spec.Stored
import Verif.Lemmas.WkbRead

/- Helper lemmas: what the WKB writer appends for each geometry. -/

namespace Geozero
open Spec
namespace WkbWriter

theorem put_put (w : WkbWriter) (a b : List Byte) : (w.put a).put b = w.put (a ++ b) := by
  simp [put, List.append_assoc]

theorem put_nil (w : WkbWriter) : w.put [] = w := by simp [put]

/-- header bytes of a nested geometry -/
def laterHdr (dl : WkbDialect) (d : Dims) (t : WkbType) : List Byte :=
  match dl with
  | .ewkb => 1 :: encU32 .le (ewkbTypeId d false t)
  | .spatiaLite => 0x69 :: encU32 .le (ogcTypeId d t)
  | _ => 1 :: encU32 .le (ogcTypeId d t)

/-- nested header convention of a dialect -/
def specHeader (dl : WkbDialect) (d : Dims) : HeaderSpec :=
  match dl with
  | .ewkb => ewkbHeader d
  | .spatiaLite => spatialiteHeader d
  | _ => ogcHeader d

theorem ogcTypeId_eq (d : Dims) (t : WkbType) : ogcTypeId d t = ogcCode d t.toU32 := by
  unfold ogcTypeId ogcCode
  cases d.z <;> cases d.m <;> simp <;> omega

theorem ewkbTypeId_eq (d : Dims) (s : Bool) (t : WkbType) : ewkbTypeId d s t = ewkbCode d s t.toU32 := by
  unfold ewkbTypeId ewkbCode
  cases d.z <;> cases d.m <;> cases s <;> rfl

theorem laterHdr_spec (dl : WkbDialect) (d : Dims) (t : WkbType) :
    specHeader dl d .le .le t.toU32 (laterHdr dl d t) := by
  cases dl <;> simp only [specHeader, laterHdr, ogcHeader, ewkbHeader, spatialiteHeader, ogcTypeId_eq,
    ewkbTypeId_eq, orderMark, true_and]

/-- configuration after the first header -/
structure Good (d : Dims) (dl : WkbDialect) (w : WkbWriter) : Prop where
  endian : w.endian = .le
  dims : w.dims = d
  dialect : w.dialect = dl
  later : w.firstHeader = false ∨ dl = .wkb

theorem Good.put {d : Dims} {dl : WkbDialect} {w : WkbWriter} (h : Good d dl w) (b : List Byte) :
    Good d dl (w.put b) := ⟨h.1, h.2, h.3, h.4⟩

theorem Good.nest {d : Dims} {dl : WkbDialect} {w : WkbWriter} (h : Good d dl w) (n : Nat) :
    Good d dl { w with nestingLevel := n } := ⟨h.1, h.2, h.3, h.4⟩

theorem Good.geom {d : Dims} {dl : WkbDialect} {w : WkbWriter} (h : Good d dl w) (s : GeomState) :
    Good d dl { w with geomState := s } := ⟨h.1, h.2, h.3, h.4⟩

theorem writeHeader_later {d : Dims} {dl : WkbDialect} {w : WkbWriter} (h : Good d dl w) (t : WkbType) :
    w.writeHeader t = .ok (w.put (laterHdr dl d t)) := by
  obtain ⟨he, hd, hdl, hl⟩ := h
  unfold writeHeader
  rw [hdl]
  cases dl with
  | wkb => simp [writeWkbHeader, laterHdr, he, hd, byteOrder]
  | ewkb =>
    have : w.firstHeader = false := by rcases hl with h | h; exact h; cases h
    simp [writeEwkbHeader, laterHdr, he, hd, byteOrder, this, WkbWriter.put]
  | geopackage =>
    have : w.firstHeader = false := by rcases hl with h | h; exact h; cases h
    simp [writeWkbHeader, laterHdr, he, hd, byteOrder, this]
  | mySQL =>
    have : w.firstHeader = false := by rcases hl with h | h; exact h; cases h
    simp [writeWkbHeader, laterHdr, he, hd, byteOrder, this]
  | spatiaLite =>
    have : w.firstHeader = false := by rcases hl with h | h; exact h; cases h
    simp [writeSpatialiteHeader, laterHdr, he, hd, this, WkbWriter.put]

/-- what `write_footer` appends -/
def foot (w : WkbWriter) : List Byte :=
  if w.dialect = .spatiaLite ∧ w.nestingLevel = 0 then [0xFE] else []

theorem writeFooter_eq (w : WkbWriter) : w.writeFooter = w.put (foot w) := by
  unfold writeFooter foot; split <;> simp [put_nil]

/-- feeding `evs` to `w` ends in `w'` with bytes satisfying `R` appended -/
def Emits (w w' : WkbWriter) (evs : List Ev) (R : List Byte → Prop) : Prop :=
  ∃ b, feed step w evs = .ok (w'.put b) ∧ R b

theorem Emits.mono {w w' : WkbWriter} {evs : List Ev} {R R' : List Byte → Prop}
    (h : Emits w w' evs R) (hR : ∀ b, R b → R' b) : Emits w w' evs R' := by
  obtain ⟨b, h1, h2⟩ := h
  exact ⟨b, h1, hR b h2⟩

theorem emits_members {α : Type} (w0 : WkbWriter) (R : α → List Byte → Prop) (f : Nat → α → List Ev)
    (xs : List α) (hx : ∀ x ∈ xs, ∀ i b0, Emits (w0.put b0) (w0.put b0) (f i x) (R x)) :
    ∀ i b0, Emits (w0.put b0) (w0.put b0) (evList f i xs) (Cat R xs) := by
  induction xs with
  | nil =>
    intro i b0
    exact ⟨[], by simp [evList, put_nil], rfl⟩
  | cons x xs ih =>
    intro i b0
    obtain ⟨b1, h1, r1⟩ := hx x (by simp) i b0
    obtain ⟨b2, h2, r2⟩ := ih (fun y hy => hx y (by simp [hy])) (i + 1) (b0 ++ b1)
    refine ⟨b1 ++ b2, ?_, b1, b2, rfl, r1, r2⟩
    rw [evList, feed_append, h1]
    simp only [put_put] at h2 ⊢
    rw [h2]
    simp

/-- One coordinate outside a multipoint. -/
theorem step_coord {d : Dims} {dl : WkbDialect} {w : WkbWriter} (h : Good d dl w)
    (hs : w.geomState ≠ .multiPointGeom) (c : Coord) (i : Nat) :
    step w (coordEv d.multi c i) = .ok (w.put (Spec.coordBytes .le (c.conform d))) := by
  obtain ⟨he, hd, _, _⟩ := h
  have key : ∀ z m, (d.multi = true → z = c.z ∧ m = c.m) →
      w.coordinate c.x c.y z m = .ok (w.put (Spec.coordBytes .le (c.conform d))) := by
    intro z m hzm
    unfold coordinate
    simp only [hs, if_false, he, hd]
    congr 2
    unfold coordBytes Spec.coordBytes Coord.conform
    cases hz : d.z <;> cases hm : d.m <;> simp [List.append_assoc] <;>
      (have := hzm (by simp [Dims.multi, hz, hm]); simp [this])
  unfold coordEv
  cases hmu : d.multi with
  | true => simp only [if_true, step]; exact key _ _ (fun _ => ⟨rfl, rfl⟩)
  | false => simp only [Bool.false_eq_true, if_false, step]; exact key _ _ (by simp [hmu])

/-- One coordinate inside a multipoint. -/
theorem step_coord_multipoint {d : Dims} {dl : WkbDialect} {w : WkbWriter} (h : Good d dl w)
    (hs : w.geomState = .multiPointGeom) (c : Coord) (i : Nat) :
    step w (coordEv d.multi c i) =
      .ok (w.put (laterHdr dl d .point ++ Spec.coordBytes .le (c.conform d))) := by
  have hw := writeHeader_later h .point
  obtain ⟨he, hd, _, _⟩ := h
  have key : ∀ z m, (d.multi = true → z = c.z ∧ m = c.m) →
      w.coordinate c.x c.y z m =
        .ok (w.put (laterHdr dl d .point ++ Spec.coordBytes .le (c.conform d))) := by
    intro z m hzm
    unfold coordinate
    simp only [hs, if_true, hw]
    rw [put_put]
    congr 3
    show coordBytes w.endian w.dims c.x c.y z m = _
    rw [he, hd]
    unfold coordBytes Spec.coordBytes Coord.conform
    cases hz : d.z <;> cases hm : d.m <;> simp [List.append_assoc] <;>
      (have := hzm (by simp [Dims.multi, hz, hm]); simp [this])
  unfold coordEv
  cases hmu : d.multi with
  | true => simp only [if_true, step]; exact key _ _ (fun _ => ⟨rfl, rfl⟩)
  | false => simp only [Bool.false_eq_true, if_false, step]; exact key _ _ (by simp [hmu])

theorem cat_map {α β : Type} (g : α → β) (R : β → List Byte → Prop) (xs : List α) (bs : List Byte) :
    Cat R (xs.map g) bs ↔ Cat (fun x => R (g x)) xs bs := by
  induction xs generalizing bs with
  | nil => simp [Cat]
  | cons x xs ih => simp only [List.map_cons, Cat, ih]

theorem emits_coords {d : Dims} {dl : WkbDialect} {w0 : WkbWriter} (h : Good d dl w0)
    (hs : w0.geomState ≠ .multiPointGeom) (cs : List Coord) (i : Nat) (b0 : List Byte) :
    Emits (w0.put b0) (w0.put b0) (evList (coordEvs d.multi) i cs)
      (Cat (fun c b => b = Spec.coordBytes .le c) (cs.map (Coord.conform d))) := by
  refine Emits.mono (emits_members w0 (fun c b => b = Spec.coordBytes .le (c.conform d)) _ cs ?_ i b0)
    (fun b hb => (cat_map _ _ _ _).mpr hb)
  intro c _ i b0
  refine ⟨_, ?_, rfl⟩
  simp only [coordEvs, feed, step_coord (h.put b0) hs c i]

/-- A begin event that appends `pre` and moves to `w0`, members that keep `w0`, an end event that
appends `post` and moves to `w2`. -/
theorem emits_bracket {α : Type} {w w0 w2 : WkbWriter} {k : GKind} {tagged : Bool} {idx : Nat}
    {f : Nat → α → List Ev} {xs : List α} {R : α → List Byte → Prop} {pre post : List Byte}
    (hbegin : w.gbegin k xs.length = .ok (w0.put pre))
    (hx : ∀ x ∈ xs, ∀ i b0, Emits (w0.put b0) (w0.put b0) (f i x) (R x))
    (hend : ∀ b, (w0.put b).gend k = .ok (w2.put (b ++ post))) :
    Emits w w2 (bracket k tagged idx f xs) (fun b => ∃ bb, b = pre ++ bb ++ post ∧ Cat R xs bb) := by
  obtain ⟨bb, hb, rb⟩ := emits_members w0 R f xs hx 0 pre
  refine ⟨pre ++ bb ++ post, ?_, bb, rfl, rb⟩
  simp only [bracket, feed, step, hbegin, feed_append, hb]
  rw [put_put, hend]

/-- `writeHeader` of type `t` moves from `w` to `w'` and appends `hb`. -/
structure HdrStep (w : WkbWriter) (t : WkbType) (w' : WkbWriter) (hb : List Byte) : Prop where
  hdr : ∀ nl, { w with nestingLevel := nl }.writeHeader t = .ok ({ w' with nestingLevel := nl }.put hb)
  state : w'.geomState = w.geomState
  nest : w'.nestingLevel = w.nestingLevel

theorem HdrStep.later {d : Dims} {dl : WkbDialect} {w : WkbWriter} (h : Good d dl w) (t : WkbType) :
    HdrStep w t w (laterHdr dl d t) :=
  ⟨fun nl => writeHeader_later (h.nest nl) t, rfl, rfl⟩

theorem HdrStep.self {w w' : WkbWriter} {t : WkbType} {hb : List Byte} (h : HdrStep w t w' hb) :
    w.writeHeader t = .ok (w'.put hb) := by
  have h1 := h.hdr w.nestingLevel
  have h2 : { w' with nestingLevel := w.nestingLevel } = w' := by rw [← h.nest]
  rw [h2] at h1
  exact h1

theorem headerAndSize_step {d : Dims} {dl : WkbDialect} {w w' : WkbWriter} {t : WkbType} {hb : List Byte}
    (h : HdrStep w t w' hb) (hg : Good d dl w') (n nl : Nat) :
    { w with nestingLevel := nl }.headerAndSize t n =
      .ok ({ w' with nestingLevel := nl }.put (hb ++ encU32 .le n)) := by
  unfold headerAndSize
  rw [h.hdr nl]
  simp only [put_put]
  have : ({ w' with nestingLevel := nl }.put hb).endian = .le := hg.endian
  rw [this]

theorem headerAndSize_self {d : Dims} {dl : WkbDialect} {w w' : WkbWriter} {t : WkbType} {hb : List Byte}
    (h : HdrStep w t w' hb) (hg : Good d dl w') (n : Nat) :
    w.headerAndSize t n = .ok (w'.put (hb ++ encU32 .le n)) := by
  unfold headerAndSize
  rw [h.self]
  simp only [put_put]
  have : (w'.put hb).endian = .le := hg.endian
  rw [this]

theorem foot_put (w : WkbWriter) (b : List Byte) : foot (w.put b) = foot w := rfl

/-- Containers that bump the nesting level. -/
theorem emits_nesting {α : Type} {d : Dims} {dl : WkbDialect} {w w' : WkbWriter} {k : GKind} {tagged : Bool}
    {hb : List Byte} {idx : Nat} {f : Nat → α → List Ev} {xs : List α} {R : α → List Byte → Prop}
    (hk : nests k = true) (hk' : k ≠ .multiPoint)
    (h : HdrStep w (kindType k) w' hb) (hg : Good d dl w')
    (hx : ∀ x ∈ xs, ∀ i b0, Emits ({ w' with nestingLevel := w.nestingLevel + 1 }.put b0)
      ({ w' with nestingLevel := w.nestingLevel + 1 }.put b0) (f i x) (R x)) :
    Emits w w' (bracket k tagged idx f xs) (fun b => ∃ bb, b = hb ++ (encU32 .le xs.length ++ bb) ++ foot w'
      ∧ Cat R xs bb) := by
  refine Emits.mono (emits_bracket (w0 := { w' with nestingLevel := w.nestingLevel + 1 })
    (pre := hb ++ encU32 .le xs.length) (post := foot w') ?_ hx ?_) ?_
  · have := headerAndSize_step h hg xs.length (w.nestingLevel + 1)
    cases k <;> simp [nests] at hk hk' <;> simpa [gbegin, nests] using this
  · intro b
    have hw : ({ w' with nestingLevel := w.nestingLevel + 1 }.put b).nestDec = .ok (w'.put b) := by
      simp only [nestDec, put, ← h.nest]
    cases k <;> simp [nests] at hk hk' <;> simp only [gend, nests, if_true, hw, writeFooter_eq, foot_put, put_put]
  · rintro b ⟨bb, rfl, hc⟩
    exact ⟨bb, by simp [List.append_assoc], hc⟩

/-- Containers that keep the nesting level and the state. -/
theorem emits_plain {α : Type} {d : Dims} {dl : WkbDialect} {w w' : WkbWriter} {k : GKind} {tagged : Bool}
    {hb : List Byte} {idx : Nat} {f : Nat → α → List Ev} {xs : List α} {R : α → List Byte → Prop}
    (hk : k = .lineString ∧ w.geomState ≠ .ringGeom ∨ k = .circularString ∨ k = .compoundCurve
      ∨ k = .curvePolygon ∨ k = .polyhedralSurface ∨ k = .tin)
    (h : HdrStep w (kindType k) w' hb) (hg : Good d dl w')
    (hx : ∀ x ∈ xs, ∀ i b0, Emits (w'.put b0) (w'.put b0) (f i x) (R x)) :
    Emits w w' (bracket k tagged idx f xs) (fun b => ∃ bb, b = hb ++ (encU32 .le xs.length ++ bb) ++ foot w'
      ∧ Cat R xs bb) := by
  refine Emits.mono (emits_bracket (w0 := w') (pre := hb ++ encU32 .le xs.length) (post := foot w') ?_ hx ?_) ?_
  · have := headerAndSize_self h hg xs.length
    rcases hk with ⟨rfl, hs⟩ | rfl | rfl | rfl | rfl | rfl <;>
      first
      | simpa [gbegin, nests, kindType, hs] using this
      | simpa [gbegin, nests] using this
  · intro b
    rcases hk with ⟨rfl, hs⟩ | rfl | rfl | rfl | rfl | rfl <;>
      simp [gend, nests, writeFooter_eq, foot_put, put_put]
  · rintro b ⟨bb, rfl, hc⟩
    exact ⟨bb, by simp [List.append_assoc], hc⟩

/-- Polygons and triangles: members in ring state. -/
theorem emits_ringed {α : Type} {d : Dims} {dl : WkbDialect} {w w' : WkbWriter} {k : GKind} {tagged : Bool}
    {hb : List Byte} {idx : Nat} {f : Nat → α → List Ev} {xs : List α} {R : α → List Byte → Prop}
    (hk : k = .polygon ∨ k = .triangle) (hs : w.geomState = .normal)
    (h : HdrStep w (kindType k) w' hb) (hg : Good d dl w')
    (hx : ∀ x ∈ xs, ∀ i b0, Emits ({ w' with geomState := .ringGeom }.put b0)
      ({ w' with geomState := .ringGeom }.put b0) (f i x) (R x)) :
    Emits w w' (bracket k tagged idx f xs) (fun b => ∃ bb, b = hb ++ (encU32 .le xs.length ++ bb) ++ foot w'
      ∧ Cat R xs bb) := by
  refine Emits.mono (emits_bracket (w0 := { w' with geomState := .ringGeom })
    (pre := hb ++ encU32 .le xs.length) (post := foot w') ?_ hx ?_) ?_
  · have := headerAndSize_self h hg xs.length
    rcases hk with rfl | rfl <;> (simp only [kindType] at this; simp only [gbegin, this]; rfl)
  · intro b
    have hw : { ({ w' with geomState := .ringGeom }.put b) with geomState := .normal } = w'.put b := by
      simp only [put]
      rw [← hs, ← h.state]
    rcases hk with rfl | rfl <;> simp only [gend, hw, writeFooter_eq, foot_put, put_put]
  · rintro b ⟨bb, rfl, hc⟩
    exact ⟨bb, by simp [List.append_assoc], hc⟩

/-- `MultiPoint` -/
theorem emits_multipoint {d : Dims} {dl : WkbDialect} {w w' : WkbWriter}
    {hb : List Byte} {idx : Nat} {cs : List Coord} (hs : w.geomState = .normal)
    (h : HdrStep w .multiPoint w' hb) (hg : Good d dl w') :
    Emits w w' (bracket .multiPoint true idx (coordEvs d.multi) cs)
      (fun b => ∃ bb, b = hb ++ (encU32 .le cs.length ++ bb) ++ foot w'
        ∧ Cat (fun c => Nested (specHeader dl d) .le 1 (fun e' b => b = Spec.coordBytes e' c))
            (cs.map (Coord.conform d)) bb) := by
  refine Emits.mono (emits_bracket
    (w0 := { w' with nestingLevel := w.nestingLevel + 1, geomState := .multiPointGeom })
    (pre := hb ++ encU32 .le cs.length) (post := foot w')
    (R := fun c => Nested (specHeader dl d) .le 1 (fun e' b => b = Spec.coordBytes e' (c.conform d)))
    ?_ ?_ ?_) ?_
  · have := headerAndSize_step h hg cs.length (w.nestingLevel + 1)
    simp only [gbegin, this]
    rfl
  · intro c _ i b0
    refine ⟨laterHdr dl d .point ++ Spec.coordBytes .le (c.conform d), ?_,
      .le, laterHdr dl d .point, _, rfl, laterHdr_spec dl d .point, rfl⟩
    have hgood : Good d dl ({ w' with nestingLevel := w.nestingLevel + 1, geomState := .multiPointGeom }.put b0) := ⟨hg.1, hg.2, hg.3, hg.4⟩
    have := step_coord_multipoint hgood rfl c i
    simp only [coordEvs, feed, this]
  · intro b
    have hw : ({ w' with nestingLevel := w.nestingLevel + 1, geomState := .multiPointGeom }.put b).nestDec
        = .ok ({ w' with geomState := .multiPointGeom }.put b) := by
      simp only [nestDec, put, ← h.nest]
    have hw2 : { ({ w' with geomState := .multiPointGeom }.put b) with geomState := .normal } = w'.put b := by
      simp only [put]
      rw [← hs, ← h.state]
    simp only [gend, hw, hw2, writeFooter_eq, foot_put, put_put]
  · rintro b ⟨bb, rfl, hc⟩
    exact ⟨bb, by simp [List.append_assoc], (cat_map _ _ _ _).mpr hc⟩

/-- A ring: count and coordinates only. -/
theorem emits_ring {d : Dims} {dl : WkbDialect} {w : WkbWriter} {idx : Nat} {cs : List Coord}
    (hs : w.geomState = .ringGeom) (hg : Good d dl w) (hf : foot w = []) (hlen : cs.length < 2 ^ 32) :
    Emits w w (lineEvs d.multi false idx cs) (PointsBody (cs.map (Coord.conform d)) .le) := by
  refine Emits.mono (emits_bracket (w0 := w) (pre := encU32 .le cs.length) (post := [])
    (R := fun c b => b = Spec.coordBytes .le (c.conform d)) ?_ ?_ ?_) ?_
  · simp [gbegin, hs, hg.endian]
  · intro c _ i b0
    refine ⟨_, ?_, rfl⟩
    have := step_coord (hg.put b0) (by simp [put, hs]) c i
    simp only [coordEvs, feed, this]
  · intro b
    simp [gend, nests, writeFooter_eq, foot_put, put_put, hf]
  · rintro b ⟨bb, rfl, hc⟩
    refine ⟨by simpa using hlen, bb, by simp, (cat_map _ _ _ _).mpr hc⟩

theorem counted_of {α : Type} {R : α → List Byte → Prop} {xs : List α} {bb : List Byte}
    (hlen : xs.length < 2 ^ 32) (hc : Cat R xs bb) : Counted .le R xs (encU32 .le xs.length ++ bb) :=
  ⟨hlen, bb, rfl, hc⟩

/-- line or circular string with header -/
theorem emits_points {d : Dims} {dl : WkbDialect} {w w' : WkbWriter} {k : GKind} {tagged : Bool}
    {hb : List Byte} {idx : Nat} {cs : List Coord} (hk : k = .lineString ∨ k = .circularString)
    (hs : w.geomState = .normal) (h : HdrStep w (kindType k) w' hb) (hg : Good d dl w')
    (hlen : cs.length < 2 ^ 32) :
    Emits w w' (bracket k tagged idx (coordEvs d.multi) cs)
      (fun b => ∃ bb, b = hb ++ bb ++ foot w' ∧ PointsBody (cs.map (Coord.conform d)) .le bb) := by
  refine Emits.mono (emits_plain (R := fun c b => b = Spec.coordBytes .le (c.conform d)) ?_ h hg ?_) ?_
  · rcases hk with rfl | rfl
    · left; simp [hs]
    · simp
  · intro c _ i b0
    refine ⟨_, ?_, rfl⟩
    have := step_coord (hg.put b0) (by simp [put, h.state, hs]) c i
    simp only [coordEvs, feed, this]
  · rintro b ⟨bb, rfl, hc⟩
    exact ⟨_, rfl, by simpa using hlen, bb, by simp, (cat_map _ _ _ _).mpr hc⟩

/-- polygon or triangle with header -/
theorem emits_rings {d : Dims} {dl : WkbDialect} {w w' : WkbWriter} {k : GKind} {tagged : Bool}
    {hb : List Byte} {idx : Nat} {rings : List (List Coord)} (hk : k = .polygon ∨ k = .triangle)
    (hs : w.geomState = .normal) (h : HdrStep w (kindType k) w' hb) (hg : Good d dl w')
    (hf : foot w' = []) (hlen : rings.length < 2 ^ 32) (hlens : ∀ l ∈ rings, l.length < 2 ^ 32) :
    Emits w w' (bracket k tagged idx (lineEvs d.multi false) rings)
      (fun b => ∃ bb, b = hb ++ bb ++ foot w' ∧ RingsBody (rings.map (List.map (Coord.conform d))) .le bb) := by
  refine Emits.mono (emits_ringed (R := fun r => PointsBody (r.map (Coord.conform d)) .le) hk hs h hg ?_) ?_
  · intro r hr i b0
    exact emits_ring rfl ((hg.geom _).put b0) hf (hlens r hr)
  · rintro b ⟨bb, rfl, hc⟩
    exact ⟨_, rfl, by simpa using hlen, bb, by simp, (cat_map _ _ _ _).mpr hc⟩

theorem nested_of {d : Dims} {dl : WkbDialect} {t : WkbType} {body : Endian → List Byte → Prop}
    {w : WkbWriter} (hf : foot w = []) :
    ∀ b, (∃ bb, b = laterHdr dl d t ++ bb ++ foot w ∧ body .le bb) →
      Nested (specHeader dl d) .le t.toU32 body b := by
  rintro b ⟨bb, rfl, hb⟩
  exact ⟨.le, laterHdr dl d t, bb, by simp [hf], laterHdr_spec dl d t, hb⟩

theorem emits_seg {d : Dims} {dl : WkbDialect} {w : WkbWriter} {idx : Nat} {s : Seg}
    (hs : w.geomState = .normal) (hg : Good d dl w) (hf : foot w = [])
    (hl : Geom.Lens.SegLens (· < 2 ^ 32) s) :
    Emits w w (segEvs d.multi idx s) (SegRel (specHeader dl d) .le (s.map (Coord.conform d))) := by
  cases s with
  | line cs =>
    exact Emits.mono (emits_points (k := .lineString) (tagged := false) (Or.inl rfl) hs (HdrStep.later hg _) hg hl)
      (nested_of hf)
  | circ cs =>
    exact Emits.mono (emits_points (k := .circularString) (tagged := true) (Or.inr rfl) hs (HdrStep.later hg _) hg hl)
      (nested_of hf)

theorem emits_compound {d : Dims} {dl : WkbDialect} {w w' : WkbWriter} {hb : List Byte} {idx : Nat} {ss : List Seg}
    (hs : w.geomState = .normal) (h : HdrStep w .compoundCurve w' hb) (hg : Good d dl w') (hf : foot w' = [])
    (hlen : ss.length < 2 ^ 32) (hl : ∀ s ∈ ss, Geom.Lens.SegLens (· < 2 ^ 32) s) :
    Emits w w' (bracket .compoundCurve true idx (segEvs d.multi) ss)
      (fun b => ∃ bb, b = hb ++ bb ++ foot w' ∧
        CompoundBody (specHeader dl d) (ss.map (Seg.map (Coord.conform d))) .le bb) := by
  refine Emits.mono (emits_plain (R := fun s => SegRel (specHeader dl d) .le (s.map (Coord.conform d)))
    (by simp) h hg ?_) ?_
  · intro s hsm i b0
    exact emits_seg (by simp [put, h.state, hs]) (hg.put b0) hf (hl s hsm)
  · rintro b ⟨bb, rfl, hc⟩
    exact ⟨_, rfl, by simpa using hlen, bb, by simp, (cat_map _ _ _ _).mpr hc⟩

theorem emits_curve {d : Dims} {dl : WkbDialect} {w : WkbWriter} {idx : Nat} {c : Curve}
    (hs : w.geomState = .normal) (hg : Good d dl w) (hf : foot w = [])
    (hl : Geom.Lens.CurveLens (· < 2 ^ 32) c) :
    Emits w w (curveEvs d.multi idx c) (CurveRel (specHeader dl d) .le (c.map (Coord.conform d))) := by
  cases c with
  | seg s => exact emits_seg hs hg hf hl
  | compound ss =>
    exact Emits.mono (emits_compound hs (HdrStep.later hg _) hg hf hl.1 hl.2) (nested_of hf)

theorem emits_curvepolygon {d : Dims} {dl : WkbDialect} {w w' : WkbWriter} {hb : List Byte} {idx : Nat}
    {rings : List Curve}
    (hs : w.geomState = .normal) (h : HdrStep w .curvePolygon w' hb) (hg : Good d dl w') (hf : foot w' = [])
    (hlen : rings.length < 2 ^ 32) (hl : ∀ c ∈ rings, Geom.Lens.CurveLens (· < 2 ^ 32) c) :
    Emits w w' (bracket .curvePolygon true idx (curveEvs d.multi) rings)
      (fun b => ∃ bb, b = hb ++ bb ++ foot w' ∧
        CurvesBody (specHeader dl d) (rings.map (Curve.map (Coord.conform d))) .le bb) := by
  refine Emits.mono (emits_plain (R := fun c => CurveRel (specHeader dl d) .le (c.map (Coord.conform d)))
    (by simp) h hg ?_) ?_
  · intro c hc i b0
    exact emits_curve (by simp [put, h.state, hs]) (hg.put b0) hf (hl c hc)
  · rintro b ⟨bb, rfl, hc⟩
    exact ⟨_, rfl, by simpa using hlen, bb, by simp, (cat_map _ _ _ _).mpr hc⟩

theorem emits_surface {d : Dims} {dl : WkbDialect} {w : WkbWriter} {idx : Nat} {s : Surface}
    (hs : w.geomState = .normal) (hg : Good d dl w) (hf : foot w = [])
    (hl : Geom.Lens.SurfaceLens (· < 2 ^ 32) s) :
    Emits w w (surfaceEvs d.multi idx s) (SurfaceRel (specHeader dl d) .le (s.map (Coord.conform d))) := by
  cases s with
  | polygon rings =>
    exact Emits.mono (emits_rings (k := .polygon) (Or.inl rfl) hs (HdrStep.later hg _) hg hf hl.1 hl.2)
      (nested_of hf)
  | curvePolygon rings =>
    exact Emits.mono (emits_curvepolygon hs (HdrStep.later hg _) hg hf hl.1 hl.2) (nested_of hf)

/-- WKB type of a geometry -/
def geomType : Geom → WkbType
  | .emptyPoint => .point
  | .point _ => .point
  | .multiPoint _ => .multiPoint
  | .lineString _ => .lineString
  | .circularString _ => .circularString
  | .compoundCurve _ => .compoundCurve
  | .multiLineString _ => .multiLineString
  | .multiCurve _ => .multiCurve
  | .polygon _ => .polygon
  | .triangle _ => .triangle
  | .curvePolygon _ => .curvePolygon
  | .multiPolygon _ => .multiPolygon
  | .polyhedralSurface _ => .polyhedralSurface
  | .tin _ => .tin
  | .multiSurface _ => .multiSurface
  | .collection _ => .geometryCollection

theorem stored_collection (d : Dims) (gs : List Geom) :
    (Geom.collection gs).stored d = .collection (gs.map (Geom.stored d)) := by
  have h1 : ∀ gs, Geom.mapList (Coord.conform d) gs = gs.map (Geom.map (Coord.conform d)) := by
    intro gs; induction gs with
    | nil => rfl
    | cons g gs ih => simp [Geom.mapList, ih]
  have h2 : ∀ gs, Geom.nanEmptyList gs = gs.map Geom.nanEmpty := by
    intro gs; induction gs with
    | nil => rfl
    | cons g gs ih => simp [Geom.nanEmptyList, ih]
  simp only [Geom.stored, Geom.map, Geom.nanEmpty, h1, h2, List.map_map]
  rfl

theorem geomType_toU32 (d : Dims) (g : Geom) : (geomType g).toU32 = typeCode (g.stored d) := by
  cases g <;> simp only [geomType, Geom.stored, Geom.map, Geom.nanEmpty, typeCode, WkbType.toU32]
  rename_i c
  by_cases h : AllNaN (c.conform d)
  · simp only [h, if_true]
  · simp only [h, if_false]

theorem hasEmptyPointList_iff (gs : List Geom) :
    Geom.hasEmptyPointList gs = false ↔ ∀ g ∈ gs, g.hasEmptyPoint = false := by
  induction gs with
  | nil => simp [Geom.hasEmptyPointList]
  | cons g gs ih => simp [Geom.hasEmptyPointList, ih]

theorem lensList_iff (P : Nat → Prop) (gs : List Geom) : Geom.LensList P gs ↔ ∀ g ∈ gs, g.Lens P := by
  induction gs with
  | nil => simp [Geom.LensList]
  | cons g gs ih => simp [Geom.LensList, ih]

/-- Geometries whose parts never end at nesting level 0 in the SpatiaLite writer. -/
def slSafe : Geom → Bool
  | .polygon rs | .triangle rs => rs.isEmpty
  | .compoundCurve ss => ss.isEmpty
  | .curvePolygon cs => cs.isEmpty
  | .polyhedralSurface ps | .tin ps => ps.isEmpty
  | _ => true

theorem foot_nest (w : WkbWriter) (n : Nat) : foot { w with nestingLevel := n + 1 } = [] := by
  simp [foot]

/-- The writer appends the specification encoding of what it can store. -/
theorem emits_geom {d : Dims} {dl : WkbDialect} (g : Geom) :
    ∀ (w w' : WkbWriter) (hb : List Byte) (idx : Nat), w.geomState = .normal →
      HdrStep w (geomType g) w' hb → Good d dl w' → g.Fits → g.hasEmptyPoint = false →
      (foot w' = [] ∨ slSafe g = true) →
      Emits w w' (g.events d.multi idx) (fun b => ∃ bb, b = hb ++ bb ++ foot w' ∧
        Body d (specHeader dl d) (g.stored d) .le bb) := by
  induction g using Geom.ind with
  | emptyPoint => intro _ _ _ _ _ _ _ _ h; simp [Geom.hasEmptyPoint] at h
  | point c =>
    intro w w' hb idx hs h hg _ _ _
    refine ⟨hb ++ Spec.coordBytes .le (c.conform d) ++ foot w', ?_, _, rfl, ?_⟩
    · have h1 := h.self
      simp only [geomType] at h1
      have h2 := step_coord (hg.put hb) (by simp [put, h.state, hs]) c 0
      have h3 : step w (.gbegin .point true 1 idx) = .ok (w'.put hb) := h1
      have h4 : ∀ b, step (w'.put b) (.gend .point true idx) = .ok (w'.put (b ++ foot w')) := by
        intro b; simp [step, gend, nests, writeFooter_eq, foot_put, put_put]
      simp only [Geom.events, feed, h3, h2, put_put, h4]
    · simp only [Geom.stored, Geom.map, Geom.nanEmpty]
      split
      · rename_i hn
        refine ⟨c.conform d, ?_, hn, rfl⟩
        unfold HasDims Coord.conform
        cases d.z <;> cases d.m <;> simp
      · rename_i hn
        exact ⟨hn, rfl⟩
  | multiPoint cs =>
    intro w w' hb idx hs h hg hl _ _
    have hl' : cs.length < 2 ^ 32 := hl
    refine Emits.mono (emits_multipoint hs h hg) ?_
    rintro b ⟨bb, rfl, hc⟩
    exact ⟨_, rfl, by simpa using hl', bb, by simp, hc⟩
  | lineString cs =>
    intro w w' hb idx hs h hg hl _ _
    exact emits_points (Or.inl rfl) hs h hg hl
  | circularString cs =>
    intro w w' hb idx hs h hg hl _ _
    exact emits_points (Or.inr rfl) hs h hg hl
  | compoundCurve ss =>
    intro w w' hb idx hs h hg hl _ hf
    by_cases he : foot w' = []
    · exact emits_compound hs h hg he hl.1 hl.2
    · have : ss = [] := by simpa [he, slSafe] using hf
      subst this
      refine Emits.mono (emits_plain (R := fun _ _ => True) (by simp) h hg (by simp)) ?_
      rintro b ⟨bb, rfl, hc⟩
      exact ⟨_, rfl, counted_of (by simp) hc⟩
  | multiLineString ls =>
    intro w w' hb idx hs h hg hl _ _
    refine Emits.mono (emits_nesting (R := fun l => Nested (specHeader dl d) .le 2
      (PointsBody (l.map (Coord.conform d)))) rfl (by simp) h hg ?_) ?_
    · intro l hlm i b0
      have hg2 : Good d dl ({ w' with nestingLevel := w.nestingLevel + 1 }.put b0) := (hg.nest _).put b0
      exact Emits.mono (emits_points (k := .lineString) (tagged := false) (Or.inl rfl)
        (by simp [put, h.state, hs]) (HdrStep.later hg2 _) hg2 (hl.2 l hlm)) (nested_of (foot_nest _ _))
    · rintro b ⟨bb, rfl, hc⟩
      exact ⟨_, rfl, by simpa using hl.1, bb, by simp, (cat_map _ _ _ _).mpr hc⟩
  | multiCurve cs =>
    intro w w' hb idx hs h hg hl _ _
    refine Emits.mono (emits_nesting (R := fun c => CurveRel (specHeader dl d) .le (c.map (Coord.conform d)))
      rfl (by simp) h hg ?_) ?_
    · intro c hcm i b0
      exact emits_curve (by simp [put, h.state, hs]) ((hg.nest _).put b0) (foot_nest _ _) (hl.2 c hcm)
    · rintro b ⟨bb, rfl, hc⟩
      exact ⟨_, rfl, by simpa using hl.1, bb, by simp, (cat_map _ _ _ _).mpr hc⟩
  | polygon rs =>
    intro w w' hb idx hs h hg hl _ hf
    by_cases he : foot w' = []
    · exact emits_rings (Or.inl rfl) hs h hg he hl.1 hl.2
    · have : rs = [] := by simpa [he, slSafe] using hf
      subst this
      refine Emits.mono (emits_ringed (R := fun _ _ => True) (Or.inl rfl) hs h hg (by simp)) ?_
      rintro b ⟨bb, rfl, hc⟩
      exact ⟨_, rfl, counted_of (by simp) hc⟩
  | triangle rs =>
    intro w w' hb idx hs h hg hl _ hf
    by_cases he : foot w' = []
    · exact emits_rings (Or.inr rfl) hs h hg he hl.1 hl.2
    · have : rs = [] := by simpa [he, slSafe] using hf
      subst this
      refine Emits.mono (emits_ringed (R := fun _ _ => True) (Or.inr rfl) hs h hg (by simp)) ?_
      rintro b ⟨bb, rfl, hc⟩
      exact ⟨_, rfl, counted_of (by simp) hc⟩
  | curvePolygon rs =>
    intro w w' hb idx hs h hg hl _ hf
    by_cases he : foot w' = []
    · exact emits_curvepolygon hs h hg he hl.1 hl.2
    · have : rs = [] := by simpa [he, slSafe] using hf
      subst this
      refine Emits.mono (emits_plain (R := fun _ _ => True) (by simp) h hg (by simp)) ?_
      rintro b ⟨bb, rfl, hc⟩
      exact ⟨_, rfl, counted_of (by simp) hc⟩
  | multiPolygon ps =>
    intro w w' hb idx hs h hg hl _ _
    refine Emits.mono (emits_nesting (R := fun p => Nested (specHeader dl d) .le 3
      (RingsBody (p.map (List.map (Coord.conform d))))) rfl (by simp) h hg ?_) ?_
    · intro p hp i b0
      have hg2 : Good d dl ({ w' with nestingLevel := w.nestingLevel + 1 }.put b0) := (hg.nest _).put b0
      exact Emits.mono (emits_rings (k := .polygon) (Or.inl rfl) (by simp [put, h.state, hs])
        (HdrStep.later hg2 _) hg2 (foot_nest _ _) (hl.2 p hp).1 (hl.2 p hp).2) (nested_of (foot_nest _ _))
    · rintro b ⟨bb, rfl, hc⟩
      exact ⟨_, rfl, by simpa using hl.1, bb, by simp, (cat_map _ _ _ _).mpr hc⟩
  | polyhedralSurface ps =>
    intro w w' hb idx hs h hg hl _ hf
    by_cases he : foot w' = []
    · refine Emits.mono (emits_plain (R := fun p => Nested (specHeader dl d) .le 3
        (RingsBody (p.map (List.map (Coord.conform d))))) (by simp) h hg ?_) ?_
      · intro p hp i b0
        exact Emits.mono (emits_rings (k := .polygon) (Or.inl rfl) (by simp [put, h.state, hs])
          (HdrStep.later (hg.put b0) _) (hg.put b0) he (hl.2 p hp).1 (hl.2 p hp).2) (nested_of (w := w') he)
      · rintro b ⟨bb, rfl, hc⟩
        exact ⟨_, rfl, by simpa using hl.1, bb, by simp, (cat_map _ _ _ _).mpr hc⟩
    · have : ps = [] := by simpa [he, slSafe] using hf
      subst this
      refine Emits.mono (emits_plain (R := fun _ _ => True) (by simp) h hg (by simp)) ?_
      rintro b ⟨bb, rfl, hc⟩
      exact ⟨_, rfl, counted_of (by simp) hc⟩
  | tin ps =>
    intro w w' hb idx hs h hg hl _ hf
    by_cases he : foot w' = []
    · refine Emits.mono (emits_plain (R := fun p => Nested (specHeader dl d) .le 17
        (RingsBody (p.map (List.map (Coord.conform d))))) (by simp) h hg ?_) ?_
      · intro p hp i b0
        exact Emits.mono (emits_rings (k := .triangle) (Or.inr rfl) (by simp [put, h.state, hs])
          (HdrStep.later (hg.put b0) _) (hg.put b0) he (hl.2 p hp).1 (hl.2 p hp).2) (nested_of (w := w') he)
      · rintro b ⟨bb, rfl, hc⟩
        exact ⟨_, rfl, by simpa using hl.1, bb, by simp, (cat_map _ _ _ _).mpr hc⟩
    · have : ps = [] := by simpa [he, slSafe] using hf
      subst this
      refine Emits.mono (emits_plain (R := fun _ _ => True) (by simp) h hg (by simp)) ?_
      rintro b ⟨bb, rfl, hc⟩
      exact ⟨_, rfl, counted_of (by simp) hc⟩
  | multiSurface ss =>
    intro w w' hb idx hs h hg hl _ _
    refine Emits.mono (emits_nesting (R := fun s => SurfaceRel (specHeader dl d) .le (s.map (Coord.conform d)))
      rfl (by simp) h hg ?_) ?_
    · intro c hcm i b0
      exact emits_surface (by simp [put, h.state, hs]) ((hg.nest _).put b0) (foot_nest _ _) (hl.2 c hcm)
    · rintro b ⟨bb, rfl, hc⟩
      exact ⟨_, rfl, by simpa using hl.1, bb, by simp, (cat_map _ _ _ _).mpr hc⟩
  | collection gs ih =>
    intro w w' hb idx hs h hg hl hne _
    have hne' := (hasEmptyPointList_iff gs).mp (by simpa [Geom.hasEmptyPoint] using hne)
    have hl' := (lensList_iff _ gs).mp hl.2
    rw [events_collection, stored_collection]
    refine Emits.mono (emits_nesting (R := fun g => Nested (specHeader dl d) .le (typeCode (g.stored d))
      (Body d (specHeader dl d) (g.stored d))) rfl (by simp) h hg ?_) ?_
    · intro g hgm i b0
      have hg2 : Good d dl ({ w' with nestingLevel := w.nestingLevel + 1 }.put b0) := (hg.nest _).put b0
      refine Emits.mono (ih g hgm _ _ _ i (by simp [put, h.state, hs]) (HdrStep.later hg2 (geomType g)) hg2
        (hl' g hgm) (hne' g hgm) (Or.inl (foot_nest _ _))) ?_
      rw [← geomType_toU32 d g]
      exact nested_of (foot_nest _ _)
    · rintro b ⟨bb, rfl, hc⟩
      refine ⟨_, rfl, by simpa using hl.1, bb, by simp, ?_⟩
      rw [bodies_iff]
      exact (cat_map (Geom.stored d) (fun g => Nested (specHeader dl d) .le (typeCode g)
        (Body d (specHeader dl d) g)) _ _).mpr hc

end WkbWriter
end Geozero
