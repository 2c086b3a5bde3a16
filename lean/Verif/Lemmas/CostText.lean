import Verif.Lemmas.CostWrite
import Verif.Model.Wkt
import Verif.Model.GeoJson
import Verif.Model.Svg

/-
How much the text writers write for each call.
-/

namespace Geozero

namespace WktWriter

/-- the characters of the `SRID=..;` in front of a text -/
def sridChars (w : WktWriter) : Nat :=
  match w.dialect, w.srid with
  | .ewkt, some v => if v = 0 then 0 else 6 + (toString v).toList.length
  | _, _ => 0

/-- what is written, without the `SRID=..;` -/
def mass (w : WktWriter) : Nat := if w.firstHeader then w.out.length else w.out.length - w.sridChars

theorem mass_put (w : WktWriter) (t : Text) : (w.put t).mass ≤ w.mass + t.length := by
  have : (w.put t).sridChars = w.sridChars := rfl
  unfold mass
  rw [this]
  unfold put
  simp only [List.length_append]
  split <;> omega

theorem mass_comma (w : WktWriter) (i : Nat) : (w.comma i).mass ≤ w.mass + 1 := by
  unfold comma
  split
  · exact mass_put w _
  · omega

theorem mass_header (w : WktWriter) : w.header.mass ≤ w.mass := by
  unfold header
  split
  · next h =>
    simp only [Bool.and_eq_true, beq_iff_eq] at h
    obtain ⟨hf, hd⟩ := h
    split
    · next hs => simp [mass, hf]
    · next v hs =>
      split
      · simp [mass, hf]
      · next hv =>
        have h1 : (txt "SRID=").length = 5 := rfl
        have h2 : (txt ";").length = 1 := rfl
        simp only [mass, hf, sridChars, hd, List.length_append, if_true, Bool.false_eq_true, if_false, hv, h1, h2]
        rw [hs]
        simp only [hv, if_false]
        omega
  · omega

theorem mass_sizes (w : WktWriter) (l : List Nat) : mass { w with sizes := l } = w.mass := rfl

theorem mass_geomBegin (w : WktWriter) (t : Text) (tagged : Bool) (n i : Nat) :
    (w.geomBegin t tagged n i).mass ≤ w.mass + 7 + t.length := by
  unfold geomBegin
  have h1 := mass_header w
  have h2 := mass_comma w.header i
  have h3 : (if tagged then (w.header.comma i).put t else w.header.comma i).mass ≤ w.mass + 1 + t.length := by
    split
    · have := mass_put (w.header.comma i) t; omega
    · omega
  have h4 := mass_sizes (if tagged then (w.header.comma i).put t else w.header.comma i)
    (n :: (if tagged then (w.header.comma i).put t else w.header.comma i).sizes)
  rw [← h4] at h3
  simp only
  clear h4
  revert h3
  generalize hv : (WktWriter.mk _ _ _ _ (n :: _) _) = v
  intro h3
  split
  · have h5 : (if tagged then v.put (txt " ") else v).mass ≤ v.mass + 1 := by
      split
      · exact mass_put v _
      · omega
    have h6 := mass_put (if tagged then v.put (txt " ") else v) (txt "EMPTY")
    have : (txt "EMPTY").length = 5 := rfl
    omega
  · have h6 := mass_put v (txt "(")
    have : (txt "(").length = 1 := rfl
    omega

theorem mass_geomEnd (w w' : WktWriter) (h : w.geomEnd = .ok w') : w'.mass ≤ w.mass + 1 := by
  unfold geomEnd at h
  split at h
  · obtain rfl := (Except.ok.inj h).symm
    split
    · exact mass_put { w with sizes := _ } _
    · rw [mass_sizes]; omega
  · cases h

theorem length_tag (k : GKind) : (tag k).length ≤ 18 := by cases k <;> decide

theorem mass_step (num : F64 → Text) (B : Nat) (hB : ∀ x, (num x).length ≤ B) (w : WktWriter) (e : Ev) (w' : WktWriter)
    (h : w.step num e = .ok w') : w'.mass ≤ w.mass + (25 + 4 * B) := by
  have hl : (txt "EMPTY").length = 5 := rfl
  have hs : (txt " ").length = 1 := rfl
  have ho : ∀ o, (optNum num o).length ≤ 1 + B := by
    intro o
    cases o with
    | none => simp [optNum]
    | some v => simp only [optNum, List.length_append, hs]; have := hB v; omega
  cases e with
  | srid s =>
    obtain rfl := (Except.ok.inj h).symm
    unfold mass
    simp only
    split
    · omega
    · have : w.sridChars ≤ sridChars { w with srid := w.srid.or s } := by
        unfold sridChars
        cases w.dialect <;> cases w.srid <;> simp
      omega
  | xy x y i =>
    obtain rfl := (Except.ok.inj h).symm
    have h1 := mass_comma w i
    have hx := hB x
    have hy := hB y
    unfold xy
    simp only
    split
    · have := mass_put (w.comma i) (txt "EMPTY"); omega
    · have := mass_put (w.comma i) (num x ++ txt " " ++ num y)
      simp only [List.length_append] at this
      omega
  | coord x y z m t tm i =>
    obtain rfl := (Except.ok.inj h).symm
    have h1 := mass_comma w i
    have hx := hB x
    have hy := hB y
    have hz := ho z
    have hm := ho m
    unfold coordinate
    simp only
    split
    · have := mass_put (w.comma i) (txt "EMPTY"); omega
    · have := mass_put (w.comma i) (num x ++ txt " " ++ num y ++ optNum num z ++ optNum num m)
      simp only [List.length_append] at this
      omega
  | emptyPoint i =>
    have h1 := mass_geomEnd (w.geomBegin (txt "POINT") true 0 i) _ h
    have h2 := mass_geomBegin w (txt "POINT") true 0 i
    have : (txt "POINT").length = 5 := rfl
    omega
  | gbegin k tagged n i =>
    have hk := length_tag k
    simp only [step] at h
    split at h
    · obtain rfl := (Except.ok.inj h).symm
      have h2 := mass_geomBegin w (tag .point) true 1 i
      omega
    all_goals
      obtain rfl := (Except.ok.inj h).symm
      first
      | have h2 := mass_geomBegin w (tag .lineString) tagged n i; omega
      | have h2 := mass_geomBegin w (tag .polygon) tagged n i; omega
      | have h2 := mass_geomBegin w (tag .triangle) tagged n i; omega
      | have h2 := mass_geomBegin w (tag k) true n i; omega
  | gend k t i =>
    have := mass_geomEnd w w' h
    omega

theorem out_le_mass (w : WktWriter) : w.out.length ≤ w.mass + w.sridChars := by
  unfold mass; split <;> omega

end WktWriter

namespace GeoJsonWriter

theorem length_comma (w : GeoJsonWriter) (i : Nat) : (w.comma i).out.length ≤ w.out.length + 1 := by
  unfold comma
  split
  · simp [put, txt]
  · omega

theorem length_beginText (k : GKind) (tagged : Bool) (t : Text) (h : beginText k tagged = some t) : t.length ≤ 46 := by
  cases k <;> cases tagged <;> first | (obtain rfl := Option.some.inj h; decide) | cases h

theorem length_endText (k : GKind) (tagged : Bool) (t : Text) (h : endText k tagged = some t) : t.length ≤ 2 := by
  cases k <;> cases tagged <;> first | (obtain rfl := Option.some.inj h; decide) | cases h

theorem length_geomStep (num : F64 → Text) (B : Nat) (hB : ∀ x, (num x).length ≤ B) (w : GeoJsonWriter) (e : Ev) :
    (w.geomStep num e).out.length ≤ w.out.length + (47 + 3 * B) := by
  have h1 : (txt "[").length = 1 := rfl
  have h2 : (txt ",").length = 1 := rfl
  have h3 : (txt "]").length = 1 := rfl
  cases e with
  | srid s => simp only [geomStep]; omega
  | xy x y i =>
    have := length_comma w i
    have hx := hB x
    have hy := hB y
    simp only [geomStep, put, List.length_append]
    omega
  | coord x y z m t tm i =>
    have := length_comma w i
    have hx := hB x
    have hy := hB y
    have hz : (optZ num z).length ≤ 1 + B := by
      cases z with
      | none => simp [optZ]
      | some v => simp only [optZ, List.length_append]; have := hB v; omega
    simp only [geomStep, put, List.length_append]
    omega
  | emptyPoint i =>
    have := length_comma w i
    have h4 : (txt "{\"type\": \"Point\", \"coordinates\": []}").length = 36 := rfl
    simp only [geomStep, put, List.length_append]
    omega
  | gbegin k tagged n i =>
    simp only [geomStep]
    split
    · omega
    · next t ht =>
      have := length_comma w i
      have := length_beginText k tagged t ht
      simp only [put, List.length_append]
      omega
  | gend k tagged i =>
    simp only [geomStep]
    split
    · omega
    · next t ht =>
      have := length_endText k tagged t ht
      simp only [put, List.length_append]
      omega

end GeoJsonWriter

namespace SvgWriter

theorem length_geomStep (fo : SvgNum) (B : Nat) (hB : ∀ x, (fo.num x).length ≤ B) (w : SvgWriter) (e : Ev) (w' : SvgWriter)
    (h : w.geomStep fo e = .ok w') : w'.out.length ≤ w.out.length + (11 + 2 * B) := by
  have put_le : ∀ (t : Text), t.length ≤ 11 + 2 * B → (w.put t).out.length ≤ w.out.length + (11 + 2 * B) := by
    intro t ht; simp only [put, List.length_append]; omega
  have lit : ∀ (t : Text), t.length ≤ 11 → t.length ≤ 11 + 2 * B := fun t h => by omega
  unfold geomStep at h
  split at h
  · next x y i =>
    obtain rfl := (Except.ok.inj h).symm
    have hx := hB x
    have hy := hB (if w.invertY then y.negate else y)
    have h1 : (txt " ").length = 1 := rfl
    exact put_le _ (by simp only [List.length_append]; omega)
  · cases h
  all_goals
    obtain rfl := (Except.ok.inj h).symm
    first
    | exact put_le _ (lit _ (by decide))
    | exact put_le _ (lit _ (by split <;> decide))
    | omega

end SvgWriter

end Geozero
