import Verif.Lemmas.JsonScan
import Verif.Props.GeoJson

/-
C22, C24: the output is JSON exactly if all numbers are finite.
-/

namespace Geozero
open Json Spec

/-- For every geometry of a GeoJSON type, with floats printed as Rust does: the text written for it is JSON if and only if all ordinates
that are written are finite, and then it is the RFC 7946 object of the geometry. -/
theorem C22_json_iff (fmt : Fmt) (h64 : PrintsFloats fmt.f64) (multi : Bool) (g : Geom) (hg : g.IsGeoJson fun _ => True)
    (dims : Dims) :
    ∃ w, feed (GeoJsonWriter.step fmt) { dims := dims } ((g.events multi 0).map FEv.geom) = .ok w ∧
      ((∃ v, IsText w.out v) ↔ g.IsGeoJson (fun c => c.AllOrds (fun x => IsNumber (fmt.f64 x)) multi)) ∧
      ∀ v, IsText w.out v → v = Rfc7946.geometry fmt.f64 multi g := by
  refine ⟨_, by rw [GeoJsonWriter.feed_geom, GeoJsonWriter.run_geom fmt.f64 multi hg], ?_⟩
  simp only [GeoJsonWriter.sep, GeoJsonWriter.put, Nat.lt_irrefl, if_false, List.nil_append, gt_iff_lt]
  by_cases h : g.IsGeoJson (fun c => c.AllOrds (fun x => IsNumber (fmt.f64 x)) multi)
  · have hv := GeoJsonWriter.isText_value (GeoJsonWriter.isValue_geom fmt.f64 multi g h)
    exact ⟨iff_of_true ⟨_, hv⟩ h, fun v h' => h'.unique hv⟩
  · have hn := JsonScan.not_text (JsonScan.geom_dirty h64 multi g hg h)
    exact ⟨iff_of_false hn h, fun v h' => absurd ⟨v, h'⟩ hn⟩

/-- For every dataset whose features have plain names and strings, no binary values and geometries of GeoJSON types, delivered with
property indices 0, 1, ... and geometry index 0, with floats printed as Rust does: the complete output is JSON if and only if all floats
and all ordinates that are written are finite, and then it is the feature collection. -/
theorem C24_json_iff (fmt : Fmt) (h32 : PrintsFloats fmt.f32) (h64 : PrintsFloats fmt.f64) (decode : Text → Json) (multi : Bool)
    (name : Option Text) (ds : List FeatureData) (hn : ∀ n, name = some n → PlainText n ∧ '"' ∉ n)
    (hd : ∀ d ∈ ds, d.PrintableText decode) (dims : Dims) :
    ∃ w, feed (GeoJsonWriter.step fmt) { dims := dims } (datasetEvs name (ds.map (FeatureData.feat multi))) = .ok w ∧
      ((∃ v, IsText w.out v) ↔ ∀ d ∈ ds, d.Finite fmt multi) ∧
      ∀ v, IsText w.out v → v = Rfc7946.featureCollection fmt decode multi name ds := by
  refine ⟨_, GeoJsonWriter.feed_dataset fmt multi name ds (fun d h => (hd d h).geom) _, ?_⟩
  simp only [GeoJsonWriter.put, List.nil_append]
  by_cases h : ∀ d ∈ ds, d.Finite fmt multi
  · have hv := GeoJsonWriter.isText_value (GeoJsonWriter.isValue_dataset fmt decode multi name ds hn
      fun d hm => JsonScan.printable_feat (hd d hm) (h d hm))
    exact ⟨iff_of_true ⟨_, hv⟩ h, fun v h' => h'.unique hv⟩
  · have hx := JsonScan.not_text (JsonScan.dataset_dirty h32 h64 decode multi name hn ds hd h)
    exact ⟨iff_of_false hx h, fun v h' => absurd ⟨v, h'⟩ hx⟩

/-- non-vacuity: a printer that prints one number as `NaN` and the others as `1`; a feature with that number as a property and the
point without it: the output is no JSON -/
example : ∃ w, feed (GeoJsonWriter.step ⟨fun _ => txt "1", fun x => if x = 0#64 then txt "NaN" else txt "1"⟩) {}
      (datasetEvs (some (txt "d")) ([⟨some [(txt "a", .double 0#64)], some (.point ⟨1#64, 1#64, none, none⟩), false⟩].map
        (FeatureData.feat false))) = .ok w ∧ ¬ ∃ v, IsText w.out v := by
  have one : IsNumber (txt "1") :=
    ⟨[], txt "1", [], [], .inl rfl, .inr ⟨'1', [], rfl, rfl, by decide, by simp⟩, .inl rfl, .inl rfl, rfl⟩
  have nan : ¬ IsNumber (txt "NaN") := fun h => (JsonScan.clean_number h).not_dirty (by decide)
  obtain ⟨w, hw, hiff, -⟩ := C24_json_iff ⟨fun _ => txt "1", fun x => if x = 0#64 then txt "NaN" else txt "1"⟩
    (fun _ => .inl one) (fun x => by by_cases h : x = 0#64 <;> simp [h, one]) (fun _ => .null) false (some (txt "d"))
    [⟨some [(txt "a", .double 0#64)], some (.point ⟨1#64, 1#64, none, none⟩), false⟩]
    (by intro n hn; cases hn; decide)
    (by
      intro d hd
      simp only [List.mem_singleton] at hd
      subst hd
      refine ⟨?_, ?_, ?_⟩
      · intro ps hps p hp
        cases hps
        simp only [List.mem_singleton] at hp
        subst hp
        decide
      · intro ps hps p hp
        cases hps
        simp only [List.mem_singleton] at hp
        subst hp
        trivial
      · intro g hg
        cases hg
        exact .point trivial) {}
  refine ⟨w, hw, fun h => nan ?_⟩
  have := (hiff.1 h _ (List.mem_singleton.2 rfl)).vals _ rfl _ (List.mem_singleton.2 rfl)
  simpa [ColVal.Finite] using this

end Geozero
