import Verif.Lemmas.Output

/-
The writers of Model/Output.lean on an output that accepts everything are the writers of the other modules.
-/

namespace Geozero
open Spec

theorem utf8Bytes_append (a b : Text) : utf8Bytes (a ++ b) = utf8Bytes a ++ utf8Bytes b := by
  simp [utf8Bytes, List.flatMap_append]

namespace Out
variable {γ σ : Type}

theorem pureActs_append (o : Out γ σ) (as bs : List (Act γ σ)) (s : σ) :
    o.pureActs (as ++ bs) s = match o.pureActs as s with
      | .ok s' => o.pureActs bs s'
      | .error e => .error e := by
  induction as generalizing s with
  | nil => rfl
  | cons a as ih => cases a <;> simp only [List.cons_append, pureActs, ih]

theorem pureActs_append_ok (o : Out γ σ) (as bs : List (Act γ σ)) (s s' : σ) (h : o.pureActs as s = .ok s') :
    o.pureActs (as ++ bs) s = o.pureActs bs s' := by rw [pureActs_append, h]

theorem pureActs_puts {β : Type} (o : Out γ σ) (f : β → γ) (xs : List β) (s : σ) :
    o.pureActs (xs.map fun x => Act.put (f x)) s = .ok (xs.foldl (fun s x => o.put s (f x)) s) := by
  induction xs generalizing s with
  | nil => rfl
  | cons x xs ih => simp only [List.map_cons, pureActs, ih, List.foldl_cons]

end Out

open Out

/-! ### the writers on a perfect output are the writers of the other modules -/

namespace WktWriter

theorem pure_header (num : F64 → Text) (w : WktWriter) :
    (output num).pureActs w.headerActs w = .ok w.header := by
  unfold headerActs header
  by_cases h : (w.firstHeader && w.dialect == .ewkt) = true
  · rw [if_pos h, if_pos h]
    obtain ⟨dims, srid, dialect, fh, sizes, o⟩ := w
    cases srid with
    | none => rfl
    | some v =>
      by_cases hv : v = 0
      · simp only [hv, if_true, pureActs]
      · simp only [hv, if_false, pureActs]; rfl
  · rw [if_neg h, if_neg h]; rfl

theorem pure_comma (num : F64 → Text) (w : WktWriter) (idx : Nat) :
    (output num).pureActs (commaActs idx) w = .ok (w.comma idx) := by
  unfold commaActs comma; split <;> rfl

theorem pure_geomBegin (num : F64 → Text) (w : WktWriter) (tag : Text) (tagged : Bool) (size idx : Nat) :
    (output num).pureActs (w.geomBeginActs tag tagged size idx) w = .ok (w.geomBegin tag tagged size idx) := by
  unfold geomBeginActs geomBegin
  simp only [List.append_assoc]
  rw [pureActs_append_ok _ _ _ _ _ (pure_header num w), pureActs_append_ok _ _ _ _ _ (pure_comma num _ idx)]
  cases tagged <;> by_cases hs : size = 0 <;> simp [hs, pureActs] <;> rfl

theorem pure_geomEnd (num : F64 → Text) (w : WktWriter) :
    (output num).pureActs (geomEndActs w.sizes) w = w.geomEnd := by
  unfold geomEnd
  cases w.sizes with
  | nil => rfl
  | cons n ns => by_cases hn : n > 0 <;> simp only [geomEndActs, hn, if_true, if_false, pureActs] <;> rfl

theorem sizes_geomBegin (w : WktWriter) (tag : Text) (tagged : Bool) (size idx : Nat) :
    (w.geomBegin tag tagged size idx).sizes = size :: w.sizes := by
  have hh : w.header.sizes = w.sizes := by unfold header; split <;> (try split) <;> (try split) <;> rfl
  have hc : (w.header.comma idx).sizes = w.sizes := by unfold comma; split <;> exact hh
  unfold geomBegin
  cases tagged <;> by_cases hs : size = 0 <;> simp [hs, put, hc]

theorem good_header (w : WktWriter) : AllGood out w.headerActs := by
  unfold headerActs
  refine .ite (.upd (fun _ => rfl) ?_) .nil
  cases w.srid with
  | none => exact .nil
  | some v => exact .ite .nil (.put .nil)

theorem good_geomBegin (w : WktWriter) (tag : Text) (tagged : Bool) (size idx : Nat) :
    AllGood out (w.geomBeginActs tag tagged size idx) :=
  .append (.append (.append (.append w.good_header (.ite (.put .nil) .nil)) (.ite (.put .nil) .nil))
    (.upd (fun _ => rfl) .nil)) (.ite (.append (.ite (.put .nil) .nil) (.put .nil)) (.put .nil))

theorem good_geomEnd : (sizes : List Nat) → AllGood out (geomEndActs sizes)
  | [] => .fail .nil
  | _ :: _ => .upd (fun _ => rfl) (.ite (.put .nil) .nil)

theorem good_opt (num : F64 → Text) : (z : Option F64) → AllGood out (optActs num z)
  | none => .nil
  | some _ => .put .nil

theorem refines (num : F64 → Text) : (output num).Refines (wktFProc num) out where
  step w e := by
    cases e with
    | geom e =>
      cases e with
      | gbegin k tagged size idx => cases k <;> exact pure_geomBegin num w _ _ _ _
      | gend k tagged idx => exact pure_geomEnd num w
      | emptyPoint idx =>
        show (output num).pureActs (w.geomBeginActs _ _ _ _ ++ geomEndActs (0 :: w.sizes)) w = _
        rw [pureActs_append_ok _ _ _ _ _ (pure_geomBegin num w _ _ _ _), ← sizes_geomBegin w (txt "POINT") true 0 idx,
          pure_geomEnd]
        rfl
      | coord x y z m t tm idx =>
        show (output num).pureActs (commaActs idx ++ _) w = .ok (coordinate num w x y z m idx)
        rw [pureActs_append_ok _ _ _ _ _ (pure_comma num w idx)]
        unfold coordinate
        split
        · rfl
        · cases z <;> cases m <;> simp [optActs, optNum, pureActs, output, put]
      | xy x y idx =>
        show (output num).pureActs (commaActs idx ++ _) w = .ok (xy num w x y idx)
        rw [pureActs_append_ok _ _ _ _ _ (pure_comma num w idx)]
        unfold xy
        by_cases h : (x.isNaN && y.isNaN) = true
        · simp only [h, if_true]; rfl
        · simp only [h]; rfl
      | srid s => rfl
    | _ => rfl
  good w e := by
    cases e with
    | geom e =>
      cases e with
      | gbegin k tagged size idx => cases k <;> exact good_geomBegin w _ _ _ _
      | gend k tagged idx => exact good_geomEnd _
      | emptyPoint idx => exact .append (good_geomBegin w _ _ _ _) (good_geomEnd _)
      | coord x y z m t tm idx =>
        exact .append (.ite (.put .nil) .nil) (.ite (.put .nil) (.append (.put (good_opt num z)) (good_opt num m)))
      | xy x y idx => exact .append (.ite (.put .nil) .nil) (.put .nil)
      | srid s => exact .upd (fun _ => rfl) .nil
    | _ => exact .nil
  put w p := utf8Bytes_append _ _
  abort := rfl
  multi := rfl
  dims := rfl

end WktWriter

namespace GeoJsonWriter

theorem good_comma {σ : Type} {out : σ → Text} (idx : Nat) : AllGood out (commaActs idx) := .ite (.put .nil) .nil

theorem good_geom {σ : Type} {out : σ → Text} (num : F64 → Text) (e : Ev) : AllGood out (geomActs num e) := by
  cases e with
  | srid s => exact .nil
  | xy x y idx => exact .append (good_comma idx) (.put .nil)
  | coord x y z m t tm idx =>
    refine .append (.append (.append (good_comma idx) (.put .nil)) ?_) (.put .nil)
    cases z
    · exact .nil
    · exact .put .nil
  | emptyPoint idx => exact .append (good_comma idx) (.put .nil)
  | gbegin k tagged size idx =>
    unfold geomActs
    simp only
    split
    · exact .nil
    · exact .append (good_comma idx) (.put .nil)
  | gend k tagged idx =>
    unfold geomActs
    simp only
    split
    · exact .nil
    · exact .put .nil

theorem good_acts {σ : Type} {out : σ → Text} (fmt : Fmt) (e : FEv) : AllGood out (acts fmt e) := by
  cases e with
  | geom e => exact good_geom fmt.f64 e
  | dsBegin name =>
    refine .append (.append (.put .nil) ?_) (.put .nil)
    cases name
    · exact .nil
    · exact .put .nil
  | dsEnd => exact .put .nil
  | ftBegin idx => exact .append (.ite (.put .nil) .nil) (.put .nil)
  | ftEnd idx => exact .put .nil
  | propsBegin => exact .put .nil
  | propsEnd => exact .put .nil
  | geomBegin => exact .put .nil
  | geomEnd => exact .nil
  | prop i name v => exact .append (.ite (.put .nil) .nil) (.put .nil)

/-- what the methods do to a state in which the writer is embedded -/
theorem pure_geom {σ : Type} (o : Out Text σ) (get : σ → GeoJsonWriter) (set : σ → GeoJsonWriter → σ)
    (hp : ∀ s t, o.put s t = set s ((get s).put t)) (hs : ∀ s v v', set (set s v) v' = set s v')
    (hg : ∀ s v, get (set s v) = v) (hi : ∀ s, set s (get s) = s) (num : F64 → Text) (s : σ) (e : Ev) :
    o.pureActs (geomActs num e) s = .ok (set s ((get s).geomStep num e)) := by
  cases e with
  | srid s' => simp [geomActs, pureActs, geomStep, hi]
  | xy x y idx =>
    by_cases h : idx > 0 <;> simp [geomActs, commaActs, comma, h, pureActs, geomStep, hp, hs, hg]
  | coord x y z m t tm idx =>
    by_cases h : idx > 0 <;> cases z <;>
      simp [geomActs, commaActs, comma, optActs, optZ, h, pureActs, geomStep, hp, hs, hg, put]
  | emptyPoint idx =>
    by_cases h : idx > 0 <;> simp [geomActs, commaActs, comma, h, pureActs, geomStep, hp, hs, hg]
  | gbegin k tagged size idx =>
    simp only [geomActs, geomStep]
    cases beginText k tagged with
    | none => simp [pureActs, hi]
    | some t => by_cases h : idx > 0 <;> simp [commaActs, comma, h, pureActs, hp, hs, hg]
  | gend k tagged idx =>
    simp only [geomActs, geomStep]
    cases endText k tagged with
    | none => simp [pureActs, hi]
    | some t => simp [pureActs, hp]

theorem pure_acts {σ : Type} (o : Out Text σ) (get : σ → GeoJsonWriter) (set : σ → GeoJsonWriter → σ)
    (hp : ∀ s t, o.put s t = set s ((get s).put t)) (hs : ∀ s v v', set (set s v) v' = set s v')
    (hg : ∀ s v, get (set s v) = v) (hi : ∀ s, set s (get s) = s) (fmt : Fmt) (s : σ) (e : FEv) :
    ∃ w, (get s).step fmt e = .ok w ∧ o.pureActs (acts fmt e) s = .ok (set s w) := by
  cases e with
  | geom e => exact ⟨_, rfl, pure_geom o get set hp hs hg hi fmt.f64 s e⟩
  | dsBegin name =>
    refine ⟨_, rfl, ?_⟩
    cases name <;> simp [acts, pureActs, datasetBegin, hp, hs, hg, put]
  | ftBegin idx =>
    refine ⟨_, rfl, ?_⟩
    by_cases h : idx > 0 <;> simp [acts, h, pureActs, hp, hs, hg, put]
  | prop i name v =>
    refine ⟨_, rfl, ?_⟩
    by_cases h : i > 0 <;> simp [acts, h, pureActs, hp, hs, hg, put]
  | geomEnd => exact ⟨_, rfl, by simp [acts, pureActs, hi]⟩
  | _ => exact ⟨_, rfl, by simp [acts, pureActs, hp]⟩

theorem refines (fmt : Fmt) : (output fmt).Refines (proc fmt) out where
  step w e := by
    obtain ⟨w', h1, h2⟩ := pure_acts (output fmt) id (fun _ v => v) (fun _ _ => rfl) (fun _ _ _ => rfl) (fun _ _ => rfl)
      (fun _ => rfl) fmt w e
    exact h2.trans h1.symm
  good w e := good_acts fmt e
  put w p := utf8Bytes_append _ _
  abort := rfl
  multi := rfl
  dims := rfl

end GeoJsonWriter

namespace GeoJsonLineWriter

theorem pure_end (fmt : Fmt) (w : GeoJsonLineWriter) : (output fmt).pureActs (endActs w.contexts) w = w.endContext := by
  unfold endActs endContext
  by_cases h0 : w.contexts = 0
  · simp [h0, pureActs]
  · by_cases h1 : w.contexts = 1
    · simp [h1, pureActs, output]
    · simp [h0, h1, pureActs]

theorem pure_commaL (fmt : Fmt) (w : GeoJsonLineWriter) (idx : Nat) :
    (output fmt).pureActs (commaActs w.contexts idx) w = .ok (w.comma idx) := by
  unfold commaActs comma
  by_cases h : w.contexts > 0 ∧ idx > 0
  · rw [if_pos h, if_pos h]; rfl
  · rw [if_neg h, if_neg h]; rfl

theorem pure_inner (fmt : Fmt) (num : F64 → Text) (w : GeoJsonLineWriter) (e : Ev) :
    (output fmt).pureActs (GeoJsonWriter.geomActs num e) w = .ok { w with inner := w.inner.geomStep num e } :=
  GeoJsonWriter.pure_geom (output fmt) (·.inner) (fun w v => { w with inner := v }) (fun _ _ => rfl) (fun _ _ _ => rfl)
    (fun _ _ => rfl) (fun _ => rfl) num w e

theorem pure_innerF (fmt : Fmt) (w : GeoJsonLineWriter) (e : FEv) :
    ∃ k, w.inner.step fmt e = .ok k ∧ (output fmt).pureActs (GeoJsonWriter.acts fmt e) w = .ok { w with inner := k } :=
  GeoJsonWriter.pure_acts (output fmt) (·.inner) (fun w v => { w with inner := v }) (fun _ _ => rfl) (fun _ _ _ => rfl)
    (fun _ _ => rfl) (fun _ => rfl) fmt w e

theorem comma_contexts (w : GeoJsonLineWriter) (idx : Nat) : (w.comma idx).contexts = w.contexts := by
  unfold comma; split <;> rfl

theorem good_end (n : Nat) : AllGood (fun w : GeoJsonLineWriter => w.inner.out) (endActs n) :=
  .ite (.fail .nil) (.upd (fun _ => rfl) (.ite (.put .nil) .nil))

theorem good_begin : AllGood (fun w : GeoJsonLineWriter => w.inner.out) beginActs := .upd (fun _ => rfl) .nil

theorem refines (fmt : Fmt) : (output fmt).Refines (proc fmt) (fun w => w.inner.out) where
  step w e := by
    have inner : ∀ e, (match w.inner.step fmt e with
        | .error x => .error x
        | .ok k => .ok { w with inner := k }) = (output fmt).pureActs (GeoJsonWriter.acts fmt e) w := by
      intro e
      obtain ⟨k, h1, h2⟩ := pure_innerF fmt w e
      rw [h1, h2]
    cases e with
    | dsBegin _ => rfl
    | dsEnd => rfl
    | propsBegin => exact (inner .propsBegin).symm
    | propsEnd => exact (inner .propsEnd).symm
    | geomBegin => exact (inner .geomBegin).symm
    | geomEnd => exact (inner .geomEnd).symm
    | prop i name v => exact (inner (.prop i name v)).symm
    | ftBegin idx =>
      obtain ⟨k, h1, h2⟩ := pure_innerF fmt w.beginContext (.ftBegin 0)
      show (output fmt).pureActs (beginActs ++ GeoJsonWriter.acts fmt (.ftBegin 0)) w = step fmt w (.ftBegin idx)
      rw [pureActs_append_ok _ _ _ _ w.beginContext rfl, h2]
      simp only [step, h1]
    | ftEnd idx =>
      obtain ⟨k, h1, h2⟩ := pure_innerF fmt w (.ftEnd idx)
      show (output fmt).pureActs (GeoJsonWriter.acts fmt (.ftEnd idx) ++ endActs w.contexts) w = step fmt w (.ftEnd idx)
      rw [pureActs_append_ok _ _ _ _ _ h2]
      simp only [step, h1]
      exact pure_end fmt { w with inner := k }
    | geom e =>
      cases e with
      | srid s => rfl
      | xy x y idx => exact pure_inner fmt fmt.f64 w (.xy x y idx)
      | coord x y z m t tm idx => exact pure_inner fmt fmt.f64 w (.coord x y z m t tm idx)
      | emptyPoint idx =>
        show (output fmt).pureActs (commaActs w.contexts idx ++ beginActs ++ GeoJsonWriter.geomActs fmt.f64 (.emptyPoint 0) ++
          endActs (w.contexts + 1)) w = geomStep fmt.f64 w (.emptyPoint idx)
        rw [List.append_assoc, List.append_assoc, pureActs_append_ok _ _ _ _ _ (pure_commaL fmt w idx),
          pureActs_append_ok _ _ _ _ (w.comma idx).beginContext rfl, pureActs_append_ok _ _ _ _ _ (pure_inner fmt fmt.f64 _ _)]
        rw [← comma_contexts w idx]
        exact pure_end fmt { (w.comma idx).beginContext with
          inner := (w.comma idx).beginContext.inner.geomStep fmt.f64 (.emptyPoint 0) }
      | gbegin k tagged size idx =>
        show (output fmt).pureActs (geomActs fmt.f64 w (.gbegin k tagged size idx)) w =
          geomStep fmt.f64 w (.gbegin k tagged size idx)
        simp only [geomActs, geomStep]
        by_cases h : (GeoJsonWriter.beginText k tagged).isSome = true
        · rw [if_pos h, if_pos h, List.append_assoc, pureActs_append_ok _ _ _ _ _ (pure_commaL fmt w idx),
            pureActs_append_ok _ _ _ _ (w.comma idx).beginContext rfl, pure_inner fmt fmt.f64]
        · rw [if_neg h, if_neg h]; rfl
      | gend k tagged idx =>
        show (output fmt).pureActs (geomActs fmt.f64 w (.gend k tagged idx)) w = geomStep fmt.f64 w (.gend k tagged idx)
        simp only [geomActs, geomStep]
        by_cases h : (GeoJsonWriter.beginText k tagged).isSome = true
        · rw [if_pos h, if_pos h, pureActs_append_ok _ _ _ _ _ (pure_inner fmt fmt.f64 w _)]
          exact pure_end fmt { w with inner := w.inner.geomStep fmt.f64 (.gend k tagged idx) }
        · rw [if_neg h, if_neg h]; rfl
  good w e := by
    cases e with
    | dsBegin _ => exact .nil
    | dsEnd => exact .nil
    | ftBegin idx => exact .append good_begin (GeoJsonWriter.good_acts fmt _)
    | ftEnd idx => exact .append (GeoJsonWriter.good_acts fmt _) (good_end _)
    | geom e =>
      cases e with
      | srid s => exact .nil
      | xy x y idx => exact GeoJsonWriter.good_geom fmt.f64 (.xy x y idx)
      | coord x y z m t tm idx => exact GeoJsonWriter.good_geom fmt.f64 (.coord x y z m t tm idx)
      | emptyPoint idx =>
        exact .append (.append (.append (.ite (.put .nil) .nil) good_begin) (GeoJsonWriter.good_geom _ _)) (good_end _)
      | gbegin k tagged size idx =>
        exact .ite (.append (.append (.ite (.put .nil) .nil) good_begin) (GeoJsonWriter.good_geom _ _)) .nil
      | gend k tagged idx => exact .ite (.append (GeoJsonWriter.good_geom _ _) (good_end _)) .nil
    | propsBegin => exact GeoJsonWriter.good_acts fmt .propsBegin
    | propsEnd => exact GeoJsonWriter.good_acts fmt .propsEnd
    | geomBegin => exact GeoJsonWriter.good_acts fmt .geomBegin
    | geomEnd => exact GeoJsonWriter.good_acts fmt .geomEnd
    | prop i name v => exact GeoJsonWriter.good_acts fmt (.prop i name v)
  put w p := utf8Bytes_append _ _
  abort := rfl
  multi := rfl
  dims := rfl

end GeoJsonLineWriter

namespace SvgWriter

theorem refines (fo : SvgNum) : (output fo).Refines (proc fo) out where
  step w e := by
    cases e with
    | dsBegin name =>
      obtain ⟨o, inv, vb, st, sz⟩ := w
      cases sz <;> cases vb <;> cases st <;> cases name <;> rfl
    | geom e =>
      cases e with
      | gbegin k tagged size idx => cases k <;> rfl
      | gend k tagged idx => cases k <;> rfl
      | _ => rfl
    | _ => rfl
  good w e := by
    cases e with
    | dsBegin name =>
      obtain ⟨o, inv, vb, st, sz⟩ := w
      refine .append (.append (.append (.append (.append (.append (.append (.put .nil) ?_) ?_) (.put .nil)) ?_)
        (.put .nil)) ?_) (.put .nil)
      · cases sz
        · exact .nil
        · exact .put .nil
      · cases vb
        · exact .nil
        · exact .put .nil
      · cases st
        · exact .nil
        · exact .put .nil
      · cases name
        · exact .nil
        · exact .put .nil
    | geom e =>
      cases e with
      | gbegin k tagged size idx => cases k <;> first | exact .nil | exact .put .nil
      | gend k tagged idx => cases k <;> first | exact .nil | exact .put .nil
      | xy => exact .put .nil
      | emptyPoint => exact .fail .nil
      | _ => exact .nil
    | dsEnd => exact .put .nil
    | ftBegin => exact .put .nil
    | _ => exact .nil
  put w p := utf8Bytes_append _ _
  abort := rfl
  multi := rfl
  dims := rfl

end SvgWriter

namespace WkbWriter

/-- the writer as a processor of features: the other methods are the defaults, which do nothing -/
def fproc : FProc WkbWriter where
  step w
    | .geom e => w.step e
    | _ => .ok w
  multi w := w.readDims.multi
  dims w := w.readDims

theorem pure_wkb (w : WkbWriter) (t : WkbType) : output.pureActs (w.wkbHeaderActs t) w = .ok (w.writeWkbHeader t) := by
  simp [wkbHeaderActs, pureActs, writeWkbHeader, output, put]

theorem puts_out {β : Type} (f : β → List Byte) (xs : List β) (w : WkbWriter) :
    xs.foldl (fun s x => output.put s (f x)) w = w.put (xs.flatMap f) := by
  induction xs generalizing w with
  | nil => simp [put]
  | cons x xs ih => rw [List.foldl_cons, ih]; simp [output, put]

theorem pure_ewkb (w : WkbWriter) (t : WkbType) : output.pureActs (w.ewkbHeaderActs t) w = .ok (w.writeEwkbHeader t) := by
  obtain ⟨dims, rd, srid, env, ed, ext, em, en, di, fh, gs, nl, o⟩ := w
  cases fh <;> cases srid <;> simp [ewkbHeaderActs, pureActs, writeEwkbHeader, output, put]

theorem pure_gpkg (w : WkbWriter) : output.pureActs w.gpkgHeaderActs w = .ok w.writeGpkgHeader := by
  unfold gpkgHeaderActs writeGpkgHeader
  rw [pureActs_append_ok _ _ _ _ _ rfl, pureActs_puts, puts_out]
  simp [put, output]

theorem pure_spatialite (w : WkbWriter) (t : WkbType) :
    output.pureActs (w.spatialiteHeaderActs t) w = .ok (w.writeSpatialiteHeader t) := by
  unfold spatialiteHeaderActs writeSpatialiteHeader
  by_cases h : w.firstHeader = true
  · rw [if_pos h, if_pos h, List.append_assoc, List.append_assoc, pureActs_append_ok _ _ _ _ _ rfl,
      pureActs_append_ok _ _ _ _ _ (pureActs_puts _ _ _ _), puts_out]
    simp [put, output, pureActs]
  · rw [if_neg h, if_neg h]; rfl

theorem pure_mysql (w : WkbWriter) : output.pureActs w.mysqlHeaderActs w = w.writeMysqlHeader := by
  unfold mysqlHeaderActs writeMysqlHeader
  cases w.srid with
  | none => rfl
  | some v => by_cases h : 0 ≤ v <;> simp [h, pureActs] <;> rfl

theorem pure_headerB (w : WkbWriter) (t : WkbType) : output.pureActs (w.headerActs t) w = w.writeHeader t := by
  unfold headerActs writeHeader
  cases w.dialect with
  | wkb => exact pure_wkb w t
  | ewkb => exact pure_ewkb w t
  | spatiaLite => exact pure_spatialite w t
  | geopackage =>
    by_cases h : w.firstHeader = true
    · simp only [if_pos h]
      rw [List.append_assoc, pureActs_append_ok _ _ _ _ _ (pure_gpkg w)]
      exact pure_wkb { w.writeGpkgHeader with firstHeader := false } t
    · simp only [if_neg h]; exact pure_wkb w t
  | mySQL =>
    by_cases h : w.firstHeader = true
    · simp only [if_pos h]
      rw [List.append_assoc, pureActs_append, pure_mysql w]
      unfold writeMysqlHeader
      cases w.srid with
      | none => exact pure_wkb { w.put (encU32 w.endian 0) with firstHeader := false } t
      | some v =>
        by_cases hv : 0 ≤ v
        · simp only [if_pos hv]
          exact pure_wkb { w.put (encU32 w.endian v.toNat) with firstHeader := false } t
        · simp only [if_neg hv]
    · simp only [if_neg h]; exact pure_wkb w t

/-- what a header leaves alone -/
theorem header_keeps (w : WkbWriter) (t : WkbType) (w' : WkbWriter) (h : w.writeHeader t = .ok w') :
    w'.endian = w.endian ∧ w'.dims = w.dims ∧ w'.nestingLevel = w.nestingLevel ∧ w'.dialect = w.dialect := by
  obtain ⟨dims, rd, srid, env, ed, ext, em, en, di, fh, gs, nl, o⟩ := w
  cases di <;> cases fh <;> cases srid <;>
    simp [writeHeader, writeWkbHeader, writeEwkbHeader, writeGpkgHeader, writeSpatialiteHeader, writeMysqlHeader, put] at h <;>
    (try split at h) <;> (try rename_i hh; split at hh) <;> (try simp at h) <;> (try simp at hh) <;> (try subst hh) <;>
    (try subst h) <;> simp

theorem pure_coords (w : WkbWriter) (x y : F64) (z m : Option F64) :
    output.pureActs (w.coordActs x y z m) w = w.coordinate x y z m := by
  have tail : ∀ w' : WkbWriter, w'.endian = w.endian → w'.dims = w.dims →
      output.pureActs ([.put (encF64 w.endian x), .put (encF64 w.endian y)] ++
        ((if w.dims.z then [.put (encF64 w.endian (z.getD F64.zero))] else []) ++
        (if w.dims.m then [.put (encF64 w.endian (m.getD F64.zero))] else []))) w' =
      .ok (w'.put (coordBytes w'.endian w'.dims x y z m)) := by
    intro w' h1 h2
    rw [h1, h2]
    cases hz : w.dims.z <;> cases hm : w.dims.m <;> simp [pureActs, coordBytes, hz, hm, output, put]
  unfold coordActs coordinate
  simp only [List.append_assoc]
  by_cases h : w.geomState = .multiPointGeom
  · rw [if_pos h, if_pos h, pureActs_append, pure_headerB]
    cases hw : w.writeHeader .point with
    | error e => rfl
    | ok w' =>
      obtain ⟨h1, h2, -, -⟩ := header_keeps w .point w' hw
      exact tail w' h1 h2
  · rw [if_neg h, if_neg h, List.nil_append]
    exact tail w rfl rfl

theorem pure_sized (w : WkbWriter) (t : WkbType) (size : Nat) :
    output.pureActs (w.sizedActs t size) w = w.headerAndSize t size := by
  unfold sizedActs headerAndSize
  rw [pureActs_append, pure_headerB]
  cases hw : w.writeHeader t with
  | error e => rfl
  | ok w' =>
    obtain ⟨h1, -⟩ := header_keeps w t w' hw
    simp only [h1]; rfl

/-- a header does not depend on the nesting level -/
theorem sized_nest (w : WkbWriter) (t : WkbType) (size : Nat) :
    w.sizedActs t size = { w with nestingLevel := w.nestingLevel + 1 }.sizedActs t size := by
  obtain ⟨dims, rd, srid, env, ed, ext, em, en, di, fh, gs, nl, o⟩ := w
  rfl

theorem pure_begin (w : WkbWriter) (k : GKind) (size : Nat) :
    output.pureActs (w.beginActs k size) w = w.gbegin k size := by
  have nest : ∀ t, output.pureActs (nestActs ++ w.sizedActs t size) w =
      { w with nestingLevel := w.nestingLevel + 1 }.headerAndSize t size := by
    intro t
    rw [pureActs_append_ok _ _ _ _ { w with nestingLevel := w.nestingLevel + 1 } rfl, sized_nest, pure_sized]
  cases k with
  | point => exact pure_headerB w .point
  | multiPoint =>
    simp only [beginActs, gbegin]
    rw [pureActs_append, nest]
    cases { w with nestingLevel := w.nestingLevel + 1 }.headerAndSize .multiPoint size <;> rfl
  | lineString =>
    simp only [beginActs, gbegin]
    by_cases h : w.geomState = .ringGeom
    · simp [h, pureActs, output]
    · simp only [h, ne_eq, not_false_eq_true, if_true]; exact pure_sized w .lineString size
  | polygon =>
    simp only [beginActs, gbegin]
    rw [pureActs_append, pure_sized]
    cases w.headerAndSize .polygon size <;> rfl
  | triangle =>
    simp only [beginActs, gbegin]
    rw [pureActs_append, pure_sized]
    cases w.headerAndSize .triangle size <;> rfl
  | multiLineString => exact nest _
  | multiPolygon => exact nest _
  | collection => exact nest _
  | multiCurve => exact nest _
  | multiSurface => exact nest _
  | circularString => exact pure_sized w _ size
  | compoundCurve => exact pure_sized w _ size
  | curvePolygon => exact pure_sized w _ size
  | polyhedralSurface => exact pure_sized w _ size
  | tin => exact pure_sized w _ size

theorem pure_footer (w : WkbWriter) : output.pureActs (w.footerActs w.nestingLevel) w = .ok w.writeFooter := by
  unfold footerActs writeFooter
  by_cases h : w.dialect = .spatiaLite ∧ w.nestingLevel = 0
  · rw [if_pos h, if_pos h]; rfl
  · rw [if_neg h, if_neg h]; rfl

theorem pure_endB (w : WkbWriter) (k : GKind) : output.pureActs (w.endActs k) w = w.gend k := by
  have plain : ∀ s, output.pureActs (.upd (fun w => { w with geomState := s }) :: w.footerActs w.nestingLevel) w =
      .ok { w with geomState := s }.writeFooter := fun s => pure_footer { w with geomState := s }
  have nest : output.pureActs (w.unnestActs w.footerActs) w = match w.nestDec with
      | .ok w1 => .ok w1.writeFooter
      | .error e => .error e := by
    unfold unnestActs nestDec
    cases hn : w.nestingLevel with
    | zero => rfl
    | succ n => exact pure_footer { w with nestingLevel := n }
  cases k with
  | multiPoint =>
    simp only [endActs, gend]
    unfold unnestActs nestDec
    cases hn : w.nestingLevel with
    | zero => rfl
    | succ n => exact pure_footer { w with nestingLevel := n, geomState := .normal }
  | polygon => exact plain .normal
  | triangle => exact plain .normal
  | multiLineString => exact nest
  | multiPolygon => exact nest
  | collection => exact nest
  | multiCurve => exact nest
  | multiSurface => exact nest
  | point => exact pure_footer w
  | lineString => exact pure_footer w
  | circularString => exact pure_footer w
  | compoundCurve => exact pure_footer w
  | curvePolygon => exact pure_footer w
  | polyhedralSurface => exact pure_footer w
  | tin => exact pure_footer w

theorem good_wkb (w : WkbWriter) (t : WkbType) : AllGood out (w.wkbHeaderActs t) := .put (.put .nil)

theorem good_headerB (w : WkbWriter) (t : WkbType) : AllGood out (w.headerActs t) := by
  unfold headerActs
  cases w.dialect with
  | wkb => exact good_wkb w t
  | ewkb =>
    refine .append (.put (.put .nil)) (.ite (.append ?_ (.upd (fun _ => rfl) .nil)) .nil)
    cases w.srid
    · exact .nil
    · exact .put .nil
  | geopackage =>
    exact .append (.ite (.append (.append (.put (.put (.put (.put .nil)))) (.puts _ _)) (.upd (fun _ => rfl) .nil)) .nil)
      (good_wkb w t)
  | mySQL =>
    refine .append (.ite (.append ?_ (.upd (fun _ => rfl) .nil)) .nil) (good_wkb w t)
    unfold mysqlHeaderActs
    cases w.srid
    · exact .put .nil
    · exact .ite (.put .nil) (.fail .nil)
  | spatiaLite =>
    exact .append (.ite (.append (.append (.put (.put (.put .nil))) (.puts _ _)) (.put (.upd (fun _ => rfl) .nil)))
      (.put .nil)) (.put .nil)

theorem good_coords (w : WkbWriter) (x y : F64) (z m : Option F64) : AllGood out (w.coordActs x y z m) :=
  .append (.append (.append (.ite (good_headerB w _) .nil) (.put (.put .nil))) (.ite (.put .nil) .nil))
    (.ite (.put .nil) .nil)

theorem good_sized (w : WkbWriter) (t : WkbType) (size : Nat) : AllGood out (w.sizedActs t size) :=
  .append (good_headerB w t) (.put .nil)

theorem good_nest : AllGood out nestActs := .upd (fun _ => rfl) .nil

theorem good_beginB (w : WkbWriter) (k : GKind) (size : Nat) : AllGood out (w.beginActs k size) := by
  cases k with
  | point => exact good_headerB w _
  | multiPoint => exact .append (.append good_nest (good_sized w _ _)) (.upd (fun _ => rfl) .nil)
  | lineString => exact .append (.ite (good_headerB w _) .nil) (.put .nil)
  | polygon => exact .append (good_sized w _ _) (.upd (fun _ => rfl) .nil)
  | triangle => exact .append (good_sized w _ _) (.upd (fun _ => rfl) .nil)
  | _ => exact .append (.ite good_nest .nil) (good_sized w _ _)

theorem good_footer (w : WkbWriter) (n : Nat) : AllGood out (w.footerActs n) := .ite (.put .nil) .nil

theorem good_unnest (w : WkbWriter) (f : Nat → List (Act (List Byte) WkbWriter)) (hf : ∀ n, AllGood out (f n)) :
    AllGood out (w.unnestActs f) := by
  unfold unnestActs
  cases w.nestingLevel
  · exact .fail .nil
  · exact .upd (fun _ => rfl) (hf _)

theorem good_endB (w : WkbWriter) (k : GKind) : AllGood out (w.endActs k) := by
  cases k with
  | multiPoint => exact good_unnest w _ fun n => .upd (fun _ => rfl) (good_footer w n)
  | polygon => exact .upd (fun _ => rfl) (good_footer w _)
  | triangle => exact .upd (fun _ => rfl) (good_footer w _)
  | _ => first | exact good_footer w _ | exact good_unnest w _ (good_footer w)

theorem refines : output.Refines fproc out where
  step w e := by
    cases e with
    | geom e =>
      cases e with
      | srid s => rfl
      | xy x y idx => exact pure_coords w x y none none
      | coord x y z m t tm idx => exact pure_coords w x y z m
      | emptyPoint idx => rfl
      | gbegin k tagged size idx => exact pure_begin w k size
      | gend k tagged idx => exact pure_endB w k
    | _ => rfl
  good w e := by
    cases e with
    | geom e =>
      cases e with
      | srid s => exact .nil
      | xy x y idx => exact good_coords w x y none none
      | coord x y z m t tm idx => exact good_coords w x y z m
      | emptyPoint idx => exact .fail .nil
      | gbegin k tagged size idx => exact good_beginB w k size
      | gend k tagged idx => exact good_endB w k
    | _ => exact .nil
  put w p := rfl
  abort := rfl
  multi := rfl
  dims := rfl

end WkbWriter

/-! ### a projection of processors -/

/-- `P'` is `P` with more state, under an invariant -/
structure FSim {σ' σ : Type} (P' : FProc σ') (P : FProc σ) (f : σ' → σ) (I : σ' → Prop) : Prop where
  step_ok : ∀ s e t, I s → P'.step s e = .ok t → P.step (f s) e = .ok (f t) ∧ I t
  step_error : ∀ s e x, I s → P'.step s e = .error x → P.step (f s) e = .error x
  abort : ∀ s e, P'.abort s e = P.abort (f s) e
  multi : ∀ s, P'.multi s = P.multi (f s)
  dims : ∀ s, P'.dims s = P.dims (f s)

theorem FSim.interp {σ' σ α : Type} {P' : FProc σ'} {P : FProc σ} {f : σ' → σ} {I : σ' → Prop} (h : FSim P' P f I)
    (p : FProg α) (hp : Propagates p) (s : σ') (hs : I s) (bs : List Byte) :
    (FProg.interp P p (f s) bs).1 = f (FProg.interp P' p s bs).1 ∧ I (FProg.interp P' p s bs).1 ∧
      (FProg.interp P p (f s) bs).2 = (FProg.interp P' p s bs).2 := by
  induction p generalizing s bs with
  | ret a => exact ⟨rfl, hs, rfl⟩
  | fail e => exact ⟨rfl, hs, rfl⟩
  | read k ih =>
    cases bs with
    | nil => exact ⟨rfl, hs, rfl⟩
    | cons b bs => exact ih b (hp b) s hs bs
  | emit e k ih =>
    cases hst : P'.step s e with
    | error x =>
      have := h.step_error s e x hs hst
      simp only [FProg.interp, hst, this]
      exact ⟨trivial, hs, trivial⟩
    | ok t =>
      have := h.step_ok s e t hs hst
      simp only [FProg.interp, hst, this.1]
      obtain ⟨h1, h2, h3⟩ := ih hp t this.2 bs
      exact ⟨h1, h2, by rw [h3]⟩
  | emitOk e k ih => exact absurd hp (by simp [Propagates])
  | prop i n v k ih =>
    cases hst : P'.step s (.prop i n v) with
    | error x =>
      have := h.step_error s (.prop i n v) x hs hst
      simp only [FProg.interp, hst, this]
      exact ⟨trivial, hs, trivial⟩
    | ok t =>
      have := h.step_ok s (.prop i n v) t hs hst
      simp only [FProg.interp, hst, this.1, ← h.abort]
      obtain ⟨h1, h2, h3⟩ := ih _ (hp (P'.abort s (.prop i n v))) t this.2 bs
      exact ⟨h1, h2, by rw [h3]⟩
  | ask k ih =>
    simp only [FProg.interp, ← h.multi, ← h.dims]
    exact ih _ _ (hp _ _) s hs bs

theorem CsvEnc.fields_append (enc : CsvEnc) (before a b : List Text) :
    enc.fields before (a ++ b) = enc.fields before a ++ enc.fields (before ++ a) b := by
  induction a generalizing before with
  | nil => simp [fields]
  | cons x a ih => simp [fields, ih]

namespace CsvWriter

theorem pure_fields (fmt : Fmt) (enc : CsvEnc) (before fs : List Text) (s : Sent) :
    (output fmt enc).pureActs (fieldActs enc before fs) s = .ok (s.1, s.2 ++ enc.fields before fs) := by
  induction fs generalizing before s with
  | nil => simp [fieldActs, pureActs, CsvEnc.fields]
  | cons f fs ih => simp only [fieldActs, pureActs, CsvEnc.fields, ih]; simp [output]

/-- the bytes sent are those of the records -/
def SentOk (enc : CsvEnc) (s : Sent) : Prop := s.2 = enc.text s.1.rows s.1.cur

theorem terminate_ok {w w' : CsvWriter} (h : w.terminate = .ok w') :
    w'.rows = w.rows ++ [w.cur] ∧ w'.cur = [] ∧ w'.wkt = w.wkt ∧ w'.props = w.props := by
  unfold terminate at h
  split at h
  · simp only [Except.ok.injEq] at h; subst h; simp
  · split at h
    · simp only [Except.ok.injEq] at h; subst h; simp
    · simp at h

theorem pure_record (fmt : Fmt) (enc : CsvEnc) (w : CsvWriter) (fs : List Text) (s : Sent)
    (hs : s.2 = enc.text w.rows w.cur) : match (w.writeFields fs).terminate with
      | .error e => (output fmt enc).pureActs (recordActs enc w fs) s = .error e
      | .ok w' => ∃ t, (output fmt enc).pureActs (recordActs enc w fs) s = .ok (w', t) ∧ SentOk enc (w', t) := by
  unfold recordActs
  cases h : (w.writeFields fs).terminate with
  | error e => simp only; rw [pureActs_append_ok _ _ _ _ _ (pure_fields fmt enc _ _ s)]; rfl
  | ok w' =>
    simp only
    rw [pureActs_append_ok _ _ _ _ _ (pure_fields fmt enc _ _ s)]
    refine ⟨_, rfl, ?_⟩
    obtain ⟨h1, h2, -, -⟩ := terminate_ok h
    unfold SentOk
    simp only [h1, h2, hs, CsvEnc.text, writeFields]
    simp [CsvEnc.fields, CsvEnc.fields_append, output]

/-- `P` of `Refines` for the CSV writer: what its methods do on a perfect output -/
def sentProc (fmt : Fmt) (enc : CsvEnc) : FProc Sent where
  step s e := (output fmt enc).pureActs ((output fmt enc).acts s e) s
  multi s := s.1.wkt.dims.multi
  dims s := s.1.wkt.dims

theorem good_fields (enc : CsvEnc) (before fs : List Text) : AllGood (·.2) (fieldActs enc before fs) := by
  induction fs generalizing before with
  | nil => exact .nil
  | cons f fs ih => exact .put (ih _)

theorem good_record (enc : CsvEnc) (w : CsvWriter) (fs : List Text) : AllGood (·.2) (recordActs enc w fs) := by
  refine .append (good_fields enc _ _) ?_
  cases (w.writeFields fs).terminate
  · exact .fail .nil
  · exact .put (.upd (fun _ => rfl) .nil)

theorem good_step (x : Except Err CsvWriter) : AllGood (fun s : Sent => s.2) (match x with
    | .ok w' => [.upd fun s => (w', s.2)]
    | .error x => [.fail x]) := by
  cases x
  · exact .fail .nil
  · exact .upd (fun _ => rfl) .nil

theorem sentRefines (fmt : Fmt) (enc : CsvEnc) : (output fmt enc).Refines (sentProc fmt enc) (·.2) where
  step _ _ := rfl
  good s e := by
    cases e with
    | ftEnd i =>
      refine .append (.ite .nil (good_record enc _ _)) ?_
      cases s.1.writeHeader
      · exact .nil
      · exact .append (good_record enc _ _) (.upd (fun _ => rfl) .nil)
    | dsEnd => exact good_step (s.1.step fmt .dsEnd)
    | propsEnd => exact good_step (s.1.step fmt .propsEnd)
    | geomEnd => exact good_step (s.1.step fmt .geomEnd)
    | _ => exact good_step _
  put _ _ := rfl
  abort := rfl
  multi := rfl
  dims := rfl

theorem step_rows {fmt : Fmt} {w w' : CsvWriter} {e : FEv} (he : ∀ i, e ≠ .ftEnd i) (h : w.step fmt e = .ok w') :
    w'.rows = w.rows ∧ w'.cur = w.cur := by
  cases e with
  | ftEnd i => exact absurd rfl (he i)
  | dsBegin n => simp only [step] at h; split at h <;> simp at h; subst h; simp
  | dsEnd => simp only [step, Except.ok.injEq] at h; subst h; simp
  | ftBegin n => simp only [step] at h; split at h <;> simp at h; subst h; simp
  | propsBegin => simp only [step] at h; split at h <;> simp at h; subst h; simp
  | propsEnd => simp only [step, Except.ok.injEq] at h; subst h; simp
  | geomBegin => simp only [step] at h; split at h <;> simp at h; subst h; simp
  | geomEnd => simp only [step, Except.ok.injEq] at h; subst h; simp
  | prop i n v =>
    simp only [step, property] at h
    split at h
    · split at h
      · simp at h
      · split at h
        · simp at h; subst h; simp
        · simp at h
    · simp at h; subst h; simp
  | geom e =>
    simp only [step] at h
    split at h
    · simp at h
    · simp at h; subst h; simp

theorem sim_step (fmt : Fmt) (enc : CsvEnc) (s : Sent) (e : FEv) (hs : SentOk enc s) :
    match (output fmt enc).pureActs ((output fmt enc).acts s e) s with
    | .ok t => s.1.step fmt e = .ok t.1 ∧ SentOk enc t
    | .error x => s.1.step fmt e = .error x := by
    have other : (∀ i, e ≠ .ftEnd i) → (output fmt enc).pureActs ((output fmt enc).acts s e) s =
        match s.1.step fmt e with
        | .ok w' => .ok (w', s.2)
        | .error x => .error x := by
      intro he
      have : (output fmt enc).acts s e = match s.1.step fmt e with
          | .ok w' => [.upd fun s => (w', s.2)]
          | .error x => [.fail x] := by
        cases e <;> first | rfl | exact absurd rfl (he _)
      rw [this]
      cases s.1.step fmt e <;> rfl
    by_cases he : ∃ i, e = .ftEnd i
    · obtain ⟨i, rfl⟩ := he
      show match (output fmt enc).pureActs (s.1.featureEndActs enc) s with
        | .ok t => s.1.featureEnd = .ok t.1 ∧ SentOk enc t
        | .error x => s.1.featureEnd = .error x
      have row : ∀ (w : CsvWriter) (t : List Byte), SentOk enc (w, t) →
          match (output fmt enc).pureActs (w.recordActs enc (w.wkt.out :: w.props) ++
            [.upd fun s => ({ s.1 with wkt := { s.1.wkt with out := [] }, props := [] }, s.2)]) (w, t) with
          | .ok t => w.writeRow = .ok t.1 ∧ SentOk enc t
          | .error x => w.writeRow = .error x := by
        intro w t ht
        have hr := pure_record fmt enc w (w.wkt.out :: w.props) (w, t) ht
        have e1 : (w.writeField w.wkt.out).writeFields w.props = w.writeFields (w.wkt.out :: w.props) := by
          simp [writeField, writeFields]
        unfold writeRow
        rw [e1, pureActs_append]
        cases hx : (w.writeFields (w.wkt.out :: w.props)).terminate with
        | error x => rw [hx] at hr; simp only at hr; rw [hr]
        | ok w' =>
          rw [hx] at hr
          obtain ⟨t', h1, h2⟩ := hr
          rw [h1]
          exact ⟨rfl, h2⟩
      unfold featureEndActs featureEnd writeHeader
      by_cases hw : s.1.written = true
      · simp only [if_pos hw, List.nil_append]
        exact row s.1 s.2 hs
      · simp only [if_neg hw]
        have hr := pure_record fmt enc { s.1 with written := true } s.1.headers s hs
        rw [pureActs_append]
        cases hx : ({ s.1 with written := true }.writeFields s.1.headers).terminate with
        | error x => rw [hx] at hr; simp only at hr; rw [hr]
        | ok w' =>
          rw [hx] at hr
          obtain ⟨t', h1, h2⟩ := hr
          rw [h1]
          exact row w' t' h2
    · have he' : ∀ i, e ≠ .ftEnd i := fun i h => he ⟨i, h⟩
      show match (output fmt enc).pureActs ((output fmt enc).acts s e) s with
        | .ok t => s.1.step fmt e = .ok t.1 ∧ SentOk enc t
        | .error x => s.1.step fmt e = .error x
      rw [other he']
      cases hst : s.1.step fmt e with
      | error x => rfl
      | ok w' =>
        obtain ⟨h1, h2⟩ := step_rows he' hst
        exact ⟨rfl, by unfold SentOk; rw [h1, h2]; exact hs⟩

theorem sim (fmt : Fmt) (enc : CsvEnc) : FSim (sentProc fmt enc) (proc fmt) (·.1) (SentOk enc) where
  step_ok s e t hs h := by
    have := sim_step fmt enc s e hs
    rw [show (output fmt enc).pureActs ((output fmt enc).acts s e) s = .ok t from h] at this
    exact this
  step_error s e x hs h := by
    have := sim_step fmt enc s e hs
    rw [show (output fmt enc).pureActs ((output fmt enc).acts s e) s = .error x from h] at this
    exact this
  abort _ _ := rfl
  multi _ := rfl
  dims _ := rfl

end CsvWriter

end Geozero
