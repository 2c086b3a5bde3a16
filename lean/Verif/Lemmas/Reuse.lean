import Verif.Spec.Reuse
import Verif.Lemmas.GeoTypes
import Verif.Lemmas.Geos
import Verif.Lemmas.Gdal
import Verif.Lemmas.GeoJson
import Verif.Lemmas.Wkt
import Verif.Lemmas.WkbWrite

/-
Lemmas for C82: a change of the state that no call depends on.
-/

namespace Geozero
open Prog

/-- a change of the state every call keeps and does not look at -/
structure Prog.Proc.Blind {σ : Type} (P : Proc σ) (f : σ → σ) : Prop where
  step : ∀ s e, P.step (f s) e = (P.step s e).map f
  multi : ∀ s, P.multi (f s) = P.multi s

theorem Prog.Proc.Blind.interp {σ α : Type} {P : Proc σ} {f : σ → σ} (h : P.Blind f) (p : Prog α) (s : σ) (bs : List Byte) :
    interp P p (f s) bs = (f (interp P p s bs).1, (interp P p s bs).2) := by
  induction p generalizing s bs with
  | ret a => rfl
  | fail e => rfl
  | read k ih =>
    cases bs with
    | nil => rfl
    | cons b bs => exact ih b s bs
  | emit e k ih =>
    simp only [Prog.interp, h.step]
    cases P.step s e with
    | error x => rfl
    | ok s' =>
      simp only [Except.map]
      rw [ih]
  | askMulti k ih =>
    simp only [Prog.interp, h.multi]
    exact ih _ s bs

/-- the same for feature processors -/
structure FProc.Blind {σ : Type} (P : FProc σ) (f : σ → σ) : Prop where
  step : ∀ s e, P.step (f s) e = (P.step s e).map f
  left : ∀ s e, P.left (f s) e = f (P.left s e)
  abort : ∀ s e, P.abort (f s) e = P.abort s e
  multi : ∀ s, P.multi (f s) = P.multi s
  dims : ∀ s, P.dims (f s) = P.dims s

theorem FProc.Blind.interp {σ α : Type} {P : FProc σ} {f : σ → σ} (h : P.Blind f) (p : FProg α) (s : σ) (bs : List Byte) :
    FProg.interp P p (f s) bs = (f (FProg.interp P p s bs).1, (FProg.interp P p s bs).2) := by
  induction p generalizing s bs with
  | ret a => rfl
  | fail e => rfl
  | read k ih =>
    cases bs with
    | nil => rfl
    | cons b bs => exact ih b s bs
  | emit e k ih =>
    simp only [FProg.interp, h.step]
    cases P.step s e with
    | error x => rfl
    | ok s' => simp only [Except.map]; rw [ih]
  | emitOk e k ih =>
    simp only [FProg.interp, h.step]
    cases P.step s e with
    | error x =>
      simp only [Except.map]
      split
      · rfl
      · rw [h.left, ih]
    | ok s' => simp only [Except.map]; rw [ih]
  | prop i n v k ih =>
    simp only [FProg.interp, h.step, h.abort]
    cases P.step s (.prop i n v) with
    | error x => rfl
    | ok s' => simp only [Except.map]; rw [ih]
  | ask k ih =>
    simp only [FProg.interp, h.multi, h.dims]
    exact ih _ _ s bs

/-- text before the output -/
def SvgWriter.before (t : Text) (w : SvgWriter) : SvgWriter := { w with out := t ++ w.out }

theorem SvgWriter.blind_geom (fo : SvgNum) (t : Text) : (SvgWriter.gproc fo).Blind (SvgWriter.before t) := by
  refine ⟨fun s e => ?_, fun _ => rfl⟩
  simp only [SvgWriter.gproc]
  unfold SvgWriter.geomStep SvgWriter.before
  split <;> simp [SvgWriter.put, Except.map]

theorem SvgWriter.blind (fo : SvgNum) (t : Text) : (SvgWriter.proc fo).Blind (SvgWriter.before t) := by
  refine ⟨fun s e => ?_, fun _ _ => rfl, fun _ _ => rfl, fun _ => rfl, fun _ => rfl⟩
  simp only [SvgWriter.proc]
  cases e with
  | geom e => exact (SvgWriter.blind_geom fo t).step s e
  | dsBegin name =>
    simp only [SvgWriter.step, SvgWriter.datasetBegin, SvgWriter.before, Except.map]
    congr 1
    obtain ⟨out, inv, vb, st, sz⟩ := s
    cases vb <;> cases st <;> cases sz <;> cases name <;> simp [SvgWriter.put]
  | _ => simp [SvgWriter.step, SvgWriter.put, SvgWriter.before, Except.map]

/-- text before the output -/
def GeoJsonWriter.before (t : Text) (w : GeoJsonWriter) : GeoJsonWriter := { w with out := t ++ w.out }

theorem GeoJsonWriter.blind_step (num : F64 → Text) (t : Text) (w : GeoJsonWriter) (e : Ev) :
    (w.before t).geomStep num e = (w.geomStep num e).before t := by
  cases e <;> simp only [geomStep, comma, before]
  all_goals (repeat' split) <;> simp_all [put]

theorem GeoJsonWriter.blind_geom (num : F64 → Text) (t : Text) : (GeoJsonWriter.geomProc num).Blind (GeoJsonWriter.before t) :=
  ⟨fun s e => by simp [geomProc, blind_step, Except.map], fun _ => rfl⟩

theorem GeoJsonWriter.blind (fmt : Fmt) (t : Text) : (GeoJsonWriter.proc fmt).Blind (GeoJsonWriter.before t) := by
  refine ⟨fun s e => ?_, fun _ _ => rfl, fun _ _ => rfl, fun _ => rfl, fun _ => rfl⟩
  simp only [proc]
  cases e with
  | geom e => simp [step, blind_step, Except.map]
  | dsBegin name => cases name <;> simp [step, datasetBegin, put, before, Except.map]
  | _ => (simp only [step, put, before, Except.map]; repeat' split) <;> simp_all

namespace WkbWriter

/-- bytes before the output -/
def before (b : List Byte) (w : WkbWriter) : WkbWriter := { w with out := b ++ w.out }

theorem put_before (b c : List Byte) (w : WkbWriter) : (w.before b).put c = (w.put c).before b := by simp [put, before]

theorem writeWkbHeader_before (b : List Byte) (w : WkbWriter) (t : WkbType) :
    (w.before b).writeWkbHeader t = (w.writeWkbHeader t).before b := put_before b _ w

theorem writeHeader_before (b : List Byte) (w : WkbWriter) (t : WkbType) :
    (w.before b).writeHeader t = (w.writeHeader t).map (before b) := by
  have h1 := writeWkbHeader_before b w t
  have h2 : (w.before b).writeGpkgHeader = w.writeGpkgHeader.before b := put_before b _ w
  have h3 : (w.before b).writeMysqlHeader = w.writeMysqlHeader.map (before b) := by
    obtain ⟨_, _, srid, _, _, _, _, _, _, _, _, _, _⟩ := w
    cases srid with
    | none => exact congrArg Except.ok (put_before b _ _)
    | some v =>
      simp only [writeMysqlHeader, before]
      split <;> simp [put, Except.map, before]
  have h4 : (w.before b).writeEwkbHeader t = (w.writeEwkbHeader t).before b := by
    obtain ⟨_, _, srid, _, _, _, _, _, _, f, _, _, _⟩ := w
    cases srid <;> cases f <;> simp [writeEwkbHeader, before, put]
  have h5 : (w.before b).writeSpatialiteHeader t = (w.writeSpatialiteHeader t).before b := by
    obtain ⟨_, _, srid, _, _, _, _, _, _, f, _, _, _⟩ := w
    cases f <;> simp [writeSpatialiteHeader, before, put]
  have hf : (w.before b).firstHeader = w.firstHeader := rfl
  have hd : (w.before b).dialect = w.dialect := rfl
  unfold writeHeader
  rw [hd, hf, h1, h2, h3, h4, h5]
  cases w.dialect
  · rfl
  · rfl
  · by_cases h : w.firstHeader
    · simp only [h, if_true]
      exact congrArg Except.ok (writeWkbHeader_before b { w.writeGpkgHeader with firstHeader := false } t)
    · simp only [h]
      rfl
  · by_cases h : w.firstHeader
    · simp only [h, if_true]
      cases w.writeMysqlHeader with
      | error e => rfl
      | ok v => exact congrArg Except.ok (writeWkbHeader_before b { v with firstHeader := false } t)
    · simp only [h]
      rfl
  · rfl

theorem headerAndSize_before (b : List Byte) (w : WkbWriter) (t : WkbType) (n : Nat) :
    (w.before b).headerAndSize t n = (w.headerAndSize t n).map (before b) := by
  simp only [headerAndSize, writeHeader_before]
  cases w.writeHeader t <;> simp [Except.map, put, before]

theorem blind (b : List Byte) : proc.Blind (before b) := by
  have hc : ∀ (s : WkbWriter) x y z m, (s.before b).coordinate x y z m = (s.coordinate x y z m).map (before b) := by
    intro s x y z m
    unfold coordinate
    rw [writeHeader_before]
    by_cases h : s.geomState = .multiPointGeom
    · rw [if_pos h, if_pos (by exact h)]
      cases s.writeHeader .point <;> simp [Except.map, put, before]
    · rw [if_neg h, if_neg (by exact h)]
      simp [Except.map, put, before]
  refine ⟨fun s e => ?_, fun _ => rfl⟩
  cases e with
  | srid _ => rfl
  | xy x y _ => exact hc s x y _ _
  | coord x y z m _ _ _ => exact hc s x y z m
  | emptyPoint _ => rfl
  | gbegin k _ n _ =>
    have hn : ∀ t, (before b { s with nestingLevel := s.nestingLevel + 1 }).headerAndSize t n =
        (({ s with nestingLevel := s.nestingLevel + 1 } : WkbWriter).headerAndSize t n).map (before b) := fun t =>
      headerAndSize_before b { s with nestingLevel := s.nestingLevel + 1 } t n
    have hg : (s.before b).geomState = s.geomState := rfl
    simp only [proc, step]
    cases k
    case multiPoint =>
      show (match (before b { s with nestingLevel := s.nestingLevel + 1 }).headerAndSize .multiPoint n with
        | .ok w1 => Except.ok { w1 with geomState := .multiPointGeom }
        | .error e => .error e) = _
      rw [hn]
      simp only [gbegin]
      cases ({ s with nestingLevel := s.nestingLevel + 1 } : WkbWriter).headerAndSize .multiPoint n <;> rfl
    case lineString =>
      simp only [gbegin, hg, headerAndSize_before]
      split <;> simp [Except.map, put, before]
    case polygon => simp only [gbegin, headerAndSize_before]; cases s.headerAndSize .polygon n <;> rfl
    case triangle => simp only [gbegin, headerAndSize_before]; cases s.headerAndSize .triangle n <;> rfl
    all_goals first
      | exact hn _
      | exact headerAndSize_before b s _ n
      | exact writeHeader_before b s _
  | gend k _ _ =>
    have hd : (s.before b).nestDec = s.nestDec.map (before b) := by
      obtain ⟨_, _, _, _, _, _, _, _, _, _, _, n, _⟩ := s
      cases n <;> rfl
    have hw : ∀ s : WkbWriter, (s.before b).writeFooter = s.writeFooter.before b := by
      intro s
      rw [writeFooter_eq, writeFooter_eq, put_before]
      rfl
    simp only [proc, step]
    cases k <;> simp only [gend, nests, hd, if_true, Bool.false_eq_true, if_false]
    case polygon => exact congrArg Except.ok (hw { s with geomState := .normal })
    case triangle => exact congrArg Except.ok (hw { s with geomState := .normal })
    case multiPoint =>
      cases s.nestDec with
      | error e => rfl
      | ok w => exact congrArg Except.ok (hw { w with geomState := .normal })
    all_goals first
      | exact congrArg Except.ok (hw s)
      | (cases s.nestDec with
        | error e => rfl
        | ok w => exact congrArg Except.ok (hw w))

end WkbWriter

end Geozero
