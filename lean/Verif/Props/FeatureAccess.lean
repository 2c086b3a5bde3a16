import Verif.Lemmas.Features
import Verif.Model.GeoTypes
import Verif.Spec.Geom
import Verif.Props.Property

/-
C68: processing one feature (`FeatureAccess::process`, api.rs:44-60).
-/

namespace Geozero

/-- the properties delivered to a processor that answers `stop`: all of them up to the first one it answers `true` to -/
def untilStop (stop : FEv → Bool) : List PropRec → List PropRec
  | [] => []
  | p :: ps => p :: if stop (.prop p.1 p.2.1 p.2.2) then [] else untilStop stop ps

private theorem run_propsProg (env : FProg.Env) (ps : List PropRec) (bs : List Byte) :
    ∃ r, FProg.run env (propsProg ps) bs = (propEvs (untilStop env.ans ps), .ok (r, bs)) := by
  induction ps with
  | nil => exact ⟨_, rfl⟩
  | cons p ps ih =>
    obtain ⟨i, n, v⟩ := p
    simp only [propsProg, FProg.run, untilStop]
    cases env.ans (.prop i n v) with
    | true => exact ⟨true, rfl⟩
    | false =>
      obtain ⟨r, hr⟩ := ih
      exact ⟨r, by simp [hr, propEvs]⟩

/-- Processing feature number `idx` delivers one feature with that number: its properties in order, all of them unless the
processor asks to stop, and then, also if it asked to stop, the whole geometry. -/
theorem C68_feature (env : FProg.Env) (ps : List PropRec) (geom : Prog Unit) (idx : Nat) (bs rest : List Byte) (gevs : List Ev)
    (hg : Prog.run env.multi geom bs = (gevs, .ok ((), rest))) :
    FProg.run env (featureProcess (propsProg ps) geom idx) bs =
      (Feat.evs idx { props := some (untilStop env.ans ps), geom := some gevs }, .ok ((), rest)) := by
  obtain ⟨r, hr⟩ := run_propsProg env ps bs
  have hl : FProg.run env (FProg.lift geom) bs = (gevs.map FEv.geom, .ok ((), rest)) := by rw [FProg.run_lift, hg]
  simp only [featureProcess, FProg.bind_eq, FProg.run_call_bind, FProg.run_bind_ok hr, FProg.run_bind_ok hl, FProg.run_call]
  simp [Feat.evs, Feat.propsPart, Feat.geomPart]

/-- A processor that never asks to stop gets all properties. -/
theorem C68_all_properties (ps : List PropRec) : untilStop (fun _ => false) ps = ps := by
  induction ps with
  | nil => rfl
  | cons p ps ih => simp [untilStop, ih]

/-- If the geometry cannot be read, processing the feature fails with that error, after the properties and what was read of the
geometry; the sections are left open. -/
theorem C68_failing_geometry (env : FProg.Env) (ps : List PropRec) (geom : Prog Unit) (idx : Nat) (bs : List Byte) (gevs : List Ev)
    (e : Err) (hg : Prog.run env.multi geom bs = (gevs, .error e)) :
    FProg.run env (featureProcess (propsProg ps) geom idx) bs =
      (.ftBegin idx :: .propsBegin :: (propEvs (untilStop env.ans ps) ++ [.propsEnd, .geomBegin] ++ gevs.map FEv.geom), .error e) := by
  obtain ⟨r, hr⟩ := run_propsProg env ps bs
  have hl : FProg.run env (FProg.lift geom) bs = (gevs.map FEv.geom, .error e) := by rw [FProg.run_lift, hg]
  simp only [featureProcess, FProg.bind_eq, FProg.run_call_bind, FProg.run_bind_ok hr, FProg.run_bind_err hl]
  simp

/-- A data source that announces its dataset and processes its features numbered 0, 1, ... this way obeys the contract of
`FeatureProcessor` against every processor, also a failing one. -/
theorem C68_contract (name : Option Text) (fs : List (List PropRec × Prog Unit)) :
    (FProg.bind (FProg.call (.dsBegin name)) fun _ =>
      FProg.bind (FProg.forIdx (fun i f => featureProcess (propsProg f.1) f.2 i) 0 fs) fun _ => FProg.call .dsEnd).FollowsContract := by
  apply FProg.follows_of_obeys
  refine FProg.Obeys.call_bind (s' := .dataset 0) rfl ?_
  refine FProg.Obeys.bind (FProg.Obeys.forIdx (fun i => .dataset i) ?_ 0 fs) ?_
  · intro i f
    obtain ⟨ps, g⟩ := f
    refine FProg.Obeys.call_bind (s' := .feature i false false) (if_pos rfl) ?_
    refine FProg.Obeys.call_bind (s' := .props i false) rfl ?_
    refine FProg.Obeys.bind (Q := fun _ t => t = .props i false) ?_ ?_
    · induction ps with
      | nil => rfl
      | cons p ps ih =>
        refine ⟨_, rfl, fun b => ?_⟩
        cases b
        · exact ih
        · rfl
    · rintro - t rfl
      refine FProg.Obeys.call_bind (s' := .feature i true false) rfl ?_
      refine FProg.Obeys.call_bind (s' := .geom i true) rfl ?_
      refine FProg.Obeys.bind (FProg.Obeys.lift g i true) ?_
      rintro - t rfl
      refine FProg.Obeys.call_bind (s' := .feature i true true) rfl ?_
      exact FProg.Obeys.call (if_pos rfl)
  · rintro - t rfl
    exact FProg.Obeys.call rfl

/-- non-vacuity: a feature with two properties and a line, processed by a processor that wants only the first property -/
example : FProg.run { multi := false, dims := {}, ans := fun e => e == .prop 0 (txt "a") (.int 1) }
    (featureProcess (propsProg [(0, txt "a", .int 1), (1, txt "b", .int 2)]) (geoProcessGeom (.lineString [⟨0, 0⟩, ⟨1, 1⟩])) 7) [] =
    (Feat.evs 7 { props := some [(0, txt "a", .int 1)], geom := some (Geom.events false 0 (.lineString [⟨0, 0, none, none⟩, ⟨1, 1, none, none⟩])) },
      .ok ((), [])) := by
  rw [C68_feature _ _ _ _ _ [] (Geom.events false 0 (.lineString [⟨0, 0, none, none⟩, ⟨1, 1, none, none⟩])) rfl]
  rfl

end Geozero
