import Verif.Lemmas.GeoJsonLine
import Verif.Lemmas.GeoTypes

/- Helper lemmas about the GeoJSON readers. -/

namespace Geozero
open Json Spec

theorem run_gjCoord (multi : Bool) (i : Nat) (p : List F64) (h : 2 ≤ p.length) (bs : List Byte) :
    Prog.run multi (gjCoord multi i p) bs = (coordEvs multi i (posCoord p), .ok ((), bs)) := by
  match p, h with
  | x :: y :: rest, _ => cases multi <;> simp [gjCoord, posCoord, coordEvs, coordEv]

theorem run_gjLine (multi tagged : Bool) (i : Nat) (l : List (List F64)) (h : ∀ p ∈ l, 2 ≤ p.length) (bs : List Byte) :
    Prog.run multi (gjLine tagged i l) bs = (lineEvs multi tagged i (l.map posCoord), .ok ((), bs)) := by
  unfold gjLine
  simp only [Prog.bind_eq, Prog.run_multiDim_bind, Prog.run_emitEv_bind]
  rw [Prog.run_bind_ok (run_forIdx (f := fun i c => coordEvs multi i (posCoord c)) l
    (fun i c hc bs => run_gjCoord multi i c (h c hc) bs) 0 bs)]
  simp [lineEvs, bracket, evList_map]

theorem run_gjPolygon (multi tagged : Bool) (i : Nat) (rs : List (List (List F64)))
    (h : ∀ l ∈ rs, ∀ p ∈ l, 2 ≤ p.length) (bs : List Byte) :
    Prog.run multi (gjPolygon tagged i rs) bs = (polyEvs multi tagged i (rs.map (List.map posCoord)), .ok ((), bs)) := by
  unfold gjPolygon
  simp only [Prog.bind_eq, Prog.run_emitEv_bind]
  rw [Prog.run_bind_ok (run_forIdx (f := fun i l => lineEvs multi false i (l.map posCoord)) rs
    (fun i c hc bs => run_gjLine multi false i c (h c hc) bs) 0 bs)]
  simp [polyEvs, bracket, evList_map]

theorem run_gjMembers (multi : Bool) (gs : List GjGeom)
    (h : ∀ g ∈ gs, ∀ i bs, Prog.run multi (gjGeomN i g) bs = (g.geom.events multi i, .ok ((), bs))) (i : Nat)
    (bs : List Byte) :
    Prog.run multi (gjMembers i gs) bs = (evList (Geom.events multi) i (gs.map GjGeom.geom), .ok ((), bs)) := by
  induction gs generalizing i with
  | nil => simp [gjMembers, evList]
  | cons g gs ih =>
    simp only [gjMembers, Prog.bind_eq]
    rw [Prog.run_bind_ok (h g (by simp) i bs), ih (fun g hg => h g (by simp [hg])) (i + 1)]
    simp [evList]

theorem run_gjGeomN (multi : Bool) {g : GjGeom} (hg : g.Ok) (i : Nat) (bs : List Byte) :
    Prog.run multi (gjGeomN i g) bs = (g.geom.events multi i, .ok ((), bs)) := by
  induction hg generalizing i bs with
  | point h =>
    rename_i p
    simp only [gjGeomN, Prog.bind_eq, Prog.run_multiDim_bind, Prog.run_emitEv_bind]
    rw [Prog.run_bind_ok (run_gjCoord multi 0 p h bs)]
    simp [GjGeom.geom, Geom.events, coordEvs]
  | multiPoint h =>
    rename_i ps
    simp only [gjGeomN, Prog.bind_eq, Prog.run_multiDim_bind, Prog.run_emitEv_bind]
    rw [Prog.run_bind_ok (run_forIdx (f := fun i c => coordEvs multi i (posCoord c)) ps
      (fun i c hc bs => run_gjCoord multi i c (h c hc) bs) 0 bs)]
    simp [GjGeom.geom, Geom.events, bracket, evList_map]
  | lineString h => simp only [gjGeomN, GjGeom.geom, Geom.events]; exact run_gjLine multi true i _ h bs
  | multiLineString h =>
    rename_i ls
    simp only [gjGeomN, Prog.bind_eq, Prog.run_emitEv_bind]
    rw [Prog.run_bind_ok (run_forIdx (f := fun i l => lineEvs multi false i (l.map posCoord)) ls
      (fun i c hc bs => run_gjLine multi false i c (h c hc) bs) 0 bs)]
    simp [GjGeom.geom, Geom.events, bracket, evList_map]
  | polygon h => simp only [gjGeomN, GjGeom.geom, Geom.events]; exact run_gjPolygon multi true i _ h bs
  | multiPolygon h =>
    rename_i ps
    simp only [gjGeomN, Prog.bind_eq, Prog.run_emitEv_bind]
    rw [Prog.run_bind_ok (run_forIdx (f := fun i l => polyEvs multi false i (l.map (List.map posCoord))) ps
      (fun i c hc bs => run_gjPolygon multi false i c (h c hc) bs) 0 bs)]
    simp [GjGeom.geom, Geom.events, bracket, evList_map]
  | collection h ih =>
    rename_i gs
    simp only [gjGeomN, Prog.bind_eq, Prog.run_emitEv_bind]
    rw [Prog.run_bind_ok (run_gjMembers multi gs ih 0 bs)]
    simp only [GjGeom.geom]
    rw [events_collection]
    simp [bracket]

/-! ### features -/

theorem run_gjProperties (env : FProg.Env) (ps : List (Text × GjVal)) (i : Nat) (bs : List Byte) :
    FProg.run env (FProg.forIdx gjProperty i ps) bs =
      (propEvs ((enumFrom i ps).filterMap fun p => p.2.2.column.map fun v => (p.1, p.2.1, v)), .ok ((), bs)) := by
  induction ps generalizing i with
  | nil => rfl
  | cons p ps ih =>
    simp only [FProg.forIdx, gjProperty, enumFrom, List.filterMap_cons]
    cases hv : p.2.column with
    | none => simpa [FProg.bind] using ih (i + 1)
    | some v =>
      simp only [FProg.run_call_bind, ih (i + 1)]
      simp [propEvs]

theorem run_gjPropertiesPart (env : FProg.Env) (f : GjFeature) (multi : Bool) (idx : Nat) (bs : List Byte) :
    FProg.run env (gjPropertiesPart f.properties) bs = ((f.feat multi idx).propsPart, .ok ((), bs)) := by
  unfold Feat.propsPart GjFeature.feat
  cases f.properties with
  | none => rfl
  | some ps =>
    simp only [gjPropertiesPart, FProg.bind_eq, FProg.run_call_bind]
    rw [FProg.run_bind_ok (run_gjProperties env ps 0 bs)]
    simp [gjProps]

theorem run_gjGeometryPart (env : FProg.Env) (f : GjFeature) (hf : f.Ok) (idx : Nat) (bs : List Byte) :
    FProg.run env (gjGeometryPart idx f.geometry) bs = ((f.feat env.multi idx).geomPart, .ok ((), bs)) := by
  unfold Feat.geomPart GjFeature.feat
  cases hg : f.geometry with
  | none => rfl
  | some g =>
    simp only [gjGeometryPart, FProg.bind_eq, FProg.run_call_bind]
    have := FProg.run_lift env (gjGeomN idx g) bs
    rw [run_gjGeomN env.multi (hf g hg) idx bs] at this
    rw [FProg.run_bind_ok this]
    simp

theorem run_gjFeature (env : FProg.Env) (f : GjFeature) (hf : f.Ok) (idx gi : Nat) (bs : List Byte) :
    FProg.run env (do
      FProg.call (.ftBegin idx)
      gjPropertiesPart f.properties
      gjGeometryPart gi f.geometry
      FProg.call (.ftEnd idx)) bs = ((f.feat env.multi gi).evs idx, .ok ((), bs)) := by
  simp only [FProg.bind_eq, FProg.run_call_bind]
  rw [FProg.run_bind_ok (run_gjPropertiesPart env f env.multi gi bs), FProg.run_bind_ok (run_gjGeometryPart env f hf gi bs)]
  simp [Feat.evs, GjFeature.feat]

theorem featEvs_enum (multi : Bool) (fs : List GjFeature) (i : Nat) :
    FProg.fevList (fun j (f : GjFeature) => (f.feat multi j).evs j) i fs =
      featEvs i ((enumFrom i fs).map fun p => p.2.feat multi p.1) := by
  induction fs generalizing i with
  | nil => rfl
  | cons f fs ih => simp [FProg.fevList, featEvs, enumFrom, ih]

end Geozero
