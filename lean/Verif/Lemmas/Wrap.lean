import Verif.Spec.Wrap
import Verif.Model.Csv
import Verif.Lemmas.Adaptors

/-
Readers pass positions on without looking at them.
-/

namespace Geozero
open Spec

/-- a reader all of whose positions are transformed -/
def Prog.mapXY {α : Type} (f : F64 → F64 → F64 × F64) : Prog α → Prog α
  | .ret a => .ret a
  | .fail e => .fail e
  | .read k => .read fun b => Prog.mapXY f (k b)
  | .emit e k => .emit (e.mapXY f) (Prog.mapXY f k)
  | .askMulti k => .askMulti fun b => Prog.mapXY f (k b)

/-- `q` is `p` with transformed positions -/
def Prog.Moved {α : Type} (f : F64 → F64 → F64 × F64) (p q : Prog α) : Prop := q = p.mapXY f

/-- the same for readers of features -/
def FProg.Moved {α : Type} (f : F64 → F64 → F64 × F64) (p q : FProg α) : Prop := q = p.mapXY f

namespace Prog
variable {f : F64 → F64 → F64 × F64}

theorem mapXY_bind {α β : Type} (p : Prog α) (k : α → Prog β) :
    (Prog.bind p k).mapXY f = Prog.bind (p.mapXY f) fun a => (k a).mapXY f := by
  induction p with
  | ret a => rfl
  | fail e => rfl
  | read k ih => simp only [Prog.bind, Prog.mapXY, ih]
  | emit e k ih => simp only [Prog.bind, Prog.mapXY, ih]
  | askMulti k ih => simp only [Prog.bind, Prog.mapXY, ih]

theorem Moved.bind {α β : Type} {p q : Prog α} {k k' : α → Prog β} (h : Moved f p q) (hk : ∀ a, Moved f (k a) (k' a)) :
    Moved f (Prog.bind p k) (Prog.bind q k') := by
  unfold Moved at *
  rw [mapXY_bind, h]
  congr 1
  funext a
  exact hk a

theorem Moved.ret {α : Type} (a : α) : Moved f (.ret a) (.ret a) := rfl
theorem Moved.fail {α : Type} (e : Err) : Moved f (.fail e : Prog α) (.fail e) := rfl
theorem Moved.ev {e e' : Ev} (h : e' = e.mapXY f) : Moved f (emitEv e) (emitEv e') := by subst h; rfl
theorem Moved.multiDim : Moved f multiDim multiDim := rfl
theorem Moved.ite {α : Type} {c : Prop} [Decidable c] {p q p' q' : Prog α} (h : Moved f p p') (h' : Moved f q q') :
    Moved f (if c then p else q) (if c then p' else q') := by
  split
  · exact h
  · exact h'
theorem Moved.forIdx {α β : Type} {g : α → β} {body : Nat → α → Prog Unit} {body' : Nat → β → Prog Unit}
    (h : ∀ i x, Moved f (body i x) (body' i (g x))) (i : Nat) (xs : List α) :
    Moved f (Geozero.forIdx body i xs) (Geozero.forIdx body' i (xs.map g)) := by
  induction xs generalizing i with
  | nil => exact .ret _
  | cons x xs ih => exact (h i x).bind fun _ => ih (i + 1)
theorem Moved.forIdxSame {α : Type} {body body' : Nat → α → Prog Unit}
    (h : ∀ i x, Moved f (body i x) (body' i x)) (i : Nat) (xs : List α) :
    Moved f (Geozero.forIdx body i xs) (Geozero.forIdx body' i xs) := by
  simpa using Moved.forIdx (g := id) h i xs

theorem Moved.sound {α : Type} {p q : Prog α} (h : Moved f p q) : ReadsAs f p q := by
  intro σ P s bs
  unfold Moved at h
  subst h
  induction p generalizing s bs with
  | ret a => rfl
  | fail e => rfl
  | read k ih =>
    cases bs with
    | nil => rfl
    | cons b bs => exact ih b s bs
  | emit e k ih =>
    have hs : (wrapGeom f P).step s e = P.step s (e.mapXY f) := rfl
    simp only [mapXY, interp, hs]
    cases P.step s (e.mapXY f) with
    | error x => rfl
    | ok s' => simp only [ih s' bs, List.map_cons]
  | askMulti k ih => exact ih _ s bs

end Prog

namespace FProg
variable {f : F64 → F64 → F64 × F64}

theorem mapXY_bind {α β : Type} (p : FProg α) (k : α → FProg β) :
    (FProg.bind p k).mapXY f = FProg.bind (p.mapXY f) fun a => (k a).mapXY f := by
  induction p with
  | ret a => rfl
  | fail e => rfl
  | read k ih => simp only [FProg.bind, FProg.mapXY, ih]
  | emit e k ih => simp only [FProg.bind, FProg.mapXY, ih]
  | emitOk e k ih => simp only [FProg.bind, FProg.mapXY, ih]
  | prop i n v k ih => simp only [FProg.bind, FProg.mapXY, ih]
  | ask k ih => simp only [FProg.bind, FProg.mapXY, ih]

theorem Moved.bind {α β : Type} {p q : FProg α} {k k' : α → FProg β} (h : Moved f p q) (hk : ∀ a, Moved f (k a) (k' a)) :
    Moved f (FProg.bind p k) (FProg.bind q k') := by
  unfold Moved at *
  rw [mapXY_bind, h]
  congr 1
  funext a
  exact hk a

theorem Moved.ret {α : Type} (a : α) : Moved f (.ret a) (.ret a) := rfl
theorem Moved.fail {α : Type} (e : Err) : Moved f (.fail e : FProg α) (.fail e) := rfl
theorem Moved.call {e e' : FEv} (h : e' = e.mapXY f) : Moved f (call e) (call e') := by subst h; rfl
theorem Moved.ite {α : Type} {c : Prop} [Decidable c] {p q p' q' : FProg α} (h : Moved f p p') (h' : Moved f q q') :
    Moved f (if c then p else q) (if c then p' else q') := by
  split
  · exact h
  · exact h'
theorem Moved.forIdx {α β : Type} {g : α → β} {body : Nat → α → FProg Unit} {body' : Nat → β → FProg Unit}
    (h : ∀ i x, Moved f (body i x) (body' i (g x))) (i : Nat) (xs : List α) :
    Moved f (FProg.forIdx body i xs) (FProg.forIdx body' i (xs.map g)) := by
  induction xs generalizing i with
  | nil => exact .ret _
  | cons x xs ih => exact (h i x).bind fun _ => ih (i + 1)
theorem Moved.forIdxSame {α : Type} {body body' : Nat → α → FProg Unit}
    (h : ∀ i x, Moved f (body i x) (body' i x)) (i : Nat) (xs : List α) :
    Moved f (FProg.forIdx body i xs) (FProg.forIdx body' i xs) := by
  simpa using Moved.forIdx (g := id) h i xs
theorem Moved.ask {α : Type} {k k' : Bool → Dims → FProg α} (h : ∀ b d, Moved f (k b d) (k' b d)) :
    Moved f (.ask k) (.ask k') := by
  unfold Moved at *
  simp only [FProg.mapXY, ← h]
theorem Moved.lift {α : Type} {p q : Prog α} (h : Prog.Moved f p q) : Moved f (FProg.lift p) (FProg.lift q) := by
  unfold Prog.Moved at h
  subst h
  unfold Moved
  induction p with
  | ret a => rfl
  | fail e => rfl
  | read k ih => simp only [Prog.mapXY, FProg.lift, FProg.mapXY, ih]
  | emit e k ih => simp only [Prog.mapXY, FProg.lift, FProg.mapXY, ih, FEv.mapXY_geom]
  | askMulti k ih => simp only [Prog.mapXY, FProg.lift, FProg.mapXY, ih]

end FProg

open Prog (Moved emitEv multiDim)

/-- what is known about parts of readers; extended below -/
syntax "movlem" : tactic
macro_rules | `(tactic| movlem) => `(tactic| assumption)

/-- takes two programs apart -/
macro "mov" : tactic => `(tactic|
  (try simp only [Prog.bind_eq, Prog.pure_eq, List.length_map, List.isEmpty_map]
   repeat' first
    | with_reducible movlem
    | with_reducible exact Moved.ret _
    | with_reducible exact Moved.fail _
    | with_reducible exact Moved.multiDim
    | exact (rfl : (_ : Ev) = _)
    | with_reducible refine Moved.ev ?_
    | with_reducible refine Moved.ite ?_ ?_
    | with_reducible refine Moved.forIdx (fun i x => ?_) _ _
    | with_reducible refine Moved.bind ?_ (fun a => ?_)))

variable (f : F64 → F64 → F64 × F64)

/-! #### WKT -/

theorem mov_wktCoord (m : Bool) (i : Nat) (c : Coord) : Moved f (wktProcessCoord m i c) (wktProcessCoord m i (c.mapXY f)) := by
  unfold wktProcessCoord; cases m <;> exact Moved.ev rfl
macro_rules | `(tactic| movlem) => `(tactic| exact mov_wktCoord _ _ _ _)
theorem mov_wktMember (m : Bool) (i : Nat) (c : Option Coord) :
    Moved f (wktProcessMember m i c) (wktProcessMember m i (c.map (Coord.mapXY f))) := by
  cases c with
  | none => exact .ret _
  | some c => exact mov_wktCoord f _ _ _
macro_rules | `(tactic| movlem) => `(tactic| exact mov_wktMember _ _ _ _)
theorem mov_wktLinestring (t : Bool) (i : Nat) (cs : List Coord) :
    Moved f (wktProcessLinestring t i cs) (wktProcessLinestring t i (cs.map (Coord.mapXY f))) := by
  unfold wktProcessLinestring; mov
macro_rules | `(tactic| movlem) => `(tactic| exact mov_wktLinestring _ _ _ _)
theorem mov_wktPolygon (t : Bool) (i : Nat) (rs : List (List Coord)) :
    Moved f (wktProcessPolygon t i rs) (wktProcessPolygon t i (rs.map (List.map (Coord.mapXY f)))) := by
  unfold wktProcessPolygon; mov
macro_rules | `(tactic| movlem) => `(tactic| exact mov_wktPolygon _ _ _ _)

theorem WktGeom.length_mapXYList (gs : List WktGeom) : (WktGeom.mapXYList f gs).length = gs.length := by
  induction gs with
  | nil => rfl
  | cons g gs ih => simp [WktGeom.mapXYList, ih]

mutual
theorem mov_wktN (i : Nat) : (g : WktGeom) → Moved f (wktProcessGeomN i g) (wktProcessGeomN i (g.mapXY f))
  | .point c => by
    unfold WktGeom.mapXY wktProcessGeomN
    refine Moved.multiDim.bind fun m => ?_
    cases c with
    | none => exact Moved.ev rfl
    | some c => dsimp only [Option.map]; mov
  | .multiPoint ps => by unfold WktGeom.mapXY wktProcessGeomN; mov
  | .lineString cs => by unfold WktGeom.mapXY wktProcessGeomN; mov
  | .multiLineString ls => by unfold WktGeom.mapXY wktProcessGeomN; mov
  | .polygon rs => by unfold WktGeom.mapXY wktProcessGeomN; mov
  | .multiPolygon ps => by unfold WktGeom.mapXY wktProcessGeomN; mov
  | .collection gs => by
    unfold WktGeom.mapXY wktProcessGeomN
    have := mov_wktMembers 0 gs
    rw [WktGeom.length_mapXYList]
    mov
theorem mov_wktMembers (i : Nat) : (gs : List WktGeom) →
    Moved f (wktProcessMembers i gs) (wktProcessMembers i (WktGeom.mapXYList f gs))
  | [] => by unfold WktGeom.mapXYList wktProcessMembers; exact .ret _
  | g :: gs => by
    unfold WktGeom.mapXYList wktProcessMembers
    exact (mov_wktN i g).bind fun _ => mov_wktMembers (i + 1) gs
end

theorem mov_wktText (parse : Text → Except Err WktGeom) (t : Text) :
    Moved f (processWktText parse t) (processWktText (fun t => (parse t).map (WktGeom.mapXY f)) t) := by
  unfold processWktText
  dsimp only
  cases parse t with
  | error e => exact .fail _
  | ok g => exact mov_wktN f 0 g

/-! #### geo-types -/

theorem mov_xyEv (m : Bool) (c : XY) (i : Nat) : Moved f (emitEv (xyEv m c i)) (emitEv (xyEv m (c.mapXY f) i)) :=
  Moved.ev (by cases m <;> rfl)
macro_rules | `(tactic| movlem) => `(tactic| exact mov_xyEv _ _ _ _)
theorem mov_geoCoord (c : XY) (i : Nat) : Moved f (geoProcessCoord c i) (geoProcessCoord (c.mapXY f) i) := by
  unfold geoProcessCoord; mov
macro_rules | `(tactic| movlem) => `(tactic| exact mov_geoCoord _ _ _)
theorem mov_geoLinestring (cs : List XY) (t : Bool) (i : Nat) :
    Moved f (geoProcessLinestring cs t i) (geoProcessLinestring (cs.map (XY.mapXY f)) t i) := by unfold geoProcessLinestring; mov
macro_rules | `(tactic| movlem) => `(tactic| exact mov_geoLinestring _ _ _ _)
theorem mov_geoPolygon (p : GPoly) (t : Bool) (i : Nat) :
    Moved f (geoProcessPolygon p t i) (geoProcessPolygon (p.mapXY f) t i) := by
  unfold geoProcessPolygon GPoly.mapXY; mov
macro_rules | `(tactic| movlem) => `(tactic| exact mov_geoPolygon _ _ _ _)

theorem GeoGeom.length_mapXYList (gs : List GeoGeom) : (GeoGeom.mapXYList f gs).length = gs.length := by
  induction gs with
  | nil => rfl
  | cons g gs ih => simp [GeoGeom.mapXYList, ih]

mutual
theorem mov_geoN (i : Nat) : (g : GeoGeom) → Moved f (geoProcessGeomN i g) (geoProcessGeomN i (g.mapXY f))
  | .point p => by unfold GeoGeom.mapXY geoProcessGeomN; mov
  | .line a b => by unfold GeoGeom.mapXY geoProcessGeomN; mov
  | .lineString cs => by unfold GeoGeom.mapXY geoProcessGeomN; mov
  | .polygon p => by unfold GeoGeom.mapXY geoProcessGeomN; mov
  | .multiPoint ps => by unfold GeoGeom.mapXY geoProcessGeomN; mov
  | .multiLineString ls => by unfold GeoGeom.mapXY geoProcessGeomN; mov
  | .multiPolygon ps => by unfold GeoGeom.mapXY geoProcessGeomN; mov
  | .collection gs => by
    unfold GeoGeom.mapXY geoProcessGeomN
    have := mov_geoMembers 0 gs
    rw [GeoGeom.length_mapXYList]
    mov
  | .rect mn mx => by unfold GeoGeom.mapXY geoProcessGeomN; mov
  | .triangle a b c => by unfold GeoGeom.mapXY geoProcessGeomN; mov
theorem mov_geoMembers (i : Nat) : (gs : List GeoGeom) →
    Moved f (geoProcessMembers i gs) (geoProcessMembers i (GeoGeom.mapXYList f gs))
  | [] => by unfold GeoGeom.mapXYList geoProcessMembers; exact .ret _
  | g :: gs => by
    unfold GeoGeom.mapXYList geoProcessMembers
    exact (mov_geoN i g).bind fun _ => mov_geoMembers (i + 1) gs
end

/-! #### GEOS -/

theorem mov_geosCoordSeq (cs : GSeq) (o : Nat) : Moved f (geosCoordSeq cs o) (geosCoordSeq (cs.map (GPos.mapXY f)) o) := by
  unfold geosCoordSeq
  refine Moved.multiDim.bind fun m => ?_
  refine Moved.forIdx (fun i x => ?_) _ _
  cases m <;> exact Moved.ev rfl
macro_rules | `(tactic| movlem) => `(tactic| exact mov_geosCoordSeq _ _ _)
theorem mov_geosPoint (cs : GSeq) (o : Nat) : Moved f (geosPoint cs o) (geosPoint (cs.map (GPos.mapXY f)) o) :=
  mov_geosCoordSeq f cs o
macro_rules | `(tactic| movlem) => `(tactic| exact mov_geosPoint _ _ _)
theorem mov_geosLinestring (cs : GSeq) (t : Bool) (i : Nat) :
    Moved f (geosLinestring cs t i) (geosLinestring (cs.map (GPos.mapXY f)) t i) := by unfold geosLinestring; mov
macro_rules | `(tactic| movlem) => `(tactic| exact mov_geosLinestring _ _ _ _)
theorem mov_geosPolygon (e : GSeq) (is : List GSeq) (t : Bool) (i : Nat) :
    Moved f (geosPolygon e is t i) (geosPolygon (e.map (GPos.mapXY f)) (is.map (List.map (GPos.mapXY f))) t i) := by
  unfold geosPolygon; mov
macro_rules | `(tactic| movlem) => `(tactic| exact mov_geosPolygon _ _ _ _ _)

theorem GeosGeom.length_mapXYList (gs : List GeosGeom) : (GeosGeom.mapXYList f gs).length = gs.length := by
  induction gs with
  | nil => rfl
  | cons g gs ih => simp [GeosGeom.mapXYList, ih]

mutual
theorem mov_geosN (i : Nat) : (g : GeosGeom) → Moved f (geosGeomN i g) (geosGeomN i (g.mapXY f))
  | .point p => by unfold GeosGeom.mapXY geosGeomN; mov
  | .lineString cs => by unfold GeosGeom.mapXY geosGeomN; mov
  | .linearRing cs => by unfold GeosGeom.mapXY geosGeomN; mov
  | .polygon e is => by unfold GeosGeom.mapXY geosGeomN; mov
  | .multiPoint ps => by unfold GeosGeom.mapXY geosGeomN; mov
  | .multiLineString ls => by unfold GeosGeom.mapXY geosGeomN; mov
  | .multiPolygon ps => by unfold GeosGeom.mapXY geosGeomN; mov
  | .collection gs => by
    unfold GeosGeom.mapXY geosGeomN
    have := mov_geosMembers 0 gs
    rw [GeosGeom.length_mapXYList]
    mov
theorem mov_geosMembers (i : Nat) : (gs : List GeosGeom) →
    Moved f (geosMembers i gs) (geosMembers i (GeosGeom.mapXYList f gs))
  | [] => by unfold GeosGeom.mapXYList geosMembers; exact .ret _
  | g :: gs => by
    unfold GeosGeom.mapXYList geosMembers
    exact (mov_geosN i g).bind fun _ => mov_geosMembers (i + 1) gs
end

/-! #### GDAL -/

theorem OgrGeom.mapXYList_eq (ms : List OgrGeom) : OgrGeom.mapXYList f ms = ms.map (OgrGeom.mapXY f) := by
  induction ms with
  | nil => rfl
  | cons m ms ih => simp [OgrGeom.mapXYList, ih]
theorem OgrGeom.kind_mapXY (g : OgrGeom) : (g.mapXY f).kind = g.kind := by cases g; rfl
theorem OgrGeom.pts_mapXY (g : OgrGeom) : (g.mapXY f).pts = g.pts.map (OgrPt.mapXY f) := by cases g; rfl
theorem OgrGeom.members_mapXY (g : OgrGeom) : (g.mapXY f).members = g.members.map (OgrGeom.mapXY f) := by
  cases g; exact OgrGeom.mapXYList_eq f _

theorem mov_ogrEv (m : Bool) (c : OgrPt) (i : Nat) : Moved f (emitEv (ogrEv m c i)) (emitEv (ogrEv m (c.mapXY f) i)) :=
  Moved.ev (by cases m <;> rfl)
macro_rules | `(tactic| movlem) => `(tactic| exact mov_ogrEv _ _ _ _)
theorem mov_ogrPoint (b : OgrPt) (g : OgrGeom) (i : Nat) :
    Moved f (ogrPoint b g i) (ogrPoint (b.mapXY f) (g.mapXY f) i) := by
  unfold ogrPoint
  rw [OgrGeom.pts_mapXY]
  refine Moved.multiDim.bind fun m => ?_
  cases g.pts <;> exact mov_ogrEv f _ _ _
macro_rules | `(tactic| movlem) => `(tactic| exact mov_ogrPoint _ _ _ _)
theorem mov_ogrLinestring (g : OgrGeom) (t : Bool) (i : Nat) :
    Moved f (ogrLinestring g t i) (ogrLinestring (g.mapXY f) t i) := by
  unfold ogrLinestring; rw [OgrGeom.pts_mapXY]; mov
macro_rules | `(tactic| movlem) => `(tactic| exact mov_ogrLinestring _ _ _ _)
theorem mov_ogrCircularstring (g : OgrGeom) (i : Nat) :
    Moved f (ogrCircularstring g i) (ogrCircularstring (g.mapXY f) i) := by
  unfold ogrCircularstring; rw [OgrGeom.pts_mapXY]; mov
macro_rules | `(tactic| movlem) => `(tactic| exact mov_ogrCircularstring _ _ _)
theorem mov_ogrSeqMember (i : Nat) (g : OgrGeom) : Moved f (ogrSeqMember i g) (ogrSeqMember i (g.mapXY f)) := by
  unfold ogrSeqMember; rw [OgrGeom.kind_mapXY]; mov
macro_rules | `(tactic| movlem) => `(tactic| exact mov_ogrSeqMember _ _ _)
theorem mov_ogrLinestringSeq (ms : List OgrGeom) :
    Moved f (ogrLinestringSeq ms) (ogrLinestringSeq (ms.map (OgrGeom.mapXY f))) := by unfold ogrLinestringSeq; mov
macro_rules | `(tactic| movlem) => `(tactic| exact mov_ogrLinestringSeq _ _)
theorem mov_ogrPolygon (g : OgrGeom) (t : Bool) (i : Nat) : Moved f (ogrPolygon g t i) (ogrPolygon (g.mapXY f) t i) := by
  unfold ogrPolygon; rw [OgrGeom.members_mapXY]; mov
macro_rules | `(tactic| movlem) => `(tactic| exact mov_ogrPolygon _ _ _ _)
theorem mov_ogrTriangle (g : OgrGeom) (t : Bool) (i : Nat) : Moved f (ogrTriangle g t i) (ogrTriangle (g.mapXY f) t i) := by
  unfold ogrTriangle; rw [OgrGeom.members_mapXY]; mov
macro_rules | `(tactic| movlem) => `(tactic| exact mov_ogrTriangle _ _ _ _)
theorem mov_ogrSegment (i : Nat) (g : OgrGeom) : Moved f (ogrSegment i g) (ogrSegment i (g.mapXY f)) := by
  unfold ogrSegment; rw [OgrGeom.kind_mapXY]; split <;> mov
macro_rules | `(tactic| movlem) => `(tactic| exact mov_ogrSegment _ _ _)
theorem mov_ogrCompoundcurve (g : OgrGeom) (i : Nat) : Moved f (ogrCompoundcurve g i) (ogrCompoundcurve (g.mapXY f) i) := by
  unfold ogrCompoundcurve; rw [OgrGeom.members_mapXY]; mov
macro_rules | `(tactic| movlem) => `(tactic| exact mov_ogrCompoundcurve _ _ _)
theorem mov_ogrCurve (i : Nat) (g : OgrGeom) : Moved f (ogrCurve i g) (ogrCurve i (g.mapXY f)) := by
  unfold ogrCurve; rw [OgrGeom.kind_mapXY]; split <;> mov
macro_rules | `(tactic| movlem) => `(tactic| exact mov_ogrCurve _ _ _)
theorem mov_ogrCurvepolygon (g : OgrGeom) (i : Nat) : Moved f (ogrCurvepolygon g i) (ogrCurvepolygon (g.mapXY f) i) := by
  unfold ogrCurvepolygon; rw [OgrGeom.members_mapXY]; mov
macro_rules | `(tactic| movlem) => `(tactic| exact mov_ogrCurvepolygon _ _ _)
theorem mov_ogrSurface (i : Nat) (g : OgrGeom) : Moved f (ogrSurface i g) (ogrSurface i (g.mapXY f)) := by
  unfold ogrSurface; rw [OgrGeom.kind_mapXY]; split <;> mov
macro_rules | `(tactic| movlem) => `(tactic| exact mov_ogrSurface _ _ _)
theorem mov_ogrPointMember (b : OgrPt) (i : Nat) (g : OgrGeom) :
    Moved f (ogrPointMember b i g) (ogrPointMember (b.mapXY f) i (g.mapXY f)) := by
  unfold ogrPointMember; rw [OgrGeom.kind_mapXY]; mov
theorem mov_ogrPolygonMember (i : Nat) (g : OgrGeom) : Moved f (ogrPolygonMember i g) (ogrPolygonMember i (g.mapXY f)) := by
  unfold ogrPolygonMember; rw [OgrGeom.kind_mapXY]; mov

theorem mov_ogrContainer (k : GKind) {body body' : Nat → OgrGeom → Prog Unit}
    (h : ∀ i g, Moved f (body i g) (body' i (g.mapXY f))) (ms : List OgrGeom) (i : Nat) :
    Moved f (ogrContainer k body ms i) (ogrContainer k body' (OgrGeom.mapXYList f ms) i) := by
  rw [OgrGeom.mapXYList_eq]
  unfold ogrContainer
  rw [List.length_map]
  exact (Moved.ev rfl).bind fun _ => (Moved.forIdx h _ _).bind fun _ => Moved.ev rfl

mutual
theorem mov_ogrN (b : OgrPt) (i : Nat) : (g : OgrGeom) → Moved f (ogrGeomN b i g) (ogrGeomN (b.mapXY f) i (g.mapXY f))
  | .node k ps ms => by
    have hm := mov_ogrMembers b 0 ms
    unfold ogrGeomN OgrGeom.mapXY
    have hl : (OgrGeom.mapXYList f ms).length = ms.length := by rw [OgrGeom.mapXYList_eq, List.length_map]
    dsimp only
    split
    · exact (Moved.ev rfl).bind fun _ => (mov_ogrPoint f b (.node _ ps ms) 0).bind fun _ => Moved.ev rfl
    · exact mov_ogrContainer f _ (mov_ogrPointMember f b) _ _
    · exact mov_ogrLinestring f (.node _ ps ms) true i
    · exact mov_ogrContainer f _ (mov_ogrSeqMember f) _ _
    · exact mov_ogrPolygon f (.node _ ps ms) true i
    · exact mov_ogrContainer f _ (mov_ogrPolygonMember f) _ _
    · rw [hl]
      exact (Moved.ev rfl).bind fun _ => hm.bind fun _ => Moved.ev rfl
    · exact mov_ogrCircularstring f (.node _ ps ms) i
    · exact mov_ogrCompoundcurve f (.node _ ps ms) i
    · exact mov_ogrCurvepolygon f (.node _ ps ms) i
    · exact mov_ogrTriangle f (.node _ ps ms) true i
    · exact mov_ogrContainer f _ (mov_ogrCurve f) _ _
    · exact mov_ogrContainer f _ (fun i g => mov_ogrPolygon f g false i) _ _
    · exact mov_ogrContainer f _ (fun i g => mov_ogrTriangle f g false i) _ _
    · exact mov_ogrContainer f _ (mov_ogrSurface f) _ _
    · exact .fail _
theorem mov_ogrMembers (b : OgrPt) (i : Nat) : (gs : List OgrGeom) →
    Moved f (ogrMembers b i gs) (ogrMembers (b.mapXY f) i (OgrGeom.mapXYList f gs))
  | [] => by unfold OgrGeom.mapXYList ogrMembers; exact .ret _
  | g :: gs => by
    unfold OgrGeom.mapXYList ogrMembers
    exact (mov_ogrN b i g).bind fun _ => mov_ogrMembers b (i + 1) gs
end

/-! #### GPX -/

theorem mov_gpxWaypointsIter (w : Bool) (ps : List XY) (i : Nat) :
    Moved f (gpxWaypointsIter w ps i) (gpxWaypointsIter w (ps.map (XY.mapXY f)) i) := by
  induction ps generalizing i with
  | nil => exact .ret _
  | cons p ps ih =>
    have := ih (i + 1)
    rw [List.map_cons]
    unfold gpxWaypointsIter
    mov
macro_rules | `(tactic| movlem) => `(tactic| exact mov_gpxWaypointsIter _ _ _ _)
theorem mov_gpxTrackSegment (ps : List XY) (i : Nat) :
    Moved f (gpxTrackSegment ps i) (gpxTrackSegment (ps.map (XY.mapXY f)) i) := by unfold gpxTrackSegment; mov
macro_rules | `(tactic| movlem) => `(tactic| exact mov_gpxTrackSegment _ _ _)
theorem mov_gpxTrackSegments (t : List (List XY)) (i : Nat) :
    Moved f (gpxTrackSegments t i) (gpxTrackSegments (t.map (List.map (XY.mapXY f))) i) := by unfold gpxTrackSegments; mov
macro_rules | `(tactic| movlem) => `(tactic| exact mov_gpxTrackSegments _ _ _)
theorem mov_gpxTopTracks (ts : List (List (List XY))) (i : Nat) :
    Moved f (gpxTopTracks ts i) (gpxTopTracks (ts.map (List.map (List.map (XY.mapXY f)))) i) := by
  induction ts generalizing i with
  | nil => exact .ret _
  | cons t ts ih => exact (mov_gpxTrackSegments f t i).bind fun _ => ih (i + 1)
macro_rules | `(tactic| movlem) => `(tactic| exact mov_gpxTopTracks _ _ _)
theorem mov_gpxRoute (ps : List XY) (i : Nat) : Moved f (gpxRoute ps i) (gpxRoute (ps.map (XY.mapXY f)) i) := by
  unfold gpxRoute; mov
macro_rules | `(tactic| movlem) => `(tactic| exact mov_gpxRoute _ _ _)
theorem mov_gpxTopRoutes (rs : List (List XY)) (i : Nat) :
    Moved f (gpxTopRoutes rs i) (gpxTopRoutes (rs.map (List.map (XY.mapXY f))) i) := by unfold gpxTopRoutes; mov
macro_rules | `(tactic| movlem) => `(tactic| exact mov_gpxTopRoutes _ _ _)

theorem mov_gpx (parsed : Except String GpxDoc) : Moved f (readGpx parsed) (readGpx (parsed.map (GpxDoc.mapXY f))) := by
  cases parsed with
  | error e => exact .fail _
  | ok d =>
    obtain ⟨w, t, r⟩ := d
    dsimp only [Except.map, GpxDoc.mapXY]
    unfold readGpx gpxTopWaypoints
    mov

/-! #### GeoJSON -/

theorem mov_gjCoord (m : Bool) (i : Nat) (p : List F64) : Moved f (gjCoord m i p) (gjCoord m i (gjMapXY f p)) := by
  rcases p with _ | ⟨x, _ | ⟨y, rest⟩⟩
  · exact .fail _
  · exact .fail _
  · cases m <;> exact Moved.ev rfl
macro_rules | `(tactic| movlem) => `(tactic| exact mov_gjCoord _ _ _ _)
theorem mov_gjLine (t : Bool) (i : Nat) (l : List (List F64)) : Moved f (gjLine t i l) (gjLine t i (l.map (gjMapXY f))) := by
  unfold gjLine; mov
macro_rules | `(tactic| movlem) => `(tactic| exact mov_gjLine _ _ _ _)
theorem mov_gjPolygon (t : Bool) (i : Nat) (rs : List (List (List F64))) :
    Moved f (gjPolygon t i rs) (gjPolygon t i (rs.map (List.map (gjMapXY f)))) := by unfold gjPolygon; mov
macro_rules | `(tactic| movlem) => `(tactic| exact mov_gjPolygon _ _ _ _)

theorem GjGeom.length_mapXYList (gs : List GjGeom) : (GjGeom.mapXYList f gs).length = gs.length := by
  induction gs with
  | nil => rfl
  | cons g gs ih => simp [GjGeom.mapXYList, ih]

mutual
theorem mov_gjN (i : Nat) : (g : GjGeom) → Moved f (gjGeomN i g) (gjGeomN i (g.mapXY f))
  | .point p => by unfold GjGeom.mapXY gjGeomN; mov
  | .lineString cs => by unfold GjGeom.mapXY gjGeomN; mov
  | .polygon p => by unfold GjGeom.mapXY gjGeomN; mov
  | .multiPoint ps => by unfold GjGeom.mapXY gjGeomN; mov
  | .multiLineString ls => by unfold GjGeom.mapXY gjGeomN; mov
  | .multiPolygon ps => by unfold GjGeom.mapXY gjGeomN; mov
  | .collection gs => by
    unfold GjGeom.mapXY gjGeomN
    have := mov_gjMembers 0 gs
    rw [GjGeom.length_mapXYList]
    mov
theorem mov_gjMembers (i : Nat) : (gs : List GjGeom) → Moved f (gjMembers i gs) (gjMembers i (GjGeom.mapXYList f gs))
  | [] => by unfold GjGeom.mapXYList gjMembers; exact .ret _
  | g :: gs => by
    unfold GjGeom.mapXYList gjMembers
    exact (mov_gjN i g).bind fun _ => mov_gjMembers (i + 1) gs
end

theorem filterMap_geometry_mapXY (fs : List GjFeature) :
    (fs.map (GjFeature.mapXY f)).filterMap GjFeature.geometry = (fs.filterMap GjFeature.geometry).map (GjGeom.mapXY f) := by
  induction fs with
  | nil => rfl
  | cons ft fs ih =>
    obtain ⟨ps, g⟩ := ft
    cases g with
    | none => simpa [GjFeature.mapXY] using ih
    | some g => simpa [GjFeature.mapXY] using ih

theorem mov_geoJsonGeom (v : GeoJsonValue) : Moved f (processGeoJsonGeom v) (processGeoJsonGeom (v.mapXY f)) := by
  cases v with
  | featureCollection fs =>
    simp only [GeoJsonValue.mapXY, processGeoJsonGeom, filterMap_geometry_mapXY]
    exact Moved.forIdx (fun i g => mov_gjN f i g) _ _
  | feature ft =>
    obtain ⟨ps, g⟩ := ft
    cases g with
    | none => exact .ret _
    | some g => exact mov_gjN f 0 g
  | geometry g => exact mov_gjN f 0 g

theorem mov_gjAddGeometry (b : Bool) (i : Nat) (g : GjGeom) :
    Moved f (gjAddGeometry b i g) (gjAddGeometry b i (g.mapXY f)) := by
  unfold gjAddGeometry
  have := mov_gjN f i g
  mov

theorem mov_gjLineGeoms (b : Bool) (i : Nat) (ls : List (Except Err GeoJsonValue)) :
    Moved f (gjLineGeoms b i ls) (gjLineGeoms b i (ls.map (Except.map (GeoJsonValue.mapXY f)))) := by
  induction ls generalizing b i with
  | nil => exact .ret _
  | cons l ls ih =>
    rcases l with e | v
    · exact .fail _
    · cases v with
      | featureCollection fs => exact .fail _
      | feature ft =>
        obtain ⟨ps, g⟩ := ft
        cases g with
        | none => exact ih b (i + 1)
        | some g => exact (mov_gjAddGeometry f b i g).bind fun s => ih s (i + 1)
      | geometry g => exact (mov_gjAddGeometry f b i g).bind fun s => ih s (i + 1)

theorem mov_lineGeometries (ls : List (Except Err GeoJsonValue)) :
    Moved f (readGeoJsonLineGeometries ls) (readGeoJsonLineGeometries (ls.map (Except.map (GeoJsonValue.mapXY f)))) := by
  have := mov_gjLineGeoms f false 0 ls
  unfold readGeoJsonLineGeometries; mov

/-! ### readers of features -/

theorem fmov_gjPropertiesPart (ps : Option (List (Text × GjVal))) : FProg.Moved f (gjPropertiesPart ps) (gjPropertiesPart ps) := by
  cases ps with
  | none => exact .ret _
  | some ps =>
    refine (FProg.Moved.call rfl).bind fun _ => (FProg.Moved.forIdxSame (fun i p => ?_) _ _).bind fun _ => .call rfl
    unfold gjProperty
    split
    · exact .ret _
    · exact .call rfl

theorem fmov_gjGeometryPart (i : Nat) (g : Option GjGeom) :
    FProg.Moved f (gjGeometryPart i g) (gjGeometryPart i (g.map (GjGeom.mapXY f))) := by
  cases g with
  | none => exact .ret _
  | some g => exact (FProg.Moved.call rfl).bind fun _ => (FProg.Moved.lift (mov_gjN f i g)).bind fun _ => .call rfl

theorem fmov_gjCollectionFeature (i : Nat) (ft : GjFeature) :
    FProg.Moved f (gjCollectionFeature i ft) (gjCollectionFeature i (ft.mapXY f)) :=
  (FProg.Moved.call rfl).bind fun _ => (fmov_gjPropertiesPart f _).bind fun _ => (fmov_gjGeometryPart f _ _).bind fun _ => .call rfl

theorem fmov_gjSingleFeature (i : Nat) (ft : GjFeature) :
    FProg.Moved f (gjSingleFeature i ft) (gjSingleFeature i (ft.mapXY f)) := by
  refine (FProg.Moved.call rfl).bind fun _ => FProg.Moved.bind ?_ fun _ => .call rfl
  rw [show (ft.mapXY f).geometry.isSome = ft.geometry.isSome from Option.isSome_map,
    show (ft.mapXY f).properties = ft.properties from rfl]
  exact FProg.Moved.ite (fmov_gjCollectionFeature f i ft) (.ret _)

theorem fmov_processGeoJson (v : GeoJsonValue) : FProg.Moved f (processGeoJson v) (processGeoJson (v.mapXY f)) := by
  cases v with
  | featureCollection fs =>
    exact (FProg.Moved.call rfl).bind fun _ => (FProg.Moved.forIdx (fmov_gjCollectionFeature f) _ _).bind fun _ => .call rfl
  | feature ft => exact fmov_gjSingleFeature f 0 ft
  | geometry g => exact .lift (mov_gjN f 0 g)

theorem fmov_readGeoJson (parsed : Except Err GeoJsonValue) :
    FProg.Moved f (readGeoJson parsed) (readGeoJson (parsed.map (GeoJsonValue.mapXY f))) := by
  cases parsed with
  | error e => exact .fail _
  | ok v => exact fmov_processGeoJson f v

theorem fmov_readGeoJsonFc (fs : List (Except Err GjFeature)) :
    FProg.Moved f (readGeoJsonFc fs) (readGeoJsonFc (fs.map (Except.map (GjFeature.mapXY f)))) :=
  FProg.Moved.forIdx (fun i ft => by
    cases ft with
    | error e => exact .fail _
    | ok ft => exact fmov_gjSingleFeature f i ft) _ _

theorem fmov_readGeoJsonLines (ls : List (Except Err GeoJsonValue)) :
    FProg.Moved f (readGeoJsonLines ls) (readGeoJsonLines (ls.map (Except.map (GeoJsonValue.mapXY f)))) := by
  refine (FProg.Moved.call rfl).bind fun _ => (FProg.Moved.forIdx (fun i l => ?_) _ _).bind fun _ => .call rfl
  rcases l with e | v
  · exact .fail _
  · cases v with
    | featureCollection fs => exact .fail _
    | feature ft =>
      exact (FProg.Moved.call rfl).bind fun _ => (fmov_gjPropertiesPart f _).bind fun _ =>
        (fmov_gjGeometryPart f _ _).bind fun _ => .call rfl
    | geometry g => exact .lift (mov_gjN f _ g)

theorem fmov_csvFeatures (parse : Text → Except Err WktGeom) (headers : Except Err (List Text))
    (records : List (Except Err (List Text))) (column : Text) :
    FProg.Moved f (processCsvFeatures parse headers records column)
      (processCsvFeatures (fun t => (parse t).map (WktGeom.mapXY f)) headers records column) := by
  unfold processCsvFeatures
  split
  · exact .fail _
  · split
    · exact (FProg.Moved.call rfl).bind fun _ => .fail _
    · refine (FProg.Moved.call rfl).bind fun _ => (FProg.Moved.forIdxSame (fun i r => ?_) _ _).bind fun _ => .call rfl
      unfold csvFeature
      split
      · exact .fail _
      · refine (FProg.Moved.call rfl).bind fun _ => (FProg.Moved.call rfl).bind fun _ =>
          (FProg.Moved.forIdxSame (fun i p => FProg.Moved.call rfl) _ _).bind fun _ => (FProg.Moved.call rfl).bind fun _ =>
          FProg.Moved.bind ?_ fun _ => .call rfl
        unfold csvGeometryPart
        split
        · exact .fail _
        · refine FProg.Moved.ite (.ret _) ((FProg.Moved.call rfl).bind fun _ => FProg.Moved.bind ?_ fun _ => .call rfl)
          rename_i t _ _
          unfold csvGeometry
          dsimp only
          cases parse t with
          | error e => exact .fail _
          | ok g => exact .lift (mov_wktN f 0 g)

/-! #### shapefiles -/

theorem fmov_shpCoord (cs : List XY) (zs ms : List F64) (multi getZ getM : Bool) (o i : Nat) :
    FProg.Moved f (shpCoord cs zs ms multi getZ getM o i) (shpCoord (cs.map (XY.mapXY f)) zs ms multi getZ getM o i) := by
  unfold shpCoord
  rw [List.getElem?_map]
  cases cs[o]? with
  | none => exact .fail _
  | some c =>
    dsimp only [Option.map]
    refine FProg.Moved.ite ?_ (.call rfl)
    cases dimValue getZ zs o with
    | error e => exact .fail _
    | ok z => cases dimValue getM ms o with
      | error e => exact .fail _
      | ok m => exact .call rfl

theorem fmov_shpPart (cs : List XY) (zs ms : List F64) (multi getZ getM : Bool) (i : Nat) (w : Nat × Nat) :
    FProg.Moved f (shpPart cs zs ms multi getZ getM i w) (shpPart (cs.map (XY.mapXY f)) zs ms multi getZ getM i w) := by
  unfold shpPart
  exact FProg.Moved.ite (.fail _) ((FProg.Moved.call rfl).bind fun _ =>
    (FProg.Moved.forIdxSame (fun i o => fmov_shpCoord f cs zs ms multi getZ getM o i) _ _).bind fun _ => .call rfl)

theorem fmov_shpPolygon (is : List Nat) (cs : List XY) (zs ms : List F64) (multi getZ getM : Bool) (i : Nat) (w : Nat × Nat) :
    FProg.Moved f (shpPolygon is cs zs ms multi getZ getM i w) (shpPolygon is (cs.map (XY.mapXY f)) zs ms multi getZ getM i w) :=
  (FProg.Moved.call rfl).bind fun _ =>
    (FProg.Moved.forIdxSame (fmov_shpPart f cs zs ms multi getZ getM) _ _).bind fun _ => .call rfl

theorem sliceXY_mapXY (cs : List XY) (a b : Nat) :
    sliceXY (cs.map (XY.mapXY f)) a b = (sliceXY cs a b).map (List.map (XY.mapXY f)) := by
  unfold sliceXY
  rw [List.length_map]
  split
  · simp only [Except.map, List.map_take, List.map_drop]
  · rfl

theorem detectLoop_mapXY (inner : List XY → Bool) (cs : List XY)
    (h : ∀ a n, inner (((cs.drop a).take n).map (XY.mapXY f)) = inner ((cs.drop a).take n)) (i : Nat) (ws : List (Nat × Nat)) :
    detectLoop inner (cs.map (XY.mapXY f)) i ws = detectLoop inner cs i ws := by
  induction ws generalizing i with
  | nil => rfl
  | cons w ws ih =>
    obtain ⟨a, b⟩ := w
    simp only [detectLoop, ih, sliceXY_mapXY]
    split
    · rfl
    · unfold sliceXY
      by_cases hab : a ≤ b ∧ b ≤ cs.length
      · simp only [if_pos hab, Except.map, h]
      · simp only [if_neg hab, Except.map]

theorem fmov_shape (ar : ShpArith) (s : ShpShape) (h : KeepsOrientation ar f s) :
    FProg.Moved f (s.process ar) ((s.mapXY f).process ar) := by
  cases s with
  | null => exact .ret _
  | patch => exact .ret _
  | point x y z m =>
    unfold ShpShape.mapXY ShpShape.process shpProcessPoint
    refine (FProg.Moved.call rfl).bind fun _ => FProg.Moved.bind ?_ fun _ => .call rfl
    refine FProg.Moved.ask fun multi dims => ?_
    cases multi <;> exact .call rfl
  | multipoint cs zs ms =>
    unfold ShpShape.mapXY ShpShape.process shpProcessMultipoint
    refine FProg.Moved.ask fun multi dims => ?_
    rw [List.length_map]
    exact (FProg.Moved.call rfl).bind fun _ => (FProg.Moved.forIdxSame (fun i o => fmov_shpCoord f cs zs ms _ _ _ o i) _ _).bind
      fun _ => .call rfl
  | multipart asPoly is cs zs ms =>
    unfold ShpShape.mapXY ShpShape.process shpProcess
    refine FProg.Moved.ask fun multi dims => ?_
    cases asPoly with
    | false =>
      exact (FProg.Moved.call rfl).bind fun _ => (FProg.Moved.forIdxSame (fmov_shpPart f cs zs ms _ _ _) _ _).bind fun _ => .call rfl
    | true =>
      have hd : detectPolys (ringInner ar) is (cs.map (XY.mapXY f)) = detectPolys (ringInner ar) is cs := by
        unfold detectPolys
        rw [detectLoop_mapXY f _ cs h]
      simp only [hd, if_true]
      cases detectPolys (ringInner ar) is cs with
      | error e => exact .fail _
      | ok ps =>
        exact (FProg.Moved.call rfl).bind fun _ => (FProg.Moved.forIdxSame (fmov_shpPolygon f is cs zs ms _ _ _) _ _).bind
          fun _ => .call rfl

theorem mov_csvGeom (parse : Text → Except Err WktGeom) (headers : Except Err (List Text))
    (records : List (Except Err (List Text))) (column : Text) :
    Moved f (processCsvGeom parse headers records column)
      (processCsvGeom (fun t => (parse t).map (WktGeom.mapXY f)) headers records column) := by
  unfold processCsvGeom
  split
  · exact .fail _
  · split
    · exact .fail _
    · refine (Moved.forIdxSame (fun i r => ?_) _ _).bind fun _ => (Moved.ite (Moved.ev rfl) (.ret _)).bind fun _ => Moved.ev rfl
      unfold csvGeomRecord
      split
      · exact .fail _
      · split
        · exact .fail _
        · rename_i t _
          dsimp only
          cases parse t with
          | error e => exact .fail _
          | ok g => exact (Moved.ite (Moved.ev rfl) (.ret _)).bind fun _ => mov_wktN f _ g

/-! ### readers of bytes -/

/-- what a processor takes of a list of calls -/
def feedPart {σ : Type} (step : σ → Ev → Except Err σ) (s : σ) : List Ev → σ × List Ev × Option Err
  | [] => (s, [], none)
  | e :: es => match step s e with
    | .error x => (s, [e], some x)
    | .ok s' => ((feedPart step s' es).1, e :: (feedPart step s' es).2.1, (feedPart step s' es).2.2)

theorem interp_feedPart {α σ : Type} (P : Prog.Proc σ) (multi : Bool) (hm : ∀ s, P.multi s = multi) (p : Prog α) (s : σ)
    (bs : List Byte) :
    Prog.interp P p s bs = ((feedPart P.step s (Prog.run multi p bs).1).1, (feedPart P.step s (Prog.run multi p bs).1).2.1,
      match (feedPart P.step s (Prog.run multi p bs).1).2.2 with
      | some x => .error x
      | none => (Prog.run multi p bs).2) := by
  induction p generalizing s bs with
  | ret a => rfl
  | fail e => rfl
  | read k ih =>
    cases bs with
    | nil => rfl
    | cons b bs => exact ih b s bs
  | emit e k ih =>
    simp only [Prog.interp, Prog.run, feedPart]
    cases P.step s e with
    | error x => rfl
    | ok s' => simp only [ih s' bs]
  | askMulti k ih => simp only [Prog.interp, Prog.run, hm]; exact ih multi s bs

theorem feedPart_wrap {σ : Type} (P : Prog.Proc σ) (s : σ) (es : List Ev) :
    feedPart P.step s (es.map (Ev.mapXY f)) = ((feedPart (wrapGeom f P).step s es).1,
      (feedPart (wrapGeom f P).step s es).2.1.map (Ev.mapXY f), (feedPart (wrapGeom f P).step s es).2.2) := by
  induction es generalizing s with
  | nil => rfl
  | cons e es ih =>
    have hs : (wrapGeom f P).step s e = P.step s (e.mapXY f) := rfl
    simp only [List.map_cons, feedPart, hs]
    cases P.step s (e.mapXY f) with
    | error x => rfl
    | ok s' => simp only [ih s', List.map_cons]

theorem blobReadsAs {α : Type} {p : Prog α} {bs bs' : List Byte}
    (h : ∀ multi, Prog.run multi p bs' = ((Prog.run multi p bs).1.map (Ev.mapXY f), (Prog.run multi p bs).2)) :
    BlobReadsAs f p bs bs' := by
  intro σ P multi hm s
  rw [interp_feedPart P multi hm, interp_feedPart (wrapGeom f P) multi hm, h multi]
  simp only [feedPart_wrap]

theorem Curve.levels_mapXY (c : Curve) : (c.mapXY f).levels = c.levels := by cases c <;> rfl
theorem Surface.levels_mapXY (c : Surface) : (c.mapXY f).levels = c.levels := by
  cases c with
  | polygon rs => rfl
  | curvePolygon rs => simp [Surface.mapXY, Surface.levels, Function.comp_def, Curve.levels_mapXY]

theorem Geom.levels_mapXY (g : Geom) : (g.mapXY f).levels = g.levels := by
  induction g using Geom.ind with
  | multiCurve cs => simp [Geom.mapXY, Geom.levels, Function.comp_def, Curve.levels_mapXY]
  | curvePolygon cs => simp [Geom.mapXY, Geom.levels, Function.comp_def, Curve.levels_mapXY]
  | multiSurface cs => simp [Geom.mapXY, Geom.levels, Function.comp_def, Surface.levels_mapXY]
  | collection gs ih =>
    simp only [Geom.mapXY, Geom.levels]
    induction gs with
    | nil => rfl
    | cons g gs ihs =>
      simp only [Geom.mapXYList, levelsList, ih g (by simp), ihs fun x hx => ih x (by simp [hx])]
  | _ => rfl

end Geozero
