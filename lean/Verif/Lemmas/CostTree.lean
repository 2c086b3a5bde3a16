import Verif.Spec.CostTree
import Verif.Lemmas.Prog

/-
A bound on the calls of a reader that does not depend on what it reads.
-/

namespace Geozero

/-- at most `n` calls, whatever the bytes and the processor -/
def Prog.AtMost {α : Type} : Nat → Prog α → Prop
  | _, .ret _ => True
  | _, .fail _ => True
  | n, .read k => ∀ b, Prog.AtMost n (k b)
  | n, .emit _ k => 1 ≤ n ∧ Prog.AtMost (n - 1) k
  | n, .askMulti k => ∀ b, Prog.AtMost n (k b)

/-- at most `n` calls -/
def FProg.AtMost {α : Type} : Nat → FProg α → Prop
  | _, .ret _ => True
  | _, .fail _ => True
  | n, .read k => ∀ b, FProg.AtMost n (k b)
  | n, .emit _ k => 1 ≤ n ∧ FProg.AtMost (n - 1) k
  | n, .emitOk _ k => 1 ≤ n ∧ FProg.AtMost (n - 1) k
  | n, .prop _ _ _ k => 1 ≤ n ∧ ∀ b, FProg.AtMost (n - 1) (k b)
  | n, .ask k => ∀ b d, FProg.AtMost n (k b d)

namespace Prog
variable {α β : Type}

theorem AtMost.mono {p : Prog α} {n m : Nat} (h : AtMost n p) (hm : n ≤ m) : AtMost m p := by
  induction p generalizing n m with
  | ret a => trivial
  | fail e => trivial
  | read k ih => exact fun b => ih b (h b) hm
  | emit e k ih => exact ⟨Nat.le_trans h.1 hm, ih h.2 (by omega)⟩
  | askMulti k ih => exact fun b => ih b (h b) hm

theorem AtMost.bind {p : Prog α} {f : α → Prog β} {n m : Nat} (hp : AtMost n p) (hf : ∀ a, AtMost m (f a)) :
    AtMost (n + m) (Prog.bind p f) := by
  induction p generalizing n with
  | ret a => exact (hf a).mono (by omega)
  | fail e => trivial
  | read k ih => exact fun b => ih b (hp b)
  | emit e k ih =>
    refine ⟨?_, (ih hp.2).mono ?_⟩
    · have := hp.1; omega
    · have := hp.1; omega
  | askMulti k ih => exact fun b => ih b (hp b)

theorem AtMost.ret (a : α) : AtMost 0 (.ret a) := trivial
theorem AtMost.fail (e : Err) (n : Nat) : AtMost n (.fail e : Prog α) := trivial
theorem AtMost.emit (e : Ev) : AtMost 1 (emitEv e) := ⟨Nat.le_refl _, trivial⟩
theorem AtMost.multiDim : AtMost 0 Prog.multiDim := fun _ => trivial

/-- begin, go on, end -/
theorem AtMost.frame {b e : Ev} {p : Prog α} {n : Nat} (h : AtMost n p) :
    AtMost (2 + n) (Prog.bind (emitEv b) fun _ => Prog.bind p fun _ => emitEv e) :=
  ((AtMost.emit b).bind fun _ => h.bind fun _ => .emit e).mono (by omega)

theorem AtMost.forIdx {γ : Type} {body : Nat → γ → Prog Unit} {w : γ → Nat} (xs : List γ)
    (h : ∀ i x, x ∈ xs → AtMost (w x) (body i x)) (i : Nat) : AtMost ((xs.map w).sum) (Geozero.forIdx body i xs) := by
  induction xs generalizing i with
  | nil => exact .ret _
  | cons x xs ih =>
    simp only [List.map_cons, List.sum_cons]
    exact (h i x (List.mem_cons_self ..)).bind fun _ => ih (fun i y hy => h i y (List.mem_cons_of_mem _ hy)) (i + 1)

/-- a call for each item -/
theorem AtMost.forIdx_one {γ : Type} {body : Nat → γ → Prog Unit} (xs : List γ) (h : ∀ i x, AtMost 1 (body i x)) (i : Nat) :
    AtMost xs.length (Geozero.forIdx body i xs) := by
  have h' := AtMost.forIdx (w := fun _ => 1) xs (fun i x _ => h i x) i
  rwa [List.map_const', List.sum_replicate_nat, Nat.mul_one] at h'

theorem AtMost.sound {σ : Type} {p : Prog α} {n : Nat} (h : AtMost n p) (P : Proc σ) (s : σ) (bs : List Byte) :
    (interp P p s bs).2.1.length ≤ n := by
  induction p generalizing s n bs with
  | ret a => exact Nat.zero_le _
  | fail e => exact Nat.zero_le _
  | read k ih =>
    cases bs with
    | nil => exact Nat.zero_le _
    | cons b bs => exact ih b (h b) s bs
  | emit e k ih =>
    obtain ⟨h1, h2⟩ := h
    simp only [interp]
    cases P.step s e with
    | error x => exact h1
    | ok s' =>
      have h3 := ih h2 s' bs
      simp only [List.length_cons]
      show (interp P k s' bs).2.1.length + 1 ≤ n
      omega
  | askMulti k ih => exact ih _ (h _) s bs

end Prog

namespace FProg
variable {α β : Type}

theorem AtMost.mono {p : FProg α} {n m : Nat} (h : AtMost n p) (hm : n ≤ m) : AtMost m p := by
  induction p generalizing n m with
  | ret a => trivial
  | fail e => trivial
  | read k ih => exact fun b => ih b (h b) hm
  | emit e k ih => exact ⟨Nat.le_trans h.1 hm, ih h.2 (by omega)⟩
  | emitOk e k ih => exact ⟨Nat.le_trans h.1 hm, ih h.2 (by omega)⟩
  | prop i n v k ih => exact ⟨Nat.le_trans h.1 hm, fun b => ih b (h.2 b) (by omega)⟩
  | ask k ih => exact fun b d => ih b d (h b d) hm

theorem AtMost.bind {p : FProg α} {f : α → FProg β} {n m : Nat} (hp : AtMost n p) (hf : ∀ a, AtMost m (f a)) :
    AtMost (n + m) (FProg.bind p f) := by
  induction p generalizing n with
  | ret a => exact (hf a).mono (by omega)
  | fail e => trivial
  | read k ih => exact fun b => ih b (hp b)
  | emit e k ih =>
    have := hp.1
    exact ⟨by omega, (ih hp.2).mono (by omega)⟩
  | emitOk e k ih =>
    have := hp.1
    exact ⟨by omega, (ih hp.2).mono (by omega)⟩
  | prop i n v k ih =>
    have := hp.1
    exact ⟨by omega, fun b => (ih b (hp.2 b)).mono (by omega)⟩
  | ask k ih => exact fun b d => ih b d (hp b d)

theorem AtMost.ret (a : α) : AtMost 0 (.ret a) := trivial
theorem AtMost.fail (e : Err) (n : Nat) : AtMost n (.fail e : FProg α) := trivial
theorem AtMost.call (e : FEv) : AtMost 1 (FProg.call e) := ⟨Nat.le_refl _, trivial⟩

theorem AtMost.lift {p : Prog α} {n : Nat} (h : Prog.AtMost n p) : AtMost n (FProg.lift p) := by
  induction p generalizing n with
  | ret a => trivial
  | fail e => trivial
  | read k ih => exact fun b => ih b (h b)
  | emit e k ih => exact ⟨h.1, ih h.2⟩
  | askMulti k ih => exact fun b _ => ih b (h b)

theorem AtMost.frame {b e : FEv} {p : FProg α} {n : Nat} (h : AtMost n p) :
    AtMost (2 + n) (FProg.bind (FProg.call b) fun _ => FProg.bind p fun _ => FProg.call e) :=
  ((AtMost.call b).bind fun _ => h.bind fun _ => .call e).mono (by omega)

theorem AtMost.forIdx {γ : Type} {body : Nat → γ → FProg Unit} {w : γ → Nat} (xs : List γ)
    (h : ∀ i x, x ∈ xs → AtMost (w x) (body i x)) (i : Nat) : AtMost ((xs.map w).sum) (FProg.forIdx body i xs) := by
  induction xs generalizing i with
  | nil => exact .ret _
  | cons x xs ih =>
    simp only [List.map_cons, List.sum_cons]
    exact (h i x (List.mem_cons_self ..)).bind fun _ => ih (fun i y hy => h i y (List.mem_cons_of_mem _ hy)) (i + 1)

theorem AtMost.forIdx_one {γ : Type} {body : Nat → γ → FProg Unit} (xs : List γ) (h : ∀ i x, AtMost 1 (body i x)) (i : Nat) :
    AtMost xs.length (FProg.forIdx body i xs) := by
  have h' := AtMost.forIdx (w := fun _ => 1) xs (fun i x _ => h i x) i
  rwa [List.map_const', List.sum_replicate_nat, Nat.mul_one] at h'

theorem AtMost.sound {σ : Type} {p : FProg α} {n : Nat} (h : AtMost n p) (P : FProc σ) (s : σ) (bs : List Byte) :
    (interp P p s bs).2.1.length ≤ n := by
  have key : ∀ (k : FProg α) (s' : σ) (m : Nat), 1 ≤ m → (interp P k s' bs).2.1.length ≤ m - 1 →
      (interp P k s' bs).2.1.length + 1 ≤ m := fun _ _ _ _ _ => by omega
  induction p generalizing s n bs with
  | ret a => exact Nat.zero_le _
  | fail e => exact Nat.zero_le _
  | read k ih =>
    cases bs with
    | nil => exact Nat.zero_le _
    | cons b bs => exact ih b (h b) s bs (fun _ _ _ _ _ => by omega)
  | emit e k ih =>
    obtain ⟨h1, h2⟩ := h
    simp only [interp]
    cases P.step s e with
    | error x => exact h1
    | ok s' => exact key k s' n h1 (ih h2 s' bs key)
  | emitOk e k ih =>
    obtain ⟨h1, h2⟩ := h
    simp only [interp]
    cases P.step s e with
    | error x =>
      dsimp only
      split
      · exact h1
      · exact key k _ n h1 (ih h2 _ bs key)
    | ok s' => exact key k s' n h1 (ih h2 s' bs key)
  | prop i nm v k ih =>
    obtain ⟨h1, h2⟩ := h
    simp only [interp]
    cases P.step s (.prop i nm v) with
    | error x => exact h1
    | ok s' => exact key _ s' n h1 (ih _ (h2 _) s' bs key)
  | ask k ih => exact ih _ _ (h _ _) s bs key

end FProg

open Prog Spec

/-! ### geo-types -/

theorem atMost_geoCoord (c : XY) (i : Nat) : AtMost 1 (geoProcessCoord c i) :=
  AtMost.multiDim.bind fun _ => .emit _

theorem atMost_geoLine (cs : List XY) (t : Bool) (i : Nat) : AtMost (seqSize cs) (geoProcessLinestring cs t i) :=
  (AtMost.multiDim.bind fun _ => AtMost.frame (AtMost.forIdx_one cs (fun _ _ => .emit _) 0)).mono (by simp [seqSize])

theorem atMost_geoPoly (p : GPoly) (t : Bool) (i : Nat) : AtMost (polySize p) (geoProcessPolygon p t i) :=
  ((AtMost.emit _).bind fun _ => (atMost_geoLine p.exterior false 0).bind fun _ =>
    (AtMost.forIdx (w := seqSize) p.interiors (fun i r _ => atMost_geoLine r false (i + 1)) 0).bind fun _ => .emit _).mono
    (by simp only [polySize, ringsSize, List.map_cons, List.sum_cons]; omega)

theorem length_closeRing (cs : List XY) : (closeRing cs).length ≤ cs.length + 1 := by
  unfold closeRing
  split
  · simp
  · split <;> simp

mutual
theorem atMost_geo (i : Nat) : ∀ g : GeoGeom, AtMost (geoSize g) (geoProcessGeomN i g)
  | .point p => by
    unfold geoProcessGeomN
    exact AtMost.frame (atMost_geoCoord p 0)
  | .line a b => by
    unfold geoProcessGeomN
    exact ((AtMost.emit _).bind fun _ => (atMost_geoCoord a 0).bind fun _ => (atMost_geoCoord b 1).bind fun _ => .emit _).mono
      (Nat.le_refl _)
  | .lineString cs => by unfold geoProcessGeomN; exact atMost_geoLine cs true i
  | .polygon p => by unfold geoProcessGeomN; exact atMost_geoPoly p true i
  | .multiPoint ps => by
    unfold geoProcessGeomN
    exact AtMost.frame (AtMost.forIdx_one ps (fun i p => atMost_geoCoord p i) 0)
  | .multiLineString ls => by
    unfold geoProcessGeomN
    exact AtMost.frame (AtMost.forIdx ls (fun i l _ => atMost_geoLine l false i) 0)
  | .multiPolygon ps => by
    unfold geoProcessGeomN
    exact AtMost.frame (AtMost.forIdx ps (fun i p _ => atMost_geoPoly p false i) 0)
  | .collection gs => by
    unfold geoProcessGeomN
    exact AtMost.frame (atMost_geoMembers 0 gs)
  | .rect mn mx => by
    unfold geoProcessGeomN
    refine (atMost_geoPoly (rectPolygon mn mx) true i).mono ?_
    have h := length_closeRing [⟨mx.x, mn.y⟩, ⟨mx.x, mx.y⟩, ⟨mn.x, mx.y⟩, ⟨mn.x, mn.y⟩, ⟨mx.x, mn.y⟩]
    simp only [List.length_cons, List.length_nil] at h
    simp only [polySize, rectPolygon, GPoly.new, ringsSize, seqSize, geoSize, List.map_cons, List.map_nil, List.sum_cons, List.sum_nil]
    omega
  | .triangle a b c => by
    unfold geoProcessGeomN
    refine (atMost_geoPoly (trianglePolygon a b c) true i).mono ?_
    have h := length_closeRing [a, b, c, a]
    simp only [List.length_cons, List.length_nil] at h
    simp only [polySize, trianglePolygon, GPoly.new, ringsSize, seqSize, geoSize, List.map_cons, List.map_nil, List.sum_cons,
      List.sum_nil]
    omega

theorem atMost_geoMembers (i : Nat) : ∀ gs : List GeoGeom, AtMost (geoSizes gs) (geoProcessMembers i gs)
  | [] => by unfold geoProcessMembers; exact .ret _
  | g :: gs => by
    unfold geoProcessMembers
    exact (atMost_geo i g).bind fun _ => atMost_geoMembers (i + 1) gs
end

/-! ### GEOS -/

theorem atMost_geosSeq (cs : GSeq) (o : Nat) : AtMost cs.length (geosCoordSeq cs o) :=
  (AtMost.multiDim.bind fun _ => AtMost.forIdx_one cs (fun _ _ => .emit _) 0).mono (by simp)

theorem atMost_geosLine (cs : GSeq) (t : Bool) (i : Nat) : AtMost (seqSize cs) (geosLinestring cs t i) :=
  AtMost.frame (atMost_geosSeq cs 0)

theorem atMost_geosPoly (e : GSeq) (is : List GSeq) (t : Bool) (i : Nat) : AtMost (ringsSize (e :: is)) (geosPolygon e is t i) :=
  ((AtMost.emit _).bind fun _ => (atMost_geosLine e false 0).bind fun _ =>
    (AtMost.forIdx (w := seqSize) is (fun i r _ => atMost_geosLine r false (i + 1)) 0).bind fun _ => .emit _).mono
    (by simp only [ringsSize, List.map_cons, List.sum_cons]; omega)

mutual
theorem atMost_geos (i : Nat) : ∀ g : GeosGeom, AtMost (geosSize g) (geosGeomN i g)
  | .point cs => by unfold geosGeomN; exact AtMost.frame (atMost_geosSeq cs 0)
  | .multiPoint ps => by
    unfold geosGeomN
    exact AtMost.frame (AtMost.forIdx ps (fun i p _ => atMost_geosSeq p i) 0)
  | .lineString cs => by unfold geosGeomN; exact atMost_geosLine cs true i
  | .linearRing cs => by unfold geosGeomN; exact atMost_geosLine cs true i
  | .multiLineString ls => by
    unfold geosGeomN
    exact AtMost.frame (AtMost.forIdx ls (fun i l _ => atMost_geosLine l false i) 0)
  | .polygon e is => by unfold geosGeomN; exact atMost_geosPoly e is true i
  | .multiPolygon ps => by
    unfold geosGeomN
    exact AtMost.frame (AtMost.forIdx ps (fun i p _ => atMost_geosPoly p.1 p.2 false i) 0)
  | .collection gs => by unfold geosGeomN; exact AtMost.frame (atMost_geosMembers 0 gs)

theorem atMost_geosMembers (i : Nat) : ∀ gs : List GeosGeom, AtMost (geosSizes gs) (geosMembers i gs)
  | [] => by unfold geosMembers; exact .ret _
  | g :: gs => by
    unfold geosMembers
    exact (atMost_geos i g).bind fun _ => atMost_geosMembers (i + 1) gs
end

/-! ### GDAL -/

theorem ogrSizes_eq : ∀ ms : List OgrGeom, ogrSizes ms = (ms.map ogrSize).sum
  | [] => by simp [ogrSizes]
  | m :: ms => by simp [ogrSizes, ogrSizes_eq ms]

theorem ogrSize_eq (g : OgrGeom) : ogrSize g = 3 + g.pts.length + (g.members.map ogrSize).sum := by
  cases g with
  | node k ps ms => simp only [ogrSize, ogrSizes_eq, OgrGeom.pts, OgrGeom.members]

theorem atMost_ogrPoint (blank : OgrPt) (g : OgrGeom) (i : Nat) : AtMost 1 (ogrPoint blank g i) :=
  AtMost.multiDim.bind fun _ => .emit _

theorem atMost_ogrPts {k : GKind} {t : Bool} (g : OgrGeom) (n idx : Nat) :
    AtMost (ogrSize g) (Prog.bind (emitEv (.gbegin k t n idx)) fun _ => Prog.bind multiDim fun multi =>
      Prog.bind (forIdx (fun i p => emitEv (ogrEv multi p i)) 0 g.pts) fun _ => emitEv (.gend k t idx)) :=
  ((AtMost.emit _).bind fun _ => AtMost.multiDim.bind fun _ =>
    (AtMost.forIdx_one g.pts (fun _ _ => .emit _) 0).bind fun _ => .emit _).mono (by rw [ogrSize_eq]; omega)

theorem atMost_ogrParts {k : GKind} {t : Bool} {body : Nat → OgrGeom → Prog Unit} (g : OgrGeom) (n idx : Nat)
    (h : ∀ i m, AtMost (ogrSize m) (body i m)) :
    AtMost (ogrSize g) (Prog.bind (emitEv (.gbegin k t n idx)) fun _ =>
      Prog.bind (forIdx body 0 g.members) fun _ => emitEv (.gend k t idx)) :=
  (AtMost.frame (AtMost.forIdx g.members (fun i m _ => h i m) 0)).mono (by rw [ogrSize_eq g]; omega)

theorem atMost_ogrLine (g : OgrGeom) (t : Bool) (i : Nat) : AtMost (ogrSize g) (ogrLinestring g t i) := atMost_ogrPts g _ i
theorem atMost_ogrCircular (g : OgrGeom) (i : Nat) : AtMost (ogrSize g) (ogrCircularstring g i) := atMost_ogrPts g _ i

theorem atMost_ogrSeqMember (i : Nat) (g : OgrGeom) : AtMost (ogrSize g) (ogrSeqMember i g) := by
  unfold ogrSeqMember
  split
  · exact atMost_ogrLine g false i
  · exact .fail _ _

theorem atMost_ogrPolygon (g : OgrGeom) (t : Bool) (i : Nat) : AtMost (ogrSize g) (ogrPolygon g t i) :=
  atMost_ogrParts g _ i atMost_ogrSeqMember
theorem atMost_ogrTriangle (g : OgrGeom) (t : Bool) (i : Nat) : AtMost (ogrSize g) (ogrTriangle g t i) :=
  atMost_ogrParts g _ i atMost_ogrSeqMember

theorem atMost_ogrSegment (i : Nat) (g : OgrGeom) : AtMost (ogrSize g) (ogrSegment i g) := by
  unfold ogrSegment
  split
  · exact atMost_ogrLine g false i
  · exact atMost_ogrCircular g i
  · exact .fail _ _

theorem atMost_ogrCompound (g : OgrGeom) (i : Nat) : AtMost (ogrSize g) (ogrCompoundcurve g i) :=
  atMost_ogrParts g _ i atMost_ogrSegment

theorem atMost_ogrCurve (i : Nat) (g : OgrGeom) : AtMost (ogrSize g) (ogrCurve i g) := by
  unfold ogrCurve
  split
  · exact atMost_ogrLine g false i
  · exact atMost_ogrCircular g i
  · exact atMost_ogrCompound g i
  · exact .fail _ _

theorem atMost_ogrCurvepolygon (g : OgrGeom) (i : Nat) : AtMost (ogrSize g) (ogrCurvepolygon g i) :=
  atMost_ogrParts g _ i atMost_ogrCurve

theorem atMost_ogrPointMember (blank : OgrPt) (i : Nat) (g : OgrGeom) : AtMost (ogrSize g) (ogrPointMember blank i g) := by
  unfold ogrPointMember
  split
  · exact (atMost_ogrPoint blank g i).mono (by rw [ogrSize_eq]; omega)
  · exact .fail _ _

theorem atMost_ogrPolygonMember (i : Nat) (g : OgrGeom) : AtMost (ogrSize g) (ogrPolygonMember i g) := by
  unfold ogrPolygonMember
  split
  · exact atMost_ogrPolygon g false i
  · exact .fail _ _

theorem atMost_ogrSurface (i : Nat) (g : OgrGeom) : AtMost (ogrSize g) (ogrSurface i g) := by
  unfold ogrSurface
  split
  · exact atMost_ogrCurvepolygon g i
  · exact atMost_ogrPolygon g false i
  · exact .fail _ _

theorem atMost_ogrContainer {body : Nat → OgrGeom → Prog Unit} (kind : Option GKind) (k : GKind) (ps : List OgrPt)
    (ms : List OgrGeom) (idx : Nat) (h : ∀ i m, AtMost (ogrSize m) (body i m)) :
    AtMost (ogrSize (.node kind ps ms)) (ogrContainer k body ms idx) :=
  atMost_ogrParts (.node kind ps ms) _ idx h

mutual
theorem atMost_ogr (blank : OgrPt) (i : Nat) : ∀ g : OgrGeom, AtMost (ogrSize g) (ogrGeomN blank i g)
  | .node k ps ms => by
    unfold ogrGeomN
    split
    · exact (AtMost.frame (atMost_ogrPoint blank _ 0)).mono (by rw [ogrSize_eq]; omega)
    · exact atMost_ogrContainer _ _ ps ms i (atMost_ogrPointMember blank)
    · exact atMost_ogrLine _ true i
    · exact atMost_ogrContainer _ _ ps ms i atMost_ogrSeqMember
    · exact atMost_ogrPolygon _ true i
    · exact atMost_ogrContainer _ _ ps ms i atMost_ogrPolygonMember
    · exact (AtMost.frame (atMost_ogrMembers blank 0 ms)).mono (by simp only [ogrSize]; omega)
    · exact atMost_ogrCircular _ i
    · exact atMost_ogrCompound _ i
    · exact atMost_ogrCurvepolygon _ i
    · exact atMost_ogrTriangle _ true i
    · exact atMost_ogrContainer _ _ ps ms i atMost_ogrCurve
    · exact atMost_ogrContainer _ _ ps ms i fun i g => atMost_ogrPolygon g false i
    · exact atMost_ogrContainer _ _ ps ms i fun i g => atMost_ogrTriangle g false i
    · exact atMost_ogrContainer _ _ ps ms i atMost_ogrSurface
    · exact .fail _ _

theorem atMost_ogrMembers (blank : OgrPt) (i : Nat) : ∀ gs : List OgrGeom, AtMost (ogrSizes gs) (ogrMembers blank i gs)
  | [] => by unfold ogrMembers; exact .ret _
  | g :: gs => by
    unfold ogrMembers
    exact (atMost_ogr blank i g).bind fun _ => atMost_ogrMembers blank (i + 1) gs
end

/-! ### WKT -/

theorem atMost_wktMember (multi : Bool) (i : Nat) (c : Option Coord) : AtMost 1 (wktProcessMember multi i c) := by
  cases c with
  | none => exact trivial
  | some c => exact .emit _

theorem atMost_wktLine (t : Bool) (i : Nat) (cs : List Coord) : AtMost (seqSize cs) (wktProcessLinestring t i cs) :=
  ((AtMost.emit _).bind fun _ => AtMost.multiDim.bind fun _ =>
    (AtMost.forIdx_one cs (fun _ _ => .emit _) 0).bind fun _ => .emit _).mono (by simp only [seqSize]; omega)

theorem atMost_wktPoly (t : Bool) (i : Nat) (rs : List (List Coord)) : AtMost (ringsSize rs) (wktProcessPolygon t i rs) :=
  AtMost.frame (AtMost.forIdx rs (fun i r _ => atMost_wktLine false i r) 0)

theorem AtMost.asked {β : Type} {n : Nat} {f : Bool → Prog β} (h : ∀ b, AtMost n (f b)) : AtMost n (Prog.bind multiDim f) :=
  (AtMost.multiDim.bind h).mono (by omega)

mutual
theorem atMost_wkt (i : Nat) : ∀ g : WktGeom, AtMost (wktSize g) (wktProcessGeomN i g)
  | .point c => by
    unfold wktProcessGeomN
    refine AtMost.asked fun b => ?_
    cases c with
    | none => exact (AtMost.emit _).mono (by simp [wktSize])
    | some c => exact AtMost.frame (AtMost.emit _)
  | .multiPoint ps => by
    unfold wktProcessGeomN
    refine AtMost.asked fun b => ?_
    exact ((AtMost.emit _).bind fun _ => AtMost.multiDim.bind fun m =>
      (AtMost.forIdx_one ps (atMost_wktMember m) 0).bind fun _ => .emit _).mono (by simp only [wktSize, seqSize]; omega)
  | .lineString cs => by unfold wktProcessGeomN; exact AtMost.asked fun _ => atMost_wktLine true i cs
  | .multiLineString ls => by
    unfold wktProcessGeomN
    exact AtMost.asked fun _ => AtMost.frame (AtMost.forIdx ls (fun i l _ => atMost_wktLine false i l) 0)
  | .polygon rs => by unfold wktProcessGeomN; exact AtMost.asked fun _ => atMost_wktPoly true i rs
  | .multiPolygon ps => by
    unfold wktProcessGeomN
    exact AtMost.asked fun _ => AtMost.frame (AtMost.forIdx ps (fun i p _ => atMost_wktPoly false i p) 0)
  | .collection gs => by
    unfold wktProcessGeomN
    exact AtMost.asked fun _ => AtMost.frame (atMost_wktMembers 0 gs)

theorem atMost_wktMembers (i : Nat) : ∀ gs : List WktGeom, AtMost (wktSizes gs) (wktProcessMembers i gs)
  | [] => by unfold wktProcessMembers; exact .ret _
  | g :: gs => by
    unfold wktProcessMembers
    exact (atMost_wkt i g).bind fun _ => atMost_wktMembers (i + 1) gs
end

/-! ### GeoJSON -/

theorem atMost_gjCoord (multi : Bool) (i : Nat) (p : List F64) : AtMost 1 (gjCoord multi i p) := by
  unfold gjCoord
  split
  · split <;> exact .emit _
  · exact .fail _ _

theorem atMost_gjCoords (k : GKind) (t : Bool) (n i : Nat) (l : List (List F64)) :
    AtMost (seqSize l) (Prog.bind (emitEv (.gbegin k t n i)) fun _ => Prog.bind multiDim fun multi =>
      Prog.bind (forIdx (gjCoord multi) 0 l) fun _ => emitEv (.gend k t i)) :=
  ((AtMost.emit _).bind fun _ => AtMost.multiDim.bind fun m =>
    (AtMost.forIdx_one l (atMost_gjCoord m) 0).bind fun _ => .emit _).mono (by simp only [seqSize]; omega)

theorem atMost_gjLine (t : Bool) (i : Nat) (l : List (List F64)) : AtMost (seqSize l) (gjLine t i l) := atMost_gjCoords _ t _ i l

theorem atMost_gjPoly (t : Bool) (i : Nat) (rs : List (List (List F64))) : AtMost (ringsSize rs) (gjPolygon t i rs) :=
  AtMost.frame (AtMost.forIdx rs (fun i r _ => atMost_gjLine false i r) 0)

mutual
theorem atMost_gj (i : Nat) : ∀ g : GjGeom, AtMost (gjSize g) (gjGeomN i g)
  | .point p => by
    unfold gjGeomN
    exact ((AtMost.emit _).bind fun _ => AtMost.multiDim.bind fun m =>
      (atMost_gjCoord m 0 p).bind fun _ => .emit _).mono (Nat.le_refl _)
  | .multiPoint ps => by unfold gjGeomN; exact atMost_gjCoords _ true _ i ps
  | .lineString cs => by unfold gjGeomN; exact atMost_gjLine true i cs
  | .multiLineString ls => by
    unfold gjGeomN
    exact AtMost.frame (AtMost.forIdx ls (fun i l _ => atMost_gjLine false i l) 0)
  | .polygon rs => by unfold gjGeomN; exact atMost_gjPoly true i rs
  | .multiPolygon ps => by
    unfold gjGeomN
    exact AtMost.frame (AtMost.forIdx ps (fun i p _ => atMost_gjPoly false i p) 0)
  | .collection gs => by unfold gjGeomN; exact AtMost.frame (atMost_gjMembers 0 gs)

theorem atMost_gjMembers (i : Nat) : ∀ gs : List GjGeom, AtMost (gjSizes gs) (gjMembers i gs)
  | [] => by unfold gjMembers; exact AtMost.ret _
  | g :: gs => by
    unfold gjMembers
    exact (atMost_gj i g).bind fun _ => atMost_gjMembers (i + 1) gs
end

theorem atMost_gjProperty (i : Nat) (p : Text × GjVal) : FProg.AtMost 1 (gjProperty i p) := by
  unfold gjProperty
  split
  · exact trivial
  · exact .call _

theorem atMost_gjProps (ps : Option (List (Text × GjVal))) : FProg.AtMost (2 + (ps.getD []).length) (gjPropertiesPart ps) := by
  cases ps with
  | none => exact trivial
  | some ps => exact FProg.AtMost.frame (FProg.AtMost.forIdx_one ps atMost_gjProperty 0)

theorem atMost_gjGeometry (i : Nat) (g : Option GjGeom) : FProg.AtMost (2 + gjGeometrySize g) (gjGeometryPart i g) := by
  cases g with
  | none => exact trivial
  | some g => exact FProg.AtMost.frame (FProg.AtMost.lift (atMost_gj i g))

theorem atMost_gjFeature (i j : Nat) (f : GjFeature) : FProg.AtMost (gjFeatureSize f)
    (FProg.bind (FProg.call (.ftBegin i)) fun _ => FProg.bind (gjPropertiesPart f.properties) fun _ =>
      FProg.bind (gjGeometryPart j f.geometry) fun _ => FProg.call (.ftEnd i)) :=
  ((FProg.AtMost.call _).bind fun _ => (atMost_gjProps _).bind fun _ => (atMost_gjGeometry j _).bind fun _ => .call _).mono
    (by simp only [gjFeatureSize]; omega)

theorem atMost_gjCollectionFeature (i : Nat) (f : GjFeature) : FProg.AtMost (gjFeatureSize f) (gjCollectionFeature i f) :=
  atMost_gjFeature i i f

theorem atMost_gjSingle (i : Nat) (f : GjFeature) : FProg.AtMost (2 + gjFeatureSize f) (gjSingleFeature i f) := by
  unfold gjSingleFeature
  refine FProg.AtMost.frame ?_
  split
  · exact atMost_gjCollectionFeature i f
  · exact trivial

theorem atMost_processGeoJson (v : GeoJsonValue) : FProg.AtMost (gjDocSize v) (processGeoJson v) := by
  cases v with
  | featureCollection fs =>
    exact FProg.AtMost.frame (FProg.AtMost.forIdx fs (fun i f _ => atMost_gjCollectionFeature i f) 0)
  | feature f => exact atMost_gjSingle 0 f
  | geometry g => exact FProg.AtMost.lift (atMost_gj 0 g)

theorem atMost_gjLineItem (i : Nat) (l : Except Err GeoJsonValue) : FProg.AtMost (gjLineSize l) (gjLineItem i l) := by
  unfold gjLineItem
  split
  · exact trivial
  · next f => exact (atMost_gjFeature i 0 f).mono (by simp only [gjLineSize, gjDocSize]; omega)
  · next g => exact FProg.AtMost.lift (atMost_gj i g)
  · exact trivial

/-- the end of `readGeoJsonLineGeometries` -/
theorem atMost_gjLineEnd (started : Bool) : AtMost (if started then 1 else 2)
    (Prog.bind (if started then (pure () : Prog Unit) else emitEv (.gbegin .collection true 0 0)) fun _ =>
      emitEv (.gend .collection true 0)) := by
  cases started with
  | true => exact AtMost.emit _
  | false => exact (AtMost.emit _).bind fun _ => .emit _

theorem atMost_gjLineGeoms (started : Bool) (i : Nat) (lines : List (Except Err GeoJsonValue)) :
    AtMost ((if started then 1 else 2) + (lines.map gjLineSize).sum)
      (Prog.bind (gjLineGeoms started i lines) fun s =>
        Prog.bind (if s then (pure () : Prog Unit) else emitEv (.gbegin .collection true 0 0)) fun _ =>
          emitEv (.gend .collection true 0)) := by
  have item : ∀ (started : Bool) (i : Nat) (g : GjGeom) (lines : List (Except Err GeoJsonValue)) (m : Nat) (f : Bool → Prog Unit),
      gjSize g ≤ m → AtMost (1 + (lines.map gjLineSize).sum) (f true) →
      AtMost ((if started then 1 else 2) + (m + (lines.map gjLineSize).sum)) (Prog.bind (gjAddGeometry started i g) f) := by
    intro started i g lines m f hm hf
    unfold gjAddGeometry
    simp only [Prog.bind_eq, Prog.bind_assoc]
    cases started with
    | true =>
      exact ((atMost_gj i g).bind fun _ => hf).mono (by simp only [if_true]; omega)
    | false =>
      exact ((AtMost.emit _).bind fun _ => (atMost_gj i g).bind fun _ => hf).mono
        (by simp only [Bool.false_eq_true, if_false]; omega)
  induction lines generalizing started i with
  | nil => exact (atMost_gjLineEnd started).mono (by simp)
  | cons l lines ih =>
    simp only [List.map_cons, List.sum_cons]
    match l with
    | .error e => exact trivial
    | .ok (.featureCollection fs) => exact trivial
    | .ok (.geometry g) =>
      unfold gjLineGeoms
      rw [Prog.bind_assoc]
      exact item started i g lines _ _ (Nat.le_refl _) (ih true (i + 1))
    | .ok (.feature f) =>
      unfold gjLineGeoms
      cases hf : f.geometry with
      | none => exact (ih started (i + 1)).mono (by omega)
      | some g =>
        simp only
        rw [Prog.bind_assoc]
        have hm : gjSize g ≤ gjLineSize (.ok (.feature f)) := by
          simp only [gjLineSize, gjDocSize, gjFeatureSize, gjGeometrySize, hf, Option.map_some, Option.getD_some]
          omega
        exact item started i g lines _ _ hm (ih true (i + 1))

/-! ### tiles -/

theorem atMost_mvtCoord (c : IXY) (i : Nat) : AtMost 1 (mvtCoord c i) := AtMost.multiDim.bind fun _ => .emit _

theorem atMost_mvtLine (cs : List IXY) (t : Bool) (i : Nat) : AtMost (seqSize cs) (mvtLinestring cs t i) :=
  AtMost.frame (AtMost.forIdx_one cs (fun i c => atMost_mvtCoord c i) 0)

theorem atMost_mvtPoly (p : IPoly) (t : Bool) (i : Nat) : AtMost (ipolySize p) (mvtPolygon p t i) :=
  ((AtMost.emit _).bind fun _ => (atMost_mvtLine p.exterior false 0).bind fun _ =>
    (AtMost.forIdx (w := seqSize) p.interiors (fun i r _ => atMost_mvtLine r false (i + 1)) 0).bind fun _ => .emit _).mono
    (by simp only [ipolySize, ringsSize, List.map_cons, List.sum_cons]; omega)

mutual
theorem atMost_mvt (i : Nat) : ∀ g : MvtGeom, AtMost (mvtSize g) (mvtGeometry i g)
  | .point p => by unfold mvtGeometry; exact AtMost.frame (atMost_mvtCoord p 0)
  | .line _ _ => by unfold mvtGeometry; exact AtMost.ret _
  | .lineString cs => by unfold mvtGeometry; exact atMost_mvtLine cs true i
  | .polygon p => by unfold mvtGeometry; exact atMost_mvtPoly p true i
  | .multiPoint ps => by
    unfold mvtGeometry
    exact AtMost.frame (AtMost.forIdx_one ps (fun i p => atMost_mvtCoord p i) 0)
  | .multiLineString ls => by
    unfold mvtGeometry
    exact AtMost.frame (AtMost.forIdx ls (fun i l _ => atMost_mvtLine l false i) 0)
  | .multiPolygon ps => by
    unfold mvtGeometry
    exact AtMost.frame (AtMost.forIdx ps (fun i p _ => atMost_mvtPoly p false i) 0)
  | .collection gs => by unfold mvtGeometry; exact AtMost.frame (atMost_mvtMembers 0 gs)
  | .rect _ _ => by unfold mvtGeometry; exact AtMost.ret _
  | .triangle _ _ _ => by unfold mvtGeometry; exact AtMost.ret _

theorem atMost_mvtMembers (i : Nat) : ∀ gs : List MvtGeom, AtMost (mvtSizes gs) (mvtMembers i gs)
  | [] => by unfold mvtMembers; exact AtMost.ret _
  | g :: gs => by
    unfold mvtMembers
    exact (atMost_mvt i g).bind fun _ => atMost_mvtMembers (i + 1) gs
end

theorem atMost_mvtProperty (i : Nat) (p : Text × MvtValue) : FProg.AtMost 1 (mvtProperty i p) := by
  unfold mvtProperty
  split
  · exact .call _
  · exact trivial

theorem atMost_mvtFeature (i : Nat) (f : MvtFeature) :
    FProg.AtMost (6 + f.properties.length + mvtSize f.geometry) (mvtFeature i f) :=
  ((FProg.AtMost.call _).bind fun _ => (FProg.AtMost.call _).bind fun _ =>
    (FProg.AtMost.forIdx_one f.properties atMost_mvtProperty 0).bind fun _ => (FProg.AtMost.call _).bind fun _ =>
    (FProg.AtMost.call _).bind fun _ => (FProg.AtMost.lift (atMost_mvt 0 f.geometry)).bind fun _ =>
    (FProg.AtMost.call _).bind fun _ => .call _).mono (by omega)

/-! ### GPX -/

theorem atMost_gpxWaypoints (wrap : Bool) (ps : List XY) (i : Nat) :
    AtMost ((if wrap then 3 else 1) * ps.length) (gpxWaypointsIter wrap ps i) := by
  induction ps generalizing i with
  | nil => unfold gpxWaypointsIter; exact trivial
  | cons p ps ih =>
    unfold gpxWaypointsIter
    cases wrap with
    | true =>
      exact ((AtMost.emit _).bind fun _ => (AtMost.emit _).bind fun _ => (AtMost.emit _).bind fun _ => ih (i + 1)).mono
        (by simp only [List.length_cons, if_true]; omega)
    | false =>
      exact ((AtMost.emit _).bind fun _ => ih (i + 1)).mono (by simp; omega)

theorem atMost_gpxSegment (ps : List XY) (i : Nat) : AtMost (seqSize ps) (gpxTrackSegment ps i) := by
  unfold gpxTrackSegment
  split
  · exact trivial
  · exact AtMost.frame ((atMost_gpxWaypoints false ps 0).mono (by simp))

theorem atMost_gpxRoute (ps : List XY) (i : Nat) : AtMost (seqSize ps) (gpxRoute ps i) := by
  unfold gpxRoute
  split
  · exact trivial
  · exact AtMost.frame ((atMost_gpxWaypoints false ps 0).mono (by simp))

theorem atMost_gpxTrack (t : List (List XY)) (i : Nat) : AtMost (ringsSize t) (gpxTrackSegments t i) := by
  unfold gpxTrackSegments
  split
  · exact trivial
  · exact AtMost.frame (AtMost.forIdx t (fun i s _ => atMost_gpxSegment s i) 0)

theorem atMost_gpxTracks (ts : List (List (List XY))) (i : Nat) : AtMost ((ts.map ringsSize).sum) (gpxTopTracks ts i) := by
  induction ts generalizing i with
  | nil => unfold gpxTopTracks; exact trivial
  | cons t ts ih =>
    unfold gpxTopTracks
    simp only [List.map_cons, List.sum_cons]
    exact (atMost_gpxTrack t i).bind fun _ => ih (i + 1)

theorem atMost_gpxRoutes (rs : List (List XY)) (i : Nat) : AtMost (ringsSize rs) (gpxTopRoutes rs i) := by
  unfold gpxTopRoutes
  split
  · exact trivial
  · exact ((AtMost.emit _).bind fun _ => (AtMost.forIdx (w := seqSize) rs (fun i r _ => atMost_gpxRoute r i) 0).bind fun _ =>
      (AtMost.emit _).bind fun _ => .ret _).mono (by simp only [ringsSize]; omega)

theorem atMost_gpx (d : GpxDoc) : AtMost (gpxSize d) (readGpx (.ok d)) := by
  have h : AtMost (3 * d.waypoints.length) (gpxTopWaypoints d 0) := by
    unfold gpxTopWaypoints
    split
    · exact trivial
    · exact atMost_gpxWaypoints true d.waypoints 0
  exact ((AtMost.emit _).bind fun _ => h.bind fun i => (atMost_gpxTracks d.tracks i).bind fun i =>
    (atMost_gpxRoutes d.routes i).bind fun _ => .emit _).mono (by simp only [gpxSize]; omega)

/-! ### CSV -/

theorem atMost_csvPart (parse : Text → Except Err WktGeom) (r : List Text) (i : Nat) :
    FProg.AtMost (2 + csvGeomSize parse i r) (csvGeometryPart parse r i) := by
  unfold csvGeometryPart csvGeomSize
  cases r[i]? with
  | none => exact trivial
  | some t =>
    dsimp only
    by_cases ht : t.isEmpty = true
    · rw [if_pos ht]; exact trivial
    · rw [if_neg ht]
      refine FProg.AtMost.frame ?_
      unfold csvGeometry
      cases parse t with
      | error e => exact trivial
      | ok g => exact FProg.AtMost.lift (atMost_wkt 0 g)

theorem length_csvPairs (headers r : List Text) (i : Nat) : (csvPairs headers r i).length ≤ r.length := by
  unfold csvPairs
  rw [List.length_map]
  refine Nat.le_trans (List.length_filter_le _ _) ?_
  rw [List.length_zipIdx, List.length_zip]
  exact Nat.min_le_right _ _

theorem atMost_csvFeature (parse : Text → Except Err WktGeom) (headers : List Text) (g i : Nat) (r : Except Err (List Text)) :
    FProg.AtMost (csvRecordSize parse g r) (csvFeature parse headers g i r) := by
  cases r with
  | error e => exact trivial
  | ok r =>
    have h := length_csvPairs headers r g
    exact ((FProg.AtMost.call _).bind fun _ => (FProg.AtMost.call _).bind fun _ =>
      (FProg.AtMost.forIdx_one (csvPairs headers r g) (fun _ _ => .call _) 0).bind fun _ => (FProg.AtMost.call _).bind fun _ =>
      (atMost_csvPart parse r g).bind fun _ => .call _).mono (by simp only [csvRecordSize]; omega)

/-- the size of the geometry of a record, without what a feature adds -/
theorem atMost_csvGeomRecord (parse : Text → Except Err WktGeom) (g i : Nat) (r : Except Err (List Text)) :
    AtMost ((if i = 0 then 1 else 0) + csvFieldSize parse g r) (csvGeomRecord parse g i r) := by
  cases r with
  | error e => exact trivial
  | ok r =>
    have h : ∀ x, AtMost ((if i = 0 then 1 else 0) + wktSize x)
        (Prog.bind (if i = 0 then Prog.emitEv (.gbegin .collection true 1 0) else .ret ()) fun _ => wktProcessGeomN i x) := by
      intro x
      refine AtMost.bind ?_ fun _ => atMost_wkt i x
      split
      · exact .emit _
      · exact .ret _
    unfold csvGeomRecord csvFieldSize csvGeomSize
    dsimp only
    cases r[g]? with
    | none => exact trivial
    | some t =>
      dsimp only
      cases parse t with
      | error e => exact trivial
      | ok x => exact h x

theorem atMost_csvGeomRecords (parse : Text → Except Err WktGeom) (g i : Nat) (rs : List (Except Err (List Text))) :
    AtMost ((rs.map (csvFieldSize parse g)).sum) (forIdx (csvGeomRecord parse g) (i + 1) rs) := by
  induction rs generalizing i with
  | nil => exact trivial
  | cons r rs ih =>
    simp only [List.map_cons, List.sum_cons]
    exact ((atMost_csvGeomRecord parse g (i + 1) r).mono (by simp)).bind fun _ => ih (i + 1)

theorem atMost_csvGeom (parse : Text → Except Err WktGeom) (g : Nat) (rs : List (Except Err (List Text))) :
    AtMost (2 + (rs.map (csvFieldSize parse g)).sum) (Prog.bind (forIdx (csvGeomRecord parse g) 0 rs) fun _ =>
        Prog.bind (if rs = [] then Prog.emitEv (.gbegin .collection true 0 0) else .ret ()) fun _ =>
          Prog.emitEv (.gend .collection true 0)) := by
  cases rs with
  | nil => exact (AtMost.emit _).bind fun _ => .emit _
  | cons r rs =>
    have h1 := (atMost_csvGeomRecord parse g 0 r).bind fun _ => atMost_csvGeomRecords parse g 0 rs
    simp only [reduceCtorEq, if_false]
    refine (AtMost.bind (n := 1 + csvFieldSize parse g r + (rs.map (csvFieldSize parse g)).sum) (h1.mono (by simp)) fun _ =>
      (AtMost.emit _)).mono ?_
    simp only [List.map_cons, List.sum_cons]
    omega

end Geozero
