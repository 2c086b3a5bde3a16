import Verif.Spec.Dims
import Verif.Model.Wkt
import Verif.Model.Csv
import Verif.Model.GeoJson
import Verif.Model.Geos
import Verif.Model.Gdal
import Verif.Model.Gpx
import Verif.Model.Mvt
import Verif.Model.Shp
import Verif.Model.WkbReader
import Verif.Lemmas.Prog

/-
A logic relating two readers: the second one makes the calls of the first without the further dimensions, whatever the first one is
told when it asks for the dimensions and when the second one is told that two are wanted.
-/

namespace Geozero
open Spec

/-- the second program makes the calls of the first without the further dimensions; the results are related by `Q` -/
inductive Prog.Sim {α β : Type} (Q : α → β → Prop) : Prog α → Prog β → Prop
  | ret {a : α} {b : β} (h : Q a b) : Sim Q (.ret a) (.ret b)
  | fail (e : Err) : Sim Q (.fail e) (.fail e)
  | read {k : Byte → Prog α} {k' : Byte → Prog β} (h : ∀ b, Sim Q (k b) (k' b)) : Sim Q (.read k) (.read k')
  | emit {e e' : Ev} {k : Prog α} {k' : Prog β} (he : e' = flatEv e) (h : Sim Q k k') : Sim Q (.emit e k) (.emit e' k')
  | ask {k : Bool → Prog α} {k' : Bool → Prog β} (h : ∀ b, Sim Q (k b) (k' false)) : Sim Q (.askMulti k) (.askMulti k')

namespace Prog

theorem Sim.bind {α β γ δ : Type} {Q : α → β → Prop} {R : γ → δ → Prop} {p : Prog α} {q : Prog β} {f : α → Prog γ}
    {g : β → Prog δ} (h : Sim Q p q) (hf : ∀ a b, Q a b → Sim R (f a) (g b)) : Sim R (Prog.bind p f) (Prog.bind q g) := by
  induction h with
  | ret h => exact hf _ _ h
  | fail e => exact .fail e
  | read _ ih => exact .read fun b => ih b
  | emit he _ ih => exact .emit he ih
  | ask _ ih => exact .ask fun b => ih b

theorem Sim.bindEq {α γ δ : Type} {R : γ → δ → Prop} {p q : Prog α} {f : α → Prog γ}
    {g : α → Prog δ} (h : Sim Eq p q) (hf : ∀ a, Sim R (f a) (g a)) : Sim R (Prog.bind p f) (Prog.bind q g) :=
  h.bind fun a _ hab => hab ▸ hf a

theorem Sim.asked {γ δ : Type} {R : γ → δ → Prop} {f : Bool → Prog γ} {g : Bool → Prog δ} (h : ∀ b, Sim R (f b) (g false)) :
    Sim R (Prog.bind multiDim f) (Prog.bind multiDim g) := .ask h

theorem Sim.ev {e e' : Ev} (h : e' = flatEv e) : Sim Eq (emitEv e) (emitEv e') := .emit h (.ret rfl)

theorem Sim.readByte : Sim Eq readByte readByte := .read fun _ => .ret rfl

theorem Sim.ite {α β : Type} {Q : α → β → Prop} {c : Prop} [Decidable c] {p q : Prog α} {p' q' : Prog β} (h : Sim Q p p')
    (h' : Sim Q q q') : Sim Q (if c then p else q) (if c then p' else q') := by
  split
  · exact h
  · exact h'

theorem Sim.loop {body body' : Nat → Prog Unit} (h : ∀ i, Sim Eq (body i) (body' i)) (n i : Nat) :
    Sim Eq (Prog.loop n i body) (Prog.loop n i body') := by
  induction n generalizing i with
  | zero => exact .ret rfl
  | succ n ih => exact (h i).bindEq fun _ => ih (i + 1)

theorem Sim.forIdx {α : Type} {body body' : Nat → α → Prog Unit} (h : ∀ i x, Sim Eq (body i x) (body' i x)) (i : Nat)
    (xs : List α) : Sim Eq (Geozero.forIdx body i xs) (Geozero.forIdx body' i xs) := by
  induction xs generalizing i with
  | nil => exact .ret rfl
  | cons x xs ih => exact (h i x).bindEq fun _ => ih (i + 1)

theorem Sim.sound' {α : Type} {p q : Prog α} (h : Sim Eq p q) {σ : Type} (P : Proc σ) (hP : Flat P) (s : σ) (bs : List Byte) :
    interp (twoDim P) q s bs = ((interp P p s bs).1, (interp P p s bs).2.1.map flatEv, (interp P p s bs).2.2) := by
  induction h generalizing s bs with
  | ret h => subst h; rfl
  | fail e => rfl
  | read _ ih =>
    cases bs with
    | nil => rfl
    | cons b bs => exact ih b s bs
  | @emit e e' k k' he _ ih =>
    have hs : (twoDim P).step s e' = P.step s e := by rw [he]; exact (hP s e).symm
    simp only [interp, hs]
    cases P.step s e with
    | error x => simp [he]
    | ok s' => simp only [ih s' bs, List.map_cons, he]
  | ask _ ih => exact ih _ s bs

theorem Sim.sound {α : Type} {p : Prog α} (h : Sim Eq p p) : OnlyDims p := fun _ P hP s bs => h.sound' P hP s bs

end Prog

/-- the same for readers of features -/
inductive FProg.Sim {α β : Type} (Q : α → β → Prop) : FProg α → FProg β → Prop
  | ret {a : α} {b : β} (h : Q a b) : Sim Q (.ret a) (.ret b)
  | fail (e : Err) : Sim Q (.fail e) (.fail e)
  | read {k : Byte → FProg α} {k' : Byte → FProg β} (h : ∀ b, Sim Q (k b) (k' b)) : Sim Q (.read k) (.read k')
  | emit {e e' : FEv} {k : FProg α} {k' : FProg β} (he : e' = flatFEv e) (h : Sim Q k k') : Sim Q (.emit e k) (.emit e' k')
  | emitOk {e e' : FEv} {k : FProg α} {k' : FProg β} (he : e' = flatFEv e) (h : Sim Q k k') : Sim Q (.emitOk e k) (.emitOk e' k')
  | prop {k : Bool → FProg α} {k' : Bool → FProg β} (i : Nat) (n : Text) (v : ColVal) (h : ∀ b, Sim Q (k b) (k' b)) :
      Sim Q (.prop i n v k) (.prop i n v k')
  | ask {k : Bool → Dims → FProg α} {k' : Bool → Dims → FProg β} (h : ∀ b d, Sim Q (k b d) (k' false {})) :
      Sim Q (.ask k) (.ask k')

namespace FProg

theorem Sim.bind {α β γ δ : Type} {Q : α → β → Prop} {R : γ → δ → Prop} {p : FProg α} {q : FProg β} {f : α → FProg γ}
    {g : β → FProg δ} (h : Sim Q p q) (hf : ∀ a b, Q a b → Sim R (f a) (g b)) : Sim R (FProg.bind p f) (FProg.bind q g) := by
  induction h with
  | ret h => exact hf _ _ h
  | fail e => exact .fail e
  | read _ ih => exact .read fun b => ih b
  | emit he _ ih => exact .emit he ih
  | emitOk he _ ih => exact .emitOk he ih
  | prop i n v _ ih => exact .prop i n v fun b => ih b
  | ask _ ih => exact .ask fun b d => ih b d

theorem Sim.bindEq {α γ δ : Type} {R : γ → δ → Prop} {p q : FProg α} {f : α → FProg γ}
    {g : α → FProg δ} (h : Sim Eq p q) (hf : ∀ a, Sim R (f a) (g a)) : Sim R (FProg.bind p f) (FProg.bind q g) :=
  h.bind fun a _ hab => hab ▸ hf a

theorem Sim.call {e e' : FEv} (h : e' = flatFEv e) : Sim Eq (call e) (call e') := .emit h (.ret rfl)

theorem Sim.ite {α β : Type} {Q : α → β → Prop} {c : Prop} [Decidable c] {p q : FProg α} {p' q' : FProg β} (h : Sim Q p p')
    (h' : Sim Q q q') : Sim Q (if c then p else q) (if c then p' else q') := by
  split
  · exact h
  · exact h'

theorem Sim.forIdx {α : Type} {body body' : Nat → α → FProg Unit} (h : ∀ i x, Sim Eq (body i x) (body' i x)) (i : Nat)
    (xs : List α) : Sim Eq (FProg.forIdx body i xs) (FProg.forIdx body' i xs) := by
  induction xs generalizing i with
  | nil => exact .ret rfl
  | cons x xs ih => exact (h i x).bindEq fun _ => ih (i + 1)

theorem Sim.lift {α β : Type} {Q : α → β → Prop} {p : Prog α} {q : Prog β} (h : Prog.Sim Q p q) :
    Sim Q (FProg.lift p) (FProg.lift q) := by
  induction h with
  | ret h => exact .ret h
  | fail e => exact .fail e
  | read _ ih => exact .read ih
  | emit he _ ih => exact .emit (by rw [he]; rfl) ih
  | ask _ ih => exact .ask fun b _ => ih b

theorem Sim.sound' {α : Type} {p q : FProg α} (h : Sim Eq p q) {σ : Type} (P : FProc σ) (hP : FFlat P) (s : σ) (bs : List Byte) :
    interp (ftwoDim P) q s bs = ((interp P p s bs).1, (interp P p s bs).2.1.map flatFEv, (interp P p s bs).2.2) := by
  induction h generalizing s bs with
  | ret h => subst h; rfl
  | fail e => rfl
  | read _ ih =>
    cases bs with
    | nil => rfl
    | cons b bs => exact ih b s bs
  | @emit e e' k k' he _ ih =>
    have hs : (ftwoDim P).step s e' = P.step s e := by rw [he]; exact (hP.1 s e).symm
    simp only [interp, hs]
    cases P.step s e with
    | error x => simp [he]
    | ok s' => simp only [ih s' bs, List.map_cons, he]
  | @emitOk e e' k k' he _ ih =>
    have hs : (ftwoDim P).step s e' = P.step s e := by rw [he]; exact (hP.1 s e).symm
    have hl : (ftwoDim P).left s e' = P.left s e := by rw [he]; exact (hP.2 s e).symm
    simp only [interp, hs, hl]
    cases P.step s e with
    | error x =>
      by_cases hx : x.isPanic = true
      · simp [hx, he]
      · simp only [if_neg hx, ih (P.left s e) bs, List.map_cons, he]
    | ok s' => simp only [ih s' bs, List.map_cons, he]
  | prop i n v _ ih =>
    have hs : (ftwoDim P).step s (.prop i n v) = P.step s (.prop i n v) := rfl
    have ha : (ftwoDim P).abort s (.prop i n v) = P.abort s (.prop i n v) := rfl
    simp only [interp, hs, ha]
    cases P.step s (.prop i n v) with
    | error x => rfl
    | ok s' => simp only [ih _ s' bs, List.map_cons]; rfl
  | ask _ ih => exact ih _ _ s bs

theorem Sim.sound {α : Type} {p : FProg α} (h : Sim Eq p p) : FOnlyDims p := fun _ P hP s bs => h.sound' P hP s bs

end FProg

open Prog

/-- what is known about parts of readers; extended below -/
syntax "simlem" : tactic
macro_rules | `(tactic| simlem) => `(tactic| assumption)

theorem Prog.pure_eq_ret {α : Type} (a : α) : (pure a : Prog α) = .ret a := rfl

/-- takes two programs apart -/
macro "sim" : tactic => `(tactic|
  (try simp only [Prog.bind_eq, Prog.pure_eq_ret]
   repeat' first
    | with_reducible simlem
    | with_reducible exact Sim.ret rfl
    | with_reducible exact Sim.fail _
    | with_reducible exact Sim.readByte
    | exact (rfl : (_ : Ev) = _)
    | with_reducible refine Sim.ev ?_
    | with_reducible refine Sim.asked (fun b => ?_)
    | with_reducible refine Sim.ite ?_ ?_
    | with_reducible refine Sim.loop (fun i => ?_) _ _
    | with_reducible refine Sim.forIdx (fun i x => ?_) _ _
    | with_reducible refine Sim.bindEq ?_ (fun a => ?_)))

theorem sim_readN (n : Nat) : Sim Eq (readN n) (readN n) := by
  induction n with
  | zero => exact .ret rfl
  | succ n ih => unfold readN; sim
macro_rules | `(tactic| simlem) => `(tactic| exact sim_readN _)

theorem sim_readU32 (e : Endian) : Sim Eq (readU32 e) (readU32 e) := by unfold readU32; sim
theorem sim_readI32 (e : Endian) : Sim Eq (readI32 e) (readI32 e) := by unfold readI32; sim
theorem sim_readF64 (e : Endian) : Sim Eq (readF64 e) (readF64 e) := by unfold readF64; sim
theorem sim_readF32 (e : Endian) : Sim Eq (readF32 e) (readF32 e) := by unfold readF32; sim
macro_rules | `(tactic| simlem) => `(tactic| exact sim_readU32 _)
macro_rules | `(tactic| simlem) => `(tactic| exact sim_readI32 _)
macro_rules | `(tactic| simlem) => `(tactic| exact sim_readF64 _)
macro_rules | `(tactic| simlem) => `(tactic| exact sim_readF32 _)

/-! #### WKB -/

theorem sim_readWkbHeader : Sim Eq readWkbHeader readWkbHeader := by unfold readWkbHeader; sim
macro_rules | `(tactic| simlem) => `(tactic| exact sim_readWkbHeader)
theorem sim_readEwkbHeader : Sim Eq readEwkbHeader readEwkbHeader := by unfold readEwkbHeader; sim
theorem sim_readF64s (e : Endian) (n : Nat) : Sim Eq (readF64s e n) (readF64s e n) := by
  induction n with
  | zero => exact .ret rfl
  | succ n ih => unfold readF64s; sim
macro_rules | `(tactic| simlem) => `(tactic| exact sim_readF64s _ _)
theorem sim_readGpkgHeader : Sim Eq readGpkgHeader readGpkgHeader := by
  unfold readGpkgHeader
  refine Sim.readByte.bindEq fun _ => Sim.readByte.bindEq fun _ => Sim.ite ?_ (.fail _)
  refine Sim.readByte.bindEq fun _ => Sim.readByte.bindEq fun flags => ?_
  cases gpkgEnvLen flags with
  | none => exact .fail _
  | some n => dsimp only; sim
theorem sim_readSpatialiteHeader : Sim Eq readSpatialiteHeader readSpatialiteHeader := by unfold readSpatialiteHeader; sim
theorem sim_readSpatialiteNestedHeader (i : WkbInfo) : Sim Eq (readSpatialiteNestedHeader i) (readSpatialiteNestedHeader i) := by
  unfold readSpatialiteNestedHeader; sim
theorem sim_readMysqlHeader : Sim Eq readMysqlHeader readMysqlHeader := by unfold readMysqlHeader; sim
theorem sim_readCoord64 (i : WkbInfo) : Sim Eq (readCoord64 i) (readCoord64 i) := by unfold readCoord64; sim
theorem sim_readCoord32 (fo : FOps) (i : WkbInfo) : Sim Eq (readCoord32 fo i) (readCoord32 fo i) := by unfold readCoord32; sim
macro_rules | `(tactic| simlem) => `(tactic| exact sim_readCoord64 _)
macro_rules | `(tactic| simlem) => `(tactic| exact sim_readCoord32 _ _)

theorem sim_emitCoord (c : Coord) (m : Bool) (i : Nat) : Sim Eq (emitCoord c m i) (emitCoord c false i) := by
  unfold emitCoord
  exact (Sim.ev (by cases m <;> rfl)).bindEq fun _ => .ret rfl
macro_rules | `(tactic| simlem) => `(tactic| exact sim_emitCoord _ _ _)
theorem sim_processCoord (info : WkbInfo) (m : Bool) (i : Nat) : Sim Eq (processCoord info m i) (processCoord info false i) := by
  unfold processCoord; sim
macro_rules | `(tactic| simlem) => `(tactic| exact sim_processCoord _ _ _)

/-- equal x and y -/
def SameXY (c c' : Coord) : Prop := c.x = c'.x ∧ c.y = c'.y

theorem SameXY.same (c : Coord) : SameXY c c := ⟨rfl, rfl⟩

theorem sim_processCompressedCoord (fo : FOps) (info : WkbInfo) (m : Bool) (i : Nat) (c c' : Coord) (h : SameXY c c') :
    Sim SameXY (processCompressedCoord fo info m i c) (processCompressedCoord fo info false i c') := by
  unfold processCompressedCoord
  refine (sim_readCoord32 fo info).bindEq fun r => ?_
  rw [if_neg (by decide : ¬ (false = true))]
  cases m with
  | true => exact .emit (by rw [h.1, h.2]; rfl) (.ret ⟨by rw [h.1], by rw [h.2]⟩)
  | false => exact .emit (by rw [h.1, h.2]; rfl) (.ret ⟨by rw [h.1], by rw [h.2]⟩)

theorem sim_compressedLoop (fo : FOps) (info : WkbInfo) (m : Bool) (n i : Nat) (c c' : Coord) (h : SameXY c c') :
    Sim Eq (compressedLoop fo info m n i c) (compressedLoop fo info false n i c') := by
  induction n generalizing i c c' with
  | zero => exact .ret rfl
  | succ n ih => exact (sim_processCompressedCoord fo info m i c c' h).bind fun _ _ h => ih (i + 1) _ _ h
macro_rules | `(tactic| simlem) => `(tactic| exact sim_compressedLoop _ _ _ _ _ _ _ (SameXY.same _))

theorem sim_processLinestring (fo : FOps) (info : WkbInfo) (t : Bool) (i : Nat) :
    Sim Eq (processLinestring fo info t i) (processLinestring fo info t i) := by
  unfold processLinestring; sim
macro_rules | `(tactic| simlem) => `(tactic| exact sim_processLinestring _ _ _ _)
theorem sim_processCircularstring (info : WkbInfo) (i : Nat) :
    Sim Eq (processCircularstring info i) (processCircularstring info i) := by unfold processCircularstring; sim
macro_rules | `(tactic| simlem) => `(tactic| exact sim_processCircularstring _ _)
theorem sim_processPolygon (fo : FOps) (info : WkbInfo) (t : Bool) (i : Nat) :
    Sim Eq (processPolygon fo info t i) (processPolygon fo info t i) := by unfold processPolygon; sim
macro_rules | `(tactic| simlem) => `(tactic| exact sim_processPolygon _ _ _ _)
theorem sim_processTriangle (fo : FOps) (info : WkbInfo) (t : Bool) (i : Nat) :
    Sim Eq (processTriangle fo info t i) (processTriangle fo info t i) := by unfold processTriangle; sim
macro_rules | `(tactic| simlem) => `(tactic| exact sim_processTriangle _ _ _ _)
theorem sim_processSegment (fo : FOps) (info : WkbInfo) (i : Nat) :
    Sim Eq (processSegment fo info i) (processSegment fo info i) := by
  unfold processSegment; split <;> sim
macro_rules | `(tactic| simlem) => `(tactic| exact sim_processSegment _ _ _)
theorem sim_processPoint (info : WkbInfo) (i : Nat) : Sim Eq (processPoint info i) (processPoint info i) := by
  unfold processPoint; sim
macro_rules | `(tactic| simlem) => `(tactic| exact sim_processPoint _ _)

theorem sim_processMembers (k : GKind) (info : WkbInfo) (i : Nat) {member : Nat → Prog Unit}
    (h : ∀ i, Sim Eq (member i) (member i)) : Sim Eq (processMembers k info i member) (processMembers k info i member) := by
  unfold processMembers
  exact (sim_readU32 _).bindEq fun n => (Sim.ev rfl).bindEq fun _ => (Sim.loop h _ _).bindEq fun _ => Sim.ev rfl

section
variable (fo : FOps) {rh : WkbInfo → Prog WkbInfo} (hrh : ∀ i, Sim Eq (rh i) (rh i))
include hrh

theorem sim_processCompoundcurve (p : WkbInfo) (i d : Nat) :
    Sim Eq (processCompoundcurve fo rh p i d) (processCompoundcurve fo rh p i d) := by
  have := hrh p
  unfold processCompoundcurve; sim

theorem sim_processCurve (p : WkbInfo) (i d : Nat) : Sim Eq (processCurve fo rh p i d) (processCurve fo rh p i d) := by
  refine (hrh p).bindEq fun info => ?_
  unfold processCurveBody
  split
  · exact sim_processCircularstring _ _
  · exact sim_processLinestring _ _ _ _
  · exact sim_processCompoundcurve fo hrh _ _ _
  · exact .fail _

theorem sim_processCurvepolygon (p : WkbInfo) (i d : Nat) :
    Sim Eq (processCurvepolygon fo rh p i d) (processCurvepolygon fo rh p i d) := by
  have h := fun i => sim_processCurve fo hrh p i (d + 1)
  unfold processCurvepolygon
  refine Sim.ite (.fail _) ?_
  exact (sim_readU32 _).bindEq fun n => (Sim.ev rfl).bindEq fun _ => (Sim.loop h _ _).bindEq fun _ => Sim.ev rfl

theorem sim_processGeomN (fuel : Nat) (info : WkbInfo) (i d : Nat) :
    Sim Eq (processGeomN fo rh fuel info i d) (processGeomN fo rh fuel info i d) := by
  induction fuel generalizing info i d with
  | zero => exact .fail _
  | succ fuel ih =>
    unfold processGeomN
    refine Sim.ite (.fail _) ?_
    split
    · exact sim_processPoint _ _
    · have := hrh info
      sim
    · exact sim_processLinestring _ _ _ _
    · exact sim_processCircularstring _ _
    · exact sim_processCompoundcurve fo hrh _ _ _
    · exact sim_processMembers _ _ _ fun i => (hrh info).bindEq fun _ => sim_processLinestring _ _ _ _
    · exact sim_processMembers _ _ _ fun i => sim_processCurve fo hrh _ _ _
    · exact sim_processPolygon _ _ _ _
    · exact sim_processTriangle _ _ _ _
    · exact sim_processCurvepolygon fo hrh _ _ _
    · exact sim_processMembers _ _ _ fun i => (hrh info).bindEq fun _ => sim_processPolygon _ _ _ _
    · exact sim_processMembers _ _ _ fun i => (hrh info).bindEq fun _ => sim_processPolygon _ _ _ _
    · exact sim_processMembers _ _ _ fun i => (hrh info).bindEq fun _ => sim_processTriangle _ _ _ _
    · refine sim_processMembers _ _ _ fun i => (hrh info).bindEq fun _ => ?_
      unfold processSurfaceBody
      split
      · exact sim_processCurvepolygon fo hrh _ _ _
      · exact sim_processPolygon _ _ _ _
      · exact .fail _
    · exact sim_processMembers _ _ _ fun i => (hrh info).bindEq fun _ => ih _ _ _
    · exact .fail _

theorem sim_processTop {top : Prog WkbInfo} (ht : Sim Eq top top) : Sim Eq (processTop fo top rh) (processTop fo top rh) :=
  ht.bindEq fun _ => (Sim.ev rfl).bindEq fun _ => sim_processGeomN fo hrh _ _ _ _
end

theorem sim_wkb (fo : FOps) (d : WkbDialect) : Sim Eq (processWkbTypeGeom fo d) (processWkbTypeGeom fo d) := by
  cases d with
  | wkb => exact sim_processTop fo (fun _ => sim_readWkbHeader) sim_readWkbHeader
  | ewkb => exact sim_processTop fo (fun _ => sim_readEwkbHeader) sim_readEwkbHeader
  | geopackage => exact sim_processTop fo (fun _ => sim_readWkbHeader) sim_readGpkgHeader
  | spatiaLite => exact sim_processTop fo sim_readSpatialiteNestedHeader sim_readSpatialiteHeader
  | mySQL => exact sim_processTop fo (fun _ => sim_readWkbHeader) sim_readMysqlHeader

/-! #### WKT -/

theorem sim_wktCoord (m : Bool) (i : Nat) (c : Coord) : Sim Eq (wktProcessCoord m i c) (wktProcessCoord false i c) := by
  unfold wktProcessCoord; cases m <;> exact Sim.ev rfl
macro_rules | `(tactic| simlem) => `(tactic| exact sim_wktCoord _ _ _)
theorem sim_wktMember (m : Bool) (i : Nat) (c : Option Coord) : Sim Eq (wktProcessMember m i c) (wktProcessMember false i c) := by
  cases c with
  | none => exact .ret rfl
  | some c => exact sim_wktCoord _ _ _
macro_rules | `(tactic| simlem) => `(tactic| exact sim_wktMember _ _ _)
theorem sim_wktLinestring (t : Bool) (i : Nat) (cs : List Coord) :
    Sim Eq (wktProcessLinestring t i cs) (wktProcessLinestring t i cs) := by unfold wktProcessLinestring; sim
macro_rules | `(tactic| simlem) => `(tactic| exact sim_wktLinestring _ _ _)
theorem sim_wktPolygon (t : Bool) (i : Nat) (rs : List (List Coord)) :
    Sim Eq (wktProcessPolygon t i rs) (wktProcessPolygon t i rs) := by unfold wktProcessPolygon; sim
macro_rules | `(tactic| simlem) => `(tactic| exact sim_wktPolygon _ _ _)

mutual
theorem sim_wktN (i : Nat) : (g : WktGeom) → Sim Eq (wktProcessGeomN i g) (wktProcessGeomN i g)
  | .point c => by
    unfold wktProcessGeomN
    refine Sim.asked fun m => ?_
    cases c with
    | none => exact Sim.ev rfl
    | some c => dsimp only; sim
  | .multiPoint ps => by unfold wktProcessGeomN; sim
  | .lineString cs => by unfold wktProcessGeomN; sim
  | .multiLineString ls => by unfold wktProcessGeomN; sim
  | .polygon rs => by unfold wktProcessGeomN; sim
  | .multiPolygon ps => by unfold wktProcessGeomN; sim
  | .collection gs => by
    unfold wktProcessGeomN
    have := sim_wktMembers 0 gs
    sim
theorem sim_wktMembers (i : Nat) : (gs : List WktGeom) → Sim Eq (wktProcessMembers i gs) (wktProcessMembers i gs)
  | [] => by unfold wktProcessMembers; exact .ret rfl
  | g :: gs => by
    unfold wktProcessMembers
    exact (sim_wktN i g).bindEq fun _ => sim_wktMembers (i + 1) gs
end

theorem sim_wktText (parse : Text → Except Err WktGeom) (t : Text) : Sim Eq (processWktText parse t) (processWktText parse t) := by
  unfold processWktText
  split
  · exact .fail _
  · exact sim_wktN 0 _

/-! #### geo-types -/

theorem sim_xyEv (m : Bool) (c : XY) (i : Nat) : Sim Eq (emitEv (xyEv m c i)) (emitEv (xyEv false c i)) :=
  Sim.ev (by cases m <;> rfl)
macro_rules | `(tactic| simlem) => `(tactic| exact sim_xyEv _ _ _)
theorem sim_geoCoord (c : XY) (i : Nat) : Sim Eq (geoProcessCoord c i) (geoProcessCoord c i) := by unfold geoProcessCoord; sim
macro_rules | `(tactic| simlem) => `(tactic| exact sim_geoCoord _ _)
theorem sim_geoLinestring (cs : List XY) (t : Bool) (i : Nat) :
    Sim Eq (geoProcessLinestring cs t i) (geoProcessLinestring cs t i) := by unfold geoProcessLinestring; sim
macro_rules | `(tactic| simlem) => `(tactic| exact sim_geoLinestring _ _ _)
theorem sim_geoPolygon (p : GPoly) (t : Bool) (i : Nat) : Sim Eq (geoProcessPolygon p t i) (geoProcessPolygon p t i) := by
  unfold geoProcessPolygon; sim
macro_rules | `(tactic| simlem) => `(tactic| exact sim_geoPolygon _ _ _)

mutual
theorem sim_geoN (i : Nat) : (g : GeoGeom) → Sim Eq (geoProcessGeomN i g) (geoProcessGeomN i g)
  | .point p => by unfold geoProcessGeomN; sim
  | .line a b => by unfold geoProcessGeomN; sim
  | .lineString cs => by unfold geoProcessGeomN; sim
  | .polygon p => by unfold geoProcessGeomN; sim
  | .multiPoint ps => by unfold geoProcessGeomN; sim
  | .multiLineString ls => by unfold geoProcessGeomN; sim
  | .multiPolygon ps => by unfold geoProcessGeomN; sim
  | .collection gs => by
    unfold geoProcessGeomN
    have := sim_geoMembers 0 gs
    sim
  | .rect mn mx => by unfold geoProcessGeomN; sim
  | .triangle a b c => by unfold geoProcessGeomN; sim
theorem sim_geoMembers (i : Nat) : (gs : List GeoGeom) → Sim Eq (geoProcessMembers i gs) (geoProcessMembers i gs)
  | [] => by unfold geoProcessMembers; exact .ret rfl
  | g :: gs => by
    unfold geoProcessMembers
    exact (sim_geoN i g).bindEq fun _ => sim_geoMembers (i + 1) gs
end

/-! #### GEOS -/

theorem sim_geosCoordSeq (cs : GSeq) (o : Nat) : Sim Eq (geosCoordSeq cs o) (geosCoordSeq cs o) := by
  unfold geosCoordSeq
  refine Sim.asked fun m => Sim.forIdx (fun i x => Sim.ev ?_) _ _
  cases m <;> rfl
macro_rules | `(tactic| simlem) => `(tactic| exact sim_geosCoordSeq _ _)
theorem sim_geosPoint (cs : GSeq) (o : Nat) : Sim Eq (geosPoint cs o) (geosPoint cs o) := by
  unfold geosPoint; sim
macro_rules | `(tactic| simlem) => `(tactic| exact sim_geosPoint _ _)
theorem sim_geosLinestring (cs : GSeq) (t : Bool) (i : Nat) : Sim Eq (geosLinestring cs t i) (geosLinestring cs t i) := by
  unfold geosLinestring; sim
macro_rules | `(tactic| simlem) => `(tactic| exact sim_geosLinestring _ _ _)
theorem sim_geosPolygon (e : GSeq) (is : List GSeq) (t : Bool) (i : Nat) :
    Sim Eq (geosPolygon e is t i) (geosPolygon e is t i) := by unfold geosPolygon; sim
macro_rules | `(tactic| simlem) => `(tactic| exact sim_geosPolygon _ _ _ _)

mutual
theorem sim_geosN (i : Nat) : (g : GeosGeom) → Sim Eq (geosGeomN i g) (geosGeomN i g)
  | .point p => by unfold geosGeomN; sim
  | .lineString cs => by unfold geosGeomN; sim
  | .linearRing cs => by unfold geosGeomN; sim
  | .polygon e is => by unfold geosGeomN; sim
  | .multiPoint ps => by unfold geosGeomN; sim
  | .multiLineString ls => by unfold geosGeomN; sim
  | .multiPolygon ps => by unfold geosGeomN; sim
  | .collection gs => by
    unfold geosGeomN
    have := sim_geosMembers 0 gs
    sim
theorem sim_geosMembers (i : Nat) : (gs : List GeosGeom) → Sim Eq (geosMembers i gs) (geosMembers i gs)
  | [] => by unfold geosMembers; exact .ret rfl
  | g :: gs => by
    unfold geosMembers
    exact (sim_geosN i g).bindEq fun _ => sim_geosMembers (i + 1) gs
end

/-! #### GDAL -/

theorem sim_ogrEv (m : Bool) (c : OgrPt) (i : Nat) : Sim Eq (emitEv (ogrEv m c i)) (emitEv (ogrEv false c i)) :=
  Sim.ev (by cases m <;> rfl)
macro_rules | `(tactic| simlem) => `(tactic| exact sim_ogrEv _ _ _)
theorem sim_ogrPoint (b : OgrPt) (g : OgrGeom) (i : Nat) : Sim Eq (ogrPoint b g i) (ogrPoint b g i) := by unfold ogrPoint; sim
macro_rules | `(tactic| simlem) => `(tactic| exact sim_ogrPoint _ _ _)
theorem sim_ogrLinestring (g : OgrGeom) (t : Bool) (i : Nat) : Sim Eq (ogrLinestring g t i) (ogrLinestring g t i) := by
  unfold ogrLinestring; sim
macro_rules | `(tactic| simlem) => `(tactic| exact sim_ogrLinestring _ _ _)
theorem sim_ogrCircularstring (g : OgrGeom) (i : Nat) : Sim Eq (ogrCircularstring g i) (ogrCircularstring g i) := by
  unfold ogrCircularstring; sim
macro_rules | `(tactic| simlem) => `(tactic| exact sim_ogrCircularstring _ _)
theorem sim_ogrSeqMember (i : Nat) (g : OgrGeom) : Sim Eq (ogrSeqMember i g) (ogrSeqMember i g) := by unfold ogrSeqMember; sim
macro_rules | `(tactic| simlem) => `(tactic| exact sim_ogrSeqMember _ _)
theorem sim_ogrLinestringSeq (ms : List OgrGeom) : Sim Eq (ogrLinestringSeq ms) (ogrLinestringSeq ms) := by
  unfold ogrLinestringSeq; sim
macro_rules | `(tactic| simlem) => `(tactic| exact sim_ogrLinestringSeq _)
theorem sim_ogrPolygon (g : OgrGeom) (t : Bool) (i : Nat) : Sim Eq (ogrPolygon g t i) (ogrPolygon g t i) := by
  unfold ogrPolygon; sim
macro_rules | `(tactic| simlem) => `(tactic| exact sim_ogrPolygon _ _ _)
theorem sim_ogrTriangle (g : OgrGeom) (t : Bool) (i : Nat) : Sim Eq (ogrTriangle g t i) (ogrTriangle g t i) := by
  unfold ogrTriangle; sim
macro_rules | `(tactic| simlem) => `(tactic| exact sim_ogrTriangle _ _ _)
theorem sim_ogrSegment (i : Nat) (g : OgrGeom) : Sim Eq (ogrSegment i g) (ogrSegment i g) := by
  unfold ogrSegment; split <;> sim
macro_rules | `(tactic| simlem) => `(tactic| exact sim_ogrSegment _ _)
theorem sim_ogrCompoundcurve (g : OgrGeom) (i : Nat) : Sim Eq (ogrCompoundcurve g i) (ogrCompoundcurve g i) := by
  unfold ogrCompoundcurve; sim
macro_rules | `(tactic| simlem) => `(tactic| exact sim_ogrCompoundcurve _ _)
theorem sim_ogrCurve (i : Nat) (g : OgrGeom) : Sim Eq (ogrCurve i g) (ogrCurve i g) := by unfold ogrCurve; split <;> sim
macro_rules | `(tactic| simlem) => `(tactic| exact sim_ogrCurve _ _)
theorem sim_ogrCurvepolygon (g : OgrGeom) (i : Nat) : Sim Eq (ogrCurvepolygon g i) (ogrCurvepolygon g i) := by
  unfold ogrCurvepolygon; sim
macro_rules | `(tactic| simlem) => `(tactic| exact sim_ogrCurvepolygon _ _)
theorem sim_ogrSurface (i : Nat) (g : OgrGeom) : Sim Eq (ogrSurface i g) (ogrSurface i g) := by
  unfold ogrSurface; split <;> sim
macro_rules | `(tactic| simlem) => `(tactic| exact sim_ogrSurface _ _)
theorem sim_ogrContainer (k : GKind) {body : Nat → OgrGeom → Prog Unit} (h : ∀ i g, Sim Eq (body i g) (body i g))
    (ms : List OgrGeom) (i : Nat) : Sim Eq (ogrContainer k body ms i) (ogrContainer k body ms i) :=
  (Sim.ev rfl).bindEq fun _ => (Sim.forIdx h _ _).bindEq fun _ => Sim.ev rfl

mutual
theorem sim_ogrN (b : OgrPt) (i : Nat) : (g : OgrGeom) → Sim Eq (ogrGeomN b i g) (ogrGeomN b i g)
  | .node k ps ms => by
    unfold ogrGeomN
    have h7 := sim_ogrMembers b 0 ms
    split
    · sim
    · exact sim_ogrContainer _ (fun i g => Sim.ite (sim_ogrPoint _ _ _) (.fail _)) _ _
    · sim
    · exact sim_ogrContainer _ sim_ogrSeqMember _ _
    · sim
    · exact sim_ogrContainer _ (fun i g => Sim.ite (sim_ogrPolygon _ _ _) (.fail _)) _ _
    · sim
    · sim
    · sim
    · sim
    · sim
    · exact sim_ogrContainer _ sim_ogrCurve _ _
    · exact sim_ogrContainer _ (fun i g => sim_ogrPolygon _ _ _) _ _
    · exact sim_ogrContainer _ (fun i g => sim_ogrTriangle _ _ _) _ _
    · exact sim_ogrContainer _ sim_ogrSurface _ _
    · exact .fail _
theorem sim_ogrMembers (b : OgrPt) (i : Nat) : (gs : List OgrGeom) → Sim Eq (ogrMembers b i gs) (ogrMembers b i gs)
  | [] => by unfold ogrMembers; exact .ret rfl
  | g :: gs => by
    unfold ogrMembers
    exact (sim_ogrN b i g).bindEq fun _ => sim_ogrMembers b (i + 1) gs
end

/-! #### vector tiles -/

theorem sim_mvtCoord (c : IXY) (i : Nat) : Sim Eq (mvtCoord c i) (mvtCoord c i) := by
  unfold mvtCoord
  refine Sim.asked fun m => ?_
  cases m <;> exact Sim.ev rfl
macro_rules | `(tactic| simlem) => `(tactic| exact sim_mvtCoord _ _)
theorem sim_mvtLinestring (cs : List IXY) (t : Bool) (i : Nat) : Sim Eq (mvtLinestring cs t i) (mvtLinestring cs t i) := by
  unfold mvtLinestring; sim
macro_rules | `(tactic| simlem) => `(tactic| exact sim_mvtLinestring _ _ _)
theorem sim_mvtPolygon (p : IPoly) (t : Bool) (i : Nat) : Sim Eq (mvtPolygon p t i) (mvtPolygon p t i) := by
  unfold mvtPolygon; sim
macro_rules | `(tactic| simlem) => `(tactic| exact sim_mvtPolygon _ _ _)

mutual
theorem sim_mvtN (i : Nat) : (g : MvtGeom) → Sim Eq (mvtGeometry i g) (mvtGeometry i g)
  | .point p => by unfold mvtGeometry; sim
  | .lineString cs => by unfold mvtGeometry; sim
  | .polygon p => by unfold mvtGeometry; sim
  | .multiPoint ps => by unfold mvtGeometry; sim
  | .multiLineString ls => by unfold mvtGeometry; sim
  | .multiPolygon ps => by unfold mvtGeometry; sim
  | .collection gs => by
    unfold mvtGeometry
    have := sim_mvtMembers 0 gs
    sim
  | .line _ _ => by unfold mvtGeometry; sim
  | .rect _ _ => by unfold mvtGeometry; sim
  | .triangle _ _ _ => by unfold mvtGeometry; sim
theorem sim_mvtMembers (i : Nat) : (gs : List MvtGeom) → Sim Eq (mvtMembers i gs) (mvtMembers i gs)
  | [] => by unfold mvtMembers; exact .ret rfl
  | g :: gs => by
    unfold mvtMembers
    exact (sim_mvtN i g).bindEq fun _ => sim_mvtMembers (i + 1) gs
end

/-! #### GPX -/

theorem sim_gpxWaypointsIter (w : Bool) (ps : List XY) (i : Nat) :
    Sim Eq (gpxWaypointsIter w ps i) (gpxWaypointsIter w ps i) := by
  induction ps generalizing i with
  | nil => unfold gpxWaypointsIter; exact .ret rfl
  | cons p ps ih =>
    have := ih (i + 1)
    unfold gpxWaypointsIter
    sim
macro_rules | `(tactic| simlem) => `(tactic| exact sim_gpxWaypointsIter _ _ _)
theorem sim_gpxTrackSegment (ps : List XY) (i : Nat) : Sim Eq (gpxTrackSegment ps i) (gpxTrackSegment ps i) := by
  unfold gpxTrackSegment; sim
macro_rules | `(tactic| simlem) => `(tactic| exact sim_gpxTrackSegment _ _)
theorem sim_gpxTrackSegments (t : List (List XY)) (i : Nat) : Sim Eq (gpxTrackSegments t i) (gpxTrackSegments t i) := by
  unfold gpxTrackSegments; sim
macro_rules | `(tactic| simlem) => `(tactic| exact sim_gpxTrackSegments _ _)
theorem sim_gpxTopTracks (ts : List (List (List XY))) (i : Nat) : Sim Eq (gpxTopTracks ts i) (gpxTopTracks ts i) := by
  induction ts generalizing i with
  | nil => unfold gpxTopTracks; exact .ret rfl
  | cons t ts ih => unfold gpxTopTracks; exact (sim_gpxTrackSegments t i).bindEq fun _ => ih (i + 1)
macro_rules | `(tactic| simlem) => `(tactic| exact sim_gpxTopTracks _ _)
theorem sim_gpxRoute (ps : List XY) (i : Nat) : Sim Eq (gpxRoute ps i) (gpxRoute ps i) := by unfold gpxRoute; sim
macro_rules | `(tactic| simlem) => `(tactic| exact sim_gpxRoute _ _)
theorem sim_gpxTopRoutes (rs : List (List XY)) (i : Nat) : Sim Eq (gpxTopRoutes rs i) (gpxTopRoutes rs i) := by
  unfold gpxTopRoutes; sim
macro_rules | `(tactic| simlem) => `(tactic| exact sim_gpxTopRoutes _ _)
theorem sim_gpxTopWaypoints (d : GpxDoc) (i : Nat) : Sim Eq (gpxTopWaypoints d i) (gpxTopWaypoints d i) := by
  unfold gpxTopWaypoints; sim
macro_rules | `(tactic| simlem) => `(tactic| exact sim_gpxTopWaypoints _ _)
theorem sim_gpx (parsed : Except String GpxDoc) : Sim Eq (readGpx parsed) (readGpx parsed) := by
  unfold readGpx
  split
  · exact .fail _
  · sim

/-! #### GeoJSON -/

theorem sim_gjCoord (m : Bool) (i : Nat) (p : List F64) : Sim Eq (gjCoord m i p) (gjCoord false i p) := by
  unfold gjCoord
  split
  · cases m <;> exact Sim.ev rfl
  · exact .fail _
macro_rules | `(tactic| simlem) => `(tactic| exact sim_gjCoord _ _ _)
theorem sim_gjLine (t : Bool) (i : Nat) (l : List (List F64)) : Sim Eq (gjLine t i l) (gjLine t i l) := by unfold gjLine; sim
macro_rules | `(tactic| simlem) => `(tactic| exact sim_gjLine _ _ _)
theorem sim_gjPolygon (t : Bool) (i : Nat) (rs : List (List (List F64))) : Sim Eq (gjPolygon t i rs) (gjPolygon t i rs) := by
  unfold gjPolygon; sim
macro_rules | `(tactic| simlem) => `(tactic| exact sim_gjPolygon _ _ _)

mutual
theorem sim_gjN (i : Nat) : (g : GjGeom) → Sim Eq (gjGeomN i g) (gjGeomN i g)
  | .point p => by unfold gjGeomN; sim
  | .lineString cs => by unfold gjGeomN; sim
  | .polygon p => by unfold gjGeomN; sim
  | .multiPoint ps => by unfold gjGeomN; sim
  | .multiLineString ls => by unfold gjGeomN; sim
  | .multiPolygon ps => by unfold gjGeomN; sim
  | .collection gs => by
    unfold gjGeomN
    have := sim_gjMembers 0 gs
    sim
theorem sim_gjMembers (i : Nat) : (gs : List GjGeom) → Sim Eq (gjMembers i gs) (gjMembers i gs)
  | [] => by unfold gjMembers; exact .ret rfl
  | g :: gs => by
    unfold gjMembers
    exact (sim_gjN i g).bindEq fun _ => sim_gjMembers (i + 1) gs
end
macro_rules | `(tactic| simlem) => `(tactic| exact sim_gjN _ _)

theorem sim_geoJsonGeom (v : GeoJsonValue) : Sim Eq (processGeoJsonGeom v) (processGeoJsonGeom v) := by
  cases v with
  | featureCollection fs => exact Sim.forIdx (fun i g => sim_gjN i g) _ _
  | feature f =>
    simp only [processGeoJsonGeom]
    split
    · exact .ret rfl
    · exact sim_gjN _ _
  | geometry g => exact sim_gjN _ _

theorem sim_gjAddGeometry (started : Bool) (i : Nat) (g : GjGeom) :
    Sim Eq (gjAddGeometry started i g) (gjAddGeometry started i g) := by unfold gjAddGeometry; sim

theorem sim_gjLineGeoms (started : Bool) (i : Nat) (ls : List (Except Err GeoJsonValue)) :
    Sim Eq (gjLineGeoms started i ls) (gjLineGeoms started i ls) := by
  induction ls generalizing started i with
  | nil => exact .ret rfl
  | cons l ls ih =>
    have add : ∀ g : GjGeom, Sim Eq (Prog.bind (gjAddGeometry started i g) fun s => gjLineGeoms s (i + 1) ls)
        (Prog.bind (gjAddGeometry started i g) fun s => gjLineGeoms s (i + 1) ls) := fun g =>
      (sim_gjAddGeometry started i g).bindEq fun b => ih b (i + 1)
    rcases l with e | v
    · exact .fail _
    · cases v with
      | featureCollection fs => exact .fail _
      | feature f =>
        unfold gjLineGeoms
        split
        · exact ih started (i + 1)
        · exact add _
      | geometry g => exact add g

theorem sim_lineGeometries (ls : List (Except Err GeoJsonValue)) :
    Sim Eq (readGeoJsonLineGeometries ls) (readGeoJsonLineGeometries ls) := by
  have := sim_gjLineGeoms false 0 ls
  unfold readGeoJsonLineGeometries; sim

/-! #### CSV -/

theorem sim_csvGeomRecord (parse : Text → Except Err WktGeom) (gi i : Nat) (r : Except Err (List Text)) :
    Sim Eq (csvGeomRecord parse gi i r) (csvGeomRecord parse gi i r) := by
  unfold csvGeomRecord
  split
  · exact .fail _
  · split
    · exact .fail _
    · split
      · exact .fail _
      · have := fun g => sim_wktN i g
        refine Sim.bindEq (by sim) fun _ => this _

theorem sim_csvGeom (parse : Text → Except Err WktGeom) (headers : Except Err (List Text))
    (records : List (Except Err (List Text))) (column : Text) :
    Sim Eq (processCsvGeom parse headers records column) (processCsvGeom parse headers records column) := by
  unfold processCsvGeom
  split
  · exact .fail _
  · split
    · exact .fail _
    · exact (Sim.forIdx (fun i r => sim_csvGeomRecord parse _ i r) _ _).bindEq fun _ => by sim

/-! ### readers of features -/

theorem fsim_gjProperty (i : Nat) (p : Text × GjVal) : FProg.Sim Eq (gjProperty i p) (gjProperty i p) := by
  unfold gjProperty
  split
  · exact .ret rfl
  · exact .call rfl

theorem fsim_gjPropertiesPart (ps : Option (List (Text × GjVal))) :
    FProg.Sim Eq (gjPropertiesPart ps) (gjPropertiesPart ps) := by
  cases ps with
  | none => exact .ret rfl
  | some ps => exact (FProg.Sim.call rfl).bindEq fun _ => (FProg.Sim.forIdx fsim_gjProperty _ _).bindEq fun _ => .call rfl

theorem fsim_gjGeometryPart (i : Nat) (g : Option GjGeom) : FProg.Sim Eq (gjGeometryPart i g) (gjGeometryPart i g) := by
  cases g with
  | none => exact .ret rfl
  | some g => exact (FProg.Sim.call rfl).bindEq fun _ => (FProg.Sim.lift (sim_gjN i g)).bindEq fun _ => .call rfl

theorem fsim_gjCollectionFeature (i : Nat) (f : GjFeature) :
    FProg.Sim Eq (gjCollectionFeature i f) (gjCollectionFeature i f) :=
  (FProg.Sim.call rfl).bindEq fun _ => (fsim_gjPropertiesPart _).bindEq fun _ => (fsim_gjGeometryPart _ _).bindEq fun _ => .call rfl

theorem fsim_gjSingleFeature (i : Nat) (f : GjFeature) : FProg.Sim Eq (gjSingleFeature i f) (gjSingleFeature i f) :=
  (FProg.Sim.call rfl).bindEq fun _ => (FProg.Sim.ite (fsim_gjCollectionFeature i f) (.ret rfl)).bindEq fun _ => .call rfl

theorem fsim_processGeoJson (v : GeoJsonValue) : FProg.Sim Eq (processGeoJson v) (processGeoJson v) := by
  cases v with
  | featureCollection fs =>
    exact (FProg.Sim.call rfl).bindEq fun _ => (FProg.Sim.forIdx fsim_gjCollectionFeature _ _).bindEq fun _ => .call rfl
  | feature f => exact fsim_gjSingleFeature 0 f
  | geometry g => exact .lift (sim_gjN 0 g)

theorem fsim_readGeoJson (parsed : Except Err GeoJsonValue) : FProg.Sim Eq (readGeoJson parsed) (readGeoJson parsed) := by
  unfold readGeoJson
  split
  · exact .fail _
  · exact fsim_processGeoJson _

theorem fsim_readGeoJsonFc (fs : List (Except Err GjFeature)) : FProg.Sim Eq (readGeoJsonFc fs) (readGeoJsonFc fs) :=
  FProg.Sim.forIdx (fun i f => by
    unfold readFcFeature
    split
    · exact .fail _
    · exact fsim_gjSingleFeature _ _) _ _

theorem fsim_gjLineItem (i : Nat) (l : Except Err GeoJsonValue) : FProg.Sim Eq (gjLineItem i l) (gjLineItem i l) := by
  unfold gjLineItem
  split
  · exact .fail _
  · exact (FProg.Sim.call rfl).bindEq fun _ => (fsim_gjPropertiesPart _).bindEq fun _ =>
      (fsim_gjGeometryPart _ _).bindEq fun _ => .call rfl
  · exact .lift (sim_gjN _ _)
  · exact .fail _

theorem fsim_readGeoJsonLines (ls : List (Except Err GeoJsonValue)) : FProg.Sim Eq (readGeoJsonLines ls) (readGeoJsonLines ls) :=
  (FProg.Sim.call rfl).bindEq fun _ => (FProg.Sim.forIdx fsim_gjLineItem _ _).bindEq fun _ => .call rfl

theorem fsim_csvGeometryPart (parse : Text → Except Err WktGeom) (record : List Text) (gi : Nat) :
    FProg.Sim Eq (csvGeometryPart parse record gi) (csvGeometryPart parse record gi) := by
  unfold csvGeometryPart
  split
  · exact .fail _
  · refine FProg.Sim.ite (.ret rfl) ((FProg.Sim.call rfl).bindEq fun _ => FProg.Sim.bindEq ?_ fun _ => .call rfl)
    unfold csvGeometry
    split
    · exact .fail _
    · exact .lift (sim_wktN 0 _)

theorem fsim_csvFeature (parse : Text → Except Err WktGeom) (headers : List Text) (gi i : Nat) (r : Except Err (List Text)) :
    FProg.Sim Eq (csvFeature parse headers gi i r) (csvFeature parse headers gi i r) := by
  unfold csvFeature
  split
  · exact .fail _
  · exact (FProg.Sim.call rfl).bindEq fun _ => (FProg.Sim.call rfl).bindEq fun _ =>
      (FProg.Sim.forIdx (fun i p => FProg.Sim.call rfl) _ _).bindEq fun _ => (FProg.Sim.call rfl).bindEq fun _ =>
      (fsim_csvGeometryPart _ _ _).bindEq fun _ => .call rfl

theorem fsim_processCsvFeatures (parse : Text → Except Err WktGeom) (headers : Except Err (List Text))
    (records : List (Except Err (List Text))) (column : Text) :
    FProg.Sim Eq (processCsvFeatures parse headers records column) (processCsvFeatures parse headers records column) := by
  unfold processCsvFeatures
  split
  · exact .fail _
  · split
    · exact (FProg.Sim.call rfl).bindEq fun _ => .fail _
    · exact (FProg.Sim.call rfl).bindEq fun _ => (FProg.Sim.forIdx (fsim_csvFeature parse _ _) _ _).bindEq fun _ => .call rfl

theorem fsim_mvtFeature (i : Nat) (f : MvtFeature) : FProg.Sim Eq (mvtFeature i f) (mvtFeature i f) :=
  (FProg.Sim.call rfl).bindEq fun _ => (FProg.Sim.call rfl).bindEq fun _ =>
    (FProg.Sim.forIdx (fun i p => by
      unfold mvtProperty
      split
      · exact .call rfl
      · exact .ret rfl) _ _).bindEq fun _ => (FProg.Sim.call rfl).bindEq fun _ => (FProg.Sim.call rfl).bindEq fun _ =>
    (FProg.Sim.lift (sim_mvtN 0 _)).bindEq fun _ => (FProg.Sim.call rfl).bindEq fun _ => .call rfl

theorem fsim_mvtProcess (l : MvtLayer) : FProg.Sim Eq (mvtProcess l) (mvtProcess l) :=
  (FProg.Sim.call rfl).bindEq fun _ => (FProg.Sim.forIdx fsim_mvtFeature _ _).bindEq fun _ => .call rfl

/-! #### shapefiles -/

theorem sim_usizeOk (n : Nat) : Sim Eq (usizeOk n) (usizeOk n) := by unfold usizeOk; sim
theorem sim_doubleI32 (v : Int) : Sim Eq (doubleI32 v) (doubleI32 v) := by unfold doubleI32; sim
macro_rules | `(tactic| simlem) => `(tactic| exact sim_usizeOk _)
macro_rules | `(tactic| simlem) => `(tactic| exact sim_doubleI32 _)
theorem sim_readShpType : Sim Eq readShpType readShpType := by
  unfold readShpType
  refine (sim_readI32 _).bindEq fun v => ?_
  split
  · exact .ret rfl
  · exact .fail _
macro_rules | `(tactic| simlem) => `(tactic| exact sim_readShpType)

/-- both sides give the same list of length `n` -/
def SameLen {α : Type} (n : Nat) (xs ys : List α) : Prop := ys = xs ∧ xs.length = n

theorem sim_readF64List (n : Nat) : Sim (SameLen n) (readF64List n) (readF64List n) := by
  induction n with
  | zero => exact .ret ⟨rfl, rfl⟩
  | succ n ih =>
    refine (sim_readF64 _).bindEq fun v => ih.bind fun vs vs' h => .ret ?_
    obtain ⟨rfl, h⟩ := h
    exact ⟨rfl, by simp [h]⟩

theorem sim_readXYs (n : Nat) : Sim (SameLen n) (readXYs n) (readXYs n) := by
  induction n with
  | zero => exact .ret ⟨rfl, rfl⟩
  | succ n ih =>
    refine (sim_readF64 _).bindEq fun x => (sim_readF64 _).bindEq fun y => ih.bind fun vs vs' h => .ret ?_
    obtain ⟨rfl, h⟩ := h
    exact ⟨rfl, by simp [h]⟩

theorem Prog.Sim.weaken {α β : Type} {Q R : α → β → Prop} {p : Prog α} {q : Prog β} (h : Sim Q p q)
    (hq : ∀ {a b}, Q a b → R a b) : Sim R p q := by
  induction h with
  | ret h => exact .ret (hq h)
  | fail e => exact .fail e
  | read _ ih => exact .read ih
  | emit he _ ih => exact .emit he ih
  | ask _ ih => exact .ask ih

theorem Prog.Sim.toEq {α : Type} {n : Nat} {p q : Prog (List α)} (h : Sim (SameLen n) p q) : Sim Eq p q :=
  h.weaken fun h => h.1.symm

theorem sim_readShpHeader : Sim Eq readShpHeader readShpHeader := by
  have := (sim_readF64List 8).toEq
  unfold readShpHeader
  simp only [Prog.bind_eq]
  sim

/-- values of a further dimension: none, or one for each point -/
def DimFits (n : Nat) (vs : List F64) : Prop := vs = [] ∨ vs.length = n

theorem sim_readDimValuesIf (b : Bool) (n : Nat) :
    Sim (fun xs ys => ys = xs ∧ DimFits n xs) (readDimValuesIf b n) (readDimValuesIf b n) := by
  unfold readDimValuesIf
  cases b with
  | true =>
    refine ((sim_readF64List 2).toEq).bindEq fun _ => ?_
    exact (sim_readF64List n).weaken fun h => ⟨h.1, .inr h.2⟩
  | false => exact .ret ⟨rfl, .inl rfl⟩

/-- a shape read from a file: every point has a value of each further dimension there is -/
def ShapeFits : ShpShape → Prop
  | .multipoint coords zs ms => DimFits coords.length zs ∧ DimFits coords.length ms
  | .multipart _ _ coords zs ms => DimFits coords.length zs ∧ DimFits coords.length ms
  | _ => True

/-- both sides give the same shape, which fits -/
def SameShape (s s' : ShpShape) : Prop := s' = s ∧ ShapeFits s

theorem sim_readF64If (b : Bool) : Sim Eq (readF64If b) (readF64If b) := by unfold readF64If; sim

theorem sim_readShpPoint (n : Nat) (t : ShpType) : Sim SameShape (readShpPoint n t) (readShpPoint n t) :=
  Sim.ite (.fail _) ((sim_readF64 _).bindEq fun _ => (sim_readF64 _).bindEq fun _ => (sim_readF64If _).bindEq fun _ =>
    (sim_readF64If _).bindEq fun _ => .ret ⟨rfl, trivial⟩)

theorem sim_readShpMultipoint (n : Nat) (z : Bool) : Sim SameShape (readShpMultipoint n z) (readShpMultipoint n z) := by
  refine (sim_readF64List _).toEq.bindEq fun _ => (sim_readI32 _).bindEq fun _ => (sim_usizeOk _).bindEq fun _ =>
    Sim.ite (.fail _) ((sim_readXYs _).bind fun cs cs' hc => (sim_readDimValuesIf _ _).bind fun zs zs' hz =>
      (sim_readDimValuesIf _ _).bind fun ms ms' hm => .ret ?_)
  obtain ⟨rfl, hc⟩ := hc
  obtain ⟨rfl, hz⟩ := hz
  obtain ⟨rfl, hm⟩ := hm
  exact ⟨rfl, hc ▸ hz, hc ▸ hm⟩

theorem sim_readParts (n : Nat) : Sim Eq (readParts n) (readParts n) := by
  induction n with
  | zero => exact .ret rfl
  | succ n ih => unfold readParts; sim

theorem sim_readMultiPart (p : Bool) (n : Nat) (z : Bool) : Sim SameShape (readMultiPart p n z) (readMultiPart p n z) := by
  refine (sim_readF64List _).toEq.bindEq fun _ => (sim_readI32 _).bindEq fun _ => (sim_readI32 _).bindEq fun _ =>
    (sim_usizeOk _).bindEq fun _ => (sim_usizeOk _).bindEq fun _ =>
    Sim.ite (.fail _) ((sim_readParts _).bindEq fun _ => (sim_readXYs _).bind fun cs cs' hc =>
      (sim_readDimValuesIf _ _).bind fun zs zs' hz => (sim_readDimValuesIf _ _).bind fun ms ms' hm => .ret ?_)
  obtain ⟨rfl, hc⟩ := hc
  obtain ⟨rfl, hz⟩ := hz
  obtain ⟨rfl, hm⟩ := hm
  exact ⟨rfl, hc ▸ hz, hc ▸ hm⟩

theorem sim_readShpContent (n : Nat) : Sim SameShape (readShpContent n) (readShpContent n) := by
  unfold readShpContent
  refine sim_readShpType.bindEq fun t => Sim.ite (.fail _) ?_
  dsimp only
  generalize n - 4 = m
  cases t with
  | point => dsimp only; exact sim_readShpPoint _ _
  | pointM => dsimp only; exact sim_readShpPoint _ _
  | pointZ => dsimp only; exact sim_readShpPoint _ _
  | multipoint => dsimp only; exact sim_readShpMultipoint m false
  | multipointM => dsimp only; exact sim_readShpMultipoint m false
  | multipointZ => dsimp only; exact sim_readShpMultipoint m true
  | polyline => dsimp only; exact sim_readMultiPart false m false
  | polylineM => dsimp only; exact sim_readMultiPart false m false
  | polylineZ => dsimp only; exact sim_readMultiPart false m true
  | polygon => dsimp only; exact sim_readMultiPart true m false
  | polygonM => dsimp only; exact sim_readMultiPart true m false
  | polygonZ => dsimp only; exact sim_readMultiPart true m true
  | multipatch => exact Sim.ite (.fail _) ((sim_readN m).bindEq fun _ => .ret ⟨rfl, trivial⟩)
  | null => exact .ret ⟨rfl, trivial⟩

theorem sim_readShpRecord :
    Sim (fun r r' => r' = r ∧ ShapeFits r.2) readShpRecord readShpRecord :=
  (sim_readI32 _).bindEq fun _ => (sim_readI32 _).bindEq fun _ => (sim_doubleI32 _).bindEq fun _ =>
    (sim_readShpContent _).bind fun s s' h => .ret ⟨by rw [h.1], h.2⟩

theorem sim_advance (p : Nat) (w : Int) : Sim Eq (advance p w) (advance p w) := by unfold advance; sim

theorem dimValue_fits {n : Nat} {vs : List F64} (h : DimFits n vs) (d : Bool) {i : Nat} (hi : i < n) :
    ∃ v, dimValue (d && !vs.isEmpty) vs i = .ok v := by
  unfold dimValue
  rcases h with rfl | h
  · simp
  · cases d with
    | false => exact ⟨none, rfl⟩
    | true =>
      have : i < vs.length := by omega
      split
      · rw [List.getElem?_eq_getElem this]
        exact ⟨_, rfl⟩
      · exact ⟨_, rfl⟩

theorem fsim_shpCoord {coords : List XY} {zs ms : List F64} (hz : DimFits coords.length zs) (hm : DimFits coords.length ms)
    (multi dz dm dz' dm' : Bool) (ofs idx : Nat) :
    FProg.Sim Eq (shpCoord coords zs ms multi (dz && !zs.isEmpty) (dm && !ms.isEmpty) ofs idx)
      (shpCoord coords zs ms false dz' dm' ofs idx) := by
  unfold shpCoord
  by_cases ho : ofs < coords.length
  · rw [List.getElem?_eq_getElem ho]
    dsimp only
    obtain ⟨z, hz⟩ := dimValue_fits hz dz ho
    obtain ⟨m, hm⟩ := dimValue_fits hm dm ho
    rw [hz, hm]
    cases multi with
    | true => exact .call rfl
    | false => exact .call rfl
  · rw [List.getElem?_eq_none (by omega)]
    exact .fail _

theorem fsim_shpPart {coords : List XY} {zs ms : List F64} (hz : DimFits coords.length zs) (hm : DimFits coords.length ms)
    (multi dz dm dz' dm' : Bool) (i : Nat) (w : Nat × Nat) :
    FProg.Sim Eq (shpPart coords zs ms multi (dz && !zs.isEmpty) (dm && !ms.isEmpty) i w)
      (shpPart coords zs ms false dz' dm' i w) :=
  FProg.Sim.ite (.fail _) ((FProg.Sim.call rfl).bindEq fun _ =>
    (FProg.Sim.forIdx (fun i ofs => fsim_shpCoord hz hm multi dz dm dz' dm' ofs i) _ _).bindEq fun _ => .call rfl)

theorem fsim_shpPolygon (pi : List Nat) {coords : List XY} {zs ms : List F64} (hz : DimFits coords.length zs)
    (hm : DimFits coords.length ms) (multi dz dm dz' dm' : Bool) (i : Nat) (w : Nat × Nat) :
    FProg.Sim Eq (shpPolygon pi coords zs ms multi (dz && !zs.isEmpty) (dm && !ms.isEmpty) i w)
      (shpPolygon pi coords zs ms false dz' dm' i w) :=
  (FProg.Sim.call rfl).bindEq fun _ =>
    (FProg.Sim.forIdx (fun i w => fsim_shpPart hz hm multi dz dm dz' dm' i w) _ _).bindEq fun _ => .call rfl

theorem fsim_shpProcess (ar : ShpArith) (p : Bool) (pi : List Nat) {coords : List XY} {zs ms : List F64}
    (hz : DimFits coords.length zs) (hm : DimFits coords.length ms) :
    FProg.Sim Eq (shpProcess ar p pi coords zs ms) (shpProcess ar p pi coords zs ms) := by
  unfold shpProcess
  refine .ask fun _ d => FProg.Sim.ite ?_ ?_
  · split
    · exact .fail _
    · exact (FProg.Sim.call rfl).bindEq fun _ =>
        (FProg.Sim.forIdx (fun i w => fsim_shpPolygon _ hz hm _ _ _ _ _ i w) _ _).bindEq fun _ => .call rfl
  · exact (FProg.Sim.call rfl).bindEq fun _ =>
      (FProg.Sim.forIdx (fun i w => fsim_shpPart hz hm _ _ _ _ _ i w) _ _).bindEq fun _ => .call rfl

theorem fsim_shapeProcess (ar : ShpArith) (s : ShpShape) (h : ShapeFits s) : FProg.Sim Eq (s.process ar) (s.process ar) := by
  cases s with
  | null => exact .ret rfl
  | patch => exact .ret rfl
  | point x y z m =>
    refine (FProg.Sim.call rfl).bindEq fun _ => FProg.Sim.bindEq (.ask fun b d => ?_) fun _ => .call rfl
    cases b with
    | true => exact .call rfl
    | false => exact .call rfl
  | multipoint coords zs ms =>
    exact .ask fun b d => (FProg.Sim.call rfl).bindEq fun _ =>
      (FProg.Sim.forIdx (fun i ofs => fsim_shpCoord h.1 h.2 b d.z d.m _ _ ofs i) _ _).bindEq fun _ => .call rfl
  | multipart p pi coords zs ms => exact fsim_shpProcess ar p pi h.1 h.2

theorem fsim_readShape (ar : ShpArith) : FProg.Sim Eq (readShape ar) (readShape ar) :=
  (FProg.Sim.lift sim_readShpRecord).bind fun r r' h => by
    obtain ⟨rfl, h⟩ := h
    exact (fsim_shapeProcess ar _ h).bindEq fun _ => .ret rfl

theorem fsim_shapeNext (ar : ShpArith) (len pos : Nat) : FProg.Sim Eq (shapeNext ar len pos) (shapeNext ar len pos) :=
  FProg.Sim.ite (.ret rfl) ((fsim_readShape ar).bindEq fun _ => (FProg.Sim.lift (sim_advance _ _)).bindEq fun _ => .ret rfl)

theorem fsim_shapesLoop (ar : ShpArith) (len n pos : Nat) :
    FProg.Sim Eq (shapesLoop ar len n pos) (shapesLoop ar len n pos) := by
  induction n generalizing pos with
  | zero => exact .fail _
  | succ n ih =>
    refine (fsim_shapeNext ar len pos).bindEq fun r => ?_
    cases r with
    | none => exact .ret rfl
    | some p => exact ih p

theorem fsim_shpGeometries (ar : ShpArith) : FProg.Sim Eq (shpGeometries ar) (shpGeometries ar) :=
  (FProg.Sim.lift sim_readShpHeader).bindEq fun _ => (FProg.Sim.lift (sim_doubleI32 _)).bindEq fun _ => fsim_shapesLoop ar _ _ _

theorem fsim_shapeRecordLoop (i : Nat) (r : List (Text × FieldValue)) :
    FProg.Sim Eq (shapeRecordLoop i r) (shapeRecordLoop i r) := by
  induction r generalizing i with
  | nil => exact .ret rfl
  | cons p r ih =>
    obtain ⟨name, value⟩ := p
    unfold shapeRecordLoop
    split
    · exact ih i
    · refine .prop _ _ _ fun b => ?_
      cases b with
      | true => exact .ret rfl
      | false => exact ih (i + 1)

theorem fsim_callOk {e : FEv} (h : e = flatFEv e) : FProg.Sim Eq (callOk e) (callOk e) := .emitOk h (.ret rfl)

theorem fsim_shpFeature (ar : ShpArith) (f p : Nat) (row : ShpRow) :
    FProg.Sim Eq (shpFeature ar f p row) (shpFeature ar f p row) :=
  (fsim_callOk rfl).bindEq fun _ => (fsim_callOk rfl).bindEq fun _ => (fsim_shapeRecordLoop 0 row).bindEq fun _ =>
    (fsim_callOk rfl).bindEq fun _ => (fsim_callOk rfl).bindEq fun _ => (fsim_readShape ar).bindEq fun _ =>
    (FProg.Sim.lift (sim_advance _ _)).bindEq fun _ => (fsim_callOk rfl).bindEq fun _ => (fsim_callOk rfl).bindEq fun _ => .ret rfl

theorem fsim_featureNext (ar : ShpArith) (len : Nat) (it : ShpIter) :
    FProg.Sim Eq (featureNext ar len it) (featureNext ar len it) := by
  unfold featureNext shpDatasetBegin
  refine FProg.Sim.bindEq (FProg.Sim.ite (.emitOk rfl (.ret rfl)) (.ret rfl)) fun _ => ?_
  split
  · exact (fsim_callOk rfl).bindEq fun _ => .ret rfl
  · split
    · exact (fsim_callOk rfl).bindEq fun _ => .ret rfl
    · exact .fail _
    · exact (fsim_shpFeature _ _ _ _).bindEq fun _ => .ret rfl

theorem fsim_featuresLoop (ar : ShpArith) (len n : Nat) (it : ShpIter) :
    FProg.Sim Eq (featuresLoop ar len n it) (featuresLoop ar len n it) := by
  induction n generalizing it with
  | zero => exact .fail _
  | succ n ih =>
    refine (fsim_featureNext ar len it).bindEq fun r => ?_
    cases r with
    | none => exact .ret rfl
    | some p => exact ih p

theorem fsim_shpFeatures (ar : ShpArith) (rows : List (Except Err ShpRow)) :
    FProg.Sim Eq (shpFeatures ar rows) (shpFeatures ar rows) :=
  (FProg.Sim.lift sim_readShpHeader).bindEq fun _ => (FProg.Sim.lift (sim_doubleI32 _)).bindEq fun _ =>
    fsim_featuresLoop ar _ _ ⟨0, 100, rows⟩

end Geozero
