import Verif.Spec.Nesting
import Verif.Model.Wkt
import Verif.Model.Csv
import Verif.Model.GeoJson
import Verif.Model.Geos
import Verif.Model.Gdal
import Verif.Model.Gpx
import Verif.Model.Mvt
import Verif.Model.Shp
import Verif.Model.WkbReader
import Verif.Lemmas.Prog

/-
A program logic for well nested calls, and every reader of the crate in it.
-/

namespace Geozero
open Spec

theorem openRun_append (st : List Open) (a b : List Ev) :
    openRun st (a ++ b) = (openRun st a).bind fun st => openRun st b := by
  induction a generalizing st with
  | nil => rfl
  | cons e a ih =>
    simp only [List.cons_append, openRun]
    cases openAfter st e with
    | none => rfl
    | some st => exact ih st

theorem openAfter_gend (k : GKind) (t : Bool) (i : Nat) (st : List Open) :
    openAfter (Open.geom k t i :: st) (.gend k t i) = some st := if_pos rfl

theorem WellNested.of_append {a b : List Ev} (h : WellNested (a ++ b)) : WellNested a := by
  obtain ⟨st, h⟩ := h
  rw [openRun_append] at h
  cases ha : openRun [] a with
  | none => rw [ha] at h; cases h
  | some x => exact ⟨x, ha⟩

/-- from the open geometries `st` the reader only makes calls that are allowed, and ends with open geometries satisfying `Q` -/
def Prog.Nests {α : Type} (Q : α → List Open → Prop) : List Open → Prog α → Prop
  | st, .ret a => Q a st
  | _, .fail _ => True
  | st, .read k => ∀ b, Prog.Nests Q st (k b)
  | st, .emit e k => ∃ st', openAfter st e = some st' ∧ Prog.Nests Q st' k
  | st, .askMulti k => ∀ b, Prog.Nests Q st (k b)

/-- the reader ends with the geometries open it started with -/
structure Prog.Keeps {α : Type} (p : Prog α) : Prop where
  nests : ∀ st, Prog.Nests (fun _ t => t = st) st p

namespace Prog

theorem Nests.bind {α β : Type} {Q : α → List Open → Prop} {R : β → List Open → Prop} {p : Prog α} {f : α → Prog β}
    {st : List Open} (hp : Nests Q st p) (hf : ∀ a st', Q a st' → Nests R st' (f a)) : Nests R st (Prog.bind p f) := by
  induction p generalizing st with
  | ret a => exact hf a st hp
  | fail e => trivial
  | read k ih => intro b; exact ih b (hp b)
  | emit e k ih => obtain ⟨s', h, hk⟩ := hp; exact ⟨s', h, ih hk⟩
  | askMulti k ih => intro b; exact ih b (hp b)

/-- after a part that keeps what is open -/
theorem Keeps.then {α β : Type} {R : β → List Open → Prop} {p : Prog α} {f : α → Prog β} {st : List Open}
    (hp : Keeps p) (hf : ∀ a, Nests R st (f a)) : Nests R st (Prog.bind p f) :=
  (hp.nests st).bind fun a _ ht => ht ▸ hf a

theorem Keeps.bind {α β : Type} {p : Prog α} {f : α → Prog β} (hp : Keeps p) (hf : ∀ a, Keeps (f a)) :
    Keeps (Prog.bind p f) :=
  ⟨fun st => hp.then fun a => (hf a).nests st⟩

theorem Keeps.ret {α : Type} (a : α) : Keeps (.ret a) := ⟨fun _ => rfl⟩
theorem Keeps.fail {α : Type} (e : Err) : Keeps (.fail e : Prog α) := ⟨fun _ => trivial⟩
theorem Keeps.readByte : Keeps Prog.readByte := ⟨fun _ _ => rfl⟩
theorem Keeps.multiDim : Keeps Prog.multiDim := ⟨fun _ _ => rfl⟩

/-- a begin call, followed by something that ends the geometry -/
theorem Keeps.begin {β : Type} {k : GKind} {t : Bool} {n i : Nat} {f : Unit → Prog β}
    (h : ∀ st, Nests (fun _ t => t = st) (Open.geom k t i :: st) (f ())) : Keeps (Prog.bind (emitEv (.gbegin k t n i)) f) :=
  ⟨fun st => ⟨_, rfl, h st⟩⟩

/-- an end call -/
theorem Nests.close (k : GKind) (t : Bool) (i : Nat) (st : List Open) :
    Nests (fun _ t => t = st) (Open.geom k t i :: st) (emitEv (.gend k t i)) := ⟨_, openAfter_gend k t i st, rfl⟩

theorem Keeps.xy (x y : F64) (i : Nat) : Keeps (emitEv (.xy x y i)) := ⟨fun _ => ⟨_, rfl, rfl⟩⟩
theorem Keeps.coord (x y : F64) (z m t : Option F64) (tm : _) (i : Nat) : Keeps (emitEv (.coord x y z m t tm i)) :=
  ⟨fun _ => ⟨_, rfl, rfl⟩⟩
theorem Keeps.emptyPoint (i : Nat) : Keeps (emitEv (.emptyPoint i)) := ⟨fun _ => ⟨_, rfl, rfl⟩⟩
theorem Keeps.srid (s : Option Int) : Keeps (emitEv (.srid s)) := ⟨fun _ => ⟨_, rfl, rfl⟩⟩

theorem Keeps.ite {α : Type} {c : Prop} [Decidable c] {p q : Prog α} (hp : Keeps p) (hq : Keeps q) :
    Keeps (if c then p else q) := by split <;> assumption

theorem Keeps.emit_ite {c : Prop} [Decidable c] {a b : Ev} (hp : Keeps (emitEv a)) (hq : Keeps (emitEv b)) :
    Keeps (emitEv (if c then a else b)) := by split <;> assumption

theorem Keeps.loop {body : Nat → Prog Unit} (h : ∀ i, Keeps (body i)) (n i : Nat) : Keeps (Prog.loop n i body) := by
  induction n generalizing i with
  | zero => exact .ret _
  | succ n ih => exact (h i).bind fun _ => ih (i + 1)

theorem Keeps.forIdx {α : Type} {body : Nat → α → Prog Unit} (h : ∀ i x, Keeps (body i x)) (i : Nat) (xs : List α) :
    Keeps (Geozero.forIdx body i xs) := by
  induction xs generalizing i with
  | nil => exact .ret _
  | cons x xs ih => exact (h i x).bind fun _ => ih (i + 1)

theorem Nests.sound {α σ : Type} {Q : α → List Open → Prop} {p : Prog α} {st : List Open} (h : Nests Q st p)
    (P : Proc σ) (s : σ) (bs : List Byte) :
    (∃ st', openRun st (interp P p s bs).2.1 = some st') ∧
    ∀ a rest, (interp P p s bs).2.2 = .ok (a, rest) → ∃ st', openRun st (interp P p s bs).2.1 = some st' ∧ Q a st' := by
  induction p generalizing s st bs with
  | ret a =>
    refine ⟨⟨st, rfl⟩, ?_⟩
    intro a' rest h'
    simp only [interp, Except.ok.injEq, Prod.mk.injEq] at h'
    exact ⟨st, rfl, h'.1 ▸ h⟩
  | fail e => exact ⟨⟨st, rfl⟩, fun _ _ h' => by cases h'⟩
  | read k ih =>
    cases bs with
    | nil => exact ⟨⟨st, rfl⟩, fun _ _ h' => by cases h'⟩
    | cons b bs => exact ih b (h b) s bs
  | emit e k ih =>
    obtain ⟨t', h1, h2⟩ := h
    simp only [interp]
    cases P.step s e with
    | error x => exact ⟨⟨t', by simp [openRun, h1]⟩, fun _ _ h' => by cases h'⟩
    | ok s' => simpa only [openRun, h1, Option.bind_some] using ih h2 s' bs
  | askMulti k ih => exact ih _ (h _) s bs

/-- what `Keeps` means for every run -/
theorem Keeps.sound {α σ : Type} {p : Prog α} (h : Keeps p) (P : Proc σ) (s : σ) (bs : List Byte) :
    WellNested (interp P p s bs).2.1 ∧ ∀ a, (interp P p s bs).2.2 = .ok a → Balanced (interp P p s bs).2.1 := by
  obtain ⟨h1, h2⟩ := (h.nests []).sound P s bs
  exact ⟨h1, fun a ha => by obtain ⟨st', h3, h4⟩ := h2 a.1 a.2 ha; subst h4; exact h3⟩

end Prog

/-! ### the readers of geometries -/

open Prog

/-- takes programs apart -/
macro "nest" : tactic => `(tactic|
  repeat' first
    | assumption
    | exact Keeps.ret _
    | exact Keeps.fail _
    | exact Keeps.readByte
    | exact Keeps.multiDim
    | exact Keeps.xy _ _ _
    | exact Keeps.coord _ _ _ _ _ _ _
    | exact Keeps.emptyPoint _
    | exact Keeps.srid _
    | exact Nests.close _ _ _ _
    | refine Keeps.ite ?_ ?_
    | refine Keeps.emit_ite ?_ ?_
    | refine Keeps.begin (fun st => ?_)
    | refine Keeps.loop (fun i => ?_) _ _
    | refine Keeps.forIdx (fun i x => ?_) _ _
    | refine Keeps.bind ?_ (fun a => ?_)
    | refine Keeps.then ?_ (fun a => ?_))

theorem keeps_readN (n : Nat) : Keeps (readN n) := by
  induction n with
  | zero => exact .ret _
  | succ n ih => unfold readN; nest

theorem keeps_readU32 (e : Endian) : Keeps (readU32 e) := (keeps_readN 4).bind fun _ => .ret _
theorem keeps_readI32 (e : Endian) : Keeps (readI32 e) := (keeps_readN 4).bind fun _ => .ret _
theorem keeps_readF64 (e : Endian) : Keeps (readF64 e) := (keeps_readN 8).bind fun _ => .ret _
theorem keeps_readF32 (e : Endian) : Keeps (readF32 e) := (keeps_readN 4).bind fun _ => .ret _

/-! #### WKB -/

theorem keeps_readWkbHeader : Keeps readWkbHeader := Keeps.readByte.bind fun _ => (keeps_readU32 _).bind fun _ => .ret _
theorem keeps_readEwkbHeader : Keeps readEwkbHeader :=
  Keeps.readByte.bind fun _ => (keeps_readU32 _).bind fun _ =>
    (Keeps.ite ((keeps_readI32 _).bind fun _ => .ret _) (.ret _)).bind fun _ => .ret _
theorem keeps_readF64s (e : Endian) (n : Nat) : Keeps (readF64s e n) := by
  induction n with
  | zero => exact .ret _
  | succ n ih => exact (keeps_readF64 _).bind fun _ => ih.bind fun _ => .ret _

theorem keeps_readGpkgHeader : Keeps readGpkgHeader := by
  unfold readGpkgHeader
  refine Keeps.readByte.bind fun _ => Keeps.readByte.bind fun _ => Keeps.ite ?_ (.fail _)
  refine Keeps.readByte.bind fun _ => Keeps.readByte.bind fun flags => ?_
  cases gpkgEnvLen flags with
  | none => exact .fail _
  | some n =>
    exact (keeps_readI32 _).bind fun _ => (keeps_readF64s _ _).bind fun _ => keeps_readWkbHeader.bind fun _ => .ret _

theorem keeps_readSpatialiteHeader : Keeps readSpatialiteHeader := by
  unfold readSpatialiteHeader
  refine Keeps.readByte.bind fun _ => Keeps.ite ?_ (.fail _)
  refine Keeps.readByte.bind fun _ => (keeps_readI32 _).bind fun _ => Keeps.ite (Keeps.readByte.bind fun _ => .ret _) ?_
  refine (keeps_readF64s _ _).bind fun _ => Keeps.readByte.bind fun _ => Keeps.ite ?_ (.fail _)
  exact (keeps_readU32 _).bind fun _ => .ret _

theorem keeps_readSpatialiteNestedHeader (i : WkbInfo) : Keeps (readSpatialiteNestedHeader i) := by
  unfold readSpatialiteNestedHeader
  exact Keeps.readByte.bind fun _ => Keeps.ite ((keeps_readU32 _).bind fun _ => .ret _) (.fail _)

theorem keeps_readMysqlHeader : Keeps readMysqlHeader := by
  unfold readMysqlHeader
  refine (keeps_readU32 _).bind fun _ => Keeps.ite (keeps_readWkbHeader.bind fun _ => Keeps.ite (.ret _) (.fail _)) (.fail _)

theorem keeps_readCoord64 (i : WkbInfo) : Keeps (readCoord64 i) :=
  (keeps_readF64 _).bind fun _ => (keeps_readF64 _).bind fun _ =>
    (Keeps.ite ((keeps_readF64 _).bind fun _ => .ret _) (.ret _)).bind fun _ =>
    (Keeps.ite ((keeps_readF64 _).bind fun _ => .ret _) (.ret _)).bind fun _ => .ret _
theorem keeps_readCoord32 (fo : FOps) (i : WkbInfo) : Keeps (readCoord32 fo i) :=
  (keeps_readF32 _).bind fun _ => (keeps_readF32 _).bind fun _ =>
    (Keeps.ite ((keeps_readF32 _).bind fun _ => .ret _) (.ret _)).bind fun _ =>
    (Keeps.ite ((keeps_readF64 _).bind fun _ => .ret _) (.ret _)).bind fun _ => .ret _

theorem keeps_coordEv (multi : Bool) (c : Coord) (i : Nat) : Keeps (emitEv (coordEv multi c i)) := by
  unfold coordEv; nest

theorem keeps_emitCoord (c : Coord) (multi : Bool) (i : Nat) : Keeps (emitCoord c multi i) :=
  (keeps_coordEv multi c i).bind fun _ => .ret _

theorem keeps_processCoord (info : WkbInfo) (multi : Bool) (i : Nat) : Keeps (processCoord info multi i) :=
  (keeps_readCoord64 info).bind fun _ => keeps_emitCoord _ _ _

theorem keeps_processCompressedCoord (fo : FOps) (info : WkbInfo) (multi : Bool) (i : Nat) (c : Coord) :
    Keeps (processCompressedCoord fo info multi i c) :=
  (keeps_readCoord32 fo info).bind fun _ => Keeps.ite ((Keeps.coord _ _ _ _ _ _ _).bind fun _ => .ret _)
    ((Keeps.xy _ _ _).bind fun _ => .ret _)

theorem keeps_compressedLoop (fo : FOps) (info : WkbInfo) (multi : Bool) (n i : Nat) (c : Coord) :
    Keeps (compressedLoop fo info multi n i c) := by
  induction n generalizing i c with
  | zero => exact .ret _
  | succ n ih => exact (keeps_processCompressedCoord fo info multi i c).bind fun c => ih (i + 1) c

theorem keeps_processLinestring (fo : FOps) (info : WkbInfo) (t : Bool) (i : Nat) : Keeps (processLinestring fo info t i) := by
  unfold processLinestring
  refine (keeps_readU32 _).bind fun n => Keeps.begin fun st => Keeps.multiDim.then fun multi => Keeps.then ?_ fun _ =>
    ⟨_, openAfter_gend _ _ _ _, rfl⟩
  refine Keeps.ite ?_ (Keeps.loop (fun i => (keeps_processCoord info multi i).bind fun _ => .ret _) _ _)
  exact (keeps_processCoord info multi 0).bind fun c => (keeps_compressedLoop fo info multi _ _ c).bind fun _ =>
    (keeps_processCoord info multi _).bind fun _ => .ret _

theorem keeps_processCircularstring (info : WkbInfo) (i : Nat) : Keeps (processCircularstring info i) := by
  unfold processCircularstring
  exact (keeps_readU32 _).bind fun n => Keeps.begin fun st => Keeps.multiDim.then fun multi =>
    (Keeps.loop (fun i => (keeps_processCoord info multi i).bind fun _ => .ret _) _ _).then fun _ => ⟨_, openAfter_gend _ _ _ _, rfl⟩

theorem keeps_processPolygon (fo : FOps) (info : WkbInfo) (t : Bool) (i : Nat) : Keeps (processPolygon fo info t i) := by
  unfold processPolygon
  exact (keeps_readU32 _).bind fun n => Keeps.begin fun st =>
    (Keeps.loop (fun i => keeps_processLinestring fo info false i) _ _).then fun _ => ⟨_, openAfter_gend _ _ _ _, rfl⟩

theorem keeps_processTriangle (fo : FOps) (info : WkbInfo) (t : Bool) (i : Nat) : Keeps (processTriangle fo info t i) := by
  unfold processTriangle
  exact (keeps_readU32 _).bind fun n => Keeps.begin fun st =>
    (Keeps.loop (fun i => keeps_processLinestring fo info false i) _ _).then fun _ => ⟨_, openAfter_gend _ _ _ _, rfl⟩

theorem keeps_processSegment (fo : FOps) (info : WkbInfo) (i : Nat) : Keeps (processSegment fo info i) := by
  unfold processSegment
  split
  · exact keeps_processCircularstring _ _
  · exact keeps_processLinestring _ _ _ _
  · exact .fail _

theorem keeps_processMembers (k : GKind) (info : WkbInfo) (i : Nat) {member : Nat → Prog Unit} (h : ∀ i, Keeps (member i)) :
    Keeps (processMembers k info i member) := by
  unfold processMembers
  exact (keeps_readU32 _).bind fun n => Keeps.begin fun st => (Keeps.loop h _ _).then fun _ => ⟨_, openAfter_gend _ _ _ _, rfl⟩

section
variable (fo : FOps) {rh : WkbInfo → Prog WkbInfo} (hrh : ∀ i, Keeps (rh i))
include hrh

theorem keeps_processCompoundcurve (p : WkbInfo) (i d : Nat) : Keeps (processCompoundcurve fo rh p i d) := by
  unfold processCompoundcurve
  refine Keeps.ite (.fail _) ?_
  exact (keeps_readU32 _).bind fun n => Keeps.begin fun st =>
    (Keeps.loop (fun i => (hrh p).bind fun _ => keeps_processSegment fo _ i) _ _).then fun _ => ⟨_, openAfter_gend _ _ _ _, rfl⟩

theorem keeps_processCurveBody (p : WkbInfo) (i d : Nat) : Keeps (processCurveBody fo rh p i d) := by
  unfold processCurveBody
  split
  · exact keeps_processCircularstring _ _
  · exact keeps_processLinestring _ _ _ _
  · exact keeps_processCompoundcurve fo hrh _ _ _
  · exact .fail _

theorem keeps_processCurve (p : WkbInfo) (i d : Nat) : Keeps (processCurve fo rh p i d) :=
  (hrh p).bind fun _ => keeps_processCurveBody fo hrh _ _ _

theorem keeps_processCurvepolygon (p : WkbInfo) (i d : Nat) : Keeps (processCurvepolygon fo rh p i d) := by
  unfold processCurvepolygon
  refine Keeps.ite (.fail _) ?_
  exact (keeps_readU32 _).bind fun n => Keeps.begin fun st =>
    (Keeps.loop (fun i => keeps_processCurve fo hrh p i _) _ _).then fun _ => ⟨_, openAfter_gend _ _ _ _, rfl⟩

theorem keeps_processSurfaceBody (p : WkbInfo) (i d : Nat) : Keeps (processSurfaceBody fo rh p i d) := by
  unfold processSurfaceBody
  split
  · exact keeps_processCurvepolygon fo hrh _ _ _
  · exact keeps_processPolygon _ _ _ _
  · exact .fail _

theorem keeps_processGeomN (fuel : Nat) (info : WkbInfo) (i d : Nat) : Keeps (processGeomN fo rh fuel info i d) := by
  induction fuel generalizing info i d with
  | zero => exact .fail _
  | succ fuel ih =>
    unfold processGeomN
    refine Keeps.ite (.fail _) ?_
    split
    · refine (keeps_readCoord64 info).bind fun c => Keeps.ite (.emptyPoint _) ?_
      exact Keeps.begin fun st => Keeps.multiDim.then fun multi => (keeps_emitCoord c multi 0).then fun _ => ⟨_, openAfter_gend _ _ _ _, rfl⟩
    · exact (keeps_readU32 _).bind fun n => Keeps.begin fun st => Keeps.multiDim.then fun multi =>
        (Keeps.loop (fun i => (hrh info).bind fun sub => (keeps_processCoord sub multi i).bind fun _ => .ret _) _ _).then
          fun _ => ⟨_, openAfter_gend _ _ _ _, rfl⟩
    · exact keeps_processLinestring _ _ _ _
    · exact keeps_processCircularstring _ _
    · exact keeps_processCompoundcurve fo hrh _ _ _
    · exact keeps_processMembers _ _ _ fun i => (hrh info).bind fun _ => keeps_processLinestring _ _ _ _
    · exact keeps_processMembers _ _ _ fun i => keeps_processCurve fo hrh _ _ _
    · exact keeps_processPolygon _ _ _ _
    · exact keeps_processTriangle _ _ _ _
    · exact keeps_processCurvepolygon fo hrh _ _ _
    · exact keeps_processMembers _ _ _ fun i => (hrh info).bind fun _ => keeps_processPolygon _ _ _ _
    · exact keeps_processMembers _ _ _ fun i => (hrh info).bind fun _ => keeps_processPolygon _ _ _ _
    · exact keeps_processMembers _ _ _ fun i => (hrh info).bind fun _ => keeps_processTriangle _ _ _ _
    · exact keeps_processMembers _ _ _ fun i => (hrh info).bind fun _ => keeps_processSurfaceBody fo hrh _ _ _
    · exact keeps_processMembers _ _ _ fun i => (hrh info).bind fun _ => ih _ _ _
    · exact .fail _

theorem keeps_processTop {top : Prog WkbInfo} (ht : Keeps top) : Keeps (processTop fo top rh) :=
  ht.bind fun _ => (Keeps.srid _).bind fun _ => keeps_processGeomN fo hrh _ _ _ _
end

theorem keeps_wkb (fo : FOps) (d : WkbDialect) : Keeps (processWkbTypeGeom fo d) := by
  cases d with
  | wkb => exact keeps_processTop fo (fun _ => keeps_readWkbHeader) keeps_readWkbHeader
  | ewkb => exact keeps_processTop fo (fun _ => keeps_readEwkbHeader) keeps_readEwkbHeader
  | geopackage => exact keeps_processTop fo (fun _ => keeps_readWkbHeader) keeps_readGpkgHeader
  | spatiaLite => exact keeps_processTop fo keeps_readSpatialiteNestedHeader keeps_readSpatialiteHeader
  | mySQL => exact keeps_processTop fo (fun _ => keeps_readWkbHeader) keeps_readMysqlHeader

/-! #### WKT -/

theorem keeps_wktCoord (multi : Bool) (i : Nat) (c : Coord) : Keeps (wktProcessCoord multi i c) := by
  unfold wktProcessCoord; nest

theorem keeps_wktMember (multi : Bool) (i : Nat) (c : Option Coord) : Keeps (wktProcessMember multi i c) := by
  cases c with
  | none => exact .ret _
  | some c => exact keeps_wktCoord _ _ _

theorem keeps_wktLinestring (t : Bool) (i : Nat) (cs : List Coord) : Keeps (wktProcessLinestring t i cs) :=
  Keeps.begin fun _ => Keeps.multiDim.then fun multi => (Keeps.forIdx (fun i c => keeps_wktCoord multi i c) _ _).then fun _ =>
    ⟨_, openAfter_gend _ _ _ _, rfl⟩

theorem keeps_wktPolygon (t : Bool) (i : Nat) (rs : List (List Coord)) : Keeps (wktProcessPolygon t i rs) :=
  Keeps.begin fun _ => (Keeps.forIdx (fun i r => keeps_wktLinestring false i r) _ _).then fun _ => ⟨_, openAfter_gend _ _ _ _, rfl⟩

mutual
theorem keeps_wktN (i : Nat) : (g : WktGeom) → Keeps (wktProcessGeomN i g)
  | .point c => by
    unfold wktProcessGeomN
    refine Keeps.multiDim.bind fun multi => ?_
    cases c with
    | none => exact .emptyPoint _
    | some c => exact Keeps.begin fun _ => (keeps_wktCoord multi 0 c).then fun _ => ⟨_, openAfter_gend _ _ _ _, rfl⟩
  | .multiPoint ps => by
    unfold wktProcessGeomN
    exact Keeps.multiDim.bind fun _ => Keeps.begin fun _ => Keeps.multiDim.then fun multi =>
      (Keeps.forIdx (fun i c => keeps_wktMember multi i c) _ _).then fun _ => ⟨_, openAfter_gend _ _ _ _, rfl⟩
  | .lineString cs => by
    unfold wktProcessGeomN
    exact Keeps.multiDim.bind fun _ => keeps_wktLinestring _ _ _
  | .multiLineString ls => by
    unfold wktProcessGeomN
    exact Keeps.multiDim.bind fun _ => Keeps.begin fun _ =>
      (Keeps.forIdx (fun i c => keeps_wktLinestring false i c) _ _).then fun _ => ⟨_, openAfter_gend _ _ _ _, rfl⟩
  | .polygon rs => by
    unfold wktProcessGeomN
    exact Keeps.multiDim.bind fun _ => keeps_wktPolygon _ _ _
  | .multiPolygon ps => by
    unfold wktProcessGeomN
    exact Keeps.multiDim.bind fun _ => Keeps.begin fun _ =>
      (Keeps.forIdx (fun i c => keeps_wktPolygon false i c) _ _).then fun _ => ⟨_, openAfter_gend _ _ _ _, rfl⟩
  | .collection gs => by
    unfold wktProcessGeomN
    exact Keeps.multiDim.bind fun _ => Keeps.begin fun _ => (keeps_wktMembers 0 gs).then fun _ => ⟨_, openAfter_gend _ _ _ _, rfl⟩
theorem keeps_wktMembers (i : Nat) : (gs : List WktGeom) → Keeps (wktProcessMembers i gs)
  | [] => by unfold wktProcessMembers; exact .ret _
  | g :: gs => by
    unfold wktProcessMembers
    exact (keeps_wktN i g).bind fun _ => keeps_wktMembers (i + 1) gs
end

theorem keeps_wktText (parse : Text → Except Err WktGeom) (t : Text) : Keeps (processWktText parse t) := by
  unfold processWktText
  split
  · exact .fail _
  · exact keeps_wktN 0 _

/-! #### geo-types -/

theorem keeps_xyEv (multi : Bool) (c : XY) (i : Nat) : Keeps (emitEv (xyEv multi c i)) := by unfold xyEv; nest

theorem keeps_geoCoord (c : XY) (i : Nat) : Keeps (geoProcessCoord c i) :=
  Keeps.multiDim.bind fun _ => keeps_xyEv _ _ _

theorem keeps_geoLinestring (cs : List XY) (t : Bool) (i : Nat) : Keeps (geoProcessLinestring cs t i) :=
  Keeps.multiDim.bind fun multi => Keeps.begin fun _ => (Keeps.forIdx (fun i c => keeps_xyEv multi c i) _ _).then fun _ =>
    ⟨_, openAfter_gend _ _ _ _, rfl⟩

theorem keeps_geoPolygon (p : GPoly) (t : Bool) (i : Nat) : Keeps (geoProcessPolygon p t i) :=
  Keeps.begin fun _ => (keeps_geoLinestring _ _ _).then fun _ =>
    (Keeps.forIdx (fun i c => keeps_geoLinestring c false (i + 1)) _ _).then fun _ => ⟨_, openAfter_gend _ _ _ _, rfl⟩

mutual
theorem keeps_geoN (i : Nat) : (g : GeoGeom) → Keeps (geoProcessGeomN i g)
  | .point p => by
    unfold geoProcessGeomN
    exact Keeps.begin fun _ => (keeps_geoCoord _ _).then fun _ => ⟨_, openAfter_gend _ _ _ _, rfl⟩
  | .line a b => by
    unfold geoProcessGeomN
    exact Keeps.begin fun _ => (keeps_geoCoord _ _).then fun _ => (keeps_geoCoord _ _).then fun _ => ⟨_, openAfter_gend _ _ _ _, rfl⟩
  | .lineString cs => by unfold geoProcessGeomN; exact keeps_geoLinestring _ _ _
  | .polygon p => by unfold geoProcessGeomN; exact keeps_geoPolygon _ _ _
  | .multiPoint ps => by
    unfold geoProcessGeomN
    exact Keeps.begin fun _ => (Keeps.forIdx (fun i c => keeps_geoCoord c i) _ _).then fun _ => ⟨_, openAfter_gend _ _ _ _, rfl⟩
  | .multiLineString ls => by
    unfold geoProcessGeomN
    exact Keeps.begin fun _ => (Keeps.forIdx (fun i c => keeps_geoLinestring c false i) _ _).then fun _ => ⟨_, openAfter_gend _ _ _ _, rfl⟩
  | .multiPolygon ps => by
    unfold geoProcessGeomN
    exact Keeps.begin fun _ => (Keeps.forIdx (fun i c => keeps_geoPolygon c false i) _ _).then fun _ => ⟨_, openAfter_gend _ _ _ _, rfl⟩
  | .collection gs => by
    unfold geoProcessGeomN
    exact Keeps.begin fun _ => (keeps_geoMembers 0 gs).then fun _ => ⟨_, openAfter_gend _ _ _ _, rfl⟩
  | .rect mn mx => by unfold geoProcessGeomN; exact keeps_geoPolygon _ _ _
  | .triangle a b c => by unfold geoProcessGeomN; exact keeps_geoPolygon _ _ _
theorem keeps_geoMembers (i : Nat) : (gs : List GeoGeom) → Keeps (geoProcessMembers i gs)
  | [] => by unfold geoProcessMembers; exact .ret _
  | g :: gs => by
    unfold geoProcessMembers
    exact (keeps_geoN i g).bind fun _ => keeps_geoMembers (i + 1) gs
end

/-! #### GEOS -/

theorem keeps_geosCoordSeq (cs : GSeq) (o : Nat) : Keeps (geosCoordSeq cs o) := by
  unfold geosCoordSeq; nest

theorem keeps_geosLinestring (cs : GSeq) (t : Bool) (i : Nat) : Keeps (geosLinestring cs t i) :=
  Keeps.begin fun _ => (keeps_geosCoordSeq _ _).then fun _ => ⟨_, openAfter_gend _ _ _ _, rfl⟩

theorem keeps_geosPolygon (e : GSeq) (is : List GSeq) (t : Bool) (i : Nat) : Keeps (geosPolygon e is t i) :=
  Keeps.begin fun _ => (keeps_geosLinestring _ _ _).then fun _ =>
    (Keeps.forIdx (fun i c => keeps_geosLinestring c false (i + 1)) _ _).then fun _ => ⟨_, openAfter_gend _ _ _ _, rfl⟩

mutual
theorem keeps_geosN (i : Nat) : (g : GeosGeom) → Keeps (geosGeomN i g)
  | .point p => by
    unfold geosGeomN
    exact Keeps.begin fun _ => (keeps_geosCoordSeq _ _).then fun _ => ⟨_, openAfter_gend _ _ _ _, rfl⟩
  | .lineString cs => by unfold geosGeomN; exact keeps_geosLinestring _ _ _
  | .linearRing cs => by unfold geosGeomN; exact keeps_geosLinestring _ _ _
  | .polygon e is => by unfold geosGeomN; exact keeps_geosPolygon _ _ _ _
  | .multiPoint ps => by
    unfold geosGeomN
    exact Keeps.begin fun _ => (Keeps.forIdx (fun i c => keeps_geosCoordSeq c i) _ _).then fun _ => ⟨_, openAfter_gend _ _ _ _, rfl⟩
  | .multiLineString ls => by
    unfold geosGeomN
    exact Keeps.begin fun _ => (Keeps.forIdx (fun i c => keeps_geosLinestring c false i) _ _).then fun _ => ⟨_, openAfter_gend _ _ _ _, rfl⟩
  | .multiPolygon ps => by
    unfold geosGeomN
    exact Keeps.begin fun _ => (Keeps.forIdx (fun i (c : GSeq × List GSeq) => keeps_geosPolygon c.1 c.2 false i) _ _).then fun _ =>
      ⟨_, openAfter_gend _ _ _ _, rfl⟩
  | .collection gs => by
    unfold geosGeomN
    exact Keeps.begin fun _ => (keeps_geosMembers 0 gs).then fun _ => ⟨_, openAfter_gend _ _ _ _, rfl⟩
theorem keeps_geosMembers (i : Nat) : (gs : List GeosGeom) → Keeps (geosMembers i gs)
  | [] => by unfold geosMembers; exact .ret _
  | g :: gs => by
    unfold geosMembers
    exact (keeps_geosN i g).bind fun _ => keeps_geosMembers (i + 1) gs
end

/-! #### GDAL -/

theorem keeps_ogrEv (multi : Bool) (c : OgrPt) (i : Nat) : Keeps (emitEv (ogrEv multi c i)) := by unfold ogrEv; nest

theorem keeps_ogrPoint (b : OgrPt) (g : OgrGeom) (i : Nat) : Keeps (ogrPoint b g i) :=
  Keeps.multiDim.bind fun _ => keeps_ogrEv _ _ _

theorem keeps_ogrLinestring (g : OgrGeom) (t : Bool) (i : Nat) : Keeps (ogrLinestring g t i) :=
  Keeps.begin fun _ => Keeps.multiDim.then fun multi => (Keeps.forIdx (fun i c => keeps_ogrEv multi c i) _ _).then fun _ =>
    ⟨_, openAfter_gend _ _ _ _, rfl⟩

theorem keeps_ogrCircularstring (g : OgrGeom) (i : Nat) : Keeps (ogrCircularstring g i) :=
  Keeps.begin fun _ => Keeps.multiDim.then fun multi => (Keeps.forIdx (fun i c => keeps_ogrEv multi c i) _ _).then fun _ =>
    ⟨_, openAfter_gend _ _ _ _, rfl⟩

theorem keeps_ogrSeqMember (i : Nat) (g : OgrGeom) : Keeps (ogrSeqMember i g) :=
  Keeps.ite (keeps_ogrLinestring _ _ _) (.fail _)

theorem keeps_ogrPolygon (g : OgrGeom) (t : Bool) (i : Nat) : Keeps (ogrPolygon g t i) :=
  Keeps.begin fun _ => (Keeps.forIdx keeps_ogrSeqMember _ _).then fun _ => ⟨_, openAfter_gend _ _ _ _, rfl⟩

theorem keeps_ogrTriangle (g : OgrGeom) (t : Bool) (i : Nat) : Keeps (ogrTriangle g t i) :=
  Keeps.begin fun _ => (Keeps.forIdx keeps_ogrSeqMember _ _).then fun _ => ⟨_, openAfter_gend _ _ _ _, rfl⟩

theorem keeps_ogrSegment (i : Nat) (g : OgrGeom) : Keeps (ogrSegment i g) := by
  unfold ogrSegment
  split
  · exact keeps_ogrLinestring _ _ _
  · exact keeps_ogrCircularstring _ _
  · exact .fail _

theorem keeps_ogrCompoundcurve (g : OgrGeom) (i : Nat) : Keeps (ogrCompoundcurve g i) :=
  Keeps.begin fun _ => (Keeps.forIdx keeps_ogrSegment _ _).then fun _ => ⟨_, openAfter_gend _ _ _ _, rfl⟩

theorem keeps_ogrCurve (i : Nat) (g : OgrGeom) : Keeps (ogrCurve i g) := by
  unfold ogrCurve
  split
  · exact keeps_ogrLinestring _ _ _
  · exact keeps_ogrCircularstring _ _
  · exact keeps_ogrCompoundcurve _ _
  · exact .fail _

theorem keeps_ogrCurvepolygon (g : OgrGeom) (i : Nat) : Keeps (ogrCurvepolygon g i) :=
  Keeps.begin fun _ => (Keeps.forIdx keeps_ogrCurve _ _).then fun _ => ⟨_, openAfter_gend _ _ _ _, rfl⟩

theorem keeps_ogrSurface (i : Nat) (g : OgrGeom) : Keeps (ogrSurface i g) := by
  unfold ogrSurface
  split
  · exact keeps_ogrCurvepolygon _ _
  · exact keeps_ogrPolygon _ _ _
  · exact .fail _

theorem keeps_ogrContainer (k : GKind) {body : Nat → OgrGeom → Prog Unit} (h : ∀ i g, Keeps (body i g)) (ms : List OgrGeom)
    (i : Nat) : Keeps (ogrContainer k body ms i) :=
  Keeps.begin fun _ => (Keeps.forIdx h _ _).then fun _ => ⟨_, openAfter_gend _ _ _ _, rfl⟩

mutual
theorem keeps_ogrN (b : OgrPt) (i : Nat) : (g : OgrGeom) → Keeps (ogrGeomN b i g)
  | .node k ps ms => by
    unfold ogrGeomN
    split
    · exact Keeps.begin fun _ => (keeps_ogrPoint _ _ _).then fun _ => ⟨_, openAfter_gend _ _ _ _, rfl⟩
    · exact keeps_ogrContainer _ (fun i g => Keeps.ite (keeps_ogrPoint _ _ _) (.fail _)) _ _
    · exact keeps_ogrLinestring _ _ _
    · exact keeps_ogrContainer _ keeps_ogrSeqMember _ _
    · exact keeps_ogrPolygon _ _ _
    · exact keeps_ogrContainer _ (fun i g => Keeps.ite (keeps_ogrPolygon _ _ _) (.fail _)) _ _
    · exact Keeps.begin fun _ => (keeps_ogrMembers b 0 ms).then fun _ => ⟨_, openAfter_gend _ _ _ _, rfl⟩
    · exact keeps_ogrCircularstring _ _
    · exact keeps_ogrCompoundcurve _ _
    · exact keeps_ogrCurvepolygon _ _
    · exact keeps_ogrTriangle _ _ _
    · exact keeps_ogrContainer _ keeps_ogrCurve _ _
    · exact keeps_ogrContainer _ (fun i g => keeps_ogrPolygon _ _ _) _ _
    · exact keeps_ogrContainer _ (fun i g => keeps_ogrTriangle _ _ _) _ _
    · exact keeps_ogrContainer _ keeps_ogrSurface _ _
    · exact .fail _
theorem keeps_ogrMembers (b : OgrPt) (i : Nat) : (gs : List OgrGeom) → Keeps (ogrMembers b i gs)
  | [] => by unfold ogrMembers; exact .ret _
  | g :: gs => by
    unfold ogrMembers
    exact (keeps_ogrN b i g).bind fun _ => keeps_ogrMembers b (i + 1) gs
end

/-! #### vector tiles -/

theorem keeps_mvtCoord (c : IXY) (i : Nat) : Keeps (mvtCoord c i) := by
  refine Keeps.multiDim.bind fun multi => ?_
  unfold ixyEv; nest

theorem keeps_mvtLinestring (cs : List IXY) (t : Bool) (i : Nat) : Keeps (mvtLinestring cs t i) :=
  Keeps.begin fun _ => (Keeps.forIdx (fun i c => keeps_mvtCoord c i) _ _).then fun _ => ⟨_, openAfter_gend _ _ _ _, rfl⟩

theorem keeps_mvtPolygon (p : IPoly) (t : Bool) (i : Nat) : Keeps (mvtPolygon p t i) :=
  Keeps.begin fun _ => (keeps_mvtLinestring _ _ _).then fun _ =>
    (Keeps.forIdx (fun i c => keeps_mvtLinestring c false (i + 1)) _ _).then fun _ => ⟨_, openAfter_gend _ _ _ _, rfl⟩

mutual
theorem keeps_mvtN (i : Nat) : (g : MvtGeom) → Keeps (mvtGeometry i g)
  | .point p => by
    unfold mvtGeometry
    exact Keeps.begin fun _ => (keeps_mvtCoord _ _).then fun _ => ⟨_, openAfter_gend _ _ _ _, rfl⟩
  | .lineString cs => by unfold mvtGeometry; exact keeps_mvtLinestring _ _ _
  | .polygon p => by unfold mvtGeometry; exact keeps_mvtPolygon _ _ _
  | .multiPoint ps => by
    unfold mvtGeometry
    exact Keeps.begin fun _ => (Keeps.forIdx (fun i c => keeps_mvtCoord c i) _ _).then fun _ => ⟨_, openAfter_gend _ _ _ _, rfl⟩
  | .multiLineString ls => by
    unfold mvtGeometry
    exact Keeps.begin fun _ => (Keeps.forIdx (fun i c => keeps_mvtLinestring c false i) _ _).then fun _ => ⟨_, openAfter_gend _ _ _ _, rfl⟩
  | .multiPolygon ps => by
    unfold mvtGeometry
    exact Keeps.begin fun _ => (Keeps.forIdx (fun i c => keeps_mvtPolygon c false i) _ _).then fun _ => ⟨_, openAfter_gend _ _ _ _, rfl⟩
  | .collection gs => by
    unfold mvtGeometry
    exact Keeps.begin fun _ => (keeps_mvtMembers 0 gs).then fun _ => ⟨_, openAfter_gend _ _ _ _, rfl⟩
  | .line _ _ => by unfold mvtGeometry; exact .ret _
  | .rect _ _ => by unfold mvtGeometry; exact .ret _
  | .triangle _ _ _ => by unfold mvtGeometry; exact .ret _
theorem keeps_mvtMembers (i : Nat) : (gs : List MvtGeom) → Keeps (mvtMembers i gs)
  | [] => by unfold mvtMembers; exact .ret _
  | g :: gs => by
    unfold mvtMembers
    exact (keeps_mvtN i g).bind fun _ => keeps_mvtMembers (i + 1) gs
end

/-! #### GPX -/

theorem keeps_gpxWaypointsIter (w : Bool) (ps : List XY) (i : Nat) : Keeps (gpxWaypointsIter w ps i) := by
  induction ps generalizing i with
  | nil => exact .ret _
  | cons p ps ih =>
    unfold gpxWaypointsIter
    split
    · exact ⟨fun st => ⟨_, rfl, _, rfl, _, openAfter_gend _ _ _ _, (ih (i + 1)).nests st⟩⟩
    · exact (Keeps.xy _ _ _).bind fun _ => ih (i + 1)

theorem keeps_gpxTrackSegment (ps : List XY) (i : Nat) : Keeps (gpxTrackSegment ps i) :=
  Keeps.ite (.ret _) (Keeps.begin fun _ => (keeps_gpxWaypointsIter _ _ _).then fun _ => ⟨_, openAfter_gend _ _ _ _, rfl⟩)

theorem keeps_gpxTrackSegments (t : List (List XY)) (i : Nat) : Keeps (gpxTrackSegments t i) :=
  Keeps.ite (.ret _) (Keeps.begin fun _ => (Keeps.forIdx (fun i s => keeps_gpxTrackSegment s i) _ _).then fun _ =>
    ⟨_, openAfter_gend _ _ _ _, rfl⟩)

theorem keeps_gpxTopTracks (ts : List (List (List XY))) (i : Nat) : Keeps (gpxTopTracks ts i) := by
  induction ts generalizing i with
  | nil => exact .ret _
  | cons t ts ih => exact (keeps_gpxTrackSegments t i).bind fun _ => ih (i + 1)

theorem keeps_gpxRoute (ps : List XY) (i : Nat) : Keeps (gpxRoute ps i) :=
  Keeps.ite (.ret _) (Keeps.begin fun _ => (keeps_gpxWaypointsIter _ _ _).then fun _ => ⟨_, openAfter_gend _ _ _ _, rfl⟩)

theorem keeps_gpxTopRoutes (rs : List (List XY)) (i : Nat) : Keeps (gpxTopRoutes rs i) :=
  Keeps.ite (.ret _) (Keeps.begin fun _ => (Keeps.forIdx (fun i s => keeps_gpxRoute s i) _ _).then fun _ =>
    ⟨_, openAfter_gend _ _ _ _, rfl⟩)

theorem keeps_gpx (parsed : Except String GpxDoc) : Keeps (readGpx parsed) := by
  unfold readGpx
  split
  · exact .fail _
  · exact Keeps.begin fun _ => Keeps.then (Keeps.ite (.ret _) (keeps_gpxWaypointsIter _ _ _)) fun _ =>
      (keeps_gpxTopTracks _ _).then fun _ => (keeps_gpxTopRoutes _ _).then fun _ => ⟨_, openAfter_gend _ _ _ _, rfl⟩

/-! #### GeoJSON -/

theorem keeps_gjCoord (multi : Bool) (i : Nat) (p : List F64) : Keeps (gjCoord multi i p) := by
  unfold gjCoord
  split
  · nest
  · exact .fail _

theorem keeps_gjLine (t : Bool) (i : Nat) (l : List (List F64)) : Keeps (gjLine t i l) :=
  Keeps.begin fun _ => Keeps.multiDim.then fun multi => (Keeps.forIdx (keeps_gjCoord multi) _ _).then fun _ =>
    ⟨_, openAfter_gend _ _ _ _, rfl⟩

theorem keeps_gjPolygon (t : Bool) (i : Nat) (rs : List (List (List F64))) : Keeps (gjPolygon t i rs) :=
  Keeps.begin fun _ => (Keeps.forIdx (keeps_gjLine false) _ _).then fun _ => ⟨_, openAfter_gend _ _ _ _, rfl⟩

mutual
theorem keeps_gjN (i : Nat) : (g : GjGeom) → Keeps (gjGeomN i g)
  | .point p => by
    unfold gjGeomN
    exact Keeps.begin fun _ => Keeps.multiDim.then fun _ => (keeps_gjCoord _ _ _).then fun _ => ⟨_, openAfter_gend _ _ _ _, rfl⟩
  | .lineString cs => by unfold gjGeomN; exact keeps_gjLine _ _ _
  | .polygon p => by unfold gjGeomN; exact keeps_gjPolygon _ _ _
  | .multiPoint ps => by
    unfold gjGeomN
    exact Keeps.begin fun _ => Keeps.multiDim.then fun multi => (Keeps.forIdx (keeps_gjCoord multi) _ _).then fun _ =>
      ⟨_, openAfter_gend _ _ _ _, rfl⟩
  | .multiLineString ls => by
    unfold gjGeomN
    exact Keeps.begin fun _ => (Keeps.forIdx (keeps_gjLine false) _ _).then fun _ => ⟨_, openAfter_gend _ _ _ _, rfl⟩
  | .multiPolygon ps => by
    unfold gjGeomN
    exact Keeps.begin fun _ => (Keeps.forIdx (keeps_gjPolygon false) _ _).then fun _ => ⟨_, openAfter_gend _ _ _ _, rfl⟩
  | .collection gs => by
    unfold gjGeomN
    exact Keeps.begin fun _ => (keeps_gjMembers 0 gs).then fun _ => ⟨_, openAfter_gend _ _ _ _, rfl⟩
theorem keeps_gjMembers (i : Nat) : (gs : List GjGeom) → Keeps (gjMembers i gs)
  | [] => by unfold gjMembers; exact .ret _
  | g :: gs => by
    unfold gjMembers
    exact (keeps_gjN i g).bind fun _ => keeps_gjMembers (i + 1) gs
end

theorem keeps_geoJsonGeom (v : GeoJsonValue) : Keeps (processGeoJsonGeom v) := by
  cases v with
  | featureCollection fs => exact Keeps.forIdx keeps_gjN _ _
  | feature f =>
    simp only [processGeoJsonGeom]
    split
    · exact .ret _
    · exact keeps_gjN _ _
  | geometry g => exact keeps_gjN _ _

/-- what is open while the lines are read: the collection, once it is started -/
def lineOpen (started : Bool) (st : List Open) : List Open := if started then Open.geom .collection true 0 :: st else st

theorem nests_gjAddGeometry (started : Bool) (i : Nat) (g : GjGeom) (st : List Open) :
    Nests (fun b t => b = true ∧ t = lineOpen true st) (lineOpen started st) (gjAddGeometry started i g) := by
  have h : Nests (fun b t => b = true ∧ t = lineOpen true st) (lineOpen true st)
      (Prog.bind (gjGeomN i g) fun _ => .ret true) := (keeps_gjN i g).then fun _ => And.intro rfl rfl
  cases started with
  | true => exact h
  | false => exact ⟨_, rfl, h⟩

theorem nests_gjLineGeoms (started : Bool) (i : Nat) (ls : List (Except Err GeoJsonValue)) (st : List Open) :
    Nests (fun b t => t = lineOpen b st) (lineOpen started st) (gjLineGeoms started i ls) := by
  induction ls generalizing started i with
  | nil => exact rfl
  | cons l ls ih =>
    have add : ∀ g : GjGeom, Nests (fun b t => t = lineOpen b st) (lineOpen started st)
        (Prog.bind (gjAddGeometry started i g) fun s => gjLineGeoms s (i + 1) ls) := fun g =>
      (nests_gjAddGeometry started i g st).bind fun b t h => by
        obtain ⟨rfl, rfl⟩ := h
        exact ih true (i + 1)
    rcases l with e | v
    · exact trivial
    · cases v with
      | featureCollection fs => exact trivial
      | feature f =>
        unfold gjLineGeoms
        split
        · exact ih started (i + 1)
        · exact add _
      | geometry g => exact add g

theorem keeps_lineGeometries (ls : List (Except Err GeoJsonValue)) : Keeps (readGeoJsonLineGeometries ls) := by
  refine ⟨fun st => ?_⟩
  refine (nests_gjLineGeoms false 0 ls st).bind fun b t ht => ?_
  subst ht
  cases b with
  | true => exact ⟨_, openAfter_gend _ _ _ _, rfl⟩
  | false => exact ⟨_, rfl, _, openAfter_gend _ _ _ _, rfl⟩

/-! #### CSV -/

theorem nests_csvGeomRecord (parse : Text → Except Err WktGeom) (gi i : Nat) (r : Except Err (List Text)) (st : List Open) :
    Nests (fun _ t => t = lineOpen true st) (lineOpen (decide (0 < i)) st) (csvGeomRecord parse gi i r) := by
  unfold csvGeomRecord
  split
  · exact trivial
  · split
    · exact trivial
    · split
      · exact trivial
      · cases i with
        | zero => exact ⟨_, rfl, (keeps_wktN _ _).nests _⟩
        | succ i => exact (Keeps.ret ()).then fun _ => by simpa [lineOpen] using (keeps_wktN (i + 1) _).nests _

theorem nests_csvGeomRecords (parse : Text → Except Err WktGeom) (gi i : Nat) (rs : List (Except Err (List Text)))
    (st : List Open) : Nests (fun _ t => t = lineOpen (decide (0 < i + rs.length)) st) (lineOpen (decide (0 < i)) st)
      (forIdx (csvGeomRecord parse gi) i rs) := by
  induction rs generalizing i with
  | nil => exact rfl
  | cons r rs ih =>
    refine (nests_csvGeomRecord parse gi i r st).bind fun _ t ht => ?_
    subst ht
    have := ih (i + 1)
    simpa [Nat.add_assoc, Nat.add_comm 1] using this

theorem keeps_csvGeom (parse : Text → Except Err WktGeom) (headers : Except Err (List Text))
    (records : List (Except Err (List Text))) (column : Text) : Keeps (processCsvGeom parse headers records column) := by
  refine ⟨fun st => ?_⟩
  unfold processCsvGeom
  split
  · exact trivial
  · split
    · exact trivial
    · refine (nests_csvGeomRecords parse _ 0 records st).bind fun _ t ht => ?_
      subst ht
      cases records with
      | nil => exact ⟨_, rfl, _, openAfter_gend _ _ _ _, rfl⟩
      | cons r rs => exact (Keeps.ret ()).then fun _ => by simpa [lineOpen] using ⟨_, openAfter_gend _ _ _ _, rfl⟩

/-! ### readers of features -/

/-- the same for a reader of features -/
def FProg.Nests {α : Type} (Q : α → List Open → Prop) : List Open → FProg α → Prop
  | st, .ret a => Q a st
  | _, .fail _ => True
  | st, .read k => ∀ b, FProg.Nests Q st (k b)
  | st, .emit e k => ∃ st', fopenAfter st e = some st' ∧ FProg.Nests Q st' k
  | st, .emitOk e k => ∃ st', fopenAfter st e = some st' ∧ FProg.Nests Q st' k
  | st, .prop i n v k => ∃ st', fopenAfter st (.prop i n v) = some st' ∧ ∀ b, FProg.Nests Q st' (k b)
  | st, .ask k => ∀ b d, FProg.Nests Q st (k b d)

/-- the reader ends with the geometries open it started with -/
structure FProg.Keeps {α : Type} (p : FProg α) : Prop where
  nests : ∀ st, FProg.Nests (fun _ t => t = st) st p

/-- started while no geometry is open, the reader ends with the same things open -/
structure FProg.Closed {α : Type} (p : FProg α) : Prop where
  nests : ∀ st, outside st = true → FProg.Nests (fun _ t => t = st) st p

namespace FProg

theorem Nests.bind {α β : Type} {Q : α → List Open → Prop} {R : β → List Open → Prop} {p : FProg α} {f : α → FProg β}
    {st : List Open} (hp : Nests Q st p) (hf : ∀ a st', Q a st' → Nests R st' (f a)) : Nests R st (FProg.bind p f) := by
  induction p generalizing st with
  | ret a => exact hf a st hp
  | fail e => trivial
  | read k ih => intro b; exact ih b (hp b)
  | emit e k ih => obtain ⟨s', h, hk⟩ := hp; exact ⟨s', h, ih hk⟩
  | emitOk e k ih => obtain ⟨s', h, hk⟩ := hp; exact ⟨s', h, ih hk⟩
  | prop i n v k ih => obtain ⟨s', h, hk⟩ := hp; exact ⟨s', h, fun b => ih b (hk b)⟩
  | ask k ih => intro b d; exact ih b d (hp b d)

theorem Nests.mono {α : Type} {Q R : α → List Open → Prop} {p : FProg α} {s : List Open} (h : Nests Q s p)
    (hqr : ∀ a t, Q a t → R a t) : Nests R s p := by
  induction p generalizing s with
  | ret a => exact hqr a s h
  | fail e => trivial
  | read k ih => intro b; exact ih b (h b)
  | emit e k ih => obtain ⟨s', h, hk⟩ := h; exact ⟨s', h, ih hk⟩
  | emitOk e k ih => obtain ⟨s', h, hk⟩ := h; exact ⟨s', h, ih hk⟩
  | prop i n v k ih => obtain ⟨s', h, hk⟩ := h; exact ⟨s', h, fun b => ih b (hk b)⟩
  | ask k ih => intro b d; exact ih b d (h b d)

theorem Nests.lift {α : Type} {Q : α → List Open → Prop} {p : Prog α} {st : List Open} (h : Prog.Nests Q st p) :
    Nests Q st (lift p) := by
  induction p generalizing st with
  | ret a => exact h
  | fail e => trivial
  | read k ih => intro b; exact ih b (h b)
  | emit e k ih => obtain ⟨s', h, hk⟩ := h; exact ⟨s', h, ih hk⟩
  | askMulti k ih => intro b _; exact ih b (h b)

theorem Keeps.lift {α : Type} {p : Prog α} (h : p.Keeps) : Keeps (FProg.lift p) := ⟨fun st => Nests.lift (h.nests st)⟩
theorem Keeps.closed {α : Type} {p : FProg α} (h : Keeps p) : Closed p := ⟨fun st _ => h.nests st⟩
theorem Keeps.ret {α : Type} (a : α) : Keeps (.ret a) := ⟨fun _ => rfl⟩
theorem Keeps.fail {α : Type} (e : Err) : Keeps (.fail e : FProg α) := ⟨fun _ => trivial⟩
theorem Keeps.then {α β : Type} {R : β → List Open → Prop} {p : FProg α} {f : α → FProg β} {st : List Open}
    (hp : Keeps p) (hf : ∀ a, Nests R st (f a)) : Nests R st (FProg.bind p f) :=
  (hp.nests st).bind fun a _ ht => ht ▸ hf a
theorem Keeps.bind {α β : Type} {p : FProg α} {f : α → FProg β} (hp : Keeps p) (hf : ∀ a, Keeps (f a)) :
    Keeps (FProg.bind p f) :=
  ⟨fun st => hp.then fun a => (hf a).nests st⟩
theorem Keeps.ite {α : Type} {c : Prop} [Decidable c] {p q : FProg α} (hp : Keeps p) (hq : Keeps q) :
    Keeps (if c then p else q) := by split <;> assumption
theorem Keeps.ask {α : Type} {k : Bool → Dims → FProg α} (h : ∀ b d, Keeps (k b d)) : Keeps (.ask k) :=
  ⟨fun st b d => (h b d).nests st⟩
theorem Keeps.begin {β : Type} {k : GKind} {t : Bool} {n i : Nat} {f : Unit → FProg β}
    (h : ∀ st, Nests (fun _ t => t = st) (Open.geom k t i :: st) (f ())) :
    Keeps (FProg.bind (call (.geom (.gbegin k t n i))) f) :=
  ⟨fun st => ⟨_, rfl, h st⟩⟩
theorem Nests.close (k : GKind) (t : Bool) (i : Nat) (st : List Open) :
    Nests (fun _ t => t = st) (Open.geom k t i :: st) (call (.geom (.gend k t i))) := ⟨_, openAfter_gend k t i st, rfl⟩
theorem Keeps.xy (x y : F64) (i : Nat) : Keeps (call (.geom (.xy x y i))) := ⟨fun _ => ⟨_, rfl, rfl⟩⟩
theorem Keeps.coord (x y : F64) (z m t : Option F64) (tm : _) (i : Nat) : Keeps (call (.geom (.coord x y z m t tm i))) :=
  ⟨fun _ => ⟨_, rfl, rfl⟩⟩
theorem Keeps.forIdx {α : Type} {body : Nat → α → FProg Unit} (h : ∀ i x, Keeps (body i x)) (i : Nat) (xs : List α) :
    Keeps (FProg.forIdx body i xs) := by
  induction xs generalizing i with
  | nil => exact .ret _
  | cons x xs ih => exact (h i x).bind fun _ => ih (i + 1)

theorem Closed.then {α β : Type} {R : β → List Open → Prop} {p : FProg α} {f : α → FProg β} {st : List Open}
    (hp : Closed p) (hst : outside st = true) (hf : ∀ a, Nests R st (f a)) : Nests R st (FProg.bind p f) :=
  Nests.bind (hp.nests st hst) fun a t ht => by subst ht; exact hf a
theorem Closed.bind {α β : Type} {p : FProg α} {f : α → FProg β} (hp : Closed p) (hf : ∀ a, Closed (f a)) :
    Closed (FProg.bind p f) :=
  ⟨fun st hst => hp.then hst fun a => (hf a).nests st hst⟩
theorem Closed.ite {α : Type} {c : Prop} [Decidable c] {p q : FProg α} (hp : Closed p) (hq : Closed q) :
    Closed (if c then p else q) := by split <;> assumption
theorem Closed.ret {α : Type} (a : α) : Closed (.ret a) := ⟨fun _ _ => rfl⟩
theorem Closed.fail {α : Type} (e : Err) : Closed (.fail e : FProg α) := ⟨fun _ _ => trivial⟩
theorem Closed.forIdx {α : Type} {body : Nat → α → FProg Unit} (h : ∀ i x, Closed (body i x)) (i : Nat) (xs : List α) :
    Closed (FProg.forIdx body i xs) := by
  induction xs generalizing i with
  | nil => exact .ret _
  | cons x xs ih => exact (h i x).bind fun _ => ih (i + 1)
theorem Closed.prop (i : Nat) (n : Text) (v : ColVal) : Closed (call (.prop i n v)) :=
  ⟨fun st hst => ⟨st, if_pos hst, rfl⟩⟩

/-- the call `e` begins `o` -/
def Opens (e : FEv) (o : Open) : Prop :=
  (∀ st, outside st = true → fopenAfter st e = some (o :: st)) ∧ ∀ st, outside (o :: st) = true
/-- the call `e` ends `o` -/
def Closes (e : FEv) (o : Open) : Prop := ∀ st, fopenAfter (o :: st) e = some st

theorem opens_dataset (n : Option Text) : Opens (.dsBegin n) .dataset := ⟨fun _ h => if_pos h, fun _ => rfl⟩
theorem opens_feature (i : Nat) : Opens (.ftBegin i) (.feature i) := ⟨fun _ h => if_pos h, fun _ => rfl⟩
theorem opens_properties : Opens .propsBegin .properties := ⟨fun _ h => if_pos h, fun _ => rfl⟩
theorem opens_geometry : Opens .geomBegin .geometry := ⟨fun _ h => if_pos h, fun _ => rfl⟩
theorem closes_dataset : Closes .dsEnd .dataset := fun _ => rfl
theorem closes_feature (i : Nat) : Closes (.ftEnd i) (.feature i) := fun _ => if_pos rfl
theorem closes_properties : Closes .propsEnd .properties := fun _ => rfl
theorem closes_geometry : Closes .geomEnd .geometry := fun _ => rfl

/-- something begun, read and ended -/
theorem Closed.within {α : Type} {e e' : FEv} {o : Open} {p : FProg α} (ho : Opens e o) (hp : Closed p) (hc : Closes e' o) :
    Closed (FProg.bind (call e) fun _ => FProg.bind p fun _ => call e') :=
  ⟨fun st hst => ⟨_, ho.1 st hst, hp.then (ho.2 st) fun _ => ⟨_, hc st, rfl⟩⟩⟩

/-- the same with a continuation -/
theorem Closed.withinThen {α β : Type} {e e' : FEv} {o : Open} {p : FProg α} {f : FProg β} (ho : Opens e o) (hp : Closed p)
    (hc : Closes e' o) (hf : Closed f) :
    Closed (FProg.bind (call e) fun _ => FProg.bind p fun _ => FProg.bind (call e') fun _ => f) :=
  ⟨fun st hst => ⟨_, ho.1 st hst, hp.then (ho.2 st) fun _ => ⟨_, hc st, hf.nests st hst⟩⟩⟩

theorem Nests.sound {α σ : Type} {Q : α → List Open → Prop} {p : FProg α} {st : List Open} (h : Nests Q st p)
    (P : FProc σ) (s : σ) (bs : List Byte) :
    (∃ st', fopenRun st (interp P p s bs).2.1 = some st') ∧
    ∀ a rest, (interp P p s bs).2.2 = .ok (a, rest) → ∃ st', fopenRun st (interp P p s bs).2.1 = some st' ∧ Q a st' := by
  induction p generalizing s st bs with
  | ret a =>
    refine ⟨⟨st, rfl⟩, ?_⟩
    intro a' rest h'
    simp only [interp, Except.ok.injEq, Prod.mk.injEq] at h'
    exact ⟨st, rfl, h'.1 ▸ h⟩
  | fail e => exact ⟨⟨st, rfl⟩, fun _ _ h' => by cases h'⟩
  | read k ih =>
    cases bs with
    | nil => exact ⟨⟨st, rfl⟩, fun _ _ h' => by cases h'⟩
    | cons b bs => exact ih b (h b) s bs
  | emit e k ih =>
    obtain ⟨t', h1, h2⟩ := h
    simp only [interp]
    cases P.step s e with
    | error x => exact ⟨⟨t', by simp [fopenRun, h1]⟩, fun _ _ h' => by cases h'⟩
    | ok s' => simpa only [fopenRun, h1, Option.bind_some] using ih h2 s' bs
  | emitOk e k ih =>
    obtain ⟨t', h1, h2⟩ := h
    simp only [interp]
    cases P.step s e with
    | error x =>
      by_cases hx : x.isPanic = true
      · simp only [hx, if_true]
        exact ⟨⟨t', by simp [fopenRun, h1]⟩, fun _ _ h' => by cases h'⟩
      · simp only [if_neg hx]
        simpa only [fopenRun, h1, Option.bind_some] using ih h2 (P.left s e) bs
    | ok s' => simpa only [fopenRun, h1, Option.bind_some] using ih h2 s' bs
  | prop i n v k ih =>
    obtain ⟨t', h1, h2⟩ := h
    simp only [interp]
    cases P.step s (.prop i n v) with
    | error x => exact ⟨⟨t', by simp [fopenRun, h1]⟩, fun _ _ h' => by cases h'⟩
    | ok s' => simpa only [fopenRun, h1, Option.bind_some] using ih _ (h2 _) s' bs
  | ask k ih => exact ih _ _ (h _ _) s bs

/-- what `Closed` means for every run -/
theorem Closed.sound {α σ : Type} {p : FProg α} (h : Closed p) (P : FProc σ) (s : σ) (bs : List Byte) :
    FWellNested (interp P p s bs).2.1 ∧ ∀ a, (interp P p s bs).2.2 = .ok a → FBalanced (interp P p s bs).2.1 := by
  obtain ⟨h1, h2⟩ := Nests.sound (h.nests [] rfl) P s bs
  exact ⟨h1, fun a ha => by obtain ⟨st', h3, h4⟩ := h2 a.1 a.2 ha; subst h4; exact h3⟩

end FProg

open FProg (Closed)

/-! #### GeoJSON -/

open FProg (opens_dataset opens_feature opens_properties opens_geometry closes_dataset closes_feature closes_properties
  closes_geometry)

theorem closed_gjProperty (i : Nat) (p : Text × GjVal) : Closed (gjProperty i p) := by
  unfold gjProperty
  split
  · exact .ret _
  · exact .prop _ _ _

theorem closed_gjPropertiesPart (ps : Option (List (Text × GjVal))) : Closed (gjPropertiesPart ps) := by
  cases ps with
  | none => exact .ret _
  | some ps => exact .within opens_properties (Closed.forIdx closed_gjProperty _ _) closes_properties

theorem closed_gjGeometryPart (i : Nat) (g : Option GjGeom) : Closed (gjGeometryPart i g) := by
  cases g with
  | none => exact .ret _
  | some g => exact .within opens_geometry (FProg.Keeps.lift (keeps_gjN i g)).closed closes_geometry

theorem closed_gjCollectionFeature (i : Nat) (f : GjFeature) : Closed (gjCollectionFeature i f) :=
  ⟨fun st hst => ⟨_, (opens_feature i).1 st hst, (closed_gjPropertiesPart _).then rfl fun _ =>
    (closed_gjGeometryPart _ _).then rfl fun _ => ⟨_, closes_feature i st, rfl⟩⟩⟩

theorem closed_gjSingleFeature (i : Nat) (f : GjFeature) : Closed (gjSingleFeature i f) :=
  .within (opens_dataset _) (Closed.ite (closed_gjCollectionFeature i f) (.ret _)) closes_dataset

theorem closed_processGeoJson (v : GeoJsonValue) : Closed (processGeoJson v) := by
  cases v with
  | featureCollection fs =>
    exact .within (opens_dataset _) (Closed.forIdx closed_gjCollectionFeature _ _) closes_dataset
  | feature f => exact closed_gjSingleFeature 0 f
  | geometry g => exact (FProg.Keeps.lift (keeps_gjN 0 g)).closed

theorem closed_readGeoJson (parsed : Except Err GeoJsonValue) : Closed (readGeoJson parsed) := by
  unfold readGeoJson
  split
  · exact .fail _
  · exact closed_processGeoJson _

theorem closed_readGeoJsonFc (fs : List (Except Err GjFeature)) : Closed (readGeoJsonFc fs) :=
  Closed.forIdx (fun i f => by
    unfold readFcFeature
    split
    · exact .fail _
    · exact closed_gjSingleFeature _ _) _ _

theorem closed_gjLineItem (i : Nat) (l : Except Err GeoJsonValue) : Closed (gjLineItem i l) := by
  unfold gjLineItem
  split
  · exact .fail _
  · exact ⟨fun st hst => ⟨_, (opens_feature i).1 st hst, (closed_gjPropertiesPart _).then rfl fun _ =>
      (closed_gjGeometryPart _ _).then rfl fun _ => ⟨_, closes_feature i st, rfl⟩⟩⟩
  · exact (FProg.Keeps.lift (keeps_gjN _ _)).closed
  · exact .fail _

theorem closed_readGeoJsonLines (ls : List (Except Err GeoJsonValue)) : Closed (readGeoJsonLines ls) :=
  .within (opens_dataset _) (Closed.forIdx closed_gjLineItem _ _) closes_dataset

/-! #### CSV -/

theorem closed_csvGeometryPart (parse : Text → Except Err WktGeom) (record : List Text) (gi : Nat) :
    Closed (csvGeometryPart parse record gi) := by
  unfold csvGeometryPart
  split
  · exact .fail _
  · refine Closed.ite (.ret _) (.within opens_geometry ?_ closes_geometry)
    unfold csvGeometry
    split
    · exact .fail _
    · exact (FProg.Keeps.lift (keeps_wktN 0 _)).closed

theorem closed_csvFeature (parse : Text → Except Err WktGeom) (headers : List Text) (gi i : Nat) (r : Except Err (List Text)) :
    Closed (csvFeature parse headers gi i r) := by
  unfold csvFeature
  split
  · exact .fail _
  · exact ⟨fun st hst => ⟨_, (opens_feature i).1 st hst, _, opens_properties.1 _ rfl,
      (Closed.forIdx (fun i p => Closed.prop _ _ _) _ _).then rfl fun _ => ⟨_, closes_properties _,
      (closed_csvGeometryPart _ _ _).then rfl fun _ => ⟨_, closes_feature i st, rfl⟩⟩⟩⟩

theorem closed_processCsvFeatures (parse : Text → Except Err WktGeom) (headers : Except Err (List Text))
    (records : List (Except Err (List Text))) (column : Text) : Closed (processCsvFeatures parse headers records column) := by
  unfold processCsvFeatures
  split
  · exact .fail _
  · split
    · exact ⟨fun st hst => ⟨_, (opens_dataset _).1 st hst, trivial⟩⟩
    · exact .within (opens_dataset _) (Closed.forIdx (closed_csvFeature parse _ _) _ _) closes_dataset

/-! #### vector tiles -/

theorem closed_mvtProperties (i : Nat) (ps : _) : Closed (FProg.forIdx mvtProperty i ps) :=
  Closed.forIdx (fun i p => by
    unfold mvtProperty
    split
    · exact .prop _ _ _
    · exact .ret _) _ _

theorem closed_mvtGeometryPart (f : MvtFeature) : Closed (FProg.lift (mvtProcessGeom f)) :=
  (FProg.Keeps.lift (keeps_mvtN 0 _)).closed

theorem closed_mvtFeature (i : Nat) (f : MvtFeature) : Closed (mvtFeature i f) :=
  ⟨fun st hst => ⟨_, (opens_feature i).1 st hst, _, opens_properties.1 _ rfl,
    (closed_mvtProperties 0 f.properties).then rfl fun _ => ⟨_, closes_properties _, _, opens_geometry.1 _ rfl,
    (closed_mvtGeometryPart f).then rfl fun _ => ⟨_, closes_geometry _, _, closes_feature i st, rfl⟩⟩⟩⟩

theorem closed_mvtProcess (l : MvtLayer) : Closed (mvtProcess l) :=
  .within (opens_dataset _) (Closed.forIdx closed_mvtFeature _ _) closes_dataset

end Geozero
