import Verif.Lemmas.Nesting

/-
The readers of shapefiles make well nested calls.
-/

namespace Geozero
open Spec Prog
open FProg (Closed)

/-! #### shapefiles -/

theorem keeps_usizeOk (n : Nat) : Keeps (usizeOk n) := Keeps.ite (.ret _) (.fail _)
theorem keeps_doubleI32 (v : Int) : Keeps (doubleI32 v) := Keeps.ite (.ret _) (.fail _)
theorem keeps_readShpType : Keeps readShpType := by
  unfold readShpType
  refine (keeps_readI32 _).bind fun v => ?_
  split
  · exact .ret _
  · exact .fail _
theorem keeps_readF64List (n : Nat) : Keeps (readF64List n) := by
  induction n with
  | zero => exact .ret _
  | succ n ih => exact (keeps_readF64 _).bind fun _ => ih.bind fun _ => .ret _
theorem keeps_readShpHeader : Keeps readShpHeader := by
  unfold readShpHeader
  simp only [Prog.bind_eq]
  refine (keeps_readI32 _).bind fun v => Keeps.ite (.fail _) ?_
  refine Keeps.bind (keeps_readN _) fun _ => ?_
  refine Keeps.bind (keeps_readI32 _) fun _ => ?_
  refine Keeps.bind (keeps_readI32 _) fun _ => ?_
  refine Keeps.bind keeps_readShpType fun _ => ?_
  refine Keeps.bind (keeps_readF64List _) fun _ => ?_
  exact .ret _
theorem keeps_readXYs (n : Nat) : Keeps (readXYs n) := by
  induction n with
  | zero => exact .ret _
  | succ n ih => exact (keeps_readF64 _).bind fun _ => (keeps_readF64 _).bind fun _ => ih.bind fun _ => .ret _
theorem keeps_readDimValuesIf (b : Bool) (n : Nat) : Keeps (readDimValuesIf b n) :=
  Keeps.ite ((keeps_readF64List _).bind fun _ => keeps_readF64List _) (.ret _)
theorem keeps_readF64If (b : Bool) : Keeps (readF64If b) := Keeps.ite ((keeps_readF64 _).bind fun _ => .ret _) (.ret _)
theorem keeps_readShpPoint (n : Nat) (t : ShpType) : Keeps (readShpPoint n t) :=
  Keeps.ite (.fail _) ((keeps_readF64 _).bind fun _ => (keeps_readF64 _).bind fun _ => (keeps_readF64If _).bind fun _ =>
    (keeps_readF64If _).bind fun _ => .ret _)
theorem keeps_readShpMultipoint (n : Nat) (z : Bool) : Keeps (readShpMultipoint n z) :=
  (keeps_readF64List _).bind fun _ => (keeps_readI32 _).bind fun _ => (keeps_usizeOk _).bind fun _ =>
    Keeps.ite (.fail _) ((keeps_readXYs _).bind fun _ => (keeps_readDimValuesIf _ _).bind fun _ =>
      (keeps_readDimValuesIf _ _).bind fun _ => .ret _)
theorem keeps_readParts (n : Nat) : Keeps (readParts n) := by
  induction n with
  | zero => exact .ret _
  | succ n ih => exact (keeps_readI32 _).bind fun _ => ih.bind fun _ => .ret _
theorem keeps_readMultiPart (p : Bool) (n : Nat) (z : Bool) : Keeps (readMultiPart p n z) :=
  (keeps_readF64List _).bind fun _ => (keeps_readI32 _).bind fun _ => (keeps_readI32 _).bind fun _ =>
    (keeps_usizeOk _).bind fun _ => (keeps_usizeOk _).bind fun _ =>
    Keeps.ite (.fail _) ((keeps_readParts _).bind fun _ => (keeps_readXYs _).bind fun _ => (keeps_readDimValuesIf _ _).bind fun _ =>
      (keeps_readDimValuesIf _ _).bind fun _ => .ret _)
theorem keeps_readShpContent (n : Nat) : Keeps (readShpContent n) := by
  unfold readShpContent
  refine keeps_readShpType.bind fun t => Keeps.ite (.fail _) ?_
  dsimp only
  generalize n - 4 = m
  cases t with
  | point => dsimp only; exact keeps_readShpPoint _ _
  | pointM => dsimp only; exact keeps_readShpPoint _ _
  | pointZ => dsimp only; exact keeps_readShpPoint _ _
  | multipoint => dsimp only; exact keeps_readShpMultipoint m false
  | multipointM => dsimp only; exact keeps_readShpMultipoint m false
  | multipointZ => dsimp only; exact keeps_readShpMultipoint m true
  | polyline => dsimp only; exact keeps_readMultiPart false m false
  | polylineM => dsimp only; exact keeps_readMultiPart false m false
  | polylineZ => dsimp only; exact keeps_readMultiPart false m true
  | polygon => dsimp only; exact keeps_readMultiPart true m false
  | polygonM => dsimp only; exact keeps_readMultiPart true m false
  | polygonZ => dsimp only; exact keeps_readMultiPart true m true
  | multipatch => exact Keeps.ite (.fail _) ((keeps_readN m).bind fun _ => .ret _)
  | null => exact .ret _
theorem keeps_readShpRecord : Keeps readShpRecord :=
  (keeps_readI32 _).bind fun _ => (keeps_readI32 _).bind fun _ => (keeps_doubleI32 _).bind fun _ =>
    (keeps_readShpContent _).bind fun _ => .ret _
theorem keeps_advance (p : Nat) (w : Int) : Keeps (advance p w) := (keeps_usizeOk _).bind fun _ => .ret _

theorem keeps_shpCoord (coords : List XY) (zs ms : List F64) (multi getZ getM : Bool) (ofs idx : Nat) :
    FProg.Keeps (shpCoord coords zs ms multi getZ getM ofs idx) := by
  unfold shpCoord
  split
  · exact .fail _
  · split
    · split
      · exact .coord _ _ _ _ _ _ _
      · exact .fail _
      · exact .fail _
    · exact .xy _ _ _

theorem keeps_shpPart (coords : List XY) (zs ms : List F64) (multi getZ getM : Bool) (i : Nat) (w : Nat × Nat) :
    FProg.Keeps (shpPart coords zs ms multi getZ getM i w) :=
  FProg.Keeps.ite (.fail _) (FProg.Keeps.begin fun _ =>
    (FProg.Keeps.forIdx (fun i ofs => keeps_shpCoord coords zs ms multi getZ getM ofs i) _ _).then fun _ => .close _ _ _ _)

theorem keeps_shpPolygon (pi : List Nat) (coords : List XY) (zs ms : List F64) (multi getZ getM : Bool) (i : Nat) (w : Nat × Nat) :
    FProg.Keeps (shpPolygon pi coords zs ms multi getZ getM i w) :=
  FProg.Keeps.begin fun _ => (FProg.Keeps.forIdx (keeps_shpPart coords zs ms multi getZ getM) _ _).then fun _ => .close _ _ _ _

theorem keeps_shpProcess (ar : ShpArith) (asPoly : Bool) (pi : List Nat) (coords : List XY) (zs ms : List F64) :
    FProg.Keeps (shpProcess ar asPoly pi coords zs ms) := by
  unfold shpProcess
  refine FProg.Keeps.ask fun _ dims => FProg.Keeps.ite ?_ ?_
  · split
    · exact .fail _
    · exact FProg.Keeps.begin fun _ => (FProg.Keeps.forIdx (keeps_shpPolygon _ _ _ _ _ _ _) _ _).then fun _ => .close _ _ _ _
  · exact FProg.Keeps.begin fun _ => (FProg.Keeps.forIdx (keeps_shpPart _ _ _ _ _ _) _ _).then fun _ => .close _ _ _ _

theorem keeps_shapeProcess (ar : ShpArith) (s : ShpShape) : FProg.Keeps (s.process ar) := by
  cases s with
  | null => exact .ret _
  | patch => exact .ret _
  | point x y z m =>
    exact FProg.Keeps.begin fun _ => FProg.Keeps.then
      (FProg.Keeps.ask fun multi d => FProg.Keeps.ite (.coord _ _ _ _ _ _ _) (.xy _ _ _)) fun _ => .close _ _ _ _
  | multipoint coords zs ms =>
    exact FProg.Keeps.ask fun multi d => FProg.Keeps.begin fun _ =>
      (FProg.Keeps.forIdx (fun i ofs => keeps_shpCoord coords zs ms multi _ _ ofs i) _ _).then fun _ => .close _ _ _ _
  | multipart p pi coords zs ms => exact keeps_shpProcess ar p pi coords zs ms

theorem keeps_readShape (ar : ShpArith) : FProg.Keeps (readShape ar) :=
  (FProg.Keeps.lift keeps_readShpRecord).bind fun _ => (keeps_shapeProcess ar _).bind fun _ => .ret _

theorem keeps_shapesLoop (ar : ShpArith) (len n pos : Nat) : FProg.Keeps (shapesLoop ar len n pos) := by
  induction n generalizing pos with
  | zero => exact .fail _
  | succ n ih =>
    refine FProg.Keeps.bind (FProg.Keeps.ite (.ret _) ((keeps_readShape ar).bind fun _ =>
      (FProg.Keeps.lift (keeps_advance _ _)).bind fun _ => .ret _)) fun r => ?_
    cases r with
    | none => exact .ret _
    | some p => exact ih p

theorem closed_shpGeometries (ar : ShpArith) : Closed (shpGeometries ar) :=
  ((FProg.Keeps.lift keeps_readShpHeader).bind fun _ => (FProg.Keeps.lift (keeps_doubleI32 _)).bind fun _ =>
    keeps_shapesLoop ar _ _ _).closed

theorem closed_shapeRecordLoop (i : Nat) (r : List (Text × FieldValue)) : Closed (shapeRecordLoop i r) := by
  induction r generalizing i with
  | nil => exact .ret _
  | cons p r ih =>
    obtain ⟨name, value⟩ := p
    unfold shapeRecordLoop
    split
    · exact ih i
    · refine ⟨fun st hst => ⟨st, if_pos hst, fun b => ?_⟩⟩
      cases b with
      | true => exact rfl
      | false => exact (ih (i + 1)).nests st hst

open FProg (opens_dataset opens_feature opens_properties opens_geometry closes_dataset closes_feature closes_properties
  closes_geometry)

theorem closed_shpFeature (ar : ShpArith) (f p : Nat) (row : ShpRow) : Closed (shpFeature ar f p row) :=
  ⟨fun st hst => ⟨_, (opens_feature f).1 st hst, _, opens_properties.1 _ rfl, (closed_shapeRecordLoop 0 row).then rfl fun _ =>
    ⟨_, closes_properties _, _, opens_geometry.1 _ rfl, (keeps_readShape ar).closed.then rfl fun _ =>
    (FProg.Keeps.lift (keeps_advance _ _)).closed.then rfl fun _ => ⟨_, closes_geometry _, _, closes_feature f st, rfl⟩⟩⟩⟩

/-- what is open between two calls of the iterator: the dataset, once it is started -/
def shpOpen (featno : Nat) : List Open := if featno = 0 then [] else [.dataset]

theorem nests_featureNext (ar : ShpArith) (len : Nat) (it : ShpIter) :
    FProg.Nests (fun r t => match r with | none => t = [] | some it => it.featno ≠ 0 ∧ t = [.dataset]) (shpOpen it.featno)
      (featureNext ar len it) := by
  unfold featureNext
  have hb : FProg.Nests (fun (_ : Unit) t => t = [.dataset]) (shpOpen it.featno) (shpDatasetBegin it.featno) := by
    unfold shpDatasetBegin shpOpen
    split
    · exact ⟨_, rfl, rfl⟩
    · exact rfl
  refine FProg.Nests.bind hb fun _ t ht => ?_
  subst ht
  split
  · exact ⟨_, rfl, rfl⟩
  · split
    · exact ⟨_, rfl, rfl⟩
    · exact trivial
    · exact (closed_shpFeature _ _ _ _).then rfl fun _ => ⟨by simp, rfl⟩

theorem nests_featuresLoop (ar : ShpArith) (len n : Nat) (it : ShpIter) :
    FProg.Nests (fun _ t => t = []) (shpOpen it.featno) (featuresLoop ar len n it) := by
  induction n generalizing it with
  | zero => exact trivial
  | succ n ih =>
    refine FProg.Nests.bind (nests_featureNext ar len it) fun r t h => ?_
    cases r with
    | none => exact h
    | some p =>
      obtain ⟨h0, rfl⟩ := h
      have := ih p
      rw [shpOpen, if_neg h0] at this
      exact this

theorem nests_shpFeatures (ar : ShpArith) (rows : List (Except Err ShpRow)) :
    FProg.Nests (fun _ t => t = []) [] (shpFeatures ar rows) :=
  (FProg.Keeps.lift keeps_readShpHeader).then fun _ => (FProg.Keeps.lift (keeps_doubleI32 _)).then fun _ =>
    nests_featuresLoop ar _ _ ⟨0, 100, rows⟩

end Geozero
