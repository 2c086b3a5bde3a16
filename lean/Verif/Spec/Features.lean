import Verif.Spec.Geom
import Verif.Model.Feature

/-
Specification vocabulary for features: property lists, the calls a feature and a dataset stand for, and the
documented order of calls of `FeatureProcessor` (feature_processor.rs:7-71) as an automaton.
-/

namespace Geozero

/-- One property as delivered: index, name, value -/
abbrev PropRec := Nat × Text × ColVal

/-- calls delivering a list of properties -/
def propEvs (ps : List PropRec) : List FEv := ps.map fun p => .prop p.1 p.2.1 p.2.2

/-- A source of properties that delivers `ps` in order and stops as soon as the processor says so; its result is
whether it was stopped. -/
def propsProg : List PropRec → FProg Bool
  | [] => .ret false
  | (i, n, v) :: ps => .prop i n v fun stop => if stop then .ret true else propsProg ps

/-- number the members of a list from `i` -/
def enumFrom {α : Type} : Nat → List α → List (Nat × α)
  | _, [] => []
  | i, x :: xs => (i, x) :: enumFrom (i + 1) xs

/-- A feature: its properties section (absent or a list) and its geometry section (absent or a stream of geometry
calls); `geomFirst` tells the order of the sections. -/
structure Feat where
  props : Option (List PropRec) := none
  geom : Option (List Ev) := none
  geomFirst : Bool := false
deriving DecidableEq, Repr

/-- the calls of the properties section -/
def Feat.propsPart (f : Feat) : List FEv :=
  match f.props with
  | none => []
  | some ps => .propsBegin :: (propEvs ps ++ [.propsEnd])

/-- the calls of the geometry section -/
def Feat.geomPart (f : Feat) : List FEv :=
  match f.geom with
  | none => []
  | some es => .geomBegin :: (es.map FEv.geom ++ [.geomEnd])

/-- the geometry calls of a feature: none if there is no geometry section or an empty one -/
def Feat.geomCalls (f : Feat) : List Ev := f.geom.getD []

/-- the calls of feature number `i` -/
def Feat.evs (i : Nat) (f : Feat) : List FEv :=
  .ftBegin i :: ((if f.geomFirst then f.geomPart ++ f.propsPart else f.propsPart ++ f.geomPart) ++ [.ftEnd i])

/-- features numbered from `i` -/
def featEvs : Nat → List Feat → List FEv
  | _, [] => []
  | i, f :: fs => f.evs i ++ featEvs (i + 1) fs

/-- the calls of a dataset -/
def datasetEvs (name : Option Text) (fs : List Feat) : List FEv := .dsBegin name :: (featEvs 0 fs ++ [.dsEnd])

/-- States of the documented automaton: before the dataset; in the dataset, `n` features complete; in feature `n`,
with or without the two sections done; inside a section; after the dataset. -/
inductive Phase
  | start
  | dataset (n : Nat)
  | feature (n : Nat) (p g : Bool)
  | props (n : Nat) (g : Bool)
  | geom (n : Nat) (p : Bool)
  | done
deriving DecidableEq, Repr

/-- The documented order of calls (feature_processor.rs:7-71): one dataset around everything; features numbered 0, 1,
...; inside a feature at most one properties section and at most one geometry section, in either order; properties only
in the former, geometry calls only in the latter; nothing after the end of the dataset. -/
def Phase.next : Phase → FEv → Option Phase
  | .start, .dsBegin _ => some (.dataset 0)
  | .dataset n, .ftBegin i => if i = n then some (.feature n false false) else none
  | .dataset _, .dsEnd => some .done
  | .feature n false g, .propsBegin => some (.props n g)
  | .props n g, .prop _ _ _ => some (.props n g)
  | .props n g, .propsEnd => some (.feature n true g)
  | .feature n p false, .geomBegin => some (.geom n p)
  | .geom n p, .geom _ => some (.geom n p)
  | .geom n p, .geomEnd => some (.feature n p true)
  | .feature n _ _, .ftEnd i => if i = n then some (.dataset (n + 1)) else none
  | _, _ => none

/-- run the automaton -/
def Phase.run : Phase → List FEv → Option Phase
  | s, [] => some s
  | s, e :: es =>
    match s.next e with
    | none => none
    | some s' => s'.run es

/-- the calls are a complete dataset -/
def CompleteDataset (evs : List FEv) : Prop := Phase.run .start evs = some .done

/-- the calls are the beginning of a dataset: nothing out of order so far -/
def PartialDataset (evs : List FEv) : Prop := (Phase.run .start evs).isSome

/-- Against every processor, also one whose calls fail or which answers arbitrarily, and on every input: the calls the
reader makes are the beginning of a dataset, and a whole dataset if the reader succeeds. -/
def FProg.FollowsContract {α : Type} (p : FProg α) : Prop :=
  ∀ (σ : Type) (P : FProc σ) (s : σ) (bs : List Byte),
    PartialDataset (FProg.interp P p s bs).2.1 ∧
    ((FProg.interp P p s bs).2.2.isOk → CompleteDataset (FProg.interp P p s bs).2.1)

end Geozero
