import Verif.Spec.Features
import Verif.Spec.GeoTypes
import Verif.Model.GeoFeature

/-
What converting a dataset to geo-types features should give.
-/

namespace Geozero

/-- the value of the last property with a given name -/
def lastValue (ps : List PropRec) (name : Text) : Option ColVal :=
  (ps.reverse.find? fun p => p.2.1 = name).map fun p => p.2.2

/-- A geo-types feature has a geometry and, for every name, the value of the last property of that name, of the same type. -/
structure GeoFeature.Has (x : GeoFeature) (r : GeoGeom) (ps : List PropRec) : Prop where
  geometry : x.geometry = r
  properties : ∀ name, (x.properties name).map OwnedVal.column = lastValue ps name

/-- The features of a dataset have geometries (whatever index they are delivered with) with the given geo-types values,
within the allocation limits. -/
inductive GeoFeats (sz : ElemSizes) : List Feat → List GeoGeom → Prop
  | nil : GeoFeats sz [] []
  | cons (f : Feat) (fs : List Feat) (g : Geom) (i : Nat) (r : GeoGeom) (rs : List GeoGeom)
      (hf : f.geom = some (g.events false i)) (hg : g.geo = some r) (hb : g.Budget sz) (h : GeoFeats sz fs rs) :
      GeoFeats sz (f :: fs) (r :: rs)

/-- each geometry section is absent or the documented stream of some geometry -/
def Feat.GeomOk (f : Feat) : Prop := f.geom = none ∨ ∃ (g : Geom) (i : Nat), f.geom = some (g.events false i)

end Geozero
