import Verif.Spec.Wkt

/-
What WKT text shows of a geometry: its tree, and of each coordinate the numbers in order, but not which of z and m a
third number is, nor the bits of a NaN.
-/

namespace Geozero
namespace Spec

/-- How a number format prints what is not a number: always in the same way, and like no number (`NaN` in Rust). -/
structure NanText (N : NumText) where
  nan : Text
  nan_chars : ∀ c ∈ nan, isDelim c = false
  num_nan : ∀ v, F64.isNaN v = true → N.num v = nan
  num_ne_nan : ∀ v, F64.isNaN v = false → N.num v ≠ nan

/-- an ordinate as shown: a number, or none -/
def ordinateShown (v : F64) : Option F64 := if v.isNaN then none else some v

/-- A coordinate as shown: its ordinates in order, or nothing if none of them is a number. -/
def coordShown (multi : Bool) (c : Coord) : List (Option F64) :=
  if ∀ v ∈ ordinates multi c, F64.isNaN v = true then [] else (ordinates multi c).map ordinateShown

/-- The tree of a geometry: which parts there are, and how many coordinates each has. -/
def tree (g : Geom) : Geom := g.map fun _ => ⟨F64.zero, F64.zero, none, none⟩

/-- Two geometries that look alike as text: the same tree, with coordinates that show the same, one after the other. -/
def LookAlike (multi : Bool) (g g' : Geom) : Prop :=
  tree g = tree g' ∧ g.coords.map (coordShown multi) = g'.coords.map (coordShown multi)

end Spec
end Geozero
