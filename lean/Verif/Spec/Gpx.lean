import Verif.Spec.GeoTypes
import Verif.Model.Gpx

/-
Specification vocabulary for the GPX reader.
-/

namespace Geozero

/-- A document without empty parts and with at most one route. -/
def GpxDoc.Full (d : GpxDoc) : Prop :=
  (∀ t ∈ d.tracks, t ≠ [] ∧ ∀ s ∈ t, s ≠ []) ∧ (∀ r ∈ d.routes, r ≠ []) ∧ d.routes.length ≤ 1

/-- The geometry a GPX document stands for: a point per waypoint, then a multi line string per track with one line per
segment, then a multi line string of the routes, if there are any. -/
def GpxDoc.geom (d : GpxDoc) : Geom :=
  .collection (d.waypoints.map (fun p => .point p.coord) ++
    d.tracks.map (fun t => .multiLineString (t.map (List.map XY.coord))) ++
    (if d.routes = [] then [] else [.multiLineString (d.routes.map (List.map XY.coord))]))

/-- all positions of a document, in document order by kind -/
def GpxDoc.points (d : GpxDoc) : List XY := d.waypoints ++ d.tracks.flatten.flatten ++ d.routes.flatten

/-- the positions delivered by a stream of calls -/
def evPoints : List Ev → List XY
  | [] => []
  | .xy x y _ :: es => ⟨x, y⟩ :: evPoints es
  | .coord x y _ _ _ _ _ :: es => ⟨x, y⟩ :: evPoints es
  | _ :: es => evPoints es

/-- The indices given to the geometries begun `lvl` levels deep in a stream of calls, where the stream starts at depth
`d`. -/
def begunAt (lvl : Nat) : Nat → List Ev → List Nat
  | _, [] => []
  | d, .gbegin _ _ _ idx :: es => if d = lvl then idx :: begunAt lvl (d + 1) es else begunAt lvl (d + 1) es
  | d, .gend _ _ _ :: es => begunAt lvl (d - 1) es
  | d, _ :: es => begunAt lvl d es

/-- the number of members a collection announces -/
def gpxAnnounced : List Ev → Option Nat
  | .gbegin .collection _ n _ :: _ => some n
  | _ => none

/-- begin and end calls match, with the same kind, `tagged` and index -/
def balanced : List (GKind × Bool × Nat) → List Ev → Bool
  | st, [] => st.isEmpty
  | st, .gbegin k t _ i :: es => balanced ((k, t, i) :: st) es
  | [], .gend _ _ _ :: _ => false
  | top :: st, .gend k t i :: es => decide (top = (k, t, i)) && balanced st es
  | st, _ :: es => balanced st es

end Geozero
