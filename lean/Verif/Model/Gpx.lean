import Verif.Model.GeoTypes
import Verif.Model.Feature

/-
Models /repo/geozero/src/gpx/gpx_reader.rs.

The XML parser (crate `gpx`, `gpx::read`) is not modelled: its result, an error message or a document, is an argument.
Of a document only what the reader looks at is kept: the positions of the waypoints, of the points of the segments of
the tracks, and of the points of the routes (`Waypoint::point`, a `geo_types::Point<f64>`).
-/

namespace Geozero

open Prog

/-- `gpx::Gpx`, restricted to the positions of its waypoints, tracks (lists of segments) and routes
(external; gpx_reader.rs:30, 46, 58-86) -/
structure GpxDoc where
  waypoints : List XY := []
  tracks : List (List (List XY)) := []
  routes : List (List XY) := []
deriving DecidableEq, Repr, Inhabited

/-- `process_waypoints_iter` (gpx_reader.rs:129-147): the new value of `*index` is the result -/
def gpxWaypointsIter (wrapPoint : Bool) : List XY → Nat → Prog Nat
  | [], index => .ret index
  | p :: ps, index => do
    if wrapPoint then
      emitEv (.gbegin .point true 1 index)
      emitEv (.xy p.x p.y 0)
      emitEv (.gend .point true index)
    else
      emitEv (.xy p.x p.y index)
    gpxWaypointsIter wrapPoint ps (index + 1)

/-- `process_top_level_waypoints` (gpx_reader.rs:45-55) -/
def gpxTopWaypoints (doc : GpxDoc) (index : Nat) : Prog Nat :=
  if doc.waypoints.isEmpty then .ret index else gpxWaypointsIter true doc.waypoints index

/-- `process_track_segment` (gpx_reader.rs:85-97) -/
def gpxTrackSegment (points : List XY) (index : Nat) : Prog Unit :=
  if points.isEmpty then .ret ()
  else do
    emitEv (.gbegin .lineString false points.length index)
    let _ ← gpxWaypointsIter false points 0
    emitEv (.gend .lineString false index)

/-- `process_track_segments` (gpx_reader.rs:69-83) -/
def gpxTrackSegments (track : List (List XY)) (index : Nat) : Prog Unit :=
  if track.isEmpty then .ret ()
  else do
    emitEv (.gbegin .multiLineString true track.length index)
    forIdx (fun innerIndex segment => gpxTrackSegment segment innerIndex) 0 track
    emitEv (.gend .multiLineString true index)

/-- `process_top_level_tracks` (gpx_reader.rs:57-67) -/
def gpxTopTracks : List (List (List XY)) → Nat → Prog Nat
  | [], index => .ret index
  | t :: ts, index => do
    gpxTrackSegments t index
    gpxTopTracks ts (index + 1)

/-- `process_route` (gpx_reader.rs:116-127) -/
def gpxRoute (points : List XY) (index : Nat) : Prog Unit :=
  if points.isEmpty then .ret ()
  else do
    emitEv (.gbegin .lineString false points.length index)
    let _ ← gpxWaypointsIter false points 0
    emitEv (.gend .lineString false index)

/-- `process_top_level_routes` (gpx_reader.rs:99-114) -/
def gpxTopRoutes (routes : List (List XY)) (index : Nat) : Prog Nat :=
  if routes.isEmpty then .ret index
  else do
    emitEv (.gbegin .multiLineString true routes.length index)
    forIdx (fun innerIndex route => gpxRoute route innerIndex) 0 routes
    emitEv (.gend .multiLineString true index)
    .ret (index + 1)

/-- `read_gpx` (gpx_reader.rs:26-43), also `Gpx::process_geom` (gpx_reader.rs:8-12).  `parsed` is what `gpx::read`
returns, an error given by its text. -/
def readGpx (parsed : Except String GpxDoc) : Prog Unit :=
  match parsed with
  | .error msg => .fail (.geometry msg)
  | .ok doc => do
    emitEv (.gbegin .collection true (doc.waypoints.length + doc.tracks.length + doc.routes.length) 0)
    let index ← gpxTopWaypoints doc 0
    let index ← gpxTopTracks doc.tracks index
    let _ ← gpxTopRoutes doc.routes index
    emitEv (.gend .collection true 0)

/-- `GpxReader::process` (gpx_reader.rs:17-24): the geometry calls of `read_gpx` on the feature processor, without any
dataset or feature call around them -/
def gpxProcess (parsed : Except String GpxDoc) : FProg Unit := FProg.lift (readGpx parsed)

end Geozero
