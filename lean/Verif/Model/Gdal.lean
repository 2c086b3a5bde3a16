import Verif.Model.Geos

/-
Models /repo/geozero/src/gdal/{gdal_reader.rs, gdal_writer.rs, mod.rs}.

The GDAL/OGR library itself is not modelled.  An OGR geometry is a node with a type, points and members, which is how the
code sees it (`geometry_type`, `get_point`, `OGR_G_GetPointCount`, `geometry_count`, `get_unowned_geometry`).
-/

namespace Geozero

open Prog

/-- A point as returned by `get_point`: two-dimensional geometries have z = 0.
(gdal_reader.rs:125, 158, 177; GDAL is external) -/
structure OgrPt where
  x : F64
  y : F64
  z : F64 := F64.zero
deriving DecidableEq, Repr, Inhabited

/-- `gdal::vector::Geometry`.  `kind` is the flattened geometry type (`type2d`, gdal_reader.rs:119-121), `none` for types the
code has no case for; a linear ring reports the type of a line string. -/
inductive OgrGeom
  | node (kind : Option GKind) (pts : List OgrPt) (members : List OgrGeom)
deriving Repr, Inhabited

namespace OgrGeom

/-- the type of a geometry, `geometry_type()` (gdal_reader.rs:19, 30, 50) -/
def kind : OgrGeom → Option GKind
  | node k _ _ => k

/-- the points of a geometry, `get_point` (gdal_reader.rs:125, 158, 177) -/
def pts : OgrGeom → List OgrPt
  | node _ ps _ => ps

/-- the members of a geometry, `get_unowned_geometry` (gdal_reader.rs, gdal_writer.rs:138, 145) -/
def members : OgrGeom → List OgrGeom
  | node _ _ ms => ms

end OgrGeom

/-! ### reader

As in Model/Geos.lean, `multiDim` stands for `processor.dimensions().z`. -/

/-- how a point is passed to the processor (gdal_reader.rs:125-130) -/
def ogrEv (multi : Bool) (p : OgrPt) (idx : Nat) : Ev :=
  if multi then .coord p.x p.y (some p.z) none none none idx else .xy p.x p.y idx

/-- `process_point` (gdal_reader.rs:123-131); `blank` is what `get_point(0)` returns for an empty point -/
def ogrPoint (blank : OgrPt) (g : OgrGeom) (idx : Nat) : Prog Unit := do
  let multi ← multiDim
  emitEv (ogrEv multi (g.pts.headD blank) idx)

/-- `process_linestring` (gdal_reader.rs:148-166) -/
def ogrLinestring (g : OgrGeom) (tagged : Bool) (idx : Nat) : Prog Unit := do
  emitEv (.gbegin .lineString tagged g.pts.length idx)
  let multi ← multiDim
  forIdx (fun i p => emitEv (ogrEv multi p i)) 0 g.pts
  emitEv (.gend .lineString tagged idx)

/-- `process_circularstring` (gdal_reader.rs:168-185) -/
def ogrCircularstring (g : OgrGeom) (idx : Nat) : Prog Unit := do
  emitEv (.gbegin .circularString true g.pts.length idx)
  let multi ← multiDim
  forIdx (fun i p => emitEv (ogrEv multi p i)) 0 g.pts
  emitEv (.gend .circularString true idx)

/-- one member of `process_linestring_seq` (gdal_reader.rs:138-144) -/
def ogrSeqMember (i : Nat) (g : OgrGeom) : Prog Unit :=
  if g.kind = some .lineString then ogrLinestring g false i else .fail .geometryFormat

/-- `process_linestring_seq` (gdal_reader.rs:133-146) -/
def ogrLinestringSeq (ms : List OgrGeom) : Prog Unit := forIdx ogrSeqMember 0 ms

/-- `process_polygon` (gdal_reader.rs:187-197) -/
def ogrPolygon (g : OgrGeom) (tagged : Bool) (idx : Nat) : Prog Unit := do
  emitEv (.gbegin .polygon tagged g.members.length idx)
  ogrLinestringSeq g.members
  emitEv (.gend .polygon tagged idx)

/-- `process_triangle` (gdal_reader.rs:199-209) -/
def ogrTriangle (g : OgrGeom) (tagged : Bool) (idx : Nat) : Prog Unit := do
  emitEv (.gbegin .triangle tagged g.members.length idx)
  ogrLinestringSeq g.members
  emitEv (.gend .triangle tagged idx)

/-- one member of `process_compoundcurve` (gdal_reader.rs:218-230) -/
def ogrSegment (i : Nat) (g : OgrGeom) : Prog Unit :=
  match g.kind with
  | some .lineString => ogrLinestring g false i
  | some .circularString => ogrCircularstring g i
  | _ => .fail .geometryFormat

/-- `process_compoundcurve` (gdal_reader.rs:211-232) -/
def ogrCompoundcurve (g : OgrGeom) (idx : Nat) : Prog Unit := do
  emitEv (.gbegin .compoundCurve true g.members.length idx)
  forIdx ogrSegment 0 g.members
  emitEv (.gend .compoundCurve true idx)

/-- `process_curve` (gdal_reader.rs:234-242) -/
def ogrCurve (idx : Nat) (g : OgrGeom) : Prog Unit :=
  match g.kind with
  | some .lineString => ogrLinestring g false idx
  | some .circularString => ogrCircularstring g idx
  | some .compoundCurve => ogrCompoundcurve g idx
  | _ => .fail .geometryFormat

/-- `process_curvepolygon` (gdal_reader.rs:244-256) -/
def ogrCurvepolygon (g : OgrGeom) (idx : Nat) : Prog Unit := do
  emitEv (.gbegin .curvePolygon true g.members.length idx)
  forIdx ogrCurve 0 g.members
  emitEv (.gend .curvePolygon true idx)

/-- one member of a multi point (gdal_reader.rs:28-34) -/
def ogrPointMember (blank : OgrPt) (i : Nat) (g : OgrGeom) : Prog Unit :=
  if g.kind = some .point then ogrPoint blank g i else .fail .geometryFormat

/-- one member of a multi polygon (gdal_reader.rs:47-53) -/
def ogrPolygonMember (i : Nat) (g : OgrGeom) : Prog Unit :=
  if g.kind = some .polygon then ogrPolygon g false i else .fail .geometryFormat

/-- one member of a multi surface (gdal_reader.rs:97-110) -/
def ogrSurface (i : Nat) (g : OgrGeom) : Prog Unit :=
  match g.kind with
  | some .curvePolygon => ogrCurvepolygon g i
  | some .polygon => ogrPolygon g false i
  | _ => .fail .geometryFormat

/-- a container whose members are read by `body` (gdal_reader.rs:25-36, 38-43, 45-56, 70-78, 79-87, 88-96, 97-113) -/
def ogrContainer (k : GKind) (body : Nat → OgrGeom → Prog Unit) (ms : List OgrGeom) (idx : Nat) : Prog Unit := do
  emitEv (.gbegin k true ms.length idx)
  forIdx body 0 ms
  emitEv (.gend k true idx)

mutual
/-- `process_geom_n` (gdal_reader.rs:18-117) -/
def ogrGeomN (blank : OgrPt) (idx : Nat) : OgrGeom → Prog Unit
  | .node k ps ms =>
    match k with
    | some .point => do
      emitEv (.gbegin .point true 1 idx)
      ogrPoint blank (.node k ps ms) 0
      emitEv (.gend .point true idx)
    | some .multiPoint => ogrContainer .multiPoint (ogrPointMember blank) ms idx
    | some .lineString => ogrLinestring (.node k ps ms) true idx
    | some .multiLineString => ogrContainer .multiLineString ogrSeqMember ms idx
    | some .polygon => ogrPolygon (.node k ps ms) true idx
    | some .multiPolygon => ogrContainer .multiPolygon ogrPolygonMember ms idx
    | some .collection => do
      emitEv (.gbegin .collection true ms.length idx)
      ogrMembers blank 0 ms
      emitEv (.gend .collection true idx)
    | some .circularString => ogrCircularstring (.node k ps ms) idx
    | some .compoundCurve => ogrCompoundcurve (.node k ps ms) idx
    | some .curvePolygon => ogrCurvepolygon (.node k ps ms) idx
    | some .triangle => ogrTriangle (.node k ps ms) true idx
    | some .multiCurve => ogrContainer .multiCurve ogrCurve ms idx
    | some .polyhedralSurface => ogrContainer .polyhedralSurface (fun i g => ogrPolygon g false i) ms idx
    | some .tin => ogrContainer .tin (fun i g => ogrTriangle g false i) ms idx
    | some .multiSurface => ogrContainer .multiSurface ogrSurface ms idx
    | none => .fail .geometryFormat

/-- the members of a collection (gdal_reader.rs:60-63) -/
def ogrMembers (blank : OgrPt) (i : Nat) : List OgrGeom → Prog Unit
  | [] => .ret ()
  | g :: gs => Prog.bind (ogrGeomN blank i g) fun _ => ogrMembers blank (i + 1) gs
end

/-- `process_geom` (gdal_reader.rs:14-16) -/
def ogrProcessGeom (blank : OgrPt) (g : OgrGeom) : Prog Unit := ogrGeomN blank 0 g

/-! ### writer

First for the default dimensions (`GdalWriter::new`, which `to_gdal` and `from_wkb` use): `wkb_type` adds nothing, all
geometry types are two-dimensional and sources call `xy`.  `with_dims` and `coordinate` are modelled below (`GdalNd`). -/

/-- What `self.line` (gdal_writer.rs:12-13) refers to: a line of its own, member `i` of `geom`, member `j` of member `i` of
`geom`, or a member of a geometry that has been dropped.  It is a pointer that does not keep its target alive
(`get_unowned_geometry`, gdal_writer.rs:138, 145, 154). -/
inductive LineRef
  | own
  | member (i : Nat)
  | ring (i j : Nat)
  | dangling
deriving DecidableEq, Repr

/-- `GdalWriter` (gdal_writer.rs:9-14, default 44-52) -/
structure GdalWriter where
  geom : OgrGeom := .node (some .point) [] []
  line : LineRef := .own
deriving Repr

namespace GdalWriter

/-- an OGR method that returned an error code (the `?` in gdal_writer.rs:71-145) -/
def ogrErr : Err := .geometry "OGR"
/-- `UnsupportedGeometryType` (gdal_writer.rs:83, 114) -/
def unsupported : Err := .geometry "UnsupportedGeometryType"

/-- `set_point_2d(idx, (x, y))` of OGR on the points of a line: a line is extended up to the index with points at the
origin (gdal_writer.rs:71, 75, 81) -/
def setPt (ps : List OgrPt) (idx : Nat) (p : OgrPt) : List OgrPt :=
  if idx < ps.length then ps.set idx p else ps ++ List.replicate (idx - ps.length) ⟨F64.zero, F64.zero, F64.zero⟩ ++ [p]

/-- `set_point_2d` of OGR on a geometry: a point has index 0 only (others are ignored, see the test `gdal_internal_error`,
gdal_writer.rs:285-291) -/
def setPoint2d (g : OgrGeom) (idx : Nat) (p : OgrPt) : OgrGeom :=
  match g with
  | .node (some .point) ps ms => if idx = 0 then .node (some .point) [p] ms else .node (some .point) ps ms
  | .node k ps ms => .node k (setPt ps idx p) ms

/-- change member `i` of a geometry in place
(what `get_unowned_geometry` gives in gdal_writer.rs:138, 145 is changed in place) -/
def onMember (i : Nat) (f : OgrGeom → OgrGeom) : OgrGeom → OgrGeom
  | .node k ps ms => .node k ps (ms.modify i f)

/-- `self.geom = g`: the old geometry is dropped, and with it the line if it was one of its members
(gdal_writer.rs:121-130) -/
def replace (w : GdalWriter) (g : OgrGeom) : GdalWriter :=
  { geom := g, line := match w.line with | .own => .own | _ => .dangling }

/-- `self.line.set_point_2d(idx, (x, y))` through the reference; writing to a dropped geometry is marked as a panic
(gdal_writer.rs:71-81) -/
def setLine (w : GdalWriter) (idx : Nat) (p : OgrPt) : Except Err GdalWriter :=
  match w.line with
  | .own => .ok w
  | .member i => .ok { w with geom := onMember i (fun l => setPoint2d l idx p) w.geom }
  | .ring i j => .ok { w with geom := onMember i (onMember j fun l => setPoint2d l idx p) w.geom }
  | .dangling => .error (.panic "use after free")

/-- `OGR_G_AddGeometryDirectly` of OGR: which members a geometry of a type accepts
(called in gdal_writer.rs:76, 135, 142) -/
def addGeometry (g m : OgrGeom) : Except Err OgrGeom :=
  match g with
  | .node k ps ms =>
    match k, m.kind with
    | some .multiPoint, some .point => .ok (.node k ps (ms ++ [m]))
    | some .multiLineString, some .lineString => .ok (.node k ps (ms ++ [m]))
    | some .polygon, some .lineString => .ok (.node k ps (ms ++ [m]))
    | some .multiPolygon, some .polygon => .ok (.node k ps (ms ++ [m]))
    | _, _ => .error ogrErr

/-- `Geometry::empty(type)` (gdal_writer.rs:39-49) -/
def empty (k : GKind) : OgrGeom := .node (some k) [] []

/-- setting a point of the current geometry (the arms of gdal_writer.rs:70-82 and 101-113) -/
def put (w : GdalWriter) (idx : Nat) (p : OgrPt) : Except Err GdalWriter :=
  match w.geom.kind with
  | some .point | some .lineString => .ok { w with geom := setPoint2d w.geom idx p }
  | some .multiPoint =>
    match addGeometry w.geom (setPoint2d (empty .point) 0 p) with
    | .ok g => .ok { w with geom := g }
    | .error e => .error e
  | some .multiLineString | some .polygon | some .multiPolygon => w.setLine idx p
  | _ => .error unsupported

/-- `xy` (gdal_writer.rs:68-88) -/
def xy (w : GdalWriter) (x y : F64) (idx : Nat) : Except Err GdalWriter := w.put idx ⟨x, y, F64.zero⟩

/-- `linestring_begin` (gdal_writer.rs:128-160) -/
def linestringBegin (w : GdalWriter) (tagged : Bool) : Except Err GdalWriter :=
  if tagged then .ok (w.replace (empty .lineString))
  else
    match w.geom.kind with
    | some .multiLineString | some .polygon =>
      match addGeometry w.geom (empty .lineString) with
      | .ok g => .ok { geom := g, line := .member (g.members.length - 1) }
      | .error e => .error e
    | some .multiPolygon =>
      match w.geom.members.getLast? with
      | none => .error (.panic "attempt to subtract with overflow")
      | some poly =>
        match addGeometry poly (empty .lineString) with
        | .ok p =>
          .ok { geom := onMember (w.geom.members.length - 1) (fun _ => p) w.geom
                line := .ring (w.geom.members.length - 1) (p.members.length - 1) }
        | .error e => .error e
    | _ => .error unsupported

/-- `polygon_begin` (gdal_writer.rs:165-173) -/
def polygonBegin (w : GdalWriter) (tagged : Bool) : Except Err GdalWriter :=
  if tagged then .ok (w.replace (empty .polygon))
  else
    match addGeometry w.geom (empty .polygon) with
    | .ok g => .ok { w with geom := g }
    | .error e => .error e

/-- `impl GeomProcessor for GdalWriter` (gdal_writer.rs:64-178); the other methods are the default ones
(geometry_processor.rs:95-435) -/
def step (w : GdalWriter) : Ev → Except Err GdalWriter
  | .xy x y idx => w.xy x y idx
  | .emptyPoint _ => .error (.geometry "The input was an empty Point, but the output doesn't support empty Points")
  | .gbegin .point _ _ _ => .ok (w.replace (empty .point))
  | .gbegin .multiPoint _ _ _ => .ok (w.replace (empty .multiPoint))
  | .gbegin .lineString tagged _ _ => w.linestringBegin tagged
  | .gbegin .multiLineString _ _ _ => .ok (w.replace (empty .multiLineString))
  | .gbegin .polygon tagged _ _ => w.polygonBegin tagged
  | .gbegin .multiPolygon _ _ _ => .ok (w.replace (empty .multiPolygon))
  | _ => .ok w

/-- `impl GeomProcessor for GdalWriter` (gdal_writer.rs:64-178); a two-dimensional writer -/
def proc : Prog.Proc GdalWriter := { step := step, multi := fun _ => false }

end GdalWriter

/-- `ToGdal::to_gdal` (gdal/mod.rs:26-33) and `FromWkb for gdal::vector::Geometry` (gdal/mod.rs:45-51) -/
def toGdal (src : Prog Unit) (bs : List Byte) : Except Err OgrGeom :=
  match Prog.interp GdalWriter.proc src {} bs with
  | (w, _, .ok _) => .ok w.geom
  | (_, _, .error e) => .error e

/-- `FromWkb for gdal::vector::Geometry` (gdal/mod.rs:45-51) -/
def gdalFromWkb (fo : FOps) (d : WkbDialect) (bs : List Byte) : Except Err OgrGeom := toGdal (processWkbTypeGeom fo d) bs

/-! ### writer with other dimensions

The library is modelled by what OGR documents about types: a geometry created with a type has the dimensions of the type,
`set_point` makes a point or line three-dimensional, a member makes its container at least as dimensional, and
`geometry_type` of a geometry with z is the code of its kind with the highest bit set (wkbPoint25D is 0x80000001), with m
2000 more and with both 3000 more than the code. -/

/-- `GdalWriter` with the dimensions of `geom`: whether it has z and m (gdal_writer.rs:9-14) -/
structure GdalNd where
  w : GdalWriter := {}
  hasZ : Bool := false
  hasM : Bool := false
deriving Repr

namespace GdalNd

open GdalWriter (unsupported)

/-- the OGR codes of the kinds the writer creates (the constants of gdal_writer.rs:48-49, 70-82) -/
def ogrCode : GKind → Nat
  | .point => 1
  | .lineString => 2
  | .polygon => 3
  | .multiPoint => 4
  | .multiLineString => 5
  | .multiPolygon => 6
  | _ => 7

/-- `self.geom.geometry_type()` (gdal_writer.rs:69, 100, 130-145) -/
def geometryType (s : GdalNd) : Nat :=
  (s.w.geom.kind.map ogrCode).getD 0 + if s.hasM then (if s.hasZ then 3000 else 2000) else if s.hasZ then 0x80000000 else 0

/-- `wkb_base_type` (gdal_writer.rs:54-56) -/
def wkbBaseType (t : Nat) : Nat := t % 1000

/-- `self.geom = self.empty_geom(..)` (gdal_writer.rs:29-41): the type has z and m as the dimensions asked for -/
def fresh (d : Dims) (w : GdalWriter) : GdalNd := { w := w, hasZ := d.z, hasM := d.m }

/-- `xy` (gdal_writer.rs:68-88): the types are compared as they are; the arms are those of `put` -/
def xy (d : Dims) (s : GdalNd) (x y : F64) (idx : Nat) : Except Err GdalNd :=
  if s.geometryType ∈ [1, 2, 3, 4, 5, 6] then
    match s.w.put idx ⟨x, y, F64.zero⟩ with
    | .ok w => .ok { s with w := w, hasZ := s.hasZ || (s.geometryType == 4 && d.z), hasM := s.hasM || (s.geometryType == 4 && d.m) }
    | .error e => .error e
  else .error unsupported

/-- `coordinate` (gdal_writer.rs:89-119): the base types are compared; the arms are those of `put` -/
def coordinate (d : Dims) (s : GdalNd) (x y : F64) (z : Option F64) (idx : Nat) : Except Err GdalNd :=
  if wkbBaseType s.geometryType ∈ [1, 2, 3, 4, 5, 6] then
    match s.w.put idx ⟨x, y, z.getD F64.zero⟩ with
    | .ok w => .ok { s with
        w := w
        hasZ := s.hasZ || wkbBaseType s.geometryType ∈ [1, 2, 4]
        hasM := s.hasM || (wkbBaseType s.geometryType == 4 && d.m) }
    | .error e => .error e
  else .error unsupported

/-- `linestring_begin` (gdal_writer.rs:128-160) -/
def linestringBegin (d : Dims) (s : GdalNd) (tagged : Bool) : Except Err GdalNd :=
  if tagged then .ok (fresh d (s.w.replace (GdalWriter.empty .lineString)))
  else if wkbBaseType s.geometryType ∈ [3, 5, 6] then
    match s.w.linestringBegin false with
    | .ok w => .ok { s with w := w, hasZ := s.hasZ || (wkbBaseType s.geometryType != 6 && d.z), hasM := s.hasM || (wkbBaseType s.geometryType != 6 && d.m) }
    | .error e => .error e
  else .error unsupported

/-- `polygon_begin` (gdal_writer.rs:165-173) -/
def polygonBegin (d : Dims) (s : GdalNd) (tagged : Bool) : Except Err GdalNd :=
  if tagged then .ok (fresh d (s.w.replace (GdalWriter.empty .polygon)))
  else
    match s.w.polygonBegin false with
    | .ok w => .ok { s with w := w, hasZ := s.hasZ || d.z, hasM := s.hasM || d.m }
    | .error e => .error e

/-- `impl GeomProcessor for GdalWriter` (gdal_writer.rs:64-178) with dimensions `d` -/
def step (d : Dims) (s : GdalNd) : Ev → Except Err GdalNd
  | .xy x y idx => s.xy d x y idx
  | .coord x y z _ _ _ idx => s.coordinate d x y z idx
  | .emptyPoint _ => .error (.geometry "The input was an empty Point, but the output doesn't support empty Points")
  | .gbegin .point _ _ _ => .ok (fresh d (s.w.replace (GdalWriter.empty .point)))
  | .gbegin .multiPoint _ _ _ => .ok (fresh d (s.w.replace (GdalWriter.empty .multiPoint)))
  | .gbegin .lineString tagged _ _ => s.linestringBegin d tagged
  | .gbegin .multiLineString _ _ _ => .ok (fresh d (s.w.replace (GdalWriter.empty .multiLineString)))
  | .gbegin .polygon tagged _ _ => s.polygonBegin d tagged
  | .gbegin .multiPolygon _ _ _ => .ok (fresh d (s.w.replace (GdalWriter.empty .multiPolygon)))
  | _ => .ok s

/-- the processor; sources ask `multi_dim()` (`impl GeomProcessor for GdalWriter`, gdal_writer.rs:64-178) -/
def proc (d : Dims) : Prog.Proc GdalNd := { step := step d, multi := fun _ => d.multi }

end GdalNd

/-- `ToGdal::to_gdal_ndim` (gdal/mod.rs:29-33) on a source that asks `multi_dim()` -/
def toGdalNdim (d : Dims) (src : Prog Unit) (bs : List Byte) : Except Err GdalNd :=
  match Prog.interp (GdalNd.proc d) src {} bs with
  | (s, _, .ok _) => .ok s
  | (_, _, .error e) => .error e

end Geozero
