import Verif.Model.Prog
import Verif.Model.GeoTypes
import Verif.Model.WkbWriter
import Verif.Model.Wkt

/-
Models /repo/geozero/src/geos/{geos_reader.rs, geos_writer.rs, mod.rs}.

The GEOS library itself is not modelled.  A GEOS geometry is a tree; the checks the library makes when a geometry is built,
and what it does on an index outside a coordinate sequence, are a parameter `GeosLib`.
-/

namespace Geozero

open Prog

/-- One position of a GEOS coordinate sequence.  Simplification: GEOS stores per sequence whether it has z, the model per
position; GEOS M values are not read by the code. (geos_reader.rs:80-106, geos_writer.rs:45-47) -/
structure GPos where
  x : F64
  y : F64
  z : Option F64 := none
deriving DecidableEq, Repr, Inhabited

/-- `geos::CoordSeq` (external; geos_writer.rs:11) -/
abbrev GSeq := List GPos

/-- `geos::Geometry`.  A point has no position if it is empty. (external; geos_reader.rs:22-30) -/
inductive GeosGeom
  | point (cs : GSeq)
  | multiPoint (ps : List GSeq)
  | lineString (cs : GSeq)
  | linearRing (cs : GSeq)
  | multiLineString (ls : List GSeq)
  | polygon (exterior : GSeq) (interiors : List GSeq)
  | multiPolygon (ps : List (GSeq × List GSeq))
  | collection (gs : List GeosGeom)
deriving Repr, Inhabited

/-- What the GEOS library does: which sequences it accepts for a line string, a linear ring, a polygon (the shell and its
holes), its error, what happens on an index outside a sequence, and the positions of a fresh sequence.
(external; called in geos_writer.rs:20-168) -/
structure GeosLib where
  lineOk : GSeq → Bool
  ringOk : GSeq → Bool
  polyOk : GSeq → List GSeq → Bool
  err : Err
  outOfRange : Err
  blank : XY

/-- a position of a fresh two-dimensional sequence (geos_writer.rs:20-21) -/
def GeosLib.fresh (lib : GeosLib) : GPos := { x := lib.blank.x, y := lib.blank.y }

/-! ### reader

The reader asks the processor for `dimensions().z` where other readers ask for `multi_dim()` (geos_reader.rs:85).  In this
file and in Model/Gdal.lean the question `multiDim` of `Prog` stands for `dimensions().z`; `Proc.askedZ` is a processor
that is asked this way. -/

/-- a processor whose `dimensions()` in state `s` are `d s`, asked for `dimensions().z` instead of `multi_dim()`
(geos_reader.rs:85) -/
def Prog.Proc.askedZ {σ : Type} (P : Prog.Proc σ) (d : σ → Dims) : Prog.Proc σ :=
  { P with multi := fun s => (d s).z }

/-- `process_coord_seq` (geos_reader.rs:80-112) -/
def geosCoordSeq (cs : GSeq) (offset : Nat) : Prog Unit := do
  let multi ← multiDim
  forIdx (fun i p => emitEv (if multi then .coord p.x p.y p.z none none none (offset + i) else .xy p.x p.y (offset + i))) 0 cs

/-- `process_point` (geos_reader.rs:114-123) -/
def geosPoint (cs : GSeq) (idx : Nat) : Prog Unit := geosCoordSeq cs idx

/-- `process_linestring` (geos_reader.rs:125-138) -/
def geosLinestring (cs : GSeq) (tagged : Bool) (idx : Nat) : Prog Unit := do
  emitEv (.gbegin .lineString tagged cs.length idx)
  geosCoordSeq cs 0
  emitEv (.gend .lineString tagged idx)

/-- `process_polygon` (geos_reader.rs:140-158) -/
def geosPolygon (exterior : GSeq) (interiors : List GSeq) (tagged : Bool) (idx : Nat) : Prog Unit := do
  emitEv (.gbegin .polygon tagged (interiors.length + 1) idx)
  geosLinestring exterior false 0
  forIdx (fun i ring => geosLinestring ring false (i + 1)) 0 interiors
  emitEv (.gend .polygon tagged idx)

mutual
/-- `process_geom_n` (geos_reader.rs:26-78) -/
def geosGeomN (idx : Nat) : GeosGeom → Prog Unit
  | .point cs => do
    emitEv (.gbegin .point true 1 idx)
    geosPoint cs 0
    emitEv (.gend .point true idx)
  | .multiPoint ps => do
    emitEv (.gbegin .multiPoint true ps.length idx)
    forIdx (fun i p => geosPoint p i) 0 ps
    emitEv (.gend .multiPoint true idx)
  | .lineString cs => geosLinestring cs true idx
  | .linearRing cs => geosLinestring cs true idx
  | .multiLineString ls => do
    emitEv (.gbegin .multiLineString true ls.length idx)
    forIdx (fun i l => geosLinestring l false i) 0 ls
    emitEv (.gend .multiLineString true idx)
  | .polygon e is => geosPolygon e is true idx
  | .multiPolygon ps => do
    emitEv (.gbegin .multiPolygon true ps.length idx)
    forIdx (fun i p => geosPolygon p.1 p.2 false i) 0 ps
    emitEv (.gend .multiPolygon true idx)
  | .collection gs => do
    emitEv (.gbegin .collection true gs.length idx)
    geosMembers 0 gs
    emitEv (.gend .collection true idx)

/-- the loop over the members of a collection (geos_reader.rs:71-74) -/
def geosMembers (i : Nat) : List GeosGeom → Prog Unit
  | [] => .ret ()
  | g :: gs => Prog.bind (geosGeomN i g) fun _ => geosMembers (i + 1) gs
end

/-- `process_geom` (geos_reader.rs:22-24) -/
def geosProcessGeom (g : GeosGeom) : Prog Unit := geosGeomN 0 g

/-- `to_wkb_dialect` (wkb/mod.rs:85-97) on a source that asks for `dimensions().z` -/
def toWkbAskedZ (src : Prog Unit) (dialect : WkbDialect) (dims : Dims) (srid : Option Int) (env : List F64) :
    Except Err (List Byte) :=
  match Prog.interp (WkbWriter.proc.askedZ fun w => w.readDims) src (WkbWriter.withOpts dialect dims srid env) [] with
  | (w, _, .ok _) => .ok w.out
  | (_, _, .error e) => .error e

/-- `to_wkt_with_opts` (wkt/mod.rs:45-57) on a source that asks for `dimensions().z` -/
def toWktAskedZ (num : F64 → Text) (src : Prog Unit) (dialect : WktDialect) (dims : Dims) (srid : Option Int) :
    Except Err Text :=
  match Prog.interp ((WktWriter.proc num).askedZ fun w => w.dims) src (WktWriter.withOpts dialect dims srid) [] with
  | (w, _, .ok _) => .ok w.out
  | (_, _, .error e) => .error e

/-! ### writer -/

/-- `GeosWriter` (geos_writer.rs:7-14, default 29-38).  `geomSrid` is the SRID stored in `geom`; a new GEOS geometry has
SRID 0. -/
structure GeosWriter where
  geom : GeosGeom := .point []
  geomSrid : Int := 0
  srid : Option Int := none
  cs : List GSeq := []
  polys : List (GSeq × List GSeq) := []
deriving Repr

namespace GeosWriter

/-- the error of geos_writer.rs:47, 64, 80, 107 -/
def missing : Err := .geometry "CoordSeq missing"

/-- `self.geom = g; if let Some(srid) = self.srid { self.geom.set_srid(srid); }` (e.g. geos_writer.rs:66-69) -/
def setGeom (w : GeosWriter) (g : GeosGeom) : GeosWriter := { w with geom := g, geomSrid := w.srid.getD 0 }

/-- `add_coord_seq` (geos_writer.rs:20-23): a sequence of `len as u32` positions -/
def addSeq (lib : GeosLib) (w : GeosWriter) (len : Nat) : GeosWriter :=
  { w with cs := w.cs ++ [List.replicate (len % 2 ^ 32) lib.fresh] }

/-- `xy` (geos_writer.rs:45-54) -/
def xy (lib : GeosLib) (w : GeosWriter) (x y : F64) (idx : Nat) : Except Err GeosWriter :=
  match w.cs.getLast? with
  | none => .error missing
  | some seq =>
    if idx < seq.length then .ok { w with cs := w.cs.dropLast ++ [seq.set idx { seq[idx]! with x := x, y := y }] }
    else .error lib.outOfRange

/-- the `*_begin` methods (geos_writer.rs:55-59, 71-74, 96-101, 115-118, 131-134, 158-161); other kinds are left to the
default methods, which do nothing (geometry_processor.rs:95-435) -/
def gbegin (lib : GeosLib) (w : GeosWriter) (k : GKind) (tagged : Bool) (size : Nat) : GeosWriter :=
  match k with
  | .point => addSeq lib { w with cs := [] } 1
  | .multiPoint => addSeq lib { w with cs := [] } size
  | .lineString => if tagged then addSeq lib { w with cs := [] } size else addSeq lib w size
  | .multiLineString => { w with cs := [] }
  | .polygon => { w with cs := [] }
  | .multiPolygon => { w with polys := [] }
  | _ => w

/-- `point_end` (geos_writer.rs:60-70).  The sequence always has one position, which GEOS accepts. -/
def pointEnd (w : GeosWriter) : Except Err GeosWriter :=
  match w.cs.getLast? with
  | none => .error missing
  | some seq => .ok (setGeom { w with cs := w.cs.dropLast } (.point seq))

/-- `multipoint_end` (geos_writer.rs:75-95): one point per position -/
def multipointEnd (w : GeosWriter) : Except Err GeosWriter :=
  match w.cs.getLast? with
  | none => .error missing
  | some seq => .ok (setGeom { w with cs := w.cs.dropLast } (.multiPoint (seq.map fun p => [{ x := p.x, y := p.y }])))

/-- `linestring_end` (geos_writer.rs:102-114) -/
def linestringEnd (lib : GeosLib) (w : GeosWriter) (tagged : Bool) : Except Err GeosWriter :=
  if tagged then
    match w.cs.getLast? with
    | none => .error missing
    | some seq => if lib.lineOk seq then .ok (setGeom { w with cs := w.cs.dropLast } (.lineString seq)) else .error lib.err
  else .ok w

/-- `multilinestring_end` (geos_writer.rs:119-130) -/
def multilinestringEnd (lib : GeosLib) (w : GeosWriter) : Except Err GeosWriter :=
  if w.cs.all lib.lineOk then .ok (setGeom { w with cs := [] } (.multiLineString w.cs)) else .error lib.err

/-- `polygon_end` (geos_writer.rs:135-157) -/
def polygonEnd (lib : GeosLib) (w : GeosWriter) (tagged : Bool) : Except Err GeosWriter :=
  match w.cs with
  | [] => .error missing
  | ext :: ints =>
    if lib.ringOk ext && ints.all lib.ringOk && lib.polyOk ext ints then
      if tagged then .ok (setGeom { w with cs := [] } (.polygon ext ints))
      else .ok { w with cs := [], polys := w.polys ++ [(ext, ints)] }
    else .error lib.err

/-- `multipolygon_end` (geos_writer.rs:162-168) -/
def multipolygonEnd (w : GeosWriter) : GeosWriter := setGeom { w with polys := [] } (.multiPolygon w.polys)

/-- the `*_end` methods (geos_writer.rs:60-168) -/
def gend (lib : GeosLib) (w : GeosWriter) (k : GKind) (tagged : Bool) : Except Err GeosWriter :=
  match k with
  | .point => w.pointEnd
  | .multiPoint => w.multipointEnd
  | .lineString => w.linestringEnd lib tagged
  | .multiLineString => w.multilinestringEnd lib
  | .polygon => w.polygonEnd lib tagged
  | .multiPolygon => .ok w.multipolygonEnd
  | _ => .ok w

/-- `impl GeomProcessor for GeosWriter` (geos_writer.rs:40-169).  `coordinate` and `empty_point` are the default methods
(geometry_processor.rs:125-140). -/
def step (lib : GeosLib) (w : GeosWriter) : Ev → Except Err GeosWriter
  | .srid s => .ok { w with srid := s }
  | .xy x y idx => w.xy lib x y idx
  | .coord .. => .ok w
  | .emptyPoint _ => .error (.geometry "The input was an empty Point, but the output doesn't support empty Points")
  | .gbegin k tagged size _ => .ok (w.gbegin lib k tagged size)
  | .gend k tagged _ => w.gend lib k tagged

/-- the writer as a geometry processor; `dimensions()` is the default (two dimensions), so it answers no to both
`multi_dim()` and `dimensions().z` (`impl GeomProcessor for GeosWriter`, geos_writer.rs:40-168) -/
def proc (lib : GeosLib) : Prog.Proc GeosWriter := { step := step lib, multi := fun _ => false }

end GeosWriter

/-- `ToGeos::to_geos` (geos/mod.rs:20-26) and `FromWkb for geos::Geometry` (geos/mod.rs:36-42): the geometry and its SRID -/
def toGeos (lib : GeosLib) (src : Prog Unit) (bs : List Byte) : Except Err (GeosGeom × Int) :=
  match Prog.interp (GeosWriter.proc lib) src {} bs with
  | (w, _, .ok _) => .ok (w.geom, w.geomSrid)
  | (_, _, .error e) => .error e

/-- `FromWkb for geos::Geometry` (geos/mod.rs:36-42) -/
def geosFromWkb (lib : GeosLib) (fo : FOps) (d : WkbDialect) (bs : List Byte) : Except Err (GeosGeom × Int) :=
  toGeos lib (processWkbTypeGeom fo d) bs

/-- `to_geos` of a GEOS geometry; the writer has two dimensions (geos/mod.rs:19-25) -/
def geosToGeos (lib : GeosLib) (g : GeosGeom) : Except Err (GeosGeom × Int) := toGeos lib (geosProcessGeom g) []

end Geozero
