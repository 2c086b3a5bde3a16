import Verif.Model.Prog
import Verif.Model.GeoTypes

/-
Models /repo/geozero/src/wkt/wkt_writer.rs, wkt_reader.rs and mod.rs.

Text is a list of characters (the crate writes UTF-8 bytes of it; writing to a `Vec<u8>` does not fail).
How `{x}` formats an `f64` is a parameter `num` of the model.
-/

namespace Geozero

/-- text written by the crate (e.g. wkt_writer.rs:49-132) -/
abbrev Text := List Char

/-- a literal (e.g. wkt_writer.rs:49-132) -/
def txt (s : String) : Text := s.toList

/-- `WktDialect` (wkt/mod.rs:126-132) -/
inductive WktDialect
  | wkt | ewkt
deriving DecidableEq, Repr

/-- `WktWriter` (wkt_writer.rs:9-17); the top of the stack is the head of `sizes` -/
structure WktWriter where
  dims : Dims
  srid : Option Int
  dialect : WktDialect
  firstHeader : Bool := true
  sizes : List Nat := []
  out : Text := []
deriving DecidableEq, Repr

namespace WktWriter

/-- `with_opts` (wkt_writer.rs:28-42) -/
def withOpts (dialect : WktDialect) (dims : Dims) (srid : Option Int) : WktWriter := { dims, srid, dialect }

/-- `self.out.write_all` (wkt_writer.rs:49-132) -/
def put (w : WktWriter) (t : Text) : WktWriter := { w with out := w.out ++ t }

/-- `header` (wkt_writer.rs:44-53), called with `self.srid` -/
def header (w : WktWriter) : WktWriter :=
  if w.firstHeader && w.dialect == .ewkt then
    match w.srid with
    | none => { w with firstHeader := false }
    | some v =>
      if v = 0 then { w with firstHeader := false }
      else { w with firstHeader := false, out := w.out ++ (txt "SRID=" ++ (toString v).toList ++ txt ";") }
  else w

/-- `comma` (wkt_writer.rs:54-59) -/
def comma (w : WktWriter) (idx : Nat) : WktWriter := if idx > 0 then w.put (txt ",") else w

/-- `geom_begin` (wkt_writer.rs:60-76) -/
def geomBegin (w : WktWriter) (tag : Text) (tagged : Bool) (size idx : Nat) : WktWriter :=
  let w := w.header
  let w := w.comma idx
  let w := if tagged then w.put tag else w
  let w := { w with sizes := size :: w.sizes }
  if size = 0 then
    let w := if tagged then w.put (txt " ") else w
    w.put (txt "EMPTY")
  else w.put (txt "(")

/-- `geom_end` (wkt_writer.rs:77-86) -/
def geomEnd (w : WktWriter) : Except Err WktWriter :=
  match w.sizes with
  | n :: ns => .ok (if n > 0 then { w with sizes := ns }.put (txt ")") else { w with sizes := ns })
  | [] => .error (.panic "ended geometry that didn't start")

/-- the tag each begin method passes (wkt_writer.rs:142-231) -/
def tag : GKind → Text
  | .point => txt "POINT"
  | .multiPoint => txt "MULTIPOINT"
  | .lineString => txt "LINESTRING"
  | .multiLineString => txt "MULTILINESTRING"
  | .polygon => txt "POLYGON"
  | .multiPolygon => txt "MULTIPOLYGON"
  | .collection => txt "GEOMETRYCOLLECTION"
  | .circularString => txt "CIRCULARSTRING"
  | .compoundCurve => txt "COMPOUNDCURVE"
  | .curvePolygon => txt "CURVEPOLYGON"
  | .multiCurve => txt "MULTICURVE"
  | .multiSurface => txt "MULTISURFACE"
  | .triangle => txt "TRIANGLE"
  | .polyhedralSurface => txt "POLYHEDRALSURFACE"
  | .tin => txt "TIN"

/-- `xy` (wkt_writer.rs:99-107) -/
def xy (num : F64 → Text) (w : WktWriter) (x y : F64) (idx : Nat) : WktWriter :=
  let w := w.comma idx
  if x.isNaN && y.isNaN then w.put (txt "EMPTY") else w.put (num x ++ txt " " ++ num y)

/-- ` {v}` when present (wkt_writer.rs:128-133) -/
def optNum (num : F64 → Text) : Option F64 → Text
  | some v => txt " " ++ num v
  | none => []

/-- `coordinate` (wkt_writer.rs:109-136) -/
def coordinate (num : F64 → Text) (w : WktWriter) (x y : F64) (z m : Option F64) (idx : Nat) : WktWriter :=
  let w := w.comma idx
  if x.isNaN && y.isNaN && (z.map F64.isNaN).getD true && (m.map F64.isNaN).getD true then w.put (txt "EMPTY")
  else w.put (num x ++ txt " " ++ num y ++ optNum num z ++ optNum num m)

/-- `GeomProcessor for WktWriter` (wkt_writer.rs:89-232).  For kinds whose begin method has no `tagged`
parameter, the crate passes `true`. -/
def step (num : F64 → Text) (w : WktWriter) : Ev → Except Err WktWriter
  | .srid s => .ok { w with srid := w.srid.or s }
  | .xy x y idx => .ok (xy num w x y idx)
  | .coord x y z m _ _ idx => .ok (coordinate num w x y z m idx)
  | .emptyPoint idx => (w.geomBegin (txt "POINT") true 0 idx).geomEnd
  | .gbegin k tagged size idx =>
    match k with
    | .point => .ok (w.geomBegin (tag k) true 1 idx)
    | .lineString | .polygon | .triangle => .ok (w.geomBegin (tag k) tagged size idx)
    | k => .ok (w.geomBegin (tag k) true size idx)
  | .gend _ _ _ => w.geomEnd

/-- as a processor: `dimensions()` is `dims` (wkt_writer.rs:90-92), `multi_dim()` its default -/
def proc (num : F64 → Text) : Prog.Proc WktWriter := { step := step num, multi := fun w => w.dims.multi }

end WktWriter

/-- `to_wkt_with_opts` (wkt/mod.rs:45-57) and `from_wkb` for `Wkt`/`Ewkt` (wkt/mod.rs:71-94): run a source
into a fresh writer -/
def toWktWithOpts (num : F64 → Text) (src : Prog Unit) (dialect : WktDialect) (dims : Dims) (srid : Option Int)
    (bs : List Byte) : Except Err Text :=
  match Prog.interp (WktWriter.proc num) src (WktWriter.withOpts dialect dims srid) bs with
  | (w, _, .ok _) => .ok w.out
  | (_, _, .error e) => .error e

/-! ### reader -/

/-- `wkt::Wkt<f64>` of the external crate `wkt` (its parser is not modelled) (wkt_reader.rs:17-96) -/
inductive WktGeom
  | point (c : Option Coord)
  | lineString (cs : List Coord)
  | polygon (rings : List (List Coord))
  | multiPoint (ps : List (Option Coord))
  | multiLineString (ls : List (List Coord))
  | multiPolygon (ps : List (List (List Coord)))
  | collection (gs : List WktGeom)
deriving Repr, Inhabited

open Prog

/-- `process_coord` (wkt_reader.rs:152-163) -/
def wktProcessCoord (multi : Bool) (idx : Nat) (c : Coord) : Prog Unit :=
  emitEv (if multi then .coord c.x c.y c.z c.m none none idx else .xy c.x c.y idx)

/-- body of the loop over the members of a multi point: `if let Some(coord) = ..` (wkt_reader.rs:115-123) -/
def wktProcessMember (multi : Bool) (i : Nat) : Option Coord → Prog Unit
  | some c => wktProcessCoord multi i c
  | none => pure ()

/-- `process_linestring` (wkt_reader.rs:165-177) -/
def wktProcessLinestring (tagged : Bool) (idx : Nat) (cs : List Coord) : Prog Unit := do
  emitEv (.gbegin .lineString tagged cs.length idx)
  let multi ← multiDim
  forIdx (fun i c => wktProcessCoord multi i c) 0 cs
  emitEv (.gend .lineString tagged idx)

/-- `process_polygon` (wkt_reader.rs:179-190) -/
def wktProcessPolygon (tagged : Bool) (idx : Nat) (rings : List (List Coord)) : Prog Unit := do
  emitEv (.gbegin .polygon tagged rings.length idx)
  forIdx (fun i r => wktProcessLinestring false i r) 0 rings
  emitEv (.gend .polygon tagged idx)

mutual
/-- `process_wkt_geom_n` (wkt_reader.rs:96-150) -/
def wktProcessGeomN (idx : Nat) : WktGeom → Prog Unit
  | .point c => do
    let multi ← multiDim
    match c with
    | some c => do
      emitEv (.gbegin .point true 1 idx)
      wktProcessCoord multi 0 c
      emitEv (.gend .point true idx)
    | none => emitEv (.emptyPoint idx)
  | .multiPoint ps => do
    let _ ← multiDim
    emitEv (.gbegin .multiPoint true ps.length idx)
    let multi ← multiDim
    forIdx (wktProcessMember multi) 0 ps
    emitEv (.gend .multiPoint true idx)
  | .lineString cs => do
    let _ ← multiDim
    wktProcessLinestring true idx cs
  | .multiLineString ls => do
    let _ ← multiDim
    emitEv (.gbegin .multiLineString true ls.length idx)
    forIdx (fun i l => wktProcessLinestring false i l) 0 ls
    emitEv (.gend .multiLineString true idx)
  | .polygon rings => do
    let _ ← multiDim
    wktProcessPolygon true idx rings
  | .multiPolygon ps => do
    let _ ← multiDim
    emitEv (.gbegin .multiPolygon true ps.length idx)
    forIdx (fun i p => wktProcessPolygon false i p) 0 ps
    emitEv (.gend .multiPolygon true idx)
  | .collection gs => do
    let _ ← multiDim
    emitEv (.gbegin .collection true gs.length idx)
    wktProcessMembers 0 gs
    emitEv (.gend .collection true idx)

/-- the loop over the members of a collection (wkt_reader.rs:144-146) -/
def wktProcessMembers (i : Nat) : List WktGeom → Prog Unit
  | [] => .ret ()
  | g :: gs => Prog.bind (wktProcessGeomN i g) fun _ => wktProcessMembers (i + 1) gs
end

/-- `process_wkt_geom` (wkt_reader.rs:92-94) -/
def wktProcessGeom (g : WktGeom) : Prog Unit := wktProcessGeomN 0 g

/-- `process_geom` of `Wkt`, `WktString`, `WktStr` (wkt_reader.rs:13-20, 28-35, 42-48), `process` of `WktStr` (wkt_reader.rs:51-57)
and `read_wkt` (wkt_reader.rs:82-89): parse with the external crate `wkt` (`parse`; it also stands for the check that the text
is UTF-8), then process -/
def processWktText (parse : Text → Except Err WktGeom) (text : Text) : Prog Unit :=
  match parse text with
  | .error e => .fail e
  | .ok g => wktProcessGeom g

end Geozero
