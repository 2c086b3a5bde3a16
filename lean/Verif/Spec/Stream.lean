import Verif.Spec.Db
import Verif.Model.WkbReader

/-
Geometries one after the other in one stream of bytes (C83).
-/

namespace Geozero
open Prog

/-- a geometry in a stream: its dialect, the dimensions of its coordinates, its SRID and its bytes -/
structure StreamItem where
  dialect : WkbDialect
  z : Bool
  m : Bool
  srid : Option Int
  geom : Geom
  bytes : List Byte

namespace StreamItem

/-- the bytes are a blob of the dialect that holds the geometry, nested as deep as readers allow -/
def Sound (i : StreamItem) : Prop := Spec.Holds i.dialect { z := i.z, m := i.m } i.srid i.geom i.bytes ∧ i.geom.levels ≤ 128

/-- the calls for one geometry -/
def calls (multi : Bool) (i : StreamItem) : List Ev := .srid i.srid :: i.geom.events multi 0

end StreamItem

/-- `process_wkb_type_geom(&mut stream, &mut processor, dialect)` (wkb_reader.rs:153-165) once for each dialect, on the same stream -/
def readEach (fo : FOps) : List WkbDialect → Prog Unit
  | [] => pure ()
  | d :: ds => do
    processWkbTypeGeom fo d
    readEach fo ds

/-- the same, with one byte skipped after each geometry -/
def readEachSkipping (fo : FOps) : List WkbDialect → Prog Unit
  | [] => pure ()
  | d :: ds => do
    processWkbTypeGeom fo d
    let _ ← readByte
    readEachSkipping fo ds

end Geozero
