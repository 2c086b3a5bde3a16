import Verif.Model.Prog
import Verif.Model.WkbReader

/-
Models /repo/geozero/src/geo_types/{geo_types_writer.rs, geo_types_reader.rs, mod.rs} and the size check
of /repo/geozero/src/geometry_processor.rs, together with the parts of the external crate `geo-types`
0.7 they use (constructors, `Polygon::new`, `Rect::to_polygon`, `Triangle::to_polygon`).
-/

namespace Geozero

open Prog

/-- IEEE equality of two `f64` patterns: no NaN, and equal patterns or both zeros.
(used by geo-types for `Polygon::new`, called in geo_types_writer.rs:143-148) -/
def F64.feq (a b : F64) : Bool :=
  !a.isNaN && !b.isNaN && (a == b || (a.toNat % 2 ^ 63 == 0 && b.toNat % 2 ^ 63 == 0))

/-- `geo_types::Coord<f64>` (external; geo_types_reader.rs, geo_types_writer.rs:59) -/
structure XY where
  x : F64
  y : F64
deriving DecidableEq, Repr, Inhabited

/-- `Coord: PartialEq` (derived) (used by geo-types for `Polygon::new`, called in geo_types_writer.rs:143-148) -/
def XY.feq (a b : XY) : Bool := a.x.feq b.x && a.y.feq b.y

/-- `geo_types::Polygon<f64>` (external; geo_types_reader.rs, geo_types_writer.rs:143-148) -/
structure GPoly where
  exterior : List XY
  interiors : List (List XY)
deriving DecidableEq, Repr, Inhabited

/-- `geo_types::Geometry<f64>` (external; geo_types_reader.rs:38-65, geo_types_writer.rs:31-50) -/
inductive GeoGeom
  | point (p : XY)
  | line (a b : XY)
  | lineString (cs : List XY)
  | polygon (p : GPoly)
  | multiPoint (ps : List XY)
  | multiLineString (ls : List (List XY))
  | multiPolygon (ps : List GPoly)
  | collection (gs : List GeoGeom)
  | rect (min max : XY)
  | triangle (a b c : XY)
deriving Repr, Inhabited

/-- `LineString::close` of geo-types: append the first coordinate unless the last equals it (an empty
line string counts as closed) (called by `Polygon::new`, geo_types_writer.rs:143-148) -/
def closeRing (cs : List XY) : List XY :=
  match cs with
  | [] => []
  | c :: _ => if (cs.getLast?.getD c).feq c then cs else cs ++ [c]

/-- `Polygon::new` of geo-types closes every ring. (geo_types_writer.rs:143-148) -/
def GPoly.new (ext : List XY) (ints : List (List XY)) : GPoly :=
  { exterior := closeRing ext, interiors := ints.map closeRing }

/-- `Rect::to_polygon` of geo-types (0.7.19 according to Cargo.lock; the crate is not in /repo): counter-clockwise from the
lower right corner.  Older versions go clockwise from the lower left corner; the proofs use nothing of the order but that
`rectRing` of the specification has the same. (geo_types_reader.rs:64-65) -/
def rectPolygon (mn mx : XY) : GPoly :=
  GPoly.new [⟨mx.x, mn.y⟩, ⟨mx.x, mx.y⟩, ⟨mn.x, mx.y⟩, ⟨mn.x, mn.y⟩, ⟨mx.x, mn.y⟩] []

/-- `Triangle::to_polygon` of geo-types (geo_types_reader.rs:64-65) -/
def trianglePolygon (a b c : XY) : GPoly := GPoly.new [a, b, c, a] []

/-! ### reader -/

/-- `for (i, x) in xs.iter().enumerate() { body(i, x)? }`, counting from `i` (geo_types_reader.rs:38-59, 89, 110) -/
def forIdx {α : Type} (body : Nat → α → Prog Unit) : Nat → List α → Prog Unit
  | _, [] => .ret ()
  | i, x :: xs => Prog.bind (body i x) fun _ => forIdx body (i + 1) xs

/-- the two ways of passing a two-dimensional coordinate (geo_types_reader.rs:74, 87) -/
def xyEv (multi : Bool) (c : XY) (idx : Nat) : Ev :=
  if multi then .coord c.x c.y none none none none idx else .xy c.x c.y idx

/-- `process_coord` (geo_types_reader.rs:69-79) -/
def geoProcessCoord (c : XY) (idx : Nat) : Prog Unit := do
  let multi ← multiDim
  emitEv (xyEv multi c idx)

/-- `process_linestring` (geo_types_reader.rs:81-97) -/
def geoProcessLinestring (cs : List XY) (tagged : Bool) (idx : Nat) : Prog Unit := do
  let multi ← multiDim
  emitEv (.gbegin .lineString tagged cs.length idx)
  forIdx (fun i c => emitEv (xyEv multi c i)) 0 cs
  emitEv (.gend .lineString tagged idx)

/-- `process_polygon` (geo_types_reader.rs:99-114) -/
def geoProcessPolygon (p : GPoly) (tagged : Bool) (idx : Nat) : Prog Unit := do
  emitEv (.gbegin .polygon tagged (p.interiors.length + 1) idx)
  geoProcessLinestring p.exterior false 0
  forIdx (fun i ring => geoProcessLinestring ring false (i + 1)) 0 p.interiors
  emitEv (.gend .polygon tagged idx)

mutual
/-- `process_geom_n` (geo_types_reader.rs:17-67) -/
def geoProcessGeomN (idx : Nat) : GeoGeom → Prog Unit
  | .point p => do
    emitEv (.gbegin .point true 1 idx)
    geoProcessCoord p 0
    emitEv (.gend .point true idx)
  | .line a b => do
    emitEv (.gbegin .lineString true 2 idx)
    geoProcessCoord a 0
    geoProcessCoord b 1
    emitEv (.gend .lineString true idx)
  | .lineString cs => geoProcessLinestring cs true idx
  | .polygon p => geoProcessPolygon p true idx
  | .multiPoint ps => do
    emitEv (.gbegin .multiPoint true ps.length idx)
    forIdx (fun i p => geoProcessCoord p i) 0 ps
    emitEv (.gend .multiPoint true idx)
  | .multiLineString ls => do
    emitEv (.gbegin .multiLineString true ls.length idx)
    forIdx (fun i l => geoProcessLinestring l false i) 0 ls
    emitEv (.gend .multiLineString true idx)
  | .multiPolygon ps => do
    emitEv (.gbegin .multiPolygon true ps.length idx)
    forIdx (fun i p => geoProcessPolygon p false i) 0 ps
    emitEv (.gend .multiPolygon true idx)
  | .collection gs => do
    emitEv (.gbegin .collection true gs.length idx)
    geoProcessMembers 0 gs
    emitEv (.gend .collection true idx)
  | .rect mn mx => geoProcessPolygon (rectPolygon mn mx) true idx
  | .triangle a b c => geoProcessPolygon (trianglePolygon a b c) true idx

/-- the loop over the members of a collection (geo_types_reader.rs:59-61) -/
def geoProcessMembers (i : Nat) : List GeoGeom → Prog Unit
  | [] => .ret ()
  | g :: gs => Prog.bind (geoProcessGeomN i g) fun _ => geoProcessMembers (i + 1) gs
end

/-- `process_geom` (geo_types_reader.rs:13-15) -/
def geoProcessGeom (g : GeoGeom) : Prog Unit := geoProcessGeomN 0 g

/-! ### size check -/

/-- `usize::MAX` on 64-bit targets (used by `bounded_vec`, geometry_processor.rs:12-28) -/
def usizeMax : Nat := 2 ^ 64 - 1

/-- `usize::saturating_mul` (used by `bounded_vec`, geometry_processor.rs:12-28) -/
def saturatingMul (a b : Nat) : Nat := min (a * b) usizeMax

/-- `MAX_PREALLOC_BYTES` (geometry_processor.rs:7) -/
def maxPreallocBytes : Nat := 16 * 1024 * 1024

/-- `validate_capacity::<T>` with `size_of::<T>() = size` (geometry_processor.rs:21-28) -/
def validateCapacity (size capacity : Nat) : Except Err Unit :=
  if saturatingMul capacity size > maxPreallocBytes then .error (.geometry "preallocation budget") else .ok ()

/-- `bounded_vec::<T>` (geometry_processor.rs:12-15): the (empty) vector and the number of bytes reserved -/
def boundedVec (α : Type) (size capacity : Nat) : Except Err (List α × Nat) :=
  match validateCapacity size capacity with
  | .ok () => .ok ([], capacity * size)
  | .error e => .error e

/-- `size_of` of the four element types on a given target (used by `bounded_vec`, geometry_processor.rs:12-28) -/
structure ElemSizes where
  coord : Nat
  line : Nat
  poly : Nat
  geom : Nat

/-! ### writer -/

/-- `GeoWriter` (geo_types_writer.rs:14-24); the last collection of the stack is the head of the list. -/
structure GeoWriter where
  geoms : List GeoGeom := []
  collections : List (List GeoGeom) := []
  polygons : Option (List GPoly) := none
  lineStrings : Option (List (List XY)) := none
  coords : Option (List XY) := none
deriving Repr, Inhabited

namespace GeoWriter

/-- `take_geometry` (geo_types_writer.rs:31-40) -/
def takeGeometry (w : GeoWriter) : Option GeoGeom × GeoWriter :=
  match w.geoms with
  | [] => (none, w)
  | [g] => (some g, { w with geoms := [] })
  | gs => (some (.collection gs), { w with geoms := [] })

/-- `finish_geometry` (geo_types_writer.rs:46-55) -/
def finish (w : GeoWriter) (g : GeoGeom) : GeoWriter :=
  match w.collections with
  | c :: cs => { w with collections := (c ++ [g]) :: cs }
  | [] => { w with geoms := w.geoms ++ [g] }

/-- `debug_assert!(c)` in a debug build; the model always has it on, which only adds panics
(geo_types_writer.rs:69, 79, 84) -/
def debugAssert (c : Bool) (k : Except Err GeoWriter) : Except Err GeoWriter :=
  if c then k else .error (.panic "debug_assert")

/-- the begin methods (geo_types_writer.rs:68-72, 83-87, 97-101, 119-123, 132-136, 161-165, 174-177);
the kinds not overridden do nothing -/
def gbegin (sz : ElemSizes) (w : GeoWriter) (k : GKind) (size : Nat) : Except Err GeoWriter :=
  match k with
  | .point => debugAssert w.coords.isNone (.ok { w with coords := some [] })
  | .multiPoint => debugAssert w.coords.isNone (
      match boundedVec XY sz.coord size with
      | .ok (v, _) => .ok { w with coords := some v }
      | .error e => .error e)
  | .lineString => debugAssert w.coords.isNone (
      match boundedVec XY sz.coord size with
      | .ok (v, _) => .ok { w with coords := some v }
      | .error e => .error e)
  | .multiLineString => debugAssert w.lineStrings.isNone (
      match boundedVec (List XY) sz.line size with
      | .ok (v, _) => .ok { w with lineStrings := some v }
      | .error e => .error e)
  | .polygon => debugAssert w.lineStrings.isNone (
      match boundedVec (List XY) sz.line size with
      | .ok (v, _) => .ok { w with lineStrings := some v }
      | .error e => .error e)
  | .multiPolygon => debugAssert w.polygons.isNone (
      match boundedVec GPoly sz.poly size with
      | .ok (v, _) => .ok { w with polygons := some v }
      | .error e => .error e)
  | .collection =>
      match boundedVec GeoGeom sz.geom size with
      | .ok (v, _) => .ok { w with collections := v :: w.collections }
      | .error e => .error e
  | _ => .ok w

/-- `polygon_end`'s construction (geo_types_writer.rs:143-148) -/
def makePolygon : List (List XY) → GPoly
  | [] => GPoly.new [] []
  | ext :: ints => GPoly.new ext ints

/-- the end methods (geo_types_writer.rs:74-81, 89-95, 103-117, 125-130, 138-159, 167-172, 179-185) -/
def gend (w : GeoWriter) (k : GKind) (tagged : Bool) : Except Err GeoWriter :=
  match k with
  | .point =>
    match w.coords with
    | none => .error (.geometry "No coords for Point")
    | some cs =>
      debugAssert (cs.length == 1) (
        match cs with
        | [] => .error (.panic "index out of bounds")
        | c :: _ => .ok ({ w with coords := none }.finish (.point c)))
  | .multiPoint =>
    match w.coords with
    | none => .error (.geometry "No coords for MultiPoint")
    | some cs => .ok ({ w with coords := none }.finish (.multiPoint cs))
  | .lineString =>
    match w.coords with
    | none => .error (.geometry "No coords for LineString")
    | some cs =>
      if tagged then .ok ({ w with coords := none }.finish (.lineString cs))
      else
        match w.lineStrings with
        | none => .error (.geometry "Missing container for LineString")
        | some ls => .ok { w with coords := none, lineStrings := some (ls ++ [cs]) }
  | .multiLineString =>
    match w.lineStrings with
    | none => .error (.geometry "No LineStrings for MultiLineString")
    | some ls => .ok ({ w with lineStrings := none }.finish (.multiLineString ls))
  | .polygon =>
    match w.lineStrings with
    | none => .error (.geometry "Missing LineStrings for Polygon")
    | some ls =>
      if tagged then .ok ({ w with lineStrings := none }.finish (.polygon (makePolygon ls)))
      else
        match w.polygons with
        | none => .error (.geometry "Missing container for Polygon")
        | some ps => .ok { w with lineStrings := none, polygons := some (ps ++ [makePolygon ls]) }
  | .multiPolygon =>
    match w.polygons with
    | none => .error (.geometry "Missing polygons for MultiPolygon")
    | some ps => .ok ({ w with polygons := none }.finish (.multiPolygon ps))
  | .collection =>
    match w.collections with
    | [] => .error (.geometry "Unexpected geometry type")
    | c :: cs => .ok ({ w with collections := cs }.finish (.collection c))
  | _ => .ok w

/-- `GeomProcessor for GeoWriter` (geo_types_writer.rs:58-186) with the trait's default methods
(geometry_processor.rs:94-435): `coordinate` and `srid` do nothing, `empty_point` is an error. -/
def step (sz : ElemSizes) (w : GeoWriter) : Ev → Except Err GeoWriter
  | .srid _ => .ok w
  | .coord .. => .ok w
  | .emptyPoint _ => .error (.geometry "empty Point")
  | .xy x y _ =>
    match w.coords with
    | none => .error (.geometry "Not ready for coords")
    | some cs => .ok { w with coords := some (cs ++ [⟨x, y⟩]) }
  | .gbegin k _ size _ => w.gbegin sz k size
  | .gend k tagged _ => w.gend k tagged

/-- as a processor; `multi_dim()` is false because `dimensions()` has its default
(`impl GeomProcessor for GeoWriter`, geo_types_writer.rs:58-186) -/
def proc (sz : ElemSizes) : Proc GeoWriter := { step := step sz, multi := fun _ => false }

end GeoWriter

/-- `from_wkb` for `geo_types::Geometry` (geo_types/mod.rs:52-59) -/
def geoFromWkb (fo : FOps) (sz : ElemSizes) (d : WkbDialect) (bs : List Byte) : Except Err GeoGeom :=
  match interp (GeoWriter.proc sz) (processWkbTypeGeom fo d) {} bs with
  | (w, _, .ok _) =>
    match w.takeGeometry.1 with
    | some g => .ok g
    | none => .error (.geometry "Missing Geometry")
  | (_, _, .error e) => .error e

/-- `to_geo` (geo_types/mod.rs:22-29) on a source whose `process_geom` behaves like `src` -/
def toGeo (sz : ElemSizes) (src : Prog Unit) (bs : List Byte) : Except Err GeoGeom :=
  match interp (GeoWriter.proc sz) src {} bs with
  | (w, _, .ok _) =>
    match w.takeGeometry.1 with
    | some g => .ok g
    | none => .error (.geometry "Missing Geometry")
  | (_, _, .error e) => .error e

end Geozero
