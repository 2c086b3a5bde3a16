import Verif.Model.GeoTypes
import Verif.Model.Feature
import Verif.Model.WkbReader

/-
Models /repo/geozero/src/mvt/{mvt_writer.rs, mvt_reader.rs, mod.rs}: vector tile features and layers, together with
the parts of the foreign crates `geo-types` (`Polygon::new` over i32), `fast-mvt` (the record types) and `base64`
(`BASE64_STANDARD.encode`) they use, and of Rust's `f64 as i32` and `f64::from(i32)`.  The byte encoding of tiles is
entirely in `fast-mvt` and is not modelled.
-/

namespace Geozero

open Prog

/-! ### conversions between `f64` and `i32` -/

/-- biased exponent of a bit pattern (for `as i32`, mvt_writer.rs:160-161, 169-170) -/
def F64.bexp (x : F64) : Nat := x.toNat / 2 ^ 52 % 2 ^ 11

/-- the 52 stored bits of the significand (for `as i32`, mvt_writer.rs:160-161, 169-170) -/
def F64.frac (x : F64) : Nat := x.toNat % 2 ^ 52

/-- the significand with its implicit bit (for `as i32`, mvt_writer.rs:160-161, 169-170) -/
def F64.sig (x : F64) : Nat := if x.bexp = 0 then x.frac else 2 ^ 52 + x.frac

/-- sign bit (for `as i32`, mvt_writer.rs:160-161, 169-170) -/
def F64.neg (x : F64) : Bool := decide (2 ^ 63 ≤ x.toNat)

/-- the integer part of the magnitude of a finite number (for `as i32`, mvt_writer.rs:160-161, 169-170) -/
def F64.truncAbs (x : F64) : Nat :=
  if 1075 ≤ x.bexp then x.sig * 2 ^ (x.bexp - 1075) else x.sig / 2 ^ (1075 - max x.bexp 1)

/-- saturation to the range of `i32` (for `as i32`, mvt_writer.rs:160-161, 169-170) -/
def clampI32 (n : Int) : Int32 := Int32.ofInt (max (-2 ^ 31) (min n (2 ^ 31 - 1)))

/-- `x as i32` of Rust: NaN is 0, otherwise truncation towards zero, saturating (used at mvt_writer.rs:160-171) -/
def F64.toI32 (x : F64) : Int32 :=
  if x.isNaN then 0
  else if x.bexp = 2047 then (if x.neg then clampI32 (-2 ^ 31) else clampI32 (2 ^ 31 - 1))
  else clampI32 (if x.neg then -(x.truncAbs : Int) else x.truncAbs)

/-- `f64::from(v)` of Rust for an `i32` (used at mvt_reader.rs:115) -/
def F64.ofI32 (v : Int32) : F64 :=
  let a := v.toInt.natAbs
  if a = 0 then 0#64
  else BitVec.ofNat 64 ((if v.toInt < 0 then 2 ^ 63 else 0) + (1023 + a.log2) * 2 ^ 52
    + (a * 2 ^ (52 - a.log2) - 2 ^ 52))

/-! ### base64 -/

/-- the standard base64 alphabet (external; mvt_writer.rs:379-382) -/
def b64Alphabet : Text := txt "ABCDEFGHIJKLMNOPQRSTUVWXYZabcdefghijklmnopqrstuvwxyz0123456789+/"

/-- the character of a six bit value (external; mvt_writer.rs:379-382) -/
def b64Char (n : Nat) : Char := b64Alphabet[n]?.getD '='

/-- `BASE64_STANDARD.encode` of the crate `base64` (used at mvt_writer.rs:399) -/
def base64 : List Byte → Text
  | [] => []
  | [a] => [b64Char (a.toNat / 4), b64Char (a.toNat % 4 * 16), '=', '=']
  | [a, b] => [b64Char (a.toNat / 4), b64Char (a.toNat % 4 * 16 + b.toNat / 16), b64Char (b.toNat % 16 * 4), '=']
  | a :: b :: c :: rest =>
    b64Char (a.toNat / 4) :: b64Char (a.toNat % 4 * 16 + b.toNat / 16)
      :: b64Char (b.toNat % 16 * 4 + c.toNat / 64) :: b64Char (c.toNat % 64) :: base64 rest

/-! ### tile records -/

/-- `geo_types::Coord<i32>` (external; mvt_writer.rs:158-170) -/
structure IXY where
  x : Int32
  y : Int32
deriving DecidableEq, Repr, Inhabited

/-- `geo_types::Polygon<i32>` (external; mvt_writer.rs:68-83) -/
structure IPoly where
  exterior : List IXY
  interiors : List (List IXY)
deriving DecidableEq, Repr, Inhabited

/-- `geo_types::Geometry<i32>`, the geometry of an `MvtFeature` (external; mvt_writer.rs:175-190, mvt_reader.rs:3-16) -/
inductive MvtGeom
  | point (p : IXY)
  | line (a b : IXY)
  | lineString (cs : List IXY)
  | polygon (p : IPoly)
  | multiPoint (ps : List IXY)
  | multiLineString (ls : List (List IXY))
  | multiPolygon (ps : List IPoly)
  | collection (gs : List MvtGeom)
  | rect (min max : IXY)
  | triangle (a b c : IXY)
deriving Repr, Inhabited

/-- `LineString::close` of geo-types over `i32` (called by `Polygon::new` in mvt_writer.rs) -/
def closeIRing (cs : List IXY) : List IXY :=
  match cs with
  | [] => []
  | c :: _ => if cs.getLast?.getD c = c then cs else cs ++ [c]

/-- `Polygon::new` of geo-types closes every ring. (external; called in mvt_writer.rs) -/
def IPoly.new (ext : List IXY) (ints : List (List IXY)) : IPoly :=
  { exterior := closeIRing ext, interiors := ints.map closeIRing }

/-- `fast_mvt::MvtValue` (external; mvt_reader.rs:3, 39-52) -/
inductive MvtValue
  | string (v : Text)
  | float (v : Float32Bits)
  | double (v : F64)
  | int (v : Int64)
  | uint (v : UInt64)
  | sint (v : Int64)
  | bool (v : Bool)
  | null
deriving DecidableEq, Repr, Inhabited

/-- `fast_mvt::MvtFeature`; `id` is always `None` here (mvt_writer.rs:141, 367) and left out -/
structure MvtFeature where
  geometry : MvtGeom
  properties : List (Text × MvtValue)
deriving Repr, Inhabited

/-- `fast_mvt::MvtLayer` (external; mvt_reader.rs:3, 9) -/
structure MvtLayer where
  name : Text
  extent : Nat
  features : List MvtFeature
deriving Repr, Inhabited

/-- `column_value` (mvt_writer.rs:380-401) -/
def ColVal.mvt : ColVal → MvtValue
  | .byte v => .sint v.toInt64
  | .ubyte v => .uint v.toUInt64
  | .bool v => .bool v
  | .short v => .sint v.toInt64
  | .ushort v => .uint v.toUInt64
  | .int v => .sint v.toInt64
  | .uint v => .uint v.toUInt64
  | .long v => .sint v
  | .ulong v => .uint v
  | .float v => .float v
  | .double v => .double v
  | .string v => .string v
  | .json v => .string v
  | .dateTime v => .string v
  | .binary v => .string (base64 v)

/-- the value `process_property` hands on (mvt_reader.rs:42-54); `Null` is not delivered -/
def MvtValue.column : MvtValue → Option ColVal
  | .string v => some (.string v)
  | .float v => some (.float v)
  | .double v => some (.double v)
  | .int v => some (.long v)
  | .sint v => some (.long v)
  | .uint v => some (.ulong v)
  | .bool v => some (.bool v)
  | .null => none

/-! ### writer -/

/-- `f64` arithmetic used by the scaling writer (IEEE-754, a parameter of the model) (mvt_writer.rs:158-170) -/
structure FArith where
  sub : F64 → F64 → F64
  mul : F64 → F64 → F64
  div : F64 → F64 → F64
  floor : F64 → F64
  ofU32 : Nat → F64

/-- the part of `MvtWriter` that never changes after construction (mvt_writer.rs:77-83) -/
structure MvtConfig where
  extent : Nat
  scale : Bool
  left : F64
  bottom : F64
  xMul : F64
  yMul : F64
deriving Repr

/-- `MvtWriter::new_unscaled` (mvt_writer.rs:107-132) -/
def MvtConfig.unscaled (extent : Nat) : Except Err MvtConfig :=
  if extent = 0 then .error (.mvt "InvalidExtent")
  else .ok { extent, scale := false, left := F64.zero, bottom := F64.zero
             xMul := 0x3FF0000000000000#64, yMul := 0x3FF0000000000000#64 }

/-- `MvtWriter::new` (mvt_writer.rs:88-103) -/
def MvtConfig.scaled (ar : FArith) (extent : Nat) (left bottom right top : F64) : Except Err MvtConfig :=
  if extent = 0 then .error (.mvt "InvalidExtent")
  else .ok { extent, scale := true, left, bottom
             xMul := ar.div (ar.ofU32 extent) (ar.sub right left)
             yMul := ar.div (ar.ofU32 extent) (ar.sub top bottom) }

/-- `i32::saturating_sub` (mvt_writer.rs:165) -/
def satSubI32 (a b : Int32) : Int32 := clampI32 (a.toInt - b.toInt)

/-- `transform` (mvt_writer.rs:158-173); `extent as i32` wraps around -/
def MvtConfig.transform (ar : FArith) (cfg : MvtConfig) (x y : F64) : IXY :=
  if cfg.scale then
    { x := (ar.floor (ar.mul (ar.sub x cfg.left) cfg.xMul)).toI32
      y := satSubI32 (Int32.ofInt cfg.extent) (ar.floor (ar.mul (ar.sub y cfg.bottom) cfg.yMul)).toI32 }
  else { x := x.toI32, y := y.toI32 }

/-- the changing part of `MvtWriter` (mvt_writer.rs:62-76); the last collection of the stack is the head of the list -/
structure MvtWriter where
  features : List MvtFeature := []
  properties : List (Text × MvtValue) := []
  geoms : List MvtGeom := []
  collections : List (List MvtGeom) := []
  polygons : Option (List IPoly) := none
  lineStrings : Option (List (List IXY)) := none
  coords : Option (List IXY) := none
deriving Repr, Inhabited

namespace MvtWriter

/-- `finish_geometry` (mvt_writer.rs:175-182) -/
def finish (w : MvtWriter) (g : MvtGeom) : MvtWriter :=
  match w.collections with
  | c :: cs => { w with collections := (c ++ [g]) :: cs }
  | [] => { w with geoms := w.geoms ++ [g] }

/-- `take_geometry` (mvt_writer.rs:184-192) -/
def takeGeometry (w : MvtWriter) : Option MvtGeom × MvtWriter :=
  match w.geoms with
  | [] => (none, w)
  | [g] => (some g, { w with geoms := [] })
  | gs => (some (.collection gs), { w with geoms := [] })

/-- `into_feature` (mvt_writer.rs:136-145) -/
def intoFeature (w : MvtWriter) : Except Err MvtFeature :=
  match w.takeGeometry.1 with
  | none => .error (.geometry "Missing MVT geometry")
  | some g => .ok { geometry := g, properties := w.properties }

/-- `layer` (mvt_writer.rs:148-155) -/
def layer (cfg : MvtConfig) (w : MvtWriter) (name : Text) : MvtLayer :=
  { name, extent := cfg.extent, features := w.features }

/-- `distinct_ring_coords` (mvt_writer.rs:196-203) -/
def distinctRingCoords (ring : List IXY) : Nat :=
  if 2 ≤ ring.length ∧ ring.head? = ring.getLast? then ring.length - 1 else ring.length

/-- `debug_assert!(c)` in a debug build; the model always has it on, which only adds panics (mvt_writer.rs:217-330) -/
def debugAssert (c : Bool) (k : Except Err MvtWriter) : Except Err MvtWriter :=
  if c then k else .error (.panic "debug_assert")

/-- the begin methods (mvt_writer.rs:216-220, 233-237, 248-252, 274-278, 290-294, 322-326, 335-338); the kinds not
overridden do nothing -/
def gbegin (sz : ElemSizes) (w : MvtWriter) (k : GKind) (size : Nat) : Except Err MvtWriter :=
  match k with
  | .point => debugAssert w.coords.isNone (.ok { w with coords := some [] })
  | .multiPoint => debugAssert w.coords.isNone (
      match boundedVec IXY sz.coord size with
      | .ok (v, _) => .ok { w with coords := some v }
      | .error e => .error e)
  | .lineString => debugAssert w.coords.isNone (
      match boundedVec IXY sz.coord size with
      | .ok (v, _) => .ok { w with coords := some v }
      | .error e => .error e)
  | .multiLineString => debugAssert w.lineStrings.isNone (
      match boundedVec (List IXY) sz.line size with
      | .ok (v, _) => .ok { w with lineStrings := some v }
      | .error e => .error e)
  | .polygon => debugAssert w.lineStrings.isNone (
      match boundedVec (List IXY) sz.line size with
      | .ok (v, _) => .ok { w with lineStrings := some v }
      | .error e => .error e)
  | .multiPolygon => debugAssert w.polygons.isNone (
      match boundedVec IPoly sz.poly size with
      | .ok (v, _) => .ok { w with polygons := some v }
      | .error e => .error e)
  | .collection =>
      match boundedVec MvtGeom sz.geom size with
      | .ok (v, _) => .ok { w with collections := v :: w.collections }
      | .error e => .error e
  | _ => .ok w

/-- the checks and the construction of `polygon_end` (mvt_writer.rs:301-310) -/
def makePolygon : List (List IXY) → Except Err IPoly
  | [] => .error (.mvt "TooFewCoordinates")
  | ext :: ints =>
    if (ext :: ints).any (fun r => distinctRingCoords r < 3) then .error (.mvt "TooFewCoordinates")
    else .ok (IPoly.new ext ints)

/-- the end methods (mvt_writer.rs:222-231, 239-246, 254-272, 280-288, 296-320, 328-333, 340-346) -/
def gend (w : MvtWriter) (k : GKind) (tagged : Bool) : Except Err MvtWriter :=
  match k with
  | .point =>
    match w.coords with
    | none => .error (.geometry "No coords for Point")
    | some [] => .error (.geometry "Empty Point")
    | some (c :: _) => .ok ({ w with coords := none }.finish (.point c))
  | .multiPoint =>
    match w.coords with
    | none => .error (.geometry "No coords for MultiPoint")
    | some cs => .ok ({ w with coords := none }.finish (.multiPoint cs))
  | .lineString =>
    match w.coords with
    | none => .error (.geometry "No coords for LineString")
    | some cs =>
      if tagged then
        if cs.length < 2 then .error (.mvt "TooFewCoordinates")
        else .ok ({ w with coords := none }.finish (.lineString cs))
      else
        match w.lineStrings with
        | none => .error (.geometry "Missing container for LineString")
        | some ls => .ok { w with coords := none, lineStrings := some (ls ++ [cs]) }
  | .multiLineString =>
    match w.lineStrings with
    | none => .error (.geometry "No LineStrings for MultiLineString")
    | some ls =>
      if ls.any (fun l => l.length < 2) then .error (.mvt "TooFewCoordinates")
      else .ok ({ w with lineStrings := none }.finish (.multiLineString ls))
  | .polygon =>
    match w.lineStrings with
    | none => .error (.geometry "Missing LineStrings for Polygon")
    | some ls =>
      match makePolygon ls with
      | .error e => .error e
      | .ok p =>
        if tagged then .ok ({ w with lineStrings := none }.finish (.polygon p))
        else
          match w.polygons with
          | none => .error (.geometry "Missing container for Polygon")
          | some ps => .ok { w with lineStrings := none, polygons := some (ps ++ [p]) }
  | .multiPolygon =>
    match w.polygons with
    | none => .error (.geometry "Missing polygons for MultiPolygon")
    | some ps => .ok ({ w with polygons := none }.finish (.multiPolygon ps))
  | .collection =>
    match w.collections with
    | [] => .error (.geometry "Unexpected geometry type")
    | c :: cs => .ok ({ w with collections := cs }.finish (.collection c))
  | _ => .ok w

/-- `GeomProcessor for MvtWriter` (mvt_writer.rs:205-347) with the trait's default methods (`coordinate` and `srid` do
nothing, `empty_point` is an error); `tr` is the coordinate transformation of the writer -/
def step (sz : ElemSizes) (tr : F64 → F64 → IXY) (w : MvtWriter) : Ev → Except Err MvtWriter
  | .srid _ => .ok w
  | .coord .. => .ok w
  | .emptyPoint _ => .error (.geometry "empty Point")
  | .xy x y _ =>
    match w.coords with
    | none => .error (.geometry "Not ready for coords")
    | some cs => .ok { w with coords := some (cs ++ [tr x y]) }
  | .gbegin k _ size _ => w.gbegin sz k size
  | .gend k tagged _ => w.gend k tagged

/-- as a processor; `multi_dim()` is false because `dimensions()` has its default
(`impl GeomProcessor for MvtWriter`, mvt_writer.rs:205-347) -/
def proc (sz : ElemSizes) (tr : F64 → F64 → IXY) : Proc MvtWriter :=
  { step := step sz tr, multi := fun _ => false }

/-- `feature_end` (mvt_writer.rs:363-374): without a geometry nothing is stored -/
def featureEnd (w : MvtWriter) : MvtWriter :=
  match w.takeGeometry with
  | (none, w) => w
  | (some g, w) => { w with properties := [], features := w.features ++ [{ geometry := g, properties := w.properties }] }

/-- `PropertyProcessor` and `FeatureProcessor for MvtWriter` (mvt_writer.rs:349-375); the other methods have their
defaults -/
def fproc (sz : ElemSizes) (tr : F64 → F64 → IXY) : FProc MvtWriter where
  step w
    | .geom e => step sz tr w e
    | .prop _ n v => .ok { w with properties := w.properties ++ [(n, v.mvt)] }
    | .ftBegin _ => .ok { w with properties := [] }
    | .ftEnd _ => .ok w.featureEnd
    | _ => .ok w

end MvtWriter

/-- `to_mvt` and `to_mvt_unscaled` (mvt/mod.rs:49-71) after construction of the writer, on a source whose `process_geom`
behaves like `src` -/
def toMvt (sz : ElemSizes) (tr : F64 → F64 → IXY) (src : Prog Unit) (bs : List Byte) : Except Err MvtFeature :=
  match interp (MvtWriter.proc sz tr) src {} bs with
  | (w, _, .ok _) => w.intoFeature
  | (_, _, .error e) => .error e

/-- `to_mvt` (mvt/mod.rs:50-61) -/
def toMvtScaled (ar : FArith) (sz : ElemSizes) (extent : Nat) (left bottom right top : F64) (src : Prog Unit)
    (bs : List Byte) : Except Err MvtFeature :=
  match MvtConfig.scaled ar extent left bottom right top with
  | .error e => .error e
  | .ok cfg => toMvt sz (cfg.transform ar) src bs

/-- `to_mvt_unscaled` (mvt/mod.rs:63-70); the `unwrap` is a panic in the model -/
def toMvtUnscaled (ar : FArith) (sz : ElemSizes) (src : Prog Unit) (bs : List Byte) : Except Err MvtFeature :=
  match MvtConfig.unscaled 4096 with
  | .error _ => .error (.panic "unwrap")
  | .ok cfg => toMvt sz (cfg.transform ar) src bs

/-- `FromWkb for MvtFeature` (mvt/mod.rs:86-95) -/
def mvtFromWkb (ar : FArith) (sz : ElemSizes) (fo : FOps) (d : WkbDialect) (bs : List Byte) : Except Err MvtFeature :=
  toMvtUnscaled ar sz (processWkbTypeGeom fo d) bs

/-! ### reader -/

/-- the two ways of passing a coordinate (mvt_reader.rs:116) -/
def ixyEv (multi : Bool) (c : IXY) (idx : Nat) : Ev :=
  if multi then .coord (F64.ofI32 c.x) (F64.ofI32 c.y) none none none none idx
  else .xy (F64.ofI32 c.x) (F64.ofI32 c.y) idx

/-- `process_coord` (mvt_reader.rs:114-121) -/
def mvtCoord (c : IXY) (idx : Nat) : Prog Unit := do
  let multi ← multiDim
  emitEv (ixyEv multi c idx)

/-- `process_linestring` (mvt_reader.rs:123-134) -/
def mvtLinestring (cs : List IXY) (tagged : Bool) (idx : Nat) : Prog Unit := do
  emitEv (.gbegin .lineString tagged cs.length idx)
  forIdx (fun i c => mvtCoord c i) 0 cs
  emitEv (.gend .lineString tagged idx)

/-- `process_polygon` (mvt_reader.rs:136-150) -/
def mvtPolygon (p : IPoly) (tagged : Bool) (idx : Nat) : Prog Unit := do
  emitEv (.gbegin .polygon tagged (p.interiors.length + 1) idx)
  mvtLinestring p.exterior false 0
  forIdx (fun i ring => mvtLinestring ring false (i + 1)) 0 p.interiors
  emitEv (.gend .polygon tagged idx)

mutual
/-- `process_geometry` (mvt_reader.rs:68-112) -/
def mvtGeometry (idx : Nat) : MvtGeom → Prog Unit
  | .point p => do
    emitEv (.gbegin .point true 1 idx)
    mvtCoord p 0
    emitEv (.gend .point true idx)
  | .multiPoint ps => do
    emitEv (.gbegin .multiPoint true ps.length idx)
    forIdx (fun i p => mvtCoord p i) 0 ps
    emitEv (.gend .multiPoint true idx)
  | .lineString cs => mvtLinestring cs true idx
  | .multiLineString ls => do
    emitEv (.gbegin .multiLineString true ls.length idx)
    forIdx (fun i l => mvtLinestring l false i) 0 ls
    emitEv (.gend .multiLineString true idx)
  | .polygon p => mvtPolygon p true idx
  | .multiPolygon ps => do
    emitEv (.gbegin .multiPolygon true ps.length idx)
    forIdx (fun i p => mvtPolygon p false i) 0 ps
    emitEv (.gend .multiPolygon true idx)
  | .collection gs => do
    emitEv (.gbegin .collection true gs.length idx)
    mvtMembers 0 gs
    emitEv (.gend .collection true idx)
  | .line _ _ => .ret ()
  | .rect _ _ => .ret ()
  | .triangle _ _ _ => .ret ()

/-- the loop over the members of a collection (mvt_reader.rs:104-106) -/
def mvtMembers (i : Nat) : List MvtGeom → Prog Unit
  | [] => .ret ()
  | g :: gs => Prog.bind (mvtGeometry i g) fun _ => mvtMembers (i + 1) gs
end

/-- `process_geom` (mvt_reader.rs:57-66) -/
def mvtProcessGeom (f : MvtFeature) : Prog Unit := mvtGeometry 0 f.geometry

/-- `process_property` (mvt_reader.rs:36-56) -/
def mvtProperty (i : Nat) (p : Text × MvtValue) : FProg Unit :=
  match p.2.column with
  | some v => FProg.call (.prop i p.1 v)
  | none => .ret ()

/-- the loop body of `process` (mvt_reader.rs:18-32) -/
def mvtFeature (idx : Nat) (f : MvtFeature) : FProg Unit := do
  FProg.call (.ftBegin idx)
  FProg.call .propsBegin
  FProg.forIdx mvtProperty 0 f.properties
  FProg.call .propsEnd
  FProg.call .geomBegin
  FProg.lift (mvtProcessGeom f)
  FProg.call .geomEnd
  FProg.call (.ftEnd idx)

/-- `process` (mvt_reader.rs:9-34) -/
def mvtProcess (l : MvtLayer) : FProg Unit := do
  FProg.call (.dsBegin (some l.name))
  FProg.forIdx mvtFeature 0 l.features
  FProg.call .dsEnd

end Geozero
