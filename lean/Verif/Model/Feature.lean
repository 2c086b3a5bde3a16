import Verif.Model.Prog
import Verif.Model.Wkt

/-
Features: the traits `FeatureProcessor` (feature_processor.rs:7-68) and `PropertyProcessor`
(property_processor.rs:46-63), and the behaviour of readers that drive them.
-/

namespace Geozero

/-- `f32` by its bit pattern (`ColumnValue::Float`, property_processor.rs:19) -/
abbrev Float32Bits := BitVec 32

/-- `ColumnValue` (property_processor.rs:8-27) -/
inductive ColVal
  | byte (v : Int8)
  | ubyte (v : UInt8)
  | bool (v : Bool)
  | short (v : Int16)
  | ushort (v : UInt16)
  | int (v : Int32)
  | uint (v : UInt32)
  | long (v : Int64)
  | ulong (v : UInt64)
  | float (v : Float32Bits)
  | double (v : F64)
  | string (v : Text)
  | json (v : Text)
  | dateTime (v : Text)
  | binary (v : List Byte)
deriving DecidableEq, Repr

/-- One call of a method of `FeatureProcessor` (feature_processor.rs:7-68), `PropertyProcessor`
(property_processor.rs:46-63) or `GeomProcessor`. -/
inductive FEv
  | dsBegin (name : Option Text)
  | dsEnd
  | ftBegin (idx : Nat)
  | ftEnd (idx : Nat)
  | propsBegin
  | propsEnd
  | geomBegin
  | geomEnd
  | prop (i : Nat) (name : Text) (v : ColVal)
  | geom (e : Ev)
deriving DecidableEq, Repr

/-- A stateful feature processor.  `abort s e` is the boolean `property` answers for the call `e` in state
`s`; `multi` is `multi_dim()`, `dims` is `dimensions()`.  `left s e` is the state in which the call `e` leaves the processor
when it returns an error, used where a reader drops the error and goes on.
Simplification: where the error is propagated, the state in which it leaves the processor is not modelled.
(`FeatureProcessor`, feature_processor.rs:16-65) -/
structure FProc (σ : Type) where
  step : σ → FEv → Except Err σ
  left : σ → FEv → σ := fun s _ => s
  abort : σ → FEv → Bool := fun _ _ => false
  multi : σ → Bool := fun _ => false
  dims : σ → Dims := fun _ => {}

/-- Behaviour of a reader of features returning `α`.
(the readers behind `GeozeroDatasource::process`, e.g. geojson_reader.rs:57-134) -/
inductive FProg (α : Type) : Type
  | ret (a : α)
  | fail (e : Err)
  /-- read one byte -/
  | read (k : Byte → FProg α)
  /-- call a method and propagate its error with `?`; the answer of `property` is dropped -/
  | emit (e : FEv) (k : FProg α)
  /-- call a method and drop its error (`.ok()`); a panic is not an error -/
  | emitOk (e : FEv) (k : FProg α)
  /-- call `property` with `?` and look at its answer -/
  | prop (i : Nat) (name : Text) (v : ColVal) (k : Bool → FProg α)
  /-- `multi_dim()` and `dimensions()` -/
  | ask (k : Bool → Dims → FProg α)

namespace FProg

/-- sequential composition (`?` after a call) (e.g. geojson_reader.rs:64-71) -/
def bind {α β : Type} : FProg α → (α → FProg β) → FProg β
  | ret a, f => f a
  | fail e, _ => fail e
  | read k, f => read (fun b => bind (k b) f)
  | emit e k, f => emit e (bind k f)
  | emitOk e k, f => emitOk e (bind k f)
  | prop i n v k, f => prop i n v (fun b => bind (k b) f)
  | ask k, f => ask (fun b d => bind (k b d) f)

instance : Monad FProg where
  pure := ret
  bind := bind

/-- a call with `?` (the methods of feature_processor.rs:16-65, property_processor.rs:61) -/
def call (e : FEv) : FProg Unit := emit e (ret ())

/-- `for (i, x) in xs.iter().enumerate() { body(i, x)? }`, counting from `i` (e.g. geojson_reader.rs:64-130) -/
def forIdx {α : Type} (body : Nat → α → FProg Unit) : Nat → List α → FProg Unit
  | _, [] => ret ()
  | i, x :: xs => bind (body i x) fun _ => forIdx body (i + 1) xs

/-- a geometry reader used by a reader of features, on the same byte source
(e.g. geojson_reader.rs:110-134, csv_reader.rs) -/
def lift {α : Type} : Prog α → FProg α
  | .ret a => ret a
  | .fail e => fail e
  | .read k => read (fun b => lift (k b))
  | .emit e k => emit (.geom e) (lift k)
  | .askMulti k => ask (fun b _ => lift (k b))

/-- What is fixed when a reader is run against a processor accepting every call: its `multi_dim()`, its
`dimensions()` and what its `property` answers. (geometry_processor.rs:96-104, property_processor.rs:61) -/
structure Env where
  multi : Bool := false
  dims : Dims := {}
  ans : FEv → Bool := fun _ => false

/-- trace semantics against a processor accepting every call
(no counterpart: a processor with the default methods of feature_processor.rs:16-65) -/
def run {α : Type} (env : Env) : FProg α → List Byte → List FEv × Except Err (α × List Byte)
  | ret a, bs => ([], .ok (a, bs))
  | fail e, _ => ([], .error e)
  | read _, [] => ([], .error .io)
  | read k, b :: bs => run env (k b) bs
  | emit e k, bs => (e :: (run env k bs).1, (run env k bs).2)
  | emitOk e k, bs => (e :: (run env k bs).1, (run env k bs).2)
  | prop i n v k, bs =>
    (.prop i n v :: (run env (k (env.ans (.prop i n v))) bs).1, (run env (k (env.ans (.prop i n v))) bs).2)
  | ask k, bs => run env (k env.multi env.dims) bs

/-- interactive semantics against an arbitrary processor: last processor state, calls made, outcome
(no counterpart: runs a reader on an implementation of feature_processor.rs:16-65) -/
def interp {α σ : Type} (p : FProc σ) : FProg α → σ → List Byte → σ × List FEv × Except Err (α × List Byte)
  | ret a, s, bs => (s, [], .ok (a, bs))
  | fail e, s, _ => (s, [], .error e)
  | read _, s, [] => (s, [], .error .io)
  | read k, s, b :: bs => interp p (k b) s bs
  | emit e k, s, bs =>
    match p.step s e with
    | .error x => (s, [e], .error x)
    | .ok s' => ((interp p k s' bs).1, e :: (interp p k s' bs).2.1, (interp p k s' bs).2.2)
  | emitOk e k, s, bs =>
    match p.step s e with
    | .error x =>
      if x.isPanic then (s, [e], .error x)
      else ((interp p k (p.left s e) bs).1, e :: (interp p k (p.left s e) bs).2.1, (interp p k (p.left s e) bs).2.2)
    | .ok s' => ((interp p k s' bs).1, e :: (interp p k s' bs).2.1, (interp p k s' bs).2.2)
  | prop i n v k, s, bs =>
    match p.step s (.prop i n v) with
    | .error x => (s, [.prop i n v], .error x)
    | .ok s' =>
      ((interp p (k (p.abort s (.prop i n v))) s' bs).1,
        .prop i n v :: (interp p (k (p.abort s (.prop i n v))) s' bs).2.1,
        (interp p (k (p.abort s (.prop i n v))) s' bs).2.2)
  | ask k, s, bs => interp p (k (p.multi s) (p.dims s)) s bs

end FProg

/-- the geometry calls among the calls of a feature processor
(the methods of geometry_processor.rs:94-446 among them) -/
def geomEvs : List FEv → List Ev
  | [] => []
  | .geom e :: es => e :: geomEvs es
  | _ :: es => geomEvs es

/-- Default methods of the three traits (feature_processor.rs:7-68, property_processor.rs:60-62,
geometry_processor.rs:95-435): everything is accepted, except `empty_point`. -/
def defaultStep : FEv → Except Err Unit
  | .geom (.emptyPoint _) => .error (.geometry "The input was an empty Point, but the output doesn't support empty Points")
  | _ => .ok ()

end Geozero
