/-
Basic vocabulary: bit-pattern floats, coordinate dimensions, errors, processor events.

Models /repo/geozero/src/geometry_processor.rs (trait `GeomProcessor`, `CoordDimensions`)
and /repo/geozero/src/error.rs.
-/

namespace Geozero

/-- A byte. (`u8`, as read in wkb_reader.rs:195 and written in wkb_writer.rs:135) -/
abbrev Byte := UInt8

/-- `f64`, represented by its 64-bit IEEE-754 pattern.  No arithmetic is defined on it here.
(coordinates of `GeomProcessor`, geometry_processor.rs:114-129) -/
abbrev F64 := BitVec 64

/-- `f64::is_nan` on bit patterns: exponent all ones and mantissa not zero
(ignoring the sign bit, the pattern is above that of infinity).
(used in wkb_reader.rs:383-386 and wkt_writer.rs:101, 120-123) -/
def F64.isNaN (x : F64) : Bool := decide (0x7FF0000000000000 < x.toNat % 2 ^ 63)

/-- `0.0f64` (used by `z.unwrap_or(0.0)`, wkb_writer.rs:292). -/
def F64.zero : F64 := 0#64

/-- `CoordDimensions` (geometry_processor.rs:32-76): which extra coordinate dimensions are present. -/
structure Dims where
  z : Bool := false
  m : Bool := false
  t : Bool := false
  tm : Bool := false
deriving DecidableEq, Repr, Inhabited

/-- Default `GeomProcessor::multi_dim` (geometry_processor.rs:101-104). -/
def Dims.multi (d : Dims) : Bool := d.z || d.m || d.t || d.tm

/-- A coordinate as delivered by readers: x, y, optional z, optional m (wkb_reader.rs:540-557). -/
structure Coord where
  x : F64
  y : F64
  z : Option F64 := none
  m : Option F64 := none
deriving DecidableEq, Repr, Inhabited

/-- `GeozeroError` (error.rs), restricted to the variants the modelled code produces.
`panic` is not an error value of the crate: it is how a Rust panic (or a failed `debug_assert!`)
shows up in the model. -/
inductive Err
  | io
  | geometryFormat
  | maxNesting (limit : Nat)
  | srid (v : Int)
  | geometry (msg : String)
  | dataset (msg : String)
  | feature (msg : String)
  | featureGeometry (msg : String)
  | property (msg : String)
  | columnNotFound
  | columnType (expected : String)
  | coord
  | csv (msg : String)
  | mvt (msg : String)
  | shp (msg : String)
  | custom (n : Nat)
  | panic (msg : String)
deriving DecidableEq, Repr, Inhabited

/-- Was this error a panic? (cf. `GeozeroError`, error.rs:5, which has no such variant) -/
def Err.isPanic : Err → Bool
  | .panic _ => true
  | _ => false

/-- The geometry kinds for which `GeomProcessor` has a begin/end method pair
(geometry_processor.rs:142-435). -/
inductive GKind
  | point | multiPoint | lineString | multiLineString | polygon | multiPolygon | collection
  | circularString | compoundCurve | curvePolygon | multiCurve | multiSurface
  | triangle | polyhedralSurface | tin
deriving DecidableEq, Repr, Inhabited

/-- One call of a `GeomProcessor` method (geometry_processor.rs:94-435).

Simplification: the fifteen `*_begin`/`*_end` method pairs are two constructors indexed by `GKind`.
`tagged` is a parameter of linestring/polygon/triangle only; for the other kinds it is `true` by
convention.  `point_begin` has no size parameter; its `size` is `1` by convention. -/
inductive Ev
  | srid (s : Option Int)
  | xy (x y : F64) (idx : Nat)
  | coord (x y : F64) (z m t : Option F64) (tm : Option (BitVec 64)) (idx : Nat)
  | emptyPoint (idx : Nat)
  | gbegin (k : GKind) (tagged : Bool) (size idx : Nat)
  | gend (k : GKind) (tagged : Bool) (idx : Nat)
deriving DecidableEq, Repr

/-- How a reader delivers one coordinate, depending on `multi_dim()`
(e.g. `emit_coord`, wkb_reader.rs:490-503). -/
def coordEv (multi : Bool) (c : Coord) (idx : Nat) : Ev :=
  if multi then .coord c.x c.y c.z c.m none none idx else .xy c.x c.y idx

/-- Feed a list of events to a processor given by its step function; stop at the first error
(the `?` operator after each call). (calls of the methods of `GeomProcessor`, geometry_processor.rs:94-446) -/
def feed {σ ε : Type} (step : σ → ε → Except Err σ) : σ → List ε → Except Err σ
  | s, [] => .ok s
  | s, e :: es =>
    match step s e with
    | .ok s' => feed step s' es
    | .error x => .error x

theorem feed_append {σ ε : Type} (step : σ → ε → Except Err σ) (s : σ) (a b : List ε) :
    feed step s (a ++ b) =
      match feed step s a with
      | .ok s' => feed step s' b
      | .error x => .error x := by
  induction a generalizing s with
  | nil => rfl
  | cons e es ih =>
    simp only [List.cons_append, feed]
    cases step s e with
    | ok s' => exact ih s'
    | error x => rfl

/-- If a processor accepts a whole stream it accepts every prefix. -/
theorem feed_prefix_ok {σ ε : Type} (step : σ → ε → Except Err σ) (s s' : σ) (a b : List ε)
    (h : feed step s (a ++ b) = .ok s') : ∃ s1, feed step s a = .ok s1 := by
  rw [feed_append] at h
  cases ha : feed step s a with
  | ok s1 => exact ⟨s1, rfl⟩
  | error x => rw [ha] at h; exact absurd h (by simp)

/-- An error on a prefix is the error on the whole stream. -/
theorem feed_prefix_error {σ ε : Type} (step : σ → ε → Except Err σ) (s : σ) (a b : List ε) (x : Err)
    (h : feed step s a = .error x) : feed step s (a ++ b) = .error x := by
  rw [feed_append, h]

@[simp] theorem feed_nil {σ ε : Type} (step : σ → ε → Except Err σ) (s : σ) :
    feed step s [] = .ok s := rfl

theorem feed_cons {σ ε : Type} (step : σ → ε → Except Err σ) (s : σ) (e : ε) (es : List ε) :
    feed step s (e :: es) =
      match step s e with
      | .ok s' => feed step s' es
      | .error x => .error x := rfl

end Geozero
