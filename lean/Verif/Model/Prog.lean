import Verif.Model.Basic

/-
Interaction trees for byte readers.

A reader function of the crate has the shape
`fn f<R: Read, P: GeomProcessor>(raw: &mut R, .., processor: &mut P) -> Result<T>`:
it reads bytes from `raw`, calls methods of `processor`, asks `processor.multi_dim()` and may return
an error at any point.  `Prog T` is the syntax of such behaviours; `run` and `interp` its meanings.
-/

namespace Geozero

/-- Behaviour of a reader returning `α`. (the readers of geometries, e.g. wkb_reader.rs:115-480) -/
inductive Prog (α : Type) : Type
  | ret (a : α)
  /-- `return Err(e)` -/
  | fail (e : Err)
  /-- read one byte (`Read::read_exact` on one byte; multi-byte reads are sequences of these,
  with the same `IoError` at end of input) -/
  | read (k : Byte → Prog α)
  /-- call a method of the processor, propagating its error with `?` -/
  | emit (e : Ev) (k : Prog α)
  /-- `processor.multi_dim()` -/
  | askMulti (k : Bool → Prog α)

namespace Prog

/-- Sequential composition (`?` after a call). (e.g. wkb_reader.rs:325-480) -/
def bind {α β : Type} : Prog α → (α → Prog β) → Prog β
  | ret a, f => f a
  | fail e, _ => fail e
  | read k, f => read (fun b => bind (k b) f)
  | emit e k, f => emit e (bind k f)
  | askMulti k, f => askMulti (fun b => bind (k b) f)

instance : Monad Prog where
  pure := ret
  bind := bind

/-- `raw.ioread::<u8>()?` (e.g. wkb_reader.rs:195, 219) -/
def readByte : Prog Byte := read ret
/-- a processor call with `?` (the methods of geometry_processor.rs:94-446) -/
def emitEv (e : Ev) : Prog Unit := emit e (ret ())
/-- `processor.multi_dim()` (geometry_processor.rs:101; called e.g. in wkb_reader.rs:325-410) -/
def multiDim : Prog Bool := askMulti ret

/-- `for i in start .. start+count { body(i)? }` (e.g. wkb_reader.rs:396-478) -/
def loop : (count start : Nat) → (Nat → Prog Unit) → Prog Unit
  | 0, _, _ => ret ()
  | n + 1, i, body => bind (body i) fun _ => loop n (i + 1) body

/-- Trace semantics against a processor that accepts every call and whose `multi_dim()` is constantly
`multi`: the events delivered, and either an error or the result with the unread input.
(no counterpart: a processor with the default methods of geometry_processor.rs:94-446) -/
def run {α : Type} (multi : Bool) : Prog α → List Byte → List Ev × Except Err (α × List Byte)
  | ret a, bs => ([], .ok (a, bs))
  | fail e, _ => ([], .error e)
  | read _, [] => ([], .error .io)
  | read k, b :: bs => run multi (k b) bs
  | emit e k, bs => (e :: (run multi k bs).1, (run multi k bs).2)
  | askMulti k, bs => run multi (k multi) bs

/-- A stateful processor: how it reacts to each call, and its `multi_dim()`.
(`GeomProcessor`, geometry_processor.rs:94-446) -/
structure Proc (σ : Type) where
  step : σ → Ev → Except Err σ
  multi : σ → Bool

/-- Interactive semantics against an arbitrary processor: final (or last reached) processor state,
the events delivered to it, and the outcome.
(no counterpart: runs a reader on an implementation of geometry_processor.rs:94-446) -/
def interp {α σ : Type} (p : Proc σ) : Prog α → σ → List Byte → σ × List Ev × Except Err (α × List Byte)
  | ret a, s, bs => (s, [], .ok (a, bs))
  | fail e, s, _ => (s, [], .error e)
  | read _, s, [] => (s, [], .error .io)
  | read k, s, b :: bs => interp p (k b) s bs
  | emit e k, s, bs =>
    match p.step s e with
    | .error x => (s, [e], .error x)
    | .ok s' =>
      match interp p k s' bs with
      | (s2, evs, r) => (s2, e :: evs, r)
  | askMulti k, s, bs => interp p (k (p.multi s)) s bs

end Prog
end Geozero
