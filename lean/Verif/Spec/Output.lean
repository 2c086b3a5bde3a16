import Verif.Model.Feature

/-
Vocabulary of C69: outputs that may refuse bytes.
-/

namespace Geozero.Spec
open Geozero

/-- An output: anything with `std::io::Write`, in terms of what `write_all` does to it.  `write d piece`, for a piece that
is not empty and an output in state `d`: the state afterwards, and `none` if the whole piece was taken or `some k` if an
error was reported after the first `k` bytes were taken.  Nothing is assumed, so an output may also work again after an
error. -/
structure Output (δ : Type) where
  write : δ → List Byte → δ × Option Nat

namespace Output
variable {δ : Type}

/-- the state of the output, and whether it has taken everything, if it is offered `pieces` in order until it refuses
one; empty pieces are not offered (`write_all` of nothing does nothing) -/
def offer (O : Output δ) (d : δ) : List (List Byte) → δ × Bool
  | [] => (d, true)
  | p :: ps =>
    if p = [] then O.offer d ps
    else
      match O.write d p with
      | (d', none) => O.offer d' ps
      | (d', some _) => (d', false)

/-- `Vec<u8>`: takes everything -/
def vec : Output (List Byte) where
  write d p := (d ++ p, none)

/-- an output with room for `n` bytes, such as a disk that gets full or a `&mut [u8]` -/
def room (n : Nat) : Output (List Byte) where
  write d p := if d.length + p.length ≤ n then (d ++ p, none) else (d ++ p.take (n - d.length), some (n - d.length))

/-- `content` is what the output has taken so far -/
def Holds (O : Output δ) (content : δ → List Byte) : Prop :=
  ∀ d p, content (O.write d p).1 = content d ++ match (O.write d p).2 with
    | none => p
    | some k => p.take k

end Output

/-- `conv`, a conversion on any output (the output afterwards, and the outcome), writes `pieces` in order and reports the
first refusal as its outcome, which is `outcome` if nothing is refused -/
def ReportsRefusal {β : Type} (conv : {δ : Type} → Output δ → δ → δ × Except Err β) (pieces : List (List Byte))
    (outcome : Except Err β) : Prop :=
  ∀ (δ : Type) (O : Output δ) (d : δ),
    conv O d = ((O.offer d pieces).1, if (O.offer d pieces).2 then outcome else .error .io)

/-- What is left to a user who is only told the outcome: success means that the output holds everything, and otherwise it
holds the beginning of what would have been written. -/
def Complete {β : Type} (conv : {δ : Type} → Output δ → δ → δ × Except Err β) (full : List Byte) : Prop :=
  ∀ (δ : Type) (O : Output δ) (content : δ → List Byte), O.Holds content → ∀ d,
    (∀ v, (conv O d).2 = .ok v → content (conv O d).1 = content d ++ full) ∧
    ∃ written, written <+: full ∧ content (conv O d).1 = content d ++ written

/-- All of it for a conversion whose outcome is `outcome` and whose text is `text` when the output takes everything: it
writes certain pieces in order, reports the first refusal, and success means completeness.  The pieces together are what a
`Vec<u8>` holds afterwards, and that is the text if the conversion succeeds. -/
def Faithful {β : Type} (conv : {δ : Type} → Output δ → δ → δ × Except Err β) (outcome : Except Err β)
    (text : List Byte) : Prop :=
  ∃ pieces, ReportsRefusal conv pieces outcome ∧ Complete conv pieces.flatten ∧
    (conv Output.vec []).1 = pieces.flatten ∧ ∀ v, outcome = .ok v → pieces.flatten = text

/-- the source drops no error of the processor it drives -/
def Propagates {α : Type} : FProg α → Prop
  | .ret _ => True
  | .fail _ => True
  | .read k => ∀ b, Propagates (k b)
  | .emit _ k => Propagates k
  | .emitOk _ _ => False
  | .prop _ _ _ k => ∀ b, Propagates (k b)
  | .ask k => ∀ b d, Propagates (k b d)

end Geozero.Spec
