import Verif.Model.Property

/- What column values, shapefile fields and decimal texts mean. -/

namespace Geozero

/-- the information in a value, independent of how it is stored; floats by their bits -/
inductive Content
  | int (i : Int)
  | bool (b : Bool)
  | float32 (x : Float32Bits)
  | float64 (x : F64)
  | text (t : Text)
  | json (t : Text)
  | date (t : Text)
  | bytes (b : List Byte)
deriving DecidableEq, Repr

/-- content of a `ColumnValue` -/
def ColVal.content : ColVal → Option Content
  | .byte v => some (.int v.toInt)
  | .ubyte v => some (.int v.toNat)
  | .bool v => some (.bool v)
  | .short v => some (.int v.toInt)
  | .ushort v => some (.int v.toNat)
  | .int v => some (.int v.toInt)
  | .uint v => some (.int v.toNat)
  | .long v => some (.int v.toInt)
  | .ulong v => some (.int v.toNat)
  | .float v => some (.float32 v)
  | .double v => some (.float64 v)
  | .string v => some (.text v)
  | .json v => some (.json v)
  | .dateTime v => some (.date v)
  | .binary v => some (.bytes v)

/-- content of a field of a shapefile's attribute table, if it is not null -/
def FieldValue.content : FieldValue → Option Content
  | .character v => v.map .text
  | .numeric v => v.map .float64
  | .logical v => v.map .bool
  | .date v => v.map .date
  | .float v => v.map .float32
  | .integer v => some (.int v.toInt)
  | .currency v => some (.float64 v)
  | .dateTime v => some (.date v)
  | .double v => some (.float64 v)
  | .memo v => some (.text v)

/-- value of a digit -/
def digitVal (c : Char) : Option Nat := if c.isDigit then some (c.toNat - 48) else none

/-- value of a non-empty sequence of digits, most significant first, after the digits read so far -/
def digitsVal : Nat → Text → Option Nat
  | acc, [] => some acc
  | acc, c :: t =>
    match digitVal c with
    | none => none
    | some d => digitsVal (acc * 10 + d) t

/-- value of a decimal text: digits, or `-` and digits -/
def decimal : Text → Option Int
  | [] => none
  | '-' :: c :: t => (digitsVal 0 (c :: t)).map fun n => -(n : Int)
  | t => (digitsVal 0 t).map fun n => (n : Int)

end Geozero
