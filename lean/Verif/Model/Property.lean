import Verif.Model.Feature

/-
Models property access: /repo/geozero/src/property_processor.rs, the property methods of api.rs and
/repo/geozero/src/shp/property_processor.rs.
-/

namespace Geozero

/-- How `{v}` prints an `f32` and an `f64` (Rust's standard library, a parameter of the model).
(used in property_processor.rs:66-81) -/
structure Fmt where
  f32 : Float32Bits → Text
  f64 : F64 → Text

/-- decimal digits of a natural number (`Display` of the unsigned integer types)
(used in property_processor.rs:66-81) -/
def natText (n : Nat) : Text :=
  if n < 10 then [Char.ofNat (48 + n)] else natText (n / 10) ++ [Char.ofNat (48 + n % 10)]
termination_by n

/-- decimal digits of an integer, with `-` when negative (`Display` of the signed integer types)
(used in property_processor.rs:66-81) -/
def intText (i : Int) : Text := if i < 0 then '-' :: natText i.natAbs else natText i.natAbs

/-- `Display for ColumnValue` (property_processor.rs:65-86) -/
def ColVal.display (fmt : Fmt) : ColVal → Text
  | .byte v => intText v.toInt
  | .ubyte v => intText v.toNat
  | .bool v => if v then txt "true" else txt "false"
  | .short v => intText v.toInt
  | .ushort v => intText v.toNat
  | .int v => intText v.toInt
  | .uint v => intText v.toNat
  | .long v => intText v.toInt
  | .ulong v => intText v.toNat
  | .float v => fmt.f32 v
  | .double v => fmt.f64 v
  | .string v => v
  | .json v => v
  | .dateTime v => v
  | .binary _ => txt "[BINARY]"

/-- the types with an `impl PropertyReadType` (property_processor.rs:131-172) -/
inductive ReadTy
  | i8 | u8 | bool | i16 | u16 | i32 | u32 | i64 | u64 | f32 | f64 | string
deriving DecidableEq, Repr

/-- the Rust type (property_processor.rs:150-168) -/
def ReadTy.Val : ReadTy → Type
  | .i8 => Int8 | .u8 => UInt8 | .bool => Bool | .i16 => Int16 | .u16 => UInt16 | .i32 => Int32
  | .u32 => UInt32 | .i64 => Int64 | .u64 => UInt64 | .f32 => Float32Bits | .f64 => F64 | .string => Text

/-- `get_value` (property_processor.rs:131-148 for the scalar types, 162-172 for `String`) -/
def getValue (fmt : Fmt) : (ty : ReadTy) → ColVal → Except Err ty.Val
  | .i8, .byte v => .ok v
  | .u8, .ubyte v => .ok v
  | .bool, .bool v => .ok v
  | .i16, .short v => .ok v
  | .u16, .ushort v => .ok v
  | .i32, .int v => .ok v
  | .u32, .uint v => .ok v
  | .i64, .long v => .ok v
  | .u64, .ulong v => .ok v
  | .f32, .float v => .ok v
  | .f64, .double v => .ok v
  | .string, v => .ok (v.display fmt)
  | .i8, _ => .error (.columnType "ColumnValue::Byte")
  | .u8, _ => .error (.columnType "ColumnValue::UByte")
  | .bool, _ => .error (.columnType "ColumnValue::Bool")
  | .i16, _ => .error (.columnType "ColumnValue::Short")
  | .u16, _ => .error (.columnType "ColumnValue::UShort")
  | .i32, _ => .error (.columnType "ColumnValue::Int")
  | .u32, _ => .error (.columnType "ColumnValue::UInt")
  | .i64, _ => .error (.columnType "ColumnValue::Long")
  | .u64, _ => .error (.columnType "ColumnValue::ULong")
  | .f32, _ => .error (.columnType "ColumnValue::Float")
  | .f64, _ => .error (.columnType "ColumnValue::Double")

/-- `PropertyReader<T>` (property_processor.rs:88-92, 109-118); the state is its `value` -/
def propertyReader (fmt : Fmt) (ty : ReadTy) (name : Text) : FProc (Except Err ty.Val) where
  step s
    | .prop _ n v => .ok (if n = name then getValue fmt ty v else s)
    | _ => .ok s
  abort _
    | .prop _ n _ => decide (n = name)
    | _ => false

/-- `PropertyReaderIdx<T>` (property_processor.rs:94-98, 120-129) -/
def propertyReaderIdx (fmt : Fmt) (ty : ReadTy) (idx : Nat) : FProc (Except Err ty.Val) where
  step s
    | .prop i _ v => .ok (if i = idx then getValue fmt ty v else s)
    | _ => .ok s
  abort _
    | .prop i _ _ => decide (i = idx)
    | _ => false

/-- `impl PropertyProcessor for HashMap<String, String>` (property_processor.rs:174-179).
Simplification: the map is the function looking a key up. -/
def hashMapProc (fmt : Fmt) : FProc (Text → Option Text) where
  step s
    | .prop _ n v => .ok (fun k => if k = n then some (v.display fmt) else s k)
    | _ => .ok s
  abort _ _ := false

/-- `FeatureProperties::property` (api.rs:69-76); `src` is `process_properties` of the feature -/
def propertyByName (fmt : Fmt) (src : FProg Bool) (ty : ReadTy) (name : Text) : Except Err ty.Val :=
  match FProg.interp (propertyReader fmt ty name) src (.error .columnNotFound) [] with
  | (v, _, .ok _) => v
  | (_, _, .error e) => .error e

/-- `FeatureProperties::property_n` (api.rs:79-87) -/
def propertyByIdx (fmt : Fmt) (src : FProg Bool) (ty : ReadTy) (n : Nat) : Except Err ty.Val :=
  match FProg.interp (propertyReaderIdx fmt ty n) src (.error .columnNotFound) [] with
  | (v, _, .ok _) => v
  | (_, _, .error e) => .error e

/-- `FeatureProperties::properties` (api.rs:91-95) -/
def propertyMap (fmt : Fmt) (src : FProg Bool) : Except Err (Text → Option Text) :=
  match FProg.interp (hashMapProc fmt) src (fun _ => none) [] with
  | (m, _, .ok _) => .ok m
  | (_, _, .error e) => .error e

/-- `FeatureAccess::process` (api.rs:46-59) -/
def featureProcess (props : FProg Bool) (geom : Prog Unit) (idx : Nat) : FProg Unit := do
  FProg.call (.ftBegin idx)
  FProg.call .propsBegin
  let _ ← props
  FProg.call .propsEnd
  FProg.call .geomBegin
  FProg.lift geom
  FProg.call .geomEnd
  FProg.call (.ftEnd idx)

/-- `dbase::FieldValue`, a foreign type: field values of a shapefile's attribute table.  Dates are represented by the
text `to_string()` gives for them. (used in shp/property_processor.rs:1-40) -/
inductive FieldValue
  | character (v : Option Text)
  | numeric (v : Option F64)
  | logical (v : Option Bool)
  | date (v : Option Text)
  | float (v : Option Float32Bits)
  | integer (v : Int32)
  | currency (v : F64)
  | dateTime (v : Text)
  | double (v : F64)
  | memo (v : Text)
deriving DecidableEq, Repr

/-- the `ColumnValue` passed for a field, `None` where the loop continues (shp/property_processor.rs:12-46) -/
def FieldValue.column : FieldValue → Option ColVal
  | .character (some v) => some (.string v)
  | .numeric (some v) => some (.double v)
  | .logical (some v) => some (.bool v)
  | .date (some s) => some (.dateTime s)
  | .float (some v) => some (.float v)
  | .integer v => some (.int v)
  | .double v => some (.double v)
  | .currency v => some (.double v)
  | .dateTime s => some (.dateTime s)
  | .memo v => some (.string v)
  | .character none | .numeric none | .logical none | .date none | .float none => none

/-- the loop of `process_properties for ShapeRecord` (shp/property_processor.rs:10-54).  The record is a `HashMap`;
the list is its (unspecified) iteration order. -/
def shapeRecordLoop : Nat → List (Text × FieldValue) → FProg Bool
  | _, [] => .ret false
  | i, (name, value) :: rest =>
    match value.column with
    | none => shapeRecordLoop i rest
    | some v => .prop i name v fun finish => if finish then .ret true else shapeRecordLoop (i + 1) rest

/-- `process_properties for ShapeRecord` (shp/property_processor.rs:7-56) -/
def shapeRecordProperties (record : List (Text × FieldValue)) : FProg Bool := shapeRecordLoop 0 record

end Geozero
