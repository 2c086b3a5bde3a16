import Verif.Model.GeoTypes
import Verif.Model.Property

/-
Models /repo/geozero/src/geo_types/geo_types_feature_writer.rs and `ToGeoFeatures` of geo_types/mod.rs.

Simplification: a `HashMap` is a function from keys to optional values (its iteration order is not modelled).
-/

namespace Geozero

/-- `OwnedColumnValue` (geo_types_feature_writer.rs:156-178) -/
inductive OwnedVal
  | byte (v : Int8)
  | ubyte (v : UInt8)
  | bool (v : Bool)
  | short (v : Int16)
  | ushort (v : UInt16)
  | int (v : Int32)
  | uint (v : UInt32)
  | long (v : Int64)
  | ulong (v : UInt64)
  | float (v : Float32Bits)
  | double (v : F64)
  | string (v : Text)
  | json (v : Text)
  | dateTime (v : Text)
  | binary (v : List Byte)
deriving DecidableEq, Repr

/-- `From<&OwnedColumnValue> for ColumnValue` (geo_types_feature_writer.rs:180-200) -/
def OwnedVal.column : OwnedVal → ColVal
  | .byte v => .byte v
  | .ubyte v => .ubyte v
  | .bool v => .bool v
  | .short v => .short v
  | .ushort v => .ushort v
  | .int v => .int v
  | .uint v => .uint v
  | .long v => .long v
  | .ulong v => .ulong v
  | .float v => .float v
  | .double v => .double v
  | .string v => .string v
  | .json v => .json v
  | .dateTime v => .dateTime v
  | .binary v => .binary v

/-- `From<&ColumnValue> for OwnedColumnValue` (geo_types_feature_writer.rs:202-222) -/
def ColVal.owned : ColVal → OwnedVal
  | .byte v => .byte v
  | .ubyte v => .ubyte v
  | .bool v => .bool v
  | .short v => .short v
  | .ushort v => .ushort v
  | .int v => .int v
  | .uint v => .uint v
  | .long v => .long v
  | .ulong v => .ulong v
  | .float v => .float v
  | .double v => .double v
  | .string v => .string v
  | .json v => .json v
  | .dateTime v => .dateTime v
  | .binary v => .binary v

/-- `GeoFeature` (geo_types_feature_writer.rs:12-16), `GeoProperties` (:10) -/
structure GeoFeature where
  geometry : GeoGeom
  properties : Text → Option OwnedVal

/-- `GeoFeature::property` (geo_types_feature_writer.rs:277-284) -/
def GeoFeature.property (fmt : Fmt) (f : GeoFeature) (ty : ReadTy) (name : Text) : Except Err ty.Val :=
  match f.properties name with
  | none => .error .columnNotFound
  | some owned => getValue fmt ty owned.column

/-- `GeoFeatureWriter` (geo_types_feature_writer.rs:18-23) -/
structure GeoFeatureWriter where
  geom : GeoWriter := {}
  next : Option (Text → Option OwnedVal) := none
  features : List GeoFeature := []

namespace GeoFeatureWriter

/-- `debug_assert!(c)` in a debug build (geo_types_feature_writer.rs:226, 227, 249) -/
def check (c : Bool) (k : Except Err GeoFeatureWriter) : Except Err GeoFeatureWriter :=
  if c then k else .error (.panic "debug_assert")

/-- `property` (geo_types_feature_writer.rs:146-153) -/
def property (w : GeoFeatureWriter) (name : Text) (v : ColVal) : Except Err GeoFeatureWriter :=
  match w.next with
  | none => .error (.panic "properties should be initialized before traversing properties")
  | some ps => .ok { w with next := some fun k => if k = name then some v.owned else ps k }

/-- `feature_begin` (geo_types_feature_writer.rs:225-230) -/
def featureBegin (w : GeoFeatureWriter) : Except Err GeoFeatureWriter :=
  check w.geom.geoms.isEmpty (check w.next.isNone (.ok { w with next := some fun _ => none }))

/-- `feature_end` (geo_types_feature_writer.rs:231-247) -/
def featureEnd (w : GeoFeatureWriter) : Except Err GeoFeatureWriter :=
  match w.geom.takeGeometry with
  | (none, _) => .error (.featureGeometry "missing geometry")
  | (some geometry, geom) =>
    match w.next with
    | none => .error (.feature "missing properties")
    | some properties => .ok { geom, next := none, features := w.features ++ [⟨geometry, properties⟩] }

/-- the methods of the three traits (geo_types_feature_writer.rs:25-252) -/
def step (sz : ElemSizes) (w : GeoFeatureWriter) : FEv → Except Err GeoFeatureWriter
  | .geom e =>
    match w.geom.step sz e with
    | .ok geom => .ok { w with geom }
    | .error x => .error x
  | .prop _ name v => w.property name v
  | .ftBegin _ => w.featureBegin
  | .ftEnd _ => w.featureEnd
  | .geomBegin => check w.geom.geoms.isEmpty (.ok w)
  | _ => .ok w

/-- the state after a failed call that is not a geometry call: `feature_end` has taken the geometry, if there was one
(geo_types_feature_writer.rs:231-247) -/
def left (w : GeoFeatureWriter) : FEv → GeoFeatureWriter
  | .ftEnd _ => { w with geom := w.geom.takeGeometry.2 }
  | _ => w

/-- as a processor: `property` answers `true` (geo_types_feature_writer.rs:152); the dimensions are those of `GeoWriter`,
the defaults -/
def proc (sz : ElemSizes) : FProc GeoFeatureWriter where
  step := step sz
  left := left
  abort _ _ := true

end GeoFeatureWriter

/-- `ToGeoFeatures::to_geo_features` (geo_types/mod.rs:36-42) -/
def toGeoFeatures (sz : ElemSizes) (src : FProg Unit) (bs : List Byte) : Except Err (List GeoFeature) :=
  match FProg.interp (GeoFeatureWriter.proc sz) src {} bs with
  | (w, _, .ok _) => .ok w.features
  | (_, _, .error e) => .error e

end Geozero
