import Verif.Model.Feature
import Verif.Model.Property
import Verif.Model.WkbReader

/-
Models /repo/geozero/src/svg/{writer.rs, mod.rs}.

Simplifications: writing to the output never fails; the output is a list of characters instead of its UTF-8 bytes, so
the conversions' `String::from_utf8` is the identity.
-/

namespace Geozero

/-- `-x` on `f64`: flips the sign bit (svg/writer.rs:92-94) -/
def F64.negate (x : F64) : F64 := x ^^^ 0x8000000000000000#64

/-- what the writer uses of `f64`: `Display` and subtraction (svg/writer.rs:57-58, 92-94) -/
structure SvgNum where
  num : F64 → Text
  sub : F64 → F64 → F64

/-- `SvgWriter` (svg/writer.rs:7-13) -/
structure SvgWriter where
  out : Text := []
  invertY : Bool := false
  viewBox : Option (F64 × F64 × F64 × F64) := none
  style : Option Text := none
  size : Option (UInt32 × UInt32) := none
deriving DecidableEq, Repr

namespace SvgWriter

/-- `SvgWriter::new` (svg/writer.rs:16-24) -/
def new (invertY : Bool) : SvgWriter := { invertY }

/-- `set_dimensions` (svg/writer.rs:25-40) -/
def setDimensions (w : SvgWriter) (xmin ymin xmax ymax : F64) (width height : UInt32) : SvgWriter :=
  { w with
    viewBox := if w.invertY then some (xmin, ymax.negate, xmax, ymin.negate) else some (xmin, ymin, xmax, ymax)
    size := some (width, height) }

/-- `set_style` (svg/writer.rs:41-43) -/
def setStyle (w : SvgWriter) (style : Option Text) : SvgWriter := { w with style }

/-- `self.out.write_all` (svg/writer.rs:48 on) -/
def put (w : SvgWriter) (t : Text) : SvgWriter := { w with out := w.out ++ t }

/-- `dataset_begin` (svg/writer.rs:47-79) -/
def datasetBegin (fo : SvgNum) (w : SvgWriter) (name : Option Text) : SvgWriter :=
  let w := w.put (txt "<?xml version=\"1.0\"?>\n<svg xmlns=\"http://www.w3.org/2000/svg\" version=\"1.2\" baseProfile=\"tiny\" ")
  let w := match w.size with
    | some (width, height) =>
      w.put (txt "width=\"" ++ natText width.toNat ++ txt "\" height=\"" ++ natText height.toNat ++ txt "\" ")
    | none => w
  let w := match w.viewBox with
    | some (xmin, ymin, xmax, ymax) =>
      w.put (txt "viewBox=\"" ++ fo.num xmin ++ txt " " ++ fo.num ymin ++ txt " " ++ fo.num (fo.sub xmax xmin) ++ txt " " ++
        fo.num (fo.sub ymax ymin) ++ txt "\" ")
    | none => w
  let w := w.put (txt "stroke-linecap=\"round\" stroke-linejoin=\"round\">\n")
  let w := match w.style with
    | some style => w.put (txt "<style>" ++ style ++ txt "</style>\n")
    | none => w
  let w := w.put (txt "<g id=\"")
  let w := match name with
    | some name => w.put name
    | none => w
  w.put (txt "\">")

/-- the `GeomProcessor` methods (svg/writer.rs:94-141; all others are the defaults of geometry_processor.rs, which do
nothing, except that `empty_point` fails, geometry_processor.rs:133-137) -/
def geomStep (fo : SvgNum) (w : SvgWriter) : Ev → Except Err SvgWriter
  | .xy x y _ =>
    let y := if w.invertY then y.negate else y
    .ok (w.put (fo.num x ++ txt " " ++ fo.num y ++ txt " "))
  | .emptyPoint _ =>
    .error (.geometry "The input was an empty Point, but the output doesn't support empty Points")
  | .gbegin .point _ _ _ => .ok (w.put (txt "<path d=\"M "))
  | .gend .point _ _ => .ok (w.put (txt "Z\"/>"))
  | .gbegin .lineString tagged _ _ => .ok (w.put (if tagged then txt "<path d=\"" else txt "M "))
  | .gend .lineString tagged _ => .ok (w.put (if tagged then txt "\"/>" else txt "Z "))
  | .gbegin .multiLineString _ _ _ => .ok (w.put (txt "<path d=\""))
  | .gend .multiLineString _ _ => .ok (w.put (txt "\"/>"))
  | .gbegin .polygon _ _ _ => .ok (w.put (txt "<path d=\""))
  | .gend .polygon _ _ => .ok (w.put (txt "\"/>"))
  | _ => .ok w

/-- the `FeatureProcessor` methods (svg/writer.rs:46-92; `properties_*` and `geometry_*` are the defaults) -/
def step (fo : SvgNum) (w : SvgWriter) : FEv → Except Err SvgWriter
  | .dsBegin name => .ok (w.datasetBegin fo name)
  | .dsEnd => .ok (w.put (txt "\n</g>\n</svg>"))
  | .ftBegin _ => .ok (w.put (txt "\n"))
  | .geom e => w.geomStep fo e
  | _ => .ok w

/-- as a processor: `dimensions()` is the default, two dimensions; `property` answers `true`, its default
(svg/writer.rs:139, property_processor.rs:46-57) -/
def proc (fo : SvgNum) : FProc SvgWriter where
  step := step fo
  abort _ _ := true

/-- as a geometry processor (`impl GeomProcessor for SvgWriter`, svg/writer.rs:91 on) -/
def gproc (fo : SvgNum) : Prog.Proc SvgWriter where
  step := geomStep fo
  multi _ := false

end SvgWriter

/-- the text written, or the error (svg/mod.rs:41-61, 71-78) -/
def svgResult {α : Type} : SvgWriter × List Ev × Except Err α → Except Err Text
  | (w, _, .ok _) => .ok w.out
  | (_, _, .error e) => .error e

/-- `ToSvg::to_svg` (svg/mod.rs:41-48) and `SvgString::from_wkb` (svg/mod.rs:92-100) for the sources given by `src` -/
def toSvg (fo : SvgNum) (src : Prog Unit) (bs : List Byte) : Except Err Text :=
  svgResult (Prog.interp (SvgWriter.gproc fo) src (SvgWriter.new false) bs)

/-- `ToSvg::to_svg_document` (svg/mod.rs:49-62) -/
def toSvgDocument (fo : SvgNum) (src : Prog Unit) (bs : List Byte) : Except Err Text :=
  let w := ((SvgWriter.new false).datasetBegin fo none).put (txt "\n")
  svgResult <|
    match Prog.interp (SvgWriter.gproc fo) src w bs with
    | (w, evs, .ok r) => (w.put (txt "\n</g>\n</svg>"), evs, .ok r)
    | r => r

/-- `ProcessToSvg::to_svg` (svg/mod.rs:71-80) -/
def processToSvg (fo : SvgNum) (src : FProg Unit) (bs : List Byte) : Except Err Text :=
  match FProg.interp (SvgWriter.proc fo) src (SvgWriter.new false) bs with
  | (w, _, .ok _) => .ok w.out
  | (_, _, .error e) => .error e

/-- `FromWkb for SvgString` (svg/mod.rs:91-101) -/
def svgFromWkb (fo : SvgNum) (fw : FOps) (d : WkbDialect) (bs : List Byte) : Except Err Text :=
  toSvg fo (processWkbTypeGeom fw d) bs

end Geozero
