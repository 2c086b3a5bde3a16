import Verif.Spec.Geom
import Verif.Model.Bytes

/-
Independent specification of well-known binary, written from OGC 06-103r4 (clause 8), the PostGIS
EWKB description, the GeoPackage binary header, MySQL's internal geometry format and SpatiaLite's
BLOB geometry.  Nothing here refers to the reader or the writer of the crate; only the fixed-width
integer encodings (`encU32`, `encI32`, `encF64`) are shared.

The specification is a *relation* between a geometry and a byte string, because every nested geometry
may choose its own byte order.
-/

namespace Geozero
namespace Spec

/-- OGC 06-103r4 table 7: integer code of each geometry type. -/
def typeCode : Geom → Nat
  | .emptyPoint => 1
  | .point _ => 1
  | .lineString _ => 2
  | .polygon _ => 3
  | .multiPoint _ => 4
  | .multiLineString _ => 5
  | .multiPolygon _ => 6
  | .collection _ => 7
  | .circularString _ => 8
  | .compoundCurve _ => 9
  | .curvePolygon _ => 10
  | .multiCurve _ => 11
  | .multiSurface _ => 12
  | .polyhedralSurface _ => 15
  | .tin _ => 16
  | .triangle _ => 17

/-- byte order mark: 0 = big endian (XDR), 1 = little endian (NDR) -/
def orderMark : Endian → Byte
  | .be => 0
  | .le => 1

/-- ordinates in the order x, y, z, m, those present -/
def coordBytes (e : Endian) (c : Coord) : List Byte :=
  encF64 e c.x ++ encF64 e c.y ++ (c.z.toList ++ c.m.toList).flatMap (encF64 e)

/-- a coordinate has exactly the dimensions `d` -/
def HasDims (d : Dims) (c : Coord) : Prop := c.z.isSome = d.z ∧ c.m.isSome = d.m

/-- the conventional encoding of an empty point: every ordinate present is NaN -/
def AllNaN (c : Coord) : Prop :=
  c.x.isNaN = true ∧ c.y.isNaN = true ∧ (∀ z ∈ c.z, F64.isNaN z = true) ∧ (∀ m ∈ c.m, F64.isNaN m = true)

/-- A nested-header convention: `H outer own code bytes` says that `bytes` is a header introducing a
geometry of type `code` whose numbers are in byte order `own`, inside a geometry of byte order `outer`. -/
abbrev HeaderSpec := Endian → Endian → Nat → List Byte → Prop

/-- concatenation of one byte string per member -/
def Cat {α : Type} (R : α → List Byte → Prop) : List α → List Byte → Prop
  | [], bs => bs = []
  | x :: xs, bs => ∃ b1 b2, bs = b1 ++ b2 ∧ R x b1 ∧ Cat R xs b2

/-- a count followed by the members -/
def Counted {α : Type} (e : Endian) (R : α → List Byte → Prop) (xs : List α) (bs : List Byte) : Prop :=
  xs.length < 2 ^ 32 ∧ ∃ bb, bs = encU32 e xs.length ++ bb ∧ Cat R xs bb

/-- a nested geometry: header, then body in the byte order the header announces -/
def Nested (H : HeaderSpec) (e : Endian) (code : Nat) (body : Endian → List Byte → Prop)
    (bs : List Byte) : Prop :=
  ∃ e' hb bb, bs = hb ++ bb ∧ H e e' code hb ∧ body e' bb

/-- point array of a line string, circular string or linear ring -/
def PointsBody (cs : List Coord) (e : Endian) (bs : List Byte) : Prop :=
  Counted e (fun c b => b = coordBytes e c) cs bs

/-- rings of a polygon or triangle -/
def RingsBody (rings : List (List Coord)) (e : Endian) (bs : List Byte) : Prop :=
  Counted e (fun r b => PointsBody r e b) rings bs

def SegRel (H : HeaderSpec) (e : Endian) : Seg → List Byte → Prop
  | .line cs => Nested H e 2 (PointsBody cs)
  | .circ cs => Nested H e 8 (PointsBody cs)

def CompoundBody (H : HeaderSpec) (ss : List Seg) (e : Endian) (bs : List Byte) : Prop :=
  Counted e (SegRel H e) ss bs

def CurveRel (H : HeaderSpec) (e : Endian) : Curve → List Byte → Prop
  | .seg s => SegRel H e s
  | .compound ss => Nested H e 9 (CompoundBody H ss)

def CurvesBody (H : HeaderSpec) (cs : List Curve) (e : Endian) (bs : List Byte) : Prop :=
  Counted e (CurveRel H e) cs bs

def SurfaceRel (H : HeaderSpec) (e : Endian) : Surface → List Byte → Prop
  | .polygon rings => Nested H e 3 (RingsBody rings)
  | .curvePolygon rings => Nested H e 10 (CurvesBody H rings)

mutual
/-- `Body d H g e bs`: `bs` is what follows the header of `g`, with numbers in byte order `e` and nested
headers according to `H`; an empty point has the ordinates `d` says. -/
def Body (d : Dims) (H : HeaderSpec) : Geom → Endian → List Byte → Prop
  | .emptyPoint, e, bs => ∃ c, HasDims d c ∧ AllNaN c ∧ bs = coordBytes e c
  | .point c, e, bs => ¬ AllNaN c ∧ bs = coordBytes e c
  | .multiPoint cs, e, bs => Counted e (fun c => Nested H e 1 (fun e' b => b = coordBytes e' c)) cs bs
  | .lineString cs, e, bs => PointsBody cs e bs
  | .circularString cs, e, bs => PointsBody cs e bs
  | .compoundCurve ss, e, bs => CompoundBody H ss e bs
  | .multiLineString ls, e, bs => Counted e (fun l => Nested H e 2 (PointsBody l)) ls bs
  | .multiCurve cs, e, bs => CurvesBody H cs e bs
  | .polygon rings, e, bs => RingsBody rings e bs
  | .triangle rings, e, bs => RingsBody rings e bs
  | .curvePolygon rings, e, bs => CurvesBody H rings e bs
  | .multiPolygon ps, e, bs => Counted e (fun p => Nested H e 3 (RingsBody p)) ps bs
  | .polyhedralSurface ps, e, bs => Counted e (fun p => Nested H e 3 (RingsBody p)) ps bs
  | .tin ts, e, bs => Counted e (fun t => Nested H e 17 (RingsBody t)) ts bs
  | .multiSurface ss, e, bs => Counted e (SurfaceRel H e) ss bs
  | .collection gs, e, bs => gs.length < 2 ^ 32 ∧ ∃ bb, bs = encU32 e gs.length ++ bb ∧ Bodies d H gs e bb

/-- members of a collection, each with its own header -/
def Bodies (d : Dims) (H : HeaderSpec) : List Geom → Endian → List Byte → Prop
  | [], _, bs => bs = []
  | g :: gs, e, bs => ∃ b1 b2, bs = b1 ++ b2 ∧
      (∃ e' hb bb, b1 = hb ++ bb ∧ H e e' (typeCode g) hb ∧ Body d H g e' bb) ∧ Bodies d H gs e b2
end

mutual
/-- every coordinate of the geometry satisfies `P` (for an empty point there is none) -/
def AllCoords (P : Coord → Prop) : Geom → Prop
  | .emptyPoint => True
  | .point c => P c
  | .multiPoint cs | .lineString cs | .circularString cs => ∀ c ∈ cs, P c
  | .compoundCurve ss => ∀ s ∈ ss, SegCoords P s
  | .multiLineString ls | .polygon ls | .triangle ls => ∀ l ∈ ls, ∀ c ∈ l, P c
  | .multiCurve cs | .curvePolygon cs => ∀ c ∈ cs, CurveCoords P c
  | .multiPolygon ps | .polyhedralSurface ps | .tin ps => ∀ p ∈ ps, ∀ l ∈ p, ∀ c ∈ l, P c
  | .multiSurface ss => ∀ s ∈ ss, SurfaceCoords P s
  | .collection gs => AllCoordsList P gs
where
  SegCoords (P : Coord → Prop) : Seg → Prop
    | .line cs | .circ cs => ∀ c ∈ cs, P c
  CurveCoords (P : Coord → Prop) : Curve → Prop
    | .seg s => SegCoords P s
    | .compound ss => ∀ s ∈ ss, SegCoords P s
  SurfaceCoords (P : Coord → Prop) : Surface → Prop
    | .polygon rings => ∀ l ∈ rings, ∀ c ∈ l, P c
    | .curvePolygon rings => ∀ c ∈ rings, CurveCoords P c

def AllCoordsList (P : Coord → Prop) : List Geom → Prop
  | [] => True
  | g :: gs => AllCoords P g ∧ AllCoordsList P gs
end

/-! ### OGC WKB -/

/-- OGC type code with dimension offset: +1000 for Z, +2000 for M, +3000 for ZM -/
def ogcCode (d : Dims) (code : Nat) : Nat :=
  match d.z, d.m with
  | false, false => code
  | true, false => 1000 + code
  | false, true => 2000 + code
  | true, true => 3000 + code

/-- OGC header: byte order mark, then the type code in that byte order -/
def ogcHeader (d : Dims) : HeaderSpec := fun _ e code bs =>
  bs = orderMark e :: encU32 e (ogcCode d code)

/-- `bs` is an OGC WKB encoding of `g` with dimensions `d`, outermost byte order `e`. -/
def OgcWkb (d : Dims) (e : Endian) (g : Geom) (bs : List Byte) : Prop :=
  AllCoords (HasDims d) g ∧
  ∃ hb bb, bs = hb ++ bb ∧ ogcHeader d e e (typeCode g) hb ∧ Body d (ogcHeader d) g e bb

/-! ### EWKB -/

/-- EWKB type word: bit 31 = Z, bit 30 = M, bit 29 = SRID present -/
def ewkbCode (d : Dims) (srid : Bool) (code : Nat) : Nat :=
  code + (if d.z then 2 ^ 31 else 0) + (if d.m then 2 ^ 30 else 0) + (if srid then 2 ^ 29 else 0)

/-- header of a nested EWKB geometry (no SRID) -/
def ewkbHeader (d : Dims) : HeaderSpec := fun _ e code bs =>
  bs = orderMark e :: encU32 e (ewkbCode d false code)

/-- `bs` is an EWKB encoding of `g` with dimensions `d` and SRID `srid`. -/
def Ewkb (d : Dims) (e : Endian) (srid : Option Int) (g : Geom) (bs : List Byte) : Prop :=
  AllCoords (HasDims d) g ∧
  ∃ bb, Body d (ewkbHeader d) g e bb ∧
    bs = orderMark e :: encU32 e (ewkbCode d srid.isSome (typeCode g))
      ++ (srid.toList.flatMap (encI32 e)) ++ bb

/-! ### GeoPackage -/

/-- envelope contents indicator code for a number of envelope values:
0: none, 1: xy, 2: xyz, 3: xym, 4: xyzm -/
def EnvelopeCode (code : Nat) (n : Nat) : Prop :=
  (code = 0 ∧ n = 0) ∨ (code = 1 ∧ n = 4) ∨ (code = 2 ∧ n = 6) ∨ (code = 3 ∧ n = 6) ∨ (code = 4 ∧ n = 8)

/-- GeoPackage binary header in byte order `e`: magic, version, flags, SRS id, envelope.
Flags: bit 0 byte order, bits 1-3 envelope code, bit 4 empty, bit 5 extended. -/
def GpkgHeader (e : Endian) (srid : Int) (env : List F64) (bs : List Byte) : Prop :=
  ∃ (version : Byte) (code : Nat) (extended empty : Bool), EnvelopeCode code env.length ∧
    bs = [0x47, 0x50, version,
        UInt8.ofNat ((if e = .le then 1 else 0) + 2 * code + (if empty then 16 else 0)
          + (if extended then 32 else 0))]
      ++ encI32 e srid ++ env.flatMap (encF64 e)

/-- `bs` is a GeoPackage geometry blob: header in byte order `he`, then OGC WKB in byte order `e`. -/
def Gpkg (d : Dims) (he e : Endian) (srid : Int) (env : List F64) (g : Geom) (bs : List Byte) : Prop :=
  ∃ hb wb, bs = hb ++ wb ∧ GpkgHeader he srid env hb ∧ OgcWkb d e g wb

/-! ### MySQL -/

/-- MySQL: four byte little endian SRID, then little endian OGC WKB -/
def MySql (d : Dims) (srid : Nat) (g : Geom) (bs : List Byte) : Prop :=
  ∃ wb, bs = encU32 .le srid ++ wb ∧ OgcWkb d .le g wb

/-! ### SpatiaLite -/

/-- header of a geometry nested in a SpatiaLite BLOB: entity mark 0x69 and type code, in the byte order
of the whole BLOB -/
def spatialiteHeader (d : Dims) : HeaderSpec := fun outer e code bs =>
  e = outer ∧ bs = 0x69 :: encU32 e (ogcCode d code)

/-- `bs` is a SpatiaLite BLOB: start mark 0, byte order, SRID, MBR, mark 0x7C, type code, body,
end mark 0xFE. -/
def SpatiaLite (d : Dims) (e : Endian) (srid : Int) (mbr : List F64) (g : Geom) (bs : List Byte) : Prop :=
  mbr.length = 4 ∧ AllCoords (HasDims d) g ∧
  ∃ bb, Body d (spatialiteHeader d) g e bb ∧
    bs = [0, orderMark e] ++ encI32 e srid ++ mbr.flatMap (encF64 e) ++ [0x7C]
      ++ encU32 e (ogcCode d (typeCode g)) ++ bb ++ [0xFE]

end Spec

/-! ### Nesting levels as the reader counts them -/

def Curve.levels : Curve → Nat
  | .seg _ => 0
  | .compound _ => 2

def Surface.levels : Surface → Nat
  | .polygon _ => 0
  | .curvePolygon rings => (rings.map (fun c => 1 + c.levels)).foldr max 1

mutual
/-- How many container levels below the outermost geometry have to be entered: each collection adds
one, a compound curve or curve polygon one, a compound curve inside a curve polygon three in total,
inside a multicurve two. -/
def Geom.levels : Geom → Nat
  | .compoundCurve _ => 1
  | .multiCurve cs => (cs.map Curve.levels).foldr max 0
  | .curvePolygon rings => (rings.map (fun c => 1 + c.levels)).foldr max 1
  | .multiSurface ss => (ss.map Surface.levels).foldr max 0
  | .collection gs => levelsList gs
  | _ => 0
def levelsList : List Geom → Nat
  | [] => 0
  | g :: gs => max (1 + g.levels) (levelsList gs)
end

end Geozero
