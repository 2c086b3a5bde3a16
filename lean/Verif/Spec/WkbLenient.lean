import Verif.Spec.Wkb

/-
Independent specification of the byte strings the crate's WKB readers take for a geometry: the
encodings of `Spec/Wkb.lean`, relaxed in the ways the readers are known to be lenient.  Nothing here
refers to the reader.

Every header gives a *frame*: byte order and dimensions of the numbers that follow it.  A nested header
is free to give another frame than the header around it.
-/

namespace Geozero
namespace Spec

/-- What a header says of the numbers that follow it. -/
structure Frame where
  order : Endian
  z : Bool
  m : Bool
deriving DecidableEq, Repr

/-- A lenient nested-header convention: `H outer own code bytes` says that `bytes` is a header inside a
geometry with frame `outer`, introducing numbers with frame `own` and saying type `code`. -/
abbrev LenientHeader := Frame → Frame → Nat → List Byte → Prop

/-- a coordinate in a frame: exactly the ordinates the frame says, in its byte order -/
def CoordIn (f : Frame) (c : Coord) (bs : List Byte) : Prop :=
  (c.z.isSome = f.z ∧ c.m.isSome = f.m) ∧ bs = coordBytes f.order c

/-- header with an admissible type code, then a body in the frame the header gives -/
def Member (H : LenientHeader) (f : Frame) (types : Nat → Prop) (body : Frame → List Byte → Prop)
    (bs : List Byte) : Prop :=
  ∃ f' code hb bb, bs = hb ++ bb ∧ H f f' code hb ∧ types code ∧ body f' bb

/-- the readers do not look at the type a member of a multi point, multi line string, multi polygon,
polyhedral surface or TIN says it has -/
def anyType : Nat → Prop := fun _ => True

def PointsIn (cs : List Coord) (f : Frame) (bs : List Byte) : Prop := Counted f.order (CoordIn f) cs bs

def RingsIn (rings : List (List Coord)) (f : Frame) (bs : List Byte) : Prop :=
  Counted f.order (fun r => PointsIn r f) rings bs

def SegIn (H : LenientHeader) (f : Frame) : Seg → List Byte → Prop
  | .line cs => Member H f (· = 2) (PointsIn cs)
  | .circ cs => Member H f (· = 8) (PointsIn cs)

def CompoundIn (H : LenientHeader) (ss : List Seg) (f : Frame) (bs : List Byte) : Prop :=
  Counted f.order (SegIn H f) ss bs

def CurveIn (H : LenientHeader) (f : Frame) : Curve → List Byte → Prop
  | .seg s => SegIn H f s
  | .compound ss => Member H f (· = 9) (CompoundIn H ss)

def CurvesIn (H : LenientHeader) (cs : List Curve) (f : Frame) (bs : List Byte) : Prop :=
  Counted f.order (CurveIn H f) cs bs

def SurfaceIn (H : LenientHeader) (f : Frame) : Surface → List Byte → Prop
  | .polygon rings => Member H f (· = 3) (RingsIn rings)
  | .curvePolygon rings => Member H f (· = 10) (CurvesIn H rings)

mutual
/-- `BodyIn H g f bs`: `bs` is what follows the header of `g` if that header gave frame `f`. -/
def BodyIn (H : LenientHeader) : Geom → Frame → List Byte → Prop
  | .emptyPoint, f, bs => ∃ c, AllNaN c ∧ CoordIn f c bs
  | .point c, f, bs => ¬ AllNaN c ∧ CoordIn f c bs
  | .multiPoint cs, f, bs => Counted f.order (fun c => Member H f anyType (fun f' => CoordIn f' c)) cs bs
  | .lineString cs, f, bs => PointsIn cs f bs
  | .circularString cs, f, bs => PointsIn cs f bs
  | .compoundCurve ss, f, bs => CompoundIn H ss f bs
  | .multiLineString ls, f, bs => Counted f.order (fun l => Member H f anyType (PointsIn l)) ls bs
  | .multiCurve cs, f, bs => CurvesIn H cs f bs
  | .polygon rings, f, bs => RingsIn rings f bs
  | .triangle rings, f, bs => RingsIn rings f bs
  | .curvePolygon rings, f, bs => CurvesIn H rings f bs
  | .multiPolygon ps, f, bs => Counted f.order (fun p => Member H f anyType (RingsIn p)) ps bs
  | .polyhedralSurface ps, f, bs => Counted f.order (fun p => Member H f anyType (RingsIn p)) ps bs
  | .tin ts, f, bs => Counted f.order (fun t => Member H f anyType (RingsIn t)) ts bs
  | .multiSurface ss, f, bs => Counted f.order (SurfaceIn H f) ss bs
  | .collection gs, f, bs => gs.length < 2 ^ 32 ∧ ∃ bb, bs = encU32 f.order gs.length ++ bb ∧ BodiesIn H gs f bb

/-- members of a collection, each with a header that says its type -/
def BodiesIn (H : LenientHeader) : List Geom → Frame → List Byte → Prop
  | [], _, bs => bs = []
  | g :: gs, f, bs => ∃ b1 b2, bs = b1 ++ b2 ∧
      (∃ f' hb bb, b1 = hb ++ bb ∧ H f f' (typeCode g) hb ∧ BodyIn H g f' bb) ∧ BodiesIn H gs f b2
end

/-- byte order mark: 0 means big endian, anything else little endian -/
def lenientOrder (mark : Byte) : Endian := if mark = 0 then .be else .le

/-- dimensions from the thousands of a type word: 1 is Z, 2 is M, 3 is ZM, anything else is XY -/
def ThousandsDims (k : Nat) (z m : Bool) : Prop :=
  (z = true ↔ k = 1 ∨ k = 3) ∧ (m = true ↔ k = 2 ∨ k = 3)

/-- bit `k` of a word -/
def HasBit (w k : Nat) : Prop := w / 2 ^ k % 2 = 1

/-- OGC header: mark, then a word whose last three digits are the type and whose thousands the
dimensions -/
def lenientOgc : LenientHeader := fun _ f code bs =>
  ∃ (mark : Byte) (word : Nat), word < 2 ^ 32 ∧ f.order = lenientOrder mark ∧ code = word % 1000 ∧
    ThousandsDims (word / 1000) f.z f.m ∧ bs = mark :: encU32 f.order word

/-- EWKB header: mark, then a word whose low byte is the type; bit 31 says Z, bit 30 says M, bit 29 that
an SRID follows; the other bits do not matter. -/
def LenientEwkbHeader (f : Frame) (code : Nat) (srid : Option Int) (bs : List Byte) : Prop :=
  ∃ (mark : Byte) (word : Nat), word < 2 ^ 32 ∧ f.order = lenientOrder mark ∧ code = word % 256 ∧
    (f.z = true ↔ HasBit word 31) ∧ (f.m = true ↔ HasBit word 30) ∧ (srid.isSome = true ↔ HasBit word 29) ∧
    (∀ s ∈ srid, isI32 s) ∧ bs = mark :: encU32 f.order word ++ srid.toList.flatMap (encI32 f.order)

/-- nested EWKB headers may carry an SRID as well; it is ignored -/
def lenientEwkb : LenientHeader := fun _ f code bs => ∃ srid, LenientEwkbHeader f code srid bs

/-- header nested in a SpatiaLite BLOB: entity mark and type word; order and dimensions are those of the
surrounding geometry, whatever the thousands of the word say.  Words above a million say that the
geometry is compressed. -/
def lenientSpatialite : LenientHeader := fun outer f code bs =>
  f = outer ∧ ∃ word, word ≤ 1000000 ∧ code = word % 1000 ∧ bs = 0x69 :: encU32 f.order word

/-- `bs` is taken for the geometry `g` by a reader of plain WKB. -/
def LenientWkb (g : Geom) (bs : List Byte) : Prop :=
  ∃ f hb bb, bs = hb ++ bb ∧ lenientOgc f f (typeCode g) hb ∧ BodyIn lenientOgc g f bb

/-- `bs` is taken for `g` with that SRID by a reader of EWKB. -/
def LenientEwkb (srid : Option Int) (g : Geom) (bs : List Byte) : Prop :=
  ∃ f hb bb, bs = hb ++ bb ∧ LenientEwkbHeader f (typeCode g) srid hb ∧ BodyIn lenientEwkb g f bb

/-- GeoPackage blob: magic, any version, flags of which bit 0 gives the byte order of header *and body*
and bits 1-3 the envelope, then an OGC header whose byte order counts for its own word only. -/
def LenientGpkg (srid : Int) (g : Geom) (bs : List Byte) : Prop :=
  ∃ (version flags : Byte) (e : Endian) (env : List F64) (f : Frame) (hb bb : List Byte),
    e = (if flags.toNat % 2 = 1 then Endian.le else Endian.be) ∧
    EnvelopeCode (flags.toNat / 2 % 8) env.length ∧ isI32 srid ∧
    lenientOgc f f (typeCode g) hb ∧ BodyIn lenientOgc g { f with order := e } bb ∧
    bs = [0x47, 0x50, version, flags] ++ encI32 e srid ++ env.flatMap (encF64 e) ++ hb ++ bb

/-- MySQL geometry: little endian SRID below 2^31, then WKB whose outermost mark says little endian -/
def LenientMySql (srid : Nat) (g : Geom) (bs : List Byte) : Prop :=
  ∃ f hb bb, srid < 2 ^ 31 ∧ f.order = .le ∧ lenientOgc f f (typeCode g) hb ∧ BodyIn lenientOgc g f bb ∧
    bs = encU32 .le srid ++ hb ++ bb

/-- SpatiaLite BLOB without compressed geometries, up to and excluding the end mark, which is not
looked at: either a tiny point (bit 7 of the flags), or MBR, mark 0x7C, type word and body.  Bit 0 of the
flags is the byte order. -/
def LenientSpatiaLite (srid : Int) (g : Geom) (bs : List Byte) : Prop :=
  isI32 srid ∧ ∃ (flags : Byte) (f : Frame) (bb : List Byte),
    f.order = (if flags.toNat % 2 = 1 then Endian.le else Endian.be) ∧ BodyIn lenientSpatialite g f bb ∧
    ((128 ≤ flags.toNat ∧ typeCode g = 1 ∧ ∃ d : Byte, (f.z = true ↔ d = 2 ∨ d = 4) ∧ (f.m = true ↔ d = 3 ∨ d = 4) ∧
        bs = [0, flags] ++ encI32 f.order srid ++ [d] ++ bb) ∨
      (flags.toNat < 128 ∧ ∃ (mbr : List F64) (word : Nat), mbr.length = 4 ∧ word ≤ 1000000 ∧
        typeCode g = word % 1000 ∧ ThousandsDims (word % 1000000 / 1000) f.z f.m ∧
        bs = [0, flags] ++ encI32 f.order srid ++ mbr.flatMap (encF64 f.order) ++ [0x7C] ++ encU32 f.order word
          ++ bb))

end Spec
end Geozero
