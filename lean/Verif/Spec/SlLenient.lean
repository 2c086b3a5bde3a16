import Verif.Spec.WkbLenient
import Verif.Spec.WkbSpatialite

/-
Independent specification of the SpatiaLite BLOBs the crate's reader takes for a geometry, with compressed
geometries at any place.  A line string is either plain or *packed*: the reader announces and numbers the vertices
of packed ones in its own way, so a geometry here says of each line string which it is.  Otherwise the geometries,
their calls and the byte strings are those of `Spec/Geom.lean` and `Spec/WkbLenient.lean`.
-/

namespace Geozero
namespace Sl
open Spec

/-- a line string as a BLOB has it: plain, or packed with the announced number of vertices, all vertices but the
last, and the last -/
inductive Line
  | plain (cs : List Coord)
  | packed (announced : Nat) (cs : List Coord) (last : Coord)

/-- A part of a compound curve. -/
inductive Seg
  | line (l : Line)
  | circ (cs : List Coord)

/-- A curve: a single segment or a compound curve. -/
inductive Curve
  | seg (s : Seg)
  | compound (ss : List Seg)

/-- A surface: a polygon (list of rings) or a curve polygon (list of curves). -/
inductive Surface
  | polygon (rings : List Line)
  | curvePolygon (rings : List Curve)

/-- Geometries in which each line string is plain or packed. -/
inductive Geom
  | emptyPoint
  | point (c : Coord)
  | multiPoint (cs : List Coord)
  | lineString (l : Line)
  | circularString (cs : List Coord)
  | compoundCurve (ss : List Seg)
  | multiLineString (ls : List Line)
  | multiCurve (cs : List Curve)
  | polygon (rings : List Line)
  | triangle (rings : List Line)
  | curvePolygon (rings : List Curve)
  | multiPolygon (ps : List (List Line))
  | polyhedralSurface (ps : List (List Line))
  | tin (ts : List (List Line))
  | multiSurface (ss : List Surface)
  | collection (gs : List Geom)

/-! ### the calls -/

/-- The calls of a line string.  A packed one is announced with the number it says; its last vertex is numbered with
that number instead of the one before. -/
def lineEvs (multi tagged : Bool) (idx : Nat) : Line → List Ev
  | .plain cs => Geozero.lineEvs multi tagged idx cs
  | .packed n cs last =>
    .gbegin .lineString tagged n idx :: (evList (coordEvs multi) 0 cs ++ (coordEvs multi n last ++ [.gend .lineString tagged idx]))

def polyEvs (multi tagged : Bool) (idx : Nat) (rings : List Line) : List Ev :=
  bracket .polygon tagged idx (lineEvs multi false) rings

def triEvs (multi tagged : Bool) (idx : Nat) (rings : List Line) : List Ev :=
  bracket .triangle tagged idx (lineEvs multi false) rings

def segEvs (multi : Bool) (idx : Nat) : Seg → List Ev
  | .line l => lineEvs multi false idx l
  | .circ cs => circEvs multi idx cs

def curveEvs (multi : Bool) (idx : Nat) : Curve → List Ev
  | .seg s => segEvs multi idx s
  | .compound ss => bracket .compoundCurve true idx (segEvs multi) ss

def surfaceEvs (multi : Bool) (idx : Nat) : Surface → List Ev
  | .polygon rings => polyEvs multi false idx rings
  | .curvePolygon rings => bracket .curvePolygon true idx (curveEvs multi) rings

mutual
/-- The calls for a geometry delivered at index `idx`. -/
def Geom.events (multi : Bool) (idx : Nat) : Geom → List Ev
  | .emptyPoint => [.emptyPoint idx]
  | .point c => [.gbegin .point true 1 idx, coordEv multi c 0, .gend .point true idx]
  | .multiPoint cs => bracket .multiPoint true idx (coordEvs multi) cs
  | .lineString l => lineEvs multi true idx l
  | .circularString cs => circEvs multi idx cs
  | .compoundCurve ss => bracket .compoundCurve true idx (segEvs multi) ss
  | .multiLineString ls => bracket .multiLineString true idx (lineEvs multi false) ls
  | .multiCurve cs => bracket .multiCurve true idx (curveEvs multi) cs
  | .polygon rings => polyEvs multi true idx rings
  | .triangle rings => triEvs multi true idx rings
  | .curvePolygon rings => bracket .curvePolygon true idx (curveEvs multi) rings
  | .multiPolygon ps => bracket .multiPolygon true idx (polyEvs multi false) ps
  | .polyhedralSurface ps => bracket .polyhedralSurface true idx (polyEvs multi false) ps
  | .tin ts => bracket .tin true idx (triEvs multi false) ts
  | .multiSurface ss => bracket .multiSurface true idx (surfaceEvs multi) ss
  | .collection gs =>
    .gbegin .collection true gs.length idx :: (eventsList multi 0 gs ++ [.gend .collection true idx])

/-- Members of a collection, numbered from `i`. -/
def eventsList (multi : Bool) (i : Nat) : List Geom → List Ev
  | [] => []
  | g :: gs => Geom.events multi i g ++ eventsList multi (i + 1) gs
end

theorem eventsList_eq (multi : Bool) (i : Nat) (gs : List Geom) :
    eventsList multi i gs = evList (Geom.events multi) i gs := by
  induction gs generalizing i with
  | nil => simp [eventsList, evList]
  | cons g gs ih => simp [eventsList, evList, ih]

theorem events_collection (multi : Bool) (idx : Nat) (gs : List Geom) :
    Geom.events multi idx (.collection gs) = bracket .collection true idx (Geom.events multi) gs := by
  simp [Geom.events, bracket, eventsList_eq]

/-! ### the type code and the nesting, as for all geometries -/

def typeCode : Geom → Nat
  | .emptyPoint => 1
  | .point _ => 1
  | .lineString _ => 2
  | .polygon _ => 3
  | .multiPoint _ => 4
  | .multiLineString _ => 5
  | .multiPolygon _ => 6
  | .collection _ => 7
  | .circularString _ => 8
  | .compoundCurve _ => 9
  | .curvePolygon _ => 10
  | .multiCurve _ => 11
  | .multiSurface _ => 12
  | .polyhedralSurface _ => 15
  | .tin _ => 16
  | .triangle _ => 17

def Curve.levels : Curve → Nat
  | .seg _ => 0
  | .compound _ => 2

def Surface.levels : Surface → Nat
  | .polygon _ => 0
  | .curvePolygon rings => (rings.map (fun c => 1 + c.levels)).foldr max 1

mutual
def Geom.levels : Geom → Nat
  | .compoundCurve _ => 1
  | .multiCurve cs => (cs.map Curve.levels).foldr max 0
  | .curvePolygon rings => (rings.map (fun c => 1 + c.levels)).foldr max 1
  | .multiSurface ss => (ss.map Surface.levels).foldr max 0
  | .collection gs => levelsList gs
  | _ => 0
def levelsList : List Geom → Nat
  | [] => 0
  | g :: gs => max (1 + g.levels) (levelsList gs)
end

/-! ### the byte strings -/

/-- What a header says of what follows it: byte order and dimensions, and whether line strings are packed. -/
structure Frame where
  base : Spec.Frame
  packed : Bool
deriving DecidableEq, Repr

abbrev LenientHeader := Frame → Frame → Nat → List Byte → Prop

def Member (H : LenientHeader) (f : Frame) (types : Nat → Prop) (body : Frame → List Byte → Prop)
    (bs : List Byte) : Prop :=
  ∃ f' code hb bb, bs = hb ++ bb ∧ H f f' code hb ∧ types code ∧ body f' bb

/-- an inner vertex of a packed line string has the dimensions of the frame -/
def DeltaIn (f : Spec.Frame) (δ : Delta) : Prop := δ.z.isSome = f.z ∧ δ.m.isSome = f.m

/-- A line string after its header.  Packed: the announced number, the first vertex in full, the inner ones as single
precision differences to the vertex before (m in full), the last vertex in full.  The reader takes one vertex in full
and the last one even if only one vertex is announced; a packed line string with none announced is empty. -/
def LineIn (fo : FOps) : Line → Frame → List Byte → Prop
  | .plain cs, f, bs => PointsIn cs f.base bs ∧ (f.packed = true → cs = [])
  | .packed n cs last, f, bs => f.packed = true ∧ n < 2 ^ 32 ∧ ∃ first δs,
      cs = first :: inner fo first δs ∧ (n = δs.length + 2 ∨ n = 1 ∧ δs = []) ∧
      (∀ δ ∈ δs, DeltaIn f.base δ) ∧ ∃ b1 b2, CoordIn f.base first b1 ∧ CoordIn f.base last b2 ∧
      bs = encU32 f.base.order n ++ b1 ++ δs.flatMap (deltaBytes f.base.order) ++ b2

def RingsIn (fo : FOps) (rings : List Line) (f : Frame) (bs : List Byte) : Prop :=
  Counted f.base.order (fun r => LineIn fo r f) rings bs

def SegBody (fo : FOps) : Seg → Frame → List Byte → Prop
  | .line l, f, bs => LineIn fo l f bs
  | .circ cs, f, bs => PointsIn cs f.base bs

def segType : Seg → Nat → Prop
  | .line _ => (· = 2)
  | .circ _ => (· = 8)

def SegIn (fo : FOps) (H : LenientHeader) (f : Frame) (s : Seg) : List Byte → Prop := Member H f (segType s) (SegBody fo s)

def CompoundIn (fo : FOps) (H : LenientHeader) (ss : List Seg) (f : Frame) (bs : List Byte) : Prop :=
  Counted f.base.order (SegIn fo H f) ss bs

def CurveIn (fo : FOps) (H : LenientHeader) (f : Frame) : Curve → List Byte → Prop
  | .seg s => SegIn fo H f s
  | .compound ss => Member H f (· = 9) (CompoundIn fo H ss)

def CurvesIn (fo : FOps) (H : LenientHeader) (cs : List Curve) (f : Frame) (bs : List Byte) : Prop :=
  Counted f.base.order (CurveIn fo H f) cs bs

def SurfaceIn (fo : FOps) (H : LenientHeader) (f : Frame) : Surface → List Byte → Prop
  | .polygon rings => Member H f (· = 3) (RingsIn fo rings)
  | .curvePolygon rings => Member H f (· = 10) (CurvesIn fo H rings)

mutual
/-- `BodyIn fo H g f bs`: `bs` is what follows the header of `g` if that header gave frame `f`. -/
def BodyIn (fo : FOps) (H : LenientHeader) : Geom → Frame → List Byte → Prop
  | .emptyPoint, f, bs => ∃ c, AllNaN c ∧ CoordIn f.base c bs
  | .point c, f, bs => ¬ AllNaN c ∧ CoordIn f.base c bs
  | .multiPoint cs, f, bs => Counted f.base.order (fun c => Member H f anyType (fun f' => CoordIn f'.base c)) cs bs
  | .lineString l, f, bs => LineIn fo l f bs
  | .circularString cs, f, bs => PointsIn cs f.base bs
  | .compoundCurve ss, f, bs => CompoundIn fo H ss f bs
  | .multiLineString ls, f, bs => Counted f.base.order (fun l => Member H f anyType (LineIn fo l)) ls bs
  | .multiCurve cs, f, bs => CurvesIn fo H cs f bs
  | .polygon rings, f, bs => RingsIn fo rings f bs
  | .triangle rings, f, bs => RingsIn fo rings f bs
  | .curvePolygon rings, f, bs => CurvesIn fo H rings f bs
  | .multiPolygon ps, f, bs => Counted f.base.order (fun p => Member H f anyType (RingsIn fo p)) ps bs
  | .polyhedralSurface ps, f, bs => Counted f.base.order (fun p => Member H f anyType (RingsIn fo p)) ps bs
  | .tin ts, f, bs => Counted f.base.order (fun t => Member H f anyType (RingsIn fo t)) ts bs
  | .multiSurface ss, f, bs => Counted f.base.order (SurfaceIn fo H f) ss bs
  | .collection gs, f, bs => gs.length < 2 ^ 32 ∧ ∃ bb, bs = encU32 f.base.order gs.length ++ bb ∧ BodiesIn fo H gs f bb

/-- members of a collection, each with a header that says its type -/
def BodiesIn (fo : FOps) (H : LenientHeader) : List Geom → Frame → List Byte → Prop
  | [], _, bs => bs = []
  | g :: gs, f, bs => ∃ b1 b2, bs = b1 ++ b2 ∧
      (∃ f' hb bb, b1 = hb ++ bb ∧ H f f' (typeCode g) hb ∧ BodyIn fo H g f' bb) ∧ BodiesIn fo H gs f b2
end

/-- nested header: entity mark and type word; order and dimensions are those of the surrounding geometry; words above
a million say that the line strings that follow are packed, whatever the surrounding geometry is -/
def nestedHeader : LenientHeader := fun outer f code bs =>
  f.base = outer.base ∧ ∃ word, word < 2 ^ 32 ∧ code = word % 1000 ∧ (f.packed = true ↔ 1000000 < word) ∧
    bs = 0x69 :: encU32 f.base.order word

/-- SpatiaLite BLOB up to and excluding the end mark, which is not looked at: either a tiny point (bit 7 of the flags),
or MBR, mark 0x7C, type word and body.  Bit 0 of the flags is the byte order. -/
def Blob (fo : FOps) (srid : Int) (g : Geom) (bs : List Byte) : Prop :=
  isI32 srid ∧ ∃ (flags : Byte) (f : Frame) (bb : List Byte),
    f.base.order = (if flags.toNat % 2 = 1 then Endian.le else Endian.be) ∧ BodyIn fo nestedHeader g f bb ∧
    ((128 ≤ flags.toNat ∧ typeCode g = 1 ∧ f.packed = false ∧
        ∃ d : Byte, (f.base.z = true ↔ d = 2 ∨ d = 4) ∧ (f.base.m = true ↔ d = 3 ∨ d = 4) ∧
        bs = [0, flags] ++ encI32 f.base.order srid ++ [d] ++ bb) ∨
      (flags.toNat < 128 ∧ ∃ (mbr : List F64) (word : Nat), mbr.length = 4 ∧ word < 2 ^ 32 ∧
        typeCode g = word % 1000 ∧ (f.packed = true ↔ 1000000 < word) ∧
        ThousandsDims (word % 1000000 / 1000) f.base.z f.base.m ∧
        bs = [0, flags] ++ encI32 f.base.order srid ++ mbr.flatMap (encF64 f.base.order) ++ [0x7C]
          ++ encU32 f.base.order word ++ bb))

/-! ### the geometry meant -/

/-- all vertices of a line string, in order -/
def Line.vertices : Line → List Coord
  | .plain cs => cs
  | .packed _ cs last => cs ++ [last]

/-- the announced number of vertices is their number, which is at least two -/
def Line.Honest : Line → Prop
  | .plain _ => True
  | .packed n cs _ => n = cs.length + 1 ∧ 2 ≤ n

def Seg.meant : Seg → Geozero.Seg
  | .line l => .line l.vertices
  | .circ cs => .circ cs

def Curve.meant : Curve → Geozero.Curve
  | .seg s => .seg s.meant
  | .compound ss => .compound (ss.map Seg.meant)

def Surface.meant : Surface → Geozero.Surface
  | .polygon rings => .polygon (rings.map Line.vertices)
  | .curvePolygon rings => .curvePolygon (rings.map Curve.meant)

mutual
/-- The geometry a BLOB stands for, forgetting how its line strings are stored. -/
def Geom.meant : Geom → Geozero.Geom
  | .emptyPoint => .emptyPoint
  | .point c => .point c
  | .multiPoint cs => .multiPoint cs
  | .lineString l => .lineString l.vertices
  | .circularString cs => .circularString cs
  | .compoundCurve ss => .compoundCurve (ss.map Seg.meant)
  | .multiLineString ls => .multiLineString (ls.map Line.vertices)
  | .multiCurve cs => .multiCurve (cs.map Curve.meant)
  | .polygon rings => .polygon (rings.map Line.vertices)
  | .triangle rings => .triangle (rings.map Line.vertices)
  | .curvePolygon rings => .curvePolygon (rings.map Curve.meant)
  | .multiPolygon ps => .multiPolygon (ps.map (List.map Line.vertices))
  | .polyhedralSurface ps => .polyhedralSurface (ps.map (List.map Line.vertices))
  | .tin ts => .tin (ts.map (List.map Line.vertices))
  | .multiSurface ss => .multiSurface (ss.map Surface.meant)
  | .collection gs => .collection (meantList gs)
def meantList : List Geom → List Geozero.Geom
  | [] => []
  | g :: gs => g.meant :: meantList gs
end

def Seg.lines : Seg → List Line
  | .line l => [l]
  | .circ _ => []

def Curve.lines : Curve → List Line
  | .seg s => s.lines
  | .compound ss => ss.flatMap Seg.lines

def Surface.lines : Surface → List Line
  | .polygon rings => rings
  | .curvePolygon rings => rings.flatMap Curve.lines

mutual
/-- All line strings and rings of a geometry. -/
def Geom.lines : Geom → List Line
  | .emptyPoint | .point _ | .multiPoint _ | .circularString _ => []
  | .lineString l => [l]
  | .compoundCurve ss => ss.flatMap Seg.lines
  | .multiLineString ls | .polygon ls | .triangle ls => ls
  | .multiCurve cs | .curvePolygon cs => cs.flatMap Curve.lines
  | .multiPolygon ps | .polyhedralSurface ps | .tin ps => ps.flatten
  | .multiSurface ss => ss.flatMap Surface.lines
  | .collection gs => linesList gs
def linesList : List Geom → List Line
  | [] => []
  | g :: gs => g.lines ++ linesList gs
end

end Sl
end Geozero
