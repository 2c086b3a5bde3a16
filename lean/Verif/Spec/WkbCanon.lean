import Verif.Spec.Stored
import Verif.Spec.SlLenient
import Verif.Model.WkbTypes

/-
The bytes a WKB writer writes, as a function: everything in little endian byte order.  (`Spec/Wkb.lean` has the standards,
which leave the byte order of every part open, as relations.)
-/

namespace Geozero
namespace Spec

/-- a count, then the members -/
def countedLe {α : Type} (f : α → List Byte) (xs : List α) : List Byte := encU32 .le xs.length ++ xs.flatMap f

def pointsLe (cs : List Coord) : List Byte := countedLe (coordBytes .le) cs

def ringsLe (rings : List (List Coord)) : List Byte := countedLe pointsLe rings

/-- `h code` is the header of a member of that type -/
def segLe (h : Nat → List Byte) : Seg → List Byte
  | .line cs => h 2 ++ pointsLe cs
  | .circ cs => h 8 ++ pointsLe cs

def curveLe (h : Nat → List Byte) : Curve → List Byte
  | .seg s => segLe h s
  | .compound ss => h 9 ++ countedLe (segLe h) ss

def surfaceLe (h : Nat → List Byte) : Surface → List Byte
  | .polygon rings => h 3 ++ ringsLe rings
  | .curvePolygon rings => h 10 ++ countedLe (curveLe h) rings

mutual
/-- what follows the header of a geometry (nothing is written for an empty point, which is refused) -/
def bodyLe (h : Nat → List Byte) : Geom → List Byte
  | .emptyPoint => []
  | .point c => coordBytes .le c
  | .multiPoint cs => countedLe (fun c => h 1 ++ coordBytes .le c) cs
  | .lineString cs => pointsLe cs
  | .circularString cs => pointsLe cs
  | .compoundCurve ss => countedLe (segLe h) ss
  | .multiLineString ls => countedLe (fun l => h 2 ++ pointsLe l) ls
  | .multiCurve cs => countedLe (curveLe h) cs
  | .polygon rings => ringsLe rings
  | .triangle rings => ringsLe rings
  | .curvePolygon rings => countedLe (curveLe h) rings
  | .multiPolygon ps => countedLe (fun p => h 3 ++ ringsLe p) ps
  | .polyhedralSurface ps => countedLe (fun p => h 3 ++ ringsLe p) ps
  | .tin ts => countedLe (fun t => h 17 ++ ringsLe t) ts
  | .multiSurface ss => countedLe (surfaceLe h) ss
  | .collection gs => encU32 .le gs.length ++ bodiesLe h gs
def bodiesLe (h : Nat → List Byte) : List Geom → List Byte
  | [] => []
  | g :: gs => h (typeCode g) ++ bodyLe h g ++ bodiesLe h gs
end

/-- header of a member: byte order mark and type code; in SpatiaLite the entity mark takes the place of the former -/
def memberHeaderLe (dl : WkbDialect) (d : Dims) (code : Nat) : List Byte :=
  match dl with
  | .ewkb => 1 :: encU32 .le (ewkbCode d false code)
  | .spatiaLite => 0x69 :: encU32 .le (ogcCode d code)
  | _ => 1 :: encU32 .le (ogcCode d code)

/-- Everything up to the body.  The flags of GeoPackage are 1 without and 3 with an envelope. -/
def headerLe (dl : WkbDialect) (d : Dims) (srid : Option Int) (env : List F64) (code : Nat) : List Byte :=
  match dl with
  | .wkb => 1 :: encU32 .le (ogcCode d code)
  | .ewkb => 1 :: encU32 .le (ewkbCode d srid.isSome code) ++ srid.toList.flatMap (encI32 .le)
  | .geopackage => [0x47, 0x50, 0, if env = [] then 1 else 3] ++ encI32 .le (srid.getD 0) ++ env.flatMap (encF64 .le)
      ++ 1 :: encU32 .le (ogcCode d code)
  | .mySQL => encU32 .le (srid.getD 0).toNat ++ 1 :: encU32 .le (ogcCode d code)
  | .spatiaLite => [0, 1] ++ encI32 .le (srid.getD 0)
      ++ (if env = [] then [F64.zero, F64.zero, F64.zero, F64.zero] else env).flatMap (encF64 .le) ++ [0x7C]
      ++ encU32 .le (ogcCode d code)

/-- The geometry with dimensions `d` and all its parts in little endian byte order. -/
def canonical (dl : WkbDialect) (d : Dims) (srid : Option Int) (env : List F64) (g : Geom) : List Byte :=
  headerLe dl d srid env (typeCode g) ++ bodyLe (memberHeaderLe dl d) g ++ (if dl = .spatiaLite then [0xFE] else [])

/-- The writer of SpatiaLite is right about geometries that are no polygon, triangle, compound curve, curve polygon,
polyhedral surface or TIN with parts (see C05). -/
def NoParts : Geom → Prop
  | .polygon rs | .triangle rs => rs = []
  | .compoundCurve ss => ss = []
  | .curvePolygon cs => cs = []
  | .polyhedralSurface ps | .tin ps => ps = []
  | _ => True

/-- The bytes a reader of the dialect takes for the geometry (see `Spec/WkbLenient.lean`).  For SpatiaLite either
without compressed line strings, or with compressed ones, which have to announce their number of vertices
(see `Spec/SlLenient.lean`). -/
def Accepted (fo : FOps) : WkbDialect → Geom → List Byte → Prop
  | .wkb, g, bs => LenientWkb g bs
  | .ewkb, g, bs => ∃ srid, LenientEwkb srid g bs
  | .geopackage, g, bs => ∃ srid, LenientGpkg srid g bs
  | .mySQL, g, bs => ∃ srid, LenientMySql srid g bs
  | .spatiaLite, g, bs => ∃ srid, LenientSpatiaLite srid g bs ∨
      ∃ sg, Sl.Blob fo srid sg bs ∧ (∀ l ∈ sg.lines, l.Honest) ∧ g = sg.meant

/-- the SRID fits 32 bits, and an envelope, where one is written, has four values -/
def HeaderFits (dl : WkbDialect) (srid : Option Int) (env : List F64) : Prop :=
  (∀ s ∈ srid, isI32 s) ∧ (dl = .geopackage ∨ dl = .spatiaLite → env.length = 0 ∨ env.length = 4)

/-- what a dialect can write: MySQL has no negative SRIDs -/
def Writable (dl : WkbDialect) (srid : Option Int) (g : Geom) : Prop :=
  (dl = .mySQL → ∀ s ∈ srid, 0 ≤ s) ∧ (dl = .spatiaLite → NoParts g)

end Spec
end Geozero
