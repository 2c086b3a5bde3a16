import Verif.Spec.Geom
import Verif.Spec.Stored
import Verif.Model.Wkt

/-
Well-known text: a printer defined on geometry trees (no writer state, no indices), and a parser for its
grammar.
-/

namespace Geozero
namespace Spec

/-- items separated by commas -/
def commaSep : List Text → Text
  | [] => []
  | [t] => t
  | t :: ts => t ++ ',' :: commaSep ts

/-- a parenthesised list of items, or `EMPTY` -/
def parens (items : List Text) : Text := if items = [] then txt "EMPTY" else txt "(" ++ commaSep items ++ txt ")"

/-- a tagged list of items: `TAG(..)` or `TAG EMPTY` -/
def tagged (tag : String) (items : List Text) : Text :=
  txt tag ++ (if items = [] then txt " EMPTY" else parens items)

/-- the ordinates shown: x y, and z, m where present if more than two dimensions are wanted -/
def ordinates (multi : Bool) (c : Coord) : List F64 :=
  if multi then [c.x, c.y] ++ c.z.toList ++ c.m.toList else [c.x, c.y]

/-- ordinates separated by blanks -/
def blankSep : List Text → Text
  | [] => []
  | [t] => t
  | t :: ts => t ++ ' ' :: blankSep ts

/-- a coordinate; one without any number is `EMPTY` -/
def wktCoord (num : F64 → Text) (multi : Bool) (c : Coord) : Text :=
  if ∀ v ∈ ordinates multi c, F64.isNaN v = true then txt "EMPTY" else blankSep ((ordinates multi c).map num)

def wktLine (num : F64 → Text) (multi : Bool) (cs : List Coord) : Text := parens (cs.map (wktCoord num multi))
def wktPoly (num : F64 → Text) (multi : Bool) (rings : List (List Coord)) : Text :=
  parens (rings.map (wktLine num multi))

/-- inside curves, line strings have no tag -/
def wktSeg (num : F64 → Text) (multi : Bool) : Seg → Text
  | .line cs => wktLine num multi cs
  | .circ cs => tagged "CIRCULARSTRING" (cs.map (wktCoord num multi))

def wktCurve (num : F64 → Text) (multi : Bool) : Curve → Text
  | .seg s => wktSeg num multi s
  | .compound ss => tagged "COMPOUNDCURVE" (ss.map (wktSeg num multi))

/-- inside multi surfaces, polygons have no tag -/
def wktSurface (num : F64 → Text) (multi : Bool) : Surface → Text
  | .polygon rings => wktPoly num multi rings
  | .curvePolygon rings => tagged "CURVEPOLYGON" (rings.map (wktCurve num multi))

mutual
/-- WKT of a geometry. -/
def wkt (num : F64 → Text) (multi : Bool) : Geom → Text
  | .emptyPoint => txt "POINT EMPTY"
  | .point c => tagged "POINT" [wktCoord num multi c]
  | .multiPoint cs => tagged "MULTIPOINT" (cs.map (wktCoord num multi))
  | .lineString cs => tagged "LINESTRING" (cs.map (wktCoord num multi))
  | .circularString cs => tagged "CIRCULARSTRING" (cs.map (wktCoord num multi))
  | .compoundCurve ss => tagged "COMPOUNDCURVE" (ss.map (wktSeg num multi))
  | .multiLineString ls => tagged "MULTILINESTRING" (ls.map (wktLine num multi))
  | .multiCurve cs => tagged "MULTICURVE" (cs.map (wktCurve num multi))
  | .polygon rings => tagged "POLYGON" (rings.map (wktLine num multi))
  | .triangle rings => tagged "TRIANGLE" (rings.map (wktLine num multi))
  | .curvePolygon rings => tagged "CURVEPOLYGON" (rings.map (wktCurve num multi))
  | .multiPolygon ps => tagged "MULTIPOLYGON" (ps.map (wktPoly num multi))
  | .polyhedralSurface ps => tagged "POLYHEDRALSURFACE" (ps.map (wktPoly num multi))
  | .tin ts => tagged "TIN" (ts.map (wktPoly num multi))
  | .multiSurface ss => tagged "MULTISURFACE" (ss.map (wktSurface num multi))
  | .collection gs => tagged "GEOMETRYCOLLECTION" (wktList num multi gs)

def wktList (num : F64 → Text) (multi : Bool) : List Geom → List Text
  | [] => []
  | g :: gs => wkt num multi g :: wktList num multi gs
end

/-- EWKT prefix: a non-zero SRID, nothing otherwise -/
def sridPrefix : Option Int → Text
  | none => []
  | some v => if v = 0 then [] else txt "SRID=" ++ (toString v).toList ++ txt ";"

/-! ### parser -/

/-- the input after a literal -/
def expect (t : Text) (s : Text) : Option Text := if t.isPrefixOf s then some (s.drop t.length) else none

/-- `item (, item)* )` -/
def parseItems {α : Type} (item : Text → Option (α × Text)) : Nat → Text → Option (List α × Text)
  | 0, _ => none
  | n + 1, s =>
    match item s with
    | some (a, ',' :: r) => (parseItems item n r).map fun (as, r) => (a :: as, r)
    | some (a, ')' :: r) => some ([a], r)
    | _ => none

/-- `EMPTY` or `( items )` -/
def parseParens {α : Type} (item : Text → Option (α × Text)) (fuel : Nat) (s : Text) : Option (List α × Text) :=
  match expect (txt "EMPTY") s, s with
  | some r, _ => some ([], r)
  | none, '(' :: r => parseItems item fuel r
  | _, _ => none

/-- after a tag: ` EMPTY` or `( items )` -/
def parseTagged {α : Type} (item : Text → Option (α × Text)) (fuel : Nat) : Text → Option (List α × Text)
  | ' ' :: r => (expect (txt "EMPTY") r).map fun r => ([], r)
  | '(' :: r => parseItems item fuel r
  | _ => none

/-- a character that ends a number -/
def isDelim (c : Char) : Bool := c == ' ' || c == ',' || c == '(' || c == ')'

/-- numbers separated by blanks -/
def parseNums (parse : Text → Option F64) : Nat → Text → Option (List F64 × Text)
  | 0, _ => none
  | n + 1, s =>
    match parse (s.takeWhile (fun c => !isDelim c)), s.dropWhile (fun c => !isDelim c) with
    | some v, ' ' :: r => (parseNums parse n r).map fun (vs, r) => (v :: vs, r)
    | some v, r => some ([v], r)
    | none, _ => none

/-- two numbers, or three with z, or four with z and m -/
def parseCoord (parse : Text → Option F64) (s : Text) : Option (Coord × Text) :=
  match parseNums parse 4 s with
  | some ([x, y], r) => some ({ x, y }, r)
  | some ([x, y, z], r) => some ({ x, y, z := some z }, r)
  | some ([x, y, z, m], r) => some ({ x, y, z := some z, m := some m }, r)
  | _ => none

/-- a run of capital letters -/
def isUpper (c : Char) : Bool := 'A' ≤ c && c ≤ 'Z'

/-- a leading tag and what follows -/
def parseTag (s : Text) : Text × Text := (s.takeWhile isUpper, s.dropWhile isUpper)

def parseLine (coord : Text → Option (Coord × Text)) (fuel : Nat) : Text → Option (List Coord × Text) :=
  parseParens coord fuel

def parsePoly (coord : Text → Option (Coord × Text)) (fuel : Nat) : Text → Option (List (List Coord) × Text) :=
  parseParens (parseLine coord fuel) fuel

def parseSeg (coord : Text → Option (Coord × Text)) (fuel : Nat) (s : Text) : Option (Seg × Text) :=
  if (parseTag s).1 = txt "CIRCULARSTRING" then
    (parseTagged coord fuel (parseTag s).2).map fun (cs, r) => (.circ cs, r)
  else (parseLine coord fuel s).map fun (cs, r) => (.line cs, r)

def parseCurve (coord : Text → Option (Coord × Text)) (fuel : Nat) (s : Text) : Option (Curve × Text) :=
  if (parseTag s).1 = txt "COMPOUNDCURVE" then
    (parseTagged (parseSeg coord fuel) fuel (parseTag s).2).map fun (ss, r) => (.compound ss, r)
  else (parseSeg coord fuel s).map fun (s, r) => (.seg s, r)

def parseSurface (coord : Text → Option (Coord × Text)) (fuel : Nat) (s : Text) : Option (Surface × Text) :=
  if (parseTag s).1 = txt "CURVEPOLYGON" then
    (parseTagged (parseCurve coord fuel) fuel (parseTag s).2).map fun (cs, r) => (.curvePolygon cs, r)
  else (parsePoly coord fuel s).map fun (rs, r) => (.polygon rs, r)

/-- a geometry; `fuel` bounds nesting and the number of items -/
def parseGeom (coord : Text → Option (Coord × Text)) : Nat → Text → Option (Geom × Text)
  | 0, _ => none
  | fuel + 1, s =>
    let t := (parseTag s).1
    let r := (parseTag s).2
    if t = txt "POINT" then
      match parseTagged coord 1 r with
      | some ([], r) => some (.emptyPoint, r)
      | some ([c], r) => some (.point c, r)
      | _ => none
    else if t = txt "MULTIPOINT" then (parseTagged coord fuel r).map fun (x, r) => (.multiPoint x, r)
    else if t = txt "LINESTRING" then (parseTagged coord fuel r).map fun (x, r) => (.lineString x, r)
    else if t = txt "CIRCULARSTRING" then
      (parseTagged coord fuel r).map fun (x, r) => (.circularString x, r)
    else if t = txt "COMPOUNDCURVE" then
      (parseTagged (parseSeg coord fuel) fuel r).map fun (x, r) => (.compoundCurve x, r)
    else if t = txt "MULTILINESTRING" then
      (parseTagged (parseLine coord fuel) fuel r).map fun (x, r) => (.multiLineString x, r)
    else if t = txt "MULTICURVE" then
      (parseTagged (parseCurve coord fuel) fuel r).map fun (x, r) => (.multiCurve x, r)
    else if t = txt "POLYGON" then (parseTagged (parseLine coord fuel) fuel r).map fun (x, r) => (.polygon x, r)
    else if t = txt "TRIANGLE" then (parseTagged (parseLine coord fuel) fuel r).map fun (x, r) => (.triangle x, r)
    else if t = txt "CURVEPOLYGON" then
      (parseTagged (parseCurve coord fuel) fuel r).map fun (x, r) => (.curvePolygon x, r)
    else if t = txt "MULTIPOLYGON" then
      (parseTagged (parsePoly coord fuel) fuel r).map fun (x, r) => (.multiPolygon x, r)
    else if t = txt "POLYHEDRALSURFACE" then
      (parseTagged (parsePoly coord fuel) fuel r).map fun (x, r) => (.polyhedralSurface x, r)
    else if t = txt "TIN" then (parseTagged (parsePoly coord fuel) fuel r).map fun (x, r) => (.tin x, r)
    else if t = txt "MULTISURFACE" then
      (parseTagged (parseSurface coord fuel) fuel r).map fun (x, r) => (.multiSurface x, r)
    else if t = txt "GEOMETRYCOLLECTION" then
      (parseTagged (parseGeom coord fuel) fuel r).map fun (x, r) => (.collection x, r)
    else none

/-- a complete text -/
def parseWkt (parse : Text → Option F64) (s : Text) : Option Geom :=
  match parseGeom (parseCoord parse) s.length s with
  | some (g, []) => some g
  | _ => none

/-- a decimal integer -/
def parseInt : Text → Int
  | '-' :: ds => -(Nat.ofDigitChars 10 ds 0 : Int)
  | ds => Nat.ofDigitChars 10 ds 0

/-- a complete text with an optional `SRID=n;` in front -/
def parseEwkt (parse : Text → Option F64) (s : Text) : Option (Option Int × Geom) :=
  match expect (txt "SRID=") s with
  | none => (parseWkt parse s).map fun g => (none, g)
  | some r =>
    (parseWkt parse ((r.dropWhile (· != ';')).drop 1)).map fun g => (some (parseInt (r.takeWhile (· != ';'))), g)

/-- A number format whose output can be read back: it is not empty, contains no blank, comma or
parenthesis, and `parse` inverts it, except for NaN. -/
structure NumText where
  num : F64 → Text
  parse : Text → Option F64
  num_ne : ∀ v, v.isNaN = false → num v ≠ []
  num_chars : ∀ v, v.isNaN = false → ∀ c ∈ num v, isDelim c = false
  parse_num : ∀ v, v.isNaN = false → parse (num v) = some v

/-- What of a coordinate is recoverable from the text: no NaN, no m without z, and z, m only if shown. -/
def Recoverable (multi : Bool) (c : Coord) : Prop :=
  c.x.isNaN = false ∧ c.y.isNaN = false ∧ (∀ v ∈ c.z, F64.isNaN v = false) ∧ (∀ v ∈ c.m, F64.isNaN v = false) ∧
  (c.m.isSome = true → c.z.isSome = true) ∧ (multi = false → c.z = none ∧ c.m = none)

end Spec

mutual
/-- The geometry of a parsed WKT tree: a multi point must not have empty members to be one. -/
def WktGeom.denote : WktGeom → Geom
  | .point none => .emptyPoint
  | .point (some c) => .point c
  | .lineString cs => .lineString cs
  | .polygon rings => .polygon rings
  | .multiPoint ps => .multiPoint (ps.filterMap id)
  | .multiLineString ls => .multiLineString ls
  | .multiPolygon ps => .multiPolygon ps
  | .collection gs => .collection (WktGeom.denoteList gs)

def WktGeom.denoteList : List WktGeom → List Geom
  | [] => []
  | g :: gs => g.denote :: WktGeom.denoteList gs
end

mutual
/-- no multi point has an empty member -/
def WktGeom.NoEmptyMember : WktGeom → Prop
  | .multiPoint ps => ∀ p ∈ ps, p.isSome = true
  | .collection gs => WktGeom.NoEmptyMemberList gs
  | _ => True

def WktGeom.NoEmptyMemberList : List WktGeom → Prop
  | [] => True
  | g :: gs => g.NoEmptyMember ∧ WktGeom.NoEmptyMemberList gs
end

end Geozero
