import Verif.Spec.Features
import Verif.Spec.Adaptors
import Verif.Model.Svg

/-
Specification vocabulary for SVG: an XML tokenizer with the well-formedness rules that matter for documents without
entities, comments and CDATA sections; path data; which paths a geometry is drawn with.
-/

namespace Geozero

/-! ### XML -/

/-- XML white space -/
def isXmlSpace (c : Char) : Bool := c == ' ' || c == '\n' || c == '\t' || c == '\r'
/-- first character of a name (ASCII only) -/
def isXmlNameStart (c : Char) : Bool := c.isAlpha || c == '_' || c == ':'
/-- further characters of a name (ASCII only) -/
def isXmlNameChar (c : Char) : Bool := isXmlNameStart c || c.isDigit || c == '-' || c == '.'

/-- What a document consists of: processing instructions, start, end and empty-element tags, character data. -/
inductive XmlTok
  | pi
  | open (name : Text) (attrs : List (Text × Text))
  | close (name : Text)
  | empty (name : Text) (attrs : List (Text × Text))
  | char (c : Char)
deriving DecidableEq, Repr

/-- where in the markup the tokenizer is -/
inductive XmlMode
  | content
  | lt
  | pi
  | piQ
  | openName (n : Text)
  | closeName (n : Text)
  | inTag (n : Text) (as : List (Text × Text)) (space : Bool)
  | attrName (n : Text) (as : List (Text × Text)) (a : Text)
  | attrEq (n : Text) (as : List (Text × Text)) (a : Text)
  | attrVal (n : Text) (as : List (Text × Text)) (a v : Text)
  | slash (n : Text) (as : List (Text × Text))
deriving DecidableEq, Repr

/-- One character: the next mode and the token completed, if any; `none` if the character is not allowed here.
`&` is not allowed at all (no references), `<` not in attribute values, attributes are in double quotes and preceded by
white space. -/
def XmlMode.next : XmlMode → Char → Option (XmlMode × List XmlTok)
  | .content, c => if c = '<' then some (.lt, []) else if c = '&' then none else some (.content, [.char c])
  | .lt, c =>
    if c = '?' then some (.pi, []) else if c = '/' then some (.closeName [], [])
    else if isXmlNameStart c then some (.openName [c], []) else none
  | .pi, c => if c = '?' then some (.piQ, []) else some (.pi, [])
  | .piQ, c => if c = '>' then some (.content, [.pi]) else if c = '?' then some (.piQ, []) else some (.pi, [])
  | .openName n, c =>
    if isXmlSpace c then some (.inTag n [] true, []) else if c = '>' then some (.content, [.open n []])
    else if c = '/' then some (.slash n [], []) else if isXmlNameChar c then some (.openName (n ++ [c]), []) else none
  | .closeName n, c =>
    if c = '>' then (if n = [] then none else some (.content, [.close n]))
    else if isXmlNameChar c then some (.closeName (n ++ [c]), []) else none
  | .inTag n as space, c =>
    if isXmlSpace c then some (.inTag n as true, []) else if c = '>' then some (.content, [.open n as])
    else if c = '/' then some (.slash n as, [])
    else if isXmlNameStart c && space then some (.attrName n as [c], []) else none
  | .attrName n as a, c =>
    if c = '=' then some (.attrEq n as a, []) else if isXmlNameChar c then some (.attrName n as (a ++ [c]), []) else none
  | .attrEq n as a, c => if c = '"' then some (.attrVal n as a [], []) else none
  | .attrVal n as a v, c =>
    if c = '"' then some (.inTag n (as ++ [(a, v)]) false, []) else if c = '<' ∨ c = '&' then none
    else some (.attrVal n as a (v ++ [c]), [])
  | .slash n as, c => if c = '>' then some (.content, [.empty n as]) else none

/-- tokenize a text, starting in a given mode -/
def xmlScan : XmlMode → Text → Option (XmlMode × List XmlTok)
  | m, [] => some (m, [])
  | m, c :: cs =>
    match m.next c with
    | none => none
    | some (m', ts) =>
      match xmlScan m' cs with
      | none => none
      | some (m'', ts') => some (m'', ts ++ ts')

/-- the tokens of a text that is complete markup -/
def xmlTokens (t : Text) : Option (List XmlTok) :=
  match xmlScan .content t with
  | some (.content, ts) => some ts
  | _ => none

/-- no attribute name twice -/
def attrsOk (as : List (Text × Text)) : Bool := decide (as.map Prod.fst).Nodup

/-- Elements are balanced: every end tag closes the innermost open element, nothing stays open; attributes are distinct. -/
def xmlBalanced : List Text → List XmlTok → Bool
  | st, [] => st.isEmpty
  | st, .open n as :: ts => attrsOk as && xmlBalanced (n :: st) ts
  | [], .close _ :: _ => false
  | top :: st, .close n :: ts => decide (top = n) && xmlBalanced st ts
  | st, .empty _ as :: ts => attrsOk as && xmlBalanced st ts
  | st, .pi :: ts => xmlBalanced st ts
  | st, .char _ :: ts => xmlBalanced st ts

/-- A document: balanced, and outside its only root element there is only white space and processing instructions.
The first argument tells whether the root element has been seen. -/
def xmlDocument : Bool → List Text → List XmlTok → Bool
  | seen, st, [] => seen && st.isEmpty
  | seen, [], .open n as :: ts => !seen && attrsOk as && xmlDocument true [n] ts
  | seen, [], .empty _ as :: ts => !seen && attrsOk as && xmlDocument true [] ts
  | _, [], .close _ :: _ => false
  | seen, [], .char c :: ts => isXmlSpace c && xmlDocument seen [] ts
  | seen, s :: st, .open n as :: ts => attrsOk as && xmlDocument seen (n :: s :: st) ts
  | seen, s :: st, .empty _ as :: ts => attrsOk as && xmlDocument seen (s :: st) ts
  | seen, s :: st, .close n :: ts => decide (s = n) && xmlDocument seen st ts
  | seen, s :: st, .char _ :: ts => xmlDocument seen (s :: st) ts
  | seen, st, .pi :: ts => xmlDocument seen st ts

/-- the character data of a document that is not white space -/
def xmlChars : List XmlTok → Text
  | [] => []
  | .char c :: ts => if isXmlSpace c then xmlChars ts else c :: xmlChars ts
  | _ :: ts => xmlChars ts

/-- the path data of the `path` elements, in order -/
def xmlPaths : List XmlTok → List Text
  | [] => []
  | .empty n as :: ts => (if n = txt "path" then (as.filter fun p => p.1 == txt "d").map Prod.snd else []) ++ xmlPaths ts
  | .open n as :: ts => (if n = txt "path" then (as.filter fun p => p.1 == txt "d").map Prod.snd else []) ++ xmlPaths ts
  | _ :: ts => xmlPaths ts

/-- name and attributes of the root element: the first element of a document -/
def xmlRoot : List XmlTok → Option (Text × List (Text × Text))
  | [] => none
  | .open n as :: _ => some (n, as)
  | .empty n as :: _ => some (n, as)
  | _ :: ts => xmlRoot ts

/-- a position lies in a box -/
def InBox (x0 y0 x1 y1 x y : F64) : Prop :=
  x0.value ≤ x.value ∧ x.value ≤ x1.value ∧ y0.value ≤ y.value ∧ y.value ≤ y1.value

instance (x0 y0 x1 y1 x y : F64) : Decidable (InBox x0 y0 x1 y1 x y) := by unfold InBox; infer_instance

/-! ### drawing -/

/-- no empty point anywhere -/
def Geom.NoEmptyPoint : Geom → Prop
  | .emptyPoint => False
  | .collection gs => ∀ g ∈ gs, g.NoEmptyPoint
  | _ => True

/-- Geometries the writer has elements for: points, line strings, polygons, their multi versions except multi points,
polyhedral surfaces, multi surfaces of polygons, and collections of these. -/
def Geom.HasPaths : Geom → Prop
  | .point _ | .lineString _ | .multiLineString _ | .polygon _ | .multiPolygon _ | .polyhedralSurface _ => True
  | .multiSurface ss => ∀ s ∈ ss, ∃ rings, s = .polygon rings
  | .collection gs => ∀ g ∈ gs, g.HasPaths
  | _ => False

variable (fo : SvgNum) (inv : Bool)

/-- a position: x, blank, y (sign flipped if the y axis is inverted), blank -/
def svgXY (c : Coord) : Text := fo.num c.x ++ txt " " ++ fo.num (if inv then c.y.negate else c.y) ++ txt " "

/-- positions one after the other -/
def svgCoords (cs : List Coord) : Text := cs.flatMap (svgXY fo inv)

/-- a closed subpath -/
def svgSub (cs : List Coord) : Text := txt "M " ++ svgCoords fo inv cs ++ txt "Z "

mutual
/-- the data of the paths a drawable geometry is drawn with, in order: one per point, line string, multi line string and
polygon -/
def Geom.svgPaths : Geom → List Text
  | .point c => [txt "M " ++ svgXY fo inv c ++ txt "Z"]
  | .lineString cs => [svgCoords fo inv cs]
  | .multiLineString ls => [ls.flatMap (svgSub fo inv)]
  | .polygon rings => [rings.flatMap (svgSub fo inv)]
  | .multiPolygon ps => ps.map fun rings => rings.flatMap (svgSub fo inv)
  | .polyhedralSurface ps => ps.map fun rings => rings.flatMap (svgSub fo inv)
  | .multiSurface ss => ss.map fun s =>
    match s with
    | .polygon rings => rings.flatMap (svgSub fo inv)
    | .curvePolygon _ => []
  | .collection gs => Geom.svgPathsList gs
  | _ => []

def Geom.svgPathsList : List Geom → List Text
  | [] => []
  | g :: gs => g.svgPaths ++ Geom.svgPathsList gs
end

/-- A text that needs no escaping in character data and attribute values. -/
def PlainXml (t : Text) : Prop := ∀ c ∈ t, c ≠ '<' ∧ c ≠ '&' ∧ c ≠ '"'

/-- numbers are printed without markup characters (true of `f64`'s `Display`) -/
def SvgNum.Plain : Prop := ∀ v, PlainXml (fo.num v)

/-! ### path data -/

/-- the words of a text, separated by blanks; `cur` is the word begun -/
def words : Text → Text → List Text
  | cur, [] => if cur = [] then [] else [cur]
  | cur, c :: r => if c = ' ' then (if cur = [] then words [] r else cur :: words [] r) else words (cur ++ [c]) r

/-- SVG numbers without exponent: an optional minus, digits, points -/
def isSvgNumber (t : Text) : Bool := !t.isEmpty && t.all fun c => c.isDigit || c == '.' || c == '-'

/-- Path data made of absolute moves and lines: the subpaths with their positions, each begun with `M`, optionally ended
with `Z`.  The first argument is the subpath begun. -/
def pathSubs : Option (List (Text × Text)) → List Text → Option (List (List (Text × Text)))
  | none, [] => some []
  | some ps, [] => if ps = [] then none else some [ps]
  | none, w :: ws => if w = txt "M" then pathSubs (some []) ws else none
  | some ps, w :: ws =>
    if w = txt "Z" then (if ps = [] then none else (pathSubs none ws).map (ps :: ·))
    else
      match ws with
      | [] => none
      | w' :: ws' => if isSvgNumber w && isSvgNumber w' then pathSubs (some (ps ++ [(w, w')])) ws' else none

/-- the subpaths of path data, `none` if it is not valid -/
def pathData (t : Text) : Option (List (List (Text × Text))) := pathSubs none (words [] t)

/-- neither infinite nor NaN -/
def F64.Finite (v : F64) : Prop := v.toNat % 2 ^ 63 < 0x7FF0000000000000

/-- finite numbers are printed as SVG numbers (true of `f64`'s `Display`) -/
def SvgNum.Numeric : Prop := ∀ v : F64, v.Finite → isSvgNumber (fo.num v) = true

/-- a position as it should appear in path data -/
def svgPos (c : Coord) : Text × Text := (fo.num c.x, fo.num (if inv then c.y.negate else c.y))

mutual
/-- what the paths of a geometry should draw: for each path, its subpaths with their positions -/
def Geom.svgShapes (fo : SvgNum) (inv : Bool) : Geom → List (List (List (Text × Text)))
  | .point c => [[[svgPos fo inv c]]]
  | .lineString cs => [[cs.map (svgPos fo inv)]]
  | .multiLineString ls => [ls.map (List.map (svgPos fo inv))]
  | .polygon rings => [rings.map (List.map (svgPos fo inv))]
  | .multiPolygon ps => ps.map fun rings => rings.map (List.map (svgPos fo inv))
  | .polyhedralSurface ps => ps.map fun rings => rings.map (List.map (svgPos fo inv))
  | .multiSurface ss => ss.map fun s =>
    match s with
    | .polygon rings => rings.map (List.map (svgPos fo inv))
    | .curvePolygon _ => []
  | .collection gs => Geom.svgShapesList fo inv gs
  | _ => []

def Geom.svgShapesList (fo : SvgNum) (inv : Bool) : List Geom → List (List (List (Text × Text)))
  | [] => []
  | g :: gs => g.svgShapes fo inv ++ Geom.svgShapesList fo inv gs
end

/-- positions are finite, and no line or ring is empty -/
def RingsOk (rs : List (List Coord)) : Prop := ∀ r ∈ rs, r ≠ [] ∧ ∀ c ∈ r, c.x.Finite ∧ c.y.Finite

mutual
/-- drawable, without line strings of their own, finite, without empty lines and rings -/
def Geom.DrawsOk : Geom → Prop
  | .point c => c.x.Finite ∧ c.y.Finite
  | .multiLineString ls => RingsOk ls
  | .polygon rs => RingsOk rs
  | .multiPolygon ps => ∀ rs ∈ ps, RingsOk rs
  | .polyhedralSurface ps => ∀ rs ∈ ps, RingsOk rs
  | .multiSurface ss => ∀ s ∈ ss, ∃ rs, s = .polygon rs ∧ RingsOk rs
  | .collection gs => Geom.DrawsOkList gs
  | _ => False

def Geom.DrawsOkList : List Geom → Prop
  | [] => True
  | g :: gs => g.DrawsOk ∧ Geom.DrawsOkList gs
end

end Geozero
