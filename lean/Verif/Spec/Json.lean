import Verif.Model.Wkt

/-
JSON (RFC 8259) as a grammar: which text denotes which value.  Object members are kept in order; numbers are kept as
their literal.
-/

namespace Geozero

/-- JSON values -/
inductive Json
  | null
  | bool (b : Bool)
  | num (lit : Text)
  | str (s : Text)
  | arr (xs : List Json)
  | obj (ms : List (Text × Json))
deriving Inhabited

namespace Json

/-- white space (RFC 8259, section 2) -/
def isWs (c : Char) : Bool := c == ' ' || c == '\t' || c == '\n' || c == '\r'

/-- a text of white space only -/
def IsWs (t : Text) : Prop := ∀ c ∈ t, isWs c = true

/-- `1*DIGIT` -/
def IsDigits (t : Text) : Prop := t ≠ [] ∧ ∀ c ∈ t, c.isDigit = true

/-- `int = zero / ( digit1-9 *DIGIT )` (RFC 8259, section 6) -/
def IsInt (t : Text) : Prop :=
  t = ['0'] ∨ ∃ c r, t = c :: r ∧ c.isDigit = true ∧ c ≠ '0' ∧ ∀ d ∈ r, d.isDigit = true

/-- `frac = decimal-point 1*DIGIT`, optional -/
def IsFrac (t : Text) : Prop := t = [] ∨ ∃ d, IsDigits d ∧ t = '.' :: d

/-- `exp = e [ minus / plus ] 1*DIGIT`, optional -/
def IsExp (t : Text) : Prop :=
  t = [] ∨ ∃ e s d, (e = 'e' ∨ e = 'E') ∧ (s = [] ∨ s = ['-'] ∨ s = ['+']) ∧ IsDigits d ∧ t = e :: (s ++ d)

/-- `number = [ minus ] int [ frac ] [ exp ]` -/
def IsNumber (t : Text) : Prop :=
  ∃ s i f e, (s = [] ∨ s = ['-']) ∧ IsInt i ∧ IsFrac f ∧ IsExp e ∧ t = s ++ (i ++ (f ++ e))

/-- the two-character escapes (RFC 8259, section 7) -/
def escapes : List (Char × Char) :=
  [('"', '"'), ('\\', '\\'), ('/', '/'), ('b', Char.ofNat 8), ('f', Char.ofNat 12), ('n', '\n'), ('r', '\r'), ('t', '\t')]

/-- value of a hexadecimal digit -/
def hexVal (c : Char) : Option Nat :=
  if '0' ≤ c ∧ c ≤ '9' then some (c.toNat - '0'.toNat)
  else if 'a' ≤ c ∧ c ≤ 'f' then some (c.toNat - 'a'.toNat + 10)
  else if 'A' ≤ c ∧ c ≤ 'F' then some (c.toNat - 'A'.toNat + 10)
  else none

/-- value of four hexadecimal digits -/
def hex4 (a b c d : Char) : Option Nat :=
  match hexVal a, hexVal b, hexVal c, hexVal d with
  | some a, some b, some c, some d => some (((a * 16 + b) * 16 + c) * 16 + d)
  | _, _, _, _ => none

/-- The characters between the quotes of a string literal, and what they denote (RFC 8259, section 7): unescaped
characters other than quote, backslash and control characters; two-character escapes; `\uXXXX` outside the surrogates;
surrogate pairs. -/
inductive IsChars : Text → Text → Prop
  | nil : IsChars [] []
  | plain {c : Char} {t s : Text} (hq : c ≠ '"') (hb : c ≠ '\\') (hc : 32 ≤ c.toNat) (h : IsChars t s) :
      IsChars (c :: t) (c :: s)
  | escape {e c : Char} {t s : Text} (he : (e, c) ∈ escapes) (h : IsChars t s) : IsChars ('\\' :: e :: t) (c :: s)
  | unicode {a b c d : Char} {n : Nat} {t s : Text} (hn : hex4 a b c d = some n) (hs : n < 0xD800 ∨ 0xDFFF < n)
      (h : IsChars t s) : IsChars ('\\' :: 'u' :: a :: b :: c :: d :: t) (Char.ofNat n :: s)
  | pair {a b c d a' b' c' d' : Char} {n m : Nat} {t s : Text} (hn : hex4 a b c d = some n)
      (hm : hex4 a' b' c' d' = some m) (hs : 0xD800 ≤ n ∧ n ≤ 0xDBFF) (hl : 0xDC00 ≤ m ∧ m ≤ 0xDFFF)
      (h : IsChars t s) :
      IsChars ('\\' :: 'u' :: a :: b :: c :: d :: '\\' :: 'u' :: a' :: b' :: c' :: d' :: t)
        (Char.ofNat (0x10000 + (n - 0xD800) * 1024 + (m - 0xDC00)) :: s)

/-- a string literal and the string it denotes -/
def IsString (t s : Text) : Prop := ∃ u, IsChars u s ∧ t = '"' :: (u ++ ['"'])

mutual
/-- a value without surrounding white space (RFC 8259, section 3) -/
inductive IsValue : Text → Json → Prop
  | null : IsValue (txt "null") .null
  | true : IsValue (txt "true") (.bool true)
  | false : IsValue (txt "false") (.bool false)
  | num {t : Text} (h : IsNumber t) : IsValue t (.num t)
  | str {t s : Text} (h : IsString t s) : IsValue t (.str s)
  | emptyArr {w : Text} (h : IsWs w) : IsValue ('[' :: (w ++ [']'])) (.arr [])
  | arr {t : Text} {xs : List Json} (h : IsElems t xs) : IsValue ('[' :: (t ++ [']'])) (.arr xs)
  | emptyObj {w : Text} (h : IsWs w) : IsValue ('{' :: (w ++ ['}'])) (.obj [])
  | obj {t : Text} {ms : List (Text × Json)} (h : IsMembers t ms) : IsValue ('{' :: (t ++ ['}'])) (.obj ms)

/-- values separated by commas, with white space around each (section 5) -/
inductive IsElems : Text → List Json → Prop
  | last {a t b : Text} {v : Json} (ha : IsWs a) (h : IsValue t v) (hb : IsWs b) : IsElems (a ++ (t ++ b)) [v]
  | more {a t b r : Text} {v : Json} {vs : List Json} (ha : IsWs a) (h : IsValue t v) (hb : IsWs b)
      (hr : IsElems r vs) : IsElems (a ++ (t ++ (b ++ ',' :: r))) (v :: vs)

/-- `"name": value` separated by commas, with white space around each part (section 4) -/
inductive IsMembers : Text → List (Text × Json) → Prop
  | last {a n b c t d : Text} {s : Text} {v : Json} (ha : IsWs a) (hn : IsString n s) (hb : IsWs b) (hc : IsWs c)
      (h : IsValue t v) (hd : IsWs d) : IsMembers (a ++ (n ++ (b ++ ':' :: (c ++ (t ++ d))))) [(s, v)]
  | more {a n b c t d r : Text} {s : Text} {v : Json} {ms : List (Text × Json)} (ha : IsWs a) (hn : IsString n s)
      (hb : IsWs b) (hc : IsWs c) (h : IsValue t v) (hd : IsWs d) (hr : IsMembers r ms) :
      IsMembers (a ++ (n ++ (b ++ ':' :: (c ++ (t ++ (d ++ ',' :: r)))))) ((s, v) :: ms)
end

/-- `JSON-text = ws value ws` -/
def IsText (t : Text) (v : Json) : Prop := ∃ a u b, IsWs a ∧ IsValue u v ∧ IsWs b ∧ t = a ++ (u ++ b)

end Json
end Geozero
