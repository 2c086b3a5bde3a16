import Verif.Spec.Json

/-
A parser for JSON, complete for the grammar of Spec/Json.lean: every text of the grammar is parsed to the value it
denotes.  Hence a text denotes at most one value, and a text the parser rejects is not JSON.
(The parser is more liberal about numbers; only completeness is claimed.)
-/

namespace Geozero.Json

/-- characters that occur in numbers -/
def isNumChar (c : Char) : Bool := c.isDigit || c == '-' || c == '+' || c == '.' || c == 'e' || c == 'E'

/-- drop leading white space -/
def skip : Text → Text
  | [] => []
  | c :: t => if isWs c then skip t else c :: t

/-- longest prefix of number characters, and the rest -/
def numSpan : Text → Text × Text
  | [] => ([], [])
  | c :: t => if isNumChar c then (c :: (numSpan t).1, (numSpan t).2) else ([], c :: t)

/-- after `\`: denoted character and rest -/
def parseEscape : Text → Option (Char × Text)
  | 'u' :: a :: b :: c :: d :: t =>
    match hex4 a b c d with
    | none => none
    | some n =>
      if n < 0xD800 ∨ 0xDFFF < n then some (Char.ofNat n, t)
      else
        match t with
        | '\\' :: 'u' :: a' :: b' :: c' :: d' :: t' =>
          match hex4 a' b' c' d' with
          | none => none
          | some m =>
            if 0xDC00 ≤ m ∧ m ≤ 0xDFFF ∧ n ≤ 0xDBFF then
              some (Char.ofNat (0x10000 + (n - 0xD800) * 1024 + (m - 0xDC00)), t')
            else none
        | _ => none
  | e :: t =>
    match escapes.lookup e with
    | none => none
    | some c => some (c, t)
  | [] => none

/-- after the opening quote: denoted string and rest after the closing quote -/
def parseChars : Nat → Text → Option (Text × Text)
  | 0, _ => none
  | n + 1, t =>
    match t with
    | [] => none
    | c :: t =>
      if c = '"' then some ([], t)
      else if c = '\\' then
        match parseEscape t with
        | none => none
        | some (x, t') =>
          match parseChars n t' with
          | none => none
          | some (s, r) => some (x :: s, r)
      else if c.toNat < 32 then none
      else
        match parseChars n t with
        | none => none
        | some (s, r) => some (c :: s, r)

/-- a number, or nothing -/
def parseNum (t : Text) : Option (Json × Text) :=
  if (numSpan t).1 = [] then none else some (.num (numSpan t).1, (numSpan t).2)

mutual
/-- a value at the start of the text -/
def parseV : Nat → Text → Option (Json × Text)
  | 0, _ => none
  | n + 1, t =>
    match t with
    | '[' :: r =>
      match parseE n r with
      | some (xs, r') => some (.arr xs, r')
      | none =>
        match skip r with
        | ']' :: r' => some (.arr [], r')
        | _ => none
    | '{' :: r =>
      match parseM n r with
      | some (ms, r') => some (.obj ms, r')
      | none =>
        match skip r with
        | '}' :: r' => some (.obj [], r')
        | _ => none
    | '"' :: r =>
      match parseChars n r with
      | some (s, r') => some (.str s, r')
      | none => none
    | 'n' :: 'u' :: 'l' :: 'l' :: r => some (.null, r)
    | 't' :: 'r' :: 'u' :: 'e' :: r => some (.bool true, r)
    | 'f' :: 'a' :: 'l' :: 's' :: 'e' :: r => some (.bool false, r)
    | t => parseNum t

/-- elements up to and including `]` -/
def parseE : Nat → Text → Option (List Json × Text)
  | 0, _ => none
  | n + 1, t =>
    match parseV n (skip t) with
    | none => none
    | some (v, r) =>
      match skip r with
      | ']' :: r' => some ([v], r')
      | ',' :: r' =>
        match parseE n r' with
        | none => none
        | some (vs, r'') => some (v :: vs, r'')
      | _ => none

/-- members up to and including `}` -/
def parseM : Nat → Text → Option (List (Text × Json) × Text)
  | 0, _ => none
  | n + 1, t =>
    match skip t with
    | '"' :: r =>
      match parseChars n r with
      | none => none
      | some (s, r) =>
        match skip r with
        | ':' :: r =>
          match parseV n (skip r) with
          | none => none
          | some (v, r) =>
            match skip r with
            | '}' :: r' => some ([(s, v)], r')
            | ',' :: r' =>
              match parseM n r' with
              | none => none
              | some (vs, r'') => some ((s, v) :: vs, r'')
            | _ => none
        | _ => none
    | _ => none
end

/-- a whole text -/
def parse (t : Text) : Option Json :=
  match parseV (t.length + 2) (skip t) with
  | none => none
  | some (v, r) => if skip r = [] then some v else none

/-! ### completeness -/

theorem skip_ws {a : Text} (h : IsWs a) (t : Text) : skip (a ++ t) = skip t := by
  induction a with
  | nil => rfl
  | cons c a ih =>
    have hc : isWs c = true := h c (by simp)
    simp only [List.cons_append, skip, hc, if_true]
    exact ih (fun d hd => h d (by simp [hd]))

theorem skip_nonws {c : Char} (h : isWs c = Bool.false) (t : Text) : skip (c :: t) = c :: t := by
  simp [skip, h]

theorem numSpan_eq (t r : Text) (ht : ∀ c ∈ t, isNumChar c = true) (hr : ∀ c r', r = c :: r' → isNumChar c = false) :
    numSpan (t ++ r) = (t, r) := by
  induction t with
  | nil =>
    cases r with
    | nil => rfl
    | cons c r => simp [numSpan, hr c r rfl]
  | cons c t ih =>
    simp [numSpan, ht c (by simp), ih (fun d hd => ht d (by simp [hd]))]

theorem IsDigits.numChars {t : Text} (h : IsDigits t) : ∀ c ∈ t, isNumChar c = true :=
  fun c hc => by simp [isNumChar, h.2 c hc]

theorem IsNumber.numChars {t : Text} (h : IsNumber t) : ∀ c ∈ t, isNumChar c = true := by
  obtain ⟨s, i, f, e, hs, hi, hf, he, rfl⟩ := h
  intro c hc
  simp only [List.mem_append] at hc
  rcases hc with hc | hc | hc | hc
  · rcases hs with rfl | rfl
    · simp at hc
    · simp at hc; subst hc; decide
  · rcases hi with rfl | ⟨d, r, rfl, hd, -, hr⟩
    · simp at hc; subst hc; decide
    · rcases List.mem_cons.mp hc with rfl | hc
      · simp [isNumChar, hd]
      · simp [isNumChar, hr c hc]
  · rcases hf with rfl | ⟨d, hd, rfl⟩
    · simp at hc
    · rcases List.mem_cons.mp hc with rfl | hc
      · decide
      · exact hd.numChars c hc
  · rcases he with rfl | ⟨x, sg, d, hx, hsg, hd, rfl⟩
    · simp at hc
    · rcases List.mem_cons.mp hc with rfl | hc
      · rcases hx with rfl | rfl <;> decide
      · rcases List.mem_append.mp hc with hc | hc
        · rcases hsg with rfl | rfl | rfl
          · simp at hc
          · simp at hc; subst hc; decide
          · simp at hc; subst hc; decide
        · exact hd.numChars c hc

theorem IsNumber.cons {t : Text} (h : IsNumber t) : ∃ c r, t = c :: r ∧ isNumChar c = true := by
  have hn : t ≠ [] := by
    obtain ⟨s, i, f, e, hs, hi, hf, he, rfl⟩ := h
    rcases hi with rfl | ⟨d, r, rfl, -⟩ <;> simp
  cases t with
  | nil => exact absurd rfl hn
  | cons c r => exact ⟨c, r, rfl, h.numChars c (by simp)⟩

theorem numChar_facts {c : Char} (h : isNumChar c = true) :
    isWs c = false ∧ c ≠ '[' ∧ c ≠ '{' ∧ c ≠ '"' ∧ c ≠ 'n' ∧ c ≠ 't' ∧ c ≠ 'f' ∧ c ≠ ']' ∧ c ≠ '}' := by
  have hd : ∀ d : Char, isNumChar d = false → c ≠ d := by
    intro d hd e
    rw [e, hd] at h; cases h
  refine ⟨?_, hd _ (by decide), hd _ (by decide), hd _ (by decide), hd _ (by decide), hd _ (by decide),
    hd _ (by decide), hd _ (by decide), hd _ (by decide)⟩
  cases hw : isWs c with
  | false => rfl
  | true =>
    exfalso
    simp only [isWs, Bool.or_eq_true, beq_iff_eq] at hw
    rcases hw with ((hw | hw) | hw) | hw <;> exact hd _ (by decide) hw

theorem parseV_num (n : Nat) (t r : Text) (h : IsNumber t) (hr : ∀ c r', r = c :: r' → isNumChar c = false) :
    parseV (n + 1) (t ++ r) = some (.num t, r) := by
  have hs := numSpan_eq t r h.numChars hr
  obtain ⟨c, u, rfl, hc⟩ := h.cons
  obtain ⟨-, h1, h2, h3, h4, h5, h6, -⟩ := numChar_facts hc
  have : parseV (n + 1) (c :: u ++ r) = parseNum (c :: u ++ r) := by
    simp only [List.cons_append]
    unfold parseV
    split <;> first | rfl | (rename_i heq; simp only [List.cons.injEq] at heq; exfalso; simp_all)
  rw [this]
  simp only [parseNum, hs]
  rfl

theorem escapes_lookup {e c : Char} (h : (e, c) ∈ escapes) : escapes.lookup e = some c ∧ e ≠ 'u' := by
  simp only [escapes, List.mem_cons, Prod.mk.injEq, List.not_mem_nil, or_false] at h
  rcases h with ⟨rfl, rfl⟩ | ⟨rfl, rfl⟩ | ⟨rfl, rfl⟩ | ⟨rfl, rfl⟩ | ⟨rfl, rfl⟩ | ⟨rfl, rfl⟩ | ⟨rfl, rfl⟩ | ⟨rfl, rfl⟩ <;>
    exact ⟨rfl, by decide⟩

theorem parseEscape_simple {e c : Char} (h : (e, c) ∈ escapes) (t : Text) : parseEscape (e :: t) = some (c, t) := by
  obtain ⟨h1, h2⟩ := escapes_lookup h
  unfold parseEscape
  split
  · rename_i heq
    simp only [List.cons.injEq] at heq
    exact absurd heq.1 h2
  · rename_i heq
    simp only [List.cons.injEq] at heq
    obtain ⟨rfl, rfl⟩ := heq
    rw [h1]
  · rename_i heq; cases heq

theorem parseChars_complete {t s : Text} (h : IsChars t s) (r : Text) (n : Nat) (hn : t.length < n) :
    parseChars n (t ++ '"' :: r) = some (s, r) := by
  induction h generalizing n with
  | nil =>
    cases n with
    | zero => simp at hn
    | succ n => simp [parseChars]
  | plain hq hb hc h ih =>
    cases n with
    | zero => simp at hn
    | succ n =>
      have := ih n (by simp at hn; omega)
      have hc' : ¬ (Char.toNat _ < 32) := Nat.not_lt.mpr hc
      simp [parseChars, hq, hb, hc', this]
  | escape he h ih =>
    cases n with
    | zero => simp at hn
    | succ n =>
      have := ih n (by simp at hn; omega)
      simp [parseChars, parseEscape_simple he, this]
  | unicode h4 hs h ih =>
    cases n with
    | zero => simp at hn
    | succ n =>
      have := ih n (by simp at hn; omega)
      simp [parseChars, parseEscape, h4, hs, this]
  | pair h4 hm hs hl h ih =>
    cases n with
    | zero => simp at hn
    | succ n =>
      have := ih n (by simp at hn; omega)
      have h1 : ¬ (_ < 0xD800 ∨ 0xDFFF < _) := not_or.mpr ⟨Nat.not_lt.mpr hs.1, Nat.not_lt.mpr (Nat.le_trans hs.2 (by omega))⟩
      simp [parseChars, parseEscape, h4, h1, hm, hl, hs, this]

/-- a value starts with a character that is neither white space nor a closing bracket -/
theorem IsValue.cons {t : Text} {v : Json} (h : IsValue t v) :
    ∃ c r, t = c :: r ∧ isWs c = Bool.false ∧ c ≠ ']' ∧ c ≠ '}' := by
  cases h with
  | null => exact ⟨'n', _, rfl, by decide, by decide, by decide⟩
  | true => exact ⟨'t', _, rfl, by decide, by decide, by decide⟩
  | false => exact ⟨'f', _, rfl, by decide, by decide, by decide⟩
  | num h =>
    obtain ⟨c, r, rfl, hc⟩ := h.cons
    obtain ⟨h0, -, -, -, -, -, -, h1, h2⟩ := numChar_facts hc
    exact ⟨c, r, rfl, h0, h1, h2⟩
  | str h =>
    obtain ⟨u, -, rfl⟩ := h
    exact ⟨'"', _, rfl, by decide, by decide, by decide⟩
  | emptyArr h => exact ⟨'[', _, rfl, by decide, by decide, by decide⟩
  | arr h => exact ⟨'[', _, rfl, by decide, by decide, by decide⟩
  | emptyObj h => exact ⟨'{', _, rfl, by decide, by decide, by decide⟩
  | obj h => exact ⟨'{', _, rfl, by decide, by decide, by decide⟩

theorem IsValue.skip {t : Text} {v : Json} (h : IsValue t v) (a : Text) (ha : IsWs a) (r : Text) :
    Json.skip (a ++ (t ++ r)) = t ++ r := by
  obtain ⟨c, u, rfl, hc, -⟩ := h.cons
  rw [skip_ws ha]
  exact skip_nonws hc _

/-- what may follow a value -/
def Ends (r : Text) : Prop := ∀ c r', r = c :: r' → isNumChar c = false

theorem ends_cons {c : Char} (h : isNumChar c = false) (r : Text) : Ends (c :: r) := by
  intro d r' he
  cases he
  exact h

theorem ends_ws_append {b : Text} (hb : IsWs b) {r : Text} (hr : Ends r) : Ends (b ++ r) := by
  cases b with
  | nil => exact hr
  | cons c b =>
    intro d r' he
    cases he
    have hc : isWs c = true := hb c (by simp)
    simp only [isWs, Bool.or_eq_true, beq_iff_eq] at hc
    rcases hc with ((rfl | rfl) | rfl) | rfl <;> decide

theorem parseV_bracket (n : Nat) (r : Text) : parseV n (']' :: r) = none := by
  cases n with
  | zero => rfl
  | succ n => simp [parseV, parseNum, numSpan, isNumChar]

theorem parseV_complete {t : Text} {v : Json} (h : IsValue t v) :
    ∀ (r : Text) (n : Nat), t.length < n → Ends r → parseV n (t ++ r) = some (v, r) := by
  refine IsValue.rec
    (motive_1 := fun t v _ => ∀ (r : Text) (n : Nat), t.length < n → Ends r → parseV n (t ++ r) = some (v, r))
    (motive_2 := fun t xs _ => ∀ (r : Text) (n : Nat), t.length + 1 < n → parseE n (t ++ ']' :: r) = some (xs, r))
    (motive_3 := fun t ms _ => ∀ (r : Text) (n : Nat), t.length + 1 < n → parseM n (t ++ '}' :: r) = some (ms, r))
    ?_ ?_ ?_ ?_ ?_ ?_ ?_ ?_ ?_ ?_ ?_ ?_ ?_ h
  · intro r n hn _
    cases n with
    | zero => simp at hn
    | succ n => simp [txt, parseV]
  · intro r n hn _
    cases n with
    | zero => simp at hn
    | succ n => simp [txt, parseV]
  · intro r n hn _
    cases n with
    | zero => simp at hn
    | succ n => simp [txt, parseV]
  · intro t h r n hn hr
    cases n with
    | zero => simp at hn
    | succ n => exact parseV_num n t r h hr
  · rintro t s ⟨u, hu, rfl⟩ r n hn _
    cases n with
    | zero => simp at hn
    | succ n =>
      have := parseChars_complete hu r n (by simp at hn; omega)
      simp [parseV, this]
  · intro w hw r n hn _
    cases n with
    | zero => simp at hn
    | succ n =>
      have hs : skip (w ++ ']' :: r) = ']' :: r := by rw [skip_ws hw]; exact skip_nonws (by decide) _
      have hE : parseE n (w ++ ']' :: r) = none := by
        cases n with
        | zero => rfl
        | succ n => simp [parseE, hs, parseV_bracket]
      simp [parseV, hs, hE]
  · intro t xs _ ih r n hn _
    cases n with
    | zero => simp at hn
    | succ n =>
      have := ih r n (by simp at hn; omega)
      simp [parseV, this]
  · intro w hw r n hn _
    cases n with
    | zero => simp at hn
    | succ n =>
      have hs : skip (w ++ '}' :: r) = '}' :: r := by rw [skip_ws hw]; exact skip_nonws (by decide) _
      have hE : parseM n (w ++ '}' :: r) = none := by
        cases n with
        | zero => rfl
        | succ n => simp [parseM, hs]
      simp [parseV, hs, hE]
  · intro t xs _ ih r n hn _
    cases n with
    | zero => simp at hn
    | succ n =>
      have := ih r n (by simp at hn; omega)
      simp [parseV, this]
  · intro a t b v ha h hb ih r n hn
    cases n with
    | zero => simp at hn
    | succ n =>
      have h1 := ih (b ++ ']' :: r) n (by simp at hn; omega) (ends_ws_append hb (ends_cons (by decide) r))
      have h2 : skip (b ++ ']' :: r) = ']' :: r := by rw [skip_ws hb]; exact skip_nonws (by decide) _
      simp only [parseE, List.append_assoc]
      rw [h.skip a ha, h1]
      simp [h2]
  · intro a t b r' v vs ha h hb _ ih1 ih2 r n hn
    cases n with
    | zero => simp at hn
    | succ n =>
      have h1 := ih1 (b ++ ',' :: (r' ++ ']' :: r)) n (by simp at hn; omega)
        (ends_ws_append hb (ends_cons (by decide) _))
      have h2 : skip (b ++ ',' :: (r' ++ ']' :: r)) = ',' :: (r' ++ ']' :: r) := by
        rw [skip_ws hb]; exact skip_nonws (by decide) _
      have h3 := ih2 r n (by simp at hn; omega)
      simp only [parseE, List.append_assoc, List.cons_append]
      rw [h.skip a ha, h1]
      simp [h2, h3]
  · rintro a nm b c t d s v ha ⟨u, hu, rfl⟩ hb hc h hd ih r n hn
    cases n with
    | zero => simp at hn
    | succ n =>
      have h0 : skip (a ++ '"' :: (u ++ '"' :: (b ++ ':' :: (c ++ (t ++ (d ++ '}' :: r)))))) =
          '"' :: (u ++ '"' :: (b ++ ':' :: (c ++ (t ++ (d ++ '}' :: r))))) := by
        rw [skip_ws ha]; exact skip_nonws (by decide) _
      have h1 := parseChars_complete hu (b ++ ':' :: (c ++ (t ++ (d ++ '}' :: r)))) n (by simp at hn; omega)
      have h2 : skip (b ++ ':' :: (c ++ (t ++ (d ++ '}' :: r)))) = ':' :: (c ++ (t ++ (d ++ '}' :: r))) := by
        rw [skip_ws hb]; exact skip_nonws (by decide) _
      have h3 := ih (d ++ '}' :: r) n (by simp at hn; omega) (ends_ws_append hd (ends_cons (by decide) _))
      have h4 : skip (d ++ '}' :: r) = '}' :: r := by rw [skip_ws hd]; exact skip_nonws (by decide) _
      simp only [parseM, List.append_assoc, List.cons_append, List.nil_append, h0, h1, h2, h.skip c hc, h3, h4]
  · rintro a nm b c t d r' s v ms ha ⟨u, hu, rfl⟩ hb hc h hd _ ih1 ih2 r n hn
    cases n with
    | zero => simp at hn
    | succ n =>
      have h0 : skip (a ++ '"' :: (u ++ '"' :: (b ++ ':' :: (c ++ (t ++ (d ++ ',' :: (r' ++ '}' :: r))))))) =
          '"' :: (u ++ '"' :: (b ++ ':' :: (c ++ (t ++ (d ++ ',' :: (r' ++ '}' :: r)))))) := by
        rw [skip_ws ha]; exact skip_nonws (by decide) _
      have h1 := parseChars_complete hu (b ++ ':' :: (c ++ (t ++ (d ++ ',' :: (r' ++ '}' :: r))))) n (by simp at hn; omega)
      have h2 : skip (b ++ ':' :: (c ++ (t ++ (d ++ ',' :: (r' ++ '}' :: r))))) =
          ':' :: (c ++ (t ++ (d ++ ',' :: (r' ++ '}' :: r)))) := by
        rw [skip_ws hb]; exact skip_nonws (by decide) _
      have h3 := ih1 (d ++ ',' :: (r' ++ '}' :: r)) n (by simp at hn; omega) (ends_ws_append hd (ends_cons (by decide) _))
      have h4 : skip (d ++ ',' :: (r' ++ '}' :: r)) = ',' :: (r' ++ '}' :: r) := by
        rw [skip_ws hd]; exact skip_nonws (by decide) _
      have h5 := ih2 r n (by simp at hn; omega)
      simp only [parseM, List.append_assoc, List.cons_append, List.nil_append, h0, h1, h2, h.skip c hc, h3, h4, h5]

theorem parse_complete {t : Text} {v : Json} (h : IsText t v) : parse t = some v := by
  obtain ⟨a, u, b, ha, hu, hb, rfl⟩ := h
  unfold parse
  rw [hu.skip a ha, parseV_complete hu b _ (by simp; omega) (by
    have := ends_ws_append hb (r := []) (fun c r' h => by cases h)
    simpa using this)]
  have : skip b = [] := by have := skip_ws hb []; simpa [skip] using this
  simp [this]

/-- a text denotes at most one value -/
theorem IsText.unique {t : Text} {v w : Json} (h1 : IsText t v) (h2 : IsText t w) : v = w := by
  have a := parse_complete h1
  have b := parse_complete h2
  rw [a] at b
  cases b
  rfl

theorem not_text {t : Text} (h : parse t = none) : ¬ ∃ v, IsText t v := by
  rintro ⟨v, hv⟩
  rw [parse_complete hv] at h
  cases h

theorem IsValue.text {t : Text} {v : Json} (h : IsValue t v) : IsText t v :=
  ⟨[], t, [], by simp [IsWs], h, by simp [IsWs], by simp⟩

end Geozero.Json
