import Verif.Spec.GeoJson
import Verif.Model.GeoJson
import Verif.Lemmas.Json
import Verif.Lemmas.Values
import Verif.Lemmas.Wkt

/- Helper lemmas about the GeoJSON writers. -/

namespace Geozero
open Json Spec

namespace GeoJsonWriter

@[simp] theorem put_put (w : GeoJsonWriter) (a b : Text) : (w.put a).put b = w.put (a ++ b) := by simp [put]
@[simp] theorem put_nil (w : GeoJsonWriter) : w.put [] = w := by simp [put]

/-- separator before member number `i` -/
def sep (i : Nat) : Text := if i > 0 then txt "," else []

theorem comma_eq (w : GeoJsonWriter) (i : Nat) : w.comma i = w.put (sep i) := by
  unfold comma sep; split <;> simp

/-! ### text of geometries -/

/-- a position -/
def posText (num : F64 → Text) (multi : Bool) (c : Coord) : Text :=
  txt "[" ++ (num c.x ++ (txt "," ++ (num c.y ++ ((if multi then optZ num c.z else []) ++ txt "]"))))

/-- an array -/
def arrText (items : List Text) : Text := txt "[" ++ (commaSep items ++ txt "]")

def lineText (num : F64 → Text) (multi : Bool) (cs : List Coord) : Text := arrText (cs.map (posText num multi))
def polyText (num : F64 → Text) (multi : Bool) (rs : List (List Coord)) : Text := arrText (rs.map (lineText num multi))

/-- an object with type and another member -/
def objText (type member : String) (v : Text) : Text :=
  txt "{\"type\": \"" ++ (txt type ++ (txt "\", \"" ++ (txt member ++ (txt "\": " ++ (v ++ txt "}")))))

mutual
def geomText (num : F64 → Text) (multi : Bool) : Geom → Text
  | .emptyPoint => objText "Point" "coordinates" (txt "[]")
  | .point c => objText "Point" "coordinates" (posText num multi c)
  | .multiPoint cs => objText "MultiPoint" "coordinates" (lineText num multi cs)
  | .lineString cs => objText "LineString" "coordinates" (lineText num multi cs)
  | .multiLineString ls => objText "MultiLineString" "coordinates" (polyText num multi ls)
  | .polygon rs => objText "Polygon" "coordinates" (polyText num multi rs)
  | .multiPolygon ps => objText "MultiPolygon" "coordinates" (arrText (ps.map (polyText num multi)))
  | .collection gs => objText "GeometryCollection" "geometries" (arrText (geomTexts num multi gs))
  | _ => []
def geomTexts (num : F64 → Text) (multi : Bool) : List Geom → List Text
  | [] => []
  | g :: gs => geomText num multi g :: geomTexts num multi gs
end

theorem geomTexts_eq (num : F64 → Text) (multi : Bool) (gs : List Geom) :
    geomTexts num multi gs = gs.map (geomText num multi) := by
  induction gs with
  | nil => rfl
  | cons g gs ih => simp [geomTexts, ih]

/-! ### the writer writes them -/

/-- geometry calls as a fold -/
def run (num : F64 → Text) : GeoJsonWriter → List Ev → GeoJsonWriter := List.foldl (geomStep num)

theorem run_append (num : F64 → Text) (w : GeoJsonWriter) (a b : List Ev) : run num w (a ++ b) = run num (run num w a) b := by
  simp [run]
theorem run_cons (num : F64 → Text) (w : GeoJsonWriter) (e : Ev) (es : List Ev) :
    run num w (e :: es) = run num (w.geomStep num e) es := rfl
theorem run_nil (num : F64 → Text) (w : GeoJsonWriter) : run num w [] = w := rfl

theorem feed_geom (fmt : Fmt) (w : GeoJsonWriter) (es : List Ev) :
    feed (step fmt) w (es.map FEv.geom) = .ok (run fmt.f64 w es) := by
  induction es generalizing w with
  | nil => rfl
  | cons e es ih => simp only [List.map_cons, feed_cons, step, run_cons, ih]

theorem run_items {α : Type} (num : F64 → Text) (f : Nat → α → List Ev) (t : α → Text) (xs : List α)
    (hx : ∀ x ∈ xs, ∀ i w, run num w (f i x) = w.put (sep i ++ t x)) (w : GeoJsonWriter) (i : Nat) :
    run num w (evList f i xs) = w.put ((if xs = [] then [] else sep i) ++ commaSep (xs.map t)) := by
  induction xs generalizing i w with
  | nil => simp [evList, commaSep, run_nil]
  | cons x xs ih =>
    simp only [evList, run_append, hx x (by simp) i w]
    rw [ih (fun y hy => hx y (by simp [hy]))]
    cases xs with
    | nil => simp [commaSep]
    | cons y ys => simp [commaSep, sep, txt, List.append_assoc]

theorem run_bracket {α : Type} (num : F64 → Text) (k : GKind) (tagged : Bool) (f : Nat → α → List Ev)
    (t : α → Text) (xs : List α) (b e : Text) (hb : beginText k tagged = some b) (he : endText k tagged = some e)
    (hx : ∀ x ∈ xs, ∀ i w, run num w (f i x) = w.put (sep i ++ t x)) (w : GeoJsonWriter) (idx : Nat) :
    run num w (bracket k tagged idx f xs) = w.put (sep idx ++ (b ++ (commaSep (xs.map t) ++ e))) := by
  simp only [bracket, run_cons, geomStep, hb, comma_eq, run_append, run_nil]
  rw [run_items num f t xs hx]
  simp only [he, put_put]
  cases xs with
  | nil => simp
  | cons x xs => simp [sep]

theorem run_coord (num : F64 → Text) (multi : Bool) (c : Coord) (i : Nat) (w : GeoJsonWriter) :
    run num w (coordEvs multi i c) = w.put (sep i ++ posText num multi c) := by
  cases multi <;> simp [coordEvs, coordEv, run_cons, run_nil, geomStep, comma_eq, posText]

theorem run_line (num : F64 → Text) (multi : Bool) (cs : List Coord) (i : Nat) (w : GeoJsonWriter) :
    run num w (lineEvs multi false i cs) = w.put (sep i ++ lineText num multi cs) :=
  run_bracket num .lineString false (coordEvs multi) (posText num multi) cs (txt "[") (txt "]") rfl rfl
    (fun c _ i w => run_coord num multi c i w) w i

theorem run_poly (num : F64 → Text) (multi : Bool) (rs : List (List Coord)) (i : Nat) (w : GeoJsonWriter) :
    run num w (polyEvs multi false i rs) = w.put (sep i ++ polyText num multi rs) :=
  run_bracket num .polygon false (lineEvs multi false) (lineText num multi) rs (txt "[") (txt "]") rfl rfl
    (fun c _ i w => run_line num multi c i w) w i

/-- the writer on a GeoJSON geometry -/
theorem run_geom (num : F64 → Text) (multi : Bool) {p : Coord → Prop} {g : Geom} (hg : g.IsGeoJson p) (i : Nat)
    (w : GeoJsonWriter) : run num w (g.events multi i) = w.put (sep i ++ geomText num multi g) := by
  induction hg generalizing i w with
  | emptyPoint => simp [Geom.events, run_cons, run_nil, geomStep, comma_eq, geomText, objText, txt]
  | point h =>
    rename_i c
    cases multi <;> simp [Geom.events, coordEv, run_cons, run_nil, geomStep, beginText, endText, comma_eq, geomText,
      objText, posText, sep, txt]
  | multiPoint h =>
    rename_i cs
    simp only [Geom.events, geomText]
    rw [run_bracket num .multiPoint true (coordEvs multi) (posText num multi) cs _ _ rfl rfl
      (fun c _ i w => run_coord num multi c i w)]
    simp [objText, lineText, arrText, txt]
  | lineString h =>
    rename_i cs
    simp only [Geom.events, geomText, lineEvs]
    rw [run_bracket num .lineString true (coordEvs multi) (posText num multi) cs _ _ rfl rfl
      (fun c _ i w => run_coord num multi c i w)]
    simp [objText, lineText, arrText, txt]
  | multiLineString h =>
    rename_i ls
    simp only [Geom.events, geomText]
    rw [run_bracket num .multiLineString true (lineEvs multi false) (lineText num multi) ls _ _ rfl rfl
      (fun c _ i w => run_line num multi c i w)]
    simp [objText, polyText, arrText, txt]
  | polygon h =>
    rename_i rs
    simp only [Geom.events, geomText, polyEvs]
    rw [run_bracket num .polygon true (lineEvs multi false) (lineText num multi) rs _ _ rfl rfl
      (fun c _ i w => run_line num multi c i w)]
    simp [objText, polyText, arrText, txt]
  | multiPolygon h =>
    rename_i ps
    simp only [Geom.events, geomText]
    rw [run_bracket num .multiPolygon true (polyEvs multi false) (polyText num multi) ps _ _ rfl rfl
      (fun c _ i w => run_poly num multi c i w)]
    simp [objText, arrText, txt]
  | collection h ih =>
    rename_i gs
    rw [events_collection]
    simp only [geomText, geomTexts_eq]
    rw [run_bracket num .collection true (Geom.events multi) (geomText num multi) gs _ _ rfl rfl
      (fun c hc i w => ih c hc i w)]
    simp [objText, arrText, txt]

/-! ### they are JSON -/

theorem isWs_nil : IsWs [] := by simp [IsWs]
theorem isWs_space : IsWs (txt " ") := by intro c hc; simp [txt] at hc; subst hc; rfl
theorem isWs_newline : IsWs (txt "\n") := by intro c hc; simp [txt] at hc; subst hc; rfl

theorem isElems_commaSep {α : Type} (t : α → Text) (v : α → Json) (x : α) (xs : List α)
    (h : ∀ y ∈ x :: xs, IsValue (t y) (v y)) : IsElems (commaSep ((x :: xs).map t)) ((x :: xs).map v) := by
  induction xs generalizing x with
  | nil =>
    have := IsElems.last isWs_nil (h x (by simp)) isWs_nil
    simpa [commaSep] using this
  | cons y ys ih =>
    have := IsElems.more isWs_nil (h x (by simp)) isWs_nil (ih y (fun z hz => h z (List.mem_cons_of_mem _ hz)))
    simpa [commaSep, txt] using this

theorem isValue_arr {α : Type} (t : α → Text) (v : α → Json) (xs : List α) (h : ∀ y ∈ xs, IsValue (t y) (v y)) :
    IsValue (arrText (xs.map t)) (.arr (xs.map v)) := by
  cases xs with
  | nil => exact IsValue.emptyArr isWs_nil
  | cons x xs => exact IsValue.arr (isElems_commaSep t v x xs h)

/-- no quote, backslash or control character -/
def Simple (t : Text) : Prop := ∀ c ∈ t, c ≠ '"' ∧ c ≠ '\\' ∧ 32 ≤ c.toNat

theorem isChars_simple {t : Text} (h : Simple t) : IsChars t t := by
  induction t with
  | nil => exact .nil
  | cons c t ih =>
    obtain ⟨h1, h2, h3⟩ := h c (by simp)
    exact .plain h1 h2 h3 (ih (fun d hd => h d (by simp [hd])))

theorem isString_simple {t : Text} (h : Simple t) : IsString ('"' :: (t ++ ['"'])) t := ⟨t, isChars_simple h, rfl⟩

instance (t : Text) : Decidable (Simple t) := inferInstanceAs (Decidable (∀ c ∈ t, _))

theorem isValue_obj (type member : String) (v : Text) (j : Json) (h : IsValue v j) (ht : Simple (txt type))
    (hm : Simple (txt member)) : IsValue (objText type member v) (Rfc7946.object type member j) := by
  have h2 := IsMembers.last isWs_space (isString_simple hm) isWs_nil isWs_space h isWs_nil
  have h1 := IsMembers.more isWs_nil (isString_simple (t := txt "type") (by decide)) isWs_nil isWs_space
    (.str (isString_simple ht)) isWs_nil h2
  have := IsValue.obj h1
  simpa [objText, Rfc7946.object, txt] using this

theorem isValue_pos (num : F64 → Text) (multi : Bool) (c : Coord) (h : c.AllOrds (fun x => IsNumber (num x)) multi) :
    IsValue (posText num multi c) (Rfc7946.position num multi c) := by
  obtain ⟨hx, hy, hz⟩ := h
  have hy' := IsElems.last isWs_nil (.num hy) isWs_nil
  cases multi with
  | false =>
    have := IsValue.arr (IsElems.more isWs_nil (.num hx) isWs_nil hy')
    simpa [posText, Rfc7946.position, txt] using this
  | true =>
    cases hc : c.z with
    | none =>
      have := IsValue.arr (IsElems.more isWs_nil (.num hx) isWs_nil hy')
      simpa [posText, Rfc7946.position, txt, hc, optZ] using this
    | some z =>
      have hz' := IsElems.last isWs_nil (.num (hz rfl z hc)) isWs_nil
      have := IsValue.arr (IsElems.more isWs_nil (.num hx) isWs_nil (IsElems.more isWs_nil (.num hy) isWs_nil hz'))
      simpa [posText, Rfc7946.position, txt, hc, optZ] using this

theorem isValue_line (num : F64 → Text) (multi : Bool) (cs : List Coord)
    (h : ∀ c ∈ cs, c.AllOrds (fun x => IsNumber (num x)) multi) :
    IsValue (lineText num multi cs) (Rfc7946.positions num multi cs) :=
  isValue_arr _ _ cs (fun c hc => isValue_pos num multi c (h c hc))

theorem isValue_poly (num : F64 → Text) (multi : Bool) (rs : List (List Coord))
    (h : ∀ l ∈ rs, ∀ c ∈ l, c.AllOrds (fun x => IsNumber (num x)) multi) :
    IsValue (polyText num multi rs) (Rfc7946.rings num multi rs) :=
  isValue_arr _ _ rs (fun c hc => isValue_line num multi c (h c hc))

theorem isValue_geom (num : F64 → Text) (multi : Bool) (g : Geom)
    (hg : g.IsGeoJson (fun c => c.AllOrds (fun x => IsNumber (num x)) multi)) :
    IsValue (geomText num multi g) (Rfc7946.geometry num multi g) := by
  induction hg with
  | emptyPoint =>
    simp only [geomText, Rfc7946.geometry]
    exact isValue_obj "Point" "coordinates" _ _ (IsValue.emptyArr isWs_nil) (by decide) (by decide)
  | point h =>
    simp only [geomText, Rfc7946.geometry]
    exact isValue_obj "Point" "coordinates" _ _ (isValue_pos num multi _ h) (by decide) (by decide)
  | multiPoint h =>
    simp only [geomText, Rfc7946.geometry]
    exact isValue_obj "MultiPoint" "coordinates" _ _ (isValue_line num multi _ h) (by decide) (by decide)
  | lineString h =>
    simp only [geomText, Rfc7946.geometry]
    exact isValue_obj "LineString" "coordinates" _ _ (isValue_line num multi _ h) (by decide) (by decide)
  | multiLineString h =>
    simp only [geomText, Rfc7946.geometry]
    exact isValue_obj "MultiLineString" "coordinates" _ _ (isValue_poly num multi _ h) (by decide) (by decide)
  | polygon h =>
    simp only [geomText, Rfc7946.geometry]
    exact isValue_obj "Polygon" "coordinates" _ _ (isValue_poly num multi _ h) (by decide) (by decide)
  | multiPolygon h =>
    simp only [geomText, Rfc7946.geometry]
    exact isValue_obj "MultiPolygon" "coordinates" _ _
      (isValue_arr _ _ _ (fun c hc => isValue_poly num multi c (h c hc))) (by decide) (by decide)
  | collection h ih =>
    rename_i gs
    simp only [geomText, geomTexts_eq, Rfc7946.geometry]
    exact isValue_obj "GeometryCollection" "geometries" _ _ (isValue_arr _ _ gs ih) (by decide) (by decide)

instance (t : Text) : Decidable (PlainText t) := inferInstanceAs (Decidable (∀ c ∈ t, _))

/-! ### escaping -/

theorem count_hex {a : Char} {n : Nat} (h : hexVal a = some n) : a ≠ '"' := by
  rintro rfl
  simp [hexVal] at h

theorem hex4_ne {a b c d : Char} {n : Nat} (h : hex4 a b c d = some n) : a ≠ '"' ∧ b ≠ '"' ∧ c ≠ '"' ∧ d ≠ '"' := by
  unfold hex4 at h
  split at h
  · rename_i ha hb hc hd
    exact ⟨count_hex ha, count_hex hb, count_hex hc, count_hex hd⟩
  · cases h

/-- a literal is at least as long as its value and its quotes together, and longer if the value is not plain -/
theorem isChars_length {t s : Text} (h : IsChars t s) :
    s.length + t.count '"' ≤ t.length ∧ (s.length + t.count '"' = t.length → PlainText s) := by
  induction h with
  | nil => exact ⟨by simp, fun _ => by simp [PlainText]⟩
  | @plain c t s hq hb hc h ih =>
    have : (c == '"') = false := by simpa using hq
    simp only [List.length_cons, List.count_cons, this, Bool.false_eq_true, if_false]
    refine ⟨by omega, fun he => ?_⟩
    have := ih.2 (by omega)
    intro d hd
    rcases List.mem_cons.mp hd with rfl | hd
    · exact ⟨hb, hc⟩
    · exact this d hd
  | @escape e c t s he h ih =>
    have h1 : ('\\' == '"') = false := by decide
    simp only [List.length_cons, List.count_cons, h1, Bool.false_eq_true, if_false]
    by_cases hq : e = '"'
    · subst hq
      simp only [beq_self_eq_true, if_true]
      refine ⟨by omega, fun heq => ?_⟩
      have hp := ih.2 (by omega)
      have : c = '"' := by simpa [escapes] using he
      subst this
      intro d hd
      rcases List.mem_cons.mp hd with rfl | hd
      · exact ⟨by decide, by decide⟩
      · exact hp d hd
    · have : (e == '"') = false := by simpa using hq
      simp only [this, Bool.false_eq_true, if_false]
      exact ⟨by omega, fun heq => by omega⟩
  | @unicode a b c d n t s hn hs h ih =>
    obtain ⟨h1, h2, h3, h4⟩ := hex4_ne hn
    simp only [List.length_cons, List.count_cons, beq_iff_eq, h1, h2, h3, h4, if_false,
      show ¬ ('\\' = '"') by decide, show ¬ ('u' = '"') by decide]
    exact ⟨by omega, fun heq => by omega⟩
  | @pair a b c d a' b' c' d' n m t s hn hm hs hl h ih =>
    obtain ⟨h1, h2, h3, h4⟩ := hex4_ne hn
    obtain ⟨h5, h6, h7, h8⟩ := hex4_ne hm
    simp only [List.length_cons, List.count_cons, beq_iff_eq, h1, h2, h3, h4, h5, h6, h7, h8, if_false,
      show ¬ ('\\' = '"') by decide, show ¬ ('u' = '"') by decide]
    exact ⟨by omega, fun heq => by omega⟩

theorem escape_length (s : Text) : (escape s).length = s.length + (escape s).count '"' := by
  induction s with
  | nil => rfl
  | cons c s ih =>
    unfold escape
    split
    · simp only [List.length_cons, List.count_cons, ih, beq_self_eq_true, if_true,
        show ('\\' == '"') = false by decide, Bool.false_eq_true, if_false]
      omega
    · rename_i hc
      have : (c == '"') = false := by simpa using hc
      simp only [List.length_cons, List.count_cons, ih, this, Bool.false_eq_true, if_false]
      omega

theorem isChars_escape {s : Text} (h : PlainText s) : IsChars (escape s) s := by
  induction s with
  | nil => exact .nil
  | cons c s ih =>
    have hs := ih (fun d hd => h d (by simp [hd]))
    unfold escape
    split
    · rename_i hc
      subst hc
      exact .escape (by decide) hs
    · rename_i hc
      exact .plain hc (h c (by simp)).1 (h c (by simp)).2 hs

theorem isString_escape {s : Text} (h : PlainText s) : IsString ('"' :: (escape s ++ ['"'])) s :=
  ⟨escape s, isChars_escape h, rfl⟩

theorem plain_of_isString_escape {s : Text} (h : IsString ('"' :: (escape s ++ ['"'])) s) : PlainText s := by
  obtain ⟨u, hu, he⟩ := h
  have : escape s = u := by simpa using he
  subst this
  have h1 := (isChars_length hu).2
  have h2 := escape_length s
  exact h1 (by omega)

/-! ### property values -/

theorem isInt_natText (n : Nat) : IsInt (natText n) := by
  induction n using Nat.strongRecOn with
  | _ n ih =>
    rw [natText]
    split
    · rename_i h
      by_cases h0 : n = 0
      · left; subst h0; decide
      · right
        refine ⟨_, [], rfl, (digitChar n h).1, ?_, by simp⟩
        intro he
        have := (digitChar n h).2
        rw [he] at this
        have h48 : ('0' : Char).toNat = 48 := by decide
        omega
    · rename_i h
      right
      have hpos : n / 10 ≠ 0 := by omega
      have hd := digitChar (n % 10) (by omega)
      rcases ih (n / 10) (by omega) with h0 | ⟨c, r, h1, h2, h3, h4⟩
      · exfalso
        have := digitsVal_natText (n / 10)
        rw [h0] at this
        simp [digitsVal, digitVal] at this
        omega
      · refine ⟨c, r ++ [Char.ofNat (48 + n % 10)], by rw [h1]; rfl, h2, h3, ?_⟩
        intro d hd'
        rcases List.mem_append.mp hd' with hd' | hd'
        · exact h4 d hd'
        · simp only [List.mem_singleton] at hd'
          subst hd'
          exact hd.1

theorem isNumber_intText (i : Int) : IsNumber (intText i) := by
  unfold intText
  split
  · exact ⟨['-'], natText i.natAbs, [], [], Or.inr rfl, isInt_natText _, Or.inl rfl, Or.inl rfl, by simp⟩
  · exact ⟨[], natText i.natAbs, [], [], Or.inl rfl, isInt_natText _, Or.inl rfl, Or.inl rfl, by simp⟩

/-- the text of a member -/
def IsMember (t : Text) (m : Text × Json) : Prop :=
  ∃ n c u d, IsString n m.1 ∧ IsWs c ∧ IsValue u m.2 ∧ IsWs d ∧ t = n ++ ':' :: (c ++ (u ++ d))

/-- texts separated by `s` -/
def join (s : Text) : List Text → Text
  | [] => []
  | [t] => t
  | t :: ts => t ++ (s ++ join s ts)

theorem isMembers_join {α : Type} (w : Text) (hw : IsWs w) (t : α → Text) (m : α → Text × Json) (x : α) (xs : List α)
    (h : ∀ y ∈ x :: xs, IsMember (t y) (m y)) (a : Text) (ha : IsWs a) :
    IsMembers (a ++ join (',' :: w) ((x :: xs).map t)) ((x :: xs).map m) := by
  induction xs generalizing x a with
  | nil =>
    obtain ⟨n, c, u, d, h1, h2, h3, h4, h5⟩ := h x (by simp)
    have := IsMembers.last ha h1 isWs_nil h2 h3 h4
    simpa [join, h5] using this
  | cons y ys ih =>
    obtain ⟨n, c, u, d, h1, h2, h3, h4, h5⟩ := h x (by simp)
    have := IsMembers.more ha h1 isWs_nil h2 h3 h4 (ih y (fun z hz => h z (List.mem_cons_of_mem _ hz)) w hw)
    simpa [join, h5] using this

theorem isElems_join {α : Type} (w : Text) (hw : IsWs w) (t : α → Text) (m : α → Json) (x : α) (xs : List α)
    (h : ∀ y ∈ x :: xs, IsValue (t y) (m y)) (a : Text) (ha : IsWs a) :
    IsElems (a ++ join (',' :: w) ((x :: xs).map t)) ((x :: xs).map m) := by
  induction xs generalizing x a with
  | nil =>
    have := IsElems.last ha (h x (by simp)) isWs_nil
    simpa [join] using this
  | cons y ys ih =>
    have := IsElems.more ha (h x (by simp)) isWs_nil (ih y (fun z hz => h z (List.mem_cons_of_mem _ hz)) w hw)
    simpa [join] using this

/-- an object of members -/
theorem isValue_members {α : Type} (w : Text) (hw : IsWs w) (t : α → Text) (m : α → Text × Json) (xs : List α)
    (h : ∀ y ∈ xs, IsMember (t y) (m y)) (a : Text) (ha : IsWs a) :
    IsValue ('{' :: (a ++ join (',' :: w) (xs.map t)) ++ ['}']) (.obj (xs.map m)) := by
  cases xs with
  | nil => simpa [join] using IsValue.emptyObj ha
  | cons x xs => exact IsValue.obj (isMembers_join w hw t m x xs h a ha)

/-- an array of elements -/
theorem isValue_elems {α : Type} (w : Text) (hw : IsWs w) (t : α → Text) (m : α → Json) (xs : List α)
    (h : ∀ y ∈ xs, IsValue (t y) (m y)) :
    IsValue ('[' :: (join (',' :: w) (xs.map t)) ++ [']']) (.arr (xs.map m)) := by
  cases xs with
  | nil => simpa [join] using IsValue.emptyArr isWs_nil
  | cons x xs => simpa using IsValue.arr (isElems_join w hw t m x xs h [] isWs_nil)

theorem isWs_append {a b : Text} (ha : IsWs a) (hb : IsWs b) : IsWs (a ++ b) := by
  intro c hc
  rcases List.mem_append.mp hc with h | h
  · exact ha c h
  · exact hb c h

theorem isMember_str {n v : Text} (hn : PlainText n) (hv : PlainText v) : IsMember (strProp n v) (n, .str v) :=
  ⟨_, txt " ", _, [], isString_escape hn, isWs_space, .str (isString_escape hv), isWs_nil, by simp [strProp, txt]⟩

theorem isMember_raw {n v : Text} {j : Json} (hn : PlainText n) (hv : IsText v j) : IsMember (rawProp n v) (n, j) := by
  obtain ⟨a, u, b, ha, hu, hb, rfl⟩ := hv
  exact ⟨_, txt " " ++ a, u, b, isString_escape hn, isWs_append isWs_space ha, hu, hb, by simp [rawProp, txt]⟩

theorem isText_value {t : Text} {v : Json} (h : IsValue t v) : IsText t v :=
  ⟨[], t, [], isWs_nil, h, isWs_nil, by simp⟩

/-- a property is written as the member for it -/
theorem isMember_prop (fmt : Fmt) (decode : Text → Json) (n : Text) (v : ColVal) (hn : PlainText n)
    (hv : v.Printable fmt decode) : IsMember (propText fmt n v) (n, v.toJson fmt decode) := by
  cases v with
  | string t => exact isMember_str hn hv
  | dateTime t => exact isMember_str hn hv
  | json t => exact isMember_raw hn hv
  | binary b => exact hv.elim
  | float x => exact isMember_raw hn (isText_value (.num hv))
  | double x => exact isMember_raw hn (isText_value (.num hv))
  | bool b =>
    cases b
    · exact isMember_raw hn (isText_value .false)
    · exact isMember_raw hn (isText_value .true)
  | _ => exact isMember_raw hn (isText_value (.num (isNumber_intText _)))

/-! ### features -/

/-- text of the properties object -/
def propsText (fmt : Fmt) (ps : List (Text × ColVal)) : Text :=
  txt "{" ++ (join (txt ", ") (ps.map fun p => propText fmt p.1 p.2) ++ txt "}")

/-- text of the sections of a feature, each after a separator -/
def propsPartText (fmt : Fmt) (d : FeatureData) : List Text :=
  match d.props with
  | none => []
  | some ps => [txt "\"properties\": " ++ propsText fmt ps]

def geomPartText (fmt : Fmt) (multi : Bool) (d : FeatureData) : List Text :=
  match d.geom with
  | none => []
  | some g => [txt "\"geometry\": " ++ geomText fmt.f64 multi g]

def featMembers (fmt : Fmt) (multi : Bool) (d : FeatureData) : List Text :=
  txt "\"type\": \"Feature\"" ::
    (if d.geomFirst then geomPartText fmt multi d ++ propsPartText fmt d
     else propsPartText fmt d ++ geomPartText fmt multi d)

def featText (fmt : Fmt) (multi : Bool) (d : FeatureData) : Text :=
  txt "{" ++ (join (txt ", ") (featMembers fmt multi d) ++ txt "}")

/-- separator before feature number `i` -/
def featSep (i : Nat) : Text := if i > 0 then txt ",\n" else []

theorem join_cons (s t : Text) (ts : List Text) : join s (t :: ts) = t ++ (ts.map (s ++ ·)).flatten := by
  induction ts generalizing t with
  | nil => simp [join]
  | cons u us ih => simp [join, ih]

theorem feed_props (fmt : Fmt) (ps : List (Text × ColVal)) (i : Nat) (w : GeoJsonWriter) :
    feed (step fmt) w (propEvs (enumFrom i ps)) =
      .ok (w.put ((if ps ≠ [] ∧ i > 0 then txt ", " else []) ++ join (txt ", ") (ps.map fun p => propText fmt p.1 p.2))) := by
  induction ps generalizing i w with
  | nil => simp [propEvs, enumFrom, join]
  | cons p ps ih =>
    have := ih (i + 1) ((if i > 0 then w.put (txt ", ") else w).put (propText fmt p.1 p.2))
    simp only [propEvs, enumFrom, List.map_cons, feed_cons, step] at this ⊢
    rw [this]
    cases ps with
    | nil => by_cases hi : i > 0 <;> simp [join, hi]
    | cons q qs => by_cases hi : i > 0 <;> simp [join, hi]

theorem feed_propsPart (fmt : Fmt) (multi : Bool) (d : FeatureData) (w : GeoJsonWriter) :
    feed (step fmt) w (d.feat multi).propsPart = .ok (w.put ((propsPartText fmt d).map (txt ", " ++ ·)).flatten) := by
  unfold Feat.propsPart propsPartText FeatureData.feat
  cases d.props with
  | none => simp
  | some ps =>
    simp only [Option.map_some, feed_cons, step, feed_append]
    rw [feed_props]
    simp [step, propsText, txt]

theorem feed_geomPart (fmt : Fmt) (multi : Bool) (d : FeatureData) {p : Coord → Prop}
    (hg : ∀ g, d.geom = some g → g.IsGeoJson p) (w : GeoJsonWriter) :
    feed (step fmt) w (d.feat multi).geomPart = .ok (w.put ((geomPartText fmt multi d).map (txt ", " ++ ·)).flatten) := by
  unfold Feat.geomPart geomPartText FeatureData.feat
  cases h : d.geom with
  | none => simp
  | some g =>
    simp only [Option.map_some, feed_cons, step, feed_append]
    rw [feed_geom, run_geom fmt.f64 multi (hg g h)]
    simp [step, sep, txt]

theorem feed_feat (fmt : Fmt) (multi : Bool) (d : FeatureData) {p : Coord → Prop}
    (hg : ∀ g, d.geom = some g → g.IsGeoJson p) (i : Nat) (w : GeoJsonWriter) :
    feed (step fmt) w ((d.feat multi).evs i) = .ok (w.put (featSep i ++ featText fmt multi d)) := by
  have hf : (d.feat multi).geomFirst = d.geomFirst := rfl
  simp only [Feat.evs, feed_cons, step, hf, featText, featMembers, join_cons]
  have h0 : (if i > 0 then w.put (txt ",\n") else w) = w.put (featSep i) := by
    unfold featSep; split <;> simp
  rw [h0]
  cases d.geomFirst with
  | false =>
    simp only [Bool.false_eq_true, if_false, feed_append, feed_propsPart, feed_geomPart fmt multi d hg, feed_cons, step,
      feed_nil]
    simp [txt]
  | true =>
    simp only [if_true, feed_append, feed_propsPart, feed_geomPart fmt multi d hg, feed_cons, step, feed_nil]
    simp [txt]

theorem feed_feats (fmt : Fmt) (multi : Bool) (ds : List FeatureData) {p : Coord → Prop}
    (hg : ∀ d ∈ ds, ∀ g, d.geom = some g → g.IsGeoJson p) (i : Nat) (w : GeoJsonWriter) :
    feed (step fmt) w (featEvs i (ds.map (FeatureData.feat multi))) =
      .ok (w.put ((if ds = [] then [] else featSep i) ++ join (txt ",\n") (ds.map (featText fmt multi)))) := by
  induction ds generalizing i w with
  | nil => simp [featEvs, join]
  | cons d ds ih =>
    simp only [List.map_cons, featEvs, feed_append, feed_feat fmt multi d (hg d (by simp))]
    have := ih (fun e he => hg e (by simp [he])) (i + 1) (w.put (featSep i ++ featText fmt multi d))
    rw [this]
    cases ds with
    | nil => simp [join]
    | cons e es => simp [join, featSep]

def featCollMembers (fmt : Fmt) (multi : Bool) (name : Option Text) (ds : List FeatureData) : List Text :=
  txt "\"type\": \"FeatureCollection\"" ::
    ((match name with | none => [] | some n => [txt "\"name\": \"" ++ (n ++ txt "\"")]) ++
      [txt "\"features\": [" ++ (join (txt ",\n") (ds.map (featText fmt multi)) ++ txt "]")])

theorem feed_dataset (fmt : Fmt) (multi : Bool) (name : Option Text) (ds : List FeatureData) {p : Coord → Prop}
    (hg : ∀ d ∈ ds, ∀ g, d.geom = some g → g.IsGeoJson p) (w : GeoJsonWriter) :
    feed (step fmt) w (datasetEvs name (ds.map (FeatureData.feat multi))) =
      .ok (w.put (txt "{\n" ++ (join (txt ",\n") (featCollMembers fmt multi name ds) ++ txt "}"))) := by
  simp only [datasetEvs, feed_cons, step, feed_append, feed_feats fmt multi ds hg]
  cases name <;> cases ds <;> simp [datasetBegin, step, featCollMembers, join, featSep, txt]

theorem isMember_props (fmt : Fmt) (decode : Text → Json) (ps : List (Text × ColVal)) (hn : ∀ p ∈ ps, PlainText p.1)
    (hv : ∀ p ∈ ps, p.2.Printable fmt decode) :
    IsMember (txt "\"properties\": " ++ propsText fmt ps)
      (txt "properties", .obj (ps.map fun p => (p.1, p.2.toJson fmt decode))) := by
  refine ⟨_, txt " ", _, [], isString_simple (t := txt "properties") (by decide), isWs_space,
    isValue_members (txt " ") isWs_space (fun p => propText fmt p.1 p.2) _ ps
      (fun p hp => isMember_prop fmt decode p.1 p.2 (hn p hp) (hv p hp)) [] isWs_nil, isWs_nil, by simp [propsText, txt]⟩

theorem isMember_geom (fmt : Fmt) (multi : Bool) (g : Geom)
    (hg : g.IsGeoJson (fun c => c.AllOrds (fun x => IsNumber (fmt.f64 x)) multi)) :
    IsMember (txt "\"geometry\": " ++ geomText fmt.f64 multi g) (txt "geometry", Rfc7946.geometry fmt.f64 multi g) :=
  ⟨_, txt " ", _, [], isString_simple (t := txt "geometry") (by decide), isWs_space, isValue_geom fmt.f64 multi g hg, isWs_nil, by simp [txt]⟩

theorem isMember_simple (n v : Text) (hn : Simple n) (hv : PlainText v) (hq : '"' ∉ v) :
    IsMember ('"' :: (n ++ '"' :: ':' :: ' ' :: '"' :: (v ++ ['"']))) (n, .str v) := by
  have : Simple v := fun c hc => ⟨fun h => hq (h ▸ hc), hv c hc⟩
  exact ⟨_, txt " ", _, [], isString_simple hn, isWs_space, .str (isString_simple this), isWs_nil, by simp [txt]⟩

/-- members given as pairs of a text and what it denotes -/
theorem isValue_pairs (w : Text) (hw : IsWs w) (xs : List (Text × Text × Json)) (h : ∀ y ∈ xs, IsMember y.1 y.2) (a : Text)
    (ha : IsWs a) : IsValue ('{' :: (a ++ join (',' :: w) (xs.map Prod.fst)) ++ ['}']) (.obj (xs.map Prod.snd)) :=
  isValue_members w hw Prod.fst Prod.snd xs h a ha

theorem isValue_feat (fmt : Fmt) (decode : Text → Json) (multi : Bool) (d : FeatureData)
    (hd : d.Printable fmt decode multi) : IsValue (featText fmt multi d) (Rfc7946.feature fmt decode multi d) := by
  have hp : ∃ xs : List (Text × Text × Json), xs.map Prod.fst = propsPartText fmt d ∧
      xs.map Prod.snd = Rfc7946.propsMember fmt decode d ∧ ∀ y ∈ xs, IsMember y.1 y.2 := by
    unfold propsPartText Rfc7946.propsMember
    cases h : d.props with
    | none => exact ⟨[], rfl, rfl, by simp⟩
    | some ps =>
      exact ⟨[(_, _)], rfl, rfl, by simpa using isMember_props fmt decode ps (hd.names ps h) (hd.vals ps h)⟩
  have hg : ∃ xs : List (Text × Text × Json), xs.map Prod.fst = geomPartText fmt multi d ∧
      xs.map Prod.snd = Rfc7946.geomMember fmt multi d ∧ ∀ y ∈ xs, IsMember y.1 y.2 := by
    unfold geomPartText Rfc7946.geomMember
    cases h : d.geom with
    | none => exact ⟨[], rfl, rfl, by simp⟩
    | some g =>
      exact ⟨[(_, _)], rfl, rfl, by simpa using isMember_geom fmt multi g (hd.geom g h)⟩
  obtain ⟨xp, hp1, hp2, hp3⟩ := hp
  obtain ⟨xg, hg1, hg2, hg3⟩ := hg
  have ht : IsMember (txt "\"type\": \"Feature\"") (txt "type", .str (txt "Feature")) :=
    isMember_simple (txt "type") (txt "Feature") (by decide) (by decide) (by decide)
  have key : ∀ xs : List (Text × Text × Json), (∀ y ∈ xs, IsMember y.1 y.2) →
      IsValue (txt "{" ++ (join (txt ", ") (txt "\"type\": \"Feature\"" :: xs.map Prod.fst) ++ txt "}"))
        (.obj ((txt "type", .str (txt "Feature")) :: xs.map Prod.snd)) := by
    intro xs hxs
    have := isValue_pairs (txt " ") isWs_space ((txt "\"type\": \"Feature\"", (txt "type", .str (txt "Feature"))) :: xs)
      (fun y hy => by
        rcases List.mem_cons.mp hy with rfl | hy
        · exact ht
        · exact hxs y hy) [] isWs_nil
    simpa [txt] using this
  unfold featText featMembers Rfc7946.feature
  cases d.geomFirst with
  | false =>
    have := key (xp ++ xg) (fun y hy => (List.mem_append.mp hy).elim (hp3 y) (hg3 y))
    simpa [hp1, hp2, hg1, hg2] using this
  | true =>
    have := key (xg ++ xp) (fun y hy => (List.mem_append.mp hy).elim (hg3 y) (hp3 y))
    simpa [hp1, hp2, hg1, hg2] using this

theorem isValue_dataset (fmt : Fmt) (decode : Text → Json) (multi : Bool) (name : Option Text) (ds : List FeatureData)
    (hn : ∀ n, name = some n → PlainText n ∧ '"' ∉ n) (hd : ∀ d ∈ ds, d.Printable fmt decode multi) :
    IsValue (txt "{\n" ++ (join (txt ",\n") (featCollMembers fmt multi name ds) ++ txt "}"))
      (Rfc7946.featureCollection fmt decode multi name ds) := by
  have ht : IsMember (txt "\"type\": \"FeatureCollection\"") (txt "type", .str (txt "FeatureCollection")) :=
    isMember_simple (txt "type") (txt "FeatureCollection") (by decide) (by decide) (by decide)
  have hf : IsMember (txt "\"features\": [" ++ (join (txt ",\n") (ds.map (featText fmt multi)) ++ txt "]"))
      (txt "features", .arr (ds.map (Rfc7946.feature fmt decode multi))) :=
    ⟨_, txt " ", _, [], isString_simple (t := txt "features") (by decide), isWs_space,
      isValue_elems (txt "\n") isWs_newline (featText fmt multi) _ ds
        (fun d h => isValue_feat fmt decode multi d (hd d h)), isWs_nil, by simp [txt]⟩
  cases name with
  | none =>
    have := isValue_pairs (txt "\n") isWs_newline [(_, _), (_, _)] (by simpa using ⟨ht, hf⟩) (txt "\n") isWs_newline
    simpa [featCollMembers, Rfc7946.featureCollection, txt] using this
  | some n =>
    have hnm := isMember_simple (txt "name") n (by decide) (hn n rfl).1 (hn n rfl).2
    have := isValue_pairs (txt "\n") isWs_newline [(_, _), (_, _), (_, _)] (by simpa using ⟨ht, hnm, hf⟩) (txt "\n")
      isWs_newline
    simpa [featCollMembers, Rfc7946.featureCollection, txt] using this

end GeoJsonWriter
end Geozero
