import Verif.Lemmas.Wkt

/- The parser inverts the printer. -/

namespace Geozero
namespace Spec

/-- what can follow an item -/
def Follow (rest : Text) : Prop := ∃ r, rest = ',' :: r ∨ rest = ')' :: r

def Parses {α : Type} (P : Text → Option (α × Text)) (t : α → Text) (a : α) : Prop :=
  ∀ rest, Follow rest → P (t a ++ rest) = some (a, rest)

theorem parseItems_ok {α : Type} (P : Text → Option (α × Text)) (t : α → Text) (xs : List α) (hne : xs ≠ [])
    (hx : ∀ x ∈ xs, Parses P t x) (n : Nat) (hn : xs.length ≤ n) (rest : Text) :
    parseItems P n (commaSep (xs.map t) ++ ')' :: rest) = some (xs, rest) := by
  induction xs generalizing n with
  | nil => exact absurd rfl hne
  | cons x xs ih =>
    cases n with
    | zero => simp at hn
    | succ n =>
      cases xs with
      | nil =>
        simp only [List.map_cons, List.map_nil, commaSep, parseItems]
        rw [hx x (by simp) _ ⟨rest, .inr rfl⟩]
        rfl
      | cons y ys =>
        have := ih (by simp) (fun z hz => hx z (by simp [hz])) n (by simpa using hn)
        simp only [List.map_cons, commaSep, parseItems, List.append_assoc, List.cons_append] at *
        rw [hx x (by simp) _ ⟨_, .inl rfl⟩]
        simp [this]

theorem len_commaSep (ts : List Text) : (∀ t ∈ ts, t.length ≤ (commaSep ts).length) ∧ ts.length ≤ (commaSep ts).length + 1 := by
  induction ts with
  | nil => simp
  | cons t ts ih =>
    cases ts with
    | nil => simp [commaSep]
    | cons u us =>
      simp only [commaSep, List.length_append, List.length_cons] at *
      refine ⟨?_, by omega⟩
      intro v hv
      rcases List.mem_cons.mp hv with rfl | hv
      · omega
      · have := ih.1 v hv; omega

/-- lengths inside parentheses -/
theorem len_parens {α : Type} (t : α → Text) (xs : List α) :
    (∀ x ∈ xs, (t x).length ≤ (parens (xs.map t)).length) ∧ xs.length ≤ (parens (xs.map t)).length := by
  have h := len_commaSep (xs.map t)
  unfold parens
  cases xs with
  | nil => simp
  | cons x xs =>
    simp only [List.map_cons, reduceCtorEq, if_false, List.length_append, txt] at *
    refine ⟨fun y hy => ?_, by have := h.2; simp at *; omega⟩
    have := h.1 (t y) (by simpa using List.mem_map_of_mem (f := t) hy)
    omega

theorem expect_append (t r : Text) : expect t (t ++ r) = some r := by
  simp [expect, List.isPrefixOf_iff_prefix]

theorem parseParens_ok {α : Type} (P : Text → Option (α × Text)) (t : α → Text) (xs : List α)
    (hx : ∀ x ∈ xs, Parses P t x) (n : Nat) (hn : xs.length ≤ n) (rest : Text) :
    parseParens P n (parens (xs.map t) ++ rest) = some (xs, rest) := by
  cases xs with
  | nil => simp [parens, parseParens, expect_append]
  | cons x xs =>
    have h := parseItems_ok P t (x :: xs) (by simp) hx n hn rest
    have e1 : parens ((x :: xs).map t) ++ rest = '(' :: (commaSep ((x :: xs).map t) ++ ')' :: rest) := by simp [parens, txt]
    have e2 : ∀ r, expect (txt "EMPTY") ('(' :: r) = none := by intro r; simp [expect, txt]
    rw [e1]
    unfold parseParens
    simp only [e2]
    exact h

theorem parseTagged_ok {α : Type} (P : Text → Option (α × Text)) (t : α → Text) (xs : List α)
    (hx : ∀ x ∈ xs, Parses P t x) (n : Nat) (hn : xs.length ≤ n) (rest : Text) :
    parseTagged P n ((if xs.map t = [] then txt " EMPTY" else parens (xs.map t)) ++ rest) = some (xs, rest) := by
  cases xs with
  | nil => simp [parseTagged, expect, txt, List.isPrefixOf]
  | cons x xs =>
    have h := parseItems_ok P t (x :: xs) (by simp) hx n hn rest
    simpa [parens, parseTagged, txt] using h

/-- the tag of a tagged text is found -/
theorem parseTag_ok (tag : String) (ht : ∀ c ∈ tag.toList, isUpper c = true) (items : List Text) (rest : Text) :
    parseTag (tagged tag items ++ rest) = (txt tag, (if items = [] then txt " EMPTY" else parens items) ++ rest) := by
  have hd : ∃ c r, (if items = [] then txt " EMPTY" else parens items) ++ rest = c :: r ∧ isUpper c = false := by
    by_cases h : items = []
    · exact ⟨' ', txt "EMPTY" ++ rest, by simp [h, txt], rfl⟩
    · exact ⟨'(', commaSep items ++ txt ")" ++ rest, by simp [h, parens, txt], rfl⟩
  obtain ⟨c, r, hcr, hc⟩ := hd
  rw [tagged, List.append_assoc, hcr, parseTag]
  have : ∀ (l : List Char), (∀ c ∈ l, isUpper c = true) →
      (l ++ c :: r).takeWhile isUpper = l ∧ (l ++ c :: r).dropWhile isUpper = c :: r := by
    intro l hl
    induction l with
    | nil => simp [hc]
    | cons a l ih => simp [hl a (by simp), ih (fun x hx => hl x (by simp [hx]))]
  rw [(this (txt tag) ht).1, (this (txt tag) ht).2]

theorem parseNums_of (num : F64 → Text) (parse : Text → Option F64) (vs : List F64) (hne : vs ≠ [])
    (hv : ∀ v ∈ vs, (∀ c ∈ num v, isDelim c = false) ∧ parse (num v) = some v) (n : Nat)
    (hn : vs.length ≤ n) (rest : Text) (hr : Follow rest) :
    parseNums parse n (blankSep (vs.map num) ++ rest) = some (vs, rest) := by
  have key : ∀ l : Text, (∀ c ∈ l, isDelim c = false) → ∀ c r, isDelim c = true →
      (l ++ c :: r).takeWhile (fun c => !isDelim c) = l ∧
      (l ++ c :: r).dropWhile (fun c => !isDelim c) = c :: r := by
    intro l hch c r hc
    induction l with
    | nil => simp [hc]
    | cons a l ih => simp [hch a (by simp), ih (fun x hx => hch x (by simp [hx]))]
  induction vs generalizing n with
  | nil => exact absurd rfl hne
  | cons v vs ih =>
    have hv0 := hv v (by simp)
    cases n with
    | zero => simp at hn
    | succ n =>
      cases vs with
      | nil =>
        obtain ⟨r, hr | hr⟩ := hr
        · subst hr
          have hk := key _ hv0.1 ',' r rfl
          simp only [List.map_cons, List.map_nil, blankSep, parseNums, hk.1, hk.2, hv0.2]
          rfl
        · subst hr
          have hk := key _ hv0.1 ')' r rfl
          simp only [List.map_cons, List.map_nil, blankSep, parseNums, hk.1, hk.2, hv0.2]
          rfl
      | cons u us =>
        have h := ih (by simp) (fun x hx => hv x (by simp [hx])) n (by simpa using hn)
        have hk := key _ hv0.1 ' ' (blankSep ((u :: us).map num) ++ rest) rfl
        simp only [List.map_cons, blankSep, List.append_assoc, List.cons_append, parseNums] at *
        simp [hk.1, hk.2, hv0.2, h]

theorem parseNums_ok (N : NumText) (vs : List F64) (hne : vs ≠ []) (hv : ∀ v ∈ vs, F64.isNaN v = false) (n : Nat)
    (hn : vs.length ≤ n) (rest : Text) (hr : Follow rest) :
    parseNums N.parse n (blankSep (vs.map N.num) ++ rest) = some (vs, rest) :=
  parseNums_of N.num N.parse vs hne (fun v h => ⟨N.num_chars v (hv v h), N.parse_num v (hv v h)⟩) n hn rest hr

theorem parseCoord_ok (N : NumText) (multi : Bool) (c : Coord) (hc : Recoverable multi c) :
    Parses (parseCoord N.parse) (wktCoord N.num multi) c := by
  intro rest hr
  obtain ⟨x, y, z, m⟩ := c
  obtain ⟨h1, h2, h3, h4, h5, h6⟩ := hc
  have hnums : ∀ v ∈ ordinates multi ⟨x, y, z, m⟩, F64.isNaN v = false := by
    intro v hv
    cases multi <;> cases z <;> cases m <;> simp_all [ordinates] <;> grind
  have hlen : (ordinates multi ⟨x, y, z, m⟩).length ≤ 4 := by
    cases multi <;> cases z <;> cases m <;> simp [ordinates]
  have h := parseNums_ok N (ordinates multi ⟨x, y, z, m⟩) (by cases multi <;> simp [ordinates]) hnums 4 hlen rest hr
  have hne : ¬ (∀ v ∈ ordinates multi ⟨x, y, z, m⟩, F64.isNaN v = true) := by
    intro hall
    have hm : x ∈ ordinates multi ⟨x, y, z, m⟩ := by cases multi <;> simp [ordinates]
    have := hall x hm
    simp only at h1
    rw [h1] at this
    cases this
  simp only [wktCoord, hne, if_false, parseCoord, h]
  cases multi
  · obtain ⟨ha, hb⟩ := h6 rfl
    simp only at ha hb
    subst ha hb
    simp [ordinates]
  · cases z with
    | none =>
      cases m with
      | none => simp [ordinates]
      | some m => simp at h5
    | some z => cases m <;> simp [ordinates]

section
variable (num : F64 → Text) (multi : Bool) (coord : Text → Option (Coord × Text)) (P : Coord → Prop)
  (hP : ∀ c, P c → Parses coord (wktCoord num multi) c)
include hP

theorem parseLine_ok (cs : List Coord) (hc : ∀ c ∈ cs, P c) (n : Nat)
    (hn : (wktLine num multi cs).length ≤ n) (rest : Text) :
    parseLine coord n (wktLine num multi cs ++ rest) = some (cs, rest) :=
  parseParens_ok _ _ cs (fun c h => hP c (hc c h)) n
    (Nat.le_trans (len_parens (wktCoord num multi) cs).2 hn) rest

theorem parsePoly_ok (rs : List (List Coord)) (hc : ∀ c ∈ rs.flatten, P c) (n : Nat)
    (hn : (wktPoly num multi rs).length ≤ n) (rest : Text) :
    parsePoly coord n (wktPoly num multi rs ++ rest) = some (rs, rest) :=
  parseParens_ok _ _ rs (fun r h rest _ => parseLine_ok num multi coord P hP r
      (fun c hcr => hc c (List.mem_flatten.mpr ⟨r, h, hcr⟩)) n
      (Nat.le_trans ((len_parens (wktLine num multi) rs).1 r h) hn) rest) n
    (Nat.le_trans (len_parens (wktLine num multi) rs).2 hn) rest

omit hP in
/-- parsing of a tagged list, given its items parse -/
theorem tagged_ok {α : Type} (P : Text → Option (α × Text)) (t : α → Text) (xs : List α) (tag : String)
    (ht : tag.toList ≠ [] ∧ ∀ c ∈ tag.toList, isUpper c = true) (n : Nat) (hn : (tagged tag (xs.map t)).length ≤ n + 1)
    (hx : ∀ x ∈ xs, (t x).length ≤ n → Parses P t x) (rest : Text) :
    parseTag (tagged tag (xs.map t) ++ rest) = (txt tag, (if xs.map t = [] then txt " EMPTY" else parens (xs.map t)) ++ rest) ∧
    parseTagged P n ((if xs.map t = [] then txt " EMPTY" else parens (xs.map t)) ++ rest) = some (xs, rest) := by
  refine ⟨parseTag_ok tag ht.2 _ rest, ?_⟩
  have hl : (tagged tag (xs.map t)).length =
      tag.toList.length + (if xs.map t = [] then txt " EMPTY" else parens (xs.map t)).length := by
    simp [tagged, txt]
  have hp : 0 < tag.toList.length := List.length_pos_iff.mpr ht.1
  have h := len_parens t xs
  apply parseTagged_ok
  · intro x hxm
    apply hx x hxm
    have := h.1 x hxm
    have hne : ¬ (xs.map t = []) := by intro h; simp at h; subst h; simp at hxm
    simp only [hne, if_false] at hl
    omega
  · by_cases hne : xs.map t = []
    · simp only [List.map_eq_nil_iff] at hne; subst hne; simp
    · simp only [hne, if_false] at hl
      have := h.2
      omega

omit hP in
/-- a text in parentheses or `EMPTY` does not carry another tag -/
theorem parseTag_parens (items : List Text) (rest : Text) :
    ((parseTag (parens items ++ rest)).1 = [] ∨ ∃ r, (parseTag (parens items ++ rest)).1 = txt "EMPTY" ++ r) := by
  by_cases h : items = []
  · right
    subst h
    exact ⟨rest.takeWhile isUpper, by simp [parens, parseTag, txt, isUpper]⟩
  · left
    simp [parens, h, parseTag, txt, isUpper]

omit hP in
theorem parseTag_ne (items : List Text) (rest : Text) (tag : Text) (h : tag ≠ [] ∧ tag.head? ≠ some 'E') :
    (parseTag (parens items ++ rest)).1 ≠ tag := by
  intro he
  rcases parseTag_parens items rest with h1 | ⟨r, h1⟩
  · rw [h1] at he; exact h.1 he.symm
  · rw [h1] at he; rw [← he] at h; exact h.2 rfl

theorem parseSeg_ok (s : Seg) (hc : ∀ c ∈ s.coords, P c) (n : Nat)
    (hn : (wktSeg num multi s).length ≤ n) (rest : Text) :
    parseSeg coord n (wktSeg num multi s ++ rest) = some (s, rest) := by
  cases s with
  | line cs =>
    have hne := parseTag_ne (cs.map (wktCoord num multi)) rest (txt "CIRCULARSTRING") (by decide)
    simp only [parseSeg, wktSeg, wktLine, hne, if_false]
    have := parseLine_ok num multi coord P hP cs hc n hn rest
    simp only [wktLine] at this
    rw [this]; rfl
  | circ cs =>
    have h := tagged_ok coord (wktCoord num multi) cs "CIRCULARSTRING" (by decide) n
      (Nat.le_succ_of_le hn) (fun c hm _ => hP c (hc c hm)) rest
    simp only [parseSeg, wktSeg, h.1, if_true, h.2]
    rfl

omit hP in
theorem tag_seg_ne (s : Seg) (rest : Text) : (parseTag (wktSeg num multi s ++ rest)).1 ≠ txt "COMPOUNDCURVE" := by
  cases s with
  | line cs => exact parseTag_ne _ rest _ (by decide)
  | circ cs => rw [wktSeg, parseTag_ok "CIRCULARSTRING" (by decide)]; simp only; decide

theorem parseCurve_ok (s : Curve) (hc : ∀ c ∈ s.coords, P c) (n : Nat)
    (hn : (wktCurve num multi s).length ≤ n) (rest : Text) :
    parseCurve coord n (wktCurve num multi s ++ rest) = some (s, rest) := by
  cases s with
  | seg s =>
    simp only [parseCurve, wktCurve, tag_seg_ne num multi s rest, if_false, parseSeg_ok num multi coord P hP s hc n hn rest]
    rfl
  | compound ss =>
    have h := tagged_ok (parseSeg coord n) (wktSeg num multi) ss "COMPOUNDCURVE" (by decide) n
      (Nat.le_succ_of_le hn) (fun s hm hl rest _ => parseSeg_ok num multi coord P hP s
        (fun c hcs => hc c (List.mem_flatMap.mpr ⟨s, hm, hcs⟩)) n hl rest) rest
    simp only [parseCurve, wktCurve, h.1, if_true, h.2]
    rfl

theorem parseSurface_ok (s : Surface) (hc : ∀ c ∈ s.coords, P c) (n : Nat)
    (hn : (wktSurface num multi s).length ≤ n) (rest : Text) :
    parseSurface coord n (wktSurface num multi s ++ rest) = some (s, rest) := by
  cases s with
  | polygon rs =>
    have hne := parseTag_ne (rs.map (wktLine num multi)) rest (txt "CURVEPOLYGON") (by decide)
    have h := parsePoly_ok num multi coord P hP rs hc n hn rest
    simp only [wktPoly] at h
    simp only [parseSurface, wktSurface, wktPoly, hne, if_false, h]
    rfl
  | curvePolygon ss =>
    have h := tagged_ok (parseCurve coord n) (wktCurve num multi) ss "CURVEPOLYGON" (by decide) n
      (Nat.le_succ_of_le hn) (fun s hm hl rest _ => parseCurve_ok num multi coord P hP s
        (fun c hcs => hc c (List.mem_flatMap.mpr ⟨s, hm, hcs⟩)) n hl rest) rest
    simp only [parseSurface, wktSurface, h.1, if_true, h.2]
    rfl

theorem parseGeom_of (g : Geom) : (∀ c ∈ g.coords, P c) → ∀ n,
    (wkt num multi g).length ≤ n → ∀ rest, parseGeom coord n (wkt num multi g ++ rest) = some (g, rest) := by
  have hpos : ∀ g n, (wkt num multi g).length ≤ n → n ≠ 0 := by
    intro g n h
    cases g <;> simp [wkt, tagged, txt] at h <;> omega
  have kc : ∀ (cs : List Coord) (tag : String) (ht : tag.toList ≠ [] ∧ ∀ c ∈ tag.toList, isUpper c = true) n,
      (∀ c ∈ cs, P c) → (tagged tag (cs.map (wktCoord num multi))).length ≤ n + 1 → _ :=
    fun cs tag ht n hc hn => tagged_ok coord (wktCoord num multi) cs tag ht n hn
      (fun c hm _ => hP c (hc c hm))
  have kl : ∀ (rs : List (List Coord)) (tag : String) (ht : tag.toList ≠ [] ∧ ∀ c ∈ tag.toList, isUpper c = true) n,
      (∀ c ∈ rs.flatten, P c) → (tagged tag (rs.map (wktLine num multi))).length ≤ n + 1 → _ :=
    fun rs tag ht n hc hn => tagged_ok (parseLine coord n) (wktLine num multi) rs tag ht n hn
      (fun r hm hl rest _ => parseLine_ok num multi coord P hP r (fun c h => hc c (List.mem_flatten.mpr ⟨r, hm, h⟩)) n hl rest)
  have kp : ∀ (ps : List (List (List Coord))) (tag : String) (ht : tag.toList ≠ [] ∧ ∀ c ∈ tag.toList, isUpper c = true) n,
      (∀ c ∈ ps.flatMap List.flatten, P c) → (tagged tag (ps.map (wktPoly num multi))).length ≤ n + 1 → _ :=
    fun ps tag ht n hc hn => tagged_ok (parsePoly coord n) (wktPoly num multi) ps tag ht n hn
      (fun r hm hl rest _ => parsePoly_ok num multi coord P hP r (fun c h => hc c (List.mem_flatMap.mpr ⟨r, hm, h⟩)) n hl rest)
  have ks : ∀ (ss : List Seg) (tag : String) (ht : tag.toList ≠ [] ∧ ∀ c ∈ tag.toList, isUpper c = true) n,
      (∀ c ∈ ss.flatMap Seg.coords, P c) → (tagged tag (ss.map (wktSeg num multi))).length ≤ n + 1 → _ :=
    fun ps tag ht n hc hn => tagged_ok (parseSeg coord n) (wktSeg num multi) ps tag ht n hn
      (fun r hm hl rest _ => parseSeg_ok num multi coord P hP r (fun c h => hc c (List.mem_flatMap.mpr ⟨r, hm, h⟩)) n hl rest)
  have ku : ∀ (ss : List Curve) (tag : String) (ht : tag.toList ≠ [] ∧ ∀ c ∈ tag.toList, isUpper c = true) n,
      (∀ c ∈ ss.flatMap Curve.coords, P c) → (tagged tag (ss.map (wktCurve num multi))).length ≤ n + 1 → _ :=
    fun ps tag ht n hc hn => tagged_ok (parseCurve coord n) (wktCurve num multi) ps tag ht n hn
      (fun r hm hl rest _ => parseCurve_ok num multi coord P hP r (fun c h => hc c (List.mem_flatMap.mpr ⟨r, hm, h⟩)) n hl rest)
  have kf : ∀ (ss : List Surface) (tag : String) (ht : tag.toList ≠ [] ∧ ∀ c ∈ tag.toList, isUpper c = true) n,
      (∀ c ∈ ss.flatMap Surface.coords, P c) → (tagged tag (ss.map (wktSurface num multi))).length ≤ n + 1 → _ :=
    fun ps tag ht n hc hn => tagged_ok (parseSurface coord n) (wktSurface num multi) ps tag ht n hn
      (fun r hm hl rest _ => parseSurface_ok num multi coord P hP r (fun c h => hc c (List.mem_flatMap.mpr ⟨r, hm, h⟩)) n hl rest)
  induction g using Geom.ind with
  | emptyPoint =>
    intro _ n hn rest
    obtain ⟨n, rfl⟩ := Nat.exists_eq_succ_of_ne_zero (hpos _ n hn)
    have h := kc [] "POINT" (by decide) n (by simp) (by simpa [wkt, tagged, txt] using hn) rest
    simp [wkt, parseGeom, parseTag, txt, isUpper, parseTagged, expect]
  | point c =>
    intro hc n hn rest
    obtain ⟨n, rfl⟩ := Nat.exists_eq_succ_of_ne_zero (hpos _ n hn)
    have h1 := parseTag_ok "POINT" (by decide) [wktCoord num multi c] rest
    have h2 := parseTagged_ok coord (wktCoord num multi) [c]
      (fun x hx => hP x (hc x (by simpa [Geom.coords] using hx))) 1 (by simp) rest
    simp only [List.map_cons, List.map_nil] at h2
    simp only [wkt, parseGeom, h1, h2, if_true]
  | multiPoint cs =>
    intro hc n hn rest
    obtain ⟨n, rfl⟩ := Nat.exists_eq_succ_of_ne_zero (hpos _ n hn)
    have h := kc cs "MULTIPOINT" (by decide) n hc hn rest
    simp only [wkt, parseGeom, h.1, h.2, if_true, (by decide : txt "MULTIPOINT" ≠ txt "POINT"), if_false]; rfl
  | lineString cs =>
    intro hc n hn rest
    obtain ⟨n, rfl⟩ := Nat.exists_eq_succ_of_ne_zero (hpos _ n hn)
    have h := kc cs "LINESTRING" (by decide) n hc hn rest
    simp only [wkt, parseGeom, h.1, h.2]; rfl
  | circularString cs =>
    intro hc n hn rest
    obtain ⟨n, rfl⟩ := Nat.exists_eq_succ_of_ne_zero (hpos _ n hn)
    have h := kc cs "CIRCULARSTRING" (by decide) n hc hn rest
    simp only [wkt, parseGeom, h.1, h.2]; rfl
  | compoundCurve ss =>
    intro hc n hn rest
    obtain ⟨n, rfl⟩ := Nat.exists_eq_succ_of_ne_zero (hpos _ n hn)
    have h := ks ss "COMPOUNDCURVE" (by decide) n hc hn rest
    simp only [wkt, parseGeom, h.1, h.2]; rfl
  | multiLineString ls =>
    intro hc n hn rest
    obtain ⟨n, rfl⟩ := Nat.exists_eq_succ_of_ne_zero (hpos _ n hn)
    have h := kl ls "MULTILINESTRING" (by decide) n hc hn rest
    simp only [wkt, parseGeom, h.1, h.2]; rfl
  | multiCurve cs =>
    intro hc n hn rest
    obtain ⟨n, rfl⟩ := Nat.exists_eq_succ_of_ne_zero (hpos _ n hn)
    have h := ku cs "MULTICURVE" (by decide) n hc hn rest
    simp only [wkt, parseGeom, h.1, h.2]; rfl
  | polygon rs =>
    intro hc n hn rest
    obtain ⟨n, rfl⟩ := Nat.exists_eq_succ_of_ne_zero (hpos _ n hn)
    have h := kl rs "POLYGON" (by decide) n hc hn rest
    simp only [wkt, parseGeom, h.1, h.2]; rfl
  | triangle rs =>
    intro hc n hn rest
    obtain ⟨n, rfl⟩ := Nat.exists_eq_succ_of_ne_zero (hpos _ n hn)
    have h := kl rs "TRIANGLE" (by decide) n hc hn rest
    simp only [wkt, parseGeom, h.1, h.2]; rfl
  | curvePolygon cs =>
    intro hc n hn rest
    obtain ⟨n, rfl⟩ := Nat.exists_eq_succ_of_ne_zero (hpos _ n hn)
    have h := ku cs "CURVEPOLYGON" (by decide) n hc hn rest
    simp only [wkt, parseGeom, h.1, h.2]; rfl
  | multiPolygon ps =>
    intro hc n hn rest
    obtain ⟨n, rfl⟩ := Nat.exists_eq_succ_of_ne_zero (hpos _ n hn)
    have h := kp ps "MULTIPOLYGON" (by decide) n hc hn rest
    simp only [wkt, parseGeom, h.1, h.2]; rfl
  | polyhedralSurface ps =>
    intro hc n hn rest
    obtain ⟨n, rfl⟩ := Nat.exists_eq_succ_of_ne_zero (hpos _ n hn)
    have h := kp ps "POLYHEDRALSURFACE" (by decide) n hc hn rest
    simp only [wkt, parseGeom, h.1, h.2]; rfl
  | tin ps =>
    intro hc n hn rest
    obtain ⟨n, rfl⟩ := Nat.exists_eq_succ_of_ne_zero (hpos _ n hn)
    have h := kp ps "TIN" (by decide) n hc hn rest
    simp only [wkt, parseGeom, h.1, h.2]; rfl
  | multiSurface ss =>
    intro hc n hn rest
    obtain ⟨n, rfl⟩ := Nat.exists_eq_succ_of_ne_zero (hpos _ n hn)
    have h := kf ss "MULTISURFACE" (by decide) n hc hn rest
    simp only [wkt, parseGeom, h.1, h.2]; rfl
  | collection gs ih =>
    intro hc n hn rest
    obtain ⟨n, rfl⟩ := Nat.exists_eq_succ_of_ne_zero (hpos _ n hn)
    simp only [Geom.coords, Geom.coordsList_eq] at hc
    simp only [wkt, WktWriter.wktList_eq] at hn
    have h := tagged_ok (parseGeom coord n) (wkt num multi) gs "GEOMETRYCOLLECTION" (by decide) n hn
      (fun g hm hl rest _ => ih g hm (fun c h => hc c (List.mem_flatMap.mpr ⟨g, hm, h⟩)) n hl rest) rest
    simp only [wkt, WktWriter.wktList_eq, parseGeom, h.1, h.2]; rfl

end

theorem parseGeom_ok (N : NumText) (multi : Bool) (g : Geom) (hg : ∀ c ∈ g.coords, Recoverable multi c) (n : Nat)
    (hn : (wkt N.num multi g).length ≤ n) (rest : Text) :
    parseGeom (parseCoord N.parse) n (wkt N.num multi g ++ rest) = some (g, rest) :=
  parseGeom_of N.num multi (parseCoord N.parse) (Recoverable multi) (fun c h => parseCoord_ok N multi c h) g hg n hn rest

theorem toString_int (v : Int) :
    (toString v).toList = if v < 0 then '-' :: Nat.toDigits 10 v.natAbs else Nat.toDigits 10 v.natAbs := by
  cases v with
  | ofNat n => simp [toString, Int.repr, Nat.repr]
  | negSucc n => simp [toString, Int.repr, Nat.repr]

theorem parseInt_toString (v : Int) : parseInt (toString v).toList = v := by
  rw [toString_int]
  split
  · simp only [parseInt, Nat.ofDigitChars_ten_toDigits]
    omega
  · have hd : ∀ c ∈ Nat.toDigits 10 v.natAbs, c.isDigit = true :=
      fun c hc => Nat.isDigit_of_mem_toDigits (by decide) (by decide) hc
    have h : parseInt (Nat.toDigits 10 v.natAbs) = (Nat.ofDigitChars 10 (Nat.toDigits 10 v.natAbs) 0 : Int) := by
      generalize Nat.toDigits 10 v.natAbs = l at hd
      unfold parseInt
      split
      · have := hd '-' (by simp)
        exact absurd this (by decide)
      · rfl
    rw [h, Nat.ofDigitChars_ten_toDigits]
    omega

theorem toString_int_chars (v : Int) : ∀ c ∈ (toString v).toList, (c != ';') = true := by
  rw [toString_int]
  have hd : ∀ c ∈ Nat.toDigits 10 v.natAbs, (c != ';') = true := by
    intro c hc
    have := Nat.isDigit_of_mem_toDigits (by decide) (by decide) hc
    cases hcc : c != ';' with
    | true => rfl
    | false =>
      simp only [bne_eq_false_iff_eq] at hcc
      subst hcc
      exact absurd this (by decide)
  split
  · intro c hc
    rcases List.mem_cons.mp hc with rfl | hc
    · rfl
    · exact hd c hc
  · exact hd

theorem span_semicolon (l r : Text) (h : ∀ c ∈ l, (c != ';') = true) :
    (l ++ ';' :: r).takeWhile (· != ';') = l ∧ (l ++ ';' :: r).dropWhile (· != ';') = ';' :: r := by
  induction l with
  | nil => simp
  | cons a l ih =>
    have h1 := ih (fun x hx => h x (by simp [hx]))
    simp only [List.cons_append, List.takeWhile_cons, List.dropWhile_cons, h a (by simp), if_true, h1.1, h1.2, and_self]

/-- no geometry text starts like an SRID -/
theorem expect_srid_geom (num : F64 → Text) (multi : Bool) (g : Geom) : expect (txt "SRID=") (wkt num multi g) = none := by
  cases g <;> simp [wkt, tagged, txt, expect]

end Spec

open Prog Spec

theorem run_wktCoords (multi : Bool) (cs : List Coord) (i : Nat) (bs : List Byte) :
    run multi (forIdx (fun i c => wktProcessCoord multi i c) i cs) bs = (evList (coordEvs multi) i cs, .ok ((), bs)) :=
  run_forIdx cs (fun i c _ bs => by cases multi <;> simp [wktProcessCoord, coordEvs, coordEv]) i bs

theorem run_wktLine (multi tagged : Bool) (idx : Nat) (cs : List Coord) (bs : List Byte) :
    run multi (wktProcessLinestring tagged idx cs) bs = (lineEvs multi tagged idx cs, .ok ((), bs)) := by
  simp only [wktProcessLinestring, bind_eq, run_emitEv_bind, run_multiDim_bind]
  rw [run_bind_ok (run_wktCoords multi cs 0 bs)]
  simp [lineEvs, bracket]

theorem run_wktPoly (multi tagged : Bool) (idx : Nat) (rs : List (List Coord)) (bs : List Byte) :
    run multi (wktProcessPolygon tagged idx rs) bs = (polyEvs multi tagged idx rs, .ok ((), bs)) := by
  simp only [wktProcessPolygon, bind_eq, run_emitEv_bind]
  rw [run_bind_ok (run_forIdx rs (fun i r _ bs => run_wktLine multi false i r bs) 0 bs)]
  simp [polyEvs, bracket]

/-- the coordinates a multi point with possibly empty members delivers, with their positions -/
def memberEvs (multi : Bool) (i : Nat) : Option Coord → List Ev
  | some c => coordEvs multi i c
  | none => []

theorem run_wktMembers (multi : Bool) (ps : List (Option Coord)) (i : Nat) (bs : List Byte) :
    run multi (forIdx (wktProcessMember multi) i ps) bs = (evList (memberEvs multi) i ps, .ok ((), bs)) :=
  run_forIdx ps (fun i p _ bs => by
    cases p with
    | none => simp [wktProcessMember, memberEvs]
    | some c => cases multi <;> simp [wktProcessMember, wktProcessCoord, memberEvs, coordEvs, coordEv]) i bs

theorem run_wktMultiPoint (multi : Bool) (ps : List (Option Coord)) (idx : Nat) (bs : List Byte) :
    run multi (wktProcessGeomN idx (.multiPoint ps)) bs =
      (bracket .multiPoint true idx (memberEvs multi) ps, .ok ((), bs)) := by
  simp only [wktProcessGeomN, bind_eq, run_emitEv_bind, run_multiDim_bind]
  rw [run_bind_ok (run_wktMembers multi ps 0 bs)]
  simp [bracket]

mutual
theorem run_wktGeomN (multi : Bool) (g : WktGeom) (hg : g.NoEmptyMember) (idx : Nat) (bs : List Byte) :
    run multi (wktProcessGeomN idx g) bs = (g.denote.events multi idx, .ok ((), bs)) := by
  cases g with
  | point c =>
    cases c with
    | none => simp [wktProcessGeomN, WktGeom.denote, Geom.events]
    | some c => cases multi <;> simp [wktProcessGeomN, WktGeom.denote, Geom.events, wktProcessCoord, coordEv]
  | lineString cs =>
    simp only [wktProcessGeomN, bind_eq, run_multiDim_bind, run_wktLine, WktGeom.denote, Geom.events]
  | polygon rs =>
    simp only [wktProcessGeomN, bind_eq, run_multiDim_bind, run_wktPoly, WktGeom.denote, Geom.events]
  | multiPoint ps =>
    rw [run_wktMultiPoint]
    simp only [WktGeom.denote, Geom.events]
    obtain ⟨cs, rfl⟩ : ∃ cs : List Coord, ps = cs.map some := by
      refine ⟨ps.filterMap id, ?_⟩
      simp only [WktGeom.NoEmptyMember] at hg
      induction ps with
      | nil => rfl
      | cons p ps ih =>
        obtain ⟨c, rfl⟩ := Option.isSome_iff_exists.mp (hg p (by simp))
        simp only [List.filterMap_cons, id, List.map_cons]
        exact congrArg _ (ih (fun q hq => hg q (by simp [hq])))
    have : ∀ i, evList (memberEvs multi) i (cs.map some) = evList (coordEvs multi) i cs := by
      intro i
      rw [evList_map]; rfl
    simp [bracket, this, List.filterMap_map]
  | multiLineString ls =>
    simp only [wktProcessGeomN, bind_eq, run_multiDim_bind, run_emitEv_bind, WktGeom.denote, Geom.events]
    rw [run_bind_ok (run_forIdx ls (fun i r _ bs => run_wktLine multi false i r bs) 0 bs)]
    simp [bracket]
  | multiPolygon ps =>
    simp only [wktProcessGeomN, bind_eq, run_multiDim_bind, run_emitEv_bind, WktGeom.denote, Geom.events]
    rw [run_bind_ok (run_forIdx ps (fun i r _ bs => run_wktPoly multi false i r bs) 0 bs)]
    simp [bracket]
  | collection gs =>
    simp only [wktProcessGeomN, bind_eq, run_multiDim_bind, run_emitEv_bind, WktGeom.denote, Geom.events]
    rw [run_bind_ok (run_wktMembersList multi gs hg 0 bs)]
    have hl : ∀ l, (WktGeom.denoteList l).length = l.length := by
      intro l
      induction l with
      | nil => simp [WktGeom.denoteList]
      | cons _ _ ih => simp [WktGeom.denoteList, ih]
    simp [hl]

theorem run_wktMembersList (multi : Bool) (gs : List WktGeom) (hg : WktGeom.NoEmptyMemberList gs) (i : Nat)
    (bs : List Byte) :
    run multi (wktProcessMembers i gs) bs = (eventsList multi i (WktGeom.denoteList gs), .ok ((), bs)) := by
  cases gs with
  | nil => simp [wktProcessMembers, WktGeom.denoteList, eventsList]
  | cons g gs =>
    simp only [wktProcessMembers, WktGeom.denoteList, eventsList]
    rw [run_bind_ok (run_wktGeomN multi g hg.1 i bs), run_wktMembersList multi gs hg.2 (i + 1) bs]
end

end Geozero

namespace Geozero.WktWriter

theorem header_dims (w : WktWriter) : w.header.dims = w.dims := by
  unfold header
  split
  · split
    · rfl
    · split <;> rfl
  · rfl

theorem step_dims (num : F64 → Text) (d : Dims) (w : WktWriter) (e : Ev) (w' : WktWriter) (hw : w.dims = d)
    (h : step num w e = .ok w') : w'.dims = d := by
  subst hw
  have hb : ∀ t b n i, (w.geomBegin t b n i).dims = w.dims := by
    intro t b n i; rw [geomBegin_eq]; exact header_dims w
  have he : ∀ (v v' : WktWriter), v.geomEnd = .ok v' → v'.dims = v.dims := by
    intro v v' h
    unfold geomEnd at h
    split at h
    · cases h; split <;> rfl
    · cases h
  cases e with
  | srid s => cases h; rfl
  | xy x y i => cases h; simp only [xy, comma_eq]; split <;> rfl
  | coord x y z m t tm i => cases h; simp only [coordinate, comma_eq]; split <;> rfl
  | emptyPoint i => simp only [step] at h; rw [he _ _ h, hb]
  | gbegin k t n i => cases k <;> cases h <;> exact hb _ _ _ _
  | gend k t i => exact he _ _ h

end Geozero.WktWriter
