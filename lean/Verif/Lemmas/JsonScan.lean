import Verif.Lemmas.GeoJson

/- A JSON text has no `N` and no `i` outside string literals; so a text with a number printed as `NaN` or `inf` is no JSON. -/

namespace Geozero
open Json Spec

namespace JsonScan

/-- position in a JSON text: outside string literals, inside, after a backslash inside -/
inductive Sc
  | out
  | str
  | esc
deriving DecidableEq

/-- one character; `N` and `i` outside string literals stop the scan -/
def scan1 : Sc → Char → Option Sc
  | .out, c => if c = '"' then some .str else if c = 'N' ∨ c = 'i' then none else some .out
  | .str, c => if c = '"' then some .out else if c = '\\' then some .esc else some .str
  | .esc, _ => some .str

def scan : Sc → Text → Option Sc
  | s, [] => some s
  | s, c :: t => (scan1 s c).bind fun s' => scan s' t

theorem scan_append (s : Sc) (a b : Text) : scan s (a ++ b) = (scan s a).bind fun s' => scan s' b := by
  induction a generalizing s with
  | nil => rfl
  | cons c a ih =>
    simp only [List.cons_append, scan]
    cases scan1 s c with
    | none => rfl
    | some s' => simp only [Option.bind_some]; exact ih s'

/-- the scan of a text comes to its end outside string literals -/
def Clean (t : Text) : Prop := scan .out t = some .out
/-- the scan of a text stops -/
def Dirty (t : Text) : Prop := scan .out t = none

instance (t : Text) : Decidable (Clean t) := inferInstanceAs (Decidable (scan .out t = some .out))
instance (t : Text) : Decidable (Dirty t) := inferInstanceAs (Decidable (scan .out t = none))

theorem Clean.append {a b : Text} (ha : Clean a) (hb : Clean b) : Clean (a ++ b) := by
  unfold Clean at *; rw [scan_append, ha]; exact hb
theorem Clean.dirty {a b : Text} (ha : Clean a) (hb : Dirty b) : Dirty (a ++ b) := by
  unfold Clean at ha; unfold Dirty at *; rw [scan_append, ha]; exact hb
theorem Dirty.append {a : Text} (ha : Dirty a) (b : Text) : Dirty (a ++ b) := by
  unfold Dirty at *; rw [scan_append, ha]; rfl
theorem Clean.not_dirty {a : Text} (ha : Clean a) : ¬ Dirty a := by
  unfold Clean at ha; unfold Dirty; rw [ha]; simp
theorem clean_nil : Clean [] := rfl

/-- no quote, `N`, `i` -/
theorem clean_of {t : Text} (h : ∀ c ∈ t, c ≠ '"' ∧ c ≠ 'N' ∧ c ≠ 'i') : Clean t := by
  induction t with
  | nil => rfl
  | cons c t ih =>
    obtain ⟨h1, h2, h3⟩ := h c (by simp)
    have := ih fun d hd => h d (by simp [hd])
    unfold Clean at *
    simp [scan, scan1, h1, h2, h3, this]

theorem clean_ws {t : Text} (h : IsWs t) : Clean t := by
  refine clean_of fun c hc => ?_
  have := h c hc
  simp only [isWs, Bool.or_eq_true, beq_iff_eq] at this
  rcases this with ((rfl | rfl) | rfl) | rfl <;> decide

theorem digit_ne {c : Char} (h : c.isDigit = true) : c ≠ '"' ∧ c ≠ 'N' ∧ c ≠ 'i' := by
  refine ⟨?_, ?_, ?_⟩ <;> rintro rfl <;> simp at h

theorem clean_number {t : Text} (h : IsNumber t) : Clean t := by
  obtain ⟨s, i, f, e, hs, hi, hf, he, rfl⟩ := h
  refine Clean.append ?_ (Clean.append ?_ (Clean.append ?_ ?_))
  · rcases hs with rfl | rfl <;> rfl
  · rcases hi with rfl | ⟨c, r, rfl, hc, -, hr⟩
    · rfl
    · refine clean_of fun d hd => ?_
      rcases List.mem_cons.1 hd with rfl | hd
      · exact digit_ne hc
      · exact digit_ne (hr d hd)
  · rcases hf with rfl | ⟨d, hd, rfl⟩
    · rfl
    · refine clean_of fun c hc => ?_
      rcases List.mem_cons.1 hc with rfl | hc
      · decide
      · exact digit_ne (hd.2 c hc)
  · rcases he with rfl | ⟨e, s, d, he, hs, hd, rfl⟩
    · rfl
    · refine clean_of fun c hc => ?_
      rcases List.mem_cons.1 hc with rfl | hc
      · rcases he with rfl | rfl <;> decide
      · rcases List.mem_append.1 hc with hc | hc
        · rcases hs with rfl | rfl | rfl
          · cases hc
          · simp only [List.mem_singleton] at hc; subst hc; decide
          · simp only [List.mem_singleton] at hc; subst hc; decide
        · exact digit_ne (hd.2 c hc)

theorem hexVal_ne {a : Char} {n : Nat} (h : hexVal a = some n) : a ≠ '"' ∧ a ≠ '\\' := by
  constructor <;> rintro rfl <;> simp [hexVal] at h

theorem hex4_scan {a b c d : Char} {n : Nat} (h : hex4 a b c d = some n) (t : Text) :
    scan .str (a :: b :: c :: d :: t) = scan .str t := by
  unfold hex4 at h
  split at h
  · rename_i h1 h2 h3 h4
    simp [scan, scan1, hexVal_ne h1, hexVal_ne h2, hexVal_ne h3, hexVal_ne h4]
  · cases h

theorem scan_u (t : Text) : scan .str ('\\' :: 'u' :: t) = scan .str t := rfl

theorem scan_chars {u s : Text} (h : IsChars u s) : scan .str u = some .str := by
  induction h with
  | nil => rfl
  | plain hq hb _ _ ih => simp [scan, scan1, hq, hb, ih]
  | escape _ _ ih => simp [scan, scan1, ih]
  | unicode hn _ _ ih =>
    rw [scan_u, hex4_scan hn]; exact ih
  | pair hn hm _ _ _ ih =>
    rw [scan_u, hex4_scan hn, scan_u, hex4_scan hm]; exact ih

theorem clean_string {t s : Text} (h : IsString t s) : Clean t := by
  obtain ⟨u, hu, rfl⟩ := h
  show scan .str (u ++ ['"']) = _
  rw [scan_append, scan_chars hu]
  rfl

theorem clean_char {c : Char} (h : c ≠ '"' ∧ c ≠ 'N' ∧ c ≠ 'i') : Clean [c] := clean_of (by simpa using h)

theorem Clean.cons {c : Char} (h : c ≠ '"' ∧ c ≠ 'N' ∧ c ≠ 'i') {t : Text} (ht : Clean t) : Clean (c :: t) :=
  (clean_char h).append ht

/-- a JSON value has no `N` and no `i` outside its string literals -/
theorem clean_value {t : Text} {v : Json} (h : IsValue t v) : Clean t := by
  refine IsValue.rec (motive_1 := fun t _ _ => Clean t) (motive_2 := fun t _ _ => Clean t) (motive_3 := fun t _ _ => Clean t)
    ?_ ?_ ?_ ?_ ?_ ?_ ?_ ?_ ?_ ?_ ?_ ?_ ?_ h
  · decide
  · decide
  · decide
  · intro t h; exact clean_number h
  · intro t s h; exact clean_string h
  · intro w h; exact Clean.cons (by decide) ((clean_ws h).append (by decide))
  · intro t xs _ ih; exact Clean.cons (by decide) (ih.append (by decide))
  · intro w h; exact Clean.cons (by decide) ((clean_ws h).append (by decide))
  · intro t xs _ ih; exact Clean.cons (by decide) (ih.append (by decide))
  · intro a t b v ha _ hb ih; exact (clean_ws ha).append (ih.append (clean_ws hb))
  · intro a t b r v vs ha _ hb _ ih ihr
    exact (clean_ws ha).append (ih.append ((clean_ws hb).append (Clean.cons (by decide) ihr)))
  · intro a n b c t d s v ha hn hb hc _ hd ih
    exact (clean_ws ha).append ((clean_string hn).append ((clean_ws hb).append (Clean.cons (by decide)
      ((clean_ws hc).append (ih.append (clean_ws hd))))))
  · intro a n b c t d r s v ms ha hn hb hc _ hd _ ih ihr
    exact (clean_ws ha).append ((clean_string hn).append ((clean_ws hb).append (Clean.cons (by decide)
      ((clean_ws hc).append (ih.append ((clean_ws hd).append (Clean.cons (by decide) ihr)))))))

theorem clean_text {t : Text} {v : Json} (h : IsText t v) : Clean t := by
  obtain ⟨a, u, b, ha, hu, hb, rfl⟩ := h
  exact (clean_ws ha).append ((clean_value hu).append (clean_ws hb))

theorem not_text {t : Text} (h : Dirty t) : ¬ ∃ v, IsText t v := fun ⟨_, hv⟩ => (clean_text hv).not_dirty h

/-- items separated by commas, one of them dirty and the others clean or dirty -/
theorem dirty_commaSep (ts : List Text) (h : ∀ t ∈ ts, Clean t ∨ Dirty t) (hd : ∃ t ∈ ts, Dirty t) : Dirty (commaSep ts) := by
  induction ts with
  | nil => obtain ⟨t, ht, _⟩ := hd; cases ht
  | cons t ts ih =>
    cases ts with
    | nil =>
      obtain ⟨u, hu, hd⟩ := hd
      simp only [List.mem_singleton] at hu
      subst hu
      simpa [commaSep] using hd
    | cons u us =>
      have e : commaSep (t :: u :: us) = t ++ (txt "," ++ commaSep (u :: us)) := by simp [commaSep, txt]
      rw [e]
      rcases h t (by simp) with hc | hx
      · refine hc.dirty (Clean.dirty (by decide) (ih (fun x hx => h x (by simp [List.mem_cons.1 hx])) ?_))
        obtain ⟨x, hx, hd⟩ := hd
        rcases List.mem_cons.1 hx with rfl | hx
        · exact absurd hd hc.not_dirty
        · exact ⟨x, hx, hd⟩
      · exact hx.append _

theorem join_eq_cons (s t u : Text) (us : List Text) : GeoJsonWriter.join s (t :: u :: us) = t ++ (s ++ GeoJsonWriter.join s (u :: us)) := by
  simp [GeoJsonWriter.join]

theorem dirty_join {s : Text} (hs : Clean s) (ts : List Text) (h : ∀ t ∈ ts, Clean t ∨ Dirty t) (hd : ∃ t ∈ ts, Dirty t) :
    Dirty (GeoJsonWriter.join s ts) := by
  induction ts with
  | nil => obtain ⟨t, ht, _⟩ := hd; cases ht
  | cons t ts ih =>
    cases ts with
    | nil =>
      obtain ⟨u, hu, hd⟩ := hd
      simp only [List.mem_singleton] at hu
      subst hu
      simpa [GeoJsonWriter.join] using hd
    | cons u us =>
      rw [join_eq_cons]
      rcases h t (by simp) with hc | hx
      · refine hc.dirty (Clean.dirty hs (ih (fun x hx => h x (by simp [List.mem_cons.1 hx])) ?_))
        obtain ⟨x, hx, hd⟩ := hd
        rcases List.mem_cons.1 hx with rfl | hx
        · exact absurd hd hc.not_dirty
        · exact ⟨x, hx, hd⟩
      · exact hx.append _

/-! ### geometries and features -/

variable {num : F64 → Text}

theorem num_dirty {α : Type} {num : α → Text} (h : PrintsFloats num) {x : α} (hx : ¬ IsNumber (num x)) : Dirty (num x) := by
  rcases h x with h | h | h | h
  · exact absurd h hx
  all_goals rw [h]; decide

theorem num_either {α : Type} {num : α → Text} (h : PrintsFloats num) (x : α) : Clean (num x) ∨ Dirty (num x) := by
  by_cases hx : IsNumber (num x)
  · exact .inl (clean_number hx)
  · exact .inr (num_dirty h hx)

open GeoJsonWriter

theorem pos_dirty (h : PrintsFloats num) (multi : Bool) (c : Coord) (hc : ¬ c.AllOrds (fun x => IsNumber (num x)) multi) :
    Dirty (posText num multi c) := by
  unfold posText
  refine Clean.dirty (by decide) ?_
  by_cases hx : IsNumber (num c.x)
  · refine (clean_number hx).dirty (Clean.dirty (by decide) ?_)
    by_cases hy : IsNumber (num c.y)
    · refine (clean_number hy).dirty ?_
      cases multi with
      | false => exact absurd ⟨hx, hy, by simp⟩ hc
      | true =>
        cases hz : c.z with
        | none => exact absurd ⟨hx, hy, by simp [hz]⟩ hc
        | some z =>
          have : ¬ IsNumber (num z) := fun hn => hc ⟨hx, hy, by simpa [hz] using hn⟩
          simp only [if_true, optZ]
          exact Dirty.append (Clean.dirty (by decide) (num_dirty h this)) _
    · exact (num_dirty h hy).append _
  · exact (num_dirty h hx).append _

/-- `p x` or dirty for every member, and dirty for one -/
theorem arr_dirty {α : Type} (t : α → Text) (p : α → Prop) (xs : List α) (hc : ∀ x ∈ xs, p x → Clean (t x))
    (hd : ∀ x ∈ xs, ¬ p x → Dirty (t x)) (h : ¬ ∀ x ∈ xs, p x) : Dirty (arrText (xs.map t)) := by
  unfold arrText
  refine Clean.dirty (by decide) (Dirty.append (dirty_commaSep _ ?_ ?_) _)
  · intro u hu
    obtain ⟨x, hx, rfl⟩ := List.mem_map.1 hu
    by_cases hp : p x
    · exact .inl (hc x hx hp)
    · exact .inr (hd x hx hp)
  · simp only [Classical.not_forall] at h
    obtain ⟨x, hx, hp⟩ := h
    exact ⟨_, List.mem_map.2 ⟨x, hx, rfl⟩, hd x hx hp⟩

theorem line_dirty (h : PrintsFloats num) (multi : Bool) (cs : List Coord)
    (hc : ¬ ∀ c ∈ cs, c.AllOrds (fun x => IsNumber (num x)) multi) : Dirty (lineText num multi cs) :=
  arr_dirty _ _ cs (fun _ _ hp => clean_value (isValue_pos num multi _ hp)) (fun _ _ hp => pos_dirty h multi _ hp) hc

theorem poly_dirty (h : PrintsFloats num) (multi : Bool) (rs : List (List Coord))
    (hc : ¬ ∀ l ∈ rs, ∀ c ∈ l, c.AllOrds (fun x => IsNumber (num x)) multi) : Dirty (polyText num multi rs) :=
  arr_dirty _ (fun l => ∀ c ∈ l, c.AllOrds (fun x => IsNumber (num x)) multi) rs
    (fun _ _ hp => clean_value (isValue_line num multi _ hp)) (fun _ _ hp => line_dirty h multi _ hp) hc

theorem obj_dirty (type member : String) (v : Text) (ht : Clean (txt "{\"type\": \"" ++ (txt type ++ (txt "\", \"" ++ (txt member ++ txt "\": ")))))
    (hv : Dirty v) : Dirty (objText type member v) := by
  have := ht.dirty (Dirty.append hv (txt "}"))
  unfold objText
  simpa only [List.append_assoc] using this

theorem geom_dirty (h : PrintsFloats num) (multi : Bool) (g : Geom) {q : Coord → Prop} (hq : g.IsGeoJson q)
    (hg : ¬ g.IsGeoJson (fun c => c.AllOrds (fun x => IsNumber (num x)) multi)) : Dirty (geomText num multi g) := by
  induction hq with
  | emptyPoint => exact absurd .emptyPoint hg
  | point _ => exact obj_dirty _ _ _ (by decide) (pos_dirty h multi _ fun hc => hg (.point hc))
  | multiPoint _ => exact obj_dirty _ _ _ (by decide) (line_dirty h multi _ fun hc => hg (.multiPoint hc))
  | lineString _ => exact obj_dirty _ _ _ (by decide) (line_dirty h multi _ fun hc => hg (.lineString hc))
  | multiLineString _ => exact obj_dirty _ _ _ (by decide) (poly_dirty h multi _ fun hc => hg (.multiLineString hc))
  | polygon _ => exact obj_dirty _ _ _ (by decide) (poly_dirty h multi _ fun hc => hg (.polygon hc))
  | multiPolygon _ =>
    exact obj_dirty _ _ _ (by decide) (arr_dirty _ (fun q => ∀ l ∈ q, ∀ c ∈ l, c.AllOrds (fun x => IsNumber (num x)) multi) _
      (fun _ _ hp => clean_value (isValue_poly num multi _ hp)) (fun _ _ hp => poly_dirty h multi _ hp) fun hc => hg (.multiPolygon hc))
  | collection _ ih =>
    rename_i gs _
    simp only [geomText, geomTexts_eq]
    exact obj_dirty _ _ _ (by decide) (arr_dirty _ _ gs (fun g _ hp => clean_value (isValue_geom num multi g hp)) ih
      fun hc => hg (.collection hc))

theorem clean_member {t : Text} {m : Text × Json} (h : IsMember t m) : Clean t := by
  obtain ⟨n, c, u, d, h1, h2, h3, h4, rfl⟩ := h
  exact (clean_string h1).append (Clean.cons (by decide) ((clean_ws h2).append ((clean_value h3).append (clean_ws h4))))

theorem printable_of {fmt : Fmt} {decode : Text → Json} {v : ColVal} (h : v.PrintableText decode) (hf : v.Finite fmt) :
    v.Printable fmt decode := by
  cases v <;> first | exact hf | exact h | trivial

theorem printable_feat {fmt : Fmt} {decode : Text → Json} {multi : Bool} {d : FeatureData} (h : d.PrintableText decode)
    (hf : d.Finite fmt multi) : d.Printable fmt decode multi :=
  ⟨h.names, fun ps hps p hp => printable_of (h.vals ps hps p hp) (hf.vals ps hps p hp), hf.geom⟩

theorem raw_dirty {n v : Text} (hn : PlainText n) (hv : Dirty v) : Dirty (rawProp n v) := by
  have h1 := clean_string (isString_escape hn)
  have h2 := h1.dirty (Clean.dirty (a := txt ": ") (by decide) hv)
  simpa [rawProp, txt] using h2

theorem prop_dirty {fmt : Fmt} (h32 : PrintsFloats fmt.f32) (h64 : PrintsFloats fmt.f64) (n : Text) (v : ColVal) (hn : PlainText n)
    (hv : ¬ v.Finite fmt) : Dirty (propText fmt n v) := by
  cases v with
  | float x => exact raw_dirty hn (num_dirty h32 hv)
  | double x => exact raw_dirty hn (num_dirty h64 hv)
  | _ => exact absurd trivial hv

theorem props_dirty {fmt : Fmt} (h32 : PrintsFloats fmt.f32) (h64 : PrintsFloats fmt.f64) (decode : Text → Json)
    (ps : List (Text × ColVal)) (hn : ∀ p ∈ ps, PlainText p.1) (hv : ∀ p ∈ ps, p.2.PrintableText decode)
    (hd : ¬ ∀ p ∈ ps, p.2.Finite fmt) : Dirty (txt "\"properties\": " ++ propsText fmt ps) := by
  refine Clean.dirty (by decide) ?_
  unfold propsText
  refine Clean.dirty (by decide) (Dirty.append (dirty_join (by decide) _ ?_ ?_) _)
  · intro t ht
    obtain ⟨p, hp, rfl⟩ := List.mem_map.1 ht
    by_cases hf : p.2.Finite fmt
    · exact .inl (clean_member (isMember_prop fmt decode p.1 p.2 (hn p hp) (printable_of (hv p hp) hf)))
    · exact .inr (prop_dirty h32 h64 p.1 p.2 (hn p hp) hf)
  · simp only [Classical.not_forall] at hd
    obtain ⟨p, hp, hf⟩ := hd
    exact ⟨_, List.mem_map.2 ⟨p, hp, rfl⟩, prop_dirty h32 h64 p.1 p.2 (hn p hp) hf⟩

theorem feat_dirty {fmt : Fmt} (h32 : PrintsFloats fmt.f32) (h64 : PrintsFloats fmt.f64) (decode : Text → Json) (multi : Bool)
    (d : FeatureData) (ht : d.PrintableText decode) (hd : ¬ d.Finite fmt multi) : Dirty (featText fmt multi d) := by
  have hp : (∀ t ∈ propsPartText fmt d, Clean t) ∧ (∀ ps, d.props = some ps → ∀ p ∈ ps, p.2.Finite fmt) ∨
      (∀ t ∈ propsPartText fmt d, Dirty t) ∧ propsPartText fmt d ≠ [] := by
    unfold propsPartText
    cases h : d.props with
    | none => exact .inl ⟨by simp, by simp⟩
    | some ps =>
      by_cases hf : ∀ p ∈ ps, p.2.Finite fmt
      · refine .inl ⟨by simpa using clean_member (isMember_props fmt decode ps (ht.names ps h)
          fun p hp => printable_of (ht.vals ps h p hp) (hf p hp)), fun qs hq => by cases hq; exact hf⟩
      · exact .inr ⟨by simpa using props_dirty h32 h64 decode ps (ht.names ps h) (ht.vals ps h) hf, by simp⟩
  have hg : (∀ t ∈ geomPartText fmt multi d, Clean t) ∧
      (∀ g, d.geom = some g → g.IsGeoJson (fun c => c.AllOrds (fun x => IsNumber (fmt.f64 x)) multi)) ∨
      (∀ t ∈ geomPartText fmt multi d, Dirty t) ∧ geomPartText fmt multi d ≠ [] := by
    unfold geomPartText
    cases h : d.geom with
    | none => exact .inl ⟨by simp, by simp⟩
    | some g =>
      by_cases hf : g.IsGeoJson (fun c => c.AllOrds (fun x => IsNumber (fmt.f64 x)) multi)
      · exact .inl ⟨by simpa using clean_member (isMember_geom fmt multi g hf), fun _ he => by cases he; exact hf⟩
      · exact .inr ⟨by simpa using Clean.dirty (a := txt "\"geometry\": ") (by decide) (geom_dirty h64 multi g (ht.geom g h) hf),
          by simp⟩
  have he : ∀ t ∈ propsPartText fmt d ++ geomPartText fmt multi d, Clean t ∨ Dirty t := by
    intro t ht
    rcases List.mem_append.1 ht with ht | ht
    · rcases hp with hp | hp
      · exact .inl (hp.1 t ht)
      · exact .inr (hp.1 t ht)
    · rcases hg with hg | hg
      · exact .inl (hg.1 t ht)
      · exact .inr (hg.1 t ht)
  have hx : ∃ t ∈ propsPartText fmt d ++ geomPartText fmt multi d, Dirty t := by
    rcases hp with hp | hp
    · rcases hg with hg | hg
      · exact absurd ⟨hp.2, hg.2⟩ hd
      · obtain ⟨t, ht⟩ := List.exists_mem_of_ne_nil _ hg.2
        exact ⟨t, List.mem_append_right _ ht, hg.1 t ht⟩
    · obtain ⟨t, ht⟩ := List.exists_mem_of_ne_nil _ hp.2
      exact ⟨t, List.mem_append_left _ ht, hp.1 t ht⟩
  unfold featText
  refine Clean.dirty (by decide) (Dirty.append (dirty_join (by decide) _ ?_ ?_) _)
  · intro t ht
    unfold featMembers at ht
    rcases List.mem_cons.1 ht with rfl | ht
    · exact .inl (by decide)
    · refine he t ?_
      split at ht <;> simp only [List.mem_append] at ht ⊢
      · exact ht.symm
      · exact ht
  · obtain ⟨t, ht, hd⟩ := hx
    refine ⟨t, ?_, hd⟩
    unfold featMembers
    refine List.mem_cons_of_mem _ ?_
    split <;> simp only [List.mem_append] at ht ⊢
    · exact ht.symm
    · exact ht

theorem dataset_dirty {fmt : Fmt} (h32 : PrintsFloats fmt.f32) (h64 : PrintsFloats fmt.f64) (decode : Text → Json) (multi : Bool)
    (name : Option Text) (hn : ∀ n, name = some n → PlainText n ∧ '"' ∉ n) (ds : List FeatureData)
    (ht : ∀ d ∈ ds, d.PrintableText decode) (hd : ¬ ∀ d ∈ ds, d.Finite fmt multi) :
    Dirty (txt "{\n" ++ (join (txt ",\n") (featCollMembers fmt multi name ds) ++ txt "}")) := by
  have hf : Dirty (txt "\"features\": [" ++ (join (txt ",\n") (ds.map (featText fmt multi)) ++ txt "]")) := by
    refine Clean.dirty (by decide) (Dirty.append (dirty_join (by decide) _ ?_ ?_) _)
    · intro t hm
      obtain ⟨d, hmem, rfl⟩ := List.mem_map.1 hm
      by_cases hfin : d.Finite fmt multi
      · exact .inl (clean_value (isValue_feat fmt decode multi d (printable_feat (ht d hmem) hfin)))
      · exact .inr (feat_dirty h32 h64 decode multi d (ht d hmem) hfin)
    · simp only [Classical.not_forall] at hd
      obtain ⟨d, hmem, hfin⟩ := hd
      exact ⟨_, List.mem_map.2 ⟨d, hmem, rfl⟩, feat_dirty h32 h64 decode multi d (ht d hmem) hfin⟩
  refine Clean.dirty (by decide) (Dirty.append (dirty_join (by decide) _ ?_ ⟨_, ?_, hf⟩) _)
  · intro t hm
    unfold featCollMembers at hm
    rcases List.mem_cons.1 hm with rfl | hm
    · exact .inl (by decide)
    · rcases List.mem_append.1 hm with hm | hm
      · cases name with
        | none => cases hm
        | some n =>
          simp only [List.mem_singleton] at hm
          subst hm
          have := clean_member (isMember_simple (txt "name") n (by decide) (hn n rfl).1 (hn n rfl).2)
          exact .inl (by simpa [txt] using this)
      · simp only [List.mem_singleton] at hm
        subst hm
        exact .inr hf
  · unfold featCollMembers
    simp

end JsonScan
end Geozero
