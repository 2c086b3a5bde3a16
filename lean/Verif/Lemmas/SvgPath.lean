import Verif.Lemmas.SvgDoc

/- Helper lemmas for SVG path data. -/

namespace Geozero

theorem finite_negate {v : F64} (h : v.Finite) : v.negate.Finite := by
  unfold F64.Finite F64.negate at *
  rw [BitVec.toNat_xor, Nat.xor_mod_two_pow]
  simpa using h

/-- a word: not empty, no blank -/
def IsWord (t : Text) : Prop := t ≠ [] ∧ ' ' ∉ t

theorem words_cur (t cur r : Text) (h : ' ' ∉ t) : words cur (t ++ r) = words (cur ++ t) r := by
  induction t generalizing cur with
  | nil => simp
  | cons c t ih =>
    simp only [List.mem_cons, not_or] at h
    simp only [List.cons_append, words, if_neg (Ne.symm h.1)]
    rw [ih _ h.2]
    simp

theorem words_word {t : Text} (h : IsWord t) (r : Text) : words [] (t ++ (' ' :: r)) = t :: words [] r := by
  rw [words_cur t [] _ h.2]
  simp [words, h.1]

theorem words_last {t : Text} (h : IsWord t) : words [] t = [t] := by
  have := words_cur t [] [] h.2
  simp only [List.append_nil, List.nil_append] at this
  rw [this]
  simp [words, h.1]

theorem isWord_number {t : Text} (h : isSvgNumber t = true) : IsWord t := by
  unfold isSvgNumber at h
  simp only [Bool.and_eq_true, Bool.not_eq_true', List.isEmpty_eq_false_iff, List.all_eq_true] at h
  refine ⟨h.1, fun hm => ?_⟩
  have := h.2 ' ' hm
  revert this
  decide

theorem number_ne {t : Text} (h : isSvgNumber t = true) : t ≠ txt "Z" := by
  rintro rfl
  revert h
  decide

section
variable {fo : SvgNum} (hn : fo.Numeric) (inv : Bool)
include hn

theorem num_pos {c : Coord} (hx : c.x.Finite) (hy : c.y.Finite) :
    isSvgNumber (svgPos fo inv c).1 = true ∧ isSvgNumber (svgPos fo inv c).2 = true := by
  refine ⟨hn _ hx, ?_⟩
  unfold svgPos
  cases inv with
  | false => exact hn _ hy
  | true => exact hn _ (finite_negate hy)

theorem words_xy {c : Coord} (hx : c.x.Finite) (hy : c.y.Finite) (r : Text) :
    words [] (svgXY fo inv c ++ r) = (svgPos fo inv c).1 :: (svgPos fo inv c).2 :: words [] r := by
  obtain ⟨h1, h2⟩ := num_pos hn inv hx hy
  have e : svgXY fo inv c ++ r = (svgPos fo inv c).1 ++ (' ' :: ((svgPos fo inv c).2 ++ (' ' :: r))) := by
    simp [svgXY, svgPos, txt]
  rw [e, words_word (isWord_number h1), words_word (isWord_number h2)]

theorem words_coords (cs : List Coord) (h : ∀ c ∈ cs, c.x.Finite ∧ c.y.Finite) (r : Text) :
    words [] (svgCoords fo inv cs ++ r) = cs.flatMap (fun c => [(svgPos fo inv c).1, (svgPos fo inv c).2]) ++ words [] r := by
  unfold svgCoords
  induction cs with
  | nil => rfl
  | cons c cs ih =>
    simp only [List.flatMap_cons, List.append_assoc]
    rw [words_xy hn inv (h c (by simp)).1 (h c (by simp)).2, ih fun x hx => h x (by simp [hx])]
    simp

theorem subs_coords (cs : List Coord) (h : ∀ c ∈ cs, c.x.Finite ∧ c.y.Finite) (ps : List (Text × Text)) (ws : List Text) :
    pathSubs (some ps) (cs.flatMap (fun c => [(svgPos fo inv c).1, (svgPos fo inv c).2]) ++ ws) =
      pathSubs (some (ps ++ cs.map (svgPos fo inv))) ws := by
  induction cs generalizing ps with
  | nil => simp
  | cons c cs ih =>
    obtain ⟨h1, h2⟩ := num_pos hn inv (h c (by simp)).1 (h c (by simp)).2
    simp only [List.flatMap_cons, List.append_assoc, List.cons_append, List.nil_append]
    rw [pathSubs, if_neg (number_ne h1)]
    simp only [h1, h2, Bool.and_self, if_true]
    rw [ih fun x hx => h x (by simp [hx])]
    simp

/-- one closed subpath -/
theorem words_sub (cs : List Coord) (h : ∀ c ∈ cs, c.x.Finite ∧ c.y.Finite) (r : Text) :
    words [] (svgSub fo inv cs ++ r) =
      txt "M" :: (cs.flatMap (fun c => [(svgPos fo inv c).1, (svgPos fo inv c).2]) ++ txt "Z" :: words [] r) := by
  have e : svgSub fo inv cs ++ r = txt "M" ++ (' ' :: (svgCoords fo inv cs ++ (txt "Z" ++ (' ' :: r)))) := by
    simp [svgSub, txt]
  have hM : IsWord (txt "M") := by unfold IsWord; decide
  have hZ : IsWord (txt "Z") := by unfold IsWord; decide
  rw [e, words_word hM, words_coords hn inv cs h, words_word hZ]

theorem subs_sub (cs : List Coord) (h : ∀ c ∈ cs, c.x.Finite ∧ c.y.Finite) (hne : cs ≠ []) (r : Text) :
    pathSubs none (words [] (svgSub fo inv cs ++ r)) = (pathSubs none (words [] r)).map (cs.map (svgPos fo inv) :: ·) := by
  rw [words_sub hn inv cs h, pathSubs, if_pos rfl, subs_coords hn inv cs h, pathSubs.eq_def]
  simp [hne]

theorem pathData_subs (ls : List (List Coord)) (h : ∀ l ∈ ls, l ≠ [] ∧ ∀ c ∈ l, c.x.Finite ∧ c.y.Finite) :
    pathData (ls.flatMap (svgSub fo inv)) = some (ls.map (List.map (svgPos fo inv))) := by
  unfold pathData
  induction ls with
  | nil => rfl
  | cons l ls ih =>
    simp only [List.flatMap_cons, List.map_cons]
    rw [subs_sub hn inv l (h l (by simp)).2 (h l (by simp)).1, ih fun x hx => h x (by simp [hx])]
    rfl

theorem pathData_point (c : Coord) (hx : c.x.Finite) (hy : c.y.Finite) :
    pathData (txt "M " ++ svgXY fo inv c ++ txt "Z") = some [[svgPos fo inv c]] := by
  have e : txt "M " ++ svgXY fo inv c ++ txt "Z" = txt "M" ++ (' ' :: (svgXY fo inv c ++ txt "Z")) := by simp [txt]
  have hM : IsWord (txt "M") := by unfold IsWord; decide
  have hZ : IsWord (txt "Z") := by unfold IsWord; decide
  unfold pathData
  rw [e, words_word hM, words_xy hn inv hx hy, words_last hZ, pathSubs, if_pos rfl]
  have := subs_coords hn inv [c] (by simp [hx, hy]) [] [txt "Z"]
  simp only [List.flatMap_cons, List.flatMap_nil, List.append_nil, List.cons_append, List.nil_append] at this
  rw [this]
  simp [pathSubs]

end

end Geozero
