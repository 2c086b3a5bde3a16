import Verif.Spec.Adaptors
import Verif.Model.Adaptors
import Verif.Lemmas.Feature
import Verif.Lemmas.GeoTypes

namespace Geozero

/-! ### order of doubles -/

theorem F64.magnitude_succ (n : Nat) : F64.magnitude n < F64.magnitude (n + 1) := by
  unfold F64.magnitude
  have hd := Nat.div_add_mod n (2 ^ 52)
  have hm := Nat.mod_lt n (show 2 ^ 52 > 0 by decide)
  by_cases hc : n % 2 ^ 52 + 1 < 2 ^ 52
  · have h1 : (n + 1) / 2 ^ 52 = n / 2 ^ 52 := by omega
    have h2 : (n + 1) % 2 ^ 52 = n % 2 ^ 52 + 1 := by omega
    rw [h1, h2]
    split
    · omega
    · exact Nat.mul_lt_mul_of_pos_right (by omega) (Nat.pow_pos (by decide))
  · have h1 : (n + 1) / 2 ^ 52 = n / 2 ^ 52 + 1 := by omega
    have h2 : (n + 1) % 2 ^ 52 = 0 := by omega
    rw [h1, h2, if_neg (show n / 2 ^ 52 + 1 ≠ 0 by omega)]
    simp only [Nat.add_sub_cancel, Nat.add_zero]
    split
    · rename_i h0; rw [h0]; omega
    · rename_i h0
      obtain ⟨k, hk⟩ : ∃ k, n / 2 ^ 52 = k + 1 := ⟨n / 2 ^ 52 - 1, by omega⟩
      rw [hk, Nat.add_sub_cancel, Nat.pow_succ 2 k]
      have : 2 ^ 52 * (2 ^ k * 2) = 2 ^ 53 * 2 ^ k := by
        rw [Nat.mul_comm (2 ^ k) 2, ← Nat.mul_assoc]
      rw [this]
      exact Nat.mul_lt_mul_of_pos_right (by omega) (Nat.pow_pos (by decide))

theorem F64.magnitude_lt {a b : Nat} (h : a < b) : F64.magnitude a < F64.magnitude b := by
  induction b with
  | zero => omega
  | succ b ih =>
    rcases Nat.lt_succ_iff_lt_or_eq.mp h with h | h
    · exact Nat.lt_trans (ih h) (F64.magnitude_succ b)
    · subst h; exact F64.magnitude_succ a

theorem F64.magnitude_le {a b : Nat} (h : a ≤ b) : F64.magnitude a ≤ F64.magnitude b := by
  rcases Nat.lt_or_eq_of_le h with h | h
  · exact Nat.le_of_lt (F64.magnitude_lt h)
  · rw [h]; exact Nat.le_refl _

theorem F64.magnitude_zero : F64.magnitude 0 = 0 := by decide

theorem F64.magnitude_pos {a : Nat} (h : 0 < a) : 0 < F64.magnitude a := by
  have := F64.magnitude_lt h; rw [F64.magnitude_zero] at this; exact this

/-- the order of keys is the order of values -/
theorem F64.key_lt_iff (x y : F64) : x.key < y.key ↔ x.value < y.value := by
  have key : ∀ x : F64, (x.key = (x.toNat % 2 ^ 63 : Nat) ∧ x.value = (F64.magnitude (x.toNat % 2 ^ 63) : Int)) ∨
      (x.key = - ((x.toNat % 2 ^ 63 : Nat) : Int) ∧ x.value = - (F64.magnitude (x.toNat % 2 ^ 63) : Int)) := by
    intro x
    have := x.isLt
    unfold F64.key F64.value
    by_cases h : x.toNat < 2 ^ 63
    · left
      rw [if_pos h, if_pos (by omega), Nat.mod_eq_of_lt h]
      exact ⟨rfl, rfl⟩
    · right
      rw [if_neg h, if_neg (by omega)]
      have : x.toNat % 2 ^ 63 = x.toNat - 2 ^ 63 := by omega
      rw [this]
      exact ⟨rfl, rfl⟩
  have mono : ∀ a b : Nat, a < b ↔ F64.magnitude a < F64.magnitude b := by
    intro a b
    refine ⟨F64.magnitude_lt, fun h => ?_⟩
    by_cases hab : a < b
    · exact hab
    · have := F64.magnitude_le (show b ≤ a by omega); omega
  have pos : ∀ a : Nat, 0 < a ↔ 0 < F64.magnitude a := by
    intro a; rw [mono 0 a, F64.magnitude_zero]
  have m1 := mono (x.toNat % 2 ^ 63) (y.toNat % 2 ^ 63)
  have m2 := mono (y.toNat % 2 ^ 63) (x.toNat % 2 ^ 63)
  have p1 := pos (x.toNat % 2 ^ 63)
  have p2 := pos (y.toNat % 2 ^ 63)
  rcases key x with ⟨h1, h2⟩ | ⟨h1, h2⟩ <;> rcases key y with ⟨h3, h4⟩ | ⟨h3, h4⟩ <;> rw [h1, h2, h3, h4] <;>
    generalize F64.magnitude (x.toNat % 2 ^ 63) = X at * <;>
    generalize F64.magnitude (y.toNat % 2 ^ 63) = Y at * <;>
    generalize x.toNat % 2 ^ 63 = X' at * <;>
    generalize y.toNat % 2 ^ 63 = Y' at * <;> omega

/-- `<` on doubles compares the values, and is false on NaN -/
theorem F64.lt_iff (x y : F64) :
    F64.lt x y = true ↔ x.isNaN = false ∧ y.isNaN = false ∧ x.value < y.value := by
  simp only [F64.lt, Bool.and_eq_true, Bool.not_eq_true', decide_eq_true_eq, F64.key_lt_iff, and_assoc]

/-! ### bounds -/

/-- `Bounds` of the positions seen so far; the first position must be a number, later NaNs are skipped -/
def BoundsOf (ps : List (F64 × F64)) : Option Bounds → Prop
  | none => ps = []
  | some b =>
    IsMin ((ps.map Prod.fst).filter (!·.isNaN)) b.minX ∧ IsMax ((ps.map Prod.fst).filter (!·.isNaN)) b.maxX ∧
    IsMin ((ps.map Prod.snd).filter (!·.isNaN)) b.minY ∧ IsMax ((ps.map Prod.snd).filter (!·.isNaN)) b.maxY

theorem IsMin.snoc {l : List F64} {a : F64} (h : IsMin (l.filter (!·.isNaN)) a) (x : F64) :
    IsMin ((l ++ [x]).filter (!·.isNaN)) (if F64.lt x a then x else a) := by
  obtain ⟨ha, hle⟩ := h
  have han : a.isNaN = false := by simpa using (List.mem_filter.mp ha).2
  rw [List.filter_append]
  by_cases hx : x.isNaN = true
  · rw [if_neg (by rw [F64.lt_iff]; simp [hx])]
    simp only [List.filter_cons, hx, List.filter_nil]
    simp only [Bool.not_true, Bool.false_eq_true, if_false, List.append_nil]
    exact ⟨ha, hle⟩
  · have hx : x.isNaN = false := by simpa using hx
    simp only [List.filter_cons, hx, Bool.not_false, if_true, List.filter_nil]
    have hi := F64.lt_iff x a
    simp only [hx, han, true_and] at hi
    by_cases hc : F64.lt x a = true
    · rw [if_pos hc]
      refine ⟨by simp, fun y hy => ?_⟩
      rcases List.mem_append.mp hy with hy | hy
      · have := hle y hy; have := hi.mp hc; omega
      · simp at hy; subst hy; omega
    · rw [if_neg hc]
      refine ⟨List.mem_append.mpr (Or.inl ha), fun y hy => ?_⟩
      rcases List.mem_append.mp hy with hy | hy
      · exact hle y hy
      · simp at hy; subst hy
        have : ¬ y.value < a.value := fun h => hc (hi.mpr h)
        omega

theorem IsMax.snoc {l : List F64} {a : F64} (h : IsMax (l.filter (!·.isNaN)) a) (x : F64) :
    IsMax ((l ++ [x]).filter (!·.isNaN)) (if F64.lt a x then x else a) := by
  obtain ⟨ha, hle⟩ := h
  have han : a.isNaN = false := by simpa using (List.mem_filter.mp ha).2
  rw [List.filter_append]
  by_cases hx : x.isNaN = true
  · rw [if_neg (by rw [F64.lt_iff]; simp [hx])]
    simp only [List.filter_cons, hx, List.filter_nil]
    simp only [Bool.not_true, Bool.false_eq_true, if_false, List.append_nil]
    exact ⟨ha, hle⟩
  · have hx : x.isNaN = false := by simpa using hx
    simp only [List.filter_cons, hx, Bool.not_false, if_true, List.filter_nil]
    have hi := F64.lt_iff a x
    simp only [hx, han, true_and] at hi
    by_cases hc : F64.lt a x = true
    · rw [if_pos hc]
      refine ⟨by simp, fun y hy => ?_⟩
      rcases List.mem_append.mp hy with hy | hy
      · have := hle y hy; have := hi.mp hc; omega
      · simp at hy; subst hy; omega
    · rw [if_neg hc]
      refine ⟨List.mem_append.mpr (Or.inl ha), fun y hy => ?_⟩
      rcases List.mem_append.mp hy with hy | hy
      · exact hle y hy
      · simp at hy; subst hy
        have : ¬ a.value < y.value := fun h => hc (hi.mpr h)
        omega

theorem BoundsOf.add {ps : List (F64 × F64)} {s : Option Bounds} (h : BoundsOf ps s) (x y : F64)
    (hn : s = none → NumPos (x, y)) : BoundsOf (ps ++ [(x, y)]) (Bounds.add s x y) := by
  cases s with
  | none =>
    obtain ⟨hx, hy⟩ := hn rfl
    have hps : ps = [] := h
    subst hps
    simp only [] at hx hy
    simp [BoundsOf, Bounds.add, IsMin, IsMax, hx, hy]
  | some b =>
    obtain ⟨h1, h2, h3, h4⟩ := h
    simp only [BoundsOf, Bounds.add, Bounds.extend, List.map_append, List.map_cons, List.map_nil]
    exact ⟨h1.snoc x, h2.snoc x, h3.snoc y, h4.snoc y⟩

/-- the first position is a number -/
def FirstNum : List (F64 × F64) → Prop
  | [] => True
  | p :: _ => NumPos p

theorem FirstNum.of_append {a b : List (F64 × F64)} (h : FirstNum (a ++ b)) : FirstNum a := by
  cases a with
  | nil => trivial
  | cons x xs => exact h

theorem boundsProc_step {ps : List (F64 × F64)} {s s' : Option Bounds} (h : BoundsOf ps s) (e : FEv)
    (hn : FirstNum (ps ++ positions [e])) (he : boundsProc.step s e = .ok s') :
    BoundsOf (ps ++ positions [e]) s' := by
  have fst : ∀ x y, positions [e] = [(x, y)] → s = none → NumPos (x, y) := by
    intro x y hp hs
    subst hs
    have : ps = [] := h
    subst this
    rw [hp] at hn
    exact hn
  cases e with
  | geom g =>
    cases g with
    | xy x y idx =>
      simp only [boundsProc] at he
      cases he
      exact h.add x y (fst x y rfl)
    | coord x y z m t tm idx =>
      simp only [boundsProc] at he
      cases he
      exact h.add x y (fst x y rfl)
    | emptyPoint idx => simp [boundsProc, defaultStep] at he
    | _ => simp only [boundsProc, defaultStep] at he; cases he; exact (List.append_nil ps).symm ▸ h
  | _ => simp only [boundsProc, defaultStep] at he; cases he; exact (List.append_nil ps).symm ▸ h

theorem positions_append (a b : List FEv) : positions (a ++ b) = positions a ++ positions b := by
  simp [positions, List.filterMap_append]

theorem positions_cons (e : FEv) (b : List FEv) : positions (e :: b) = positions [e] ++ positions b :=
  positions_append [e] b

theorem boundsProc_feed (evs : List FEv) {ps : List (F64 × F64)} {s s' : Option Bounds} (h : BoundsOf ps s)
    (hn : FirstNum (ps ++ positions evs)) (hf : feed boundsProc.step s evs = .ok s') :
    BoundsOf (ps ++ positions evs) s' := by
  induction evs generalizing ps s with
  | nil => simp only [feed] at hf; cases hf; simpa [positions] using h
  | cons e es ih =>
    simp only [feed_cons] at hf
    rw [positions_cons, ← List.append_assoc] at hn ⊢
    cases he : boundsProc.step s e with
    | error x => rw [he] at hf; cases hf
    | ok s1 =>
      rw [he] at hf
      exact ih (boundsProc_step h e hn.of_append he) hn hf

theorem boundsProc_interp {α : Type} (p : FProg α) (bs : List Byte) {ps : List (F64 × F64)} {s : Option Bounds}
    (h : BoundsOf ps s)
    (hn : FirstNum (ps ++ positions (FProg.interp boundsProc p s bs).2.1)) :
    BoundsOf (ps ++ positions (FProg.interp boundsProc p s bs).2.1) (FProg.interp boundsProc p s bs).1 := by
  have rej : ∀ (s : Option Bounds) e x, boundsProc.step s e = .error x → positions [e] = [] := by
    intro s e x he
    cases e with
    | geom g => cases g <;> simp [boundsProc, defaultStep] at he <;> rfl
    | _ => rfl
  induction p generalizing bs ps s with
  | ret a => simpa [FProg.interp, positions] using h
  | fail e => simpa [FProg.interp, positions] using h
  | read k ih =>
    cases bs with
    | nil => simpa [FProg.interp, positions] using h
    | cons b bs => exact ih b bs h hn
  | emit e k ih =>
    simp only [FProg.interp] at hn ⊢
    cases he : boundsProc.step s e with
    | error x => simp only [he] at hn ⊢; rw [rej s e x he]; simpa using h
    | ok s1 =>
      simp only [he] at hn ⊢
      rw [positions_cons, ← List.append_assoc] at hn ⊢
      exact ih bs (boundsProc_step h e hn.of_append he) hn
  | emitOk e k ih =>
    simp only [FProg.interp] at hn ⊢
    cases he : boundsProc.step s e with
    | error x =>
      simp only [he] at hn ⊢
      by_cases hx : x.isPanic = true
      · simp only [hx, if_true] at hn ⊢; rw [rej s e x he]; simpa using h
      · simp only [if_neg hx] at hn ⊢
        rw [positions_cons, rej s e x he, List.nil_append] at hn ⊢
        exact ih bs h hn
    | ok s1 =>
      simp only [he] at hn ⊢
      rw [positions_cons, ← List.append_assoc] at hn ⊢
      exact ih bs (boundsProc_step h e hn.of_append he) hn
  | prop i n v k ih =>
    simp only [FProg.interp] at hn ⊢
    cases he : boundsProc.step s (.prop i n v) with
    | error x => simp only [he] at hn ⊢; rw [rej s _ x he]; simpa using h
    | ok s1 =>
      simp only [he] at hn ⊢
      rw [positions_cons, ← List.append_assoc] at hn ⊢
      exact ih _ bs (boundsProc_step h _ hn.of_append he) hn
  | ask k ih => exact ih _ _ bs h hn

theorem BoundsOf.numeric {ps : List (F64 × F64)} {b : Bounds} (h : BoundsOf ps (some b))
    (hn : ∀ p ∈ ps, NumPos p) :
    IsMin (ps.map Prod.fst) b.minX ∧ IsMax (ps.map Prod.fst) b.maxX ∧
    IsMin (ps.map Prod.snd) b.minY ∧ IsMax (ps.map Prod.snd) b.maxY := by
  have h1 : (ps.map Prod.fst).filter (!·.isNaN) = ps.map Prod.fst := by
    rw [List.filter_eq_self]
    intro x hx
    obtain ⟨p, hp, rfl⟩ := List.mem_map.mp hx
    simp [(hn p hp).1]
  have h2 : (ps.map Prod.snd).filter (!·.isNaN) = ps.map Prod.snd := by
    rw [List.filter_eq_self]
    intro x hx
    obtain ⟨p, hp, rfl⟩ := List.mem_map.mp hx
    simp [(hn p hp).2]
  have h' : BoundsOf ps (some b) := h
  unfold BoundsOf at h'
  rwa [h1, h2] at h'

/-! ### positions of geometries -/

theorem filterMap_evList {α β : Type} (g : Ev → Option β) (f : Nat → α → List Ev) (h : α → List β) (xs : List α)
    (hf : ∀ x ∈ xs, ∀ i, (f i x).filterMap g = h x) (i : Nat) :
    (evList f i xs).filterMap g = xs.flatMap h := by
  induction xs generalizing i with
  | nil => rfl
  | cons x xs ih =>
    simp only [evList, List.filterMap_append, List.flatMap_cons]
    rw [hf x (by simp) i, ih (fun y hy => hf y (by simp [hy]))]

/-- position of a geometry call -/
def Ev.pos? (e : Ev) : Option (F64 × F64) := FEv.pos? (.geom e)

def Coord.pos (c : Coord) : F64 × F64 := (c.x, c.y)

theorem pos_bracket {α : Type} (k : GKind) (tagged : Bool) (idx : Nat) (f : Nat → α → List Ev) (xs : List α)
    (h : α → List (F64 × F64)) (hf : ∀ x ∈ xs, ∀ i, (f i x).filterMap Ev.pos? = h x) :
    (bracket k tagged idx f xs).filterMap Ev.pos? = xs.flatMap h := by
  simp only [bracket, List.filterMap_cons, List.filterMap_append, filterMap_evList Ev.pos? f h xs hf 0]
  simp [Ev.pos?, FEv.pos?]

theorem pos_coordEvs (multi : Bool) (i : Nat) (c : Coord) : (coordEvs multi i c).filterMap Ev.pos? = [c.pos] := by
  cases multi <;> simp [coordEvs, coordEv, Ev.pos?, FEv.pos?, Coord.pos]

theorem flatMap_single {α β : Type} (f : α → β) (xs : List α) : xs.flatMap (fun x => [f x]) = xs.map f := by
  induction xs with
  | nil => rfl
  | cons x xs ih => simp [List.flatMap_cons, ih]

theorem pos_coords (k : GKind) (multi tagged : Bool) (idx : Nat) (cs : List Coord) :
    (bracket k tagged idx (coordEvs multi) cs).filterMap Ev.pos? = cs.map Coord.pos := by
  rw [pos_bracket k tagged idx _ cs (fun c => [c.pos]) (fun c _ i => pos_coordEvs multi i c), flatMap_single]

theorem pos_rings (k : GKind) (multi tagged : Bool) (idx : Nat) (rs : List (List Coord)) :
    (bracket k tagged idx (lineEvs multi false) rs).filterMap Ev.pos? = rs.flatten.map Coord.pos := by
  rw [pos_bracket k tagged idx (lineEvs multi false) rs (fun cs => cs.map Coord.pos)
    (fun c _ i => pos_coords _ multi false i c)]
  simp [List.map_flatten, List.flatMap_def]

theorem pos_polys (k k' : GKind) (multi tagged : Bool) (idx : Nat) (ps : List (List (List Coord))) :
    (bracket k tagged idx (fun i rs => bracket k' false i (lineEvs multi false) rs) ps).filterMap Ev.pos? =
      (ps.flatMap List.flatten).map Coord.pos := by
  rw [pos_bracket k tagged idx _ ps (fun rs => rs.flatten.map Coord.pos) (fun c _ i => pos_rings _ multi false i c)]
  simp [List.map_flatMap]

theorem pos_seg (multi : Bool) (idx : Nat) (s : Seg) :
    (segEvs multi idx s).filterMap Ev.pos? = s.coords.map Coord.pos := by
  cases s <;> exact pos_coords _ _ _ _ _

theorem pos_segs (multi : Bool) (k : GKind) (idx : Nat) (ss : List Seg) :
    (bracket k true idx (segEvs multi) ss).filterMap Ev.pos? = (ss.flatMap Seg.coords).map Coord.pos := by
  rw [pos_bracket k true idx _ ss (fun s => s.coords.map Coord.pos) (fun s _ i => pos_seg multi i s)]
  simp [List.map_flatMap]

theorem pos_curve (multi : Bool) (idx : Nat) (s : Curve) :
    (curveEvs multi idx s).filterMap Ev.pos? = s.coords.map Coord.pos := by
  cases s with
  | seg s => exact pos_seg multi idx s
  | compound ss => exact pos_segs multi _ idx ss

theorem pos_curves (multi : Bool) (k : GKind) (idx : Nat) (ss : List Curve) :
    (bracket k true idx (curveEvs multi) ss).filterMap Ev.pos? = (ss.flatMap Curve.coords).map Coord.pos := by
  rw [pos_bracket k true idx _ ss (fun s => s.coords.map Coord.pos) (fun s _ i => pos_curve multi i s)]
  simp [List.map_flatMap]

theorem pos_surface (multi : Bool) (idx : Nat) (s : Surface) :
    (surfaceEvs multi idx s).filterMap Ev.pos? = s.coords.map Coord.pos := by
  cases s with
  | polygon rs => exact pos_rings _ multi _ idx rs
  | curvePolygon rs => exact pos_curves multi _ idx rs

/-- the positions a geometry delivers are its coordinates -/
theorem pos_geom (multi : Bool) (g : Geom) (idx : Nat) :
    (g.events multi idx).filterMap Ev.pos? = g.coords.map Coord.pos := by
  induction g using Geom.ind generalizing idx with
  | emptyPoint => simp [Geom.events, Geom.coords, Ev.pos?, FEv.pos?]
  | point c => cases multi <;> rfl
  | multiPoint cs => simp only [Geom.events, Geom.coords]; exact pos_coords _ _ _ _ _
  | lineString cs => simp only [Geom.events, Geom.coords]; exact pos_coords _ _ _ _ _
  | circularString cs => simp only [Geom.events, Geom.coords]; exact pos_coords _ _ _ _ _
  | compoundCurve ss => simp only [Geom.events, Geom.coords]; exact pos_segs _ _ _ _
  | multiLineString ls => simp only [Geom.events, Geom.coords]; exact pos_rings _ _ _ _ _
  | multiCurve cs => simp only [Geom.events, Geom.coords]; exact pos_curves _ _ _ _
  | polygon rs => simp only [Geom.events, Geom.coords]; exact pos_rings _ _ _ _ _
  | triangle rs => simp only [Geom.events, Geom.coords]; exact pos_rings _ _ _ _ _
  | curvePolygon rs => simp only [Geom.events, Geom.coords]; exact pos_curves _ _ _ _
  | multiPolygon ps => simp only [Geom.events, Geom.coords]; exact pos_polys _ _ _ _ _ _
  | polyhedralSurface ps => simp only [Geom.events, Geom.coords]; exact pos_polys _ _ _ _ _ _
  | tin ts => simp only [Geom.events, Geom.coords]; exact pos_polys _ _ _ _ _ _
  | multiSurface ss =>
    simp only [Geom.events, Geom.coords]
    rw [pos_bracket _ _ idx _ ss (fun s => s.coords.map Coord.pos) (fun s _ i => pos_surface multi i s)]
    simp [List.map_flatMap]
  | collection gs ih =>
    rw [events_collection, pos_bracket _ _ idx _ gs (fun s => s.coords.map Coord.pos) (fun s hs i => ih s hs i)]
    simp [Geom.coords, Geom.coordsList_eq, List.map_flatMap]

theorem positions_geom (evs : List Ev) : positions (evs.map FEv.geom) = evs.filterMap Ev.pos? := by
  simp only [positions, List.filterMap_map]; rfl

/-! ### mapping -/

theorem Geom.mapXYList_eq (f : F64 → F64 → F64 × F64) (gs : List Geom) :
    Geom.mapXYList f gs = gs.map (Geom.mapXY f) := by
  induction gs with
  | nil => simp [Geom.mapXYList]
  | cons g gs ih => simp [Geom.mapXYList, ih]

theorem FEv.mapXY_geom (f : F64 → F64 → F64 × F64) (e : Ev) : FEv.mapXY f (.geom e) = .geom (e.mapXY f) := by
  cases e <;> rfl

theorem mapXY_bracket {α β : Type} (f : F64 → F64 → F64 × F64) (k : GKind) (tagged : Bool) (idx : Nat)
    (ev : Nat → α → List Ev) (ev' : Nat → β → List Ev) (g : α → β) (xs : List α)
    (h : ∀ x ∈ xs, ∀ i, (ev i x).map (Ev.mapXY f) = ev' i (g x)) :
    (bracket k tagged idx ev xs).map (Ev.mapXY f) = bracket k tagged idx ev' (xs.map g) := by
  have : ∀ i, (evList ev i xs).map (Ev.mapXY f) = evList ev' i (xs.map g) := by
    induction xs with
    | nil => intro i; rfl
    | cons x xs ih =>
      intro i
      simp only [evList, List.map_append, List.map_cons]
      rw [h x (by simp) i, ih (fun y hy => h y (by simp [hy]))]
  simp [bracket, this, Ev.mapXY]

theorem mapXY_coordEvs (f : F64 → F64 → F64 × F64) (multi : Bool) (i : Nat) (c : Coord) :
    (coordEvs multi i c).map (Ev.mapXY f) = coordEvs multi i (c.mapXY f) := by
  cases multi <;> simp [coordEvs, coordEv, Ev.mapXY, Coord.mapXY]

theorem mapXY_coords (f : F64 → F64 → F64 × F64) (k : GKind) (multi tagged : Bool) (idx : Nat) (cs : List Coord) :
    (bracket k tagged idx (coordEvs multi) cs).map (Ev.mapXY f) =
      bracket k tagged idx (coordEvs multi) (cs.map (Coord.mapXY f)) :=
  mapXY_bracket f k tagged idx _ _ _ cs fun c _ i => mapXY_coordEvs f multi i c

theorem mapXY_rings (f : F64 → F64 → F64 × F64) (k : GKind) (multi tagged : Bool) (idx : Nat)
    (rs : List (List Coord)) :
    (bracket k tagged idx (lineEvs multi false) rs).map (Ev.mapXY f) =
      bracket k tagged idx (lineEvs multi false) (rs.map (List.map (Coord.mapXY f))) :=
  mapXY_bracket f k tagged idx _ _ _ rs fun c _ i => mapXY_coords f _ multi _ i c

theorem mapXY_seg (f : F64 → F64 → F64 × F64) (multi : Bool) (i : Nat) (s : Seg) :
    (segEvs multi i s).map (Ev.mapXY f) = segEvs multi i (s.mapXY f) := by
  cases s <;> exact mapXY_coords f _ multi _ i _

theorem mapXY_curve (f : F64 → F64 → F64 × F64) (multi : Bool) (i : Nat) (s : Curve) :
    (curveEvs multi i s).map (Ev.mapXY f) = curveEvs multi i (s.mapXY f) := by
  cases s with
  | seg s => exact mapXY_seg f multi i s
  | compound ss => exact mapXY_bracket f _ _ i _ _ _ ss fun s _ i => mapXY_seg f multi i s

theorem mapXY_curves (f : F64 → F64 → F64 × F64) (k : GKind) (multi : Bool) (i : Nat) (cs : List Curve) :
    (bracket k true i (curveEvs multi) cs).map (Ev.mapXY f) = bracket k true i (curveEvs multi) (cs.map (Curve.mapXY f)) :=
  mapXY_bracket f k true i _ _ _ cs fun c _ i => mapXY_curve f multi i c

theorem mapXY_surface (f : F64 → F64 → F64 × F64) (multi : Bool) (i : Nat) (s : Surface) :
    (surfaceEvs multi i s).map (Ev.mapXY f) = surfaceEvs multi i (s.mapXY f) := by
  cases s with
  | polygon rs => exact mapXY_rings f _ multi _ i rs
  | curvePolygon rs => exact mapXY_curves f _ multi i rs

theorem mapXY_geom (f : F64 → F64 → F64 × F64) (multi : Bool) (g : Geom) (idx : Nat) :
    (g.events multi idx).map (Ev.mapXY f) = (g.mapXY f).events multi idx := by
  induction g using Geom.ind generalizing idx with
  | emptyPoint => rfl
  | point c => cases multi <;> rfl
  | multiPoint cs => simp only [Geom.events, Geom.mapXY]; exact mapXY_coords f _ _ _ _ _
  | lineString cs => simp only [Geom.events, Geom.mapXY]; exact mapXY_coords f _ _ _ _ _
  | circularString cs => simp only [Geom.events, Geom.mapXY]; exact mapXY_coords f _ _ _ _ _
  | compoundCurve ss =>
    simp only [Geom.events, Geom.mapXY]; exact mapXY_bracket f _ _ _ _ _ _ ss fun s _ i => mapXY_seg f multi i s
  | multiLineString ls => simp only [Geom.events, Geom.mapXY]; exact mapXY_rings f _ _ _ _ _
  | multiCurve cs => simp only [Geom.events, Geom.mapXY]; exact mapXY_curves f _ _ _ _
  | polygon rs => simp only [Geom.events, Geom.mapXY]; exact mapXY_rings f _ _ _ _ _
  | triangle rs => simp only [Geom.events, Geom.mapXY]; exact mapXY_rings f _ _ _ _ _
  | curvePolygon rs => simp only [Geom.events, Geom.mapXY]; exact mapXY_curves f _ _ _ _
  | multiPolygon ps =>
    simp only [Geom.events, Geom.mapXY]
    exact mapXY_bracket f _ _ _ _ _ _ ps fun s _ i => mapXY_rings f _ multi _ i s
  | polyhedralSurface ps =>
    simp only [Geom.events, Geom.mapXY]
    exact mapXY_bracket f _ _ _ _ _ _ ps fun s _ i => mapXY_rings f _ multi _ i s
  | tin ts =>
    simp only [Geom.events, Geom.mapXY]
    exact mapXY_bracket f _ _ _ _ _ _ ts fun s _ i => mapXY_rings f _ multi _ i s
  | multiSurface ss =>
    simp only [Geom.events, Geom.mapXY]
    exact mapXY_bracket f _ _ _ _ _ _ ss fun s _ i => mapXY_surface f multi i s
  | collection gs ih =>
    simp only [Geom.mapXY, Geom.mapXYList_eq]
    rw [events_collection, events_collection]
    exact mapXY_bracket f _ _ _ _ _ _ gs fun s hs i => ih s hs i

theorem wrapEv_eq (f : F64 → F64 → F64 × F64) (e : FEv) : wrapEv f e = e.mapXY f := by
  cases e with
  | geom g => cases g <;> rfl
  | _ => rfl

/-! ### forwarding -/

theorem wrapXY_step {σ : Type} (f : F64 → F64 → F64 × F64) (p : FProc σ) (s : σ) (e : FEv) :
    (wrapXY f p).step s e = p.step s (e.mapXY f) := by
  rw [← wrapEv_eq]; rfl

theorem muxForwards_eq (e : FEv) : muxForwards e = e.plain := by
  cases e with
  | geom g =>
    cases g with
    | gbegin k t n i => cases k <;> rfl
    | gend k t i => cases k <;> rfl
    | _ => rfl
  | _ => rfl

theorem dsGeomForwards_eq (e : Ev) : dsGeomForwards e = (FEv.geom e).plain := by
  cases e with
  | gbegin k t n i => cases k <;> rfl
  | gend k t i => cases k <;> rfl
  | _ => rfl

theorem dsGeom_step {σ : Type} (p : Prog.Proc σ) (s : σ) (e : FEv) :
    (dsGeom p).step s e =
      match e with
      | .geom e =>
        if (FEv.geom e).plain then p.step s e
        else match defaultStep (.geom e) with
          | .ok _ => .ok s
          | .error x => .error x
      | _ => .ok s := by
  cases e with
  | geom e => simp only [dsGeom, dsGeomForwards_eq]; rfl
  | _ => rfl

end Geozero
