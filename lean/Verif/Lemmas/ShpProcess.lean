import Verif.Lemmas.Shp

/- Helper lemmas: the calls the shapefile reader makes for a shape it has read. -/

namespace Geozero
open Spec FProg

/-- `p` is found in `cs` from index `a` on -/
def At {α : Type} (cs : List α) (a : Nat) (p : List α) : Prop := ∃ pre post, cs = pre ++ (p ++ post) ∧ pre.length = a

theorem At.self {α : Type} (cs : List α) : At cs 0 cs := ⟨[], [], by simp, rfl⟩

theorem At.left {α : Type} {cs : List α} {a : Nat} {p q : List α} (h : At cs a (p ++ q)) : At cs a p := by
  obtain ⟨pre, post, h1, h2⟩ := h
  exact ⟨pre, q ++ post, by simpa using h1, h2⟩

theorem At.right {α : Type} {cs : List α} {a : Nat} {p q : List α} (h : At cs a (p ++ q)) : At cs (a + p.length) q := by
  obtain ⟨pre, post, h1, h2⟩ := h
  exact ⟨pre ++ p, post, by simpa using h1, by simp [h2]⟩

theorem At.head {α : Type} {cs : List α} {a : Nat} {c : α} {p : List α} (h : At cs a (c :: p)) : cs[a]? = some c := by
  obtain ⟨pre, post, h1, h2⟩ := h
  subst h2
  simp [h1]

theorem At.slice {cs : List Coord} {a : Nat} {p : List Coord} (h : At cs a p) :
    sliceXY (cs.map toXY) a (a + p.length) = .ok (p.map toXY) := by
  obtain ⟨pre, post, h1, h2⟩ := h
  subst h2
  unfold sliceXY
  rw [if_pos (by simp [h1]), h1]
  simp

/-- first and last index of each part -/
def spans {α : Type} : Nat → List (List α) → List (Nat × Nat)
  | _, [] => []
  | n, p :: ps => (n, n + p.length) :: spans (n + p.length) ps

theorem windows2_starts {α : Type} (n : Nat) (ps : List (List α)) :
    windows2 (partStarts n ps ++ [n + ps.flatten.length]) = spans n ps := by
  induction ps generalizing n with
  | nil => rfl
  | cons p ps ih =>
    have h := ih (n + p.length)
    cases ps with
    | nil => simp [partStarts, windows2, spans]
    | cons q ps =>
      simp only [partStarts, List.cons_append, windows2, spans, List.flatten_cons, List.length_append] at h ⊢
      rw [show n + (p.length + (q.length + ps.flatten.length)) = n + p.length + (q.length + ps.flatten.length) by omega, h]

theorem partStarts_append {α : Type} (n : Nat) (ps qs : List (List α)) :
    partStarts n (ps ++ qs) = partStarts n ps ++ partStarts (n + ps.flatten.length) qs := by
  induction ps generalizing n with
  | nil => simp [partStarts]
  | cons p ps ih =>
    simp only [List.cons_append, partStarts, ih, List.flatten_cons, List.length_append]
    rw [show n + p.length + ps.flatten.length = n + (p.length + ps.flatten.length) by omega]

/-- a table of starts begins with its first number -/
theorem starts_head {α : Type} (n : Nat) (ps : List (List α)) :
    ∃ t, partStarts n ps ++ [n + ps.flatten.length] = n :: t := by
  cases ps with
  | nil => exact ⟨[], rfl⟩
  | cons p ps => exact ⟨_, rfl⟩

/-- the windows of a group of parts -/
theorem partWindows_group {α : Type} (pre g post : List (List α)) :
    partWindows (partStarts 0 (pre ++ (g ++ post)) ++ [(pre ++ (g ++ post)).flatten.length])
      (pre.length, pre.length + g.length) = spans pre.flatten.length g := by
  have h1 : partStarts 0 (pre ++ (g ++ post)) ++ [(pre ++ (g ++ post)).flatten.length] =
      partStarts 0 pre ++ (partStarts pre.flatten.length g ++
        (partStarts (pre.flatten.length + g.flatten.length) post ++
          [pre.flatten.length + g.flatten.length + post.flatten.length])) := by
    simp only [partStarts_append, List.append_assoc, List.flatten_append, List.length_append, Nat.zero_add]
    rw [show pre.flatten.length + (g.flatten.length + post.flatten.length) =
      pre.flatten.length + g.flatten.length + post.flatten.length by omega]
  obtain ⟨t, ht⟩ := starts_head (pre.flatten.length + g.flatten.length) post
  unfold partWindows
  rw [h1, ht, List.drop_append_of_le_length (by simp), List.drop_of_length_le (by simp), List.nil_append]
  rw [show pre.length + g.length + 1 - pre.length = (partStarts pre.flatten.length g).length + 1 by simp; omega,
    List.take_length_add_append]
  exact windows2_starts _ _

/-! ### coordinates -/

/-- what the reader has collected of coordinates `cs` -/
structure Collected (cs : List Coord) (dz dm : Bool) : Prop where
  z : ∀ c ∈ cs, c.z.isSome = dz
  m : ∀ c ∈ cs, c.m.isSome = dm

theorem dimValue_eq {f : Coord → Option F64} {b : Bool} {cs : List Coord} (h : ∀ c ∈ cs, (f c).isSome = b) (want : Bool)
    (ofs : Nat) (c : Coord) (hc : cs[ofs]? = some c) :
    dimValue (want && !(cs.filterMap f).isEmpty) (cs.filterMap f) ofs = .ok (if want then f c else none) := by
  have hmem : c ∈ cs := List.mem_of_getElem? hc
  cases want with
  | false => rfl
  | true =>
    cases b with
    | false =>
      have hn : cs.filterMap f = [] := (filterMap_length h).2 rfl
      have := h c hmem
      simp only [Option.isSome_eq_false_iff, Option.isNone_iff_eq_none] at this
      rw [hn, this]
      rfl
    | true =>
      have hg := filterMap_getElem h ofs c hc
      have hs := h c hmem
      obtain ⟨v, hv⟩ := Option.isSome_iff_exists.mp hs
      have hne : (cs.filterMap f).isEmpty = false := by
        rw [List.isEmpty_eq_false_iff]
        intro hnil
        rw [hnil, hv] at hg
        simp at hg
      rw [hne]
      simp only [dimValue, Bool.not_false, Bool.and_true, if_true, hg, hv]

theorem shpCoord_eq {cs : List Coord} {dz dm : Bool} (h : Collected cs dz dm) (dims : Dims) (ofs i : Nat) (c : Coord)
    (hc : cs[ofs]? = some c) :
    shpCoord (cs.map toXY) (cs.filterMap Coord.z) (cs.filterMap Coord.m) (dims.z || dims.m)
      (dims.z && !(cs.filterMap Coord.z).isEmpty) (dims.m && !(cs.filterMap Coord.m).isEmpty) ofs i =
      FProg.call (.geom (coordEv (dims.z || dims.m) (c.keep dims) i)) := by
  unfold shpCoord
  simp only [List.getElem?_map, hc, Option.map_some, dimValue_eq h.z _ _ _ hc, dimValue_eq h.m _ _ _ hc]
  cases dims.z || dims.m <;> rfl

theorem run_shpCoords {cs : List Coord} {dz dm : Bool} (h : Collected cs dz dm) (env : Env) (p : List Coord)
    (a i : Nat) (hp : At cs a p) (bs : List Byte) :
    run env (FProg.forIdx (fun i ofs => shpCoord (cs.map toXY) (cs.filterMap Coord.z) (cs.filterMap Coord.m)
      (env.dims.z || env.dims.m) (env.dims.z && !(cs.filterMap Coord.z).isEmpty) (env.dims.m && !(cs.filterMap Coord.m).isEmpty)
      ofs i) i (List.range' a p.length)) bs =
      ((evList (coordEvs (env.dims.z || env.dims.m)) i (p.map (Coord.keep env.dims))).map FEv.geom, .ok ((), bs)) := by
  induction p generalizing a i with
  | nil => rfl
  | cons c p ih =>
    simp only [List.length_cons, List.range'_succ, FProg.forIdx, shpCoord_eq h _ _ _ _ hp.head, run_call_bind]
    have hp' : At cs (a + 1) p := At.right (p := [c]) hp
    rw [ih _ _ hp']
    rfl

theorem run_shpPart {cs : List Coord} {dz dm : Bool} (h : Collected cs dz dm) (env : Env) (p : List Coord)
    (a i : Nat) (hp : At cs a p) (bs : List Byte) :
    run env (shpPart (cs.map toXY) (cs.filterMap Coord.z) (cs.filterMap Coord.m)
      (env.dims.z || env.dims.m) (env.dims.z && !(cs.filterMap Coord.z).isEmpty) (env.dims.m && !(cs.filterMap Coord.m).isEmpty)
      i (a, a + p.length)) bs =
      ((lineEvs (env.dims.z || env.dims.m) false i (p.map (Coord.keep env.dims))).map FEv.geom, .ok ((), bs)) := by
  unfold shpPart
  simp only
  rw [if_neg (by omega)]
  simp only [show a + p.length - a = p.length by omega, bind_eq, run_call_bind]
  rw [run_bind_ok (run_shpCoords h env p a 0 hp bs)]
  simp [lineEvs, bracket]

theorem run_shpParts {cs : List Coord} {dz dm : Bool} (h : Collected cs dz dm) (env : Env) (ps : List (List Coord))
    (a i : Nat) (hp : At cs a ps.flatten) (bs : List Byte) :
    run env (FProg.forIdx (shpPart (cs.map toXY) (cs.filterMap Coord.z) (cs.filterMap Coord.m)
      (env.dims.z || env.dims.m) (env.dims.z && !(cs.filterMap Coord.z).isEmpty) (env.dims.m && !(cs.filterMap Coord.m).isEmpty))
      i (spans a ps)) bs =
      ((evList (lineEvs (env.dims.z || env.dims.m) false) i (ps.map (List.map (Coord.keep env.dims)))).map FEv.geom,
        .ok ((), bs)) := by
  induction ps generalizing a i with
  | nil => rfl
  | cons p ps ih =>
    rw [List.flatten_cons] at hp
    simp only [spans, FProg.forIdx]
    rw [run_bind_ok (run_shpPart h env p a i hp.left bs), ih _ _ hp.right]
    simp [evList]

/-! ### grouping -/

/-- leading inner rings, and groups -/
def splitRings {α : Type} (inner : α → Bool) : List α → List α × List (List α)
  | [] => ([], [])
  | r :: rs =>
    if inner r then (r :: (splitRings inner rs).1, (splitRings inner rs).2)
    else ([], (r :: (splitRings inner rs).1) :: (splitRings inner rs).2)

/-- the grouping of rings -/
def groupRings {α : Type} (inner : α → Bool) : List α → List (List α)
  | [] => []
  | r :: rs => (r :: (splitRings inner rs).1) :: (splitRings inner rs).2

theorem splitRings_spec {α : Type} (inner : α → Bool) (rs : List α) :
    (splitRings inner rs).1 ++ (splitRings inner rs).2.flatten = rs ∧ (∀ r ∈ (splitRings inner rs).1, inner r) ∧
    (∀ g ∈ (splitRings inner rs).2, g ≠ [] ∧ (∀ r ∈ g.tail, inner r) ∧ ∀ r ∈ g.head?, ¬ inner r) := by
  induction rs with
  | nil => simp [splitRings]
  | cons r rs ih =>
    obtain ⟨h1, h2, h3⟩ := ih
    cases hr : inner r with
    | true =>
      simp only [splitRings, hr, if_true]
      refine ⟨by simp [h1], ?_, h3⟩
      intro x hx
      rcases List.mem_cons.mp hx with rfl | hx
      · exact hr
      · exact h2 x hx
    | false =>
      simp only [splitRings, hr, Bool.false_eq_true, if_false]
      refine ⟨by simp [h1], by simp, ?_⟩
      intro g hg
      rcases List.mem_cons.mp hg with rfl | hg
      · exact ⟨by simp, h2, by simp [hr]⟩
      · exact h3 g hg

theorem groupRings_grouped {α : Type} (inner : α → Bool) (rs : List α) : Grouped inner rs (groupRings inner rs) := by
  cases rs with
  | nil => simp [Grouped, groupRings]
  | cons r rs =>
    obtain ⟨h1, h2, h3⟩ := splitRings_spec inner rs
    refine ⟨by simp [groupRings, h1], ?_, fun g hg => (h3 g hg).2.2⟩
    intro g hg
    rcases List.mem_cons.mp hg with rfl | hg
    · exact ⟨by simp, h2⟩
    · exact ⟨(h3 g hg).1, (h3 g hg).2.1⟩

theorem splitRings_unique {α : Type} (inner : α → Bool) (t : List α) (gs : List (List α)) (h2 : ∀ r ∈ t, inner r)
    (h3 : ∀ g ∈ gs, g ≠ [] ∧ (∀ r ∈ g.tail, inner r) ∧ ∀ r ∈ g.head?, ¬ inner r) :
    splitRings inner (t ++ gs.flatten) = (t, gs) := by
  induction gs generalizing t with
  | nil =>
    induction t with
    | nil => rfl
    | cons r t ih =>
      have := ih fun x hx => h2 x (by simp [hx])
      simp only [List.flatten_nil, List.append_nil] at this ⊢
      simp [splitRings, h2 r (by simp), this]
  | cons g gs ihg =>
    induction t with
    | nil =>
      obtain ⟨hne, htl, hhd⟩ := h3 g (by simp)
      cases g with
      | nil => exact absurd rfl hne
      | cons r g =>
        have hr : inner r = false := by simpa using hhd r (by simp)
        have := ihg g htl fun g' hg' => h3 g' (by simp [hg'])
        simp [splitRings, hr, this]
    | cons r t ih =>
      have := ih fun x hx => h2 x (by simp [hx])
      simp only [List.cons_append, splitRings, h2 r (by simp), if_true, this]

theorem grouped_unique {α : Type} (inner : α → Bool) (rs : List α) (gs : List (List α)) (h : Grouped inner rs gs) :
    gs = groupRings inner rs := by
  obtain ⟨h1, h2, h3⟩ := h
  cases gs with
  | nil => rw [← h1]; rfl
  | cons g gs =>
    obtain ⟨hne, htl⟩ := h2 g (by simp)
    cases g with
    | nil => exact absurd rfl hne
    | cons r g =>
      have := splitRings_unique inner g gs htl
        fun g' hg' => ⟨(h2 g' (by simp [hg'])).1, (h2 g' (by simp [hg'])).2, h3 g' hg'⟩
      rw [← h1]
      simp only [List.flatten_cons, List.cons_append, groupRings, this]

theorem detectLoop_eq {cs : List Coord} (inner : List XY → Bool) (rs : List (List Coord)) (a idx : Nat) (hi : idx ≠ 0)
    (hp : At cs a rs.flatten) :
    detectLoop inner (cs.map toXY) idx (spans a rs) =
      .ok (partStarts (idx + (splitRings (fun r => inner (r.map toXY)) rs).1.length)
        (splitRings (fun r => inner (r.map toXY)) rs).2) := by
  induction rs generalizing a idx with
  | nil => rfl
  | cons r rs ih =>
    rw [List.flatten_cons] at hp
    simp only [spans, detectLoop, if_neg hi, hp.left.slice, ih _ _ (Nat.succ_ne_zero idx) hp.right]
    cases hr : inner (r.map toXY) with
    | true =>
      simp only [splitRings, hr, if_true, List.length_cons]
      rw [show idx + 1 + (splitRings (fun r => inner (r.map toXY)) rs).1.length =
        idx + ((splitRings (fun r => inner (r.map toXY)) rs).1.length + 1) by omega]
    | false =>
      simp only [splitRings, hr, Bool.false_eq_true, if_false, List.length_nil, Nat.add_zero, partStarts, List.length_cons]
      rw [show idx + 1 + (splitRings (fun r => inner (r.map toXY)) rs).1.length =
        idx + ((splitRings (fun r => inner (r.map toXY)) rs).1.length + 1) by omega]

theorem detectPolys_eq (inner : List XY → Bool) (rs : List (List Coord)) :
    detectPolys inner (partStarts 0 rs ++ [rs.flatten.length]) (rs.flatten.map toXY) =
      .ok (partStarts 0 (groupRings (fun r => inner (r.map toXY)) rs) ++ [rs.length]) := by
  have hw := windows2_starts 0 rs
  rw [Nat.zero_add] at hw
  unfold detectPolys
  rw [hw]
  cases rs with
  | nil => rfl
  | cons r rs =>
    have hp := At.self (r :: rs).flatten
    rw [List.flatten_cons] at hp
    simp only [spans, detectLoop, if_true, List.flatten_cons]
    rw [detectLoop_eq inner rs (0 + r.length) (0 + 1) (by omega) hp.right]
    simp only [groupRings, partStarts, List.length_cons, List.length_append, partStarts_length, List.length_nil,
      Nat.add_sub_cancel, List.cons_append]
    rw [show 0 + 1 + (splitRings (fun r => inner (r.map toXY)) rs).1.length =
      0 + ((splitRings (fun r => inner (r.map toXY)) rs).1.length + 1) by omega]

theorem run_shpPolygons {rings : List (List Coord)} {dz dm : Bool} (h : Collected rings.flatten dz dm) (env : Env)
    (pre groups : List (List (List Coord))) (i : Nat) (hg : (pre ++ groups).flatten = rings) (bs : List Byte) :
    run env (FProg.forIdx (shpPolygon (partStarts 0 rings ++ [rings.flatten.length]) (rings.flatten.map toXY)
      (rings.flatten.filterMap Coord.z) (rings.flatten.filterMap Coord.m)
      (env.dims.z || env.dims.m) (env.dims.z && !(rings.flatten.filterMap Coord.z).isEmpty)
      (env.dims.m && !(rings.flatten.filterMap Coord.m).isEmpty)) i (spans pre.flatten.length groups)) bs =
      ((evList (polyEvs (env.dims.z || env.dims.m) false) i (groups.map (List.map (List.map (Coord.keep env.dims))))).map
        FEv.geom, .ok ((), bs)) := by
  induction groups generalizing pre i with
  | nil => rfl
  | cons g gs ih =>
    have hr : rings = pre.flatten ++ (g ++ gs.flatten) := by rw [← hg]; simp
    have hat : At rings.flatten pre.flatten.flatten.length g.flatten := by
      refine ⟨pre.flatten.flatten, gs.flatten.flatten, ?_, rfl⟩
      rw [hr]; simp
    have hw : partWindows (partStarts 0 rings ++ [rings.flatten.length])
        (pre.flatten.length, pre.flatten.length + g.length) = spans pre.flatten.flatten.length g := by
      rw [hr]; exact partWindows_group pre.flatten g gs.flatten
    have hone : run env (shpPolygon (partStarts 0 rings ++ [rings.flatten.length]) (rings.flatten.map toXY)
        (rings.flatten.filterMap Coord.z) (rings.flatten.filterMap Coord.m)
        (env.dims.z || env.dims.m) (env.dims.z && !(rings.flatten.filterMap Coord.z).isEmpty)
        (env.dims.m && !(rings.flatten.filterMap Coord.m).isEmpty) i (pre.flatten.length, pre.flatten.length + g.length)) bs =
        ((polyEvs (env.dims.z || env.dims.m) false i (g.map (List.map (Coord.keep env.dims)))).map FEv.geom, .ok ((), bs)) := by
      unfold shpPolygon
      simp only [bind_eq, run_call_bind, hw]
      rw [run_bind_ok (run_shpParts h env g _ 0 hat bs)]
      simp [polyEvs, bracket]
    simp only [spans, FProg.forIdx]
    have := ih (pre ++ [g]) (i + 1) (by rw [← hg]; simp)
    rw [List.flatten_append, List.length_append, List.flatten_cons, List.flatten_nil, List.append_nil] at this
    rw [run_bind_ok hone, this]
    simp [evList]

/-! ### shapes -/

/-- the geometry of a shape -/
def _root_.Geozero.Spec.EsriShape.geom (inner : List Coord → Bool) : EsriShape → Option Geom
  | .null => none
  | .point c => some (.point c)
  | .multiPoint cs => some (.multiPoint cs)
  | .polyLine ps => some (.multiLineString ps)
  | .polygon ps => some (.multiPolygon (groupRings inner ps))

theorem denotes_geom (inner : List Coord → Bool) (s : EsriShape) : Denotes inner s (s.geom inner) := by
  cases s with
  | null => exact .null
  | point c => exact .point c
  | multiPoint cs => exact .multiPoint cs
  | polyLine ps => exact .polyLine ps
  | polygon ps => exact .polygon ps _ (groupRings_grouped inner ps)

theorem denotes_unique (inner : List Coord → Bool) (s : EsriShape) (g : Option Geom) (h : Denotes inner s g) :
    g = s.geom inner := by
  cases h with
  | null => rfl
  | point c => rfl
  | multiPoint cs => rfl
  | polyLine ps => rfl
  | polygon ps groups hg => rw [grouped_unique inner ps groups hg]; rfl

/-- grouping commutes with a change of the rings the test does not see -/
theorem splitRings_map {α : Type} (inner : α → Bool) (f : α → α) (hf : ∀ r, inner (f r) = inner r) (rs : List α) :
    splitRings inner (rs.map f) = ((splitRings inner rs).1.map f, (splitRings inner rs).2.map (List.map f)) := by
  induction rs with
  | nil => rfl
  | cons r rs ih =>
    simp only [List.map_cons, splitRings, ih, hf]
    split <;> rfl

theorem groupRings_map {α : Type} (inner : α → Bool) (f : α → α) (hf : ∀ r, inner (f r) = inner r) (rs : List α) :
    groupRings inner (rs.map f) = (groupRings inner rs).map (List.map f) := by
  cases rs with
  | nil => rfl
  | cons r rs => simp only [List.map_cons, groupRings, splitRings_map inner f hf]

theorem innerRing_keep (ar : ShpArith) (dims : Dims) (r : List Coord) :
    innerRing ar (r.map (Coord.keep dims)) = innerRing ar r := by
  unfold innerRing
  rw [List.map_map]
  rfl

theorem run_process (ar : ShpArith) (env : Env) (d : EsriDim) (hasM : Bool) (s : EsriShape) (hv : s.Valid d hasM)
    (hm : env.multi = (env.dims.z || env.dims.m)) (bs : List Byte) :
    run env (s.collected.process ar) bs =
      ((shapeEvs env.multi ((s.keep env.dims).geom (innerRing ar))).map FEv.geom, .ok ((), bs)) := by
  have hc : Collected s.coords (decide (d = .z)) hasM := ⟨hv.z, hv.m⟩
  cases s with
  | null => rfl
  | point c =>
    simp only [EsriShape.collected, ShpShape.process, shpProcessPoint, EsriShape.keep, EsriShape.geom, shapeEvs, Geom.events]
    simp only [bind_eq, run_call_bind, FProg.bind, run]
    cases env.multi <;> rfl
  | multiPoint cs =>
    have := run_shpCoords hc env cs 0 0 (At.self cs) bs
    simp only [EsriShape.collected, ShpShape.process, shpProcessMultipoint, EsriShape.keep, EsriShape.geom, shapeEvs,
      Geom.events, run, hm]
    simp only [bind_eq, run_call_bind, List.length_map]
    simp only [EsriShape.coords] at this
    rw [run_bind_ok this]
    simp [bracket]
  | polyLine ps =>
    have := run_shpParts hc env ps 0 0 (At.self _) bs
    have hw := partWindows_group [] ps ([] : List (List Coord))
    simp only [List.nil_append, List.append_nil, List.flatten_nil, List.length_nil, Nat.zero_add] at hw
    simp only [EsriShape.coords] at this
    simp only [EsriShape.collected, ShpShape.process, shpProcess, EsriShape.keep, EsriShape.geom, shapeEvs,
      Geom.events, run, hm, Bool.false_eq_true, if_false, List.length_append, partStarts_length, List.length_cons, List.length_nil,
      Nat.zero_add, Nat.add_sub_cancel]
    simp only [bind_eq, run_call_bind, hw]
    rw [run_bind_ok this]
    simp [bracket]
  | polygon ps =>
    have hg := (groupRings_grouped (innerRing ar) ps).1
    have := run_shpPolygons hc env [] (groupRings (innerRing ar) ps) 0 hg bs
    have hw := windows2_starts 0 (groupRings (innerRing ar) ps)
    rw [Nat.zero_add, hg] at hw
    simp only [EsriShape.collected, ShpShape.process, shpProcess, EsriShape.keep, EsriShape.geom, shapeEvs,
      Geom.events, run, hm, if_true, detectPolys_eq, groupRings_map _ _ (innerRing_keep ar env.dims)]
    have he : (fun r : List Coord => ringInner ar (r.map toXY)) = innerRing ar := rfl
    simp only [he, bind_eq, run_call_bind, hw]
    simp only [List.flatten_nil, List.length_nil] at this
    rw [run_bind_ok this]
    simp [bracket]

theorem run_readShape (ar : ShpArith) (env : Env) (num : Int) (d : EsriDim) (hasM : Bool) (x : EsriExtent) (s : EsriShape)
    (hn : isI32 num) (hv : s.Valid d hasM) (hlt : (s.content d hasM x).length < 2 ^ 31)
    (hm : env.multi = (env.dims.z || env.dims.m)) (rest : List Byte) :
    run env (readShape ar) (s.record num d hasM x ++ rest) =
      ((shapeEvs env.multi ((s.keep env.dims).geom (innerRing ar))).map FEv.geom, .ok (s.words d hasM x, rest)) := by
  unfold readShape
  have h1 := run_lift env readShpRecord (s.record num d hasM x ++ rest)
  rw [run_readShpRecord env.multi num d hasM x s hn hv hlt rest] at h1
  rw [run_bind_ok h1, run_bind_ok (run_process ar env d hasM s hv hm rest)]
  simp

end Geozero
