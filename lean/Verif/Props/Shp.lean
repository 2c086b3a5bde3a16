import Verif.Lemmas.ShpFile
import Verif.Lemmas.F64Int

/-
Properties C40, C41, C42, C51 and part of C27: shapefiles.
-/

namespace Geozero
open Spec

/-! ### an arithmetic for the examples: integers in the range of `i32` -/

/-- an operation on integers as an operation on `f64` -/
def i32Op (f : Int → Int → Int) (x y : F64) : F64 := F64.ofI32 (Int32.ofInt (f x.toI32.toInt y.toI32.toInt))

/-- arithmetic that is exact on integers below `2 ^ 31` -/
def i32Arith : ShpArith := { sub := i32Op (· - ·), add := i32Op (· + ·), mul := i32Op (· * ·), half := id, start := 0#64 }

theorem F64.lt_zero_of_isInt {x : F64} {a : Int} (h : x.IsInt a) : F64.lt x F64.zero = decide (a < 0) := by
  have hn := F64.not_nan_of_bexp h.1
  have hz : F64.zero.isNaN = false := by decide
  have hk : F64.zero.key = 0 := by decide
  unfold F64.lt
  rw [hn, hz, hk]
  simp only [Bool.not_false, Bool.true_and, decide_eq_decide]
  by_cases ha : a = 0
  · subst ha
    rcases F64.isInt_zero h with rfl | rfl
    · decide
    · decide
  · have hb := h.normal ha
    obtain ⟨_, _, h3⟩ := h
    unfold F64.neg at h3
    unfold F64.bexp at hb
    unfold F64.key
    have := x.isLt
    by_cases hs : 2 ^ 63 ≤ x.toNat
    · rw [if_neg (by omega)]
      simp only [hs, decide_true, if_true] at h3
      omega
    · rw [if_pos (by omega)]
      simp only [hs, decide_false, Bool.false_eq_true, if_false] at h3
      omega

theorem i32Op_exact (f : Int → Int → Int) (x y : F64) (a b : Int) (hx : x.IsInt a) (hy : y.IsInt b)
    (ha : a.natAbs ≤ 2 ^ 31 - 1) (hb : b.natAbs ≤ 2 ^ 31 - 1) (hf : (f a b).natAbs ≤ 2 ^ 31 - 1) :
    (i32Op f x y).IsInt (f a b) := by
  unfold i32Op
  rw [hx.truncTo.toI32 (by unfold InI32; omega), hy.truncTo.toI32 (by unfold InI32; omega)]
  have := F64.isInt_ofI32 (Int32.ofInt (f a b))
  rwa [Int32.toInt_ofInt_of_le (by omega) (by omega)] at this

/-- the hypothesis of the orientation theorem can be met -/
theorem i32Arith_exact : i32Arith.ExactTo (2 ^ 31 - 1) where
  sub x y a b hx hy ha hb h := i32Op_exact (· - ·) x y a b hx hy ha hb h
  add x y a b hx hy ha hb h := i32Op_exact (· + ·) x y a b hx hy ha hb h
  mul x y a b hx hy ha hb h := i32Op_exact (· * ·) x y a b hx hy ha hb h
  half x a hx _ := F64.lt_zero_of_isInt hx
  start := ⟨by decide, by decide +kernel, by decide⟩

/-! ### C41: records -/

/-- Reading a well-formed record of a null, point, multipoint, polyline or polygon shape in any variant delivers exactly
the calls of the geometry the shape stands for, with the z and m values the processor asks for, and leaves exactly what
follows the record.  The processor is one whose `multi_dim` tells whether it wants z or m. -/
theorem C41_record (ar : ShpArith) (env : FProg.Env) (i : EsriItem) (h : i.Ok) (hm : env.multi = (env.dims.z || env.dims.m))
    (rest : List Byte) :
    ∃ g, Denotes (innerRing ar) (i.shape.keep env.dims) g ∧
      FProg.run env (readShape ar) (i.bytes ++ rest) =
        ((shapeEvs env.multi g).map FEv.geom, .ok (i.shape.words i.dim i.hasM i.ext, rest)) :=
  ⟨_, denotes_geom _ _, run_item ar env i h hm rest⟩

/-- A shape stands for one geometry only. -/
theorem C41_unique (inner : List Coord → Bool) (s : EsriShape) (g g' : Option Geom) (h : Denotes inner s g)
    (h' : Denotes inner s g') : g = g' := by
  rw [denotes_unique inner s g h, denotes_unique inner s g' h']

/-- For a processor that wants z and m nothing is dropped. -/
theorem C41_keep_all (s : EsriShape) (dims : Dims) (hz : dims.z = true) (hm : dims.m = true) : s.keep dims = s := by
  have hc : Coord.keep dims = id := by
    funext c
    simp [Coord.keep, hz, hm]
  cases s <;> simp [EsriShape.keep, hc]

/-- a coordinate without z and m -/
def exPt (x y : F64) : Coord := { x, y }

def exExtent : EsriExtent := { box := (1#64, 2#64, 3#64, 4#64), zRange := (5#64, 6#64), mRange := (7#64, 8#64) }

/-- a polygon with z and m: two parts of four points -/
def exItem : EsriItem :=
  { num := 1, dim := .z, hasM := true, ext := exExtent
    shape := .polygon
      [[⟨0#64, 0#64, some 1#64, some 2#64⟩, ⟨0#64, 10#64, some 1#64, some 2#64⟩,
        ⟨10#64, 0#64, some 1#64, some 2#64⟩, ⟨0#64, 0#64, some 1#64, some 2#64⟩],
       [⟨1#64, 1#64, some 3#64, some 4#64⟩, ⟨2#64, 1#64, some 3#64, some 4#64⟩,
        ⟨1#64, 2#64, some 3#64, some 4#64⟩, ⟨1#64, 1#64, some 3#64, some 4#64⟩]] }

theorem exItem_ok : exItem.Ok where
  num := by decide
  valid := ⟨by decide, by decide, by decide, by intro c hc; cases hc⟩
  size := by
    have : (exItem.shape.content exItem.dim exItem.hasM exItem.ext).length = 340 := by decide +kernel
    omega

example (ar : ShpArith) (rest : List Byte) :
    ∃ g, Denotes (innerRing ar) exItem.shape g ∧
      (FProg.run { multi := true, dims := { z := true, m := true } } (readShape ar) (exItem.bytes ++ rest)).1 =
        (shapeEvs true g).map FEv.geom := by
  obtain ⟨g, h1, h2⟩ := C41_record ar { multi := true, dims := { z := true, m := true } } exItem exItem_ok rfl rest
  rw [C41_keep_all _ _ rfl rfl] at h1
  exact ⟨g, h1, by rw [h2]⟩

example : EsriItem.Ok { num := 7, dim := .m, hasM := false, ext := exExtent, shape := .multiPoint [exPt 1#64 2#64] } :=
  ⟨by decide, ⟨by decide, by decide, by decide, by intro c hc; cases hc⟩, by decide +kernel⟩

/-! ### C40: rings -/

/-- The rings of a polygon record, with the z and m values the processor asks for, are delivered as a multi polygon whose
polygons partition them: each ring once, in order, a new polygon at the first ring and at every outer ring. -/
theorem C40_grouping (ar : ShpArith) (env : FProg.Env) (num : Int) (d : EsriDim) (hasM : Bool) (x : EsriExtent)
    (rings : List (List Coord)) (h : EsriItem.Ok { num, dim := d, hasM, ext := x, shape := .polygon rings })
    (hm : env.multi = (env.dims.z || env.dims.m)) (rest : List Byte) :
    ∃ polygons, Grouped (innerRing ar) (rings.map (List.map (Coord.keep env.dims))) polygons ∧
      (FProg.run env (readShape ar) ((EsriShape.polygon rings).record num d hasM x ++ rest)).1 =
        ((Geom.multiPolygon polygons).events env.multi 0).map FEv.geom := by
  obtain ⟨g, h1, h2⟩ := C41_record ar env _ h hm rest
  simp only [EsriShape.keep] at h1
  cases h1 with
  | polygon _ groups hg => exact ⟨groups, hg, by rw [EsriItem.bytes] at h2; rw [h2]; rfl⟩

/-- There is only one way to partition rings like this. -/
theorem C40_unique {α : Type} (inner : α → Bool) (rings : List α) (p q : List (List α)) (hp : Grouped inner rings p)
    (hq : Grouped inner rings q) : p = q := by
  rw [grouped_unique inner rings p hp, grouped_unique inner rings q hq]

/-- No ring is lost: as many rings are delivered as the record has. -/
theorem C40_count {α : Type} (inner : α → Bool) (rings : List α) (p : List (List α)) (hp : Grouped inner rings p) :
    (p.map List.length).sum = rings.length := by
  rw [← hp.1, List.length_flatten]

/-- An outer ring followed by its holes is one polygon. -/
theorem C40_one_polygon {α : Type} (inner : α → Bool) (outer : α) (holes : List α) (h : ∀ r ∈ holes, inner r) :
    Grouped inner (outer :: holes) [outer :: holes] := by
  simpa [Grouped] using h

/-- Outer rings only: a polygon for each. -/
theorem C40_outer_rings {α : Type} (inner : α → Bool) (rings : List α) (h : ∀ r ∈ rings, ¬ inner r) :
    Grouped inner rings (rings.map fun r => [r]) := by
  refine ⟨by simp [← List.flatMap_def], ?_, ?_⟩
  · intro g hg
    obtain ⟨r, _, rfl⟩ := List.mem_map.mp hg
    simp
  · intro g hg r hr
    obtain ⟨r', hr', rfl⟩ := List.mem_map.mp (List.mem_of_mem_tail hg)
    simp only [List.head?_cons, Option.mem_def, Option.some.injEq] at hr
    exact hr ▸ h r' hr'

/-- Every orientation pattern has a partition. -/
theorem C40_exists {α : Type} (inner : α → Bool) (rings : List α) : ∃ p, Grouped inner rings p :=
  ⟨_, groupRings_grouped inner rings⟩

example : Grouped (fun n => n % 2 = 1) [1, 3, 2, 5, 7, 4, 6, 9] [[1, 3], [2, 5, 7], [4], [6, 9]] := by
  simp [Grouped]

example (ar : ShpArith) (rest : List Byte) :
    ∃ polygons, Grouped (innerRing ar) [[exPt 0#64 0#64], [exPt 1#64 0#64, exPt 1#64 0#64]] polygons ∧
      (FProg.run {} (readShape ar) ((EsriShape.polygon [[exPt 0#64 0#64], [exPt 1#64 0#64, exPt 1#64 0#64]]).record 1
        .xy false exExtent ++ rest)).1 = ((Geom.multiPolygon polygons).events false 0).map FEv.geom :=
  C40_grouping ar {} 1 .xy false exExtent [[exPt 0#64 0#64], [exPt 1#64 0#64, exPt 1#64 0#64]]
    ⟨by decide, ⟨by decide, by decide, by decide, by intro c hc; cases hc⟩, by decide +kernel⟩ rfl rest

/-! #### orientation -/

/-- the sum the reader computes, on integers -/
def trapezoids : List (Int × Int) → Int
  | (x0, y0) :: (x1, y1) :: rest => (x1 - x0) * (y1 + y0) + trapezoids ((x1, y1) :: rest)
  | _ => 0

theorem trapezoids_eq (p : Int × Int) (ps : List (Int × Int)) :
    trapezoids (p :: ps) =
      ((p :: ps).getLast (by simp)).1 * ((p :: ps).getLast (by simp)).2 - p.1 * p.2 - twiceArea (p :: ps) := by
  induction ps generalizing p with
  | nil => obtain ⟨x, y⟩ := p; simp [trapezoids, twiceArea]
  | cons q ps ih =>
    obtain ⟨x0, y0⟩ := p
    obtain ⟨x1, y1⟩ := q
    simp only [trapezoids, twiceArea, ih, List.getLast_cons_cons]
    grind

/-- points of a ring and the integers they stand for -/
def IntRing (K : Nat) (ps : List XY) (ns : List (Int × Int)) : Prop :=
  ps.length = ns.length ∧ ∀ k (h : k < ps.length) (h' : k < ns.length),
    ps[k].x.IsInt ns[k].1 ∧ ps[k].y.IsInt ns[k].2 ∧ ns[k].1.natAbs ≤ K ∧ ns[k].2.natAbs ≤ K

theorem IntRing.cons {K : Nat} {p : XY} {ps : List XY} {n : Int × Int} {ns : List (Int × Int)}
    (h : IntRing K (p :: ps) (n :: ns)) :
    (p.x.IsInt n.1 ∧ p.y.IsInt n.2 ∧ n.1.natAbs ≤ K ∧ n.2.natAbs ≤ K) ∧ IntRing K ps ns := by
  refine ⟨h.2 0 (by simp) (by simp), by simpa using h.1, ?_⟩
  intro k h1 h2
  exact h.2 (k + 1) (by simpa using h1) (by simpa using h2)

theorem fold_terms {ar : ShpArith} {B K : Nat} (har : ar.ExactTo B) (ps : List XY) (ns : List (Int × Int))
    (hr : IntRing K ps ns) (acc : F64) (a : Int) (hacc : acc.IsInt a) (hB : a.natAbs + 4 * K * K * ps.length ≤ B) :
    ((ringTerms ar ps).foldl ar.add acc).IsInt (a + trapezoids ns) ∧ (a + trapezoids ns).natAbs ≤ B := by
  induction ps generalizing ns acc a with
  | nil =>
    cases ns with
    | nil => simp only [ringTerms, trapezoids, List.foldl_nil, Int.add_zero]; exact ⟨hacc, by omega⟩
    | cons n ns => exact absurd hr.1 (by simp)
  | cons p ps ih =>
    cases ns with
    | nil => exact absurd hr.1 (by simp)
    | cons n ns =>
      cases ps with
      | nil =>
        have : ns = [] := by
          have := hr.1
          simpa [eq_comm] using this
        subst this
        simp only [ringTerms, trapezoids, List.foldl_nil, Int.add_zero]
        exact ⟨hacc, by omega⟩
      | cons q qs =>
        cases ns with
        | nil => exact absurd hr.1 (by simp)
        | cons m ms =>
          obtain ⟨⟨h1, h2, h3, h4⟩, hr'⟩ := hr.cons
          obtain ⟨⟨h5, h6, h7, h8⟩, _⟩ := hr'.cons
          have hK : K ≤ 4 * K * K := by
            rcases Nat.eq_zero_or_pos K with rfl | h
            · simp
            · have := Nat.mul_le_mul_left K (show 1 ≤ 4 * K by omega)
              rw [Nat.mul_one, Nat.mul_comm] at this
              exact this
          have h2K : 2 * K ≤ 4 * K * K := by
            rcases Nat.eq_zero_or_pos K with rfl | h
            · simp
            · have := Nat.mul_le_mul_left (4 * K) h
              omega
          simp only [List.length_cons, Nat.mul_add, Nat.mul_one] at hB ih
          have hs := har.sub q.x p.x m.1 n.1 h5 h1 (by omega) (by omega) (by omega)
          have ha := har.add q.y p.y m.2 n.2 h6 h2 (by omega) (by omega) (by omega)
          have hprod : ((m.1 - n.1) * (m.2 + n.2)).natAbs ≤ 4 * K * K := by
            rw [Int.natAbs_mul]
            calc (m.1 - n.1).natAbs * (m.2 + n.2).natAbs ≤ (2 * K) * (2 * K) := Nat.mul_le_mul (by omega) (by omega)
              _ = 4 * K * K := by rw [Nat.mul_mul_mul_comm, ← Nat.mul_assoc]
          have hm := har.mul _ _ _ _ hs ha (by omega) (by omega) (by omega)
          have hsum := har.add acc _ a _ hacc hm (by omega) (by omega) (by omega)
          have := ih (m :: ms) hr' _ _ hsum (by omega)
          obtain ⟨x0, y0⟩ := n
          obtain ⟨x1, y1⟩ := m
          simp only [ringTerms, trapezoids, List.foldl_cons]
          rw [← Int.add_assoc]
          exact this

/-- The orientation test is right on closed rings of integer coordinates: with coordinates up to `K` and an arithmetic
exact up to `4 K² n` for a ring of `n` points (IEEE-754: `2 ^ 53`), the ring counts as inner if and only if it is
counterclockwise, i.e. its area by the shoelace formula is positive. -/
theorem C40_orientation (ar : ShpArith) (B K : Nat) (har : ar.ExactTo B) (ring : List Coord) (ns : List (Int × Int))
    (hr : IntRing K (ring.map fun c => ⟨c.x, c.y⟩) ns) (hclosed : ns.head? = ns.getLast?)
    (hB : 4 * K * K * ring.length ≤ B) : innerRing ar ring = decide (0 < twiceArea ns) := by
  unfold innerRing ringInner
  obtain ⟨h1, h2⟩ := fold_terms har _ ns hr ar.start 0 har.start (by simpa using hB)
  rw [har.half _ _ h1 h2, decide_eq_decide, Int.zero_add]
  cases ns with
  | nil => simp [trapezoids, twiceArea]
  | cons n ns =>
    have hl : n = (n :: ns).getLast (by simp) := by
      rw [List.head?_cons, List.getLast?_eq_some_getLast (by simp)] at hclosed
      exact Option.some.inj hclosed
    rw [trapezoids_eq, ← hl]
    omega

/-- a coordinate of small integers -/
def exInt (x y : Int32) : Coord := exPt (F64.ofI32 x) (F64.ofI32 y)

/-- a clockwise square and a counterclockwise hole -/
def exOuter : List Coord := [exInt 0 0, exInt 0 10, exInt 10 10, exInt 10 0, exInt 0 0]
def exHole : List Coord := [exInt 1 1, exInt 2 1, exInt 2 2, exInt 1 2, exInt 1 1]

theorem exInt_ring (K : Nat) (ps : List (Int32 × Int32)) (h : ∀ p ∈ ps, p.1.toInt.natAbs ≤ K ∧ p.2.toInt.natAbs ≤ K) :
    IntRing K ((ps.map fun p => exInt p.1 p.2).map fun c => ⟨c.x, c.y⟩) (ps.map fun p => (p.1.toInt, p.2.toInt)) := by
  refine ⟨by simp, ?_⟩
  intro k h1 h2
  simp only [List.getElem_map]
  refine ⟨F64.isInt_ofI32 _, F64.isInt_ofI32 _, ?_⟩
  exact h _ (List.getElem_mem _)

example : innerRing i32Arith exOuter = false ∧ innerRing i32Arith exHole = true := by
  constructor
  · have := C40_orientation i32Arith (2 ^ 31 - 1) 10 i32Arith_exact exOuter _
      (exInt_ring 10 [(0, 0), (0, 10), (10, 10), (10, 0), (0, 0)] (by decide)) (by decide) (by decide)
    rw [this]; decide
  · have := C40_orientation i32Arith (2 ^ 31 - 1) 10 i32Arith_exact exHole _
      (exInt_ring 10 [(1, 1), (2, 1), (2, 2), (1, 2), (1, 1)] (by decide)) (by decide) (by decide)
    rw [this]; decide

/-! ### C42: hostile records -/

/-- A record with a sane size, sane counts and a sane part table is read without panicking, whatever its coordinates, its
other bytes, where it is cut off, and whatever the processor (one that does not itself panic) answers.  Missing from the
full property: records that are not sane (see `C42_no_panic_false`). -/
theorem C42_no_panic_partial {σ : Type} (ar : ShpArith) (P : FProc σ)
    (hP : ∀ s e x, P.step s e = .error x → x.isPanic = false) (s : σ) (bs : List Byte) (hs : SaneRecord bs) (x : Err)
    (h : (FProg.interp P (readShape ar) s bs).2.2 = .error x) : x.isPanic = false := by
  have hd := Dec.record (F := fun e => e.isPanic = false) (multi := P.multi s) rfl rfl rfl bs (Or.inr hs)
  unfold Dec at hd
  rcases hr : Prog.run (P.multi s) readShpRecord bs with ⟨evs, r⟩
  rw [hr] at hd
  unfold readShape at h
  cases r with
  | error e =>
    obtain ⟨rfl, he⟩ := hd
    rw [FProg.interp_bind, FProg.interp_lift_silent P _ s bs _ hr] at h
    cases h
    exact he
  | ok ab =>
    obtain ⟨r, rest⟩ := ab
    obtain ⟨rfl, hg, _⟩ := hd
    rw [FProg.interp_bind, FProg.interp_lift_silent P _ s bs _ hr] at h
    have hn : FProg.NoPanic (FProg.bind (r.2.process ar) fun _ => .ret r.1) :=
      (noPanic_process ar r.2 (hg hs)).bind fun _ => trivial
    exact hn.sound P hP s rest x h

/-- A record that is read successfully has at least its header and type; if it is not a null shape, exactly the declared
number of bytes was read: any other declared size is rejected.  Whatever the bytes and the processor. -/
theorem C42_declared_size_partial {σ : Type} (ar : ShpArith) (P : FProc σ) (s : σ) (bs : List Byte) (words : Int)
    (rest : List Byte) (h : (FProg.interp P (readShape ar) s bs).2.2 = .ok (words, rest)) :
    12 ≤ bs.length ∧ words = i32At .be 4 bs ∧
      (i32At .le 8 bs ≠ 0 → ∃ n : Nat, words = n ∧ 8 + 2 * n ≤ bs.length ∧ rest = bs.drop (8 + 2 * n)) ∧
      (i32At .le 8 bs = 0 → rest = bs.drop 12) := by
  have hd := Dec.record (F := fun _ => True) (multi := P.multi s) trivial trivial trivial bs (Or.inl fun _ => trivial)
  unfold Dec at hd
  rcases hr : Prog.run (P.multi s) readShpRecord bs with ⟨evs, r⟩
  rw [hr] at hd
  unfold readShape at h
  cases r with
  | error e =>
    obtain ⟨rfl, _⟩ := hd
    rw [FProg.interp_bind, FProg.interp_lift_silent P _ s bs _ hr] at h
    cases h
  | ok ab =>
    obtain ⟨r, rest'⟩ := ab
    obtain ⟨rfl, _, h1, h2, h3, h4⟩ := hd
    rw [FProg.interp_bind, FProg.interp_lift_silent P _ s bs _ hr] at h
    simp only at h
    have hrest : words = r.1 ∧ rest = rest' := noRead_eq ar P r s rest' words rest h
    obtain ⟨rfl, rfl⟩ := hrest
    refine ⟨h2, h1, ?_, h4⟩
    rw [h1]
    exact h3

/-- the record header and the type of a record -/
def exHead (words typeCode : Int) : List Byte := encI32 .be 1 ++ encI32 .be words ++ encI32 .le typeCode

example : SaneRecord exItem.bytes := by
  refine ⟨fun _ => by decide +kernel, fun _ h => absurd h (by decide +kernel), fun _ _ => by decide +kernel, ?_⟩
  intro n _ _ hn _
  have h2 : i32At .le 44 exItem.bytes = (2 : Nat) := by decide +kernel
  rw [h2] at hn
  have : n = 2 := by omega
  subst this
  decide +kernel

/-- a polyline record cut off inside its part table is sane -/
example : SaneRecord (exHead 100 3 ++ boxBytes exExtent ++ encI32 .le 9 ++ encI32 .le 40 ++ encI32 .le 0) := by
  refine ⟨fun _ => by decide +kernel, fun _ h => absurd h (by decide +kernel), fun _ _ => by decide +kernel, ?_⟩
  intro n _ _ hn hl
  have h2 : i32At .le 44 (exHead 100 3 ++ boxBytes exExtent ++ encI32 .le 9 ++ encI32 .le 40 ++ encI32 .le 0) = (9 : Nat) := by
    decide +kernel
  have h3 : (exHead 100 3 ++ boxBytes exExtent ++ encI32 .le 9 ++ encI32 .le 40 ++ encI32 .le 0).length = 56 := by
    decide +kernel
  rw [h2] at hn
  omega

/-- whether a run ends in a panic -/
def panics {α : Type} (r : List FEv × Except Err (α × List Byte)) : Bool :=
  match r.2 with
  | .error e => e.isPanic
  | .ok _ => false

/-- The reader does panic on some records, whatever the arithmetic: a part that begins after the next one begins, a part
that ends after the last point, a negative number of parts, a declared content length of zero, one that does not fit. -/
theorem C42_no_panic_false (ar : ShpArith) :
    panics (FProg.run {} (readShape ar) (exHead 34 3 ++ boxBytes exExtent ++ encI32 .le 2 ++ encI32 .le 1 ++
      encI32 .le 1 ++ encI32 .le 0 ++ f64Bytes [1#64, 2#64])) = true ∧
    panics (FProg.run {} (readShape ar) (exHead 34 3 ++ boxBytes exExtent ++ encI32 .le 2 ++ encI32 .le 1 ++
      encI32 .le 0 ++ encI32 .le 5 ++ f64Bytes [1#64, 2#64])) = true ∧
    panics (FProg.run {} (readShape ar) (exHead 24 5 ++ boxBytes exExtent ++ encI32 .le (-1) ++ encI32 .le 0)) = true ∧
    panics (FProg.run {} (readShape ar) (exHead 0 1)) = true ∧
    panics (FProg.run {} (readShape ar) (exHead (2 ^ 30) 1)) = true := by
  refine ⟨?_, ?_, ?_, ?_, ?_⟩ <;> rfl

/-- A null shape is accepted with any declared size; what it declares beyond the type is not read, so that the next record is
looked for at the wrong place. -/
theorem C42_declared_size_false (ar : ShpArith) :
    FProg.run {} (readShape ar) (exHead 6 0 ++ List.replicate 8 7) = ([], .ok (6, List.replicate 8 7)) := by
  rfl

/-- Reading the file header never panics and makes no calls. -/
theorem C42_header_never_panics (multi : Bool) (bs : List Byte) (x : Err)
    (h : (Prog.run multi readShpHeader bs).2 = .error x) : x.isPanic = false := by
  have hd : Dec (fun e => e.isPanic = false) multi readShpHeader bs (fun _ _ => True) := by
    unfold readShpHeader readShpType
    refine Dec.bind (R := fun _ _ => True) (Dec.readI32 (F := fun e => e.isPanic = false) rfl fun _ => trivial) fun c rest _ => ?_
    split
    · exact Dec.fail rfl
    · refine Dec.bind (R := fun _ _ => True) (Dec.readN (F := fun e => e.isPanic = false) rfl fun _ => trivial) fun _ rest _ => ?_
      refine Dec.bind (R := fun _ _ => True) (Dec.readI32 (F := fun e => e.isPanic = false) rfl fun _ => trivial) fun _ rest _ => ?_
      refine Dec.bind (R := fun _ _ => True) (Dec.readI32 (F := fun e => e.isPanic = false) rfl fun _ => trivial) fun _ rest _ => ?_
      refine Dec.bind (R := fun _ _ => True) ?_ fun _ rest _ => ?_
      · refine Dec.bind (R := fun _ _ => True) (Dec.readI32 (F := fun e => e.isPanic = false) rfl fun _ => trivial) fun v rest _ => ?_
        cases ShpType.fromCode v with
        | none => exact Dec.fail rfl
        | some t => exact Dec.ret trivial
      · exact Dec.bind (R := fun _ _ => True) (Dec.readF64List (F := fun e => e.isPanic = false) rfl fun _ _ _ => trivial) fun _ rest _ => Dec.ret trivial
  unfold Dec at hd
  rcases hr : Prog.run multi readShpHeader bs with ⟨evs, r⟩
  rw [hr] at hd h
  cases h
  exact hd.2

/-- A file whose code is not 9994 is rejected, whatever follows: by the header, by both iterations and by the index reader. -/
theorem C42_file_code (ar : ShpArith) (env : FProg.Env) (code : Int) (hc : isI32 code) (hne : code ≠ 9994) (rest : List Byte)
    (rows : List (Except Err ShpRow)) :
    Prog.run env.multi readShpHeader (encI32 .be code ++ rest) = ([], .error (.shp "InvalidFileCode")) ∧
    FProg.run env (shpGeometries ar) (encI32 .be code ++ rest) = ([], .error (.shp "InvalidFileCode")) ∧
    FProg.run env (shpFeatures ar rows) (encI32 .be code ++ rest) = ([], .error (.shp "InvalidFileCode")) ∧
    Prog.run env.multi readIndexFile (encI32 .be code ++ rest) = ([], .error (.shp "InvalidFileCode")) := by
  have h : Prog.run env.multi readShpHeader (encI32 .be code ++ rest) = ([], .error (.shp "InvalidFileCode")) := by
    unfold readShpHeader
    simp only [Prog.bind_eq]
    rw [Prog.run_bind_ok_nil (Prog.run_readI32 env.multi .be code rest hc), if_pos hne]
    rfl
  refine ⟨h, ?_, ?_, ?_⟩
  · exact FProg.run_bind_err (by rw [FProg.run_lift, h]; rfl)
  · exact FProg.run_bind_err (by rw [FProg.run_lift, h]; rfl)
  · exact Prog.run_bind_err h

example : isI32 9995 ∧ (9995 : Int) ≠ 9994 := by decide

/-- an index file (ESRI description, page 23): header and one entry of offset and content length per record -/
def EsriIndex (entries : List (Int × Int)) (version typeCode : Int) (unused : List Byte) (box : List F64) : List Byte :=
  EsriHeader (50 + 4 * entries.length) version typeCode unused box ++
    entries.flatMap fun e => encI32 .be e.1 ++ encI32 .be e.2

/-- A well-formed index file is read completely: exactly its entries, in order, and nothing else is consumed. -/
theorem C51_index_file (multi : Bool) (entries : List (Int × Int)) (version typeCode : Int)
    (unused : List Byte) (box : List F64) (rest : List Byte) (hv : isI32 version) (htc : typeCode ∈ shapeCodes)
    (hu : unused.length = 20) (hb : box.length = 8) (hl : 50 + 4 * entries.length < 2 ^ 30)
    (he : ∀ e ∈ entries, isI32 e.1 ∧ isI32 e.2) :
    Prog.run multi readIndexFile (EsriIndex entries version typeCode unused box ++ rest) = ([], .ok (entries, rest)) := by
  have key : ∀ (es : List (Int × Int)), (∀ e ∈ es, isI32 e.1 ∧ isI32 e.2) →
      Prog.run multi (readIndexEntries es.length) ((es.flatMap fun e => encI32 .be e.1 ++ encI32 .be e.2) ++ rest) =
        ([], .ok (es, rest)) := by
    intro es
    induction es with
    | nil => intro _; rfl
    | cons e es ih =>
      intro h
      obtain ⟨h1, h2⟩ := h e (by simp)
      simp only [List.length_cons, readIndexEntries, List.flatMap_cons, List.append_assoc, Prog.bind_eq]
      rw [Prog.run_bind_ok_nil (Prog.run_readI32 multi .be e.1 _ h1), Prog.run_bind_ok_nil (Prog.run_readI32 multi .be e.2 _ h2),
        Prog.run_bind_ok_nil (ih fun e he => h e (by simp [he]))]
      rfl
  obtain ⟨t, ht⟩ := ShpType.fromCode_of_mem htc
  unfold readIndexFile EsriIndex
  simp only [Prog.bind_eq, List.append_assoc]
  rw [Prog.run_bind_ok_nil (run_readShpHeader multi _ version typeCode t unused box _ (by unfold isI32; omega) hv ht hu hb)]
  have hd : doubleI32 (50 + 4 * (entries.length : Int)) = .ret (100 + 8 * (entries.length : Int)) := by
    unfold doubleI32
    rw [if_pos (by omega)]
    congr 1
    omega
  have hdiv : (100 + 8 * (entries.length : Int) - 100).tdiv 8 = entries.length := by
    rw [show 100 + 8 * (entries.length : Int) - 100 = 8 * entries.length by omega]
    rw [Int.mul_tdiv_cancel_left _ (by decide)]
  simp only [hd, Prog.ret_bind, hdiv]
  rw [if_neg (by omega), if_neg (by unfold i32AsUsize; omega)]
  simpa using key entries he

example : 1 ∈ shapeCodes ∧ (List.replicate 20 (0 : Byte)).length = 20 ∧
    (∀ e ∈ [((50 : Int), (10 : Int)), (64, 10)], isI32 e.1 ∧ isI32 e.2) := ⟨by decide, rfl, by decide⟩

/-- The header is accepted with a file length whose double does not fit an `i32`; iterating over the shapes then panics.
So does reading an index file whose header declares a length of zero. -/
theorem C42_file_length_false (ar : ShpArith) :
    panics (FProg.run {} (shpGeometries ar) (EsriHeader (2 ^ 30) 1000 1 (List.replicate 20 0) (List.replicate 8 0#64))) = true ∧
    panics (FProg.run {} (FProg.lift readIndexFile)
      (EsriHeader 0 1000 1 (List.replicate 20 0) (List.replicate 8 0#64))) = true := by
  constructor <;> rfl

/-- Iterating over the shapes of any file, with any processor, ends: `next` is called at most as often as the file is long,
then it has returned `None` or an error.  (More calls allowed, same behaviour.) -/
theorem C51_terminates (ar : ShpArith) (len n : Nat) (h : len + 1 ≤ n) :
    shapesLoop ar len n 100 = shapesLoop ar len (len + 1) 100 := by
  have key : ∀ k a b pos, len - pos ≤ k → k < a → k < b → shapesLoop ar len a pos = shapesLoop ar len b pos := by
    intro k
    induction k with
    | zero =>
      intro a b pos hk ha hb
      obtain ⟨a, rfl⟩ : ∃ c, a = c + 1 := ⟨a - 1, by omega⟩
      obtain ⟨b, rfl⟩ : ∃ c, b = c + 1 := ⟨b - 1, by omega⟩
      have : len ≤ pos := by omega
      simp only [shapesLoop, shapeNext, this, if_true, FProg.ret_bind]
    | succ k ih =>
      intro a b pos hk ha hb
      obtain ⟨a, rfl⟩ : ∃ c, a = c + 1 := ⟨a - 1, by omega⟩
      obtain ⟨b, rfl⟩ : ∃ c, b = c + 1 := ⟨b - 1, by omega⟩
      simp only [shapesLoop]
      have hret : FProg.Ret (fun r => ∀ p, r = some p → pos < p) (shapeNext ar len pos) := by
        unfold shapeNext
        split
        · intro p hp; cases hp
        · refine (FProg.Ret.triv _).bind fun w _ => ?_
          refine FProg.Ret.bind (Q := fun p => pos < p) ?_ fun p hp q hq => by cases hq; exact hp
          unfold advance usizeOk
          split
          · show pos < pos + 8 + _; omega
          · trivial
      refine hret.congr fun r hr => ?_
      cases r with
      | none => rfl
      | some p => have := hr p rfl; exact ih a b p (by omega) (by omega) (by omega)
  exact key len n (len + 1) 100 (by omega) (by omega) (by omega)

/-! ### C51: whole files -/

theorem denoteAll_geom (inner : List Coord → Bool) (ss : List EsriShape) :
    DenoteAll inner ss (ss.map (EsriShape.geom inner)) := by
  induction ss with
  | nil => trivial
  | cons s ss ih => exact ⟨denotes_geom inner s, ih⟩

/-- Iterating over the geometries of a well-formed file delivers the geometries of all its shapes, in order, and
nothing else, and reads the file to its end. -/
theorem C51_geometries (ar : ShpArith) (env : FProg.Env) (hm : env.multi = (env.dims.z || env.dims.m))
    (items : List EsriItem) (bs : List Byte) (h : EsriFile items bs) :
    ∃ gs, DenoteAll (innerRing ar) (items.map fun i => i.shape.keep env.dims) gs ∧
      FProg.run env (shpGeometries ar) bs = ((gs.flatMap (shapeEvs env.multi)).map FEv.geom, .ok ((), [])) := by
  refine ⟨_, denoteAll_geom _ _, ?_⟩
  rw [run_shpGeometries ar env hm items bs h]
  simp only [List.map_map, List.flatMap_map]
  rfl

/-- Iterating over the features of a well-formed file with rows `rows` delivers one dataset without a name, in it one
feature for each shape that has a row, in order: its properties are the non-null fields of the row (up to the one after
which the processor asks to stop), its geometry that of the shape. -/
theorem C51_features (ar : ShpArith) (env : FProg.Env) (hm : env.multi = (env.dims.z || env.dims.m))
    (rows : List ShpRow) (items : List EsriItem) (bs : List Byte) (h : EsriFile items bs) :
    ∃ gs, DenoteAll (innerRing ar) (items.map fun i => i.shape.keep env.dims) gs ∧
      (FProg.run env (shpFeatures ar (rows.map .ok)) bs).1 =
        datasetEvs none (List.zipWith
          (fun row g => { props := some (heard env.ans (rowProps row)), geom := some (shapeEvs env.multi g) }) rows gs) ∧
      (FProg.run env (shpFeatures ar (rows.map .ok)) bs).2.isOk := by
  refine ⟨_, denoteAll_geom _ _, ?_, ?_⟩
  · rw [run_shpFeatures ar env hm rows items bs h]
    simp only [List.map_map, List.zipWith_map_right]
    rfl
  · rw [run_shpFeatures ar env hm rows items bs h]
    rfl

/-- If there are as many rows as shapes, every shape becomes a feature. -/
theorem C51_all_features (ar : ShpArith) (env : FProg.Env) (hm : env.multi = (env.dims.z || env.dims.m))
    (rows : List ShpRow) (items : List EsriItem) (bs : List Byte) (h : EsriFile items bs) (hl : rows.length = items.length) :
    ((FProg.run env (shpFeatures ar (rows.map .ok)) bs).1.filter fun e => match e with | .ftEnd _ => true | _ => false).length
      = items.length ∧
    ∃ b, (FProg.run env (shpFeatures ar (rows.map .ok)) bs).2 = .ok (b, []) := by
  rw [run_shpFeatures ar env hm rows items bs h]
  refine ⟨?_, (), by simp [hl]⟩
  have hf : ∀ (fs : List Feat) n, ((featEvs n fs).filter fun e => match e with | .ftEnd _ => true | _ => false).length = fs.length := by
    intro fs
    induction fs with
    | nil => intro n; rfl
    | cons f fs ih =>
      intro n
      have h1 : ∀ es : List Ev, (es.map FEv.geom).filter (fun e => match e with | .ftEnd _ => true | _ => false) = [] := by
        intro es; simp [List.filter_eq_nil_iff]
      have h2 : ∀ ps : List PropRec, (propEvs ps).filter (fun e => match e with | .ftEnd _ => true | _ => false) = [] := by
        intro ps
        induction ps with
        | nil => rfl
        | cons p ps ih => simpa [propEvs] using ih
      have h3 : f.propsPart.filter (fun e => match e with | .ftEnd _ => true | _ => false) = [] := by
        unfold Feat.propsPart
        cases f.props <;> simp [h2]
      have h4 : f.geomPart.filter (fun e => match e with | .ftEnd _ => true | _ => false) = [] := by
        unfold Feat.geomPart
        cases f.geom <;> simp [h1]
      rw [featEvs, List.filter_append, List.length_append, ih (n + 1)]
      unfold Feat.evs
      cases f.geomFirst <;> simp [h3, h4] <;> omega
  simp only [datasetEvs, List.filter_cons, List.filter_append, List.length_append]
  simp [hf, List.length_zipWith, hl]

/-- a file with two shapes -/
def exFile : List Byte :=
  EsriHeader (50 + 4 + 170 + 4 + 10) 1000 15 (List.replicate 20 0) (List.replicate 8 0#64) ++
    ([exItem, { exItem with num := 2, dim := .xy, hasM := false, shape := .point (exPt 1#64 2#64) }].flatMap EsriItem.bytes)

theorem exFile_ok : EsriFile
    [exItem, { exItem with num := 2, dim := .xy, hasM := false, shape := .point (exPt 1#64 2#64) }] exFile where
  ok := by
    intro i hi
    simp only [List.mem_cons, List.not_mem_nil, or_false] at hi
    rcases hi with rfl | rfl
    · exact exItem_ok
    · exact ⟨by decide, ⟨by decide, by decide, by decide, by intro c _ hc; cases hc⟩, by decide +kernel⟩
  bytes := ⟨_, _, _, _, _, rfl, by decide, by decide, by decide, by decide, by decide +kernel⟩
  small := by
    have : exFile.length = 476 := by decide +kernel
    omega

example (ar : ShpArith) : ∃ b, (FProg.run { multi := true, dims := { z := true } }
    (shpFeatures ar (([[(txt "name", .logical (some true))], []] : List ShpRow).map .ok)) exFile).2 = .ok (b, []) :=
  (C51_all_features ar _ rfl _ _ _ exFile_ok rfl).2

/-- Shapes without a row are dropped without an error. -/
theorem C51_missing_rows_false (ar : ShpArith) : ∃ items bs, EsriFile items bs ∧ items.length = 2 ∧
    FProg.run {} (shpFeatures ar []) bs = ([.dsBegin none, .dsEnd], .ok ((), items.flatMap EsriItem.bytes)) :=
  ⟨_, _, exFile_ok, rfl, run_shpFeatures ar {} rfl [] _ _ exFile_ok⟩

/-! ### C27: order of calls -/

/-- Iterating over the features of a shapefile until `next` returns `None` or an error: whatever the bytes, the rows (also
errors), and the processor, the calls are in the documented order, and if there is no error they are a complete dataset. -/
theorem C27_shapefile (ar : ShpArith) (rows : List (Except Err ShpRow)) : (shpFeatures ar rows).FollowsContract := by
  apply FProg.follows_of_obeys
  unfold shpFeatures
  refine FProg.Obeys.bind (FProg.Obeys.silent Prog.NoEmit.readShpHeader .start) fun h t ht => ?_
  subst ht
  refine FProg.Obeys.bind (FProg.Obeys.silent (Prog.NoEmit.doubleI32 _) .start) fun len t ht => ?_
  subst ht
  generalize i32AsUsize len = len
  have hprops : ∀ ps n, FProg.Obeys (fun _ t => t = .props n false) (.props n false) (propsProg ps) := by
    intro ps n
    induction ps with
    | nil => rfl
    | cons p ps ih =>
      refine ⟨_, rfl, fun b => ?_⟩
      cases b with
      | true => rfl
      | false => exact ih
  have hfeat : ∀ n pos row, FProg.Obeys (fun _ t => t = .dataset (n + 1)) (.dataset n) (shpFeature ar n pos row) := by
    intro n pos row
    unfold shpFeature
    simp only [FProg.bind_eq]
    rw [C35_shape_record]
    refine ⟨.feature n false false, if_pos rfl, .props n false, rfl, ?_⟩
    simp only [FProg.ret_bind, FProg.bind]
    refine FProg.Obeys.bind (hprops _ n) fun _ t ht => ?_
    subst ht
    refine ⟨.feature n true false, rfl, .geom n true, rfl, ?_⟩
    simp only [FProg.ret_bind]
    refine FProg.Obeys.bind ((geomOnly_readShape ar).obeys n true) fun w t ht => ?_
    subst ht
    refine FProg.Obeys.bind (FProg.Obeys.lift _ n true) fun p t ht => ?_
    subst ht
    exact ⟨.feature n true true, rfl, .dataset (n + 1), if_pos rfl, rfl⟩
  have hloop : ∀ k n pos rows, FProg.Obeys (fun _ t => t = .done) (if n = 0 then .start else .dataset n)
      (featuresLoop ar len k { featno := n, pos, rows }) := by
    intro k
    induction k with
    | zero => intro n pos rows; trivial
    | succ k ih =>
      intro n pos rows
      unfold featuresLoop featureNext
      rw [FProg.bind_assoc]
      refine FProg.Obeys.bind (Q := fun _ t => t = .dataset n) ?_ fun _ t ht => ?_
      · unfold shpDatasetBegin
        by_cases hn : n = 0
        · subst hn; exact ⟨_, rfl, rfl⟩
        · simp only [hn, if_false]; rfl
      · subst ht
        simp only
        by_cases hl : len ≤ pos
        · rw [if_pos hl]
          exact ⟨_, rfl, rfl⟩
        · rw [if_neg hl]
          cases rows with
          | nil => exact ⟨_, rfl, rfl⟩
          | cons r rows =>
            cases r with
            | error e => trivial
            | ok row =>
              simp only
              rw [FProg.bind_assoc]
              refine FProg.Obeys.bind (hfeat n pos row) fun p t ht => ?_
              subst ht
              have := ih (n + 1) p rows
              simpa using this
  exact hloop _ 0 100 rows

example : CompleteDataset (FProg.interp (σ := Unit) { step := fun _ _ => .ok () }
    (shpFeatures i32Arith [.ok [], .ok []]) () exFile).2.1 := by
  refine (C27_shapefile i32Arith [.ok [], .ok []] Unit { step := fun _ _ => .ok () } () exFile).2 ?_
  decide +kernel

/-- Although the iterator is declared to be fused, calling `next` once more after it has returned `None` ends the dataset
a second time. -/
theorem C27_shapefile_after_end_false (ar : ShpArith) :
    ¬ PartialDataset (FProg.run {} (FProg.bind (featureNext ar 100 { featno := 0, pos := 100, rows := [] }) fun r =>
      match r with
      | none => FProg.bind (featureNext ar 100 { featno := 0, pos := 100, rows := [] }) fun _ => .ret ()
      | some _ => .ret ()) []).1 := by
  show ¬ PartialDataset [.dsBegin none, .dsEnd, .dsBegin none, .dsEnd]
  unfold PartialDataset
  decide

end Geozero
