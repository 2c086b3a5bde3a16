import Verif.Lemmas.Compress
import Verif.Props.SlCompressed

/-
Property C81: how far the vertices of a compressed SpatiaLite geometry are from what was compressed.
-/

namespace Geozero
open Prog Spec

theorem deltasOf_length {R : F64 → F64 → F32 → Prop} : ∀ {p : Coord} {vs : List Coord} {δs : List Delta}, DeltasOf R p vs δs →
    δs.length = vs.length := by
  intro p vs
  induction vs generalizing p with
  | nil => intro δs h; cases δs with
    | nil => rfl
    | cons => exact h.elim
  | cons v vs ih => intro δs h; cases δs with
    | nil => exact h.elim
    | cons δ δs => simp [ih h.2]

theorem deltasOf_dims {R : F64 → F64 → F32 → Prop} {d : Dims} : ∀ {p : Coord} {vs : List Coord} {δs : List Delta},
    DeltasOf R p vs δs → (∀ v ∈ vs, HasDims d v) → ∀ δ ∈ δs, δ.HasDims d := by
  intro p vs
  induction vs generalizing p with
  | nil => intro δs h; cases δs with
    | nil => simp
    | cons => exact h.elim
  | cons v vs ih => intro δs h hv; cases δs with
    | nil => exact h.elim
    | cons δ δs =>
      intro δ' hδ
      rcases List.mem_cons.mp hδ with rfl | hδ
      · obtain ⟨h1, h2⟩ := hv v (by simp)
        obtain ⟨-, -, h3, h4⟩ := h.1
        refine ⟨?_, by rw [h4]; exact h2⟩
        rw [← h1]
        cases hp : p.z <;> cases hz : v.z <;> cases hd : δ'.z <;> rw [hp, hz, hd] at h3 <;> first | rfl | exact h3.elim
      · exact ih h.2 (fun u hu => hv u (by simp [hu])) δ' hδ

theorem deltasOf_mono {R R' : F64 → F64 → F32 → Prop} (hR : ∀ p v δ, R p v δ → R' p v δ) : ∀ {p : Coord} {vs : List Coord}
    {δs : List Delta}, DeltasOf R p vs δs → DeltasOf R' p vs δs := by
  intro p vs
  induction vs generalizing p with
  | nil => intro δs h; cases δs with
    | nil => trivial
    | cons => exact h.elim
  | cons v vs ih => intro δs h; cases δs with
    | nil => exact h.elim
    | cons δ δs =>
      obtain ⟨⟨h1, h2, h3, h4⟩, h5⟩ := h
      refine ⟨⟨hR _ _ _ h1, hR _ _ _ h2, ?_, h4⟩, ih h5⟩
      cases hp : p.z <;> cases hz : v.z <;> cases hd : δ.z <;> rw [hp, hz, hd] at h3 <;> first | trivial | exact h3.elim | exact hR _ _ _ h3

theorem evCoord_coordEv (multi : Bool) (c : Coord) (i : Nat) : evCoord (coordEv multi c i) = some (seenBy multi c) := by
  cases multi <;> rfl

theorem coordsOf_evList (multi : Bool) (cs : List Coord) : ∀ i, coordsOf (evList (coordEvs multi) i cs) = cs.map (seenBy multi) := by
  induction cs with
  | nil => intro i; rfl
  | cons c cs ih =>
    intro i
    have := ih (i + 1)
    simp only [coordsOf] at this ⊢
    simp [evList, coordEvs, List.filterMap_cons, evCoord_coordEv, this]

theorem coordsOf_compressedLineEvs (fo : FOps) (multi tagged : Bool) (idx : Nat) (first : Coord) (δs : List Delta) (last : Coord) :
    coordsOf (compressedLineEvs fo multi tagged idx first δs last) = (vertices fo first δs last).map (seenBy multi) := by
  have h := coordsOf_evList multi (first :: inner fo first δs) 0
  unfold coordsOf at h
  have h1 : evCoord (.gbegin .lineString tagged (δs.length + 2) idx) = none := rfl
  have h2 : evCoord (.gend .lineString tagged idx) = none := rfl
  simp [coordsOf, compressedLineEvs, List.filterMap_cons, List.filterMap_append, h, h1, h2, evCoord_coordEv, vertices]

theorem near_seenBy {ε : ℚ} {a b : Coord} (multi : Bool) (h : Near ε a b) : Near ε (seenBy multi a) (seenBy multi b) := by
  cases multi with
  | true => exact h
  | false => exact ⟨h.1, h.2.1, trivial, rfl⟩

theorem readWithin_seenBy {ε : ℚ} {vs got : List Coord} (multi : Bool) (h : ReadWithin ε vs got) :
    ReadWithin ε (vs.map (seenBy multi)) (got.map (seenBy multi)) := by
  obtain ⟨h1, h2, h3, h4⟩ := h
  refine ⟨by simp [h1], by simp [h2], by simp [h3], ?_⟩
  intro i v u hv hu
  simp only [List.getElem?_map, Option.map_eq_some_iff] at hv hu
  obtain ⟨v', hv, rfl⟩ := hv
  obtain ⟨u', hu, rfl⟩ := hu
  exact near_seenBy multi (h4 i v' u' hv hu)

theorem near_mono {ε ε' : ℚ} {a b : Coord} (hε : ε ≤ ε') (h : Near ε a b) : Near ε' a b := by
  obtain ⟨h1, h2, h3, h4⟩ := h
  refine ⟨le_trans h1 hε, le_trans h2 hε, ?_, h4⟩
  cases ha : a.z <;> cases hb : b.z <;> rw [ha, hb] at h3 <;> first | trivial | exact h3.elim | exact le_trans h3 hε

theorem upTo_finite {M : ℚ} {c : Coord} (h : UpTo M c) : CoordFinite c := ⟨h.1.1, h.2.1.1, fun z hz => (h.2.2 z hz).1⟩

/-- what the inner vertices say about all vertices -/
theorem vertices_readWithin {fo : FOps} {ε : ℚ} (hε : 0 ≤ ε) {first last : Coord} {mid : List Coord} {δs : List Delta}
    (h1 : (inner fo first δs).length = mid.length)
    (h2 : ∀ (i : Nat) (v : Coord), mid[i]? = some v → ∃ u, (inner fo first δs)[i]? = some u ∧ Near ((i + 1 : Nat) * ε) u v) :
    ReadWithin ε (first :: (mid ++ [last])) (vertices fo first δs last) := by
  refine ⟨by simp [vertices, h1], rfl, by
    rw [vertices, ← List.cons_append, ← List.cons_append, List.getLast?_append, List.getLast?_append]; rfl, ?_⟩
  intro i v u hv hu
  cases i with
  | zero =>
    simp only [List.getElem?_cons_zero, Option.some.injEq, vertices] at hv hu
    subst hv; subst hu
    exact near_self _ (by simp) _
  | succ i =>
    simp only [List.getElem?_cons_succ, vertices] at hv hu
    by_cases hi : i < mid.length
    · rw [List.getElem?_append_left hi] at hv
      rw [List.getElem?_append_left (by omega)] at hu
      obtain ⟨u', hu', hn⟩ := h2 i v hv
      rw [hu] at hu'
      cases hu'
      exact hn
    · rw [List.getElem?_append_right (by omega)] at hv hu
      rw [h1] at hu
      rw [hv] at hu
      cases hu
      exact near_self _ (by positivity) _

theorem compressedFrom_readWithin {fo : FOps} (hf : fo.Ieee) {η M : ℚ} (hη : 0 ≤ η) (hη' : η ≤ 2 ^ 900) (hM : 0 ≤ M)
    (hM' : M ≤ 2 ^ 900) {d : Dims} {e : Endian} {vs : List Coord} {bytes : List Byte} (hv : ∀ v ∈ vs, UpTo M v)
    (h : CompressedFrom (OrdStep η) d e vs bytes) : ∃ first δs last, PartsOk d first δs last ∧ bytes = compressedBytes e first δs last ∧
      ReadWithin (2 * (η + 2 ^ (-53 : ℤ) * M + 2 ^ (-1075 : ℤ))) vs (vertices fo first δs last) := by
  obtain ⟨h1, h2, first, mid, last, δs, rfl, h3, h4⟩ := h
  have hlen := deltasOf_length h3
  simp only [List.length_cons, List.length_append, List.length_nil, Nat.zero_add] at h2
  have hc : 0 ≤ stepErr η M := by unfold stepErr; positivity
  obtain ⟨i1, i2⟩ := inner_near hf hη hη' hM hM' mid first first δs 0 (by omega) (fun v h => hv v (by simp [h]))
    (upTo_finite (hv first (by simp))) (near_self _ (by simp [sumErr]) _) h3
  refine ⟨first, δs, last, ⟨h1 _ (by simp), h1 _ (by simp), deltasOf_dims h3 (fun v h => h1 v (by simp [h])), by omega⟩, h4, ?_⟩
  apply vertices_readWithin (by positivity) i1
  intro i v hiv
  obtain ⟨u, hu, hn⟩ := i2 i v hiv
  refine ⟨u, hu, near_mono ?_ hn⟩
  have hi := (List.getElem?_eq_some_iff.mp hiv).1
  refine le_trans (sumErr_le hc (n := 0 + i + 1) (by omega)) (le_of_eq ?_)
  unfold stepErr
  push_cast
  ring

theorem compressedFrom_exact {fo : FOps} (hf : fo.Ieee) {M : ℚ} (hM' : M ≤ F64.largest) {d : Dims} {e : Endian} {vs : List Coord}
    {bytes : List Byte} (hv : ∀ v ∈ vs, UpTo M v) (h : CompressedFrom (OrdStep 0) d e vs bytes) :
    ∃ first δs last, PartsOk d first δs last ∧ bytes = compressedBytes e first δs last ∧ ReadWithin 0 vs (vertices fo first δs last) := by
  obtain ⟨h1, h2, first, mid, last, δs, rfl, h3, h4⟩ := h
  have hlen := deltasOf_length h3
  simp only [List.length_cons, List.length_append, List.length_nil, Nat.zero_add] at h2
  obtain ⟨i1, i2⟩ := inner_exact hf hM' mid first first δs (fun v h => hv v (by simp [h]))
    (upTo_finite (hv first (by simp))) (near_self _ le_rfl _) h3
  refine ⟨first, δs, last, ⟨h1 _ (by simp), h1 _ (by simp), deltasOf_dims h3 (fun v h => h1 v (by simp [h])), by omega⟩, h4, ?_⟩
  apply vertices_readWithin le_rfl i1
  intro i v hiv
  obtain ⟨u, hu, hn⟩ := i2 i v hiv
  exact ⟨u, hu, near_mono (by simp) hn⟩

theorem compressed_line_of {fo : FOps} {ε : ℚ} {d : Dims} {e : Endian} {vs : List Coord} {body : List Byte}
    (h : ∃ first δs last, PartsOk d first δs last ∧ body = compressedBytes e first δs last ∧ ReadWithin ε vs (vertices fo first δs last))
    (srid : Int) (hs : isI32 srid) (mbr : List F64) (hm : mbr.length = 4) (rest : List Byte) (multi : Bool) :
    ∃ evs, run multi (processWkbTypeGeom fo .spatiaLite) (Spec.compressedBlob d e srid mbr 2 body ++ rest) = (evs, .ok ((), 0xFE :: rest)) ∧
      ReadWithin ε (vs.map (seenBy multi)) (coordsOf evs) := by
  obtain ⟨first, δs, last, ⟨p1, p2, p3, p4⟩, rfl, h⟩ := h
  refine ⟨_, C06_compressed_linestring_partial fo d e srid hs mbr hm first last δs p1 p2 p3 p4 rest multi, ?_⟩
  have : coordsOf (.srid (if srid = 0 then none else some srid) :: compressedLineEvs fo multi true 0 first δs last)
      = coordsOf (compressedLineEvs fo multi true 0 first δs last) := rfl
  rw [this, coordsOf_compressedLineEvs]
  exact readWithin_seenBy multi h

/-- C81, line strings.  The differences of a compressed SpatiaLite line string being right up to `η`, reading it delivers as many
coordinates as were compressed; the first and the last are exact, and the i-th is off by at most 2·i times `η` plus the unit roundoff of
the coordinates, in x, in y and in z; m is exact. -/
theorem C81_line (fo : FOps) (hf : fo.Ieee) (η M : ℚ) (hη : 0 ≤ η) (hη' : η ≤ 2 ^ 900) (hM : 0 ≤ M) (hM' : M ≤ 2 ^ 900) (d : Dims)
    (e : Endian) (srid : Int) (hs : isI32 srid) (mbr : List F64) (hm : mbr.length = 4) (vs : List Coord) (hv : ∀ v ∈ vs, UpTo M v)
    (body : List Byte) (h : CompressedFrom (OrdStep η) d e vs body) (rest : List Byte) (multi : Bool) :
    ∃ evs, run multi (processWkbTypeGeom fo .spatiaLite) (Spec.compressedBlob d e srid mbr 2 body ++ rest) = (evs, .ok ((), 0xFE :: rest)) ∧
      ReadWithin (2 * (η + 2 ^ (-53 : ℤ) * M + 2 ^ (-1075 : ℤ))) (vs.map (seenBy multi)) (coordsOf evs) :=
  compressed_line_of (compressedFrom_readWithin hf hη hη' hM hM' hv h) srid hs mbr hm rest multi

/-- C81, differences that single precision represents exactly: nothing is lost. -/
theorem C81_exact (fo : FOps) (hf : fo.Ieee) (M : ℚ) (hM' : M ≤ F64.largest) (d : Dims) (e : Endian) (srid : Int) (hs : isI32 srid)
    (mbr : List F64) (hm : mbr.length = 4) (vs : List Coord) (hv : ∀ v ∈ vs, UpTo M v) (body : List Byte)
    (h : CompressedFrom (OrdStep 0) d e vs body) (rest : List Byte) (multi : Bool) :
    ∃ evs, run multi (processWkbTypeGeom fo .spatiaLite) (Spec.compressedBlob d e srid mbr 2 body ++ rest) = (evs, .ok ((), 0xFE :: rest)) ∧
      ReadWithin 0 (vs.map (seenBy multi)) (coordsOf evs) :=
  compressed_line_of (compressedFrom_exact hf hM' hv h) srid hs mbr hm rest multi

theorem ordRounded_step {D : ℚ} (hD : D ≤ F32.largest) {p v : F64} {δ : F32} (h : OrdRounded D p v δ) :
    OrdStep (2 ^ (-24 : ℤ) * D + 2 ^ (-150 : ℤ)) p v δ := by
  refine ⟨h.2.1, le_trans (h.2.error (le_trans h.1 hD)) ?_⟩
  have := mul_le_mul_of_nonneg_left h.1 (show (0 : ℚ) ≤ 2 ^ (-24 : ℤ) by positivity)
  linarith

/-- C81, a compressor that rounds to the nearest single precision number: if neighbouring vertices are at most `D` apart, the i-th
vertex is off by about 2·i times the single precision unit roundoff of `D`. -/
theorem C81_single_precision (fo : FOps) (hf : fo.Ieee) (D M : ℚ) (hD : 0 ≤ D) (hD' : D ≤ F32.largest) (hM : 0 ≤ M) (hM' : M ≤ 2 ^ 900)
    (d : Dims) (e : Endian) (srid : Int) (hs : isI32 srid) (mbr : List F64) (hm : mbr.length = 4) (vs : List Coord)
    (hv : ∀ v ∈ vs, UpTo M v) (body : List Byte) (h : CompressedFrom (OrdRounded D) d e vs body) (rest : List Byte) (multi : Bool) :
    ∃ evs, run multi (processWkbTypeGeom fo .spatiaLite) (Spec.compressedBlob d e srid mbr 2 body ++ rest) = (evs, .ok ((), 0xFE :: rest)) ∧
      ReadWithin (2 * (2 ^ (-24 : ℤ) * D + 2 ^ (-150 : ℤ) + 2 ^ (-53 : ℤ) * M + 2 ^ (-1075 : ℤ))) (vs.map (seenBy multi))
        (coordsOf evs) := by
  refine C81_line fo hf _ M (by positivity) ?_ hM hM' d e srid hs mbr hm vs hv body ?_ rest multi
  · have h1 : D ≤ 2 ^ 128 := le_trans hD' (by unfold F32.largest; norm_num)
    have h2 : (2 : ℚ) ^ (-24 : ℤ) * D ≤ 2 ^ (-24 : ℤ) * 2 ^ 128 := mul_le_mul_of_nonneg_left h1 (by positivity)
    have h3 : (2 : ℚ) ^ (-24 : ℤ) * 2 ^ 128 + 2 ^ (-150 : ℤ) ≤ 2 ^ 200 := by norm_num
    have h4 : (2 : ℚ) ^ 200 ≤ 2 ^ 900 := pow_le_pow_right₀ (by norm_num) (by norm_num)
    exact le_trans (le_trans (add_le_add_left h2 _) h3) h4
  · obtain ⟨h1, h2, first, mid, last, δs, h3, h4, h5⟩ := h
    exact ⟨h1, h2, first, mid, last, δs, h3, deltasOf_mono (fun _ _ _ => ordRounded_step hD') h4, h5⟩

/-- C81, polygons: the same for each ring. -/
theorem C81_polygon (fo : FOps) (hf : fo.Ieee) (η M : ℚ) (hη : 0 ≤ η) (hη' : η ≤ 2 ^ 900) (hM : 0 ≤ M) (hM' : M ≤ 2 ^ 900) (d : Dims)
    (e : Endian) (srid : Int) (hs : isI32 srid) (mbr : List F64) (hm : mbr.length = 4) (rings : List (List Coord))
    (hr : rings.length < 2 ^ 32) (hv : ∀ vs ∈ rings, ∀ v ∈ vs, UpTo M v) (body : List Byte)
    (h : Cat (CompressedFrom (OrdStep η) d e) rings body) (rest : List Byte) (multi : Bool) :
    ∃ (evs : List Ev) (got : List (List Coord)), run multi (processWkbTypeGeom fo .spatiaLite) (Spec.compressedBlob d e srid mbr 3 (encU32 e rings.length ++ body) ++ rest)
        = (evs, .ok ((), 0xFE :: rest)) ∧ coordsOf evs = got.flatten ∧ got.length = rings.length ∧
      ∀ (k : Nat) (vs r : List Coord), rings[k]? = some vs → got[k]? = some r →
        ReadWithin (2 * (η + 2 ^ (-53 : ℤ) * M + 2 ^ (-1075 : ℤ))) (vs.map (seenBy multi)) r := by
  have key : ∃ parts : List (Coord × List Delta × Coord), parts.length = rings.length ∧ (∀ r ∈ parts, PartsOk d r.1 r.2.1 r.2.2) ∧
      body = parts.flatMap (fun r => compressedBytes e r.1 r.2.1 r.2.2) ∧
      ∀ (k : Nat) (vs : List Coord) (r : Coord × List Delta × Coord), rings[k]? = some vs → parts[k]? = some r →
        ReadWithin (2 * (η + 2 ^ (-53 : ℤ) * M + 2 ^ (-1075 : ℤ))) vs (vertices fo r.1 r.2.1 r.2.2) := by
    clear hr
    induction rings generalizing body with
    | nil => exact ⟨[], rfl, by simp, h, by simp⟩
    | cons vs rings ih =>
      obtain ⟨b1, b2, rfl, h1, h2⟩ := h
      obtain ⟨parts, p1, p2, p3, p4⟩ := ih (fun vs h => hv vs (by simp [h])) b2 h2
      obtain ⟨first, δs, last, q1, q2, q3⟩ := compressedFrom_readWithin (fo := fo) hf hη hη' hM hM' (hv _ (by simp)) h1
      refine ⟨(first, δs, last) :: parts, by simp [p1], ?_, by simp [q2, p3], ?_⟩
      · intro r hr
        rcases List.mem_cons.mp hr with rfl | hr
        · exact q1
        · exact p2 r hr
      · intro k vs r hk hr
        cases k with
        | zero =>
          simp only [List.getElem?_cons_zero, Option.some.injEq] at hk hr
          subst hk; subst hr; exact q3
        | succ k => exact p4 k vs r (by simpa using hk) (by simpa using hr)
  obtain ⟨parts, p1, p2, p3, p4⟩ := key
  have hrun := C06_compressed_polygon_partial fo d e srid hs mbr hm parts (by omega) (fun r hr => p2 r hr) rest multi
  rw [← p3, p1] at hrun
  refine ⟨_, parts.map (fun r => (vertices fo r.1 r.2.1 r.2.2).map (seenBy multi)), hrun, ?_, by simp [p1], ?_⟩
  · have : ∀ (ps : List (Coord × List Delta × Coord)) (i : Nat),
        coordsOf (evList (fun i (r : Coord × List Delta × Coord) => compressedLineEvs fo multi false i r.1 r.2.1 r.2.2) i ps)
          = (ps.map (fun r => (vertices fo r.1 r.2.1 r.2.2).map (seenBy multi))).flatten := by
      intro ps
      induction ps with
      | nil => intro i; rfl
      | cons p ps ih =>
        intro i
        have h1 := ih (i + 1)
        have h2 := coordsOf_compressedLineEvs fo multi false i p.1 p.2.1 p.2.2
        unfold coordsOf at h1 h2 ⊢
        simp only [evList, List.filterMap_append, h1, h2, List.map_cons, List.flatten_cons]
    have h3 := this parts 0
    unfold coordsOf at h3 ⊢
    simp [bracket, evCoord, List.filterMap_cons, List.filterMap_append, h3]
  · intro k vs r hk hr
    simp only [List.getElem?_map, Option.map_eq_some_iff] at hr
    obtain ⟨q, hq, rfl⟩ := hr
    exact readWithin_seenBy multi (p4 k vs q hk hq)

/-- 0 -/
private def g0 : F64 := 0#64
/-- 1 + 2^-30, which is not a single precision number -/
private def g1 : F64 := 0x3FF0000000400000#64
/-- 33.5 -/
private def g33h : F64 := 0x4040C00000000000#64
/-- 33.5 in single precision -/
private def s33h : F32 := 0x42060000#32

private theorem w0 : g0.IsFinite ∧ g0.val = 0 := ⟨F64.finite_zero, F64.val_zero⟩

private theorem w1 : g1.IsFinite ∧ g1.val = 1 + 2 ^ (-30 : ℤ) := by
  refine ⟨by unfold F64.IsFinite; decide, ?_⟩
  norm_num [F64.val, F64.mag, F64.sig, F64.frac, F64.bexp, F64.neg, g1]

private theorem w33h : g33h.IsFinite ∧ g33h.val = 67 / 2 := by
  refine ⟨by unfold F64.IsFinite; decide, ?_⟩
  norm_num [F64.val, F64.mag, F64.sig, F64.frac, F64.bexp, F64.neg, g33h]

private theorem ws : s33h.IsFinite ∧ s33h.val = 67 / 2 := by
  refine ⟨by unfold F32.IsFinite; decide, ?_⟩
  norm_num [F32.val, F32.mag, F32.sig, F32.frac, F32.bexp, F32.neg, s33h]

/-- non-vacuity of `C81_line`, `C81_exact` and `C81_polygon`: there are IEEE operations, and (0, 0, 33.5), (33.5, 33.5, 33.5), (0, 33.5, 0) is
compressed without loss -/
example : (∃ fo : FOps, fo.Ieee) ∧ (∀ v ∈ [(⟨g0, g0, some g33h, none⟩ : Coord), ⟨g33h, g33h, some g33h, none⟩, ⟨g0, g33h, some g0, none⟩],
      UpTo 100 v) ∧
    CompressedFrom (OrdStep 0) { z := true, m := false } .le
      [⟨g0, g0, some g33h, none⟩, ⟨g33h, g33h, some g33h, none⟩, ⟨g0, g33h, some g0, none⟩]
      (compressedBytes .le ⟨g0, g0, some g33h, none⟩ [⟨s33h, s33h, some 0#32, none⟩] ⟨g0, g33h, some g0, none⟩) := by
  have u0 : OrdUpTo 100 g0 := ⟨w0.1, by rw [w0.2]; norm_num⟩
  have u1 : OrdUpTo 100 g33h := ⟨w33h.1, by rw [w33h.2, abs_of_pos (by norm_num)]; norm_num⟩
  have z0 : F32.IsFinite 0#32 ∧ F32.val 0#32 = 0 :=
    ⟨by unfold F32.IsFinite; decide, by norm_num [F32.val, F32.mag, F32.sig, F32.frac, F32.bexp, F32.neg]⟩
  refine ⟨exists_fops_ieee, ?_, ?_, by decide, _, [⟨g33h, g33h, some g33h, none⟩], _, [⟨s33h, s33h, some 0#32, none⟩], rfl, ⟨⟨?_, ?_, ?_, rfl⟩, trivial⟩, rfl⟩
  · simp [UpTo, u0, u1]
  · simp [HasDims]
  · exact ⟨ws.1, by rw [ws.2, w33h.2, w0.2]; norm_num⟩
  · exact ⟨ws.1, by rw [ws.2, w33h.2, w0.2]; norm_num⟩
  · exact ⟨z0.1, by rw [z0.2, w33h.2]; norm_num⟩

/-- non-vacuity of `C81_single_precision`: a line string whose inner vertex is not representable in single precision -/
example : ∃ body, CompressedFrom (OrdRounded 100) { z := false, m := false } .le
    [⟨g0, g0, none, none⟩, ⟨g1, g33h, none, none⟩, ⟨g0, g33h, none, none⟩] body := by
  obtain ⟨a, ha⟩ := F32.exists_nearest (g1.val - g0.val)
  obtain ⟨b, hb⟩ := F32.exists_nearest (g33h.val - g0.val)
  refine ⟨_, ?_, by decide, _, [⟨g1, g33h, none, none⟩], _, [⟨a, b, none, none⟩], rfl, ⟨⟨⟨?_, ha⟩, ⟨?_, hb⟩, trivial, rfl⟩, trivial⟩, rfl⟩
  · simp [HasDims]
  · show |g1.val - g0.val| ≤ 100
    rw [w1.2, w0.2, abs_of_pos (by norm_num)]; norm_num
  · show |g33h.val - g0.val| ≤ 100
    rw [w33h.2, w0.2, abs_of_pos (by norm_num)]; norm_num

end Geozero
