import Verif.Spec.GpkgMixed
import Verif.Props.WkbRead
import Verif.Props.WkbAny

/-
C14: what becomes of a GeoPackage blob whose header and geometry have different byte orders.
-/

namespace Geozero
open Spec Prog

private theorem encUInt_other {e he : Endian} (h : he ≠ e) (n v : Nat) :
    encUInt e n v = encUInt he n (fromLE (toLE n v).reverse) := by
  have k := toLE_fromLE (toLE n v).reverse
  rw [List.length_reverse, toLE_length] at k
  cases e <;> cases he <;> simp_all [encUInt]

private theorem encF64_other {e he : Endian} (h : he ≠ e) (x : F64) : encF64 e x = encF64 he x.swapped := by
  have hl : fromLE (toLE 8 x.toNat).reverse < 2 ^ 64 := by
    have := fromLE_lt (toLE 8 x.toNat).reverse
    simpa using this
  unfold encF64 F64.swapped
  rw [encUInt_other h, BitVec.toNat_ofNat, Nat.mod_eq_of_lt hl]

private theorem coordBytes_other {e he : Endian} (h : he ≠ e) (c : Coord) : coordBytes e c = coordBytes he c.swapped := by
  unfold coordBytes Coord.swapped
  simp only [encF64_other h]
  rcases c with ⟨x, y, _ | z, _ | m⟩ <;> simp [encF64_other h]

private theorem hasDims_swapped {d : Dims} {c : Coord} (h : HasDims d c) : HasDims d c.swapped := by
  simpa [HasDims, Coord.swapped] using h

/-- reading a blob with the geometry's header in byte order `e`, and a body that encodes `g` in the byte order of the blob's header -/
private theorem read_mixed (fo : FOps) (d : Dims) (he e : Endian) (srid : Int) (hs : isI32 srid) (env : List F64) (hb : List Byte)
    (hhb : GpkgHeader he srid env hb) (g : Geom) (hc : AllCoords (HasDims d) g) (bb rest : List Byte)
    (hbody : Body d (ogcHeader d) g he bb) (hl : g.levels ≤ 128) (multi : Bool) :
    run multi (processWkbTypeGeom fo .geopackage) (hb ++ (orderMark e :: encU32 e (ogcCode d (typeCode g))) ++ bb ++ rest) =
      (.srid (some srid) :: g.events multi 0, .ok ((), rest)) := by
  have h := (run_geomN fo (hdrOk_ogc d) multi g 130 0 (by omega) (by omega) he
    { endian := he, baseType := WkbType.fromU32 (typeCode g), hasZ := d.z, hasM := d.m, srid := some srid,
      isCompressed := false, envelope := env } ⟨rfl, rfl, rfl, rfl, rfl⟩ hc 0 bb rest hbody).1 (by omega)
  show run multi (processTop fo readGpkgHeader readWkbNestedHeader) _ = _
  unfold processTop
  simp only [bind_eq, List.append_assoc]
  rw [run_bind_ok_nil (run_readGpkgHeader d he e srid hs env hb hhb _ (typeCode_le g) multi (bb ++ rest))]
  simp only [run_emitEv_bind]
  rw [h]

/-- C14, points: the ordinates are delivered with their bytes in opposite order. -/
theorem C14_gpkg_mixed_point (fo : FOps) (d : Dims) (he e : Endian) (hne : he ≠ e) (srid : Int) (hs : isI32 srid) (env : List F64)
    (c : Coord) (bs rest : List Byte) (multi : Bool) (h : Gpkg d he e srid env (.point c) bs) :
    (¬ AllNaN c.swapped → run multi (processWkbTypeGeom fo .geopackage) (bs ++ rest) =
      (.srid (some srid) :: (Geom.point c.swapped).events multi 0, .ok ((), rest))) ∧
    (AllNaN c.swapped → run multi (processWkbTypeGeom fo .geopackage) (bs ++ rest) =
      (.srid (some srid) :: Geom.emptyPoint.events multi 0, .ok ((), rest))) := by
  obtain ⟨hb, wb, rfl, hhb, hc, hb2, bb, rfl, hhb2, -, rfl⟩ := h
  unfold ogcHeader at hhb2
  subst hhb2
  rw [coordBytes_other hne, ← List.append_assoc]
  have hd : HasDims d c.swapped := hasDims_swapped hc
  exact ⟨fun hn => read_mixed fo d he e srid hs env hb hhb (.point c.swapped) hd _ rest ⟨hn, rfl⟩ (by simp [Geom.levels]) multi,
    fun hn => read_mixed fo d he e srid hs env hb hhb .emptyPoint trivial _ rest ⟨_, hd, hn, rfl⟩ (by simp [Geom.levels]) multi⟩

private theorem swapped32_lt (n : Nat) : swapped32 n < 2 ^ 32 := by
  have hl := fromLE_lt (toLE 4 n).reverse
  simp only [List.length_reverse, toLE_length] at hl
  exact hl

private theorem encU32_other {e he : Endian} (h : he ≠ e) (n : Nat) : encU32 e n = encU32 he (swapped32 n) := encUInt_other h 4 n

private theorem swap32 (n : Nat) (h1 : 0 < n) (h2 : n < 2 ^ 16) : 2 ^ 16 ≤ swapped32 n := by
  simp only [swapped32, toLE, List.reverse_cons, List.reverse_nil, List.nil_append, List.cons_append, fromLE, UInt8.toNat_ofNat']
  have e1 : n / 256 / 256 = 0 := by omega
  have e2 : n % 256 % 2 ^ 8 = n % 256 := by omega
  have e3 : n / 256 % 256 % 2 ^ 8 = n / 256 := by omega
  rw [e1, e2, e3]
  simp only [Nat.zero_mod, Nat.zero_div]
  omega

private theorem cat_append {α : Type} {R : α → List Byte → Prop} {xs ys : List α} {bs cs : List Byte} (h1 : Cat R xs bs)
    (h2 : Cat R ys cs) : Cat R (xs ++ ys) (bs ++ cs) := by
  induction xs generalizing bs with
  | nil => cases h1; exact h2
  | cons x xs ih =>
    obtain ⟨b1, b2, rfl, hr, h⟩ := h1
    exact ⟨b1, b2 ++ cs, by simp, hr, ih h⟩

private theorem cat_replicate {α : Type} {R : α → List Byte → Prop} {x : α} {b : List Byte} (h : R x b) (k : Nat) :
    Cat R (List.replicate k x) (List.replicate k b).flatten := by
  induction k with
  | zero => rfl
  | succ k ih => exact ⟨b, _, by simp [List.replicate_succ], h, ih⟩

/-- members of a count that is too high when read in the other byte order can be followed by more members -/
private theorem counted_more {α : Type} {R R' : α → List Byte → Prop} {e he : Endian} (hne : he ≠ e) (f : α → α)
    (hR : ∀ x b, R x b → R' (f x) b ∧ b ≠ []) {xs : List α} {bs : List Byte} (h : Counted e R xs bs)
    (s1 : xs.length < swapped32 xs.length) :
    ∃ x ∈ xs, ∃ k more, more ≠ [] ∧ Counted he R' (xs.map f ++ List.replicate k (f x)) (bs ++ more) := by
  obtain ⟨-, bb, rfl, hc⟩ := h
  have s2 := swapped32_lt xs.length
  have hmap : ∀ (xs : List α) (bb : List Byte), Cat R xs bb → Cat R' (xs.map f) bb := by
    intro xs
    induction xs with
    | nil => intro bb h; exact h
    | cons x xs ih => rintro bb ⟨b1, b2, rfl, hr, h⟩; exact ⟨b1, b2, rfl, (hR x b1 hr).1, ih _ h⟩
  cases xs with
  | nil => exact absurd s1 (by simp only [List.length_nil]; decide)
  | cons x xs =>
    obtain ⟨b1, b2, rfl, hr, hc'⟩ := id hc
    have k1 := hR x b1 hr
    generalize hk : swapped32 (x :: xs).length - (x :: xs).length = k
    refine ⟨x, by simp, k, (List.replicate k b1).flatten, ?_, ?_, _, ?_, cat_append (hmap _ _ hc) (cat_replicate k1.1 k)⟩
    · obtain ⟨j, rfl⟩ : ∃ j, k = j + 1 := ⟨k - 1, by omega⟩
      simp [List.replicate_succ, k1.2]
    · simp only [List.length_append, List.length_map, List.length_replicate]
      omega
    · rw [encU32_other hne]
      simp only [List.length_append, List.length_map, List.length_replicate, List.append_assoc]
      congr 2
      omega

private theorem nested_ne {d : Dims} {e : Endian} {code : Nat} {body : Endian → List Byte → Prop} {bs : List Byte}
    (h : Nested (ogcHeader d) e code body bs) : bs ≠ [] := by
  obtain ⟨e', hb, bb, rfl, h, -⟩ := h
  unfold ogcHeader at h
  subst h
  simp

private theorem nested_other {d : Dims} {e he : Endian} {code : Nat} {body : Endian → List Byte → Prop} {bs : List Byte}
    (h : Nested (ogcHeader d) e code body bs) : Nested (ogcHeader d) he code body bs := by
  obtain ⟨e', hb, bb, rfl, h, hb⟩ := h
  exact ⟨e', _, bb, rfl, h, hb⟩

private theorem nested_both {d : Dims} {e he : Endian} {code : Nat} {body : Endian → List Byte → Prop} {bs : List Byte}
    (h : Nested (ogcHeader d) e code body bs) : Nested (ogcHeader d) he code body bs ∧ bs ≠ [] := ⟨nested_other h, nested_ne h⟩

private theorem seg_both {d : Dims} {e he : Endian} (s : Seg) (bs : List Byte) (h : SegRel (ogcHeader d) e s bs) :
    SegRel (ogcHeader d) he s bs ∧ bs ≠ [] := by
  cases s <;> exact nested_both h

private theorem curve_both {d : Dims} {e he : Endian} (c : Curve) (bs : List Byte) (h : CurveRel (ogcHeader d) e c bs) :
    CurveRel (ogcHeader d) he c bs ∧ bs ≠ [] := by
  cases c with
  | seg s => exact seg_both s bs h
  | compound => exact nested_both h

private theorem surface_both {d : Dims} {e he : Endian} (c : Surface) (bs : List Byte) (h : SurfaceRel (ogcHeader d) e c bs) :
    SurfaceRel (ogcHeader d) he c bs ∧ bs ≠ [] := by
  cases c <;> exact nested_both h

private def MemberRel (d : Dims) (e : Endian) (g : Geom) (b : List Byte) : Prop :=
  ∃ e' hb bb, b = hb ++ bb ∧ ogcHeader d e e' (typeCode g) hb ∧ Body d (ogcHeader d) g e' bb

private theorem bodies_cat (d : Dims) (e : Endian) (gs : List Geom) (bs : List Byte) :
    Bodies d (ogcHeader d) gs e bs ↔ Cat (MemberRel d e) gs bs := by
  induction gs generalizing bs with
  | nil => simp [Bodies, Cat]
  | cons g gs ih => simp only [Bodies, Cat, ih]; rfl

private theorem coord_ne (e : Endian) (c : Coord) : coordBytes e c ≠ [] := by
  intro h
  have := congrArg List.length h
  cases e <;> simp [coordBytes, encF64, encUInt] at this

private theorem forall_more {α : Type} {P : α → Prop} {xs : List α} {x : α} {k : Nat} (h : ∀ y ∈ xs, P y) (hx : x ∈ xs) :
    ∀ y ∈ xs ++ List.replicate k x, P y := by
  intro y hy
  rcases List.mem_append.mp hy with hy | hy
  · exact h y hy
  · rw [(List.mem_replicate.mp hy).2]; exact h x hx

private theorem counted_same {α : Type} {e he : Endian} (hne : he ≠ e) {R : Endian → α → List Byte → Prop}
    (hR : ∀ x b, R e x b → R he x b ∧ b ≠ []) {xs : List α} {bs : List Byte} (h : Counted e (R e) xs bs)
    (h1 : xs.length < swapped32 xs.length) : ∃ x ∈ xs, ∃ k more, more ≠ [] ∧ Counted he (R he) (xs ++ List.replicate k x) (bs ++ more) := by
  have := counted_more (R' := R he) hne id hR h h1
  simpa using this

/-- a body with some parts, read in the other byte order, is the beginning of the body of a larger geometry -/
private theorem body_more {d : Dims} {e he : Endian} (hne : he ≠ e) (g : Geom) (n : Nat) (hp : g.parts = some n) (h1 : n < swapped32 n)
    (hc : AllCoords (HasDims d) g) (hl : g.levels ≤ 128) (bb : List Byte) (hb : Body d (ogcHeader d) g e bb) :
    ∃ g' more, more ≠ [] ∧ typeCode g' = typeCode g ∧ AllCoords (HasDims d) g' ∧ g'.levels ≤ 128 ∧
      Body d (ogcHeader d) g' he (bb ++ more) := by
  have hpts : ∀ cs : List Coord, cs.length < swapped32 cs.length → (∀ c ∈ cs, HasDims d c) → PointsBody cs e bb →
      ∃ cs' more, more ≠ [] ∧ (∀ c ∈ cs', HasDims d c) ∧ PointsBody cs' he (bb ++ more) := by
    intro cs h1 hd hb
    obtain ⟨x, hx, k, more, hm, h⟩ := counted_more (R' := fun c b => b = coordBytes he c) hne Coord.swapped
      (fun c b hb => ⟨by rw [hb, coordBytes_other hne], by rw [hb]; exact coord_ne e c⟩) hb h1
    refine ⟨_, more, hm, ?_, h⟩
    intro c hc
    rcases List.mem_append.mp hc with hc | hc
    · obtain ⟨c0, hc0, rfl⟩ := List.mem_map.mp hc
      exact hasDims_swapped (hd c0 hc0)
    · rw [(List.mem_replicate.mp hc).2]
      exact hasDims_swapped (hd x hx)
  cases g <;> simp only [Geom.parts, Option.some.injEq, reduceCtorEq] at hp <;> subst hp
  case lineString cs =>
    obtain ⟨cs', more, hm, hd, h⟩ := hpts cs h1 hc hb
    exact ⟨.lineString cs', more, hm, rfl, hd, by simp [Geom.levels], h⟩
  case circularString cs =>
    obtain ⟨cs', more, hm, hd, h⟩ := hpts cs h1 hc hb
    exact ⟨.circularString cs', more, hm, rfl, hd, by simp [Geom.levels], h⟩
  case multiPoint cs =>
    obtain ⟨x, hx, k, more, hm, h⟩ := counted_same hne (R := fun e c => Nested (ogcHeader d) e 1 (fun e' b => b = coordBytes e' c)) (fun _ _ h => nested_both h) hb h1
    refine ⟨.multiPoint (cs ++ List.replicate k x), more, hm, rfl, forall_more hc hx, ?_, h⟩
    simp [Geom.levels]
  case compoundCurve ss =>
    obtain ⟨x, hx, k, more, hm, h⟩ := counted_same hne (R := SegRel (ogcHeader d)) (seg_both) hb h1
    refine ⟨.compoundCurve (ss ++ List.replicate k x), more, hm, rfl, forall_more hc hx, ?_, h⟩
    simp [Geom.levels]
  case multiLineString ls =>
    obtain ⟨x, hx, k, more, hm, h⟩ := counted_same hne (R := fun e l => Nested (ogcHeader d) e 2 (PointsBody l)) (fun _ _ h => nested_both h) hb h1
    refine ⟨.multiLineString (ls ++ List.replicate k x), more, hm, rfl, forall_more hc hx, ?_, h⟩
    simp [Geom.levels]
  case multiCurve cs =>
    obtain ⟨x, hx, k, more, hm, h⟩ := counted_same hne (R := CurveRel (ogcHeader d)) (curve_both) hb h1
    refine ⟨.multiCurve (cs ++ List.replicate k x), more, hm, rfl, forall_more hc hx, ?_, h⟩
    simp only [Geom.levels, foldr_max_le] at hl ⊢
    exact ⟨by omega, forall_more hl.2 hx⟩
  case curvePolygon cs =>
    obtain ⟨x, hx, k, more, hm, h⟩ := counted_same hne (R := CurveRel (ogcHeader d)) (curve_both) hb h1
    refine ⟨.curvePolygon (cs ++ List.replicate k x), more, hm, rfl, forall_more hc hx, ?_, h⟩
    simp only [Geom.levels, foldr_max_le] at hl ⊢
    exact ⟨by omega, forall_more hl.2 hx⟩
  case multiPolygon ps =>
    obtain ⟨x, hx, k, more, hm, h⟩ := counted_same hne (R := fun e p => Nested (ogcHeader d) e 3 (RingsBody p)) (fun _ _ h => nested_both h) hb h1
    refine ⟨.multiPolygon (ps ++ List.replicate k x), more, hm, rfl, forall_more hc hx, ?_, h⟩
    simp [Geom.levels]
  case polyhedralSurface ps =>
    obtain ⟨x, hx, k, more, hm, h⟩ := counted_same hne (R := fun e p => Nested (ogcHeader d) e 3 (RingsBody p)) (fun _ _ h => nested_both h) hb h1
    refine ⟨.polyhedralSurface (ps ++ List.replicate k x), more, hm, rfl, forall_more hc hx, ?_, h⟩
    simp [Geom.levels]
  case tin ps =>
    obtain ⟨x, hx, k, more, hm, h⟩ := counted_same hne (R := fun e p => Nested (ogcHeader d) e 17 (RingsBody p)) (fun _ _ h => nested_both h) hb h1
    refine ⟨.tin (ps ++ List.replicate k x), more, hm, rfl, forall_more hc hx, ?_, h⟩
    simp [Geom.levels]
  case multiSurface ss =>
    obtain ⟨x, hx, k, more, hm, h⟩ := counted_same hne (R := SurfaceRel (ogcHeader d)) (surface_both) hb h1
    refine ⟨.multiSurface (ss ++ List.replicate k x), more, hm, rfl, forall_more hc hx, ?_, h⟩
    simp only [Geom.levels, foldr_max_le] at hl ⊢
    exact ⟨by omega, forall_more hl.2 hx⟩
  case collection gs =>
    obtain ⟨hlen, bb', rfl, hbs⟩ := hb
    have hcnt : Counted e (MemberRel d e) gs (encU32 e gs.length ++ bb') := ⟨hlen, bb', rfl, (bodies_cat d e gs bb').mp hbs⟩
    obtain ⟨x, hx, k, more, hm, h3, bb2, h4, h5⟩ := counted_same hne (R := MemberRel d) (fun g b hb => by
      obtain ⟨e', hb, bb, rfl, h, hb2⟩ := hb
      refine ⟨⟨e', hb, bb, rfl, h, hb2⟩, ?_⟩
      unfold ogcHeader at h
      subst h
      simp) hcnt h1
    refine ⟨.collection (gs ++ List.replicate k x), more, hm, rfl,
      (allCoordsList_iff _ _).mpr (forall_more ((allCoordsList_iff _ _).mp hc) hx), ?_,
      h3, bb2, h4, (bodies_cat d he _ bb2).mpr h5⟩
    simp only [Geom.levels, levelsList_le] at hl ⊢
    exact forall_more hl hx

/-- members of a count that is not too high when read in the other byte order -/
private theorem counted_less {α : Type} {R R' : α → List Byte → Prop} {e he : Endian} (hne : he ≠ e) (f : α → α)
    (hR : ∀ x b, R x b → R' (f x) b) {xs : List α} {bs : List Byte} (h : Counted e R xs bs) (s1 : swapped32 xs.length ≤ xs.length) :
    ∃ b1 b2, bs = b1 ++ b2 ∧ Counted he R' ((xs.take (swapped32 xs.length)).map f) b1 := by
  obtain ⟨-, bb, rfl, hc⟩ := h
  have hcat : ∀ (k : Nat) (xs : List α) (bb : List Byte), Cat R xs bb → ∃ b1 b2, bb = b1 ++ b2 ∧ Cat R' ((xs.take k).map f) b1 := by
    intro k
    induction k with
    | zero => intro xs bb _; exact ⟨[], bb, rfl, by simp [Cat]⟩
    | succ k ih =>
      intro xs bb h
      cases xs with
      | nil => exact ⟨[], bb, rfl, by simp [Cat]⟩
      | cons x xs =>
        obtain ⟨c1, c2, rfl, hr, h⟩ := h
        obtain ⟨b1, b2, rfl, hk⟩ := ih xs c2 h
        exact ⟨c1 ++ b1, b2, by simp, c1, b1, rfl, hR x c1 hr, hk⟩
  obtain ⟨b1, b2, rfl, hk⟩ := hcat (swapped32 xs.length) xs bb hc
  have hlen : ((xs.take (swapped32 xs.length)).map f).length = swapped32 xs.length := by simp; omega
  refine ⟨encU32 e xs.length ++ b1, b2, by simp, ?_, b1, ?_, hk⟩
  · rw [hlen]; exact swapped32_lt _
  · rw [hlen, encU32_other hne]

private theorem counted_less_same {α : Type} {e he : Endian} (hne : he ≠ e) {R : Endian → α → List Byte → Prop}
    (hR : ∀ x b, R e x b → R he x b) {xs : List α} {bs : List Byte} (h : Counted e (R e) xs bs)
    (h1 : swapped32 xs.length ≤ xs.length) : ∃ b1 b2, bs = b1 ++ b2 ∧ Counted he (R he) (xs.take (swapped32 xs.length)) b1 := by
  have := counted_less (R' := R he) hne id hR h h1
  simpa using this

private theorem forall_less {α : Type} {P : α → Prop} {xs : List α} {k : Nat} (h : ∀ y ∈ xs, P y) : ∀ y ∈ xs.take k, P y :=
  fun y hy => h y (List.mem_of_mem_take hy)

/-- a body whose number of parts is not too high when read in the other byte order begins with the body of a smaller geometry -/
private theorem body_less {d : Dims} {e he : Endian} (hne : he ≠ e) (g : Geom) (n : Nat) (hp : g.parts = some n)
    (h1 : swapped32 n ≤ n) (hc : AllCoords (HasDims d) g) (hl : g.levels ≤ 128) (bb : List Byte) (hb : Body d (ogcHeader d) g e bb) :
    ∃ b1 b2, bb = b1 ++ b2 ∧ typeCode g.mixed = typeCode g ∧ AllCoords (HasDims d) g.mixed ∧ g.mixed.levels ≤ 128 ∧
      Body d (ogcHeader d) g.mixed he b1 := by
  have hpts : ∀ cs : List Coord, swapped32 cs.length ≤ cs.length → (∀ c ∈ cs, HasDims d c) → PointsBody cs e bb →
      ∃ b1 b2, bb = b1 ++ b2 ∧ (∀ c ∈ (cs.take (swapped32 cs.length)).map Coord.swapped, HasDims d c) ∧
        PointsBody ((cs.take (swapped32 cs.length)).map Coord.swapped) he b1 := by
    intro cs h1 hd hb
    obtain ⟨b1, b2, hbb, h⟩ := counted_less (R' := fun c b => b = coordBytes he c) hne Coord.swapped
      (fun c b hb => by rw [hb, coordBytes_other hne]) hb h1
    refine ⟨b1, b2, hbb, ?_, h⟩
    intro c hc
    obtain ⟨c0, hc0, rfl⟩ := List.mem_map.mp hc
    exact hasDims_swapped (hd c0 (List.mem_of_mem_take hc0))
  cases g <;> simp only [Geom.parts, Option.some.injEq, reduceCtorEq] at hp <;> subst hp
  case lineString cs =>
    obtain ⟨b1, b2, hbb, hd, h⟩ := hpts cs h1 hc hb
    exact ⟨b1, b2, hbb, rfl, hd, by simp [Geom.mixed, Geom.levels], h⟩
  case circularString cs =>
    obtain ⟨b1, b2, hbb, hd, h⟩ := hpts cs h1 hc hb
    exact ⟨b1, b2, hbb, rfl, hd, by simp [Geom.mixed, Geom.levels], h⟩
  case multiPoint cs =>
    obtain ⟨b1, b2, hbb, h⟩ := counted_less_same hne (R := fun e c => Nested (ogcHeader d) e 1 (fun e' b => b = coordBytes e' c)) (fun _ _ h => nested_other h) hb h1
    exact ⟨b1, b2, hbb, rfl, forall_less hc, by simp [Geom.mixed, Geom.levels], h⟩
  case compoundCurve ss =>
    obtain ⟨b1, b2, hbb, h⟩ := counted_less_same hne (R := SegRel (ogcHeader d)) (fun s b h => (seg_both s b h).1) hb h1
    exact ⟨b1, b2, hbb, rfl, forall_less hc, by simp [Geom.mixed, Geom.levels], h⟩
  case multiLineString ls =>
    obtain ⟨b1, b2, hbb, h⟩ := counted_less_same hne (R := fun e l => Nested (ogcHeader d) e 2 (PointsBody l)) (fun _ _ h => nested_other h) hb h1
    exact ⟨b1, b2, hbb, rfl, forall_less hc, by simp [Geom.mixed, Geom.levels], h⟩
  case multiCurve cs =>
    obtain ⟨b1, b2, hbb, h⟩ := counted_less_same hne (R := CurveRel (ogcHeader d)) (fun s b h => (curve_both s b h).1) hb h1
    refine ⟨b1, b2, hbb, rfl, forall_less hc, ?_, h⟩
    simp only [Geom.mixed, Geom.levels, foldr_max_le] at hl ⊢
    exact ⟨by omega, forall_less hl.2⟩
  case curvePolygon cs =>
    obtain ⟨b1, b2, hbb, h⟩ := counted_less_same hne (R := CurveRel (ogcHeader d)) (fun s b h => (curve_both s b h).1) hb h1
    refine ⟨b1, b2, hbb, rfl, forall_less hc, ?_, h⟩
    simp only [Geom.mixed, Geom.levels, foldr_max_le] at hl ⊢
    exact ⟨by omega, forall_less hl.2⟩
  case multiPolygon ps =>
    obtain ⟨b1, b2, hbb, h⟩ := counted_less_same hne (R := fun e p => Nested (ogcHeader d) e 3 (RingsBody p)) (fun _ _ h => nested_other h) hb h1
    exact ⟨b1, b2, hbb, rfl, forall_less hc, by simp [Geom.mixed, Geom.levels], h⟩
  case polyhedralSurface ps =>
    obtain ⟨b1, b2, hbb, h⟩ := counted_less_same hne (R := fun e p => Nested (ogcHeader d) e 3 (RingsBody p)) (fun _ _ h => nested_other h) hb h1
    exact ⟨b1, b2, hbb, rfl, forall_less hc, by simp [Geom.mixed, Geom.levels], h⟩
  case tin ps =>
    obtain ⟨b1, b2, hbb, h⟩ := counted_less_same hne (R := fun e p => Nested (ogcHeader d) e 17 (RingsBody p)) (fun _ _ h => nested_other h) hb h1
    exact ⟨b1, b2, hbb, rfl, forall_less hc, by simp [Geom.mixed, Geom.levels], h⟩
  case multiSurface ss =>
    obtain ⟨b1, b2, hbb, h⟩ := counted_less_same hne (R := SurfaceRel (ogcHeader d)) (fun s b h => (surface_both s b h).1) hb h1
    refine ⟨b1, b2, hbb, rfl, forall_less hc, ?_, h⟩
    simp only [Geom.mixed, Geom.levels, foldr_max_le] at hl ⊢
    exact ⟨by omega, forall_less hl.2⟩
  case collection gs =>
    obtain ⟨hlen, bb', rfl, hbs⟩ := hb
    have hcnt : Counted e (MemberRel d e) gs (encU32 e gs.length ++ bb') := ⟨hlen, bb', rfl, (bodies_cat d e gs bb').mp hbs⟩
    obtain ⟨b1, b2, hbb, h3, bb2, h4, h5⟩ := counted_less_same hne (R := MemberRel d) (fun g b hb => by
      obtain ⟨e', hb, bb, rfl, h, hb2⟩ := hb
      exact ⟨e', hb, bb, rfl, h, hb2⟩) hcnt h1
    refine ⟨b1, b2, hbb, rfl, (allCoordsList_iff _ _).mpr (forall_less ((allCoordsList_iff _ _).mp hc)), ?_,
      h3, bb2, h4, (bodies_cat d he _ bb2).mpr h5⟩
    simp only [Geom.mixed, Geom.levels, levelsList_le] at hl ⊢
    exact forall_less hl

/-- C14, all geometries but points, polygons and triangles: the number of points or members is read with its bytes in opposite order.
If that gives a higher number, nothing can be read: the blob ends too early.  Otherwise only the first members are delivered, and of a
line string the first points, with the bytes of their ordinates in opposite order; the rest is not read and there is no error. -/
theorem C14_gpkg_mixed_parts (fo : FOps) (d : Dims) (he e : Endian) (hne : he ≠ e) (srid : Int) (hs : isI32 srid)
    (env : List F64) (g : Geom) (bs : List Byte) (multi : Bool) (h : Gpkg d he e srid env g bs) (hl : g.levels ≤ 128) (n : Nat)
    (hp : g.parts = some n) :
    (n < swapped32 n → (run multi (processWkbTypeGeom fo .geopackage) bs).2 = .error .io) ∧
    (swapped32 n ≤ n → ∃ used left, bs = used ++ left ∧ ∀ rest, run multi (processWkbTypeGeom fo .geopackage) (bs ++ rest) =
      (.srid (some srid) :: g.mixed.events multi 0, .ok ((), left ++ rest))) := by
  obtain ⟨hb, wb, rfl, hhb, hc, hb2, bb, rfl, hhb2, hbody⟩ := h
  unfold ogcHeader at hhb2
  subst hhb2
  constructor
  · intro h1
    obtain ⟨g', more, hm, ht, hc', hl', hb'⟩ := body_more hne g n hp h1 hc hl bb hbody
    have hr := read_mixed fo d he e srid hs env hb hhb g' hc' (bb ++ more) [] hb' hl' multi
    obtain ⟨used, hu, -, hk⟩ := C11_truncation_detected fo .geopackage multi _ _ _ hr
    rw [List.append_nil, List.append_nil, ht] at hu
    obtain ⟨evs', -, hx⟩ := hk (hb ++ ((orderMark e :: encU32 e (ogcCode d (typeCode g))) ++ bb)).length (by
      rw [← hu]
      have : 0 < more.length := List.length_pos_iff.mpr hm
      simp only [List.length_append]
      omega)
    rw [← hu] at hx
    have et : (hb ++ (orderMark e :: encU32 e (ogcCode d (typeCode g))) ++ (bb ++ more)).take
        (hb ++ ((orderMark e :: encU32 e (ogcCode d (typeCode g))) ++ bb)).length =
        hb ++ ((orderMark e :: encU32 e (ogcCode d (typeCode g))) ++ bb) := by
      rw [show hb ++ (orderMark e :: encU32 e (ogcCode d (typeCode g))) ++ (bb ++ more) =
        (hb ++ ((orderMark e :: encU32 e (ogcCode d (typeCode g))) ++ bb)) ++ more by simp, List.take_left]
    rw [et] at hx
    rw [hx]
  · intro h1
    obtain ⟨b1, b2, rfl, ht, hc', hl', hb'⟩ := body_less hne g n hp h1 hc hl bb hbody
    refine ⟨hb ++ ((orderMark e :: encU32 e (ogcCode d (typeCode g))) ++ b1), b2, by simp, fun rest => ?_⟩
    have hr := read_mixed fo d he e srid hs env hb hhb g.mixed hc' b1 (b2 ++ rest) hb' hl' multi
    rw [ht] at hr
    simpa using hr

/-- C14: with at least one and fewer than 65536 parts, nothing can be read. -/
theorem C14_gpkg_mixed_small_parts (fo : FOps) (d : Dims) (he e : Endian) (hne : he ≠ e) (srid : Int) (hs : isI32 srid)
    (env : List F64) (g : Geom) (bs : List Byte) (multi : Bool) (h : Gpkg d he e srid env g bs) (hl : g.levels ≤ 128) (n : Nat)
    (hp : g.parts = some n) (h1 : 0 < n) (h2 : n < 2 ^ 16) :
    (run multi (processWkbTypeGeom fo .geopackage) bs).2 = .error .io :=
  (C14_gpkg_mixed_parts fo d he e hne srid hs env g bs multi h hl n hp).1 (by have := swap32 n h1 h2; omega)

/-- C14: the 65536 points of a line string become 256. -/
example : swapped32 65536 = 256 := by decide

/-! ### polygons and triangles -/

/-- reads at least `k` bytes if it succeeds, and fails only for want of bytes -/
private structure Takes {α : Type} (k : Nat) (p : Prog α) : Prop where
  enough : ∀ multi bs evs a rest, run multi p bs = (evs, .ok (a, rest)) → rest.length + k ≤ bs.length
  fails : ∀ multi bs err, (run multi p bs).2 = .error err → err = .io

private theorem Takes.mono {α : Type} {k j : Nat} {p : Prog α} (h : Takes k p) (hj : j ≤ k) : Takes j p :=
  ⟨fun multi bs evs a rest hr => by have := h.enough multi bs evs a rest hr; omega, h.fails⟩

private theorem Takes.ret {α : Type} (a : α) : Takes 0 (.ret a : Prog α) :=
  ⟨fun multi bs evs a rest hr => by rw [run_ret] at hr; cases hr; omega, fun multi bs err h => by rw [run_ret] at h; cases h⟩

private theorem Takes.emit (ev : Ev) : Takes 0 (emitEv ev) :=
  ⟨fun multi bs evs a rest hr => by rw [run_emitEv] at hr; cases hr; omega, fun multi bs err h => by rw [run_emitEv] at h; cases h⟩

private theorem Takes.bind {α β : Type} {j k : Nat} {p : Prog α} {f : α → Prog β} (hp : Takes j p) (hf : ∀ a, Takes k (f a)) :
    Takes (j + k) (Prog.bind p f) := by
  constructor
  · intro multi bs evs a rest hr
    rcases hx : run multi p bs with ⟨evs1, er | ⟨x, r1⟩⟩
    · rw [run_bind_err hx] at hr; cases hr
    · rw [run_bind_ok hx] at hr
      have h1 := hp.enough multi bs evs1 x r1 hx
      have h2 := (hf x).enough multi r1 (run multi (f x) r1).1 a rest (by
        have h := congrArg Prod.snd hr
        exact Prod.ext rfl h)
      omega
  · intro multi bs err hr
    rcases hx : run multi p bs with ⟨evs1, er | ⟨x, r1⟩⟩
    · rw [run_bind_err hx] at hr
      cases hr
      exact hp.fails multi bs _ (by rw [hx])
    · rw [run_bind_ok hx] at hr
      exact (hf x).fails multi r1 err hr

private theorem Takes.readByte : Takes 1 readByte := by
  constructor
  · intro multi bs evs a rest hr
    cases bs with
    | nil => cases hr
    | cons b bs => cases hr; simp
  · intro multi bs err h
    cases bs with
    | nil => cases h; rfl
    | cons b bs => cases h

private theorem Takes.readN (n : Nat) : Takes n (readN n) := by
  induction n with
  | zero => exact Takes.ret _
  | succ n ih =>
    have := Takes.readByte.bind fun b => ih.bind fun bs => Takes.ret (b :: bs)
    exact this.mono (by omega)

private theorem Takes.readU32 (e : Endian) : Takes 4 (readU32 e) := (Takes.readN 4).bind fun _ => Takes.ret _

private theorem Takes.readF64 (e : Endian) : Takes 8 (readF64 e) := (Takes.readN 8).bind fun _ => Takes.ret _

private theorem Takes.loop {k : Nat} {body : Nat → Prog Unit} (h : ∀ i, Takes k (body i)) (n i : Nat) :
    Takes (k * n) (loop n i body) := by
  induction n generalizing i with
  | zero => exact Takes.ret _
  | succ n ih => exact ((h i).bind fun _ => ih (i + 1)).mono (by rw [Nat.mul_succ]; omega)

private theorem Takes.opt {b : Bool} (e : Endian) :
    Takes 0 (if b = true then (do let v ← Prog.readF64 e; pure (some v)) else pure none : Prog (Option F64)) := by
  cases b
  · exact Takes.ret _
  · exact ((Takes.readF64 e).bind fun _ => Takes.ret _).mono (by omega)

private theorem Takes.coord (info : WkbInfo) (multi : Bool) (idx : Nat) : Takes 0 (processCoord info multi idx) := by
  unfold processCoord readCoord64 emitCoord
  exact (((Takes.readF64 _).bind fun _ => (Takes.readF64 _).bind fun _ => (Takes.opt _).bind fun _ => (Takes.opt _).bind fun _ =>
    Takes.ret _).bind fun _ => (Takes.emit _).bind fun _ => Takes.ret _).mono (by omega)

private theorem Takes.askMulti {α : Type} {k : Nat} {f : Bool → Prog α} (h : ∀ b, Takes k (f b)) : Takes k (Prog.bind multiDim f) :=
  ⟨fun multi bs evs a rest hr => (h multi).enough multi bs evs a rest (by rwa [run_multiDim_bind] at hr),
    fun multi bs err hr => (h multi).fails multi bs err (by rwa [run_multiDim_bind] at hr)⟩

private theorem Takes.linestring (fo : FOps) (info : WkbInfo) (hi : info.isCompressed = false) (tagged : Bool) (idx : Nat) :
    Takes 4 (processLinestring fo info tagged idx) := by
  unfold processLinestring
  simp only [hi, Bool.false_eq_true, false_and, if_false]
  refine ((Takes.readU32 _).bind (k := 0) fun n => ((Takes.emit _).bind (k := 0) fun _ => Takes.askMulti fun b =>
    ((Takes.loop (k := 0) (fun i => ?_) n 0).bind (k := 0) fun _ => Takes.emit _).mono (by omega)).mono (by omega)).mono (by omega)
  exact ((Takes.coord info b i).bind (k := 0) fun _ => Takes.ret _).mono (by omega)

/-- the rings after their number, and the end of the geometry -/
private theorem Takes.rings (fo : FOps) (info : WkbInfo) (hi : info.isCompressed = false) (n : Nat) (e1 e2 : Ev) :
    Takes (4 * n) (Prog.bind (emitEv e1) fun _ => Prog.bind (Prog.loop n 0 fun i => processLinestring fo info false i) fun _ => emitEv e2) :=
  ((Takes.emit _).bind fun _ => (Takes.loop (fun i => Takes.linestring fo info hi false i) n 0).bind fun _ => Takes.emit _).mono
    (by omega)

/-- C14, polygons and triangles: without rings they are delivered.  Otherwise the number of rings is read with its bytes in opposite
order, and nothing can be read if fewer than four times as many bytes follow.  Missing: what is delivered if there are enough bytes,
which takes at least 65536 points in rings numbered accordingly (C14_gpkg_mixed_small_rings). -/
theorem C14_gpkg_mixed_rings_partial (fo : FOps) (d : Dims) (he e : Endian) (hne : he ≠ e) (srid : Int) (hs : isI32 srid)
    (env : List F64) (g : Geom) (bs : List Byte) (multi : Bool) (h : Gpkg d he e srid env g bs) (n : Nat) (hp : g.rings = some n) :
    (n = 0 → ∀ rest, run multi (processWkbTypeGeom fo .geopackage) (bs ++ rest) =
      (.srid (some srid) :: g.events multi 0, .ok ((), rest))) ∧
    (bs.length < 4 * swapped32 n → (run multi (processWkbTypeGeom fo .geopackage) bs).2 = .error .io) := by
  obtain ⟨hb, wb, rfl, hhb, hc, hb2, bb, rfl, hhb2, hbody⟩ := h
  unfold ogcHeader at hhb2
  subst hhb2
  constructor
  · intro hn rest
    subst hn
    have hl : g.levels ≤ 128 := by cases g <;> simp only [Geom.rings, reduceCtorEq] at hp <;> simp [Geom.levels]
    have hb' : Body d (ogcHeader d) g he bb := by
      cases g <;> simp only [Geom.rings, reduceCtorEq, Option.some.injEq, List.length_eq_zero_iff] at hp <;> subst hp <;>
      · obtain ⟨h1, b1, rfl, h2⟩ := hbody
        exact ⟨h1, b1, by rw [encU32_other hne]; rfl, h2⟩
    have := read_mixed fo d he e srid hs env hb hhb g hc bb rest hb' hl multi
    simpa using this
  · intro hlen
    show (run multi (processTop fo readGpkgHeader readWkbNestedHeader) _).2 = _
    unfold processTop
    simp only [bind_eq]
    rw [run_bind_ok_nil (run_readGpkgHeader d he e srid hs env hb hhb _ (typeCode_le g) multi bb)]
    simp only [run_emitEv_bind]
    have hcount : ∃ b1, bb = encU32 he (swapped32 n) ++ b1 := by
      cases g <;> simp only [Geom.rings, reduceCtorEq, Option.some.injEq] at hp <;> subst hp <;>
      · obtain ⟨-, b1, rfl, -⟩ := hbody
        exact ⟨b1, by rw [encU32_other hne]⟩
    obtain ⟨b1, rfl⟩ := hcount
    have hrings : ∀ (info : WkbInfo) (_ : info.isCompressed = false) (e1 e2 : Ev), (run multi (Prog.bind (emitEv e1) fun _ =>
        Prog.bind (loop (swapped32 n) 0 fun i => processLinestring fo info false i) fun _ => emitEv e2) b1).2 = .error .io := by
      intro info hi e1 e2
      have ht := Takes.rings fo info hi (swapped32 n) e1 e2
      rcases hr : run multi (Prog.bind (emitEv e1) fun _ =>
        Prog.bind (loop (swapped32 n) 0 fun i => processLinestring fo info false i) fun _ => emitEv e2) b1 with ⟨evs, er | ⟨a, rest⟩⟩
      · have := ht.fails multi b1 er (by rw [hr])
        rw [this]
      · have := ht.enough multi b1 evs a rest hr
        simp only [List.length_append] at hlen
        omega
    cases g <;> simp only [Geom.rings, reduceCtorEq, Option.some.injEq] at hp <;> subst hp
    · show (run multi (processPolygon fo _ true 0) _).2 = _
      unfold processPolygon
      simp only [bind_eq]
      rw [run_bind_ok_nil (run_readU32 multi he _ _ (swapped32_lt _))]
      exact hrings _ rfl _ _
    · show (run multi (processTriangle fo _ true 0) _).2 = _
      unfold processTriangle
      simp only [bind_eq]
      rw [run_bind_ok_nil (run_readU32 multi he _ _ (swapped32_lt _))]
      exact hrings _ rfl _ _

/-- C14: a polygon or triangle with at least one and fewer than 65536 rings in a blob of less than 256 KiB cannot be read. -/
theorem C14_gpkg_mixed_small_rings (fo : FOps) (d : Dims) (he e : Endian) (hne : he ≠ e) (srid : Int) (hs : isI32 srid)
    (env : List F64) (g : Geom) (bs : List Byte) (multi : Bool) (h : Gpkg d he e srid env g bs) (n : Nat) (hp : g.rings = some n)
    (h1 : 0 < n) (h2 : n < 2 ^ 16) (hlen : bs.length < 2 ^ 18) :
    (run multi (processWkbTypeGeom fo .geopackage) bs).2 = .error .io :=
  (C14_gpkg_mixed_rings_partial fo d he e hne srid hs env g bs multi h n hp).2 (by have := swap32 n h1 h2; omega)

/-- a little endian header before a big endian polygon with one ring of no points -/
example : Gpkg {} .le .be 4326 [] (.polygon [[]])
      (([0x47, 0x50, 0, 1] ++ encI32 .le 4326) ++ ((0 :: encU32 .be 3) ++ (encU32 .be 1 ++ encU32 .be 0))) ∧
    (Geom.polygon [[]]).rings = some 1 := by
  refine ⟨⟨_, _, rfl, ⟨0, 0, false, false, by simp [EnvelopeCode], rfl⟩, ?_, 0 :: encU32 .be 3, _, rfl, rfl, ?_⟩, rfl⟩
  · simp [AllCoords]
  · exact ⟨by decide, _, rfl, encU32 .be 0, [], by simp, ⟨by decide, [], by simp, rfl⟩, rfl⟩

/-- a little endian header before a big endian line string of two points -/
example : Gpkg {} .le .be 4326 [] (.lineString [⟨1#64, 2#64, none, none⟩, ⟨3#64, 4#64, none, none⟩])
      (([0x47, 0x50, 0, 1] ++ encI32 .le 4326) ++ ((0 :: encU32 .be 2) ++ (encU32 .be 2 ++ (encF64 .be 1#64 ++ encF64 .be 2#64 ++
        (encF64 .be 3#64 ++ encF64 .be 4#64))))) ∧
    (Geom.lineString [⟨1#64, 2#64, none, none⟩, ⟨3#64, 4#64, none, none⟩]).parts = some 2 := by
  refine ⟨⟨_, _, rfl, ⟨0, 0, false, false, by simp [EnvelopeCode], rfl⟩, ?_, 0 :: encU32 .be 2, _, rfl, rfl, ?_⟩, rfl⟩
  · simp [AllCoords, HasDims]
  · exact ⟨by decide, _, rfl, _, _, rfl, by decide, encF64 .be 3#64 ++ encF64 .be 4#64, [], by simp, by decide, rfl⟩

/-- and before a big endian point, which becomes another point -/
example : Gpkg {} .le .be 4326 [] (.point ⟨1#64, 2#64, none, none⟩)
      (([0x47, 0x50, 0, 1] ++ encI32 .le 4326) ++ ((0 :: encU32 .be 1) ++ (encF64 .be 1#64 ++ encF64 .be 2#64))) ∧
    ¬ AllNaN (Coord.swapped ⟨1#64, 2#64, none, none⟩) ∧ Coord.swapped ⟨1#64, 2#64, none, none⟩ ≠ ⟨1#64, 2#64, none, none⟩ := by
  refine ⟨⟨_, _, rfl, ⟨0, 0, false, false, by simp [EnvelopeCode], rfl⟩, ?_, 0 :: encU32 .be 1, _, rfl, rfl, ?_⟩, ?_, by decide⟩
  · simp [AllCoords, HasDims]
  · exact ⟨by decide, by decide⟩
  · intro h
    exact absurd h.1 (by decide)

end Geozero
