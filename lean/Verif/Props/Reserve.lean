import Verif.Lemmas.Reserve
import Verif.Spec.Reserve
import Verif.Props.GeoTypes
import Verif.Model.Mvt
import Verif.Model.Geos
import Verif.Lemmas.ShpReserve

/-
C77: memory reserved from announced sizes is bounded by the input.
-/

namespace Geozero

open Prog

/-- what an accepted call takes -/
def cappedBytes (sz : ElemSizes) (k : GKind) (n : Nat) : Nat :=
  if n * elementBytes sz k ≤ 16 * 1024 * 1024 then n * elementBytes sz k else 0

theorem elementBytes_le (sz : ElemSizes) (k : GKind) : elementBytes sz k ≤ sz.largest := by
  unfold ElemSizes.largest
  cases k <;> simp only [elementBytes] <;> omega

theorem cappedBytes_lin (sz : ElemSizes) (k : GKind) (n : Nat) : cappedBytes sz k n ≤ sz.largest * n := by
  unfold cappedBytes
  split
  · rw [Nat.mul_comm]; exact Nat.mul_le_mul_right n (elementBytes_le sz k)
  · exact Nat.zero_le _

theorem cappedBytes_cap (sz : ElemSizes) (k : GKind) (n : Nat) : cappedBytes sz k n ≤ 16 * 1024 * 1024 := by
  unfold cappedBytes
  split <;> omega

theorem announcedBytes_eq {σ : Type} {step : σ → Ev → Except Err σ} {sz : ElemSizes}
    (hrej : ∀ s k t n i, 16 * 1024 * 1024 < n * elementBytes sz k → ∃ e, step s (.gbegin k t n i) = .error e)
    {s s' : σ} {pre : List Ev} (h : feed step s pre = .ok s') : announcedBytes sz pre = weights (cappedBytes sz) pre := by
  induction pre generalizing s with
  | nil => rfl
  | cons e pre ih =>
    simp only [feed] at h
    cases hs : step s e with
    | error x => rw [hs] at h; cases h
    | ok s1 =>
      rw [hs] at h
      have := ih h
      cases e <;> simp only [announcedBytes, weights, evWeight] <;> try omega
      rename_i k t n i
      rw [this]
      show n * elementBytes sz k + _ = cappedBytes sz k n + _
      rw [cappedBytes]
      split
      · rfl
      · obtain ⟨x, hx⟩ := hrej s k t n i (by omega)
        rw [hs] at hx; cases hx

theorem weights_prefix {w : GKind → Nat → Nat} {pre evs : List Ev} (h : pre <+: evs) : weights w pre ≤ weights w evs := by
  obtain ⟨t, rfl⟩ := h
  induction pre with
  | nil => exact Nat.zero_le _
  | cons e pre ih => simp only [List.cons_append, weights]; omega

theorem geoWriter_rejects (sz : ElemSizes) (w : GeoWriter) (k : GKind) (t : Bool) (n i : Nat)
    (h : 16 * 1024 * 1024 < n * elementBytes sz k) : ∃ e, GeoWriter.step sz w (.gbegin k t n i) = .error e := by
  cases hk : announcedSize sz k with
  | none => cases k <;> simp only [announcedSize, reduceCtorEq] at hk <;> simp [elementBytes] at h
  | some size =>
    refine C18_announced_size_rejected sz w k t n i size hk ?_
    cases k <;> simp only [announcedSize, Option.some.injEq, reduceCtorEq] at hk <;> subst hk <;> exact h

/-- Building a geo-types geometry from WKB of any dialect: for the calls the writer accepted up to any moment, all the memory it has
reserved from announced sizes is at most the size of the largest element for each byte of the input, and 131 times 16 MiB. -/
theorem C77_geo_from_wkb (fo : FOps) (sz : ElemSizes) (d : WkbDialect) (bs : List Byte) (pre : List Ev) (w' : GeoWriter)
    (hpre : pre <+: (interp (GeoWriter.proc sz) (processWkbTypeGeom fo d) {} bs).2.1)
    (hok : feed (GeoWriter.step sz) {} pre = .ok w') :
    announcedBytes sz pre ≤ sz.largest * bs.length + 131 * (16 * 1024 * 1024) := by
  rw [announcedBytes_eq (geoWriter_rejects sz) hok]
  exact Nat.le_trans (weights_prefix hpre)
    (weights_wkb (cappedBytes_lin sz) (cappedBytes_cap sz) fo d (GeoWriter.proc sz) {} bs).1

/-- ... and when the geometry is built, the input alone pays for it. -/
theorem C77_geo_from_wkb_success (fo : FOps) (sz : ElemSizes) (d : WkbDialect) (bs : List Byte) (g : GeoGeom)
    (h : geoFromWkb fo sz d bs = .ok g) :
    announcedBytes sz (interp (GeoWriter.proc sz) (processWkbTypeGeom fo d) {} bs).2.1 ≤ sz.largest * bs.length := by
  have hr : ∃ a rest, (interp (GeoWriter.proc sz) (processWkbTypeGeom fo d) {} bs).2.2 = .ok (a, rest) := by
    unfold geoFromWkb at h
    split at h
    · rename_i r heq
      exact ⟨r.1, r.2, by rw [heq]⟩
    · cases h
  obtain ⟨a, rest, hr⟩ := hr
  have hok : feed (GeoWriter.step sz) {} (interp (GeoWriter.proc sz) (processWkbTypeGeom fo d) {} bs).2.1 =
      .ok (interp (GeoWriter.proc sz) (processWkbTypeGeom fo d) {} bs).1 := by
    rcases interp_spec (GeoWriter.proc sz) (processWkbTypeGeom fo d) {} bs with h1 | ⟨_, _, x, _, _, _, h4⟩
    · exact h1
    · rw [hr] at h4; cases h4
  rw [announcedBytes_eq (geoWriter_rejects sz) hok]
  have := (weights_wkb (cappedBytes_lin sz) (cappedBytes_cap sz) fo d (GeoWriter.proc sz) {} bs).2 a rest hr
  omega

/-- the MVT writer refuses what the geo-types writer refuses -/
theorem C77_mvt_announced_size_rejected (sz : ElemSizes) (tr : F64 → F64 → IXY) (w : MvtWriter) (k : GKind) (t : Bool) (n i : Nat)
    (h : 16 * 1024 * 1024 < n * elementBytes sz k) : ∃ e, MvtWriter.step sz tr w (.gbegin k t n i) = .error e := by
  have hv : ∀ (α : Type) (size : Nat), 16 * 1024 * 1024 < n * size → boundedVec α size n = .error (.geometry "preallocation budget") := by
    intro α size h
    unfold boundedVec validateCapacity saturatingMul maxPreallocBytes usizeMax
    rw [if_pos (by omega)]
  cases k <;> simp only [elementBytes, Nat.mul_zero, Nat.not_lt_zero] at h <;>
    simp only [MvtWriter.step, MvtWriter.gbegin, MvtWriter.debugAssert, hv _ _ h] <;> (try split) <;> exact ⟨_, rfl⟩

/-- The same for a vector-tile feature built from WKB. -/
theorem C77_mvt_from_wkb (fo : FOps) (sz : ElemSizes) (tr : F64 → F64 → IXY) (d : WkbDialect) (bs : List Byte) (pre : List Ev)
    (w w' : MvtWriter)
    (hpre : pre <+: (interp (MvtWriter.proc sz tr) (processWkbTypeGeom fo d) w bs).2.1)
    (hok : feed (MvtWriter.step sz tr) w pre = .ok w') :
    announcedBytes sz pre ≤ sz.largest * bs.length + 131 * (16 * 1024 * 1024) := by
  rw [announcedBytes_eq (C77_mvt_announced_size_rejected sz tr) hok]
  exact Nat.le_trans (weights_prefix hpre)
    (weights_wkb (cappedBytes_lin sz) (cappedBytes_cap sz) fo d (MvtWriter.proc sz tr) w bs).1

/-- the sizes of the geo-types elements on a 64-bit machine -/
def sizes64 : ElemSizes := { coord := 16, line := 24, poly := 48, geom := 56 }

/-- 129 nested collections, each announcing 299593 members (16777208 bytes, just within the 16 MiB allowed at a time) -/
def nestedLies : List Byte := (List.replicate 129 ([1, 7, 0, 0, 0, 73, 146, 4, 0] : List Byte)).flatten

theorem interp_bind_error {α β σ : Type} {P : Proc σ} {p : Prog α} {f : α → Prog β} {s : σ} {bs : List Byte} {x : Err}
    (h : (interp P p s bs).2.2 = .error x) :
    (interp P (Prog.bind p f) s bs).2 = ((interp P p s bs).2.1, .error x) := by
  induction p generalizing s bs with
  | ret a => cases h
  | fail e => simp only [interp, Except.error.injEq] at h; subst h; rfl
  | read k ih =>
    cases bs with
    | nil => simp only [interp, Except.error.injEq] at h; subst h; rfl
    | cons b bs => exact ih b h
  | emit e k ih =>
    simp only [interp, Prog.bind] at h ⊢
    cases hs : P.step s e with
    | error y => simp only [hs, Except.error.injEq] at h; subst h; rfl
    | ok s' =>
      simp only [hs] at h
      have h2 := ih h
      show (e :: (interp P (k.bind f) s' bs).2.1, (interp P (k.bind f) s' bs).2.2) = _
      rw [h2]
  | askMulti k ih => exact ih _ h

/-- the header of one of the collections -/
def collectionInfo : WkbInfo :=
  { endian := .le, baseType := .geometryCollection, hasZ := false, hasM := false, srid := none, envelope := [],
    isCompressed := false }

/-- the reader of a member of such a collection -/
def lyingMember (fo : FOps) (fuel depth i : Nat) : Prog Unit :=
  Prog.bind (readWkbNestedHeader collectionInfo) fun sub => processGeomN fo readWkbNestedHeader fuel sub i (depth + 1)

theorem interp_call {β σ : Type} {P : Proc σ} {e : Ev} {f : Unit → Prog β} {s s' : σ} {bs : List Byte} (h : P.step s e = .ok s') :
    (interp P (Prog.bind (emitEv e) f) s bs).2 = (e :: (interp P (f ()) s' bs).2.1, (interp P (f ()) s' bs).2.2) := by
  simp only [emitEv, Prog.bind, interp, h]

theorem interp_loop_error {σ : Type} {P : Proc σ} {body : Nat → Prog Unit} {n : Nat} (hn : 0 < n) {s : σ} {bs : List Byte}
    {evs : List Ev} {x : Err} (h : (interp P (body 0) s bs).2 = (evs, .error x)) {g : Unit → Prog Unit} :
    (interp P (Prog.bind (loop n 0 body) g) s bs).2 = (evs, .error x) := by
  obtain ⟨m, rfl⟩ : ∃ m, n = m + 1 := ⟨n - 1, by omega⟩
  have h1 := interp_bind_error (f := fun _ => loop m 1 body) (congrArg Prod.snd h)
  have h2 := interp_bind_error (f := g) (congrArg Prod.snd h1)
  refine Eq.trans h2 ?_
  rw [h1, h]

theorem interp_readU32_lies {β σ : Type} {P : Proc σ} {f : Nat → Prog β} {s : σ} {rest : List Byte} :
    interp P (Prog.bind (readU32 .le) f) s (73 :: 146 :: 4 :: 0 :: rest) = interp P (f 299593) s rest := rfl

theorem interp_collectionHeader {β σ : Type} {P : Proc σ} {f : WkbInfo → Prog β} {s : σ} {rest : List Byte} :
    interp P (Prog.bind readWkbHeader f) s (1 :: 7 :: 0 :: 0 :: 0 :: rest) = interp P (f collectionInfo) s rest := rfl

theorem collection_begin (s : GeoWriter) :
    (GeoWriter.proc sizes64).step s (.gbegin .collection true 299593 0) = .ok { s with collections := [] :: s.collections } := rfl

theorem collection_begins (n : Nat) (s : GeoWriter) :
    ∃ w', feed (GeoWriter.step sizes64) s (List.replicate n (.gbegin .collection true 299593 0)) = .ok w' := by
  induction n generalizing s with
  | zero => exact ⟨s, rfl⟩
  | succ n ih => exact ih { s with collections := [] :: s.collections }

theorem nestedLies_members (fo : FOps) (fuel depth : Nat) (s : GeoWriter) (rest : List Byte) (evs : List Ev)
    (h : (interp (GeoWriter.proc sizes64) (lyingMember fo fuel depth 0) { s with collections := [] :: s.collections } rest).2 =
      (evs, .error .io)) :
    (interp (GeoWriter.proc sizes64) (processMembers .collection collectionInfo 0 (lyingMember fo fuel depth)) s
      (73 :: 146 :: 4 :: 0 :: rest)).2 = (.gbegin .collection true 299593 0 :: evs, .error .io) := by
  have hc : collectionInfo.endian = .le := rfl
  simp only [processMembers, hc, Prog.bind_eq]
  rw [interp_readU32_lies, interp_call (collection_begin s), interp_loop_error (by omega) h]

theorem nestedLies_geom (fo : FOps) (k fuel depth : Nat) (s : GeoWriter) (hf : k < fuel) (hd : depth + k ≤ 128) :
    (interp (GeoWriter.proc sizes64) (processGeomN fo readWkbNestedHeader fuel collectionInfo 0 depth) s
        ([73, 146, 4, 0] ++ (List.replicate k ([1, 7, 0, 0, 0, 73, 146, 4, 0] : List Byte)).flatten)).2 =
      (List.replicate (k + 1) (.gbegin .collection true 299593 0), .error .io) := by
  induction k generalizing fuel depth s with
  | zero =>
    obtain ⟨fuel, rfl⟩ : ∃ f, fuel = f + 1 := ⟨fuel - 1, by omega⟩
    unfold processGeomN
    rw [if_neg (by unfold wkbMaxNestingDepth; omega)]
    exact nestedLies_members fo fuel depth s [] [] rfl
  | succ k ih =>
    obtain ⟨fuel, rfl⟩ : ∃ f, fuel = f + 1 := ⟨fuel - 1, by omega⟩
    have h1 := ih fuel (depth + 1) { s with collections := [] :: s.collections } (by omega) (by omega)
    unfold processGeomN
    rw [if_neg (by unfold wkbMaxNestingDepth; omega)]
    refine nestedLies_members fo fuel depth s _ _ (Eq.trans (congrArg Prod.snd ?_) h1)
    rw [List.replicate_succ, List.flatten_cons]
    exact interp_collectionHeader

/-- The constant is needed: an input of 1161 bytes, refused in the end, makes the writer reserve more than 2 GiB. -/
theorem C77_input_alone_false (fo : FOps) : nestedLies.length = 1161 ∧
    ∃ pre w', pre <+: (interp (GeoWriter.proc sizes64) (processWkbTypeGeom fo .wkb) {} nestedLies).2.1 ∧
      feed (GeoWriter.step sizes64) {} pre = .ok w' ∧ 2 * 1024 * 1024 * 1024 < announcedBytes sizes64 pre := by
  have h : (interp (GeoWriter.proc sizes64) (processWkbTypeGeom fo .wkb) {} nestedLies).2.1 =
      .srid none :: List.replicate 129 (.gbegin .collection true 299593 0) := by
    have h1 := nestedLies_geom fo 128 130 0 {} (by omega) (by omega)
    have h2 : nestedLies = 1 :: 7 :: 0 :: 0 :: 0 ::
        ([73, 146, 4, 0] ++ (List.replicate 128 ([1, 7, 0, 0, 0, 73, 146, 4, 0] : List Byte)).flatten) := by
      unfold nestedLies
      rw [List.replicate_succ]
      rfl
    rw [h2]
    simp only [processWkbTypeGeom, processWkbGeom, processTop, Prog.bind_eq]
    rw [interp_collectionHeader, interp_call (s' := {}) rfl, h1]
    rfl
  obtain ⟨w', hw⟩ := collection_begins 129 {}
  exact ⟨by decide +kernel, _, w', List.prefix_refl _, by rw [h]; exact hw, by rw [h]; decide +kernel⟩

/-- For GEOS the claim is false: the writer does not limit what it reserves, and a line string of 9 bytes makes it build a sequence
of 4294967295 positions. -/
theorem C77_geos_from_wkb_false (lib : GeosLib) (fo : FOps) :
    (interp (GeosWriter.proc lib) (processWkbTypeGeom fo .wkb) {} [1, 2, 0, 0, 0, 255, 255, 255, 255]).1.cs.map List.length =
      [4294967295] := by
  have h : (interp (GeosWriter.proc lib) (processWkbTypeGeom fo .wkb) {} [1, 2, 0, 0, 0, 255, 255, 255, 255]).1.cs =
      [List.replicate 4294967295 lib.fresh] := rfl
  rw [h]
  simp only [List.map_cons, List.map_nil, List.length_replicate]

/-! ### shapefiles -/

/-- The instrumented reader of a record is the reader of a record. -/
theorem C77_shapefile_record_same (multi : Bool) (bs : List Byte) :
    Prog.run multi readShpRecord bs = ([], (MProg.run mReadShpRecord bs).2) := by
  rw [← erase_mReadShpRecord]
  exact MProg.run_erase _ _ _

/-- ... and that of an index file the reader of an index file. -/
theorem C77_index_file_same (multi : Bool) (bs : List Byte) :
    Prog.run multi readIndexFile bs = ([], (MProg.run mReadIndexFile bs).2) := by
  rw [← erase_mReadIndexFile]
  exact MProg.run_erase _ _ _

/-- Reading a shapefile record, whatever its bytes: all the memory reserved is at most four times the size the record declares
(a number of 16-bit words at offset 4), and 32 bytes. -/
theorem C77_shapefile_record_declared (bs : List Byte) :
    (MProg.run mReadShpRecord bs).1 ≤ 32 + 4 * (2 * (Spec.i32At .be 4 bs).toNat) := by
  have := reserved_record bs
  omega

/-- When the record is read, it is at most four times the bytes read. -/
theorem C77_shapefile_record (bs : List Byte) (a : Int × ShpShape) (rest : List Byte)
    (h : (Prog.run false readShpRecord bs).2 = .ok (a, rest)) :
    (MProg.run mReadShpRecord bs).1 + 4 * rest.length ≤ 4 * bs.length := by
  rw [C77_shapefile_record_same] at h
  have := paid_mReadShpRecord bs a rest h
  omega

/-- The same for an index file. -/
theorem C77_index_file (bs : List Byte) (a : List (Int × Int)) (rest : List Byte)
    (h : (Prog.run false readIndexFile bs).2 = .ok (a, rest)) :
    (MProg.run mReadIndexFile bs).1 + 4 * rest.length ≤ 4 * bs.length := by
  rw [C77_index_file_same] at h
  have := paid_mReadIndexFile bs a rest h
  omega

/-- a record of 12 bytes: a multipatch that declares 2147483646 bytes -/
def lyingRecord : List Byte := [0, 0, 0, 1, 0x3f, 0xff, 0xff, 0xff, 31, 0, 0, 0]

/-- The bytes read do not bound what a record that cannot be read reserves: 12 bytes make the reader allocate nearly 2 GiB. -/
theorem C77_shapefile_record_false : lyingRecord.length = 12 ∧ (MProg.run mReadShpRecord lyingRecord).1 = 2147483642 := by
  decide +kernel

/-- an index file that ends after its header of 100 bytes and declares 2147483646 bytes -/
def lyingIndex : List Byte :=
  [0, 0, 0x27, 0x0a] ++ List.replicate 20 0 ++ [0x3f, 0xff, 0xff, 0xff] ++ [0xe8, 3, 0, 0] ++ [1, 0, 0, 0] ++ List.replicate 64 0

/-- Nor for an index file: 100 bytes, nearly 2 GiB. -/
theorem C77_index_file_false : lyingIndex.length = 100 ∧ (MProg.run mReadIndexFile lyingIndex).1 = 2147483544 := by
  decide +kernel

/-! ### the hypotheses are met -/

/-- a line string of two points: 41 bytes reserve 32 -/
example (fo : FOps) : ∃ g, geoFromWkb fo sizes64 .wkb ([1, 2, 0, 0, 0, 2, 0, 0, 0] ++ List.replicate 32 0) = .ok g ∧
    announcedBytes sizes64 (interp (GeoWriter.proc sizes64) (processWkbTypeGeom fo .wkb) {}
      ([1, 2, 0, 0, 0, 2, 0, 0, 0] ++ List.replicate 32 0)).2.1 = 32 := ⟨_, rfl, rfl⟩

/-- a record of one multipoint with one point: 56 bytes reserve 48 -/
example : ∃ a rest, (Prog.run false readShpRecord
      ([0, 0, 0, 1, 0, 0, 0, 28, 8, 0, 0, 0] ++ List.replicate 32 0 ++ [1, 0, 0, 0] ++ List.replicate 16 0)).2 = .ok (a, rest) ∧
    (MProg.run mReadShpRecord
      ([0, 0, 0, 1, 0, 0, 0, 28, 8, 0, 0, 0] ++ List.replicate 32 0 ++ [1, 0, 0, 0] ++ List.replicate 16 0)).1 = 48 :=
  ⟨_, _, rfl, rfl⟩

/-- an index file of one entry: 108 bytes reserve 8 -/
example : ∃ a rest, (Prog.run false readIndexFile
      ([0, 0, 0x27, 0x0a] ++ List.replicate 20 0 ++ [0, 0, 0, 54] ++ [0xe8, 3, 0, 0] ++ [1, 0, 0, 0] ++ List.replicate 64 0 ++
        [0, 0, 0, 50, 0, 0, 0, 10])).2 = .ok (a, rest) ∧
    (MProg.run mReadIndexFile
      ([0, 0, 0x27, 0x0a] ++ List.replicate 20 0 ++ [0, 0, 0, 54] ++ [0xe8, 3, 0, 0] ++ [1, 0, 0, 0] ++ List.replicate 64 0 ++
        [0, 0, 0, 50, 0, 0, 0, 10])).1 = 8 := by
  refine ⟨[(50, 10)], [], ?_, ?_⟩ <;> rfl

end Geozero
