import Verif.Spec.Shp
import Verif.Lemmas.Bytes
import Verif.Lemmas.Features

/- Helper lemmas about the shapefile readers. -/

namespace Geozero
open Prog Spec

/-! ### reading what the specification writes -/

theorem run_readF64List (multi : Bool) (vs : List F64) (rest : List Byte) :
    run multi (readF64List vs.length) (f64Bytes vs ++ rest) = ([], .ok (vs, rest)) := by
  induction vs with
  | nil => rfl
  | cons v vs ih =>
    simp only [List.length_cons, readF64List, bind_eq, f64Bytes, List.flatMap_cons, List.append_assoc]
    rw [run_bind_ok_nil (run_readF64 multi .le v _)]
    unfold f64Bytes at ih
    rw [run_bind_ok_nil ih]
    rfl

def toXY (c : Coord) : XY := ⟨c.x, c.y⟩

theorem run_readXYs (multi : Bool) (cs : List Coord) (rest : List Byte) :
    run multi (readXYs cs.length) (xyBytes cs ++ rest) = ([], .ok (cs.map toXY, rest)) := by
  induction cs with
  | nil => rfl
  | cons c cs ih =>
    simp only [List.length_cons, readXYs, bind_eq, xyBytes, List.flatMap_cons, List.append_assoc]
    rw [run_bind_ok_nil (run_readF64 multi .le c.x _), run_bind_ok_nil (run_readF64 multi .le c.y _)]
    unfold xyBytes at ih
    rw [run_bind_ok_nil ih]
    rfl

theorem i32AsUsize_nat {n : Nat} (h : n < 2 ^ 31) : i32AsUsize n = n := by
  unfold i32AsUsize; omega

theorem run_readParts (multi : Bool) (vs : List Nat) (rest : List Byte) (h : ∀ v ∈ vs, v < 2 ^ 31) :
    run multi (readParts vs.length) (i32Bytes vs ++ rest) = ([], .ok (vs, rest)) := by
  induction vs with
  | nil => rfl
  | cons v vs ih =>
    have hv : v < 2 ^ 31 := h v (by simp)
    simp only [List.length_cons, readParts, bind_eq, i32Bytes, List.flatMap_cons, List.append_assoc]
    rw [run_bind_ok_nil (run_readI32 multi .le v _ (by unfold isI32; omega))]
    unfold i32Bytes at ih
    rw [run_bind_ok_nil (ih fun w hw => h w (by simp [hw])), i32AsUsize_nat hv]
    rfl

theorem run_readDimValuesIf (multi present : Bool) (range : F64 × F64) (vs : List F64) (n : Nat) (rest : List Byte)
    (h : present = true → vs.length = n) (h' : present = false → vs = []) :
    run multi (readDimValuesIf present n) (blockBytes present range vs ++ rest) = ([], .ok (vs, rest)) := by
  cases present with
  | false => rw [h' rfl]; rfl
  | true =>
    simp only [readDimValuesIf, if_true, readDimValues, bind_eq, blockBytes, readBbox, List.append_assoc]
    have h2 := run_readF64List multi [range.1, range.2] (f64Bytes vs ++ rest)
    rw [show 2 * 1 = [range.1, range.2].length from rfl, run_bind_ok_nil h2, ← h rfl, run_readF64List]

theorem run_readBbox (multi : Bool) (x : EsriExtent) (rest : List Byte) :
    run multi (readBbox 2) (boxBytes x ++ rest) = ([], .ok ([x.box.1, x.box.2.1, x.box.2.2.1, x.box.2.2.2], rest)) :=
  run_readF64List multi [x.box.1, x.box.2.1, x.box.2.2.1, x.box.2.2.2] rest

/-! ### lengths -/

@[simp] theorem f64Bytes_length (vs : List F64) : (f64Bytes vs).length = 8 * vs.length := by
  induction vs with
  | nil => rfl
  | cons v vs ih => simp only [f64Bytes, List.flatMap_cons, List.length_append, encF64_length, List.length_cons] at ih ⊢; omega

@[simp] theorem i32Bytes_length (vs : List Nat) : (i32Bytes vs).length = 4 * vs.length := by
  induction vs with
  | nil => rfl
  | cons v vs ih => simp only [i32Bytes, List.flatMap_cons, List.length_append, encI32_length, List.length_cons] at ih ⊢; omega

@[simp] theorem xyBytes_length (cs : List Coord) : (xyBytes cs).length = 16 * cs.length := by
  induction cs with
  | nil => rfl
  | cons v vs ih =>
    simp only [xyBytes, List.flatMap_cons, List.length_append, encF64_length, List.length_cons] at ih ⊢; omega

@[simp] theorem boxBytes_length (x : EsriExtent) : (boxBytes x).length = 32 := rfl

theorem blockBytes_length (present : Bool) (range : F64 × F64) (vs : List F64) :
    (blockBytes present range vs).length = if present then dimValueSize vs.length else 0 := by
  cases present
  · rfl
  · simp only [blockBytes, if_true, List.length_append, f64Bytes_length, dimValueSize, List.length_cons, List.length_nil]
    omega

@[simp] theorem partStarts_length {α : Type} (n : Nat) (ps : List (List α)) : (partStarts n ps).length = ps.length := by
  induction ps generalizing n with
  | nil => rfl
  | cons p ps ih => simp [partStarts, ih]

theorem partStarts_le {α : Type} (n : Nat) (ps : List (List α)) : ∀ v ∈ partStarts n ps, v ≤ n + ps.flatten.length := by
  induction ps generalizing n with
  | nil => simp [partStarts]
  | cons p ps ih =>
    intro v hv
    simp only [partStarts, List.mem_cons] at hv
    simp only [List.flatten_cons, List.length_append]
    rcases hv with rfl | hv
    · omega
    · have := ih _ v hv; omega

theorem filterMap_length {α β : Type} {f : α → Option β} {b : Bool} {cs : List α} (h : ∀ c ∈ cs, (f c).isSome = b) :
    (b = true → (cs.filterMap f).length = cs.length) ∧ (b = false → cs.filterMap f = []) := by
  induction cs with
  | nil => simp
  | cons c cs ih =>
    have h1 := h c (by simp)
    have ih := ih fun c' hc => h c' (by simp [hc])
    cases hc : f c with
    | none =>
      rw [hc] at h1
      simp only [Option.isSome_none] at h1
      subst h1
      exact ⟨by simp, fun _ => by rw [List.filterMap_cons_none hc]; exact ih.2 rfl⟩
    | some v =>
      rw [hc] at h1
      simp only [Option.isSome_some] at h1
      subst h1
      refine ⟨fun _ => ?_, by simp⟩
      rw [List.filterMap_cons_some hc]
      simp [ih.1 rfl]

theorem block_length {f : Coord → Option F64} {b : Bool} {cs : List Coord} (h : ∀ c ∈ cs, (f c).isSome = b) (r : F64 × F64) :
    (blockBytes b r (cs.filterMap f)).length = if b then dimValueSize cs.length else 0 := by
  rw [blockBytes_length]
  cases b
  · rfl
  · simp only [if_true, (filterMap_length h).1 rfl]

/-- z or m of coordinates that all have one -/
theorem filterMap_getElem {α β : Type} {f : α → Option β} {cs : List α} (h : ∀ c ∈ cs, (f c).isSome = true) (i : Nat)
    (c : α) (hi : cs[i]? = some c) : (cs.filterMap f)[i]? = f c := by
  induction cs generalizing i with
  | nil => simp at hi
  | cons d cs ih =>
    have h1 := h d (by simp)
    cases hd : f d with
    | none => rw [hd] at h1; cases h1
    | some v =>
      rw [List.filterMap_cons_some hd]
      cases i with
      | zero => simp only [List.getElem?_cons_zero, Option.some.injEq] at hi ⊢; rw [← hi, hd]
      | succ i => simp only [List.getElem?_cons_succ] at hi ⊢; exact ih (fun c' hc => h c' (by simp [hc])) i hi

/-! ### the parts -/

/-- what the reader collects of a shape -/
def _root_.Geozero.Spec.EsriShape.collected : EsriShape → ShpShape
  | .null => .null
  | .point c => .point c.x c.y c.z c.m
  | .multiPoint cs => .multipoint (cs.map toXY) (cs.filterMap Coord.z) (cs.filterMap Coord.m)
  | .polyLine ps =>
    .multipart false (partStarts 0 ps ++ [ps.flatten.length]) (ps.flatten.map toXY) (ps.flatten.filterMap Coord.z)
      (ps.flatten.filterMap Coord.m)
  | .polygon ps =>
    .multipart true (partStarts 0 ps ++ [ps.flatten.length]) (ps.flatten.map toXY) (ps.flatten.filterMap Coord.z)
      (ps.flatten.filterMap Coord.m)

theorem usizeOk_ok {n : Nat} (h : n < 2 ^ 64) : usizeOk n = .ret n := if_pos h

theorem run_multipoint (multi : Bool) (d : EsriDim) (hasM : Bool) (x : EsriExtent) (cs : List Coord) (size : Nat)
    (hz : ∀ c ∈ cs, c.z.isSome = decide (d = .z)) (hm : ∀ c ∈ cs, c.m.isSome = hasM)
    (hs : size = ((EsriShape.multiPoint cs).body d hasM x).length) (hlt : size < 2 ^ 31) (rest : List Byte) :
    run multi (readShpMultipoint size (decide (d = .z))) ((EsriShape.multiPoint cs).body d hasM x ++ rest) =
      ([], .ok ((EsriShape.multiPoint cs).collected, rest)) := by
  obtain ⟨hz1, hz2⟩ := filterMap_length hz
  obtain ⟨hm1, hm2⟩ := filterMap_length hm
  have hlen : size = 32 + 4 + 16 * cs.length + (if decide (d = EsriDim.z) = true then dimValueSize cs.length else 0) +
      (if hasM then dimValueSize cs.length else 0) := by
    rw [hs]
    simp only [EsriShape.body, blocks, List.length_append, boxBytes_length, encI32_length, xyBytes_length,
      block_length hz, block_length hm]
    omega
  have hn : cs.length < 2 ^ 31 := by omega
  simp only [readShpMultipoint, bind_eq, EsriShape.body, blocks, List.append_assoc]
  rw [run_bind_ok_nil (run_readBbox multi x _),
    run_bind_ok_nil (run_readI32 multi .le cs.length _ (by unfold isI32; omega)), i32AsUsize_nat hn,
    usizeOk_ok (by omega), ret_bind]
  have hM : decide (size = 32 + 4 + 16 * cs.length + (if decide (d = EsriDim.z) = true then dimValueSize cs.length else 0) +
      dimValueSize cs.length) = hasM := by
    rw [hlen]
    cases hasM <;> simp [dimValueSize] 
  rw [hM, if_neg (by rw [← hlen]; simp), run_bind_ok_nil (run_readXYs multi cs _),
    run_bind_ok_nil (run_readDimValuesIf multi _ x.zRange _ _ _ hz1 hz2),
    run_bind_ok_nil (run_readDimValuesIf multi _ x.mRange _ _ _ hm1 hm2)]
  rfl

theorem run_multiPart (multi asPoly : Bool) (d : EsriDim) (hasM : Bool) (x : EsriExtent) (ps : List (List Coord)) (size : Nat)
    (hz : ∀ c ∈ ps.flatten, c.z.isSome = decide (d = .z)) (hm : ∀ c ∈ ps.flatten, c.m.isSome = hasM)
    (hs : size = ((EsriShape.polyLine ps).body d hasM x).length) (hlt : size < 2 ^ 31) (rest : List Byte) :
    run multi (readMultiPart asPoly size (decide (d = .z))) ((EsriShape.polyLine ps).body d hasM x ++ rest) =
      ([], .ok (.multipart asPoly (partStarts 0 ps ++ [ps.flatten.length]) (ps.flatten.map toXY)
        (ps.flatten.filterMap Coord.z) (ps.flatten.filterMap Coord.m), rest)) := by
  obtain ⟨hz1, hz2⟩ := filterMap_length hz
  obtain ⟨hm1, hm2⟩ := filterMap_length hm
  have hst := partStarts_le 0 ps
  simp only [EsriShape.body, blocks] at hs ⊢
  generalize ps.flatten = cs at *
  have hlen : size = multipartRecordSize cs.length ps.length +
      (if decide (d = EsriDim.z) = true then dimValueSize cs.length else 0) +
      (if hasM then dimValueSize cs.length else 0) := by
    rw [hs]
    simp only [List.length_append, boxBytes_length, encI32_length, xyBytes_length, i32Bytes_length,
      partStarts_length, multipartRecordSize, block_length hz, block_length hm]
    omega
  have hn : cs.length < 2 ^ 31 ∧ ps.length < 2 ^ 31 := by unfold multipartRecordSize at hlen; omega
  simp only [readMultiPart, bind_eq, List.append_assoc]
  rw [run_bind_ok_nil (run_readBbox multi x _),
    run_bind_ok_nil (run_readI32 multi .le ps.length _ (by unfold isI32; omega)),
    run_bind_ok_nil (run_readI32 multi .le cs.length _ (by unfold isI32; omega)), i32AsUsize_nat hn.1, i32AsUsize_nat hn.2,
    usizeOk_ok (by omega), usizeOk_ok (by omega), ret_bind, ret_bind]
  have hM : decide (size = multipartRecordSize cs.length ps.length +
      (if decide (d = EsriDim.z) = true then dimValueSize cs.length else 0) + dimValueSize cs.length) = hasM := by
    rw [hlen]
    cases hasM <;> simp [dimValueSize]
  have hparts := run_readParts multi (partStarts 0 ps) (xyBytes cs ++ (blockBytes (decide (d = EsriDim.z)) x.zRange
      (cs.filterMap Coord.z) ++ (blockBytes hasM x.mRange (cs.filterMap Coord.m) ++ rest)))
    (fun v hv => by have := hst v hv; omega)
  rw [partStarts_length] at hparts
  rw [hM, if_neg (by rw [hlen]; cases hasM <;> simp), run_bind_ok_nil hparts, run_bind_ok_nil (run_readXYs multi cs _),
    run_bind_ok_nil (run_readDimValuesIf multi _ x.zRange _ _ _ hz1 hz2),
    run_bind_ok_nil (run_readDimValuesIf multi _ x.mRange _ _ _ hm1 hm2)]
  rfl

theorem run_f64If (multi b : Bool) (v : Option F64) (h : v.isSome = b) (rest : List Byte) :
    run multi (readF64If b) (f64Bytes v.toList ++ rest) = ([], .ok (v, rest)) := by
  subst h
  cases v with
  | none => rfl
  | some v =>
    simp only [Option.isSome_some, readF64If, if_true, Option.toList_some, f64Bytes, List.flatMap_cons, List.flatMap_nil,
      List.append_nil]
    rw [run_bind_ok_nil (run_readF64 multi .le v _)]
    rfl

/-- reading a record content gives back the shape -/
theorem run_readShpContent (multi : Bool) (d : EsriDim) (hasM : Bool) (x : EsriExtent) (s : EsriShape)
    (hv : s.Valid d hasM) (hlt : (s.content d hasM x).length < 2 ^ 31) (rest : List Byte) :
    run multi (readShpContent (s.content d hasM x).length) (s.content d hasM x ++ rest) = ([], .ok (s.collected, rest)) := by
  have hcode : isI32 (s.typeCode d) := by cases s <;> cases d <;> simp [EsriShape.typeCode, isI32]
  have hlen : (s.content d hasM x).length = 4 + (s.body d hasM x).length := by simp [EsriShape.content]
  have hlt' : (s.body d hasM x).length < 2 ^ 31 := by omega
  rw [hlen]
  simp only [EsriShape.content, readShpContent, readShpType, bind_eq, List.append_assoc]
  rw [Prog.bind_assoc, run_bind_ok_nil (run_readI32 multi .le _ _ hcode)]
  have hz := hv.z
  have hm := hv.m
  have hsub : 4 + (s.body d hasM x).length - 4 = (s.body d hasM x).length := by omega
  have hnl : ¬ (4 + (s.body d hasM x).length < 4) := by omega
  cases s with
  | null => cases d <;> rfl
  | point c =>
    have hz := hz c (by simp [EsriShape.coords])
    have hm := hm c (by simp [EsriShape.coords])
    have hp := hv.pointM c rfl
    have hx := hv.plain
    have hz' := congrArg Bool.toNat hz
    have hbl : ((EsriShape.point c).body d hasM x).length = 16 + 8 * c.z.toList.length + 8 * c.m.toList.length := by
      simp [EsriShape.body]
      omega
    have hzl : c.z.toList.length = if d = .z then 1 else 0 := by
      cases hcz : c.z <;> rw [hcz] at hz <;> cases d <;> simp_all
    have hml : c.m.toList.length = if hasM then 1 else 0 := by
      cases hcm : c.m <;> rw [hcm] at hm <;> simp_all
    have key : ∀ t : ShpType, decide (t = .pointZ) = decide (d = .z) →
        (decide (t = ShpType.pointM) || (decide (t = .pointZ) && decide (((EsriShape.point c).body d hasM x).length = 32))) = hasM →
        run multi (readShpPoint ((EsriShape.point c).body d hasM x).length t) ((EsriShape.point c).body d hasM x ++ rest) =
          ([], .ok ((EsriShape.point c).collected, rest)) := by
      intro t h1 h2
      simp only [readShpPoint]
      rw [h2, h1]
      rw [if_neg (by rw [hbl, hzl, hml]; cases d <;> cases hasM <;> simp)]
      simp only [EsriShape.body, bind_eq, List.append_assoc]
      rw [run_bind_ok_nil (run_readF64 multi .le c.x _), run_bind_ok_nil (run_readF64 multi .le c.y _),
        run_bind_ok_nil (run_f64If multi _ c.z hz _), run_bind_ok_nil (run_f64If multi _ c.m hm _)]
      rfl
    cases d with
    | xy =>
      simp only [EsriShape.typeCode, ShpType.fromCode, ret_bind, hnl, if_false, hsub]
      exact key .point (by decide) (by rw [hx rfl]; rfl)
    | z =>
      simp only [EsriShape.typeCode, ShpType.fromCode, ret_bind, hnl, if_false, hsub]
      refine key .pointZ (by decide) ?_
      rw [hbl, hzl, hml]
      cases hasM <;> rfl
    | m =>
      simp only [EsriShape.typeCode, ShpType.fromCode, ret_bind, hnl, if_false, hsub]
      exact key .pointM (by decide) (by rw [hp rfl]; rfl)
  | multiPoint cs =>
    have key := run_multipoint multi d hasM x cs _ hz hm rfl hlt' rest
    cases d <;>
      (simp only [EsriShape.typeCode, ShpType.fromCode, ret_bind, hnl, if_false, hsub]; exact key)
  | polyLine ps =>
    have key := run_multiPart multi false d hasM x ps _ hz hm rfl hlt' rest
    cases d <;>
      (simp only [EsriShape.typeCode, ShpType.fromCode, ret_bind, hnl, if_false, hsub]; exact key)
  | polygon ps =>
    have key := run_multiPart multi true d hasM x ps _ hz hm rfl hlt' rest
    cases d <;>
      (simp only [EsriShape.typeCode, ShpType.fromCode, ret_bind, hnl, if_false, hsub]; exact key)

/-- contents have an even number of bytes -/
theorem content_even (d : EsriDim) (hasM : Bool) (x : EsriExtent) (s : EsriShape) :
    (s.content d hasM x).length % 2 = 0 ∧ 4 ≤ (s.content d hasM x).length := by
  cases s <;> simp [EsriShape.content, EsriShape.body, blocks, blockBytes_length, dimValueSize] <;> (try split) <;>
    (try split) <;> omega

theorem run_readShpRecord (multi : Bool) (num : Int) (d : EsriDim) (hasM : Bool) (x : EsriExtent) (s : EsriShape)
    (hn : isI32 num) (hv : s.Valid d hasM) (hlt : (s.content d hasM x).length < 2 ^ 31) (rest : List Byte) :
    run multi readShpRecord (s.record num d hasM x ++ rest) = ([], .ok ((s.words d hasM x, s.collected), rest)) := by
  obtain ⟨h2, h4⟩ := content_even d hasM x s
  have hw : s.words d hasM x * 2 = (s.content d hasM x).length := by unfold EsriShape.words; omega
  simp only [readShpRecord, EsriShape.record, bind_eq, List.append_assoc]
  rw [run_bind_ok_nil (run_readI32 multi .be num _ hn),
    run_bind_ok_nil (run_readI32 multi .be _ _ (by unfold isI32; omega)), doubleI32, if_pos (by omega), ret_bind, hw,
    i32AsUsize_nat hlt, run_bind_ok_nil (run_readShpContent multi d hasM x s hv hlt rest)]
  rfl

end Geozero
