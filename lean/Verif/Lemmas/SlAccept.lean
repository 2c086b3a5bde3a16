import Verif.Lemmas.WkbAcceptHdr
import Verif.Spec.SlLenient
import Verif.Props.WkbSpatialite

/- Helper lemmas: exactly which SpatiaLite BLOBs the reader accepts, with compressed geometries at any place. -/

namespace Geozero
namespace Sl
open Prog Spec

/-- the frame a header gives -/
def slFrame (i : WkbInfo) : Frame := ⟨i.frame, i.isCompressed⟩

theorem acc_readF32 {multi : Bool} (e : Endian) (v : BitVec 32) (evs : List Ev) (u : List Byte) :
    Acc multi (readF32 e) v evs u ↔ evs = [] ∧ u = encF32 e v := by
  constructor
  · intro h
    unfold readF32 at h
    rw [acc_bind_silent (P := fun l u => l = u ∧ u.length = 4) (acc_readN 4)] at h
    obtain ⟨l, u1, u2, rfl, ⟨rfl, hl⟩, h⟩ := h
    obtain ⟨rfl, rfl, rfl⟩ := acc_ret.mp h
    have h1 := decUInt_lt e l
    have h2 := encUInt_decUInt e l
    rw [hl] at h1 h2
    refine ⟨rfl, ?_⟩
    unfold encF32
    rw [BitVec.toNat_ofNat, Nat.mod_eq_of_lt (by omega), h2]
    simp
  · rintro ⟨rfl, rfl⟩
    have := run_readF32 multi e v []
    simpa [Acc] using this

private theorem acc_opt {α β : Type} {multi : Bool} (b : Bool) (p : Prog α) (enc : α → List Byte) (g : α → β)
    (hp : ∀ a evs u, Acc multi p a evs u ↔ evs = [] ∧ u = enc a) (v : Option β) (evs : List Ev) (u : List Byte) :
    Acc multi (if b = true then Prog.bind p fun v => ret (some (g v)) else ret none) v evs u ↔
      evs = [] ∧ ∃ w : Option α, v = w.map g ∧ w.isSome = b ∧ u = w.toList.flatMap enc := by
  cases b with
  | false =>
    simp only [Bool.false_eq_true, if_false, acc_ret]
    constructor
    · rintro ⟨rfl, rfl, rfl⟩; exact ⟨rfl, none, by simp⟩
    · rintro ⟨rfl, w, rfl, h, rfl⟩
      cases w <;> simp_all
  | true =>
    simp only [if_true]
    rw [acc_bind_silent (P := fun v u => u = enc v) hp]
    constructor
    · rintro ⟨a, u1, u2, rfl, rfl, h⟩
      obtain ⟨rfl, rfl, rfl⟩ := acc_ret.mp h
      exact ⟨rfl, some a, by simp⟩
    · rintro ⟨rfl, w, rfl, h, rfl⟩
      cases w with
      | none => simp at h
      | some v => exact ⟨v, enc v, [], by simp, rfl, acc_ret.mpr ⟨rfl, rfl, rfl⟩⟩

/-- the record a difference is read into -/
def deltaCoord (fo : FOps) (δ : Delta) : Coord := { x := fo.of32 δ.x, y := fo.of32 δ.y, z := δ.z.map fo.of32, m := δ.m }

theorem acc_delta (fo : FOps) {multi : Bool} (info : WkbInfo) (c : Coord) (evs : List Ev) (u : List Byte) :
    Acc multi (readCoord32 fo info) c evs u ↔
      evs = [] ∧ ∃ δ, c = deltaCoord fo δ ∧ DeltaIn info.frame δ ∧ u = deltaBytes info.endian δ := by
  unfold readCoord32 DeltaIn deltaBytes deltaCoord WkbInfo.frame
  simp only [bind_eq, pure_eq]
  rw [acc_bind_silent (P := fun v u => u = encF32 info.endian v) (acc_readF32 info.endian)]
  constructor
  · rintro ⟨x, u1, u2, rfl, rfl, h⟩
    rw [acc_bind_silent (P := fun v u => u = encF32 info.endian v) (acc_readF32 info.endian)] at h
    obtain ⟨y, u3, u4, rfl, rfl, h⟩ := h
    rw [acc_bind_silent (acc_opt info.hasZ _ (encF32 info.endian) fo.of32 (acc_readF32 info.endian))] at h
    obtain ⟨z, u5, u6, rfl, ⟨z', rfl, hz, rfl⟩, h⟩ := h
    rw [acc_bind_silent (acc_optF64 info.hasM info.endian)] at h
    obtain ⟨m', u7, u8, rfl, ⟨hm, rfl⟩, h⟩ := h
    obtain ⟨rfl, rfl, rfl⟩ := acc_ret.mp h
    exact ⟨rfl, ⟨x, y, z', m'⟩, by simp, ⟨hz, hm⟩, by simp⟩
  · rintro ⟨rfl, ⟨x, y, z, m⟩, rfl, ⟨hz, hm⟩, rfl⟩
    refine ⟨x, encF32 info.endian x, _, by simp only [List.append_assoc]; rfl, rfl, ?_⟩
    rw [acc_bind_silent (P := fun v u => u = encF32 info.endian v) (acc_readF32 info.endian)]
    refine ⟨y, _, _, rfl, rfl, ?_⟩
    rw [acc_bind_silent (acc_opt info.hasZ _ (encF32 info.endian) fo.of32 (acc_readF32 info.endian))]
    refine ⟨_, _, _, rfl, ⟨z, rfl, hz, rfl⟩, ?_⟩
    rw [acc_bind_silent (acc_optF64 info.hasM info.endian)]
    exact ⟨m, _, [], by simp, ⟨hm, rfl⟩, acc_ret.mpr ⟨rfl, rfl, rfl⟩⟩

/-- what is remembered of a vertex: everything, or x and y only -/
def Same (multi : Bool) (p q : Coord) : Prop := p.x = q.x ∧ p.y = q.y ∧ (multi = true → p = q)

theorem same_ev {multi : Bool} {p q : Coord} (h : Same multi p q) (i : Nat) : coordEv multi p i = coordEv multi q i := by
  obtain ⟨hx, hy, h⟩ := h
  cases multi with
  | true => rw [h rfl]
  | false => simp [coordEv, hx, hy]

theorem acc_compressedCoord (fo : FOps) {multi : Bool} (info : WkbInfo) (i : Nat) (p q : Coord) (hs : Same multi p q)
    (c : Coord) (evs : List Ev) (u : List Byte) :
    Acc multi (processCompressedCoord fo info multi i p) c evs u ↔
      ∃ δ, evs = coordEvs multi i (δ.apply fo q) ∧ DeltaIn info.frame δ ∧ u = deltaBytes info.endian δ ∧
        c = if multi then δ.apply fo q else { x := (δ.apply fo q).x, y := (δ.apply fo q).y, z := none, m := none } := by
  obtain ⟨hx, hy, hm⟩ := hs
  unfold processCompressedCoord
  simp only [bind_eq, pure_eq]
  rw [acc_bind_silent (acc_delta fo info)]
  cases multi with
  | true =>
    obtain rfl := hm rfl
    simp only [if_true]
    constructor
    · rintro ⟨r, u1, u2, rfl, ⟨δ, rfl, hd, rfl⟩, h⟩
      rw [acc_emitEv_bind] at h
      obtain ⟨evs', rfl, h⟩ := h
      obtain ⟨rfl, rfl, rfl⟩ := acc_ret.mp h
      refine ⟨δ, ?_, hd, by simp, ?_⟩
      · cases hpz : p.z <;> cases hdz : δ.z <;> simp [deltaCoord, Delta.apply, coordEvs, coordEv, hpz, hdz]
      · cases hpz : p.z <;> cases hdz : δ.z <;> simp [deltaCoord, Delta.apply, coordEvs, coordEv, hpz, hdz]
    · rintro ⟨δ, rfl, hd, rfl, rfl⟩
      refine ⟨_, _, [], by simp, ⟨δ, rfl, hd, rfl⟩, ?_⟩
      rw [acc_emitEv_bind]
      refine ⟨[], ?_, acc_ret.mpr ⟨?_, rfl, rfl⟩⟩
      · cases hpz : p.z <;> cases hdz : δ.z <;> simp [deltaCoord, Delta.apply, coordEvs, coordEv, hpz, hdz]
      · cases hpz : p.z <;> cases hdz : δ.z <;> simp [deltaCoord, Delta.apply, coordEvs, coordEv, hpz, hdz]
  | false =>
    simp only [Bool.false_eq_true, if_false]
    constructor
    · rintro ⟨r, u1, u2, rfl, ⟨δ, rfl, hd, rfl⟩, h⟩
      rw [acc_emitEv_bind] at h
      obtain ⟨evs', rfl, h⟩ := h
      obtain ⟨rfl, rfl, rfl⟩ := acc_ret.mp h
      refine ⟨δ, ?_, hd, by simp, ?_⟩
      · rw [hx, hy]; rfl
      · rw [hx, hy]; rfl
    · rintro ⟨δ, rfl, hd, rfl, rfl⟩
      refine ⟨_, _, [], by simp, ⟨δ, rfl, hd, rfl⟩, ?_⟩
      rw [acc_emitEv_bind]
      refine ⟨[], ?_, acc_ret.mpr ⟨?_, rfl, rfl⟩⟩
      · rw [hx, hy]; rfl
      · rw [hx, hy]; rfl

theorem acc_compressedLoop (fo : FOps) {multi : Bool} (info : WkbInfo) (n : Nat) :
    ∀ (i : Nat) (p q : Coord), Same multi p q → ∀ (evs : List Ev) (u : List Byte),
      (Acc multi (compressedLoop fo info multi n i p) () evs u ↔
        ∃ δs : List Delta, δs.length = n ∧ evs = evList (coordEvs multi) i (inner fo q δs) ∧
          (∀ δ ∈ δs, DeltaIn info.frame δ) ∧ u = δs.flatMap (deltaBytes info.endian)) := by
  induction n with
  | zero =>
    intro i p q _ evs u
    show Acc multi (ret ()) () evs u ↔ _
    rw [acc_ret]
    constructor
    · rintro ⟨_, rfl, rfl⟩; exact ⟨[], rfl, rfl, by simp, rfl⟩
    · rintro ⟨δs, hl, rfl, _, rfl⟩
      have := List.eq_nil_of_length_eq_zero hl
      subst this
      exact ⟨rfl, rfl, rfl⟩
  | succ n ih =>
    intro i p q hs evs u
    simp only [compressedLoop, bind_eq]
    rw [acc_bind]
    have hsame : ∀ δ : Delta, Same multi (if multi then δ.apply fo q else
        { x := (δ.apply fo q).x, y := (δ.apply fo q).y, z := none, m := none }) (δ.apply fo q) := by
      intro δ
      cases multi <;> simp [Same]
    constructor
    · rintro ⟨c, e1, e2, u1, u2, rfl, rfl, h1, h2⟩
      obtain ⟨δ, rfl, hd, rfl, rfl⟩ := (acc_compressedCoord fo info i p q hs _ _ _).mp h1
      obtain ⟨δs, rfl, rfl, hds, rfl⟩ := (ih (i + 1) _ _ (hsame δ) _ _).mp h2
      exact ⟨δ :: δs, rfl, rfl, by simpa using ⟨hd, hds⟩, rfl⟩
    · rintro ⟨δs, hl, rfl, hds, rfl⟩
      cases δs with
      | nil => simp at hl
      | cons δ δs =>
        rw [List.forall_mem_cons] at hds
        exact ⟨_, _, _, _, _, rfl, rfl, (acc_compressedCoord fo info i p q hs _ _ _).mpr ⟨δ, rfl, hds.1, rfl, rfl⟩,
          (ih (i + 1) _ _ (hsame δ) _ _).mpr ⟨δs, by simpa using hl, rfl, hds.2, rfl⟩⟩

/-- reading one coordinate in full -/
theorem acc_processCoord {multi mu : Bool} (info : WkbInfo) (i : Nat) (c : Coord) (evs : List Ev) (u : List Byte) :
    Acc multi (processCoord info mu i) c evs u ↔ evs = coordEvs mu i c ∧ CoordIn info.frame c u := by
  unfold processCoord emitCoord coordEvs
  simp only [bind_eq, pure_eq]
  rw [acc_bind_silent (acc_coord info)]
  constructor
  · rintro ⟨c', u1, u2, rfl, hc, h⟩
    rw [acc_emitEv_bind] at h
    obtain ⟨evs', rfl, h⟩ := h
    obtain ⟨rfl, rfl, rfl⟩ := acc_ret.mp h
    exact ⟨rfl, by simpa using hc⟩
  · rintro ⟨rfl, hc⟩
    refine ⟨c, u, [], by simp, hc, ?_⟩
    rw [acc_emitEv_bind]
    exact ⟨[], rfl, acc_ret.mpr ⟨rfl, rfl, rfl⟩⟩

theorem acc_linestring (fo : FOps) {multi : Bool} (info : WkbInfo) (tagged : Bool)
    (idx : Nat) (evs : List Ev) (u : List Byte) :
    Acc multi (processLinestring fo info tagged idx) () evs u ↔
      ∃ l, evs = lineEvs multi tagged idx l ∧ LineIn fo l (slFrame info) u := by
  cases hc : info.isCompressed with
  | false =>
    rw [Geozero.acc_linestring fo info hc]
    constructor
    · rintro ⟨cs, rfl, h⟩
      exact ⟨.plain cs, rfl, h, by simp [slFrame, hc]⟩
    · rintro ⟨l, rfl, h⟩
      cases l with
      | plain cs => exact ⟨cs, rfl, h.1⟩
      | packed n cs last => simp [LineIn, slFrame, hc] at h
  | true =>
    unfold processLinestring
    simp only [bind_eq, pure_eq, hc, true_and]
    rw [acc_bind_silent (acc_readU32 info.endian)]
    constructor
    · rintro ⟨n, u1, u2, rfl, ⟨hn, rfl⟩, h⟩
      rw [acc_emitEv_bind] at h
      obtain ⟨evs, rfl, h⟩ := h
      rw [acc_multiDim_bind] at h
      by_cases h0 : n > 0
      · rw [if_pos h0] at h
        simp only [Prog.bind_assoc, ret_bind] at h
        rw [acc_bind] at h
        obtain ⟨first, e1, e2, u1, u2, rfl, rfl, h1, h⟩ := h
        obtain ⟨rfl, hf⟩ := (acc_processCoord info 0 _ _ _).mp h1
        rw [acc_bind] at h
        obtain ⟨⟨⟩, e1, e2, u3, u4, rfl, rfl, h1, h⟩ := h
        obtain ⟨δs, hl, rfl, hds, rfl⟩ := (acc_compressedLoop fo info _ 1 first first ⟨rfl, rfl, fun _ => rfl⟩ _ _).mp h1
        rw [acc_bind] at h
        obtain ⟨last, e1, e2, u5, u6, rfl, rfl, h1, h⟩ := h
        obtain ⟨rfl, hlast⟩ := (acc_processCoord info n _ _ _).mp h1
        obtain ⟨rfl, rfl⟩ := acc_emitEv.mp h
        refine ⟨.packed n (first :: inner fo first δs) last, by simp [lineEvs, evList], by simp [slFrame, hc], hn, first, δs, rfl, ?_,
          hds, u1, u5, hf, hlast, by simp [slFrame, WkbInfo.frame]⟩
        by_cases h1 : n = 1
        · exact .inr ⟨h1, List.eq_nil_of_length_eq_zero (by omega)⟩
        · exact .inl (by omega)
      · rw [if_neg h0] at h
        obtain rfl : n = 0 := by omega
        simp only [loop] at h
        obtain ⟨rfl, rfl⟩ := acc_emitEv.mp h
        exact ⟨.plain [], by simp [lineEvs, Geozero.lineEvs, bracket, evList], ⟨by decide, [], by simp [slFrame, WkbInfo.frame], rfl⟩, fun _ => rfl⟩
    · rintro ⟨l, rfl, h⟩
      cases l with
      | plain cs =>
        obtain ⟨⟨hn, bb, rfl, hb⟩, hp⟩ := h
        obtain rfl := hp (by simp [slFrame, hc])
        refine ⟨0, _, bb, rfl, ⟨by decide, rfl⟩, ?_⟩
        rw [acc_emitEv_bind]
        refine ⟨_, rfl, ?_⟩
        rw [acc_multiDim_bind, if_neg (by omega)]
        simp only [loop]
        exact acc_emitEv.mpr ⟨rfl, hb⟩
      | packed n cs last =>
        obtain ⟨-, hn, first, δs, rfl, hnum, hds, b1, b2, hf, hlast, rfl⟩ := h
        have h0 : n > 0 := by rcases hnum with h | ⟨h, _⟩ <;> omega
        have hl : δs.length = n - 1 - 1 := by
          rcases hnum with h | ⟨h, rfl⟩
          · omega
          · simp [h]
        refine ⟨n, _, b1 ++ (δs.flatMap (deltaBytes info.endian) ++ b2), by simp only [List.append_assoc]; rfl, ⟨hn, rfl⟩, ?_⟩
        rw [acc_emitEv_bind]
        refine ⟨_, rfl, ?_⟩
        rw [acc_multiDim_bind, if_pos h0]
        simp only [Prog.bind_assoc, ret_bind]
        rw [acc_bind]
        refine ⟨first, _, evList (coordEvs multi) 1 (inner fo first δs) ++ (coordEvs multi n last ++ [.gend .lineString tagged idx]), b1, _, ?_, rfl, (acc_processCoord info 0 _ _ _).mpr ⟨rfl, hf⟩, ?_⟩
        · simp only [evList, List.append_assoc, Nat.zero_add]
        rw [acc_bind]
        refine ⟨(), _, _, _, b2, rfl, rfl, (acc_compressedLoop fo info _ 1 first first ⟨rfl, rfl, fun _ => rfl⟩ _ _).mpr
          ⟨δs, hl, rfl, hds, rfl⟩, ?_⟩
        rw [acc_bind]
        exact ⟨last, _, _, b2, [], rfl, by simp, (acc_processCoord info n _ _ _).mpr ⟨rfl, hlast⟩, acc_emitEv.mpr ⟨rfl, rfl⟩⟩

theorem acc_circularstring {multi : Bool} (info : WkbInfo) (idx : Nat) (evs : List Ev) (u : List Byte) :
    Acc multi (processCircularstring info idx) () evs u ↔
      ∃ cs, evs = circEvs multi idx cs ∧ PointsIn cs (slFrame info).base u := Geozero.acc_circularstring info idx evs u

theorem acc_polygon (fo : FOps) {multi : Bool} (info : WkbInfo) (tagged : Bool)
    (idx : Nat) (evs : List Ev) (u : List Byte) :
    Acc multi (processPolygon fo info tagged idx) () evs u ↔
      ∃ rings, evs = polyEvs multi tagged idx rings ∧ RingsIn fo rings (slFrame info) u := by
  unfold processPolygon
  simp only [bind_eq]
  exact acc_framed (fun r => LineIn fo r (slFrame info)) (lineEvs multi false) _
    (fun i evs u => acc_linestring fo info false i evs u) info.endian .polygon tagged idx evs u

theorem acc_triangle (fo : FOps) {multi : Bool} (info : WkbInfo) (tagged : Bool)
    (idx : Nat) (evs : List Ev) (u : List Byte) :
    Acc multi (processTriangle fo info tagged idx) () evs u ↔
      ∃ rings, evs = triEvs multi tagged idx rings ∧ RingsIn fo rings (slFrame info) u := by
  unfold processTriangle
  simp only [bind_eq]
  exact acc_framed (fun r => LineIn fo r (slFrame info)) (lineEvs multi false) _
    (fun i evs u => acc_linestring fo info false i evs u) info.endian .triangle tagged idx evs u

theorem levelsList_le (gs : List Geom) (n : Nat) :
    levelsList gs ≤ n ↔ ∀ g ∈ gs, 1 + g.levels ≤ n := by
  induction gs with
  | nil => simp [levelsList]
  | cons g gs ih => simp [levelsList, Nat.max_le, ih]

/-- `rh` accepts exactly the headers of the convention `H`. -/
structure HdrExact (H : LenientHeader) (rh : WkbInfo → Prog WkbInfo) : Prop where
  sound : ∀ {multi parent info evs u}, Acc multi (rh parent) info evs u →
    evs = [] ∧
      ∃ code, info.baseType = WkbType.fromU32 code ∧ H (slFrame parent) (slFrame info) code u
  complete : ∀ (multi : Bool) (parent : WkbInfo) {f code u}, H (slFrame parent) f code u →
    ∃ info : WkbInfo, (slFrame info) = f ∧ info.baseType = WkbType.fromU32 code ∧
      Acc multi (rh parent) info [] u

/-- a nested header and what depends on it -/
theorem acc_member {α : Type} {multi : Bool} {H : LenientHeader} {rh : WkbInfo → Prog WkbInfo} (hh : HdrExact H rh)
    (parent : WkbInfo) (k : WkbInfo → Prog Unit) (T : α → Nat → Prop) (f : α → List Ev)
    (B : α → Frame → List Byte → Prop)
    (hk : ∀ info code, info.baseType = WkbType.fromU32 code → ∀ evs u,
      (Acc multi (k info) () evs u ↔ ∃ x, evs = f x ∧ T x code ∧ B x (slFrame info) u))
    (evs : List Ev) (u : List Byte) :
    Acc multi (Prog.bind (rh parent) k) () evs u ↔ ∃ x, evs = f x ∧ Member H (slFrame parent) (T x) (B x) u := by
  rw [acc_bind]
  constructor
  · rintro ⟨info, e1, e2, u1, u2, rfl, rfl, h1, h2⟩
    obtain ⟨rfl, code, hb, hH⟩ := hh.sound h1
    obtain ⟨x, rfl, hT, hB⟩ := (hk info code hb _ _).mp h2
    exact ⟨x, rfl, slFrame info, code, u1, u2, rfl, hH, hT, hB⟩
  · rintro ⟨x, rfl, f', code, hb, bb, rfl, hH, hT, hB⟩
    obtain ⟨info, rfl, hbase, h1⟩ := hh.complete multi parent hH
    exact ⟨info, [], f x, hb, bb, rfl, rfl, h1, (hk info code hbase _ _).mpr ⟨x, rfl, hT, hB⟩⟩

/-! ### side conditions -/

theorem member_and (H : LenientHeader) (f : Frame) (S : Prop) (T : Nat → Prop) (B : Frame → List Byte → Prop)
    (u : List Byte) : Member H f (fun c => T c ∧ S) B u ↔ S ∧ Member H f T B u := by
  unfold Member
  constructor
  · rintro ⟨f', code, hb, bb, rfl, hH, ⟨hT, hS⟩, hB⟩
    exact ⟨hS, f', code, hb, bb, rfl, hH, hT, hB⟩
  · rintro ⟨hS, f', code, hb, bb, rfl, hH, hT, hB⟩
    exact ⟨f', code, hb, bb, rfl, hH, ⟨hT, hS⟩, hB⟩

theorem member_and' (H : LenientHeader) (f : Frame) (S : Prop) (T : Nat → Prop) (B : Frame → List Byte → Prop) :
    Member H f (fun c => T c ∧ S) B = fun u => S ∧ Member H f T B u :=
  funext fun u => propext (member_and H f S T B u)

/-! ### curves -/

theorem acc_segment (fo : FOps) {multi : Bool} (info : WkbInfo) (code : Nat) 
    (hb : info.baseType = WkbType.fromU32 code) (i : Nat) (evs : List Ev) (u : List Byte) :
    Acc multi (processSegment fo info i) () evs u ↔
      ∃ s, evs = segEvs multi i s ∧ segType s code ∧ SegBody fo s (slFrame info) u := by
  unfold processSegment
  constructor
  · intro h
    split at h
    · rename_i ht
      rw [hb, fromU32_eq (by simp)] at ht
      obtain ⟨cs, rfl, hp⟩ := (acc_circularstring info i _ _).mp h
      exact ⟨.circ cs, rfl, ht, hp⟩
    · rename_i ht
      rw [hb, fromU32_eq (by simp)] at ht
      obtain ⟨cs, rfl, hp⟩ := (acc_linestring fo info false i _ _).mp h
      exact ⟨.line cs, rfl, ht, hp⟩
    · exact absurd h acc_fail.mp
  · rintro ⟨s, rfl, ht, hp⟩
    rw [hb]
    cases s with
    | line cs => cases ht; exact (acc_linestring fo info false i _ _).mpr ⟨cs, rfl, hp⟩
    | circ cs => cases ht; exact (acc_circularstring info i _ _).mpr ⟨cs, rfl, hp⟩

theorem acc_compound (fo : FOps) {multi : Bool} {H : LenientHeader} {rh : WkbInfo → Prog WkbInfo} (hh : HdrExact H rh)
    (info : WkbInfo) (idx depth : Nat) (evs : List Ev) (u : List Byte) :
    Acc multi (processCompoundcurve fo rh info idx depth) () evs u ↔
      ∃ ss, evs = bracket .compoundCurve true idx (segEvs multi) ss ∧ depth ≤ 128 ∧ CompoundIn fo H ss (slFrame info) u := by
  unfold processCompoundcurve wkbMaxNestingDepth
  split
  · rw [acc_fail]
    constructor
    · exact False.elim
    · rintro ⟨_, _, h, _⟩; omega
  · simp only [bind_eq]
    rw [acc_framed (SegIn fo H (slFrame info)) (segEvs multi)]
    · constructor
      · rintro ⟨ss, rfl, h⟩; exact ⟨ss, rfl, by omega, h⟩
      · rintro ⟨ss, rfl, _, h⟩; exact ⟨ss, rfl, h⟩
    · intro i evs u
      exact acc_member hh info _ segType (segEvs multi i) (fun s => SegBody fo s)
        (fun info' code hb evs u => acc_segment fo info' code hb i evs u) evs u

def curveType : Curve → Nat → Prop
  | .seg s => segType s
  | .compound _ => (· = 9)

def curveBody (fo : FOps) (H : LenientHeader) : Curve → Frame → List Byte → Prop
  | .seg s => SegBody fo s
  | .compound ss => CompoundIn fo H ss

theorem curveIn_eq (fo : FOps) (H : LenientHeader) (f : Frame) (c : Curve) :
    CurveIn fo H f c = Member H f (curveType c) (curveBody fo H c) := by
  rcases c with ⟨_ | _⟩ | _ <;> rfl

theorem acc_curveBody (fo : FOps) {multi : Bool} {H : LenientHeader} {rh : WkbInfo → Prog WkbInfo} (hh : HdrExact H rh)
    (info : WkbInfo) (code : Nat)  (hb : info.baseType = WkbType.fromU32 code)
    (idx depth : Nat) (hd : depth ≤ 129) (evs : List Ev) (u : List Byte) :
    Acc multi (processCurveBody fo rh info idx depth) () evs u ↔
      ∃ c, evs = curveEvs multi idx c ∧ (curveType c code ∧ depth + c.levels ≤ 129) ∧ curveBody fo H c (slFrame info) u := by
  unfold processCurveBody
  constructor
  · intro h
    split at h
    · rename_i ht
      rw [hb, fromU32_eq (by simp)] at ht
      obtain ⟨cs, rfl, hp⟩ := (acc_circularstring info idx _ _).mp h
      exact ⟨.seg (.circ cs), rfl, ⟨ht, hd⟩, hp⟩
    · rename_i ht
      rw [hb, fromU32_eq (by simp)] at ht
      obtain ⟨cs, rfl, hp⟩ := (acc_linestring fo info false idx _ _).mp h
      exact ⟨.seg (.line cs), rfl, ⟨ht, hd⟩, hp⟩
    · rename_i ht
      rw [hb, fromU32_eq (by simp)] at ht
      obtain ⟨ss, rfl, h1, hp⟩ := (acc_compound fo hh info idx _ _ _).mp h
      exact ⟨.compound ss, rfl, ⟨ht, by simp only [Curve.levels]; omega⟩, hp⟩
    · exact absurd h acc_fail.mp
  · rintro ⟨c, rfl, ⟨ht, hl⟩, hp⟩
    rw [hb]
    rcases c with ⟨cs | cs⟩ | ss
    · cases ht; exact (acc_linestring fo info false idx _ _).mpr ⟨cs, rfl, hp⟩
    · cases ht; exact (acc_circularstring info idx _ _).mpr ⟨cs, rfl, hp⟩
    · cases ht
      exact (acc_compound fo hh info idx _ _ _).mpr ⟨ss, rfl, by simp only [Curve.levels] at hl; omega, hp⟩

theorem acc_curve (fo : FOps) {multi : Bool} {H : LenientHeader} {rh : WkbInfo → Prog WkbInfo} (hh : HdrExact H rh)
    (parent : WkbInfo) (idx depth : Nat) (hd : depth ≤ 129) (evs : List Ev) (u : List Byte) :
    Acc multi (processCurve fo rh parent idx depth) () evs u ↔
      ∃ c, evs = curveEvs multi idx c ∧ (depth + c.levels ≤ 129 ∧ CurveIn fo H (slFrame parent) c u) := by
  unfold processCurve
  simp only [bind_eq]
  rw [acc_member hh parent _ (fun c code => curveType c code ∧ depth + c.levels ≤ 129) (curveEvs multi idx)
    (curveBody fo H) (fun info code hb evs u => acc_curveBody fo hh info code hb idx depth hd evs u)]
  simp only [member_and, curveIn_eq]

theorem acc_curvepolygon (fo : FOps) {multi : Bool} {H : LenientHeader} {rh : WkbInfo → Prog WkbInfo}
    (hh : HdrExact H rh) (info : WkbInfo) (idx depth : Nat) (evs : List Ev) (u : List Byte) :
    Acc multi (processCurvepolygon fo rh info idx depth) () evs u ↔
      ∃ rings, evs = bracket .curvePolygon true idx (curveEvs multi) rings ∧
        depth + (rings.map (fun c => 1 + c.levels)).foldr max 1 ≤ 129 ∧ CurvesIn fo H rings (slFrame info) u := by
  unfold processCurvepolygon wkbMaxNestingDepth
  split
  · rw [acc_fail]
    constructor
    · exact False.elim
    · rintro ⟨rings, _, h, _⟩
      have := (foldr_max_le (fun c : Curve => 1 + c.levels) 1 (129 - depth) rings).mp (by omega)
      omega
  · simp only [bind_eq]
    rw [acc_framed (fun c u => depth + 1 + c.levels ≤ 129 ∧ CurveIn fo H (slFrame info) c u) (curveEvs multi) _
      (fun i evs u => acc_curve fo hh info i (depth + 1) (by omega) evs u)]
    simp only [counted_and]
    have key : ∀ rings : List Curve, (∀ c ∈ rings, depth + 1 + c.levels ≤ 129) ↔
        depth + (rings.map (fun c => 1 + c.levels)).foldr max 1 ≤ 129 := by
      intro rings
      have := foldr_max_le (fun c : Curve => 1 + c.levels) 1 (129 - depth) rings
      constructor
      · intro hall
        have := this.mpr ⟨by omega, fun x hx => by have := hall x hx; omega⟩
        omega
      · intro h x hx
        have := (this.mp (by omega)).2 x hx
        omega
    simp only [key]
    rfl

def surfaceType : Surface → Nat → Prop
  | .polygon _ => (· = 3)
  | .curvePolygon _ => (· = 10)

def surfaceBody (fo : FOps) (H : LenientHeader) : Surface → Frame → List Byte → Prop
  | .polygon rings => RingsIn fo rings
  | .curvePolygon rings => CurvesIn fo H rings

theorem surfaceIn_eq (fo : FOps) (H : LenientHeader) (f : Frame) (s : Surface) :
    SurfaceIn fo H f s = Member H f (surfaceType s) (surfaceBody fo H s) := by
  cases s <;> rfl

theorem acc_surfaceBody (fo : FOps) {multi : Bool} {H : LenientHeader} {rh : WkbInfo → Prog WkbInfo}
    (hh : HdrExact H rh) (info : WkbInfo) (code : Nat) 
    (hb : info.baseType = WkbType.fromU32 code) (i depth : Nat) (hd : depth ≤ 128) (evs : List Ev) (u : List Byte) :
    Acc multi (processSurfaceBody fo rh info i depth) () evs u ↔
      ∃ s, evs = surfaceEvs multi i s ∧ (surfaceType s code ∧ depth + s.levels ≤ 128) ∧ surfaceBody fo H s (slFrame info) u := by
  unfold processSurfaceBody
  constructor
  · intro h
    split at h
    · rename_i ht
      rw [hb, fromU32_eq (by simp)] at ht
      obtain ⟨rings, rfl, hl, hp⟩ := (acc_curvepolygon fo hh info i _ _ _).mp h
      exact ⟨.curvePolygon rings, rfl, ⟨ht, by simp only [Surface.levels]; omega⟩, hp⟩
    · rename_i ht
      rw [hb, fromU32_eq (by simp)] at ht
      obtain ⟨rings, rfl, hp⟩ := (acc_polygon fo info false i _ _).mp h
      exact ⟨.polygon rings, rfl, ⟨ht, by simp only [Surface.levels]; omega⟩, hp⟩
    · exact absurd h acc_fail.mp
  · rintro ⟨s, rfl, ⟨ht, hl⟩, hp⟩
    rw [hb]
    cases s with
    | polygon rings => cases ht; exact (acc_polygon fo info false i _ _).mpr ⟨rings, rfl, hp⟩
    | curvePolygon rings =>
      cases ht
      exact (acc_curvepolygon fo hh info i _ _ _).mpr ⟨rings, rfl, by simp only [Surface.levels] at hl; omega, hp⟩

/-! ### all geometries -/

theorem acc_point (fo : FOps) {multi : Bool} (H : LenientHeader) (info : WkbInfo) (idx : Nat) (evs : List Ev) (u : List Byte) :
    Acc multi (processPoint info idx) () evs u ↔
      (evs = Geom.events multi idx .emptyPoint ∧ BodyIn fo H .emptyPoint (slFrame info) u) ∨
      ∃ c, evs = Geom.events multi idx (.point c) ∧ BodyIn fo H (.point c) (slFrame info) u := by
  unfold processPoint emitCoord
  simp only [bind_eq, pure_eq, BodyIn]
  rw [acc_bind_silent (acc_coord info)]
  constructor
  · rintro ⟨c, u1, u2, rfl, hc, h⟩
    by_cases hn : c.allNaN = true
    · simp only [hn, if_true] at h
      obtain ⟨rfl, rfl⟩ := acc_emitEv.mp h
      exact Or.inl ⟨by simp [Geom.events], c, (allNaN_iff c).mp hn, by simpa [slFrame] using hc⟩
    · simp only [hn] at h
      simp only [Bool.false_eq_true, if_false, acc_emitEv_bind, acc_multiDim_bind, Prog.bind_assoc, ret_bind, acc_emitEv] at h
      obtain ⟨e1, rfl, e2, rfl, rfl, rfl⟩ := h
      exact Or.inr ⟨c, by simp [Geom.events], fun ha => hn ((allNaN_iff c).mpr ha), by simpa [slFrame] using hc⟩
  · rintro (⟨rfl, c, hn, hc⟩ | ⟨c, rfl, hn, hc⟩)
    · refine ⟨c, u, [], by simp, hc, ?_⟩
      simp only [(allNaN_iff c).mpr hn, if_true, acc_emitEv]
      simp [Geom.events]
    · refine ⟨c, u, [], by simp, hc, ?_⟩
      have : ¬ c.allNaN = true := fun ha => hn ((allNaN_iff c).mp ha)
      simp only [this, Bool.false_eq_true, if_false, acc_emitEv_bind, acc_multiDim_bind, Prog.bind_assoc, ret_bind, acc_emitEv]
      simp [Geom.events]

theorem bodiesIn_iff (fo : FOps) (H : LenientHeader) (gs : List Geom) (f : Frame) (bs : List Byte) :
    BodiesIn fo H gs f bs ↔ Cat (fun g => Member H f (fun c => typeCode g = c) (BodyIn fo H g)) gs bs := by
  have key : ∀ g bs, Member H f (fun c => typeCode g = c) (BodyIn fo H g) bs ↔
      ∃ f' hb bb, bs = hb ++ bb ∧ H f f' (typeCode g) hb ∧ BodyIn fo H g f' bb := by
    intro g bs
    unfold Member
    constructor
    · rintro ⟨f', code, hb, bb, rfl, hH, rfl, hB⟩; exact ⟨f', hb, bb, rfl, hH, hB⟩
    · rintro ⟨f', hb, bb, rfl, hH, hB⟩; exact ⟨f', _, hb, bb, rfl, hH, rfl, hB⟩
  induction gs generalizing bs with
  | nil => simp [BodiesIn, Cat]
  | cons g gs ih => simp only [BodiesIn, Cat, ih, key]

/-- members whose type is not looked at -/
theorem acc_anyMember {α : Type} {multi : Bool} {H : LenientHeader} {rh : WkbInfo → Prog WkbInfo} (hh : HdrExact H rh)
    (parent : WkbInfo) (k : WkbInfo → Prog Unit) (f : α → List Ev) (B : α → Frame → List Byte → Prop)
    (hk : ∀ info, ∀ evs u,
      (Acc multi (k info) () evs u ↔ ∃ x, evs = f x ∧ B x (slFrame info) u)) (evs : List Ev) (u : List Byte) :
    Acc multi (Prog.bind (rh parent) k) () evs u ↔ ∃ x, evs = f x ∧ Member H (slFrame parent) anyType (B x) u := by
  refine acc_member hh parent k (fun _ => anyType) f B ?_ evs u
  intro info code _ evs u
  rw [hk info]
  simp [anyType]

theorem acc_members {α : Type} {multi : Bool} (R : α → List Byte → Prop) (f : Nat → α → List Ev)
    (body : Nat → Prog Unit) (h : ∀ i evs u, Acc multi (body i) () evs u ↔ ∃ x, evs = f i x ∧ R x u)
    (info : WkbInfo) (k : GKind) (idx : Nat) (evs : List Ev) (u : List Byte) :
    Acc multi (processMembers k info idx body) () evs u ↔
      ∃ xs, evs = bracket k true idx f xs ∧ Counted (slFrame info).base.order R xs u := by
  unfold processMembers
  simp only [bind_eq]
  exact acc_framed R f body h info.endian k true idx evs u

/-- a geometry whose type code is that of one constructor -/
theorem ex_code {α : Type} (mk : α → Geom) (code : Nat) (hmk : ∀ x, typeCode (mk x) = code)
    (hall : ∀ g, typeCode g = code → ∃ x, g = mk x) (P : Geom → Prop) :
    (∃ g, typeCode g = code ∧ P g) ↔ ∃ x, P (mk x) := by
  constructor
  · rintro ⟨g, hg, hp⟩
    obtain ⟨x, rfl⟩ := hall g hg
    exact ⟨x, hp⟩
  · rintro ⟨x, hp⟩; exact ⟨mk x, hmk x, hp⟩

theorem ex_multiPoint (P : Geom → Prop) : (∃ g, typeCode g = 4 ∧ P g) ↔ ∃ x, P (.multiPoint x) :=
  ex_code Geom.multiPoint 4 (fun _ => rfl) (fun g hg => by cases g <;> first | exact ⟨_, rfl⟩ | cases hg) P

theorem ex_lineString (P : Geom → Prop) : (∃ g, typeCode g = 2 ∧ P g) ↔ ∃ x, P (.lineString x) :=
  ex_code Geom.lineString 2 (fun _ => rfl) (fun g hg => by cases g <;> first | exact ⟨_, rfl⟩ | cases hg) P

theorem ex_circularString (P : Geom → Prop) : (∃ g, typeCode g = 8 ∧ P g) ↔ ∃ x, P (.circularString x) :=
  ex_code Geom.circularString 8 (fun _ => rfl) (fun g hg => by cases g <;> first | exact ⟨_, rfl⟩ | cases hg) P

theorem ex_compoundCurve (P : Geom → Prop) : (∃ g, typeCode g = 9 ∧ P g) ↔ ∃ x, P (.compoundCurve x) :=
  ex_code Geom.compoundCurve 9 (fun _ => rfl) (fun g hg => by cases g <;> first | exact ⟨_, rfl⟩ | cases hg) P

theorem ex_multiLineString (P : Geom → Prop) : (∃ g, typeCode g = 5 ∧ P g) ↔ ∃ x, P (.multiLineString x) :=
  ex_code Geom.multiLineString 5 (fun _ => rfl) (fun g hg => by cases g <;> first | exact ⟨_, rfl⟩ | cases hg) P

theorem ex_multiCurve (P : Geom → Prop) : (∃ g, typeCode g = 11 ∧ P g) ↔ ∃ x, P (.multiCurve x) :=
  ex_code Geom.multiCurve 11 (fun _ => rfl) (fun g hg => by cases g <;> first | exact ⟨_, rfl⟩ | cases hg) P

theorem ex_polygon (P : Geom → Prop) : (∃ g, typeCode g = 3 ∧ P g) ↔ ∃ x, P (.polygon x) :=
  ex_code Geom.polygon 3 (fun _ => rfl) (fun g hg => by cases g <;> first | exact ⟨_, rfl⟩ | cases hg) P

theorem ex_triangle (P : Geom → Prop) : (∃ g, typeCode g = 17 ∧ P g) ↔ ∃ x, P (.triangle x) :=
  ex_code Geom.triangle 17 (fun _ => rfl) (fun g hg => by cases g <;> first | exact ⟨_, rfl⟩ | cases hg) P

theorem ex_curvePolygon (P : Geom → Prop) : (∃ g, typeCode g = 10 ∧ P g) ↔ ∃ x, P (.curvePolygon x) :=
  ex_code Geom.curvePolygon 10 (fun _ => rfl) (fun g hg => by cases g <;> first | exact ⟨_, rfl⟩ | cases hg) P

theorem ex_multiPolygon (P : Geom → Prop) : (∃ g, typeCode g = 6 ∧ P g) ↔ ∃ x, P (.multiPolygon x) :=
  ex_code Geom.multiPolygon 6 (fun _ => rfl) (fun g hg => by cases g <;> first | exact ⟨_, rfl⟩ | cases hg) P

theorem ex_polyhedralSurface (P : Geom → Prop) : (∃ g, typeCode g = 15 ∧ P g) ↔ ∃ x, P (.polyhedralSurface x) :=
  ex_code Geom.polyhedralSurface 15 (fun _ => rfl) (fun g hg => by cases g <;> first | exact ⟨_, rfl⟩ | cases hg) P

theorem ex_tin (P : Geom → Prop) : (∃ g, typeCode g = 16 ∧ P g) ↔ ∃ x, P (.tin x) :=
  ex_code Geom.tin 16 (fun _ => rfl) (fun g hg => by cases g <;> first | exact ⟨_, rfl⟩ | cases hg) P

theorem ex_multiSurface (P : Geom → Prop) : (∃ g, typeCode g = 12 ∧ P g) ↔ ∃ x, P (.multiSurface x) :=
  ex_code Geom.multiSurface 12 (fun _ => rfl) (fun g hg => by cases g <;> first | exact ⟨_, rfl⟩ | cases hg) P

theorem ex_collection (P : Geom → Prop) : (∃ g, typeCode g = 7 ∧ P g) ↔ ∃ x, P (.collection x) :=
  ex_code Geom.collection 7 (fun _ => rfl) (fun g hg => by cases g <;> first | exact ⟨_, rfl⟩ | cases hg) P

/-- no other type code has a geometry -/
theorem typeCode_types (g : Geom) : WkbType.fromU32 (typeCode g) ∈ [WkbType.point, .multiPoint, .lineString,
    .circularString, .compoundCurve, .multiLineString, .multiCurve, .polygon, .triangle, .curvePolygon, .multiPolygon,
    .polyhedralSurface, .tin, .multiSurface, .geometryCollection] := by
  cases g <;> simp [typeCode, WkbType.fromU32]

theorem acc_geomN (fo : FOps) {H : LenientHeader} {rh : WkbInfo → Prog WkbInfo} (hh : HdrExact H rh) (multi : Bool)
    (fuel : Nat) : ∀ (depth : Nat), fuel + depth ≥ 130 → depth ≤ 129 → ∀ (info : WkbInfo) (code : Nat),
      info.baseType = WkbType.fromU32 code → ∀ (idx : Nat) (evs : List Ev) (u : List Byte),
      (Acc multi (processGeomN fo rh fuel info idx depth) () evs u ↔
        ∃ g, typeCode g = code ∧ evs = g.events multi idx ∧ depth + g.levels ≤ 128 ∧ BodyIn fo H g (slFrame info) u) := by
  induction fuel with
  | zero => intro depth h1 h2; omega
  | succ fuel ih =>
    intro depth hf hd129 info code hb idx evs u
    unfold processGeomN wkbMaxNestingDepth
    by_cases hd : depth > 128
    · simp only [hd, if_true, acc_fail, false_iff]
      rintro ⟨g, _, _, h, _⟩
      omega
    simp only [hd, if_false]
    have hd' : depth ≤ 128 := by omega
    split
    · rename_i ht
      rw [hb, fromU32_eq (by simp)] at ht
      simp only [WkbType.toU32] at ht
      subst ht
      rw [acc_point fo H]
      constructor
      · rintro (⟨rfl, h⟩ | ⟨c, rfl, h⟩)
        · exact ⟨.emptyPoint, rfl, rfl, by simpa [Geom.levels] using hd', h⟩
        · exact ⟨.point c, rfl, rfl, by simpa [Geom.levels] using hd', h⟩
      · rintro ⟨g, hg, rfl, _, h⟩
        cases g <;> simp [typeCode] at hg
        · exact Or.inl ⟨rfl, h⟩
        · exact Or.inr ⟨_, rfl, h⟩
    all_goals try (rename_i ht; rw [hb, fromU32_eq (by simp)] at ht; simp only [WkbType.toU32] at ht; subst ht)
    · rw [ex_multiPoint]
      simp only [bind_eq, pure_eq, Geom.events, Geom.levels, BodyIn]
      rw [acc_framedM (fun c => Member H (slFrame info) anyType (fun f' => CoordIn f'.base c)) (coordEvs multi)
        (fun mu i => Prog.bind (rh info) fun sub => Prog.bind (processCoord sub mu i) fun _ => ret ())
        (fun i evs u => acc_anyMember hh info _ _ _ (fun sub evs u => acc_coordStep sub i evs u) evs u)]
      simp only [show depth + 0 ≤ 128 from hd', true_and]
      rfl
    · rw [ex_lineString,
        acc_linestring fo info]
      simp only [Geom.events, Geom.levels, BodyIn, show depth + 0 ≤ 128 from hd', true_and]
    · rw [ex_circularString,
        acc_circularstring info]
      simp only [Geom.events, Geom.levels, BodyIn, show depth + 0 ≤ 128 from hd', true_and]
    · rw [ex_compoundCurve,
        acc_compound fo hh info]
      simp only [Geom.events, Geom.levels, BodyIn]
    · rw [ex_multiLineString]
      simp only [bind_eq, Geom.events, Geom.levels, BodyIn, show depth + 0 ≤ 128 from hd', true_and]
      exact acc_members _ _ _ (fun i evs u => acc_anyMember hh info _ (lineEvs multi false i) (LineIn fo)
        (fun sub evs u => acc_linestring fo sub false i evs u) evs u) info _ idx evs u
    · rw [ex_multiCurve]
      simp only [Geom.events, Geom.levels, BodyIn]
      rw [acc_members _ _ _ (fun i evs u => acc_curve fo hh info i (depth + 1) (by omega) evs u) info]
      simp only [counted_and]
      have key : ∀ cs : List Curve, (∀ c ∈ cs, depth + 1 + c.levels ≤ 129) ↔
          depth + (cs.map Curve.levels).foldr max 0 ≤ 128 := by
        intro cs
        have := foldr_max_le Curve.levels 0 (128 - depth) cs
        constructor
        · intro hall
          have := this.mpr ⟨by omega, fun x hx => by have := hall x hx; omega⟩
          omega
        · intro h x hx
          have := (this.mp (by omega)).2 x hx
          omega
      simp only [key]
      rfl
    · rw [ex_polygon,
        acc_polygon fo info]
      simp only [Geom.events, Geom.levels, BodyIn, show depth + 0 ≤ 128 from hd', true_and]
    · rw [ex_triangle,
        acc_triangle fo info]
      simp only [Geom.events, Geom.levels, BodyIn, show depth + 0 ≤ 128 from hd', true_and]
    · rw [ex_curvePolygon,
        acc_curvepolygon fo hh info]
      simp only [Geom.events, Geom.levels, BodyIn]
      have key : ∀ n : Nat, depth + 1 + n ≤ 129 ↔ depth + n ≤ 128 := by omega
      simp only [key]
    · rw [ex_multiPolygon]
      simp only [bind_eq, Geom.events, Geom.levels, BodyIn, show depth + 0 ≤ 128 from hd', true_and]
      exact acc_members _ _ _ (fun i evs u => acc_anyMember hh info _ (polyEvs multi false i) (RingsIn fo)
        (fun sub evs u => acc_polygon fo sub false i evs u) evs u) info _ idx evs u
    · rw [ex_polyhedralSurface]
      simp only [bind_eq, Geom.events, Geom.levels, BodyIn, show depth + 0 ≤ 128 from hd', true_and]
      exact acc_members _ _ _ (fun i evs u => acc_anyMember hh info _ (polyEvs multi false i) (RingsIn fo)
        (fun sub evs u => acc_polygon fo sub false i evs u) evs u) info _ idx evs u
    · rw [ex_tin]
      simp only [bind_eq, Geom.events, Geom.levels, BodyIn, show depth + 0 ≤ 128 from hd', true_and]
      exact acc_members _ _ _ (fun i evs u => acc_anyMember hh info _ (triEvs multi false i) (RingsIn fo)
        (fun sub evs u => acc_triangle fo sub false i evs u) evs u) info _ idx evs u
    · rw [ex_multiSurface]
      simp only [bind_eq, Geom.events, Geom.levels, BodyIn]
      rw [acc_members _ _ _ (fun i evs u => acc_member hh info _
        (fun s c => surfaceType s c ∧ depth + s.levels ≤ 128) (surfaceEvs multi i) (surfaceBody fo H)
        (fun sub code hb evs u => acc_surfaceBody fo hh sub code hb i depth hd' evs u) evs u) info]
      simp only [member_and', counted_and]
      have key : ∀ ss : List Surface, (∀ s ∈ ss, depth + s.levels ≤ 128) ↔
          depth + (ss.map Surface.levels).foldr max 0 ≤ 128 := by
        intro ss
        have := foldr_max_le Surface.levels 0 (128 - depth) ss
        constructor
        · intro hall
          have := this.mpr ⟨by omega, fun x hx => by have := hall x hx; omega⟩
          omega
        · intro h x hx
          have := (this.mp (by omega)).2 x hx
          omega
      simp only [key, funext (surfaceIn_eq fo H (slFrame info))]
    · rw [ex_collection]
      simp only [bind_eq, events_collection, Geom.levels, BodyIn]
      rw [acc_members _ _ _ (fun i evs u => acc_member hh info _
        (fun g c => typeCode g = c ∧ depth + 1 + g.levels ≤ 128) (Geom.events multi i) (BodyIn fo H)
        (fun sub code hb evs u => by
          rw [ih (depth + 1) (by omega) (by omega) sub code hb i evs u]
          constructor
          · rintro ⟨g, h1, h2, h3, h4⟩; exact ⟨g, h2, ⟨h1, h3⟩, h4⟩
          · rintro ⟨g, h2, ⟨h1, h3⟩, h4⟩; exact ⟨g, h1, h2, h3, h4⟩) evs u) info]
      simp only [member_and', counted_and]
      have key : ∀ gs : List Geom, (∀ g ∈ gs, depth + 1 + g.levels ≤ 128) ↔ depth + levelsList gs ≤ 128 := by
        intro gs
        have := levelsList_le gs (128 - depth)
        constructor
        · intro hall
          have := this.mpr (fun x hx => by have := hall x hx; omega)
          omega
        · intro h x hx
          have := this.mp (by omega) x hx
          omega
      simp only [key, bodiesIn_iff]
      rfl
    · rename_i h1 h2 h3 h4 h5 h6 h7 h8 h9 h10 h11 h12 h13 h14 h15
      rw [acc_fail, false_iff]
      rintro ⟨g, rfl, _⟩
      have := typeCode_types g
      rw [← hb] at this
      simp only [List.mem_cons, List.not_mem_nil, or_false] at this
      rcases this with h | h | h | h | h | h | h | h | h | h | h | h | h | h | h <;> contradiction


theorem hdrExact : HdrExact nestedHeader readSpatialiteNestedHeader where
  sound := by
    intro multi parent info evs u h
    unfold readSpatialiteNestedHeader at h
    simp only [bind_eq, pure_eq] at h
    rw [acc_bind_silent (P := fun a u => u = [a]) acc_readByte] at h
    obtain ⟨m0, u1, u2, rfl, rfl, h⟩ := h
    split at h
    case isFalse => exact absurd h acc_fail.mp
    case isTrue hm =>
    subst hm
    rw [acc_bind_silent (acc_readU32 _)] at h
    obtain ⟨w, u1, u2, rfl, ⟨hw, rfl⟩, h⟩ := h
    obtain ⟨rfl, rfl, rfl⟩ := acc_ret.mp h
    exact ⟨rfl, w % 1000, rfl, rfl, w, hw, rfl, by simp [slFrame], by simp [slFrame, WkbInfo.frame]⟩
  complete := by
    rintro multi parent ⟨fb, pk⟩ code u ⟨rfl, w, hw, rfl, hp, rfl⟩
    have hp' : pk = decide (w > 1000000) := Bool.eq_iff_iff.mpr (by rw [hp]; simp)
    subst hp'
    refine ⟨⟨parent.endian, WkbType.fromU32 (w % 1000), parent.hasZ, parent.hasM, parent.srid, [], decide (w > 1000000)⟩,
      rfl, rfl, ?_⟩
    unfold readSpatialiteNestedHeader
    simp only [bind_eq, pure_eq]
    rw [acc_bind_silent (P := fun a u => u = [a]) acc_readByte]
    refine ⟨0x69, _, _, List.singleton_append.symm, rfl, ?_⟩
    rw [if_pos rfl, acc_bind_silent (acc_readU32 _)]
    exact ⟨w, _, [], (List.append_nil _).symm, ⟨by omega, rfl⟩, acc_ret.mpr ⟨rfl, rfl, rfl⟩⟩

/-- what a SpatiaLite header says -/
def Top (srid : Option Int) (f : Frame) (code : Nat) (u : List Byte) : Prop :=
  ∃ (s : Int) (flags : Byte), srid = (if s = 0 then none else some s) ∧ isI32 s ∧
    f.base.order = (if flags.toNat % 2 = 1 then Endian.le else Endian.be) ∧
    ((128 ≤ flags.toNat ∧ code = 1 ∧ f.packed = false ∧ ∃ d : Byte, (f.base.z = true ↔ d = 2 ∨ d = 4) ∧
        (f.base.m = true ↔ d = 3 ∨ d = 4) ∧ u = [0, flags] ++ encI32 f.base.order s ++ [d]) ∨
      (flags.toNat < 128 ∧ ∃ (mbr : List F64) (word : Nat), mbr.length = 4 ∧ word < 2 ^ 32 ∧
        code = word % 1000 ∧ (f.packed = true ↔ 1000000 < word) ∧ ThousandsDims (word % 1000000 / 1000) f.base.z f.base.m ∧
        u = [0, flags] ++ encI32 f.base.order s ++ mbr.flatMap (encF64 f.base.order) ++ [0x7C] ++ encU32 f.base.order word))

/-- `top` accepts exactly the outermost headers `P` describes. -/
structure TopExact (P : Option Int → Frame → Nat → List Byte → Prop) (top : Prog WkbInfo) : Prop where
  sound : ∀ {multi info evs u}, Acc multi top info evs u →
    evs = [] ∧ ∃ code, info.baseType = WkbType.fromU32 code ∧ P info.srid (slFrame info) code u
  complete : ∀ (multi : Bool) {srid f code u}, P srid f code u →
    ∃ info : WkbInfo, info.srid = srid ∧ slFrame info = f ∧ info.baseType = WkbType.fromU32 code ∧ Acc multi top info [] u

theorem topExact : TopExact Top readSpatialiteHeader where
  sound := by
    intro multi info evs u h
    unfold readSpatialiteHeader at h
    simp only [bind_eq, pure_eq, ofLE_flag] at h
    rw [acc_bind_silent (P := fun a u => u = [a]) acc_readByte] at h
    obtain ⟨m0, u1, u2, rfl, rfl, h⟩ := h
    split at h
    case isFalse => exact absurd h acc_fail.mp
    case isTrue hm =>
    subst hm
    rw [acc_bind_silent (P := fun a u => u = [a]) acc_readByte] at h
    obtain ⟨flags, u1, u2, rfl, rfl, h⟩ := h
    rw [acc_bind_silent (acc_readI32 _)] at h
    obtain ⟨s, u1, u2, rfl, ⟨hs, rfl⟩, h⟩ := h
    split at h
    case isTrue ht =>
      rw [bit7_iff] at ht
      rw [acc_bind_silent (P := fun a u => u = [a]) acc_readByte] at h
      obtain ⟨d, u1, u2, rfl, rfl, h⟩ := h
      obtain ⟨rfl, rfl, rfl⟩ := acc_ret.mp h
      exact ⟨rfl, 1, rfl, s, flags, rfl, hs, rfl, Or.inl ⟨ht, rfl, rfl, d, by simp [slFrame, WkbInfo.frame],
        by simp [slFrame, WkbInfo.frame], by simp [slFrame, WkbInfo.frame]⟩⟩
    case isFalse ht =>
      rw [bit7_iff] at ht
      rw [acc_bind_silent (acc_readF64s _ _)] at h
      obtain ⟨mbr, u1, u2, rfl, ⟨hl, rfl⟩, h⟩ := h
      rw [acc_bind_silent (P := fun a u => u = [a]) acc_readByte] at h
      obtain ⟨m1, u1, u2, rfl, rfl, h⟩ := h
      split at h
      case isFalse => exact absurd h acc_fail.mp
      case isTrue hm =>
      subst hm
      rw [acc_bind_silent (acc_readU32 _)] at h
      obtain ⟨w, u1, u2, rfl, ⟨hw, rfl⟩, h⟩ := h
      obtain ⟨rfl, rfl, rfl⟩ := acc_ret.mp h
      exact ⟨rfl, w % 1000, rfl, s, flags, rfl, hs, rfl, Or.inr ⟨by omega, mbr, w, hl, hw, rfl, by simp [slFrame],
        (thousands_iff _ _ _).mpr ⟨rfl, rfl⟩, by simp [slFrame, WkbInfo.frame]⟩⟩
  complete := by
    rintro multi srid ⟨f, pk⟩ code u ⟨s, flags, rfl, hs, ho, h⟩
    simp only at ho h
    rcases h with ⟨hf, rfl, rfl, d, hz, hm, rfl⟩ | ⟨hf, mbr, w, hl, hw, rfl, hp, hd, rfl⟩
    · have hz' : f.z = (d == 2 || d == 4) := Bool.eq_iff_iff.mpr (by rw [hz]; simp)
      have hm' : f.m = (d == 3 || d == 4) := Bool.eq_iff_iff.mpr (by rw [hm]; simp)
      refine ⟨⟨f.order, .point, d == 2 || d == 4, d == 3 || d == 4, if s = 0 then none else some s, [], false⟩,
        rfl, congrArg (Frame.mk · false) (frame_ext rfl hz'.symm hm'.symm), rfl, ?_⟩
      unfold readSpatialiteHeader
      simp only [bind_eq, pure_eq, ofLE_flag, ← ho]
      rw [acc_bind_silent (P := fun a u => u = [a]) acc_readByte]
      refine ⟨0, _, _, by simp only [List.cons_append, List.nil_append, List.append_assoc]; exact List.singleton_append.symm, rfl, ?_⟩
      rw [if_pos rfl, acc_bind_silent (P := fun a u => u = [a]) acc_readByte]
      refine ⟨flags, _, _, List.singleton_append.symm, rfl, ?_⟩
      rw [acc_bind_silent (acc_readI32 _)]
      refine ⟨s, _, _, rfl, ⟨hs, by rw [← ho]⟩, ?_⟩
      rw [if_pos ((bit7_iff flags).mpr hf), acc_bind_silent (P := fun a u => u = [a]) acc_readByte]
      refine ⟨d, _, [], (List.append_nil _).symm, rfl, acc_ret.mpr ⟨?_, rfl, rfl⟩⟩
      rw [← ho]
    · obtain ⟨hz, hm⟩ := (thousands_iff _ _ _).mp hd
      have hp' : pk = decide (w > 1000000) := Bool.eq_iff_iff.mpr (by rw [hp]; simp)
      subst hp'
      refine ⟨⟨f.order, WkbType.fromU32 (w % 1000), w % 1000000 / 1000 == 1 || w % 1000000 / 1000 == 3,
        w % 1000000 / 1000 == 2 || w % 1000000 / 1000 == 3, if s = 0 then none else some s, mbr, decide (w > 1000000)⟩,
        rfl, congrArg (Frame.mk · (decide (w > 1000000))) (frame_ext rfl hz.symm hm.symm), rfl, ?_⟩
      unfold readSpatialiteHeader
      simp only [bind_eq, pure_eq, ofLE_flag, ← ho]
      rw [acc_bind_silent (P := fun a u => u = [a]) acc_readByte]
      refine ⟨0, _, _, by simp only [List.cons_append, List.nil_append, List.append_assoc]; exact List.singleton_append.symm, rfl, ?_⟩
      rw [if_pos rfl, acc_bind_silent (P := fun a u => u = [a]) acc_readByte]
      refine ⟨flags, _, _, List.singleton_append.symm, rfl, ?_⟩
      rw [acc_bind_silent (acc_readI32 _)]
      refine ⟨s, _, _, rfl, ⟨hs, by rw [← ho]⟩, ?_⟩
      rw [if_neg (by rw [bit7_iff]; omega), acc_bind_silent (acc_readF64s _ _)]
      refine ⟨mbr, _, _, rfl, ⟨hl, by rw [← ho]⟩, ?_⟩
      rw [acc_bind_silent (P := fun a u => u = [a]) acc_readByte]
      refine ⟨0x7C, _, _, List.singleton_append.symm, rfl, ?_⟩
      rw [if_pos rfl, acc_bind_silent (acc_readU32 _)]
      refine ⟨w, _, [], (List.append_nil _).symm, ⟨by omega, by rw [← ho]⟩, acc_ret.mpr ⟨?_, rfl, rfl⟩⟩
      rw [← ho]

/-- a whole read: header, SRID call, geometry -/
theorem acc_top (fo : FOps) {H : LenientHeader} {P : Option Int → Frame → Nat → List Byte → Prop}
    {top : Prog WkbInfo} {rh : WkbInfo → Prog WkbInfo} (ht : TopExact P top) (hh : HdrExact H rh) (multi : Bool)
    (evs : List Ev) (bs rest : List Byte) :
    run multi (processTop fo top rh) bs = (evs, .ok ((), rest)) ↔
      ∃ srid g f hb bb, bs = hb ++ bb ++ rest ∧ P srid f (typeCode g) hb ∧ BodyIn fo H g f bb ∧ g.levels ≤ 128 ∧
        evs = .srid srid :: g.events multi 0 := by
  rw [acc_iff]
  unfold processTop
  simp only [bind_eq]
  constructor
  · rintro ⟨u, rfl, h⟩
    rw [acc_bind] at h
    obtain ⟨info, e1, e2, u1, u2, rfl, rfl, h1, h2⟩ := h
    obtain ⟨rfl, code, hb, hP⟩ := ht.sound h1
    rw [acc_emitEv_bind] at h2
    obtain ⟨e3, rfl, h2⟩ := h2
    obtain ⟨g, rfl, rfl, hl, hB⟩ := (acc_geomN fo hh multi 130 0 (by omega) (by omega) info code hb 0 _ _).mp h2
    exact ⟨info.srid, g, slFrame info, u1, u2, rfl, hP, hB, by omega, rfl⟩
  · rintro ⟨srid, g, f, hb, bb, rfl, hP, hB, hl, rfl⟩
    obtain ⟨info, rfl, rfl, hbase, h1⟩ := ht.complete multi hP
    refine ⟨hb ++ bb, rfl, ?_⟩
    rw [acc_bind]
    refine ⟨info, [], _, hb, bb, rfl, rfl, h1, ?_⟩
    rw [acc_emitEv_bind]
    exact ⟨_, rfl, (acc_geomN fo hh multi 130 0 (by omega) (by omega) info _ hbase 0 _ _).mpr
      ⟨g, rfl, rfl, by omega, hB⟩⟩

end Sl
end Geozero
