import Verif.Lemmas.Bytes
import Verif.Model.WkbReader
import Verif.Spec.Wkb

/- Helper lemmas: the WKB reader decodes specification encodings. -/

namespace Geozero
open Prog Spec

/-- The parts of a header that matter for reading a body. -/
structure InfoOk (d : Dims) (e : Endian) (t : WkbType) (info : WkbInfo) : Prop where
  endian : info.endian = e
  base : info.baseType = t
  z : info.hasZ = d.z
  m : info.hasM = d.m
  comp : info.isCompressed = false

/-- The nested header reader `rh` decodes headers written according to `H`. -/
def HdrOk (d : Dims) (H : HeaderSpec) (rh : WkbInfo → Prog WkbInfo) : Prop :=
  ∀ (outer : WkbInfo) (e : Endian) (t0 : WkbType), InfoOk d e t0 outer →
    ∀ (e' : Endian) (c : Nat) (hb : List Byte), 1 ≤ c → c ≤ 17 → H e e' c hb →
      ∀ (multi : Bool) (rest : List Byte), ∃ info, InfoOk d e' (WkbType.fromU32 c) info ∧
        run multi (rh outer) (hb ++ rest) = ([], .ok (info, rest))

/-- Outcome of reading an encoding whose nesting fits (`ok`) or not. -/
def Outcome (ok : Prop) (evs : List Ev) (rest : List Byte)
    (r : List Ev × Except Err (Unit × List Byte)) : Prop :=
  (ok → r = (evs, .ok ((), rest))) ∧
  (¬ ok → ∃ evs', evs' <+: evs ∧ r = (evs', .error (.maxNesting wkbMaxNestingDepth)))

theorem Outcome.congr {ok ok' : Prop} {evs : List Ev} {rest : List Byte}
    {r : List Ev × Except Err (Unit × List Byte)} (h : ok ↔ ok') (H : Outcome ok evs rest r) :
    Outcome ok' evs rest r := by
  rw [h] at H; exact H

theorem Outcome.of_eq {evs : List Ev} {rest : List Byte}
    {r : List Ev × Except Err (Unit × List Byte)} (h : r = (evs, .ok ((), rest))) {ok : Prop} (hok : ok) :
    Outcome ok evs rest r :=
  ⟨fun _ => h, fun hn => absurd hok hn⟩

theorem run_coord (d : Dims) (e : Endian) (t : WkbType) (info : WkbInfo) (h : InfoOk d e t info)
    (c : Coord) (hc : HasDims d c) (multi : Bool) (rest : List Byte) :
    run multi (readCoord64 info) (coordBytes e c ++ rest) = ([], .ok (c, rest)) := by
  obtain ⟨x, y, z, m⟩ := c
  obtain ⟨hz, hm⟩ := hc
  simp only at hz hm
  unfold readCoord64 coordBytes
  simp only [bind_eq, pure_eq, List.append_assoc, h.endian, h.z, h.m]
  rw [run_bind_ok_nil (run_readF64 multi e x _), run_bind_ok_nil (run_readF64 multi e y _)]
  cases hdz : d.z <;> cases hdm : d.m <;> rw [hdz] at hz <;> rw [hdm] at hm <;>
    cases z <;> cases m <;> simp_all [bind_assoc]
  · rw [run_bind_ok_nil (run_readF64 multi e _ _)]
    simp
  · rw [run_bind_ok_nil (run_readF64 multi e _ _)]
    simp
  · rw [run_bind_ok_nil (run_readF64 multi e _ _), run_bind_ok_nil (run_readF64 multi e _ _)]
    simp

theorem run_processCoord (d : Dims) (e : Endian) (t : WkbType) (info : WkbInfo) (h : InfoOk d e t info)
    (c : Coord) (hc : HasDims d c) (multi multi' : Bool) (i : Nat) (rest : List Byte) :
    run multi (processCoord info multi' i) (coordBytes e c ++ rest) =
      ([coordEv multi' c i], .ok (c, rest)) := by
  unfold processCoord
  simp only [bind_eq]
  rw [run_bind_ok_nil (run_coord d e t info h c hc multi rest)]
  rfl

/-- a loop over members, each of which reads its own bytes and emits its own events -/
theorem run_loop {α : Type} (multi : Bool) (R : α → List Byte → Prop) (okb : α → Prop)
    (f : Nat → α → List Ev) (body : Nat → Prog Unit) (xs : List α) :
    (∀ x ∈ xs, ∀ i b rest, R x b → Outcome (okb x) (f i x) rest (run multi (body i) (b ++ rest))) →
    ∀ i bs rest, Cat R xs bs →
      Outcome (∀ x ∈ xs, okb x) (evList f i xs) rest (run multi (loop xs.length i body) (bs ++ rest)) := by
  induction xs with
  | nil =>
    intro _ i bs rest hb
    simp only [Cat] at hb
    subst hb
    exact Outcome.of_eq rfl (by simp)
  | cons x xs ih =>
    intro hx i bs rest hb
    obtain ⟨b1, b2, rfl, h1, h2⟩ := hb
    have hhead := hx x (by simp) i b1 (b2 ++ rest) h1
    have htail := ih (fun y hy => hx y (by simp [hy])) (i + 1) b2 rest h2
    simp only [List.length_cons, loop, List.append_assoc, evList]
    constructor
    · intro hok
      rw [run_bind_ok (hhead.1 (hok x (by simp))), htail.1 (fun y hy => hok y (by simp [hy]))]
    · intro hn
      by_cases hxok : okb x
      · have : ¬ ∀ y ∈ xs, okb y := by
          intro hall
          apply hn
          intro y hy
          rcases List.mem_cons.mp hy with rfl | hy
          · exact hxok
          · exact hall y hy
        obtain ⟨evs', hp, hr⟩ := htail.2 this
        refine ⟨f i x ++ evs', (List.prefix_append_right_inj _).mpr hp, ?_⟩
        rw [run_bind_ok (hhead.1 hxok), hr]
      · obtain ⟨evs', hp, hr⟩ := hhead.2 hxok
        refine ⟨evs', hp.trans (List.prefix_append _ _), ?_⟩
        rw [run_bind_err hr]

/-- count, begin event, members, end event -/
theorem run_counted {α : Type} (multi : Bool) (R : α → List Byte → Prop) (okb : α → Prop)
    (f : Nat → α → List Ev) (body : Nat → Prog Unit) (xs : List α) (e : Endian) (k : GKind)
    (tagged : Bool) (idx : Nat) (bs rest : List Byte)
    (hx : ∀ x ∈ xs, ∀ i b rest, R x b → Outcome (okb x) (f i x) rest (run multi (body i) (b ++ rest)))
    (hb : Counted e R xs bs) :
    Outcome (∀ x ∈ xs, okb x) (bracket k tagged idx f xs) rest
      (run multi (Prog.bind (readU32 e) fun n => Prog.bind (emitEv (.gbegin k tagged n idx)) fun _ =>
        Prog.bind (loop n 0 body) fun _ => emitEv (.gend k tagged idx)) (bs ++ rest)) := by
  obtain ⟨hlen, bb, rfl, hcat⟩ := hb
  have hl := run_loop multi R okb f body xs hx 0 bb rest hcat
  simp only [List.append_assoc]
  rw [run_bind_ok_nil (run_readU32 multi e xs.length _ hlen)]
  simp only [run_emitEv_bind, bracket]
  constructor
  · intro hok
    rw [run_bind_ok (hl.1 hok)]
    simp
  · intro hn
    obtain ⟨evs', hp, hr⟩ := hl.2 hn
    refine ⟨Ev.gbegin k tagged xs.length idx :: evs', ?_, ?_⟩
    · exact List.cons_prefix_cons.mpr ⟨rfl, hp.trans (List.prefix_append _ _)⟩
    · rw [run_bind_err hr]

theorem run_points (d : Dims) (e : Endian) (t : WkbType) (info : WkbInfo) (h : InfoOk d e t info)
    (cs : List Coord) (hc : ∀ c ∈ cs, HasDims d c) (multi : Bool) (k : GKind) (tagged : Bool)
    (idx : Nat) (bs rest : List Byte) (hb : PointsBody cs e bs) :
    run multi (Prog.bind (readU32 e) fun n => Prog.bind (emitEv (.gbegin k tagged n idx)) fun _ =>
        Prog.bind (loop n 0 fun i => Prog.bind (processCoord info multi i) fun _ => ret ())
        fun _ => emitEv (.gend k tagged idx)) (bs ++ rest)
      = (bracket k tagged idx (coordEvs multi) cs, .ok ((), rest)) := by
  refine (run_counted multi (fun c b => b = coordBytes e c) (fun _ => True) (coordEvs multi) _ cs e k
    tagged idx bs rest ?_ hb).1 (fun _ _ => trivial)
  intro c hcm i b rest' hbc
  subst hbc
  refine Outcome.of_eq ?_ trivial
  rw [run_bind_ok (run_processCoord d e t info h c (hc c hcm) multi multi i rest')]
  rfl

theorem run_linestring (fo : FOps) (d : Dims) (e : Endian) (t : WkbType) (info : WkbInfo)
    (h : InfoOk d e t info) (cs : List Coord) (hc : ∀ c ∈ cs, HasDims d c) (multi tagged : Bool)
    (idx : Nat) (bs rest : List Byte) (hb : PointsBody cs e bs) :
    run multi (processLinestring fo info tagged idx) (bs ++ rest)
      = (lineEvs multi tagged idx cs, .ok ((), rest)) := by
  have := run_points d e t info h cs hc multi .lineString tagged idx bs rest hb
  unfold processLinestring lineEvs
  rw [← this]
  obtain ⟨hlen, bb, rfl, hcat⟩ := hb
  simp only [bind_eq, pure_eq, h.endian, List.append_assoc]
  rw [run_bind_ok_nil (run_readU32 multi e cs.length _ hlen),
    run_bind_ok_nil (run_readU32 multi e cs.length _ hlen)]
  simp [h.comp]

theorem run_circularstring (d : Dims) (e : Endian) (t : WkbType) (info : WkbInfo)
    (h : InfoOk d e t info) (cs : List Coord) (hc : ∀ c ∈ cs, HasDims d c) (multi : Bool)
    (idx : Nat) (bs rest : List Byte) (hb : PointsBody cs e bs) :
    run multi (processCircularstring info idx) (bs ++ rest)
      = (circEvs multi idx cs, .ok ((), rest)) := by
  have := run_points d e t info h cs hc multi .circularString true idx bs rest hb
  unfold processCircularstring circEvs
  rw [← this]
  obtain ⟨hlen, bb, rfl, hcat⟩ := hb
  simp only [bind_eq, pure_eq, h.endian, List.append_assoc]
  rw [run_bind_ok_nil (run_readU32 multi e cs.length _ hlen),
    run_bind_ok_nil (run_readU32 multi e cs.length _ hlen)]
  simp

theorem run_rings (fo : FOps) (d : Dims) (e : Endian) (t : WkbType) (info : WkbInfo)
    (h : InfoOk d e t info) (rings : List (List Coord)) (hc : ∀ l ∈ rings, ∀ c ∈ l, HasDims d c)
    (multi : Bool) (k : GKind) (tagged : Bool) (idx : Nat) (bs rest : List Byte)
    (hb : RingsBody rings e bs) :
    run multi (Prog.bind (readU32 e) fun n => Prog.bind (emitEv (.gbegin k tagged n idx)) fun _ =>
        Prog.bind (loop n 0 fun i => processLinestring fo info false i)
        fun _ => emitEv (.gend k tagged idx)) (bs ++ rest)
      = (bracket k tagged idx (lineEvs multi false) rings, .ok ((), rest)) := by
  refine (run_counted multi (fun r b => PointsBody r e b) (fun _ => True) (lineEvs multi false) _ rings e k
    tagged idx bs rest ?_ hb).1 (fun _ _ => trivial)
  intro r hr i b rest' hbr
  exact Outcome.of_eq (run_linestring fo d e t info h r (hc r hr) multi false i b rest' hbr) trivial

theorem run_polygon (fo : FOps) (d : Dims) (e : Endian) (t : WkbType) (info : WkbInfo)
    (h : InfoOk d e t info) (rings : List (List Coord)) (hc : ∀ l ∈ rings, ∀ c ∈ l, HasDims d c)
    (multi tagged : Bool) (idx : Nat) (bs rest : List Byte) (hb : RingsBody rings e bs) :
    run multi (processPolygon fo info tagged idx) (bs ++ rest)
      = (polyEvs multi tagged idx rings, .ok ((), rest)) := by
  have := run_rings fo d e t info h rings hc multi .polygon tagged idx bs rest hb
  unfold processPolygon polyEvs
  simp only [bind_eq, h.endian]
  exact this

theorem run_triangle (fo : FOps) (d : Dims) (e : Endian) (t : WkbType) (info : WkbInfo)
    (h : InfoOk d e t info) (rings : List (List Coord)) (hc : ∀ l ∈ rings, ∀ c ∈ l, HasDims d c)
    (multi tagged : Bool) (idx : Nat) (bs rest : List Byte) (hb : RingsBody rings e bs) :
    run multi (processTriangle fo info tagged idx) (bs ++ rest)
      = (triEvs multi tagged idx rings, .ok ((), rest)) := by
  have := run_rings fo d e t info h rings hc multi .triangle tagged idx bs rest hb
  unfold processTriangle triEvs
  simp only [bind_eq, h.endian]
  exact this

/-- a nested header followed by a body -/
theorem run_nested {d : Dims} {H : HeaderSpec} {rh : WkbInfo → Prog WkbInfo} (hh : HdrOk d H rh)
    {e : Endian} {t0 : WkbType} {outer : WkbInfo} (ho : InfoOk d e t0 outer)
    {c : Nat} (hc1 : 1 ≤ c) (hc2 : c ≤ 17) {body : Endian → List Byte → Prop} {bs : List Byte}
    (hb : Nested H e c body bs) (multi : Bool) (rest : List Byte) {k : WkbInfo → Prog Unit}
    {ok : Prop} {evs : List Ev}
    (hk : ∀ e' info bb, InfoOk d e' (WkbType.fromU32 c) info → body e' bb →
      Outcome ok evs rest (run multi (k info) (bb ++ rest))) :
    Outcome ok evs rest (run multi (Prog.bind (rh outer) k) (bs ++ rest)) := by
  obtain ⟨e', hb', bb, rfl, hH, hbody⟩ := hb
  obtain ⟨info, hi, hr⟩ := hh outer e t0 ho e' c hb' hc1 hc2 hH multi (bb ++ rest)
  rw [List.append_assoc, run_bind_ok_nil hr]
  exact hk e' info bb hi hbody

theorem run_seg (fo : FOps) {d : Dims} {H : HeaderSpec} {rh : WkbInfo → Prog WkbInfo} (hh : HdrOk d H rh)
    {e : Endian} {t0 : WkbType} {outer : WkbInfo} (ho : InfoOk d e t0 outer) (s : Seg)
    (hs : AllCoords.SegCoords (HasDims d) s) (multi : Bool) (i : Nat) (b rest : List Byte)
    (hb : SegRel H e s b) :
    Outcome True (segEvs multi i s) rest
      (run multi (Prog.bind (rh outer) fun info => processSegment fo info i) (b ++ rest)) := by
  cases s with
  | line cs =>
    refine run_nested hh ho (by omega) (by omega) hb multi rest ?_
    intro e' info bb hi hbody
    refine Outcome.of_eq ?_ trivial
    unfold processSegment
    rw [hi.base]
    exact run_linestring fo d e' _ info hi cs hs multi false i bb rest hbody
  | circ cs =>
    refine run_nested hh ho (by omega) (by omega) hb multi rest ?_
    intro e' info bb hi hbody
    refine Outcome.of_eq ?_ trivial
    unfold processSegment
    rw [hi.base]
    exact run_circularstring d e' _ info hi cs hs multi i bb rest hbody

theorem run_compound (fo : FOps) {d : Dims} {H : HeaderSpec} {rh : WkbInfo → Prog WkbInfo}
    (hh : HdrOk d H rh) {e : Endian} {t0 : WkbType} {info : WkbInfo} (ho : InfoOk d e t0 info)
    (ss : List Seg) (hs : ∀ s ∈ ss, AllCoords.SegCoords (HasDims d) s) (multi : Bool) (idx depth : Nat)
    (b rest : List Byte) (hb : CompoundBody H ss e b) :
    Outcome (depth ≤ 128) (bracket .compoundCurve true idx (segEvs multi) ss) rest
      (run multi (processCompoundcurve fo rh info idx depth) (b ++ rest)) := by
  unfold processCompoundcurve
  by_cases hd : depth > wkbMaxNestingDepth
  · simp only [hd, if_true]
    refine ⟨fun h => ?_, fun _ => ⟨[], by simp, rfl⟩⟩
    unfold wkbMaxNestingDepth at hd; omega
  · simp only [hd, if_false, bind_eq, ho.endian]
    have h1 := run_counted multi (SegRel H e) (fun _ => True) (segEvs multi)
      (fun i => Prog.bind (rh info) fun info => processSegment fo info i) ss e .compoundCurve true idx b rest
      (fun s hsm i b rest hb => run_seg fo hh ho s (hs s hsm) multi i b rest hb) hb
    refine Outcome.congr ?_ h1
    unfold wkbMaxNestingDepth at hd
    constructor
    · intro _; omega
    · intro _ _ _; trivial

theorem run_curve (fo : FOps) {d : Dims} {H : HeaderSpec} {rh : WkbInfo → Prog WkbInfo}
    (hh : HdrOk d H rh) {e : Endian} {t0 : WkbType} {outer : WkbInfo} (ho : InfoOk d e t0 outer)
    (c : Curve) (hc : AllCoords.CurveCoords (HasDims d) c) (multi : Bool) (idx depth : Nat)
    (hdepth : depth ≤ 129)
    (b rest : List Byte) (hb : CurveRel H e c b) :
    Outcome (depth + c.levels ≤ 129) (curveEvs multi idx c) rest
      (run multi (processCurve fo rh outer idx depth) (b ++ rest)) := by
  unfold processCurve
  simp only [bind_eq]
  cases c with
  | seg s =>
    refine Outcome.congr (ok := True) (by simp [Curve.levels]; omega) ?_
    cases s with
    | line cs =>
      refine run_nested hh ho (by omega) (by omega) hb multi rest ?_
      intro e' info bb hi hbody
      refine Outcome.of_eq ?_ trivial
      unfold processCurveBody
      rw [hi.base]
      exact run_linestring fo d e' _ info hi cs hc multi false idx bb rest hbody
    | circ cs =>
      refine run_nested hh ho (by omega) (by omega) hb multi rest ?_
      intro e' info bb hi hbody
      refine Outcome.of_eq ?_ trivial
      unfold processCurveBody
      rw [hi.base]
      exact run_circularstring d e' _ info hi cs hc multi idx bb rest hbody
  | compound ss =>
    refine run_nested hh ho (by omega) (by omega) hb multi rest ?_
    intro e' info bb hi hbody
    unfold processCurveBody
    rw [hi.base]
    refine Outcome.congr ?_ (run_compound fo hh hi ss hc multi idx (depth + 1) bb rest hbody)
    simp only [Curve.levels]; omega

theorem foldr_max_le {α : Type} (f : α → Nat) (b n : Nat) (xs : List α) :
    (xs.map f).foldr max b ≤ n ↔ b ≤ n ∧ ∀ x ∈ xs, f x ≤ n := by
  induction xs with
  | nil => simp
  | cons x xs ih =>
    simp only [List.map_cons, List.foldr_cons, List.mem_cons, forall_eq_or_imp]
    rw [Nat.max_le, ih]
    constructor
    · rintro ⟨a, b, c⟩; exact ⟨b, a, c⟩
    · rintro ⟨a, b, c⟩; exact ⟨b, a, c⟩

theorem run_curvepolygon (fo : FOps) {d : Dims} {H : HeaderSpec} {rh : WkbInfo → Prog WkbInfo}
    (hh : HdrOk d H rh) {e : Endian} {t0 : WkbType} {info : WkbInfo} (ho : InfoOk d e t0 info)
    (rings : List Curve) (hc : ∀ c ∈ rings, AllCoords.CurveCoords (HasDims d) c) (multi : Bool)
    (idx depth : Nat) (b rest : List Byte) (hb : CurvesBody H rings e b) :
    Outcome (depth + (rings.map (fun c => 1 + c.levels)).foldr max 1 ≤ 129)
      (bracket .curvePolygon true idx (curveEvs multi) rings) rest
      (run multi (processCurvepolygon fo rh info idx depth) (b ++ rest)) := by
  unfold processCurvepolygon
  by_cases hd : depth > wkbMaxNestingDepth
  · simp only [hd, if_true]
    refine ⟨fun h => ?_, fun _ => ⟨[], by simp, rfl⟩⟩
    unfold wkbMaxNestingDepth at hd
    have : (rings.map (fun c => 1 + c.levels)).foldr max 1 ≤ 129 - depth := by omega
    rw [foldr_max_le] at this
    omega
  · simp only [hd, if_false, bind_eq, ho.endian]
    unfold wkbMaxNestingDepth at hd
    have h1 := run_counted multi (CurveRel H e) (fun c => depth + 1 + c.levels ≤ 129) (curveEvs multi)
      (fun i => processCurve fo rh info i (depth + 1)) rings e .curvePolygon true idx b rest
      (fun c hcm i b rest hb => run_curve fo hh ho c (hc c hcm) multi i (depth + 1) (by omega) b rest hb) hb
    refine Outcome.congr ?_ h1
    have := foldr_max_le (fun c : Curve => 1 + c.levels) 1 (129 - depth) rings
    constructor
    · intro hall
      have h2 : (rings.map (fun c => 1 + c.levels)).foldr max 1 ≤ 129 - depth :=
        this.mpr ⟨by omega, fun x hx => by have := hall x hx; omega⟩
      omega
    · intro h x hx
      have h2 := (this.mp (by omega)).2 x hx
      omega

theorem allNaN_iff (c : Coord) : c.allNaN = true ↔ AllNaN c := by
  obtain ⟨x, y, z, m⟩ := c
  cases z <;> cases m <;> simp [Coord.allNaN, AllNaN, and_assoc]

theorem run_point (d : Dims) (e : Endian) (t : WkbType) (info : WkbInfo) (h : InfoOk d e t info)
    (c : Coord) (hc : HasDims d c) (hn : ¬ AllNaN c) (multi : Bool) (idx : Nat) (rest : List Byte) :
    run multi (processPoint info idx) (coordBytes e c ++ rest)
      = (Geom.events multi idx (.point c), .ok ((), rest)) := by
  unfold processPoint
  simp only [bind_eq]
  rw [run_bind_ok_nil (run_coord d e t info h c hc multi rest)]
  rw [← allNaN_iff] at hn
  simp only [hn]
  simp [emitCoord, Geom.events, bind_assoc]

theorem run_emptyPoint (d : Dims) (e : Endian) (t : WkbType) (info : WkbInfo) (h : InfoOk d e t info)
    (c : Coord) (hc : HasDims d c) (hn : AllNaN c) (multi : Bool) (idx : Nat) (rest : List Byte) :
    run multi (processPoint info idx) (coordBytes e c ++ rest)
      = (Geom.events multi idx .emptyPoint, .ok ((), rest)) := by
  unfold processPoint
  simp only [bind_eq]
  rw [run_bind_ok_nil (run_coord d e t info h c hc multi rest)]
  rw [← allNaN_iff] at hn
  simp only [hn, if_true]
  simp [Geom.events]

theorem allCoordsList_iff (P : Coord → Prop) (gs : List Geom) :
    AllCoordsList P gs ↔ ∀ g ∈ gs, AllCoords P g := by
  induction gs with
  | nil => simp [AllCoordsList]
  | cons g gs ih => simp [AllCoordsList, ih]

theorem bodies_iff (d : Dims) (H : HeaderSpec) (gs : List Geom) (e : Endian) (bs : List Byte) :
    Bodies d H gs e bs ↔ Cat (fun g => Nested H e (typeCode g) (Body d H g)) gs bs := by
  induction gs generalizing bs with
  | nil => simp [Bodies, Cat]
  | cons g gs ih => simp only [Bodies, Cat, ih]; rfl

theorem levelsList_le (gs : List Geom) (n : Nat) :
    levelsList gs ≤ n ↔ ∀ g ∈ gs, 1 + g.levels ≤ n := by
  induction gs with
  | nil => simp [levelsList]
  | cons g gs ih => simp [levelsList, Nat.max_le, ih]

theorem typeCode_pos (g : Geom) : 1 ≤ typeCode g := by cases g <;> simp [typeCode]
theorem typeCode_le (g : Geom) : typeCode g ≤ 17 := by cases g <;> simp [typeCode]

/-- The body of any geometry: full event stream if the nesting fits, otherwise a prefix and the
nesting error. -/
theorem run_geomN (fo : FOps) {d : Dims} {H : HeaderSpec} {rh : WkbInfo → Prog WkbInfo}
    (hh : HdrOk d H rh) (multi : Bool) (g : Geom) :
    ∀ (fuel depth : Nat), fuel + depth ≥ 130 → depth ≤ 129 → ∀ (e : Endian) (info : WkbInfo),
      InfoOk d e (WkbType.fromU32 (typeCode g)) info → AllCoords (HasDims d) g →
      ∀ (idx : Nat) (bs rest : List Byte), Body d H g e bs →
      Outcome (depth + g.levels ≤ 128) (g.events multi idx) rest
        (run multi (processGeomN fo rh fuel info idx depth) (bs ++ rest)) := by
  induction g using Geom.ind
  all_goals
    intro fuel depth hf hd129 e info hi hc idx bs rest hb
    obtain ⟨fuel, rfl⟩ : ∃ n, fuel = n + 1 := ⟨fuel - 1, by omega⟩
    unfold processGeomN
    by_cases hd : depth > wkbMaxNestingDepth
    · simp only [hd, if_true]
      refine ⟨fun h => ?_, fun _ => ⟨[], by simp, rfl⟩⟩
      unfold wkbMaxNestingDepth at hd; omega
    simp only [hd, if_false]
    have hd' : depth ≤ 128 := by unfold wkbMaxNestingDepth at hd; omega
    have hbase := hi.base
    simp only [typeCode, WkbType.fromU32] at hbase
    rw [hbase]
    simp only
  · obtain ⟨c, hcd, hn, rfl⟩ := hb
    exact Outcome.of_eq (run_emptyPoint d e _ info hi c hcd hn multi idx rest) (by simp [Geom.levels]; omega)
  · rename_i c
    obtain ⟨hn, rfl⟩ := hb
    exact Outcome.of_eq (run_point d e _ info hi c hc hn multi idx rest) (by simp [Geom.levels]; omega)
  · rename_i cs
    simp only [bind_eq]
    have := run_counted multi _ (fun _ => True) (coordEvs multi) (fun i => Prog.bind (rh info) fun sub =>
      Prog.bind (processCoord sub multi i) fun _ => ret ()) cs e .multiPoint true idx
      bs rest ?_ hb
    · refine Outcome.congr ?_ ?_ (ok := ∀ x ∈ cs, True)
      · simp [Geom.levels]; omega
      · obtain ⟨hlen, bb, rfl, hcat⟩ := hb
        rw [List.append_assoc, run_bind_ok_nil (run_readU32 multi e cs.length _ hlen)] at this
        rw [List.append_assoc, hi.endian, run_bind_ok_nil (run_readU32 multi e cs.length _ hlen)]
        simpa [Geom.events] using this
    · intro c hcm i b rest' hbc
      refine run_nested hh hi (by omega) (by omega) hbc multi rest' ?_
      intro e' info' bb hi' hbody
      subst hbody
      refine Outcome.of_eq ?_ trivial
      rw [run_bind_ok (run_processCoord d e' _ info' hi' c (hc c hcm) multi multi i rest')]
      rfl
  · rename_i cs
    exact Outcome.of_eq (run_linestring fo d e _ info hi cs hc multi true idx bs rest hb)
      (by simp [Geom.levels]; omega)
  · rename_i cs
    exact Outcome.of_eq (run_circularstring d e _ info hi cs hc multi idx bs rest hb)
      (by simp [Geom.levels]; omega)
  · rename_i ss
    refine Outcome.congr ?_ (run_compound fo hh hi ss hc multi idx (depth + 1) bs rest hb)
    simp only [Geom.levels]
  · rename_i ls
    unfold processMembers
    simp only [bind_eq, hi.endian]
    refine Outcome.congr ?_ (run_counted multi _ (fun _ => True) (lineEvs multi false) _ ls e
      .multiLineString true idx bs rest ?_ hb)
    · simp [Geom.levels]; omega
    · intro l hl i b rest' hbl
      refine run_nested hh hi (by omega) (by omega) hbl multi rest' ?_
      intro e' info' bb hi' hbody
      exact Outcome.of_eq (run_linestring fo d e' _ info' hi' l (hc l hl) multi false i bb rest' hbody)
        trivial
  · rename_i cs
    unfold processMembers
    simp only [bind_eq, hi.endian]
    refine Outcome.congr ?_ (run_counted multi _ (fun c => depth + 1 + c.levels ≤ 129) (curveEvs multi) _ cs e
      .multiCurve true idx bs rest (fun c hcm i b rest' hbc =>
        run_curve fo hh hi c (hc c hcm) multi i (depth + 1) (by omega) b rest' hbc) hb)
    simp only [Geom.levels]
    have := foldr_max_le Curve.levels 0 (128 - depth) cs
    constructor
    · intro hall
      have := this.mpr ⟨by omega, fun x hx => by have := hall x hx; omega⟩
      omega
    · intro h x hx
      have := (this.mp (by omega)).2 x hx
      omega
  · rename_i rings
    exact Outcome.of_eq (run_polygon fo d e _ info hi rings hc multi true idx bs rest hb)
      (by simp [Geom.levels]; omega)
  · rename_i rings
    exact Outcome.of_eq (run_triangle fo d e _ info hi rings hc multi true idx bs rest hb)
      (by simp [Geom.levels]; omega)
  · rename_i rings
    refine Outcome.congr ?_ (run_curvepolygon fo hh hi rings hc multi idx (depth + 1) bs rest hb)
    simp only [Geom.levels]
    omega
  · rename_i ps
    unfold processMembers
    simp only [bind_eq, hi.endian]
    refine Outcome.congr ?_ (run_counted multi _ (fun _ => True) (polyEvs multi false) _ ps e
      .multiPolygon true idx bs rest ?_ hb)
    · simp [Geom.levels]; omega
    · intro l hl i b rest' hbl
      refine run_nested hh hi (by omega) (by omega) hbl multi rest' ?_
      intro e' info' bb hi' hbody
      exact Outcome.of_eq (run_polygon fo d e' _ info' hi' l (hc l hl) multi false i bb rest' hbody)
        trivial
  · rename_i ps
    unfold processMembers
    simp only [bind_eq, hi.endian]
    refine Outcome.congr ?_ (run_counted multi _ (fun _ => True) (polyEvs multi false) _ ps e
      .polyhedralSurface true idx bs rest ?_ hb)
    · simp [Geom.levels]; omega
    · intro l hl i b rest' hbl
      refine run_nested hh hi (by omega) (by omega) hbl multi rest' ?_
      intro e' info' bb hi' hbody
      exact Outcome.of_eq (run_polygon fo d e' _ info' hi' l (hc l hl) multi false i bb rest' hbody)
        trivial
  · rename_i ps
    unfold processMembers
    simp only [bind_eq, hi.endian]
    refine Outcome.congr ?_ (run_counted multi _ (fun _ => True) (triEvs multi false) _ ps e
      .tin true idx bs rest ?_ hb)
    · simp [Geom.levels]; omega
    · intro l hl i b rest' hbl
      refine run_nested hh hi (by omega) (by omega) hbl multi rest' ?_
      intro e' info' bb hi' hbody
      exact Outcome.of_eq (run_triangle fo d e' _ info' hi' l (hc l hl) multi false i bb rest' hbody)
        trivial
  · rename_i ss
    unfold processMembers
    simp only [bind_eq, hi.endian]
    refine Outcome.congr ?_ (run_counted multi _ (fun s => depth + s.levels ≤ 128) (surfaceEvs multi) _ ss e
      .multiSurface true idx bs rest ?_ hb)
    · simp only [Geom.levels]
      have := foldr_max_le Surface.levels 0 (128 - depth) ss
      constructor
      · intro hall
        have := this.mpr ⟨by omega, fun x hx => by have := hall x hx; omega⟩
        omega
      · intro h x hx
        have := (this.mp (by omega)).2 x hx
        omega
    · intro s hs i b rest' hbs
      cases s with
      | polygon rings =>
        refine run_nested hh hi (by omega) (by omega) hbs multi rest' ?_
        intro e' info' bb hi' hbody
        unfold processSurfaceBody
        rw [hi'.base]
        exact Outcome.of_eq (run_polygon fo d e' _ info' hi' rings (hc _ hs) multi false i bb rest' hbody)
          (by simp [Surface.levels]; omega)
      | curvePolygon rings =>
        refine run_nested hh hi (by omega) (by omega) hbs multi rest' ?_
        intro e' info' bb hi' hbody
        unfold processSurfaceBody
        rw [hi'.base]
        refine Outcome.congr ?_ (run_curvepolygon fo hh hi' rings (hc _ hs) multi i (depth + 1) bb rest' hbody)
        simp only [Surface.levels]
        omega
  · rename_i gs ih
    unfold processMembers
    simp only [bind_eq, hi.endian]
    rw [events_collection]
    have hcl := (allCoordsList_iff _ _).mp hc
    have hcounted : Counted e (fun g => Nested H e (typeCode g) (Body d H g)) gs bs := by
      obtain ⟨hlen, bb, rfl, hcat⟩ := hb
      exact ⟨hlen, bb, rfl, (bodies_iff _ _ _ _ _).mp hcat⟩
    refine Outcome.congr ?_ (run_counted multi _ (fun g => depth + 1 + g.levels ≤ 128) (Geom.events multi) _
      gs e .collection true idx bs rest ?_ hcounted)
    · simp only [Geom.levels]
      have := levelsList_le gs (128 - depth)
      constructor
      · intro hall
        have := this.mpr (fun x hx => by have := hall x hx; omega)
        omega
      · intro h x hx
        have := this.mp (by omega) x hx
        omega
    · intro g hg i b rest' hbg
      refine run_nested hh hi (typeCode_pos g) (typeCode_le g) hbg multi rest' ?_
      intro e' info' bb hi' hbody
      exact ih g hg fuel (depth + 1) (by omega) (by omega) e' info' hi' (hcl g hg) i bb rest' hbody

end Geozero
