import Verif.Props.WkbWrite
import Verif.Lemmas.SlFoot

/-
C05, continued: which outermost polygons, curves and surfaces survive a SpatiaLite round trip.
-/

namespace Geozero
open Spec Prog WkbWriter

/-- C05.  Outermost geometries whose every part is the last one of its parent (`slSingle`: a polygon or
triangle with at most one ring, a compound curve with at most one segment, a surface with at most one patch
of at most one ring, ...), and everything `slSafe` covers, come back: the writer's superfluous end marks
(`k` of them) are left unread behind the geometry.
Missing: outermost geometries with a second part, for which it is false. -/
theorem C05_spatialite_single_part_partial (fo : FOps) (d : Dims) (srid s : Option Int)
    (hs : ∀ v ∈ srid, isI32 v) (env : List F64) (henv : env.length = 0 ∨ env.length = 4)
    (g : Geom) (h1 : slSingle g = true) (hf : g.Fits) (he : g.hasEmptyPoint = false)
    (hd : AllCoords (HasDims d) g) (hn : g.hasNaNPoint = false) (hl : g.levels ≤ 128) :
    ∃ w k, feed step (withOpts .spatiaLite d srid env) (.srid s :: g.events d.multi 0) = .ok w ∧
      (∀ multi rest, run multi (processWkbTypeGeom fo .spatiaLite) (w.out ++ rest)
        = (.srid (if srid.getD 0 = 0 then none else srid) :: g.events multi 0,
            .ok ((), 0xFE :: (List.replicate k 0xFE ++ rest)))) := by
  obtain ⟨b, h1, bb, rfl, b', k, rfl, hb⟩ := emits_geom_ft (dl := .spatiaLite) g _ _ _ 0 rfl
    (hdrStep_spatialite d srid env (geomType g)) good_started hf he h1
  rw [Geom.stored_eq d g hd hn] at hb
  have hs' : isI32 (srid.getD 0) := by
    cases srid with
    | none => decide
    | some v => exact hs v rfl
  have hfeet : feet (foot (started (withOpts .spatiaLite d srid env))) (k + 1) = 0xFE :: List.replicate k 0xFE := by
    have : ∀ k, feet [(0xFE : Byte)] k = List.replicate k 0xFE := by
      intro k; simp [feet]
    have h2 : foot (started (withOpts .spatiaLite d srid env)) = [0xFE] := by
      simp [foot, started, withOpts, withExtendedOpts]
    rw [h2, this, List.replicate_succ]
  have hsl : SpatiaLite d .le (srid.getD 0)
      (if env = [] then [F64.zero, F64.zero, F64.zero, F64.zero] else env) g
      ([0, orderMark .le] ++ encI32 .le (srid.getD 0)
        ++ (if env = [] then [F64.zero, F64.zero, F64.zero, F64.zero] else env).flatMap (encF64 .le) ++ [0x7C]
        ++ encU32 .le (ogcCode d (typeCode g)) ++ b' ++ [0xFE]) := by
    refine ⟨?_, hd, b', hb, rfl⟩
    rcases henv with h | h
    · simp [List.length_eq_zero_iff.mp h]
    · have : env ≠ [] := by intro h0; simp [h0] at h
      simp [this, h]
  refine ⟨_, k, h1, fun multi rest => ?_⟩
  have h3 := C06_spatialite_decodes fo d .le _ hs' _ g _ (List.replicate k 0xFE ++ rest) multi hsl hl
  have h4 : (geomType g).toU32 = typeCode g := by
    rw [geomType_toU32 d g, Geom.stored_eq d g hd hn]
  rw [hfeet, h4]
  have h5 : (if srid.getD 0 = 0 then none else some (srid.getD 0)) = (if srid.getD 0 = 0 then none else srid) := by
    cases srid <;> simp
  rw [h5] at h3
  rw [← h3]
  congr 1
  simp [WkbWriter.put, started, withOpts, withExtendedOpts]

/-- hypotheses met by a square -/
example : slSingle (.polygon [[⟨0#64, 0#64, none, none⟩, ⟨1#64, 0#64, none, none⟩, ⟨1#64, 1#64, none, none⟩,
    ⟨0#64, 0#64, none, none⟩]]) = true ∧
    slSafe (.polygon [[⟨0#64, 0#64, none, none⟩, ⟨1#64, 0#64, none, none⟩, ⟨1#64, 1#64, none, none⟩,
    ⟨0#64, 0#64, none, none⟩]]) = false := by decide

/-- the first four bytes after an end mark read as a count -/
private theorem readU32_shifted (multi : Bool) (n : Nat) (hn : n < 2 ^ 32) (rest : List Byte) :
    ∃ r, run multi (readU32 .le) (0xFE :: (encU32 .le n ++ rest)) = ([], .ok (254 + 256 * (n % 2 ^ 24), r)) := by
  have h4 : encU32 .le n = [UInt8.ofNat (n % 256), UInt8.ofNat (n / 256 % 256), UInt8.ofNat (n / 256 / 256 % 256),
      UInt8.ofNat (n / 256 / 256 / 256 % 256)] := by
    simp [encU32, encUInt, toLE]
  refine ⟨UInt8.ofNat (n / 256 / 256 / 256 % 256) :: rest, ?_⟩
  unfold readU32
  have := run_readN multi 4 [0xFE, UInt8.ofNat (n % 256), UInt8.ofNat (n / 256 % 256),
    UInt8.ofNat (n / 256 / 256 % 256)] (UInt8.ofNat (n / 256 / 256 / 256 % 256) :: rest) (by simp)
  rw [h4]
  rw [show (0xFE : Byte) :: ([UInt8.ofNat (n % 256), UInt8.ofNat (n / 256 % 256), UInt8.ofNat (n / 256 / 256 % 256),
      UInt8.ofNat (n / 256 / 256 / 256 % 256)] ++ rest) = [0xFE, UInt8.ofNat (n % 256), UInt8.ofNat (n / 256 % 256),
    UInt8.ofNat (n / 256 / 256 % 256)] ++ (UInt8.ofNat (n / 256 / 256 / 256 % 256) :: rest) from rfl]
  rw [run_bind_ok_nil this]
  simp only [run_ret, decUInt, fromLE]
  have e : ∀ a : Nat, (UInt8.ofNat (a % 256)).toNat = a % 256 := by intro a; simp [UInt8.toNat_ofNat']
  rw [e, e, e]
  have : (0xFE : Byte).toNat = 254 := rfl
  rw [this]
  congr 3
  congr 1
  omega

/-- what the writer appends for an outermost polygon or triangle, up to the second ring's count -/
private theorem emits_two_rings {d : Dims} {w w' : WkbWriter} {k : GKind} {hb : List Byte}
    {r1 r2 : List Coord} {rs : List (List Coord)} (hk : k = .polygon ∨ k = .triangle)
    (hs : w.geomState = .normal) (h : HdrStep w (kindType k) w' hb) (hg : Good d .spatiaLite w')
    (h0 : w'.nestingLevel = 0) (hlens : ∀ l ∈ r1 :: r2 :: rs, l.length < 2 ^ 32) :
    Emits w w' (bracket k true 0 (lineEvs d.multi false) (r1 :: r2 :: rs))
      (fun b => ∃ b1 more, b = hb ++ encU32 .le (rs.length + 2) ++ b1 ++ 0xFE :: (encU32 .le r2.length ++ more) ∧
        PointsBody (r1.map (Coord.conform d)) .le b1) := by
  have hfoot : foot w' = [0xFE] := by simp [foot, hg.dialect, h0]
  refine Emits.mono (emits_ringed (R := fun r b => ∃ bb, b = bb ++ foot w' ∧ PointsBody (r.map (Coord.conform d)) .le bb)
    hk hs h hg ?_) ?_
  · intro r hr i b0
    exact emits_ring_one (w := { w' with geomState := .ringGeom }.put b0) rfl ((hg.geom _).put b0) (hlens r hr)
  · rintro b ⟨bb, rfl, _, _, rfl, ⟨b1, rfl, hb1⟩, _, b3, rfl, ⟨b2, rfl, hl2, c2, rfl, hc2⟩, hc3⟩
    refine ⟨b1, c2 ++ [0xFE] ++ b3 ++ [0xFE], ?_, hb1⟩
    simp [hfoot]

/-- reading those bytes -/
private theorem run_two_rings (fo : FOps) {d : Dims} {t : WkbType} {info : WkbInfo} (h : InfoOk d .le t info)
    (k : GKind) (multi : Bool) (r1 : List Coord) (hc : ∀ c ∈ r1, HasDims d c) (b1 : List Byte)
    (hb1 : PointsBody r1 .le b1) (n2 : Nat) (hn2 : n2 < 2 ^ 32) (m : Nat) (hm : m + 2 < 2 ^ 32) (rest : List Byte) :
    ∃ more, (run multi (Prog.bind (readU32 info.endian) fun n => Prog.bind (emitEv (.gbegin k true n 0)) fun _ =>
        Prog.bind (loop n 0 fun i => processLinestring fo info false i)
        fun _ => emitEv (.gend k true 0)) (encU32 .le (m + 2) ++ b1 ++ 0xFE :: (encU32 .le n2 ++ rest))).1
      = .gbegin k true (m + 2) 0 :: (lineEvs multi false 0 r1
          ++ .gbegin .lineString false (254 + 256 * (n2 % 2 ^ 24)) 1 :: more) := by
  rw [h.endian, List.append_assoc, run_bind_ok_nil (run_readU32 multi .le (m + 2) _ hm)]
  simp only [run_emitEv_bind, List.cons.injEq, true_and]
  rw [run_bind]
  have hloop : ∃ more, (run multi (loop (m + 2) 0 fun i => processLinestring fo info false i)
      (b1 ++ 0xFE :: (encU32 .le n2 ++ rest))).1 = lineEvs multi false 0 r1
          ++ .gbegin .lineString false (254 + 256 * (n2 % 2 ^ 24)) 1 :: more := by
    rw [show loop (m + 2) 0 (fun i => processLinestring fo info false i)
      = Prog.bind (processLinestring fo info false 0) fun _ =>
          loop (m + 1) 1 fun i => processLinestring fo info false i from rfl]
    rw [run_bind_ok (run_linestring fo d .le t info h r1 hc multi false 0 b1 _ hb1)]
    obtain ⟨r, hr⟩ := readU32_shifted multi n2 hn2 rest
    rw [show loop (m + 1) 1 (fun i => processLinestring fo info false i)
      = Prog.bind (processLinestring fo info false 1) fun _ =>
          loop m 2 fun i => processLinestring fo info false i from rfl]
    simp only [List.append_cancel_left_eq]
    rw [run_bind]
    have : ∃ more, (run multi (processLinestring fo info false 1) (0xFE :: (encU32 .le n2 ++ rest))).1
        = .gbegin .lineString false (254 + 256 * (n2 % 2 ^ 24)) 1 :: more := by
      unfold processLinestring
      simp only [bind_eq, h.endian]
      rw [run_bind_ok_nil hr]
      simp only [run_emitEv_bind]
      exact ⟨_, rfl⟩
    obtain ⟨more, hmore⟩ := this
    revert hmore
    generalize run multi (processLinestring fo info false 1) (0xFE :: (encU32 .le n2 ++ rest)) = q
    obtain ⟨evs, res⟩ := q
    rintro hmore
    simp only at hmore
    subst hmore
    cases res with
    | error e => exact ⟨more, rfl⟩
    | ok a => exact ⟨_, rfl⟩
  obtain ⟨more, hmore⟩ := hloop
  revert hmore
  generalize run multi (loop (m + 2) 0 fun i => processLinestring fo info false i)
      (b1 ++ 0xFE :: (encU32 .le n2 ++ rest)) = q
  obtain ⟨evs, res⟩ := q
  rintro hmore
  simp only at hmore
  subst hmore
  cases res with
  | error e => exact ⟨more, rfl⟩
  | ok a =>
    exact ⟨more ++ (run multi (emitEv (.gend k true 0)) a.2).1, by simp [andThen]⟩

/-- C05 fails for **every** outermost polygon (or triangle) with two or more rings (the second one with
any number of points other than 0xFEFEFEFE): what is written is not what is read, because the end mark
after the first ring is read as part of the second ring's count. -/
theorem C05_spatialite_second_ring_lost (fo : FOps) (d : Dims) (srid s : Option Int)
    (hs : ∀ v ∈ srid, isI32 v) (env : List F64) (henv : env.length = 0 ∨ env.length = 4)
    (tri : Bool) (r1 r2 : List Coord) (rs : List (List Coord)) (g : Geom)
    (hg : g = if tri then .triangle (r1 :: r2 :: rs) else .polygon (r1 :: r2 :: rs))
    (h2 : r2.length ≠ 0xFEFEFEFE) (hf : g.Fits) (hd : AllCoords (HasDims d) g) :
    ∃ w, feed step (withOpts .spatiaLite d srid env) (.srid s :: g.events d.multi 0) = .ok w ∧
      ∀ multi rest, (run multi (processWkbTypeGeom fo .spatiaLite) (w.out ++ rest)).1
        ≠ .srid (if srid.getD 0 = 0 then none else srid) :: g.events multi 0 := by
  have hs' : isI32 (srid.getD 0) := by
    cases srid with
    | none => decide
    | some v => exact hs v rfl
  have hmbr : (if env = [] then [F64.zero, F64.zero, F64.zero, F64.zero] else env).length = 4 := by
    rcases henv with h | h
    · simp [List.length_eq_zero_iff.mp h]
    · have : env ≠ [] := by intro h0; simp [h0] at h
      simp [this, h]
  have key : ∀ (k : GKind) (t : WkbType), k = .polygon ∧ t = .polygon ∨ k = .triangle ∧ t = .triangle →
      (∀ l ∈ r1 :: r2 :: rs, l.length < 2 ^ 32) → rs.length + 2 < 2 ^ 32 → (∀ c ∈ r1, HasDims d c) →
      ∃ w, feed step (withOpts .spatiaLite d srid env)
          (bracket k true 0 (lineEvs d.multi false) (r1 :: r2 :: rs)) = .ok w ∧
        ∀ multi rest, (run multi (processWkbTypeGeom fo .spatiaLite) (w.out ++ rest)).1
          ≠ .srid (if srid.getD 0 = 0 then none else srid) ::
              bracket k true 0 (lineEvs multi false) (r1 :: r2 :: rs) := by
    intro k t hk hlens hm hc
    have hkt : kindType k = t := by rcases hk with ⟨rfl, rfl⟩ | ⟨rfl, rfl⟩ <;> rfl
    obtain ⟨b, hfeed, b1, more, rfl, hb1⟩ := emits_two_rings
      (w := withOpts .spatiaLite d srid env) (w' := started (withOpts .spatiaLite d srid env)) (rs := rs) (k := k)
      (by rcases hk with h | h <;> simp [h.1]) rfl
      (by rw [hkt]; exact hdrStep_spatialite d srid env t) good_started rfl hlens
    rw [List.map_congr_left (fun c hcm => Coord.conform_eq d c (hc c hcm)), List.map_id'] at hb1
    refine ⟨_, hfeed, fun multi rest => ?_⟩
    have hcode : t.toU32 ≤ 17 := by rcases hk with ⟨rfl, rfl⟩ | ⟨rfl, rfl⟩ <;> decide
    have hhdr := run_readSpatialiteHeader d .le (srid.getD 0) hs' _ hmbr t.toU32 hcode multi
      (encU32 .le (rs.length + 2) ++ b1 ++ 0xFE :: (encU32 .le r2.length ++ (more ++ rest)))
    have hout : ((started (withOpts .spatiaLite d srid env)).put
        ([0, orderMark .le] ++ encI32 .le (srid.getD 0)
        ++ (if env = [] then [F64.zero, F64.zero, F64.zero, F64.zero] else env).flatMap (encF64 .le) ++ [0x7C]
        ++ encU32 .le (ogcCode d t.toU32) ++ encU32 .le (rs.length + 2) ++ b1
        ++ 0xFE :: (encU32 .le r2.length ++ more))).out ++ rest
        = [0, orderMark .le] ++ encI32 .le (srid.getD 0)
        ++ (if env = [] then [F64.zero, F64.zero, F64.zero, F64.zero] else env).flatMap (encF64 .le) ++ [0x7C]
        ++ encU32 .le (ogcCode d t.toU32)
        ++ (encU32 .le (rs.length + 2) ++ b1 ++ 0xFE :: (encU32 .le r2.length ++ (more ++ rest))) := by
      simp [WkbWriter.put, started, withOpts, withExtendedOpts]
    rw [hout]
    simp only [processWkbTypeGeom, processSpatialiteGeom, processTop, bind_eq]
    rw [run_bind_ok_nil hhdr]
    simp only [run_emitEv_bind]
    intro hcontra
    have hcontra := (List.cons.inj hcontra).2
    obtain ⟨more2, hmore2⟩ := run_two_rings fo (t := t)
      (info := { endian := .le, baseType := WkbType.fromU32 t.toU32, hasZ := d.z, hasM := d.m,
                  srid := slSrid (srid.getD 0), isCompressed := false,
                  envelope := (if env = [] then [F64.zero, F64.zero, F64.zero, F64.zero] else env) })
      ⟨rfl, by rcases hk with ⟨rfl, rfl⟩ | ⟨rfl, rfl⟩ <;> rfl, rfl, rfl, rfl⟩ k multi r1 hc b1 hb1 r2.length
      (hlens r2 (by simp)) rs.length hm (more ++ rest)
    have hfinal := hmore2.symm.trans (Eq.trans (by rcases hk with ⟨rfl, rfl⟩ | ⟨rfl, rfl⟩ <;> rfl) hcontra)
    simp only [bracket, evList, List.length_cons, List.cons.injEq, true_and, List.append_assoc,
      List.append_cancel_left_eq] at hfinal
    simp only [lineEvs, bracket, List.cons_append, List.cons.injEq, Ev.gbegin.injEq, true_and, and_true] at hfinal
    have h32 := hlens r2 (by simp)
    have := hfinal.1
    omega
  cases tri with
  | false =>
    simp only [Bool.false_eq_true, if_false] at hg
    subst hg
    exact key .polygon .polygon (Or.inl ⟨rfl, rfl⟩) hf.2 (by simpa using hf.1) (hd r1 (by simp))
  | true =>
    simp only [if_true] at hg
    subst hg
    exact key .triangle .triangle (Or.inr ⟨rfl, rfl⟩) hf.2 (by simpa using hf.1) (hd r1 (by simp))

/-- hypotheses met by a square with a hole -/
example : (Geom.polygon [[⟨0#64, 0#64, none, none⟩, ⟨1#64, 0#64, none, none⟩], [⟨2#64, 0#64, none, none⟩]]).Fits ∧
    AllCoords (HasDims {}) (Geom.polygon [[⟨0#64, 0#64, none, none⟩, ⟨1#64, 0#64, none, none⟩],
      [⟨2#64, 0#64, none, none⟩]]) := by
  simp [Geom.Fits, Geom.Lens, AllCoords, HasDims]

/-- Outermost compound curves, curve polygons and surfaces with a second part, every part being otherwise
single (a segment, a compound curve with at most one segment, a patch with at most one ring). -/
def slSecondPart : Geom → Bool
  | .compoundCurve ss => 2 ≤ ss.length
  | .curvePolygon cs => 2 ≤ cs.length && cs.all (fun c =>
      match c with
      | .seg _ => true
      | .compound ss => ss.length ≤ 1)
  | .polyhedralSurface ps | .tin ps => 2 ≤ ps.length && ps.all (fun p => p.length ≤ 1)
  | _ => false

/-- what the writer appends for a container with two or more members, up to the second member -/
private theorem emits_second {α : Type} {d : Dims} {w w' : WkbWriter} {k : GKind} {hb : List Byte}
    {f : Nat → α → List Ev} {R : α → List Byte → Prop} {x : α} {xs : List α}
    (hk : k = .compoundCurve ∨ k = .curvePolygon ∨ k = .polyhedralSurface ∨ k = .tin)
    (h : HdrStep w (kindType k) w' hb) (hg : Good d .spatiaLite w') (h0 : w'.nestingLevel = 0)
    (hx : ∀ y ∈ x :: xs, ∀ i b0, Emits (w'.put b0) (w'.put b0) (f i y) (Ft (foot w') (R y))) :
    Emits w w' (bracket k true 0 f (x :: xs))
      (fun b => ∃ b1 more, b = hb ++ encU32 .le (xs.length + 1) ++ b1 ++ 0xFE :: more ∧ R x b1) := by
  have hfoot : foot w' = [0xFE] := by simp [foot, hg.dialect, h0]
  refine Emits.mono (emits_plain (R := fun y => Ft (foot w') (R y)) (by rcases hk with h | h | h | h <;> simp [h])
    h hg hx) ?_
  rintro b ⟨bb, rfl, _, b3, rfl, ⟨b1, j, rfl, hb1⟩, hc3⟩
  have hfe : feet (foot w') (j + 1) = 0xFE :: List.replicate j 0xFE := by
    rw [hfoot]; simp [feet, List.replicate_succ]
  refine ⟨b1, List.replicate j 0xFE ++ b3 ++ [0xFE], ?_, hb1⟩
  rw [hfe, hfoot]
  simp

/-- reading those bytes -/
private theorem run_second (multi : Bool) (k : GKind) (body : Nat → Prog Unit) (b1 : List Byte) (evs : List Ev) (n : Nat)
    (hn : n + 2 < 2 ^ 32) (rest : List Byte)
    (h1 : run multi (body 0) (b1 ++ 0xFE :: rest) = (evs, .ok ((), 0xFE :: rest)))
    (h2 : run multi (body 1) (0xFE :: rest) = ([], .error .geometryFormat)) :
    run multi (Prog.bind (readU32 .le) fun n => Prog.bind (emitEv (.gbegin k true n 0)) fun _ =>
        Prog.bind (loop n 0 body) fun _ => emitEv (.gend k true 0)) (encU32 .le (n + 2) ++ b1 ++ 0xFE :: rest)
      = (.gbegin k true (n + 2) 0 :: evs, .error .geometryFormat) := by
  rw [List.append_assoc, run_bind_ok_nil (run_readU32 multi .le (n + 2) _ hn)]
  simp only [run_emitEv_bind]
  have : run multi (loop (n + 2) 0 body) (b1 ++ 0xFE :: rest) = (evs, .error .geometryFormat) := by
    rw [show loop (n + 2) 0 body = Prog.bind (body 0) fun _ => Prog.bind (body 1) fun _ => loop n 2 body from rfl]
    rw [run_bind_ok h1, run_bind_err h2]
    simp
  rw [run_bind_err this]

private theorem nested_mark (multi : Bool) (info : WkbInfo) (rest : List Byte) {k : WkbInfo → Prog Unit} :
    run multi (Prog.bind (readSpatialiteNestedHeader info) k) (0xFE :: rest) = ([], .error .geometryFormat) := by
  apply run_bind_err
  unfold readSpatialiteNestedHeader
  simp only [bind_eq, run_readByte_cons]
  rfl

/-- both together, behind the outermost header -/
private theorem second_rejected (fo : FOps) {α : Type} (d : Dims) (srid : Option Int)
    (hs : ∀ v ∈ srid, isI32 v) (env : List F64) (henv : env.length = 0 ∨ env.length = 4)
    (k : GKind) (t : WkbType) (f : Nat → α → List Ev) (f' : Bool → Nat → α → List Ev)
    (body : WkbInfo → Nat → Prog Unit) (R : α → List Byte → Prop)
    (x y : α) (xs : List α) (ht : kindType k = t) (hcode : t.toU32 ≤ 17) (htt : WkbType.fromU32 t.toU32 = t)
    (hk : k = .compoundCurve ∨ k = .curvePolygon ∨ k = .polyhedralSurface ∨ k = .tin)
    (hn : xs.length + 2 < 2 ^ 32)
    (hx : ∀ z ∈ x :: y :: xs, ∀ (w : WkbWriter) (i : Nat), w.geomState = .normal → Good d .spatiaLite w →
      Emits w w (f i z) (Ft (foot w) (R z)))
    (hread : ∀ multi info b1 rest, InfoOk d .le t info → R x b1 →
      run multi (body info 0) (b1 ++ rest) = (f' multi 0 x, .ok ((), rest)))
    (hmark : ∀ multi info rest, run multi (body info 1) (0xFE :: rest) = ([], .error .geometryFormat))
    (hgeom : ∀ info, InfoOk d .le t info → processGeomN fo readSpatialiteNestedHeader 130 info 0 0
      = Prog.bind (readU32 .le) fun n => Prog.bind (emitEv (.gbegin k true n 0)) fun _ =>
        Prog.bind (loop n 0 (body info)) fun _ => emitEv (.gend k true 0)) :
    ∃ w, feed step (withOpts .spatiaLite d srid env) (bracket k true 0 f (x :: y :: xs)) = .ok w ∧
      ∀ multi rest, (run multi (processWkbTypeGeom fo .spatiaLite) (w.out ++ rest)).2
        = .error .geometryFormat := by
  have hs' : isI32 (srid.getD 0) := by
    cases srid with
    | none => decide
    | some v => exact hs v rfl
  have hmbr : (if env = [] then [F64.zero, F64.zero, F64.zero, F64.zero] else env).length = 4 := by
    rcases henv with h | h
    · simp [List.length_eq_zero_iff.mp h]
    · have : env ≠ [] := by intro h0; simp [h0] at h
      simp [this, h]
  have hgood : Good d .spatiaLite (started (withOpts .spatiaLite d srid env)) := good_started
  obtain ⟨b, hfeed, b1, more, rfl, hb1⟩ := emits_second (d := d) (R := R) (f := f) (x := x) (xs := y :: xs)
    (w := withOpts .spatiaLite d srid env) (w' := started (withOpts .spatiaLite d srid env)) (k := k) hk
    (by rw [ht]; exact hdrStep_spatialite d srid env t) hgood rfl
    (fun z hz i b0 => hx z hz _ i rfl (hgood.put b0))
  refine ⟨_, hfeed, fun multi rest => ?_⟩
  have hhdr := run_readSpatialiteHeader d .le (srid.getD 0) hs' _ hmbr t.toU32 hcode multi
      (encU32 .le (xs.length + 2) ++ b1 ++ 0xFE :: (more ++ rest))
  have hout : ((started (withOpts .spatiaLite d srid env)).put
      ([0, orderMark .le] ++ encI32 .le (srid.getD 0)
      ++ (if env = [] then [F64.zero, F64.zero, F64.zero, F64.zero] else env).flatMap (encF64 .le) ++ [0x7C]
      ++ encU32 .le (ogcCode d t.toU32) ++ encU32 .le ((y :: xs).length + 1) ++ b1
      ++ 0xFE :: more)).out ++ rest
      = [0, orderMark .le] ++ encI32 .le (srid.getD 0)
      ++ (if env = [] then [F64.zero, F64.zero, F64.zero, F64.zero] else env).flatMap (encF64 .le) ++ [0x7C]
      ++ encU32 .le (ogcCode d t.toU32)
      ++ (encU32 .le (xs.length + 2) ++ b1 ++ 0xFE :: (more ++ rest)) := by
    simp [WkbWriter.put, started, withOpts, withExtendedOpts]
  rw [hout]
  simp only [processWkbTypeGeom, processSpatialiteGeom, processTop, bind_eq]
  rw [run_bind_ok_nil hhdr]
  simp only [run_emitEv_bind]
  rw [hgeom _ ⟨rfl, htt, rfl, rfl, rfl⟩, run_second multi k _ b1 _ xs.length hn (more ++ rest)
    (hread multi _ b1 (0xFE :: (more ++ rest)) ⟨rfl, htt, rfl, rfl, rfl⟩ hb1) (hmark multi _ (more ++ rest))]

/-- C05 fails for **every** outermost compound curve with two or more segments, and for curve polygons and
surfaces with two or more (single) parts: the reader rejects what the writer wrote, finding an end mark
where the second part should start. -/
theorem C05_spatialite_second_part_rejected (fo : FOps) (d : Dims) (srid s : Option Int)
    (hs : ∀ v ∈ srid, isI32 v) (env : List F64) (henv : env.length = 0 ∨ env.length = 4)
    (g : Geom) (h2 : slSecondPart g = true) (hf : g.Fits) (hd : AllCoords (HasDims d) g) :
    ∃ w, feed step (withOpts .spatiaLite d srid env) (.srid s :: g.events d.multi 0) = .ok w ∧
      ∀ multi rest, (run multi (processWkbTypeGeom fo .spatiaLite) (w.out ++ rest)).2
        = .error .geometryFormat := by
  cases g with
  | compoundCurve ss =>
    match ss, h2 with
    | x :: y :: xs, _ =>
      refine second_rejected fo d srid hs env henv .compoundCurve .compoundCurve (segEvs d.multi) segEvs
        (fun info i => Prog.bind (readSpatialiteNestedHeader info) fun info => processSegment fo info i)
        (fun z => SegRel (spatialiteHeader d) .le (z.map (Coord.conform d))) x y xs rfl (by decide) rfl (by simp)
        (by simpa using hf.1) ?_ ?_ (fun multi info rest => nested_mark multi info rest) ?_
      · intro z hz w i hsw hgw
        exact emits_seg_ft hsw hgw (hf.2 z hz)
      · intro multi info b1 rest hi hb1
        rw [Seg.map_self (Coord.conform_eq d) x (hd x (by simp))] at hb1
        exact (run_seg fo (hdrOk_spatialite d) hi x (hd x (by simp)) multi 0 b1 rest hb1).1 trivial
      · intro info hi
        have hb := hi.base
        simp only [processGeomN, hb, processCompoundcurve, wkbMaxNestingDepth, bind_eq, hi.endian]
        rfl
  | curvePolygon cs =>
    simp only [slSecondPart, Bool.and_eq_true, List.all_eq_true] at h2
    obtain ⟨hlen, hall⟩ := h2
    match cs, hlen with
    | x :: y :: xs, _ =>
      have hsing : ∀ z ∈ x :: y :: xs, ∀ ss, z = .compound ss → ss.length ≤ 1 := by
        rintro z hz ss rfl
        simpa using hall _ hz
      refine second_rejected fo d srid hs env henv .curvePolygon .curvePolygon (curveEvs d.multi) curveEvs
        (fun info i => processCurve fo readSpatialiteNestedHeader info i 2)
        (fun z => CurveRel (spatialiteHeader d) .le (z.map (Coord.conform d))) x y xs rfl (by decide) rfl (by simp)
        (by simpa using hf.1) ?_ ?_ (fun multi info rest => nested_mark multi info rest) ?_
      · intro z hz w i hsw hgw
        exact emits_curve_ft hsw hgw (hf.2 z hz) (hsing z hz)
      · intro multi info b1 rest hi hb1
        rw [Curve.map_self (Coord.conform_eq d) x (hd x (by simp))] at hb1
        refine (run_curve fo (hdrOk_spatialite d) hi x (hd x (by simp)) multi 0 2 (by omega) b1 rest hb1).1 ?_
        cases x <;> simp [Curve.levels]
      · intro info hi
        have hb := hi.base
        simp only [processGeomN, hb, processCurvepolygon, wkbMaxNestingDepth, bind_eq, hi.endian]
        rfl
  | polyhedralSurface ps =>
    simp only [slSecondPart, Bool.and_eq_true, List.all_eq_true, decide_eq_true_eq] at h2
    obtain ⟨hlen, hall⟩ := h2
    match ps, hlen with
    | x :: y :: xs, _ =>
      refine second_rejected fo d srid hs env henv .polyhedralSurface .polyhedralSurface (polyEvs d.multi false)
        (fun multi => polyEvs multi false)
        (fun info i => Prog.bind (readSpatialiteNestedHeader info) fun sub => processPolygon fo sub false i)
        (fun p => Nested (spatialiteHeader d) .le 3 (RingsBody (p.map (List.map (Coord.conform d))))) x y xs rfl
        (by decide) rfl (by simp) (by simpa using hf.1) ?_ ?_ (fun multi info rest => nested_mark multi info rest) ?_
      · intro z hz w i hsw hgw
        exact Emits.mono (emits_rings_ft (k := .polygon) (Or.inl rfl) hsw (HdrStep.later hgw _) hgw (hall z hz)
          (hf.2 z hz).2) (nested_ft (t := .polygon))
      · intro multi info b1 rest hi hb1
        rw [rings_map_self (Coord.conform_eq d) x (hd x (by simp))] at hb1
        refine (run_nested (ok := True) (hdrOk_spatialite d) hi (by omega) (by omega) hb1 multi rest ?_).1 trivial
        intro e' info' bb hi' hbody
        exact Outcome.of_eq (run_polygon fo d e' _ info' hi' x (hd x (by simp)) multi false 0 bb rest hbody) trivial
      · intro info hi
        have hb := hi.base
        simp only [processGeomN, hb, processMembers, wkbMaxNestingDepth, bind_eq, hi.endian]
        rfl
  | tin ps =>
    simp only [slSecondPart, Bool.and_eq_true, List.all_eq_true, decide_eq_true_eq] at h2
    obtain ⟨hlen, hall⟩ := h2
    match ps, hlen with
    | x :: y :: xs, _ =>
      refine second_rejected fo d srid hs env henv .tin .tin (triEvs d.multi false)
        (fun multi => triEvs multi false)
        (fun info i => Prog.bind (readSpatialiteNestedHeader info) fun sub => processTriangle fo sub false i)
        (fun p => Nested (spatialiteHeader d) .le 17 (RingsBody (p.map (List.map (Coord.conform d))))) x y xs rfl
        (by decide) rfl (by simp) (by simpa using hf.1) ?_ ?_ (fun multi info rest => nested_mark multi info rest) ?_
      · intro z hz w i hsw hgw
        exact Emits.mono (emits_rings_ft (k := .triangle) (Or.inr rfl) hsw (HdrStep.later hgw _) hgw (hall z hz)
          (hf.2 z hz).2) (nested_ft (t := .triangle))
      · intro multi info b1 rest hi hb1
        rw [rings_map_self (Coord.conform_eq d) x (hd x (by simp))] at hb1
        refine (run_nested (ok := True) (hdrOk_spatialite d) hi (by omega) (by omega) hb1 multi rest ?_).1 trivial
        intro e' info' bb hi' hbody
        exact Outcome.of_eq (run_triangle fo d e' _ info' hi' x (hd x (by simp)) multi false 0 bb rest hbody) trivial
      · intro info hi
        have hb := hi.base
        simp only [processGeomN, hb, processMembers, wkbMaxNestingDepth, bind_eq, hi.endian]
        rfl
  | _ => simp [slSecondPart] at h2

/-- hypotheses met by a curve of two segments and a surface of two triangles -/
example : slSecondPart (.compoundCurve [.line [⟨0#64, 0#64, none, none⟩], .circ [⟨1#64, 0#64, none, none⟩]]) = true ∧
    slSecondPart (.tin [[[⟨0#64, 0#64, none, none⟩]], [[⟨1#64, 0#64, none, none⟩]]]) = true := by decide

end Geozero
