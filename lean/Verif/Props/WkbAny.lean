import Verif.Lemmas.WkbSat
import Verif.Lemmas.WkbHeaders
import Verif.Props.WkbRead

/-
C08, C09, C10, C11, C12, C13, C34: the WKB readers on arbitrary bytes.
-/

namespace Geozero
open Prog Spec

private theorem sat_dialect (fo : FOps) (d : WkbDialect) (hd : d ≠ .spatiaLite) (multi : Bool) :
    Sat multi (processWkbTypeGeom fo d)
      (fun _ evs => ∃ srid g, g.levels ≤ 128 ∧ evs = Ev.srid srid :: Geom.events multi 0 g)
      (fun e evs => e.isPanic = false ∧ ∃ srid g, evs <+: Ev.srid srid :: Geom.events multi 0 g) := by
  cases d with
  | spatiaLite => exact absurd rfl hd
  | wkb => simpa [processWkbTypeGeom, processWkbGeom] using Sat.top (ν := id) fo (Silent.wkbHeader (multi := multi)) hdrSilent_wkb
  | ewkb => simpa [processWkbTypeGeom, processEwkbGeom] using Sat.top (ν := id) fo (Silent.ewkbHeader (multi := multi)) hdrSilent_ewkb
  | geopackage => simpa [processWkbTypeGeom, processGpkgGeom] using Sat.top (ν := id) fo (Silent.gpkgHeader (multi := multi)) hdrSilent_wkb
  | mySQL => simpa [processWkbTypeGeom, processMysqlGeom] using Sat.top (ν := id) fo (Silent.mysqlHeader (multi := multi)) hdrSilent_wkb

private theorem sat_semi (fo : FOps) (d : WkbDialect) (multi : Bool) :
    Sat multi (processWkbTypeGeom fo d)
      (fun _ evs => ∃ srid g, g.levels ≤ 128 ∧
        evs.map semiEv = (Ev.srid srid :: Geom.events multi 0 g).map semiEv)
      (fun e evs => e.isPanic = false ∧
        ∃ srid g, evs.map semiEv <+: (Ev.srid srid :: Geom.events multi 0 g).map semiEv) := by
  cases d with
  | spatiaLite => exact Sat.top fo Silent.spatialiteHeader hdrSilent_spatialite
  | wkb => exact Sat.top fo Silent.wkbHeader hdrSilent_wkb
  | ewkb => exact Sat.top fo Silent.ewkbHeader hdrSilent_ewkb
  | geopackage => exact Sat.top fo Silent.gpkgHeader hdrSilent_wkb
  | mySQL => exact Sat.top fo Silent.mysqlHeader hdrSilent_wkb

private theorem sat_loose (fo : FOps) (d : WkbDialect) (multi : Bool) :
    Sat multi (processWkbTypeGeom fo d)
      (fun _ evs => ∃ srid g, g.levels ≤ 128 ∧
        evs.map looseEv = (Ev.srid srid :: Geom.events multi 0 g).map looseEv)
      (fun e evs => e.isPanic = false ∧
        ∃ srid g, evs.map looseEv <+: (Ev.srid srid :: Geom.events multi 0 g).map looseEv) := by
  refine (sat_semi fo d multi).mono ?_ ?_
  · rintro _ evs ⟨s, g, hl, h⟩
    exact ⟨s, g, hl, by rw [← map_loose_semi, h, map_loose_semi]⟩
  · rintro e evs ⟨hp, s, g, h⟩
    refine ⟨hp, s, g, ?_⟩
    rw [← map_loose_semi evs, ← map_loose_semi (_ :: _)]
    exact h.map looseEv

private theorem sat_ok {α : Type} {multi : Bool} {p : Prog α} {P : α → List Ev → Prop} {F : Err → List Ev → Prop}
    (h : Sat multi p P F) {bs : List Byte} {evs : List Ev} {a : α} {rest : List Byte}
    (hr : run multi p bs = (evs, .ok (a, rest))) : P a evs := by
  have := h bs; rw [hr] at this; exact this

private theorem sat_err {α : Type} {multi : Bool} {p : Prog α} {P : α → List Ev → Prop} {F : Err → List Ev → Prop}
    (h : Sat multi p P F) {bs : List Byte} {evs : List Ev} {e : Err}
    (hr : run multi p bs = (evs, .error e)) : F e evs := by
  have := h bs; rw [hr] at this; exact this

/-! ### C08 -/

/-- Whatever the bytes: a successful read delivers the SRID and then the complete event stream of one
geometry, nested at most 128 levels deep. -/
theorem C08_success_is_one_geometry (fo : FOps) (d : WkbDialect) (hd : d ≠ .spatiaLite) (multi : Bool)
    (bs rest : List Byte) (evs : List Ev) (h : run multi (processWkbTypeGeom fo d) bs = (evs, .ok ((), rest))) :
    ∃ srid g, g.levels ≤ 128 ∧ evs = .srid srid :: Geom.events multi 0 g :=
  sat_ok (sat_dialect fo d hd multi) h

/-- For SpatiaLite, which has compressed line strings, the same holds up to the announced size of line
strings and the index passed with coordinates; for input without compressed line strings it holds
exactly (`C08_spatialite_uncompressed`). -/
theorem C08_spatialite_success_loose (fo : FOps) (multi : Bool) (bs rest : List Byte) (evs : List Ev)
    (h : run multi (processWkbTypeGeom fo .spatiaLite) bs = (evs, .ok ((), rest))) :
    ∃ srid g, g.levels ≤ 128 ∧ evs.map looseEv = (.srid srid :: Geom.events multi 0 g).map looseEv :=
  sat_ok (sat_loose fo .spatiaLite multi) h

/-- And whether a size or an index is zero is right in any case: the size announced for a line string is 0 exactly if it
has no coordinates, and a coordinate has index 0 exactly if it is the first. -/
theorem C08_spatialite_success_semi (fo : FOps) (d : WkbDialect) (multi : Bool) (bs rest : List Byte) (evs : List Ev)
    (h : run multi (processWkbTypeGeom fo d) bs = (evs, .ok ((), rest))) :
    ∃ srid g, g.levels ≤ 128 ∧ evs.map semiEv = (.srid srid :: Geom.events multi 0 g).map semiEv :=
  sat_ok (sat_semi fo d multi) h

/-- A header reader that refuses compressed geometry types. -/
def refuseCompressed (h : Prog WkbInfo) : Prog WkbInfo := do
  let i ← h
  if i.isCompressed then fail .geometryFormat else pure i

/-- No header the SpatiaLite reader meets in `bs` has a compressed type: refusing such headers, at the
top or nested, would make no difference. -/
def UncompressedInput (fo : FOps) (multi : Bool) (bs : List Byte) : Prop :=
  run multi (processTop fo (refuseCompressed readSpatialiteHeader)
      (fun i => refuseCompressed (readSpatialiteNestedHeader i))) bs
    = run multi (processWkbTypeGeom fo .spatiaLite) bs

private theorem silent_refuse {multi : Bool} {h : Prog WkbInfo} {P : WkbInfo → Prop} (hs : Silent multi h P) :
    Silent multi (refuseCompressed h) (LineOk id) := by
  refine hs.bind fun i _ => ?_
  split
  · exact Silent.fail rfl
  · exact Silent.ret (Or.inl (by simp_all))

private theorem sat_uncompressed (fo : FOps) (multi : Bool) :
    Sat multi (processTop fo (refuseCompressed readSpatialiteHeader)
        (fun i => refuseCompressed (readSpatialiteNestedHeader i)))
      (fun _ evs => ∃ srid g, g.levels ≤ 128 ∧ evs.map id = (Ev.srid srid :: Geom.events multi 0 g).map id)
      (fun e evs => e.isPanic = false ∧
        ∃ srid g, evs.map id <+: (Ev.srid srid :: Geom.events multi 0 g).map id) :=
  Sat.top fo (silent_refuse Silent.spatialiteHeader)
    (fun m i _ => silent_refuse (hdrSilent_spatialite m i (Or.inr rfl)))

/-- SpatiaLite input without compressed line strings: exactly as for the other dialects. -/
theorem C08_spatialite_uncompressed (fo : FOps) (multi : Bool) (bs rest : List Byte) (evs : List Ev)
    (hu : UncompressedInput fo multi bs)
    (h : run multi (processWkbTypeGeom fo .spatiaLite) bs = (evs, .ok ((), rest))) :
    ∃ srid g, g.levels ≤ 128 ∧ evs = .srid srid :: Geom.events multi 0 g := by
  have := sat_ok (sat_uncompressed fo multi) (bs := bs) (hu.trans h)
  simpa using this

/-- ... and for failing reads. -/
theorem C09_spatialite_uncompressed (fo : FOps) (multi : Bool) (bs : List Byte) (evs : List Ev) (e : Err)
    (hu : UncompressedInput fo multi bs)
    (h : run multi (processWkbTypeGeom fo .spatiaLite) bs = (evs, .error e)) :
    ∃ srid g, evs <+: .srid srid :: Geom.events multi 0 g := by
  have := sat_err (sat_uncompressed fo multi) (bs := bs) (hu.trans h)
  simpa using this.2

/-- non-vacuity: a line string blob is uncompressed input -/
example (fo : FOps) : UncompressedInput fo false
    ([0x00, 0x01] ++ encI32 .le 4326 ++ List.replicate 32 0 ++ [0x7C] ++ encU32 .le 2 ++ encU32 .le 1
      ++ List.replicate 16 0 ++ [0xFE]) := by
  have h (p : Prog Unit) (hp : p = processTop fo (refuseCompressed readSpatialiteHeader)
        (fun i => refuseCompressed (readSpatialiteNestedHeader i)) ∨ p = processWkbTypeGeom fo .spatiaLite) :
      run false p ([0x00, 0x01] ++ encI32 .le 4326 ++ List.replicate 32 0 ++ [0x7C] ++ encU32 .le 2
        ++ encU32 .le 1 ++ List.replicate 16 0 ++ [0xFE])
      = ([.srid (some 4326), .gbegin .lineString true 1 0, .xy 0#64 0#64 0, .gend .lineString true 0],
          .ok ((), [0xFE])) := by
    rcases hp with rfl | rfl <;> rfl
  exact (h _ (Or.inl rfl)).trans (h _ (Or.inr rfl)).symm

/-- SpatiaLite blob with a compressed line string of one point (two full coordinates follow). -/
def compressedBlob : List Byte :=
  [0x00, 0x01] ++ encI32 .le 4326 ++ (List.replicate 32 0) ++ [0x7C] ++ encU32 .le 1000002 ++ encU32 .le 1
    ++ List.replicate 32 0 ++ [0xFE]

/-- The exact statement fails for compressed line strings: one point is announced and two are
delivered, with indices 0 and 1. -/
theorem C08_spatialite_compressed_false (fo : FOps) :
    run false (processWkbTypeGeom fo .spatiaLite) compressedBlob =
      ([.srid (some 4326), .gbegin .lineString true 1 0, .xy 0#64 0#64 0, .xy 0#64 0#64 1,
        .gend .lineString true 0], .ok ((), [0xFE])) := by
  simp only [processWkbTypeGeom, processSpatialiteGeom, processTop, bind_eq]
  rfl

/-- non-vacuity: a collection holding a point, read successfully -/
example (fo : FOps) : ∃ evs, run true (processWkbTypeGeom fo .wkb)
    ([1] ++ encU32 .le 7 ++ encU32 .le 1 ++ [1] ++ encU32 .le 1 ++ List.replicate 16 0)
      = (evs, .ok ((), [])) := ⟨_, by rfl⟩

/-! ### C09 -/

/-- Whatever the bytes: when the read fails, what has been delivered is a prefix of the stream of some
geometry (announced sizes and indices included). -/
theorem C09_failure_is_prefix (fo : FOps) (d : WkbDialect) (hd : d ≠ .spatiaLite) (multi : Bool)
    (bs : List Byte) (evs : List Ev) (e : Err) (h : run multi (processWkbTypeGeom fo d) bs = (evs, .error e)) :
    ∃ srid g, evs <+: .srid srid :: Geom.events multi 0 g :=
  (sat_err (sat_dialect fo d hd multi) h).2

/-- SpatiaLite: up to line string sizes and coordinate indices (see C08). -/
theorem C09_spatialite_failure_loose (fo : FOps) (multi : Bool) (bs : List Byte) (evs : List Ev) (e : Err)
    (h : run multi (processWkbTypeGeom fo .spatiaLite) bs = (evs, .error e)) :
    ∃ srid g, evs.map looseEv <+: (.srid srid :: Geom.events multi 0 g).map looseEv :=
  (sat_err (sat_loose fo .spatiaLite multi) h).2

/-- Again whether a size or an index is zero is right in any case. -/
theorem C09_spatialite_failure_semi (fo : FOps) (d : WkbDialect) (multi : Bool) (bs : List Byte) (evs : List Ev) (e : Err)
    (h : run multi (processWkbTypeGeom fo d) bs = (evs, .error e)) :
    ∃ srid g, evs.map semiEv <+: (.srid srid :: Geom.events multi 0 g).map semiEv :=
  (sat_err (sat_semi fo d multi) h).2

/-- non-vacuity: a truncated line string fails after some events -/
example (fo : FOps) : run false (processWkbTypeGeom fo .wkb)
    ([1] ++ encU32 .le 2 ++ encU32 .le 2 ++ List.replicate 16 0)
      = ([.srid none, .gbegin .lineString true 2 0, .xy 0#64 0#64 0], .error .io) := by rfl

/-- No input makes a reader panic; in particular the recursion bound of the model is never the reason
for a failure. -/
theorem C10_reader_never_panics (fo : FOps) (d : WkbDialect) (multi : Bool) (bs : List Byte) (evs : List Ev)
    (e : Err) (h : run multi (processWkbTypeGeom fo d) bs = (evs, .error e)) : e.isPanic = false :=
  (sat_err (sat_loose fo d multi) h).1

/-! ### C11 -/

/-- Bytes after a geometry do not influence how it is read and are left unread. -/
theorem C11_append_stable (fo : FOps) (d : WkbDialect) (multi : Bool) (bs rest ext : List Byte) (evs : List Ev)
    (h : run multi (processWkbTypeGeom fo d) bs = (evs, .ok ((), rest))) :
    run multi (processWkbTypeGeom fo d) (bs ++ ext) = (evs, .ok ((), rest ++ ext)) :=
  run_append multi _ bs ext h

/-- Every strict prefix of the bytes a successful read consumed makes the read fail with an I/O error,
after a prefix of the events. -/
theorem C11_truncation_detected (fo : FOps) (d : WkbDialect) (multi : Bool) (bs rest : List Byte) (evs : List Ev)
    (h : run multi (processWkbTypeGeom fo d) bs = (evs, .ok ((), rest))) :
    ∃ used, bs = used ++ rest ∧ run multi (processWkbTypeGeom fo d) used = (evs, .ok ((), [])) ∧
      ∀ k, k < used.length →
        ∃ evs', evs' <+: evs ∧ run multi (processWkbTypeGeom fo d) (used.take k) = (evs', .error .io) :=
  run_consumed multi _ bs h

/-- Geometries written one after the other are read back to back: reading twice in a row from
`used₁ ++ used₂` delivers the events of both. -/
theorem C11_back_to_back (fo : FOps) (d₁ d₂ : WkbDialect) (multi : Bool) (b₁ b₂ : List Byte) (evs₁ evs₂ : List Ev)
    (h₁ : run multi (processWkbTypeGeom fo d₁) b₁ = (evs₁, .ok ((), [])))
    (h₂ : run multi (processWkbTypeGeom fo d₂) b₂ = (evs₂, .ok ((), []))) :
    run multi (do processWkbTypeGeom fo d₁; processWkbTypeGeom fo d₂) (b₁ ++ b₂) = (evs₁ ++ evs₂, .ok ((), [])) := by
  simp only [bind_eq]
  rw [run_bind_ok (run_append multi _ b₁ b₂ h₁)]
  simp [h₂]

/-- non-vacuity -/
example (fo : FOps) : run true (processWkbTypeGeom fo .ewkb) ([0] ++ encU32 .be 1 ++ List.replicate 16 0)
    = ([.srid none, .gbegin .point true 1 0, .coord 0#64 0#64 none none none none 0, .gend .point true 0],
       .ok ((), [])) := by rfl

/-! ### C12 on arbitrary bytes -/

/-- runs do not depend on the processor's `multi_dim()` -/
private def NoAsk {α : Type} (p : Prog α) : Prop := ∀ m m' bs, run m p bs = run m' p bs

private theorem NoAsk.bind {α β : Type} {p : Prog α} {f : α → Prog β} (hp : NoAsk p) (hf : ∀ a, NoAsk (f a)) :
    NoAsk (Prog.bind p f) := by
  intro m m' bs
  rw [run_bind, run_bind, hp m m' bs]
  unfold andThen
  cases h : (run m' p bs).2 with
  | ok ab => simp only [hf ab.1 m m']
  | error e => rfl

private theorem NoAsk.ret {α : Type} (a : α) : NoAsk (.ret a) := fun _ _ _ => rfl
private theorem NoAsk.fail {α : Type} (e : Err) : NoAsk (.fail e : Prog α) := fun _ _ _ => rfl
private theorem NoAsk.readByte : NoAsk readByte := by intro m m' bs; cases bs <;> rfl
private theorem NoAsk.readN (n : Nat) : NoAsk (readN n) := by
  induction n with
  | zero => exact NoAsk.ret _
  | succ n ih => exact NoAsk.readByte.bind fun _ => ih.bind fun _ => NoAsk.ret _
private theorem NoAsk.readU32 (e : Endian) : NoAsk (readU32 e) := (NoAsk.readN 4).bind fun _ => NoAsk.ret _
private theorem NoAsk.readI32 (e : Endian) : NoAsk (readI32 e) := (NoAsk.readN 4).bind fun _ => NoAsk.ret _
private theorem NoAsk.readF64s (e : Endian) (n : Nat) : NoAsk (readF64s e n) := by
  induction n with
  | zero => exact NoAsk.ret _
  | succ n ih =>
    exact NoAsk.bind ((NoAsk.readN 8).bind fun _ => NoAsk.ret _) fun _ => ih.bind fun _ => NoAsk.ret _
private theorem NoAsk.wkbHeader : NoAsk readWkbHeader :=
  NoAsk.readByte.bind fun _ => (NoAsk.readU32 _).bind fun _ => NoAsk.ret _

private theorem NoAsk.topHeader (d : WkbDialect) : NoAsk (topHeader d) := by
  cases d with
  | wkb => exact NoAsk.wkbHeader
  | ewkb =>
    refine NoAsk.readByte.bind fun _ => (NoAsk.readU32 _).bind fun t => NoAsk.bind ?_ fun s => NoAsk.ret _
    split
    · exact (NoAsk.readI32 _).bind fun _ => NoAsk.ret _
    · exact NoAsk.ret _
  | geopackage =>
    refine NoAsk.readByte.bind fun _ => NoAsk.readByte.bind fun _ => ?_
    split
    · refine NoAsk.readByte.bind fun _ => NoAsk.readByte.bind fun _ => ?_
      split
      · exact NoAsk.fail _
      · exact (NoAsk.readI32 _).bind fun _ => (NoAsk.readF64s _ _).bind fun _ =>
          NoAsk.wkbHeader.bind fun _ => NoAsk.ret _
    · exact NoAsk.fail _
  | mySQL =>
    refine (NoAsk.readU32 _).bind fun _ => ?_
    split
    · refine NoAsk.wkbHeader.bind fun info => ?_
      split
      · exact NoAsk.ret _
      · exact NoAsk.fail _
    · exact NoAsk.fail _
  | spatiaLite =>
    refine NoAsk.readByte.bind fun _ => ?_
    split
    · refine NoAsk.readByte.bind fun _ => (NoAsk.readI32 _).bind fun _ => ?_
      extract_lets srid
      split
      · exact NoAsk.readByte.bind fun _ => NoAsk.ret _
      · refine (NoAsk.readF64s _ _).bind fun _ => NoAsk.readByte.bind fun _ => ?_
        split
        · exact (NoAsk.readU32 _).bind fun _ => NoAsk.ret _
        · exact NoAsk.fail _
    · exact NoAsk.fail _

private theorem silent_topHeader (d : WkbDialect) (multi : Bool) : Silent multi (topHeader d) (LineOk semiEv) := by
  cases d with
  | wkb => exact Silent.wkbHeader
  | ewkb => exact Silent.ewkbHeader
  | geopackage => exact Silent.gpkgHeader
  | mySQL => exact Silent.mysqlHeader
  | spatiaLite => exact Silent.spatialiteHeader

private theorem process_top_eq (fo : FOps) (d : WkbDialect) :
    ∃ rh, processWkbTypeGeom fo d = processTop fo (topHeader d) rh := by
  cases d
  · exact ⟨readWkbNestedHeader, rfl⟩
  · exact ⟨readEwkbNestedHeader, rfl⟩
  · exact ⟨readWkbNestedHeader, rfl⟩
  · exact ⟨readWkbNestedHeader, rfl⟩
  · exact ⟨readSpatialiteNestedHeader, rfl⟩

/-- the plain WKB header never has a SRID -/
private theorem wkbHeader_srid : Silent false readWkbHeader (fun i => i.srid = none) := by
  unfold readWkbHeader
  exact Silent.readByte.bind fun _ _ => (Silent.readU32 _).bind fun _ _ => Silent.ret rfl

/-- On every input on which a read delivers anything at all, the first thing delivered is the SRID that
`srid()` reports for these bytes. -/
theorem C12_srid_agrees_on_any_input (fo : FOps) (d : WkbDialect) (multi : Bool) (bs : List Byte) (evs : List Ev)
    (r : Except Err (Unit × List Byte)) (h : run multi (processWkbTypeGeom fo d) bs = (evs, r)) (hne : evs ≠ []) :
    evs.head? = some (.srid (wkbSrid d bs)) := by
  obtain ⟨rh, he⟩ := process_top_eq fo d
  rw [he] at h
  unfold processTop at h
  simp only [bind_eq] at h
  rw [run_bind] at h
  have hs := silent_topHeader d multi bs
  rw [NoAsk.topHeader d multi false bs] at h hs
  have hsrid : d = .wkb → ∀ i rest, (run false (topHeader d) bs).2 = .ok (i, rest) → i.srid = none := by
    rintro rfl i rest hi
    have := wkbHeader_srid bs
    rcases hr : run false readWkbHeader bs with ⟨ev, r⟩
    rw [hr] at this
    simp only [topHeader, hr] at hi
    subst hi
    exact this.1
  rcases hr : run false (topHeader d) bs with ⟨ev, r1⟩
  rw [hr] at h hs
  cases r1 with
  | error e =>
    obtain ⟨_, rfl⟩ := hs
    simp only [andThen, Prod.mk.injEq] at h
    exact absurd h.1.symm hne
  | ok ab =>
    obtain ⟨info, rest⟩ := ab
    obtain ⟨_, rfl⟩ := hs
    simp only [andThen, run_emitEv_bind, List.nil_append, Prod.mk.injEq] at h
    rw [← h.1]
    have hres : headerResult (topHeader d) bs = some info := by simp [headerResult, hr]
    simp only [List.head?_cons, Option.some.injEq, Ev.srid.injEq]
    cases d with
    | wkb => exact hsrid rfl info rest (by rw [hr])
    | ewkb => simp only [wkbSrid, hres, Option.bind_some]
    | geopackage => simp only [wkbSrid, hres, Option.bind_some]
    | mySQL => simp only [wkbSrid, hres, Option.bind_some]
    | spatiaLite => simp only [wkbSrid, hres, Option.bind_some]

/-- non-vacuity: a truncated EWKB point still announces its SRID -/
example (fo : FOps) : (run true (processWkbTypeGeom fo .ewkb) ([0] ++ encU32 .be 0x20000001 ++ encI32 .be 4326)).1
    = [.srid (some 4326)] := by rfl

/-! ### C13 -/

/-- The base types the readers deliver, by OGC code. -/
def Spec.deliverable (code : Nat) : Bool := (1 ≤ code && code ≤ 12) || code == 15 || code == 16 || code == 17

theorem fromU32_undeliverable (n : Nat) (h : n < 1000) (hd : Spec.deliverable n = false) :
    WkbType.fromU32 n = .curve ∨ WkbType.fromU32 n = .surface ∨ WkbType.fromU32 n = .unknown := by
  simp only [Spec.deliverable, Bool.or_eq_false_iff, Bool.and_eq_false_imp, decide_eq_true_eq,
    decide_eq_false_iff_not, beq_eq_false_iff_ne] at hd
  by_cases h0 : n < 18
  · have : n = 0 ∨ n = 13 ∨ n = 14 := by omega
    rcases this with rfl | rfl | rfl
    · exact Or.inr (Or.inr rfl)
    · exact Or.inl rfl
    · exact Or.inr (Or.inl rfl)
  · right; right
    unfold WkbType.fromU32
    split <;> first | rfl | omega

theorem geomN_rejects (fo : FOps) (rh : WkbInfo → Prog WkbInfo) (fuel : Nat) (info : WkbInfo) (idx : Nat)
    (h : info.baseType = .curve ∨ info.baseType = .surface ∨ info.baseType = .unknown) :
    processGeomN fo rh (fuel + 1) info idx 0 = .fail .geometryFormat := by
  unfold processGeomN
  rcases h with h | h | h <;> simp [h, wkbMaxNestingDepth]

/-- OGC 06-103r4 table 7 by kind of event. -/
def Spec.kindCode : GKind → Nat
  | .point => 1
  | .lineString => 2
  | .polygon => 3
  | .multiPoint => 4
  | .multiLineString => 5
  | .multiPolygon => 6
  | .collection => 7
  | .circularString => 8
  | .compoundCurve => 9
  | .curvePolygon => 10
  | .multiCurve => 11
  | .multiSurface => 12
  | .polyhedralSurface => 15
  | .tin => 16
  | .triangle => 17

/-- WKB: the code of each of the 17 base types with each combination of dimensions, as the OGC table has
it, is decoded to that base type and those dimensions, whatever the byte order. -/
theorem C13_wkb_code_decodes (d : Dims) (e : Endian) (code : Nat) (h : code ≤ 17) (bs : List Byte) :
    (headerResult readWkbHeader (orderMark e :: encU32 e (ogcCode d code) ++ bs)).map
        (fun i => (i.baseType.toU32, i.hasZ, i.hasM)) = some (code, d.z, d.m) := by
  have hr := run_readWkbHeader d e code h false bs
  simp only [List.cons_append] at hr ⊢
  simp only [headerResult, hr, Option.map_some, Option.some.injEq, Prod.mk.injEq, and_true]
  have : code < 18 := by omega
  clear hr h
  revert code
  decide

/-- EWKB: likewise, with the dimension and SRID flag bits. -/
theorem C13_ewkb_code_decodes (d : Dims) (e : Endian) (code : Nat) (h : code ≤ 17) (bs : List Byte) :
    (headerResult readEwkbHeader (orderMark e :: encU32 e (ewkbCode d false code) ++ bs)).map
        (fun i => (i.baseType.toU32, i.hasZ, i.hasM)) = some (code, d.z, d.m) := by
  have hr := run_readEwkbHeader d e none (by simp) code h false bs
  simp only [List.cons_append, Option.isSome_none, Option.toList_none, List.flatMap_nil, List.nil_append] at hr ⊢
  simp only [headerResult, hr]
  simp only [Option.map_some, Option.some.injEq, Prod.mk.injEq, and_true]
  have : code < 18 := by omega
  clear hr h
  revert code
  decide

/-- The public conversion of type codes, on all numbers: codes of the OGC table are kept, so different codes get different types and
every type is reached from its own code; any other number becomes the type with code 0. -/
theorem C13_conversion :
    (∀ n, (WkbType.fromU32 n).toU32 = if 1 ≤ n % 1000 ∧ n % 1000 ≤ 17 ∧ n / 1000 ≤ 3 then n else 0) ∧
    ∀ t : WkbType, WkbType.fromU32 t.toU32 = t := by
  refine ⟨fun n => ?_, fun t => by cases t <;> rfl⟩
  by_cases h : 1 ≤ n % 1000 ∧ n % 1000 ≤ 17 ∧ n / 1000 ≤ 3
  · rw [if_pos h]
    have key : ∀ q, q < 4 → ∀ r, r < 17 → (WkbType.fromU32 (1000 * q + (r + 1))).toU32 = 1000 * q + (r + 1) := by decide
    have := key (n / 1000) (by omega) (n % 1000 - 1) (by omega)
    rwa [show 1000 * (n / 1000) + (n % 1000 - 1 + 1) = n by omega] at this
  · rw [if_neg h]
    unfold WkbType.fromU32
    split <;> first | rfl | (exfalso; omega)

example : WkbType.fromU32 2016 = .tinM ∧ WkbType.fromU32 3018 = .unknown := by decide

/-- The writer's codes are the OGC and EWKB codes. -/
theorem C13_writer_codes (d : Dims) (k : GKind) :
    WkbWriter.ogcTypeId d (WkbWriter.kindType k) = ogcCode d (kindCode k) ∧
    ∀ srid, WkbWriter.ewkbTypeId d srid (WkbWriter.kindType k) = ewkbCode d srid (kindCode k) := by
  rcases d with ⟨z, m, t, tm⟩
  refine ⟨?_, ?_⟩
  · cases z <;> cases m <;> cases k <;> rfl
  · intro srid
    cases srid <;> cases z <;> cases m <;> cases k <;> rfl

/-- Two type/dimension combinations never share a code. -/
theorem C13_writer_codes_distinct (d d' : Dims) (k k' : GKind)
    (h : WkbWriter.ogcTypeId d (WkbWriter.kindType k) = WkbWriter.ogcTypeId d' (WkbWriter.kindType k')) :
    k = k' ∧ d.z = d'.z ∧ d.m = d'.m := by
  have h1 := (C13_writer_codes d k).1
  have h2 := (C13_writer_codes d' k').1
  rw [h1, h2] at h
  have l1 : kindCode k ≤ 17 := by cases k <;> decide
  have l2 : kindCode k' ≤ 17 := by cases k' <;> decide
  have hm := ogcCode_mod d _ l1
  rw [h, ogcCode_mod d' _ l2] at hm
  have hk : k = k' := by cases k <;> cases k' <;> first | rfl | cases hm
  subst hk
  refine ⟨rfl, ?_, ?_⟩
  · rw [← ogcCode_z d _ l1, ← ogcCode_z d' _ l1, h]
  · rw [← ogcCode_m d _ l1, ← ogcCode_m d' _ l1, h]

/-- WKB: a type code whose base type is not one of the deliverable ones is rejected, for every 32-bit
code, without any geometry event. -/
theorem C13_wkb_unknown_code_rejected (fo : FOps) (multi : Bool) (e : Endian) (code : Nat) (h : code < 2 ^ 32)
    (hd : Spec.deliverable (code % 1000) = false) (bs : List Byte) :
    run multi (processWkbTypeGeom fo .wkb) (orderMark e :: encU32 e code ++ bs)
      = ([.srid none], .error .geometryFormat) := by
  have hb := fromU32_undeliverable (code % 1000) (by omega) hd
  simp only [processWkbTypeGeom, processWkbGeom, processTop, readWkbHeader, bind_eq, List.cons_append,
    bind_assoc, run_readByte_cons, ofLE_orderMark]
  rw [run_bind_ok_nil (run_readU32 multi e code bs h)]
  simp only [pure_eq, ret_bind, run_emitEv_bind]
  rw [geomN_rejects fo _ 129 _ 0 hb]
  rfl

/-- EWKB: the base type is the low byte. -/
theorem C13_ewkb_unknown_code_rejected (fo : FOps) (multi : Bool) (e : Endian) (code : Nat) (h : code < 2 ^ 29)
    (hd : Spec.deliverable (code % 256) = false) (bs : List Byte) :
    run multi (processWkbTypeGeom fo .ewkb) (orderMark e :: encU32 e code ++ bs)
      = ([.srid none], .error .geometryFormat) := by
  have hb := fromU32_undeliverable (code % 256) (by omega) hd
  have h29 : testBitN code 29 = false := by
    simp only [testBitN, beq_eq_false_iff_ne]
    have : code / 2 ^ 29 = 0 := Nat.div_eq_of_lt h
    omega
  simp only [processWkbTypeGeom, processEwkbGeom, processTop, readEwkbHeader, bind_eq, List.cons_append,
    bind_assoc, run_readByte_cons, ofLE_orderMark]
  rw [run_bind_ok_nil (run_readU32 multi e code bs (by omega))]
  simp only [pure_eq, ret_bind, run_emitEv_bind, h29, Bool.false_eq_true, if_false]
  rw [geomN_rejects fo _ 129 _ 0 hb]
  rfl

/-- EWKB with the SRID bit set: the same after the SRID has been reported. -/
theorem C13_ewkb_unknown_code_srid_rejected (fo : FOps) (multi : Bool) (e : Endian) (code : Nat) (h : code < 2 ^ 32)
    (h29 : code / 2 ^ 29 % 2 = 1) (hd : Spec.deliverable (code % 256) = false) (srid : Int) (hs : isI32 srid) (bs : List Byte) :
    run multi (processWkbTypeGeom fo .ewkb) (orderMark e :: encU32 e code ++ (encI32 e srid ++ bs))
      = ([.srid (some srid)], .error .geometryFormat) := by
  have hb := fromU32_undeliverable (code % 256) (by omega) hd
  have h29 : testBitN code 29 = true := by simp only [testBitN, beq_iff_eq]; exact h29
  simp only [processWkbTypeGeom, processEwkbGeom, processTop, readEwkbHeader, bind_eq, List.cons_append,
    Prog.bind_assoc, run_readByte_cons, ofLE_orderMark]
  rw [run_bind_ok_nil (run_readU32 multi e code _ h)]
  simp only [pure_eq, ret_bind, h29, if_true, Prog.bind_assoc]
  rw [run_bind_ok_nil (run_readI32 multi e srid bs hs)]
  simp only [pure_eq, ret_bind, run_emitEv_bind]
  rw [geomN_rejects fo _ 129 _ 0 hb]
  rfl

/-- WKB: how every 32-bit type code is read. The last three decimal digits are the base type; the rest is the dimensions if it is 0, 1, 2 or
3, and otherwise means no dimensions: such a blob is read exactly like the one with the two-dimensional code. -/
theorem C13_wkb_any_code (fo : FOps) (multi : Bool) (e : Endian) (code : Nat) (h : code < 2 ^ 32) (bs : List Byte) :
    run multi (processWkbTypeGeom fo .wkb) (orderMark e :: encU32 e code ++ bs) =
      run multi (processWkbTypeGeom fo .wkb)
        (orderMark e :: encU32 e (if code < 4000 then code else code % 1000) ++ bs) := by
  split
  · rfl
  · have h1 : (code / 1000 == 1) = false ∧ (code / 1000 == 2) = false ∧ (code / 1000 == 3) = false := by
      simp only [beq_eq_false_iff_ne]; omega
    have h2 : code % 1000 / 1000 = 0 := by omega
    simp only [processWkbTypeGeom, processWkbGeom, processTop, readWkbHeader, bind_eq, List.cons_append,
      bind_assoc, run_readByte_cons, ofLE_orderMark]
    rw [run_bind_ok_nil (run_readU32 multi e code bs h), run_bind_ok_nil (run_readU32 multi e (code % 1000) bs (by omega))]
    simp only [h1.1, h1.2.1, h1.2.2, h2, Nat.mod_mod]
    rfl

/-- EWKB: how every 32-bit type code is read. The lowest byte is the base type and the three highest bits are the flags; a blob is read
exactly like the one with the 21 bits between cleared. -/
theorem C13_ewkb_any_code (fo : FOps) (multi : Bool) (e : Endian) (code : Nat) (h : code < 2 ^ 32) (bs : List Byte) :
    run multi (processWkbTypeGeom fo .ewkb) (orderMark e :: encU32 e code ++ bs) =
      run multi (processWkbTypeGeom fo .ewkb)
        (orderMark e :: encU32 e (2 ^ 29 * (code / 2 ^ 29) + code % 256) ++ bs) := by
  have hx : (2 ^ 29 * (code / 2 ^ 29) + code % 256) / 2 ^ 29 = code / 2 ^ 29 := by omega
  have hb : ∀ k, 29 ≤ k → testBitN (2 ^ 29 * (code / 2 ^ 29) + code % 256) k = testBitN code k := by
    intro k hk
    obtain ⟨j, rfl⟩ := Nat.exists_eq_add_of_le hk
    unfold testBitN
    rw [Nat.pow_add, ← Nat.div_div_eq_div_mul, hx, Nat.div_div_eq_div_mul]
  have hm : (2 ^ 29 * (code / 2 ^ 29) + code % 256) % 256 = code % 256 := by omega
  simp only [processWkbTypeGeom, processEwkbGeom, processTop, readEwkbHeader, bind_eq, List.cons_append,
    bind_assoc, run_readByte_cons, ofLE_orderMark]
  rw [run_bind_ok_nil (run_readU32 multi e code bs h), run_bind_ok_nil (run_readU32 multi e _ bs (by omega))]
  simp only [hb 29 (by omega), hb 30 (by omega), hb 31 (by omega), hm]

/-- The strict reading of the property is false: 4001 is in no OGC table (dimension thousands 4) but is
read as a plain two-dimensional point; 0x101 likewise in EWKB. -/
theorem C13_code_outside_table_false (fo : FOps) :
    run false (processWkbTypeGeom fo .wkb) (1 :: encU32 .le 4001 ++ List.replicate 16 0)
      = ([.srid none, .gbegin .point true 1 0, .xy 0#64 0#64 0, .gend .point true 0], .ok ((), [])) ∧
    run false (processWkbTypeGeom fo .ewkb) (1 :: encU32 .le 0x101 ++ List.replicate 16 0)
      = ([.srid none, .gbegin .point true 1 0, .xy 0#64 0#64 0, .gend .point true 0], .ok ((), [])) := by
  constructor <;> rfl

/-- non-vacuity: 13 (Curve), 0, 18 and 1014 are undeliverable -/
example : Spec.deliverable 13 = false ∧ Spec.deliverable 0 = false ∧ Spec.deliverable 18 = false ∧
    Spec.deliverable (1014 % 1000) = false := by decide

/-! ### C34 -/

/-- Reading into an arbitrary stateful processor `P`: if the processor rejects some event, the reader
returns that very error, nothing is delivered after the rejected event, and the processor is left in the
state before it; otherwise the processor has seen exactly the events of the trace semantics and the
outcome is that of the trace. -/
theorem C34_processor_error_stops {σ : Type} (fo : FOps) (d : WkbDialect) (P : Proc σ) (multi : Bool)
    (hm : ∀ s, P.multi s = multi) (s s' : σ) (bs : List Byte) (evs : List Ev) (r : Except Err (Unit × List Byte))
    (h : interp P (processWkbTypeGeom fo d) s bs = (s', evs, r)) :
    (∀ pre e post s₁ x, (run multi (processWkbTypeGeom fo d) bs).1 = pre ++ e :: post →
        feed P.step s pre = .ok s₁ → P.step s₁ e = .error x → evs = pre ++ [e] ∧ r = .error x ∧ s' = s₁) ∧
    (∀ s₁, feed P.step s (run multi (processWkbTypeGeom fo d) bs).1 = .ok s₁ →
      s' = s₁ ∧ (evs, r) = run multi (processWkbTypeGeom fo d) bs) := by
  have h1 := interp_spec P (processWkbTypeGeom fo d) s bs
  have h2 := interp_run P multi hm (processWkbTypeGeom fo d) s bs
  rw [h] at h1 h2
  simp only at h1 h2
  constructor
  · intro pre e post s₁ x hrun hpre hx
    have hbad : feed P.step s (pre ++ [e]) = .error x := by
      rw [feed_append, hpre]; simp [feed, hx]
    rcases h1 with h1 | ⟨pre', e', x', he, hp', hx', hr'⟩
    · exfalso
      rw [(h2.2 h1).1, hrun] at h1
      have : feed P.step s ((pre ++ [e]) ++ post) = .error x := by rw [feed_append, hbad]
      simp only [List.append_assoc, List.singleton_append] at this
      rw [this] at h1
      cases h1
    · have hbad' : feed P.step s (pre' ++ [e']) = .error x' := by
        rw [feed_append, hp']; simp [feed, hx']
      have hpref : pre' ++ [e'] <+: pre ++ [e] ++ post := by
        have := h2.1; rw [he, hrun] at this; simpa using this
      have hpref2 : pre ++ [e] <+: pre ++ [e] ++ post := List.prefix_append _ _
      have hlen : pre'.length = pre.length := by
        rcases Nat.lt_trichotomy pre'.length pre.length with hl | hl | hl
        · exfalso
          have hsub : pre' ++ [e'] <+: pre :=
            List.prefix_of_prefix_length_le (hpref.trans (by simp)) (l₃ := pre ++ [e] ++ post) (by simp)
              (by simp; omega)
          obtain ⟨t, ht⟩ := hsub
          rw [← ht, feed_append, hbad'] at hpre
          cases hpre
        · exact hl
        · exfalso
          have hsub : pre ++ [e] <+: pre' :=
            List.prefix_of_prefix_length_le hpref2 ((List.prefix_append _ _).trans hpref) (by simp; omega)
          obtain ⟨t, ht⟩ := hsub
          rw [← ht, feed_append, hbad] at hp'
          cases hp'
      have heq : pre' ++ [e'] = pre ++ [e] :=
        (List.prefix_of_prefix_length_le hpref hpref2 (by simp [hlen])).eq_of_length (by simp [hlen])
      obtain ⟨rfl, hee⟩ := List.append_inj heq hlen
      simp only [List.cons.injEq, and_true] at hee
      subst hee
      rw [hpre] at hp'
      cases hp'
      rw [hx] at hx'
      cases hx'
      exact ⟨he, hr', rfl⟩
  · intro s₁ hs₁
    rcases h1 with h1 | ⟨pre', e', x', he, hp', hx', hr'⟩
    · obtain ⟨ha, hb⟩ := h2.2 h1
      rw [← ha, h1] at hs₁
      cases hs₁
      exact ⟨rfl, by rw [ha, hb]⟩
    · exfalso
      obtain ⟨t, ht⟩ := h2.1
      rw [← ht, he, List.append_assoc, feed_append, hp'] at hs₁
      simp [feed, hx'] at hs₁

/-- non-vacuity: a processor that refuses the second coordinate of a line string -/
example (fo : FOps) : ∃ s', interp (σ := Nat)
    { step := fun n e => match e with
        | .xy _ _ i => if i = 1 then .error (.geometry "no") else .ok (n + 1)
        | _ => .ok (n + 1)
      multi := fun _ => false } (processWkbTypeGeom fo .wkb) 0
    ([1] ++ encU32 .le 2 ++ encU32 .le 3 ++ List.replicate 48 0)
      = (s', [.srid none, .gbegin .lineString true 3 0, .xy 0#64 0#64 0, .xy 0#64 0#64 1], .error (.geometry "no")) :=
  ⟨_, rfl⟩

end Geozero
