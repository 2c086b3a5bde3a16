import Verif.Lemmas.Nesting
import Verif.Model.Cli
import Verif.Model.Svg

/-
Writers on well nested calls: a panic of a conversion comes from the reader.
-/

namespace Geozero
open Spec

/-- if an invariant rules out panics of the writer, a conversion panics only where the reader does -/
theorem Prog.panic_from_reader {α σ : Type} (P : Prog.Proc σ) (I : List Open → σ → Prop) (multi : Bool)
    (hs : ∀ st s e st', I st s → openAfter st e = some st' →
      (∀ s', P.step s e = .ok s' → I st' s') ∧ ∀ m, P.step s e ≠ .error (.panic m))
    (hm : ∀ st s, I st s → P.multi s = multi) (p : Prog α) (st : List Open) (s : σ) (bs : List Byte) (hI : I st s)
    (hn : ∃ t, openRun st (Prog.interp P p s bs).2.1 = some t) (m : String)
    (h : (Prog.interp P p s bs).2.2 = .error (.panic m)) : (Prog.run multi p bs).2 = .error (.panic m) := by
  induction p generalizing st s bs with
  | ret a => cases h
  | fail e => exact h
  | read k ih =>
    cases bs with
    | nil => cases h
    | cons b bs => exact ih b st s bs hI hn h
  | emit e k ih =>
    simp only [Prog.interp] at h hn
    obtain ⟨t, hn⟩ := hn
    cases he : P.step s e with
    | error x =>
      simp only [he] at h hn
      cases ho : openAfter st e with
      | none => simp only [openRun, ho] at hn; cases hn
      | some st' => exact absurd (he.trans (congrArg Except.error (Except.error.inj h))) ((hs st s e st' hI ho).2 m)
    | ok s' =>
      simp only [he] at h hn
      cases ho : openAfter st e with
      | none => simp only [openRun, ho] at hn; cases hn
      | some st' =>
        simp only [openRun, ho] at hn
        exact ih st' s' bs ((hs st s e st' hI ho).1 s' he) ⟨t, hn⟩ h
  | askMulti k ih =>
    simp only [Prog.interp, hm st s hI] at h hn
    exact ih multi st s bs hI hn h

theorem FProg.panic_from_reader {α σ : Type} (P : FProc σ) (I : List Open → σ → Prop) (env : FProg.Env)
    (hs : ∀ st s e st', I st s → fopenAfter st e = some st' →
      (∀ s', P.step s e = .ok s' → I st' s') ∧ (∀ x, P.step s e = .error x → I st' (P.left s e)) ∧
        ∀ m, P.step s e ≠ .error (.panic m))
    (hm : ∀ st s, I st s → P.multi s = env.multi ∧ P.dims s = env.dims ∧ ∀ e, P.abort s e = env.ans e) (p : FProg α)
    (st : List Open) (s : σ) (bs : List Byte) (hI : I st s)
    (hn : ∃ t, fopenRun st (FProg.interp P p s bs).2.1 = some t) (m : String)
    (h : (FProg.interp P p s bs).2.2 = .error (.panic m)) : (FProg.run env p bs).2 = .error (.panic m) := by
  induction p generalizing st s bs with
  | ret a => cases h
  | fail e => exact h
  | read k ih =>
    cases bs with
    | nil => cases h
    | cons b bs => exact ih b st s bs hI hn h
  | emit e k ih =>
    simp only [FProg.interp] at h hn
    obtain ⟨t, hn⟩ := hn
    cases he : P.step s e with
    | error x =>
      simp only [he] at h hn
      cases ho : fopenAfter st e with
      | none => simp only [fopenRun, ho] at hn; cases hn
      | some st' => exact absurd (he.trans (congrArg Except.error (Except.error.inj h))) ((hs st s e st' hI ho).2.2 m)
    | ok s' =>
      simp only [he] at h hn
      cases ho : fopenAfter st e with
      | none => simp only [fopenRun, ho] at hn; cases hn
      | some st' =>
        simp only [fopenRun, ho] at hn
        exact ih st' s' bs ((hs st s e st' hI ho).1 s' he) ⟨t, hn⟩ h
  | emitOk e k ih =>
    simp only [FProg.interp] at h hn
    obtain ⟨t, hn⟩ := hn
    cases he : P.step s e with
    | error x =>
      simp only [he] at h hn
      cases ho : fopenAfter st e with
      | none => split at hn <;> simp only [fopenRun, ho] at hn <;> cases hn
      | some st' =>
        have hx : ¬ x.isPanic = true := by
          intro hx
          cases x with
          | panic m' => exact (hs st s e st' hI ho).2.2 m' he
          | _ => cases hx
        simp only [if_neg hx, fopenRun, ho] at h hn
        exact ih st' _ bs ((hs st s e st' hI ho).2.1 x he) ⟨t, hn⟩ h
    | ok s' =>
      simp only [he] at h hn
      cases ho : fopenAfter st e with
      | none => simp only [fopenRun, ho] at hn; cases hn
      | some st' =>
        simp only [fopenRun, ho] at hn
        exact ih st' s' bs ((hs st s e st' hI ho).1 s' he) ⟨t, hn⟩ h
  | prop i n v k ih =>
    simp only [FProg.interp, (hm st s hI).2.2] at h hn
    obtain ⟨t, hn⟩ := hn
    cases he : P.step s (.prop i n v) with
    | error x =>
      simp only [he] at h hn
      cases ho : fopenAfter st (.prop i n v) with
      | none => simp only [fopenRun, ho] at hn; cases hn
      | some st' => exact absurd (he.trans (congrArg Except.error (Except.error.inj h))) ((hs st s _ st' hI ho).2.2 m)
    | ok s' =>
      simp only [he] at h hn
      cases ho : fopenAfter st (.prop i n v) with
      | none => simp only [fopenRun, ho] at hn; cases hn
      | some st' =>
        simp only [fopenRun, ho] at hn
        exact ih _ st' s' bs ((hs st s _ st' hI ho).1 s' he) ⟨t, hn⟩ h
  | ask k ih =>
    simp only [FProg.interp, (hm st s hI).1, (hm st s hI).2.1] at h hn
    exact ih _ _ st s bs hI hn h

/-- a writer that never panics -/
theorem Prog.panic_from_reader_any {α σ : Type} (P : Prog.Proc σ) (I : σ → Prop) (multi : Bool)
    (hs : ∀ s e, I s → (∀ s', P.step s e = .ok s' → I s') ∧ ∀ m, P.step s e ≠ .error (.panic m))
    (hm : ∀ s, I s → P.multi s = multi) (p : Prog α) (s : σ) (bs : List Byte) (hI : I s) (m : String)
    (h : (Prog.interp P p s bs).2.2 = .error (.panic m)) : (Prog.run multi p bs).2 = .error (.panic m) := by
  induction p generalizing s bs with
  | ret a => cases h
  | fail e => exact h
  | read k ih =>
    cases bs with
    | nil => cases h
    | cons b bs => exact ih b s bs hI h
  | emit e k ih =>
    simp only [Prog.interp] at h
    cases he : P.step s e with
    | error x =>
      simp only [he] at h
      exact absurd (he.trans (congrArg Except.error (Except.error.inj h))) ((hs s e hI).2 m)
    | ok s' =>
      simp only [he] at h
      exact ih s' bs ((hs s e hI).1 s' he) h
  | askMulti k ih =>
    simp only [Prog.interp, hm s hI] at h
    exact ih multi s bs hI h

theorem FProg.panic_from_reader_any {α σ : Type} (P : FProc σ) (I : σ → Prop) (env : FProg.Env)
    (hs : ∀ s e, I s → (∀ s', P.step s e = .ok s' → I s') ∧ (∀ x, P.step s e = .error x → I (P.left s e)) ∧
      ∀ m, P.step s e ≠ .error (.panic m))
    (hm : ∀ s, I s → P.multi s = env.multi ∧ P.dims s = env.dims ∧ ∀ e, P.abort s e = env.ans e) (p : FProg α)
    (s : σ) (bs : List Byte) (hI : I s) (m : String)
    (h : (FProg.interp P p s bs).2.2 = .error (.panic m)) : (FProg.run env p bs).2 = .error (.panic m) := by
  induction p generalizing s bs with
  | ret a => cases h
  | fail e => exact h
  | read k ih =>
    cases bs with
    | nil => cases h
    | cons b bs => exact ih b s bs hI h
  | emit e k ih =>
    simp only [FProg.interp] at h
    cases he : P.step s e with
    | error x =>
      simp only [he] at h
      exact absurd (he.trans (congrArg Except.error (Except.error.inj h))) ((hs s e hI).2.2 m)
    | ok s' =>
      simp only [he] at h
      exact ih s' bs ((hs s e hI).1 s' he) h
  | emitOk e k ih =>
    simp only [FProg.interp] at h
    cases he : P.step s e with
    | error x =>
      simp only [he] at h
      have hx : ¬ x.isPanic = true := by
        intro hx
        cases x with
        | panic m' => exact (hs s e hI).2.2 m' he
        | _ => cases hx
      simp only [if_neg hx] at h
      exact ih _ bs ((hs s e hI).2.1 x he) h
    | ok s' =>
      simp only [he] at h
      exact ih s' bs ((hs s e hI).1 s' he) h
  | prop i n v k ih =>
    simp only [FProg.interp, (hm s hI).2.2] at h
    cases he : P.step s (.prop i n v) with
    | error x =>
      simp only [he] at h
      exact absurd (he.trans (congrArg Except.error (Except.error.inj h))) ((hs s _ hI).2.2 m)
    | ok s' =>
      simp only [he] at h
      exact ih _ s' bs ((hs s _ hI).1 s' he) h
  | ask k ih =>
    simp only [FProg.interp, (hm s hI).1, (hm s hI).2.1] at h
    exact ih _ _ s bs hI h

/-! ### counting what is open -/

/-- how much of what is open counts for a writer -/
def load (wt : Open → Nat) (st : List Open) : Nat := (st.map wt).sum

theorem load_cons (wt : Open → Nat) (o : Open) (st : List Open) : load wt (o :: st) = wt o + load wt st := by
  simp [load]

theorem closeOpen_some {o : Open} {st st' : List Open} (h : closeOpen o st = some st') : st = o :: st' := by
  cases st with
  | nil => cases h
  | cons o' t =>
    simp only [closeOpen] at h
    split at h
    · rename_i ho; cases h; rw [ho]
    · cases h

/-! ### WKT -/

/-- every open geometry has its size on the stack -/
def wktWt : Open → Nat
  | .geom _ _ _ => 1
  | _ => 0

namespace WktWriter

@[simp] theorem nest_sizes_put (w : WktWriter) (t : Text) : (w.put t).sizes = w.sizes := rfl
@[simp] theorem nest_dims_put (w : WktWriter) (t : Text) : (w.put t).dims = w.dims := rfl
@[simp] theorem nest_sizes_header (w : WktWriter) : w.header.sizes = w.sizes := by
  unfold header; repeat' split
  all_goals rfl
@[simp] theorem nest_dims_header (w : WktWriter) : w.header.dims = w.dims := by
  unfold header; repeat' split
  all_goals rfl
@[simp] theorem nest_sizes_comma (w : WktWriter) (i : Nat) : (w.comma i).sizes = w.sizes := by unfold comma; split <;> rfl
@[simp] theorem nest_dims_comma (w : WktWriter) (i : Nat) : (w.comma i).dims = w.dims := by unfold comma; split <;> rfl

theorem nest_geomBegin (w : WktWriter) (tag : Text) (tagged : Bool) (size idx : Nat) :
    (w.geomBegin tag tagged size idx).sizes = size :: w.sizes ∧ (w.geomBegin tag tagged size idx).dims = w.dims := by
  unfold geomBegin
  by_cases h0 : size = 0 <;> cases tagged <;> simp [h0]

theorem nest_geomEnd {w : WktWriter} (h : w.sizes ≠ []) :
    ∃ w', w.geomEnd = .ok w' ∧ w'.sizes = w.sizes.tail ∧ w'.dims = w.dims := by
  unfold geomEnd
  cases hs : w.sizes with
  | nil => exact absurd hs h
  | cons n ns =>
    refine ⟨_, rfl, ?_⟩
    split <;> exact ⟨rfl, rfl⟩

theorem nested_step (num : F64 → Text) (d : Dims) (st : List Open) (w : WktWriter) (e : Ev) (st' : List Open)
    (hI : load wktWt st ≤ w.sizes.length ∧ w.dims = d) (ho : openAfter st e = some st') :
    ∃ w', step num w e = .ok w' ∧ load wktWt st' ≤ w'.sizes.length ∧ w'.dims = d := by
  obtain ⟨h1, h2⟩ := hI
  have same : openAfter st e = some st → st' = st := fun h => by rw [h] at ho; cases ho; rfl
  cases e with
  | srid s => cases same rfl; exact ⟨_, rfl, h1, h2⟩
  | xy x y i =>
    cases same rfl
    refine ⟨_, rfl, ?_⟩
    unfold xy
    split <;> simp [h1, h2]
  | coord x y z m t tm i =>
    cases same rfl
    refine ⟨_, rfl, ?_⟩
    unfold coordinate
    split <;> simp [h1, h2]
  | emptyPoint i =>
    cases same rfl
    have hb := nest_geomBegin w (txt "POINT") true 0 i
    obtain ⟨w', h3, h4, h5⟩ := nest_geomEnd (w := w.geomBegin (txt "POINT") true 0 i) (by rw [hb.1]; simp)
    exact ⟨w', h3, by rw [h4, hb.1]; exact h1, by rw [h5, hb.2]; exact h2⟩
  | gbegin k t n i =>
    cases ho
    have key : ∀ (w' : WktWriter) (tg : Text) (tt : Bool) (s : Nat), w' = w.geomBegin tg tt s i →
        load wktWt (Open.geom k t i :: st) ≤ w'.sizes.length ∧ w'.dims = d := by
      intro w' tg tt s hw
      have hb := nest_geomBegin w tg tt s i
      rw [hw, hb.1, hb.2, load_cons]
      simp only [wktWt, List.length_cons]
      exact ⟨by omega, h2⟩
    cases k <;> exact ⟨_, rfl, key _ _ _ _ rfl⟩
  | gend k t i =>
    have hst := closeOpen_some ho
    subst hst
    rw [load_cons] at h1
    simp only [wktWt] at h1
    obtain ⟨w', h3, h4, h5⟩ := nest_geomEnd (w := w) (by intro h; rw [h] at h1; simp at h1)
    refine ⟨w', h3, ?_, by rw [h5]; exact h2⟩
    rw [h4, List.length_tail]
    omega

end WktWriter

/-! ### WKB -/

/-- the geometries counted by `nesting_level` -/
def wkbWt : Open → Nat
  | .geom k _ _ => if WkbWriter.nests k then 1 else 0
  | _ => 0

namespace WkbWriter

/-- a step that does not panic and leaves this nesting level and these dimensions -/
structure Calm (n : Nat) (d : Dims) (r : Except Err WkbWriter) : Prop where
  ok : ∀ w', r = .ok w' → w'.nestingLevel = n ∧ w'.readDims = d
  err : ∀ m, r ≠ .error (.panic m)

theorem Calm.of_ok {w : WkbWriter} {n : Nat} {d : Dims} (h1 : w.nestingLevel = n) (h2 : w.readDims = d) : Calm n d (.ok w) :=
  ⟨fun _ h => by cases h; exact ⟨h1, h2⟩, fun _ h => by cases h⟩

/-- the same after a further step -/
theorem Calm.map {n : Nat} {d : Dims} {r r' : Except Err WkbWriter} (h : Calm n d r)
    (hok : ∀ w, r = .ok w → ∃ w', r' = .ok w' ∧ w'.nestingLevel = w.nestingLevel ∧ w'.readDims = w.readDims)
    (herr : ∀ e, r = .error e → r' = .error e) : Calm n d r' := by
  cases r with
  | error e => rw [herr e rfl]; exact ⟨fun _ h' => (by cases h'), fun m h' => h.err m (by cases h'; rfl)⟩
  | ok w =>
    obtain ⟨w', h1, h2, h3⟩ := hok w rfl
    rw [h1]
    exact .of_ok (h2.trans (h.ok w rfl).1) (h3.trans (h.ok w rfl).2)

theorem calm_writeHeader (w : WkbWriter) (t : WkbType) : Calm w.nestingLevel w.readDims (w.writeHeader t) := by
  unfold writeHeader
  cases w.dialect with
  | wkb => exact .of_ok rfl rfl
  | ewkb =>
    refine .of_ok ?_ ?_ <;> (unfold writeEwkbHeader; dsimp only; repeat' split) <;> rfl
  | geopackage => dsimp only; split <;> exact .of_ok rfl rfl
  | mySQL =>
    dsimp only
    split
    · unfold writeMysqlHeader
      cases w.srid with
      | none => exact .of_ok rfl rfl
      | some v =>
        dsimp only
        by_cases hv : 0 ≤ v
        · rw [if_pos hv]; exact .of_ok rfl rfl
        · rw [if_neg hv]; exact ⟨fun _ h => (by cases h), fun _ h => (by cases h)⟩
    · exact .of_ok rfl rfl
  | spatiaLite =>
    refine .of_ok ?_ ?_ <;> (unfold writeSpatialiteHeader; dsimp only; split) <;> rfl

theorem calm_headerAndSize (w : WkbWriter) (t : WkbType) (n : Nat) :
    Calm w.nestingLevel w.readDims (w.headerAndSize t n) :=
  (calm_writeHeader w t).map (fun _ h => by rw [headerAndSize, h]; exact ⟨_, rfl, rfl, rfl⟩)
    (fun _ h => by rw [headerAndSize, h])

theorem calm_coordinate (w : WkbWriter) (x y : F64) (z m : Option F64) :
    Calm w.nestingLevel w.readDims (w.coordinate x y z m) := by
  unfold coordinate
  split
  · exact (calm_writeHeader w .point).map (fun _ h => by rw [h]; exact ⟨_, rfl, rfl, rfl⟩) (fun _ h => by rw [h])
  · exact .of_ok rfl rfl

theorem calm_gbegin (w : WkbWriter) (k : GKind) (n : Nat) :
    Calm (w.nestingLevel + if nests k then 1 else 0) w.readDims (w.gbegin k n) := by
  cases k <;> unfold gbegin <;> simp only [nests, if_true, Bool.false_eq_true, if_false, Nat.add_zero]
  case point => exact calm_writeHeader w _
  case multiPoint =>
    exact (calm_headerAndSize { w with nestingLevel := w.nestingLevel + 1 } .multiPoint n).map
      (fun _ h => by rw [h]; exact ⟨_, rfl, rfl, rfl⟩) (fun _ h => by rw [h])
  case lineString =>
    split
    · exact calm_headerAndSize w _ _
    · exact .of_ok rfl rfl
  case polygon =>
    exact (calm_headerAndSize w .polygon n).map (fun _ h => by rw [h]; exact ⟨_, rfl, rfl, rfl⟩) (fun _ h => by rw [h])
  case triangle =>
    exact (calm_headerAndSize w .triangle n).map (fun _ h => by rw [h]; exact ⟨_, rfl, rfl, rfl⟩) (fun _ h => by rw [h])
  case multiLineString => exact calm_headerAndSize { w with nestingLevel := w.nestingLevel + 1 } _ n
  case multiPolygon => exact calm_headerAndSize { w with nestingLevel := w.nestingLevel + 1 } _ n
  case collection => exact calm_headerAndSize { w with nestingLevel := w.nestingLevel + 1 } _ n
  case multiCurve => exact calm_headerAndSize { w with nestingLevel := w.nestingLevel + 1 } _ n
  case multiSurface => exact calm_headerAndSize { w with nestingLevel := w.nestingLevel + 1 } _ n
  all_goals exact calm_headerAndSize w _ _

theorem footer_keeps (w : WkbWriter) : w.writeFooter.nestingLevel = w.nestingLevel ∧ w.writeFooter.readDims = w.readDims := by
  unfold writeFooter; split <;> exact ⟨rfl, rfl⟩

theorem calm_gend (w : WkbWriter) (k : GKind) (h : (if nests k then 1 else 0) ≤ w.nestingLevel) :
    Calm (w.nestingLevel - if nests k then 1 else 0) w.readDims (w.gend k) := by
  have hd : nests k = true → Calm (w.nestingLevel - 1) w.readDims w.nestDec := by
    intro hk
    rw [if_pos hk] at h
    unfold nestDec
    cases hn : w.nestingLevel with
    | zero => omega
    | succ n => exact .of_ok rfl rfl
  have hf : ∀ w' : WkbWriter, Calm w'.nestingLevel w'.readDims (.ok w'.writeFooter) := fun w' =>
    .of_ok (footer_keeps w').1 (footer_keeps w').2
  have hm : nests k = true → ∀ (f : WkbWriter → WkbWriter),
      (∀ w, (f w).nestingLevel = w.nestingLevel ∧ (f w).readDims = w.readDims) →
      Calm (w.nestingLevel - 1) w.readDims (match w.nestDec with | .ok w1 => .ok (f w1).writeFooter | .error e => .error e) := by
    intro hk f hf
    exact (hd hk).map
      (fun w1 h => ⟨_, by rw [h], (footer_keeps _).1.trans (hf w1).1, (footer_keeps _).2.trans (hf w1).2⟩) (fun _ h => by rw [h])
  cases k <;> unfold gend <;> simp only [nests, if_true, Bool.false_eq_true, if_false, Nat.sub_zero]
  case multiPoint => exact hm rfl (fun w' => { w' with geomState := .normal }) fun _ => ⟨rfl, rfl⟩
  case polygon => exact hf { w with geomState := .normal }
  case triangle => exact hf { w with geomState := .normal }
  case multiLineString => exact hm rfl id fun _ => ⟨rfl, rfl⟩
  case multiPolygon => exact hm rfl id fun _ => ⟨rfl, rfl⟩
  case collection => exact hm rfl id fun _ => ⟨rfl, rfl⟩
  case multiCurve => exact hm rfl id fun _ => ⟨rfl, rfl⟩
  case multiSurface => exact hm rfl id fun _ => ⟨rfl, rfl⟩
  all_goals exact hf w

theorem nested_step (d : Dims) (st : List Open) (w : WkbWriter) (e : Ev) (st' : List Open)
    (hI : load wkbWt st ≤ w.nestingLevel ∧ w.readDims = d) (ho : openAfter st e = some st') :
    (∀ w', step w e = .ok w' → load wkbWt st' ≤ w'.nestingLevel ∧ w'.readDims = d) ∧
      ∀ m, step w e ≠ .error (.panic m) := by
  obtain ⟨h1, h2⟩ := hI
  have same : openAfter st e = some st → st' = st := fun h => by rw [h] at ho; cases ho; rfl
  have use : ∀ n, load wkbWt st' ≤ n → Calm n w.readDims (step w e) →
      (∀ w', step w e = .ok w' → load wkbWt st' ≤ w'.nestingLevel ∧ w'.readDims = d) ∧ ∀ m, step w e ≠ .error (.panic m) :=
    fun n hn h => ⟨fun w' hw => by rw [(h.ok w' hw).1, (h.ok w' hw).2]; exact ⟨hn, h2⟩, h.err⟩
  cases e with
  | srid s => cases same rfl; exact use _ h1 (.of_ok rfl rfl)
  | xy x y i => cases same rfl; exact use _ h1 (calm_coordinate _ _ _ _ _)
  | coord x y z m t tm i => cases same rfl; exact use _ h1 (calm_coordinate _ _ _ _ _)
  | emptyPoint i => exact ⟨fun _ h => (by cases h), fun _ h => (by cases h)⟩
  | gbegin k t n i =>
    cases ho
    refine use _ ?_ (calm_gbegin w k n)
    rw [load_cons]
    simp only [wkbWt]
    omega
  | gend k t i =>
    have hst := closeOpen_some ho
    subst hst
    rw [load_cons] at h1
    simp only [wkbWt] at h1
    exact use _ (by omega) (calm_gend w k (by omega))

end WkbWriter

/-! ### line-delimited GeoJSON -/

/-- what opens a context of the line writer -/
def lineWt : Open → Nat
  | .feature _ => 1
  | .geom k t _ => if (GeoJsonWriter.beginText k t).isSome then 1 else 0
  | _ => 0

namespace GeoJsonLineWriter

theorem endContext_ok {w : GeoJsonLineWriter} (h : w.contexts ≠ 0) :
    ∃ w', w.endContext = .ok w' ∧ w'.contexts = w.contexts - 1 ∧ w'.inner.dims = w.inner.dims := by
  unfold endContext
  rw [if_neg h]
  split
  · rename_i h1; exact ⟨_, rfl, by simp [h1], rfl⟩
  · exact ⟨_, rfl, rfl, rfl⟩

theorem comma_keeps (w : GeoJsonLineWriter) (i : Nat) :
    (w.comma i).contexts = w.contexts ∧ (w.comma i).inner.dims = w.inner.dims := by
  unfold comma; split <;> exact ⟨rfl, rfl⟩

theorem geomStep_dims (num : F64 → Text) (w : GeoJsonWriter) (e : Ev) : (w.geomStep num e).dims = w.dims := by
  have hc : ∀ i, (w.comma i).dims = w.dims := fun i => by unfold GeoJsonWriter.comma; split <;> rfl
  unfold GeoJsonWriter.geomStep
  cases e <;> dsimp only
  case gbegin =>
    split
    · rfl
    · exact hc _
  case gend => split <;> rfl
  all_goals first | rfl | exact hc _

theorem inner_step (fmt : Fmt) (w : GeoJsonWriter) (e : FEv) : ∃ w', w.step fmt e = .ok w' ∧ w'.dims = w.dims := by
  cases e with
  | geom e => exact ⟨_, rfl, geomStep_dims _ _ _⟩
  | dsBegin n => cases n <;> exact ⟨_, rfl, rfl⟩
  | ftBegin i => exact ⟨_, rfl, by split <;> rfl⟩
  | prop i n v => exact ⟨_, rfl, by split <;> rfl⟩
  | _ => exact ⟨_, rfl, rfl⟩

theorem nested_step (fmt : Fmt) (d : Dims) (st : List Open) (w : GeoJsonLineWriter) (e : FEv) (st' : List Open)
    (hI : load lineWt st ≤ w.contexts ∧ w.inner.dims = d) (ho : fopenAfter st e = some st') :
    ∃ w', step fmt w e = .ok w' ∧ load lineWt st' ≤ w'.contexts ∧ w'.inner.dims = d := by
  obtain ⟨h1, h2⟩ := hI
  have same : fopenAfter st e = some st → st' = st := fun h => by rw [h] at ho; cases ho; rfl
  have begins : ∀ o, fopenAfter st e = (if outside st then some (o :: st) else none) → st' = o :: st := fun o h => by
    rw [h] at ho
    split at ho
    · cases ho; rfl
    · cases ho
  obtain ⟨k, hk, hkd⟩ := inner_step fmt w.inner e
  cases e with
  | dsBegin n =>
    cases begins _ rfl
    exact ⟨w, rfl, by rw [load_cons]; simpa [lineWt] using h1, h2⟩
  | dsEnd =>
    have hst := closeOpen_some ho
    subst hst
    rw [load_cons] at h1
    exact ⟨w, rfl, by simp only [lineWt] at h1; omega, h2⟩
  | ftBegin i =>
    cases begins _ rfl
    exact ⟨_, rfl, by rw [load_cons]; simp only [lineWt, beginContext]; omega, h2⟩
  | ftEnd i =>
    have hst := closeOpen_some ho
    subst hst
    rw [load_cons] at h1
    simp only [lineWt] at h1
    obtain ⟨w', h3, h4, h5⟩ := endContext_ok (w := { w with inner := k }) (by show w.contexts ≠ 0; omega)
    refine ⟨w', by simp only [step, hk]; exact h3, ?_, by rw [h5]; exact hkd.trans h2⟩
    rw [h4]
    show _ ≤ w.contexts - 1
    omega
  | propsBegin =>
    cases begins _ rfl
    exact ⟨{ w with inner := k }, by simp only [step, hk], by rw [load_cons]; simpa [lineWt] using h1, hkd.trans h2⟩
  | propsEnd =>
    have hst := closeOpen_some ho
    subst hst
    rw [load_cons] at h1
    exact ⟨{ w with inner := k }, by simp only [step, hk], by simp only [lineWt] at h1; show _ ≤ w.contexts; omega, hkd.trans h2⟩
  | geomBegin =>
    cases begins _ rfl
    exact ⟨{ w with inner := k }, by simp only [step, hk], by rw [load_cons]; simpa [lineWt] using h1, hkd.trans h2⟩
  | geomEnd =>
    have hst := closeOpen_some ho
    subst hst
    rw [load_cons] at h1
    exact ⟨{ w with inner := k }, by simp only [step, hk], by simp only [lineWt] at h1; show _ ≤ w.contexts; omega, hkd.trans h2⟩
  | prop i n v =>
    have hst : st' = st := by
      simp only [fopenAfter] at ho
      split at ho
      · cases ho; rfl
      · cases ho
    subst hst
    exact ⟨{ w with inner := k }, by simp only [step, hk], h1, hkd.trans h2⟩
  | geom e =>
    have hd : ∀ e, (w.inner.geomStep fmt.f64 e).dims = d := fun e => (geomStep_dims _ _ _).trans h2
    cases e with
    | srid s => cases same rfl; exact ⟨w, rfl, h1, h2⟩
    | xy x y i => cases same rfl; exact ⟨_, rfl, h1, hd _⟩
    | coord x y z m t tm i => cases same rfl; exact ⟨_, rfl, h1, hd _⟩
    | emptyPoint i =>
      cases same rfl
      have hc := comma_keeps w i
      obtain ⟨w', h3, h4, h5⟩ := endContext_ok
        (w := { contexts := (w.comma i).contexts + 1, inner := (w.comma i).inner.geomStep fmt.f64 (.emptyPoint 0) })
        (by show _ + 1 ≠ 0; omega)
      refine ⟨w', h3, ?_, ?_⟩
      · rw [h4]; show _ ≤ (w.comma i).contexts + 1 - 1; rw [hc.1]; omega
      · rw [h5]; exact (geomStep_dims _ _ _).trans (hc.2.trans h2)
    | gbegin kd t n i =>
      cases ho
      have hc := comma_keeps w i
      rw [load_cons]
      simp only [step, geomStep, lineWt]
      by_cases hs : (GeoJsonWriter.beginText kd t).isSome = true
      · rw [if_pos hs, if_pos hs]
        refine ⟨_, rfl, ?_, (geomStep_dims _ _ _).trans (hc.2.trans h2)⟩
        show _ ≤ (w.comma i).contexts + 1
        rw [hc.1]; omega
      · rw [if_neg hs, if_neg hs]
        exact ⟨w, rfl, by omega, h2⟩
    | gend kd t i =>
      have hst := closeOpen_some ho
      subst hst
      rw [load_cons] at h1
      simp only [lineWt] at h1
      simp only [step, geomStep]
      by_cases hs : (GeoJsonWriter.beginText kd t).isSome = true
      · rw [if_pos hs] at h1 ⊢
        obtain ⟨w', h3, h4, h5⟩ := endContext_ok
          (w := { w with inner := w.inner.geomStep fmt.f64 (.gend kd t i) }) (by show w.contexts ≠ 0; omega)
        refine ⟨w', h3, ?_, by rw [h5]; exact hd _⟩
        rw [h4]; show _ ≤ w.contexts - 1; omega
      · rw [if_neg hs] at h1 ⊢
        exact ⟨w, rfl, by omega, h2⟩

end GeoJsonLineWriter
end Geozero
