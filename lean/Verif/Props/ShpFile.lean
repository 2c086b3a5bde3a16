import Verif.Spec.ShpFile
import Verif.Props.Shp
/-!
C42 for whole files: when iterating over shapes or features and reading an index file panic.
-/
namespace Geozero
open Spec Prog

/-- Running a program against a processor does not panic, and its result and the rest of the input satisfy `R`. -/
private def Safe {α σ : Type} (P : FProc σ) (p : FProg α) (bs : List Byte) (R : α → List Byte → Prop) : Prop :=
  ∀ s, match (FProg.interp P p s bs).2.2 with
    | .ok (a, rest) => R a rest
    | .error e => e.isPanic = false

private theorem Safe.bind {α β σ : Type} {P : FProc σ} {p : FProg α} {f : α → FProg β} {bs : List Byte} {R : α → List Byte → Prop}
    {S : β → List Byte → Prop} (hp : Safe P p bs R) (hf : ∀ a rest, R a rest → Safe P (f a) rest S) : Safe P (FProg.bind p f) bs S := by
  intro s
  have h := hp s
  rw [FProg.interp_bind]
  rcases hr : FProg.interp P p s bs with ⟨s', evs, r⟩
  rw [hr] at h
  cases r with
  | error e => exact h
  | ok ab => exact hf ab.1 ab.2 h s'

private theorem Safe.ret {α σ : Type} {P : FProc σ} {a : α} {bs : List Byte} {R : α → List Byte → Prop} (h : R a bs) :
    Safe P (.ret a) bs R := fun _ => h

private theorem Safe.fail {α σ : Type} {P : FProc σ} {e : Err} {bs : List Byte} {R : α → List Byte → Prop} (h : e.isPanic = false) :
    Safe P (.fail e) bs R := fun _ => h

private theorem Safe.of_dec {α σ : Type} {P : FProc σ} {p : Prog α} {bs : List Byte} {R : α → List Byte → Prop}
    (h : ∀ multi, Dec (fun e => e.isPanic = false) multi p bs R) : Safe P (FProg.lift p) bs R := by
  intro s
  have hd := h (P.multi s)
  unfold Dec at hd
  rcases hr : Prog.run (P.multi s) p bs with ⟨evs, r⟩
  rw [hr] at hd
  cases r with
  | error e =>
    obtain ⟨rfl, he⟩ := hd
    rw [FProg.interp_lift_silent P _ s bs _ hr]
    exact he
  | ok ab =>
    obtain ⟨rfl, he⟩ := hd
    rw [FProg.interp_lift_silent P _ s bs _ hr]
    exact he


private theorem Safe.callOk {σ : Type} {P : FProc σ} (hP : ∀ s e x, P.step s e = .error x → x.isPanic = false) (e : FEv)
    {bs : List Byte} {R : Unit → List Byte → Prop} (h : R () bs) : Safe P (callOk e) bs R := by
  intro s
  unfold Geozero.callOk
  rw [FProg.interp]
  cases hs : P.step s e with
  | error x => simp only [hP _ _ _ hs, Bool.false_eq_true, if_false]; exact h
  | ok s' => exact h

private theorem Safe.properties {σ : Type} {P : FProc σ} (hP : ∀ s e x, P.step s e = .error x → x.isPanic = false) (row : ShpRow) (i : Nat)
    {bs : List Byte} {R : Bool → List Byte → Prop} (h : ∀ b, R b bs) : Safe P (shapeRecordLoop i row) bs R := by
  induction row generalizing i with
  | nil => exact fun _ => h _
  | cons f row ih =>
    obtain ⟨n, v⟩ := f
    unfold shapeRecordLoop
    cases hv : v.column with
    | none => exact ih i
    | some c =>
      intro s
      simp only [FProg.interp]
      cases hst : P.step s (.prop i n c) with
      | error x => exact hP _ _ _ hst
      | ok s' =>
        simp only
        cases P.abort s (.prop i n c) with
        | true => exact h _
        | false => exact ih (i + 1) s'

/-- What reading a record tells, whatever the bytes and the processor. -/
private theorem Safe.shape {σ : Type} (ar : ShpArith) {P : FProc σ} (hP : ∀ s e x, P.step s e = .error x → x.isPanic = false)
    (bs : List Byte) (hs : SaneRecord bs) :
    Safe P (readShape ar) bs fun words rest => 12 ≤ bs.length ∧ words = i32At .be 4 bs ∧
      (i32At .le 8 bs ≠ 0 → ∃ n : Nat, words = n ∧ rest = bs.drop (8 + 2 * n)) ∧
      (i32At .le 8 bs = 0 → rest = bs.drop 12) := by
  intro s
  rcases hr : (FProg.interp P (readShape ar) s bs).2.2 with e | ⟨words, rest⟩
  · exact C42_no_panic_partial ar P hP s bs hs e hr
  · obtain ⟨h1, h2, h3, h4⟩ := C42_declared_size_partial ar P s bs words rest hr
    exact ⟨h1, h2, fun h => by obtain ⟨n, a, -, b⟩ := h3 h; exact ⟨n, a, b⟩, h4⟩

private theorem Safe.advance {σ : Type} {P : FProc σ} {pos : Nat} {words : Int} {bs : List Byte} {R : Nat → List Byte → Prop}
    (h1 : 0 ≤ words) (h2 : words < 2 ^ 30) (h : ∀ n, R n bs) : Safe P (FProg.lift (advance pos words)) bs R := by
  refine Safe.of_dec fun multi => ?_
  unfold Geozero.advance
  refine Dec.bind (R := fun _ rest => rest = bs) (Dec.usizeOk (fun hn => ?_) fun _ => rfl) fun n rest hr => Dec.ret (by subst hr; exact h _)
  exfalso
  unfold i32AsUsize at hn
  omega

theorem dec_header (multi : Bool) (bs : List Byte) :
    Dec (fun e => e.isPanic = false) multi readShpHeader bs
      (fun h rest => h.fileLength = i32At .be 24 bs ∧ rest = bs.drop 100 ∧ HeaderAccepted bs) := by
  unfold readShpHeader readShpType
  refine Dec.bind (R := fun v rest => v = i32At .be 0 bs ∧ rest = bs.drop 4) (Dec.readI32 (F := fun e => e.isPanic = false) rfl fun _ => ⟨rfl, rfl⟩)
    fun c rest h => ?_
  obtain ⟨rfl, rfl⟩ := h
  split
  · exact Dec.fail rfl
  · rename_i hc
    refine Dec.bind (R := fun _ rest => rest = bs.drop 24) (Dec.readN (F := fun e => e.isPanic = false) rfl fun _ => by rw [List.drop_drop])
      fun _ rest h => ?_
    subst h
    refine Dec.bind (R := fun v rest => v = i32At .be 24 bs ∧ rest = bs.drop 28)
      (Dec.readI32 (F := fun e => e.isPanic = false) rfl fun _ => ⟨by rw [i32At_drop], by rw [List.drop_drop]⟩) fun _ rest h => ?_
    obtain ⟨rfl, rfl⟩ := h
    refine Dec.bind (R := fun v rest => rest = bs.drop 32)
      (Dec.readI32 (F := fun e => e.isPanic = false) rfl fun _ => by rw [List.drop_drop]) fun _ rest h => ?_
    subst h
    refine Dec.bind (R := fun v rest => i32At .le 32 bs ∈ ([0, 1, 3, 5, 8, 11, 13, 15, 18, 21, 23, 25, 28, 31] : List Int) ∧ rest = bs.drop 36)
      ?_ fun _ rest h => ?_
    · refine Dec.bind (R := fun v rest => v = i32At .le 32 bs ∧ rest = bs.drop 36)
        (Dec.readI32 (F := fun e => e.isPanic = false) rfl fun _ => ⟨by rw [i32At_drop], by rw [List.drop_drop]⟩) fun v rest h => ?_
      obtain ⟨rfl, rfl⟩ := h
      cases ht : ShpType.fromCode (i32At .le 32 bs) with
      | none => exact Dec.fail rfl
      | some t => exact Dec.ret ⟨by rw [ShpType.fromCode_code ht]; cases t <;> decide, rfl⟩
    · obtain ⟨ht, rfl⟩ := h
      refine Dec.bind (R := fun _ rest => rest = bs.drop 100 ∧ 100 ≤ bs.length)
        (Dec.readF64List (F := fun e => e.isPanic = false) rfl fun _ _ h8 => ⟨by rw [List.drop_drop], by rw [List.length_drop] at h8; omega⟩)
        fun _ rest h => ?_
      obtain ⟨rfl, hl⟩ := h
      exact Dec.ret ⟨rfl, rfl, hl, Decidable.not_not.mp hc, ht⟩

private theorem safe_header {α σ : Type} {P : FProc σ} (bs : List Byte) (f : Int → FProg α)
    (hw : HeaderAccepted bs → -(2 ^ 30) ≤ i32At .be 24 bs ∧ i32At .be 24 bs < 2 ^ 30) {R : α → List Byte → Prop}
    (hf : ∀ len, Safe P (f len) (bs.drop 100) R) :
    Safe P (FProg.bind (FProg.lift readShpHeader) fun h => FProg.bind (FProg.lift (doubleI32 h.fileLength)) f) bs R := by
  refine Safe.bind (Safe.of_dec fun multi => dec_header multi bs) fun h rest hh => ?_
  obtain ⟨hl, rfl, ha⟩ := hh
  obtain ⟨h1, h2⟩ := hw ha
  refine Safe.bind (R := fun _ rest => rest = bs.drop 100) (Safe.of_dec fun multi => ?_) fun len rest hr => by subst hr; exact hf len
  unfold doubleI32
  rw [hl, if_pos (by omega)]
  exact Dec.ret rfl

private theorem next_at {bs : List Byte} {k : Nat} (hk : RecordAt bs k) {words : Int} {rest : List Byte}
    (h : 12 ≤ (bs.drop k).length ∧ words = i32At .be 4 (bs.drop k) ∧
      (i32At .le 8 (bs.drop k) ≠ 0 → ∃ n : Nat, words = n ∧ rest = (bs.drop k).drop (8 + 2 * n)) ∧
      (i32At .le 8 (bs.drop k) = 0 → rest = (bs.drop k).drop 12)) : ∃ k', RecordAt bs k' ∧ rest = bs.drop k' := by
  obtain ⟨-, hw, h1, h2⟩ := h
  rw [i32At_drop] at hw h1 h2
  by_cases ht : i32At .le (k + 8) bs = 0
  · exact ⟨_, .afterNull k hk ht, by rw [h2 ht, List.drop_drop]⟩
  · obtain ⟨n, hn, hr⟩ := h1 ht
    exact ⟨_, .afterShape k n hk ht (hw ▸ hn), by rw [hr, List.drop_drop, Nat.add_assoc]⟩

private theorem safe_shapes {σ : Type} (ar : ShpArith) {P : FProc σ} (hP : ∀ s e x, P.step s e = .error x → x.isPanic = false)
    (bs : List Byte) (hs : ∀ k, RecordAt bs k → SaneRecord (bs.drop k)) (len n pos k : Nat) (hk : RecordAt bs k) :
    Safe P (shapesLoop ar len n pos) (bs.drop k) fun _ _ => True := by
  induction n generalizing pos k with
  | zero => exact Safe.fail rfl
  | succ n ih =>
    unfold shapesLoop shapeNext
    refine Safe.bind (R := fun r rest => r = none ∨ ∃ k', RecordAt bs k' ∧ rest = bs.drop k') ?_ fun r rest h => ?_
    · split
      · exact Safe.ret (Or.inl rfl)
      · refine Safe.bind (Safe.shape ar hP _ (hs k hk)) fun words rest h => ?_
        obtain ⟨k', hk', hr⟩ := next_at hk h
        have hsz := (hs k hk).size (by omega)
        refine Safe.bind (R := fun _ r => r = rest) (Safe.advance (by omega) (by omega) fun _ => rfl) fun pos r h => ?_
        subst h
        exact Safe.ret (Or.inr ⟨k', hk', hr⟩)
    · cases r with
      | none => exact Safe.ret trivial
      | some p =>
        obtain ⟨k', hk', rfl⟩ := h.resolve_left (by simp)
        exact ih p k' hk'

private theorem safe_features {σ : Type} (ar : ShpArith) {P : FProc σ} (hP : ∀ s e x, P.step s e = .error x → x.isPanic = false)
    (bs : List Byte) (hs : ∀ k, RecordAt bs k → SaneRecord (bs.drop k)) (len n : Nat) (st : ShpIter) (k : Nat) (hk : RecordAt bs k)
    (hrows : ∀ e, .error e ∈ st.rows → e.isPanic = false) :
    Safe P (featuresLoop ar len n st) (bs.drop k) fun _ _ => True := by
  induction n generalizing st k with
  | zero => exact Safe.fail rfl
  | succ n ih =>
    obtain ⟨featno, pos, rows⟩ := st
    simp only at hrows
    unfold featuresLoop featureNext
    refine Safe.bind (R := fun r rest => r = none ∨ ∃ st, r = some st ∧ (∀ e, .error e ∈ st.rows → e.isPanic = false) ∧
        ∃ k', RecordAt bs k' ∧ rest = bs.drop k') ?_ fun r rest h => ?_
    · refine Safe.bind (R := fun _ rest => rest = bs.drop k) ?_ fun _ rest hr => ?_
      · unfold shpDatasetBegin
        split
        · exact Safe.callOk hP (.dsBegin none) rfl
        · exact Safe.ret rfl
      · subst hr
        split
        · exact Safe.bind (R := fun _ _ => True) (Safe.callOk hP _ trivial) fun _ _ _ => Safe.ret (Or.inl rfl)
        · cases rows with
          | nil => exact Safe.bind (R := fun _ _ => True) (Safe.callOk hP _ trivial) fun _ _ _ => Safe.ret (Or.inl rfl)
          | cons row rows =>
            cases row with
            | error e => exact Safe.fail (hrows e (by simp))
            | ok row =>
              refine Safe.bind (R := fun _ rest => ∃ k', RecordAt bs k' ∧ rest = bs.drop k') ?_ fun pos rest h =>
                Safe.ret (Or.inr ⟨_, rfl, fun e he => hrows e (by simp [he]), h⟩)
              unfold shpFeature
              refine Safe.bind (R := fun _ rest => rest = bs.drop k) (Safe.callOk hP _ rfl) fun _ rest hr => ?_
              subst hr
              refine Safe.bind (R := fun _ rest => rest = bs.drop k) (Safe.callOk hP _ rfl) fun _ rest hr => ?_
              subst hr
              refine Safe.bind (R := fun _ rest => rest = bs.drop k) (Safe.properties hP row 0 fun _ => rfl) fun _ rest hr => ?_
              subst hr
              refine Safe.bind (R := fun _ rest => rest = bs.drop k) (Safe.callOk hP _ rfl) fun _ rest hr => ?_
              subst hr
              refine Safe.bind (R := fun _ rest => rest = bs.drop k) (Safe.callOk hP _ rfl) fun _ rest hr => ?_
              subst hr
              refine Safe.bind (Safe.shape ar hP _ (hs k hk)) fun words rest h => ?_
              obtain ⟨k', hk', hr⟩ := next_at hk h
              have hsz := (hs k hk).size (by omega)
              refine Safe.bind (R := fun _ r => r = rest) (Safe.advance (by omega) (by omega) fun _ => rfl) fun pos r h => ?_
              subst h
              refine Safe.bind (R := fun _ rest => rest = r) (Safe.callOk hP _ rfl) fun _ rest hr => ?_
              subst hr
              refine Safe.bind (R := fun _ r => r = rest) (Safe.callOk hP _ rfl) fun _ r h => ?_
              subst h
              exact Safe.ret ⟨k', hk', hr⟩
    · cases r with
      | none => exact Safe.ret trivial
      | some st' =>
        obtain ⟨st, hst, he, k', hk', rfl⟩ := h.resolve_left (by simp)
        cases hst
        exact ih st' k' hk' he

/-- Iterating over the shapes of a file does not panic, whatever the processor (one that does not itself panic), if the length in the header can
be doubled in an `i32` and every record the iteration comes to is sane.  Any other bytes, sizes that disagree, files cut off anywhere and
lengths that do not match the file are allowed.  Missing from the full property: records that are not sane. -/
theorem C42_iterate_shapes_partial {σ : Type} (ar : ShpArith) (P : FProc σ)
    (hP : ∀ s e x, P.step s e = .error x → x.isPanic = false) (s : σ) (bs : List Byte)
    (hw : HeaderAccepted bs → -(2 ^ 30) ≤ i32At .be 24 bs ∧ i32At .be 24 bs < 2 ^ 30)
    (hs : ∀ k, RecordAt bs k → SaneRecord (bs.drop k)) (x : Err)
    (h : (FProg.interp P (shpGeometries ar) s bs).2.2 = .error x) : x.isPanic = false := by
  have := safe_header (P := P) bs (fun len => shapesLoop ar (i32AsUsize len) (i32AsUsize len + 1) 100) hw
    (R := fun _ _ => True) (fun len => safe_shapes ar hP bs hs _ _ _ 100 .first) s
  unfold shpGeometries at h
  rw [h] at this
  exact this

/-- The same for iterating over features, with any attribute rows. -/
theorem C42_iterate_features_partial {σ : Type} (ar : ShpArith) (P : FProc σ)
    (hP : ∀ s e x, P.step s e = .error x → x.isPanic = false) (s : σ) (bs : List Byte) (rows : List (Except Err ShpRow))
    (hrows : ∀ e, .error e ∈ rows → e.isPanic = false)
    (hw : HeaderAccepted bs → -(2 ^ 30) ≤ i32At .be 24 bs ∧ i32At .be 24 bs < 2 ^ 30)
    (hs : ∀ k, RecordAt bs k → SaneRecord (bs.drop k)) (x : Err)
    (h : (FProg.interp P (shpFeatures ar rows) s bs).2.2 = .error x) : x.isPanic = false := by
  have := safe_header (P := P) bs (fun len => featuresLoop ar (i32AsUsize len) (rows.length + 1) { featno := 0, pos := 100, rows }) hw
    (R := fun _ _ => True) (fun len => safe_features ar hP bs hs _ _ _ 100 .first hrows) s
  unfold shpFeatures at h
  rw [h] at this
  exact this

private theorem sane_nil : SaneRecord [] :=
  ⟨fun h => absurd h (by decide), fun h => absurd h (by decide), fun h => absurd h (by decide), fun n h => absurd h (by decide)⟩

/-- a file with one point record, cut off inside the point, whose header announces much more -/
def exCutFile : List Byte :=
  EsriHeader 5000 1000 5 (List.replicate 20 0) (List.replicate 8 0#64) ++ exHead 10 1 ++ List.replicate 7 255

example : (HeaderAccepted exCutFile → -(2 ^ 30) ≤ i32At .be 24 exCutFile ∧ i32At .be 24 exCutFile < 2 ^ 30) ∧ HeaderAccepted exCutFile ∧
    ∀ k, RecordAt exCutFile k → SaneRecord (exCutFile.drop k) := by
  refine ⟨fun _ => by decide +kernel, ⟨by decide +kernel, by decide +kernel, by decide +kernel⟩, ?_⟩
  intro k hk
  have h : k = 100 ∨ 128 ≤ k := by
    induction hk with
    | first => exact Or.inl rfl
    | afterNull k _ ht ih =>
      rcases ih with rfl | h
      · exact absurd ht (by decide +kernel)
      · omega
    | afterShape k n _ ht hn ih =>
      rcases ih with rfl | h
      · have : i32At .be (100 + 4) exCutFile = 10 := by decide +kernel
        omega
      · omega
  rcases h with rfl | h
  · refine ⟨fun _ => by decide +kernel, fun h => absurd h (by decide +kernel), fun h => absurd h (by decide +kernel), fun n h => absurd h (by decide +kernel)⟩
  · rw [List.drop_eq_nil_of_le (Nat.le_trans (by decide +kernel : exCutFile.length ≤ 128) h)]
    exact sane_nil

/-- reading succeeds, without calls -/
private def Reads {α : Type} (multi : Bool) (p : Prog α) (bs : List Byte) (R : α → List Byte → Prop) : Prop :=
  ∃ a rest, run multi p bs = ([], .ok (a, rest)) ∧ R a rest

private theorem Reads.bind {α β : Type} {multi : Bool} {p : Prog α} {f : α → Prog β} {bs : List Byte} {R : α → List Byte → Prop}
    {S : β → List Byte → Prop} (hp : Reads multi p bs R) (hf : ∀ a rest, R a rest → Reads multi (f a) rest S) :
    Reads multi (Prog.bind p f) bs S := by
  obtain ⟨a, rest, h, hr⟩ := hp
  obtain ⟨b, rest', h', hs⟩ := hf a rest hr
  exact ⟨b, rest', by rw [run_bind_ok_nil h, h'], hs⟩

private theorem Reads.ret {α : Type} {multi : Bool} {a : α} {bs : List Byte} {R : α → List Byte → Prop} (h : R a bs) :
    Reads multi (.ret a) bs R := ⟨a, bs, rfl, h⟩

private theorem Reads.readN {multi : Bool} {n : Nat} {bs : List Byte} {R : List Byte → List Byte → Prop} (hn : n ≤ bs.length)
    (h : R (bs.take n) (bs.drop n)) : Reads multi (readN n) bs R :=
  ⟨_, _, by rw [run_readN_any, if_pos hn], h⟩

private theorem Reads.readI32 {multi : Bool} {e : Endian} {bs : List Byte} {R : Int → List Byte → Prop} (hn : 4 ≤ bs.length)
    (h : R (i32At e 0 bs) (bs.drop 4)) : Reads multi (readI32 e) bs R :=
  Reads.bind (R := fun v rest => v = bs.take 4 ∧ rest = bs.drop 4) (Reads.readN hn ⟨rfl, rfl⟩)
    fun v rest ⟨hv, hr⟩ => Reads.ret (by subst hv; subst hr; exact h)

private theorem Reads.readF64List {multi : Bool} {n : Nat} {bs : List Byte} {R : List F64 → List Byte → Prop} (hn : 8 * n ≤ bs.length)
    (h : ∀ vs, R vs (bs.drop (8 * n))) : Reads multi (readF64List n) bs R := by
  induction n generalizing bs R with
  | zero => exact Reads.ret (by simpa using h [])
  | succ n ih =>
    unfold Geozero.readF64List
    refine Reads.bind (R := fun _ rest => rest = bs.drop 8) ?_ fun x rest hr => ?_
    · exact Reads.bind (R := fun _ rest => rest = bs.drop 8) (Reads.readN (by omega) rfl) fun _ _ hr => Reads.ret hr
    · subst hr
      refine Reads.bind (R := fun _ rest => rest = bs.drop (8 * (n + 1))) ?_ fun xs rest hr => Reads.ret (by subst hr; exact h _)
      exact ih (by rw [List.length_drop]; omega) fun vs => by rw [List.drop_drop]; congr 1; omega

/-- An accepted header is read, up to its end. -/
theorem reads_header (multi : Bool) (bs : List Byte) (h : HeaderAccepted bs) :
    Reads multi readShpHeader bs fun h rest => h.fileLength = i32At .be 24 bs ∧ rest = bs.drop 100 := by
  obtain ⟨hl, hc, ht⟩ := h
  unfold readShpHeader readShpType
  refine Reads.bind (R := fun v rest => v = i32At .be 0 bs ∧ rest = bs.drop 4) (Reads.readI32 (by omega) ⟨rfl, rfl⟩) fun c rest h => ?_
  obtain ⟨rfl, rfl⟩ := h
  rw [if_neg (by simp [hc])]
  refine Reads.bind (R := fun _ rest => rest = bs.drop 24)
    (Reads.readN (by rw [List.length_drop]; omega) (by rw [List.drop_drop])) fun _ rest h => ?_
  subst h
  refine Reads.bind (R := fun v rest => v = i32At .be 24 bs ∧ rest = bs.drop 28)
    (Reads.readI32 (by rw [List.length_drop]; omega) ⟨by rw [i32At_drop], by rw [List.drop_drop]⟩) fun _ rest h => ?_
  obtain ⟨rfl, rfl⟩ := h
  refine Reads.bind (R := fun _ rest => rest = bs.drop 32)
    (Reads.readI32 (by rw [List.length_drop]; omega) (by rw [List.drop_drop])) fun _ rest h => ?_
  subst h
  refine Reads.bind (R := fun _ rest => rest = bs.drop 36) ?_ fun _ rest h => ?_
  · refine Reads.bind (R := fun v rest => v = i32At .le 32 bs ∧ rest = bs.drop 36)
      (Reads.readI32 (by rw [List.length_drop]; omega) ⟨by rw [i32At_drop], by rw [List.drop_drop]⟩) fun v rest h => ?_
    obtain ⟨rfl, rfl⟩ := h
    obtain ⟨t, ht⟩ : ∃ t, ShpType.fromCode (i32At .le 32 bs) = some t := by
      generalize i32At .le 32 bs = c at ht
      simp only [List.mem_cons, List.not_mem_nil, or_false] at ht
      rcases ht with rfl | rfl | rfl | rfl | rfl | rfl | rfl | rfl | rfl | rfl | rfl | rfl | rfl | rfl <;> exact ⟨_, rfl⟩
    rw [ht]
    exact Reads.ret rfl
  · subst h
    refine Reads.bind (R := fun _ rest => rest = bs.drop 100)
      (Reads.readF64List (by rw [List.length_drop]; omega) fun _ => by rw [List.drop_drop]) fun _ rest h => Reads.ret ⟨rfl, h⟩

/-- A header is accepted if and only if it is 100 bytes long, has the file code 9994 and a known shape type.  The announced length, the version
and the extent do not matter. -/
theorem C42_header_accepted_iff (multi : Bool) (bs : List Byte) :
    (∃ h rest, run multi readShpHeader bs = ([], .ok (h, rest))) ↔ HeaderAccepted bs := by
  constructor
  · rintro ⟨h, rest, hr⟩
    have := dec_header multi bs
    unfold Dec at this
    rw [hr] at this
    exact this.2.2.2
  · intro h
    obtain ⟨a, rest, hr, -⟩ := reads_header multi bs h
    exact ⟨a, rest, hr⟩

example : HeaderAccepted exCutFile ∧ ¬ HeaderAccepted (exCutFile.take 99) :=
  ⟨⟨by decide +kernel, by decide +kernel, by decide +kernel⟩, fun h => absurd h.1 (by decide +kernel)⟩

/-- Every file whose header is accepted but announces a length that cannot be doubled makes both iterations panic, whatever follows. -/
theorem C42_file_length_panics (ar : ShpArith) (env : FProg.Env) (bs : List Byte) (rows : List (Except Err ShpRow)) (ha : HeaderAccepted bs)
    (hw : 2 ^ 30 ≤ i32At .be 24 bs ∨ i32At .be 24 bs < -(2 ^ 30)) :
    panics (FProg.run env (shpGeometries ar) bs) = true ∧ panics (FProg.run env (shpFeatures ar rows) bs) = true := by
  obtain ⟨h, rest, hr, hl, rfl⟩ := reads_header env.multi bs ha
  have key : ∀ {α : Type} (f : Int → FProg α), panics (FProg.run env
      (FProg.bind (FProg.lift readShpHeader) fun h => FProg.bind (FProg.lift (doubleI32 h.fileLength)) f) bs) = true := by
    intro α f
    have hd : FProg.run env (FProg.bind (FProg.lift (doubleI32 h.fileLength)) f) (bs.drop 100) =
        ([], .error (.panic "attempt to multiply with overflow")) := by
      refine FProg.run_bind_err ?_
      rw [FProg.run_lift]
      unfold doubleI32
      rw [hl, if_neg (by omega)]
      rfl
    have hb : FProg.run env (FProg.bind (FProg.lift readShpHeader) fun h => FProg.bind (FProg.lift (doubleI32 h.fileLength)) f) bs =
        ([], .error (.panic "attempt to multiply with overflow")) := by
      rw [FProg.run_bind, FProg.run_lift, hr]
      simp only [List.map_nil, FProg.andThen]
      rw [hd]
      rfl
    rw [hb]
    rfl
  exact ⟨key _, key _⟩

private theorem tdiv8 (a : Int) (h : -(2 ^ 31) ≤ a) (h' : a < 2 ^ 31) :
    (-8 < a → 0 ≤ a.tdiv 8 ∧ a.tdiv 8 < 2 ^ 31) ∧ (a ≤ -8 → -(2 ^ 31) ≤ a.tdiv 8 ∧ a.tdiv 8 < 0) := by
  by_cases h0 : 0 ≤ a
  · rw [Int.tdiv_eq_ediv_of_nonneg h0]
    omega
  · obtain ⟨b, rfl⟩ : ∃ b, a = -b := ⟨-a, by omega⟩
    rw [Int.neg_tdiv, Int.tdiv_eq_ediv_of_nonneg (by omega)]
    omega

/-- When reading an index file panics, exactly: the header is accepted and the length in it is less than 47 words, or cannot be doubled. -/
theorem C42_index_panics_iff (multi : Bool) (bs : List Byte) :
    (∃ m, (run multi readIndexFile bs).2 = .error (.panic m)) ↔
      HeaderAccepted bs ∧ (i32At .be 24 bs < 47 ∨ 2 ^ 30 ≤ i32At .be 24 bs) := by
  have hent : ∀ n bs, Dec (fun e => e.isPanic = false) multi (readIndexEntries n) bs (fun _ _ => True) := by
    intro n
    induction n with
    | zero => exact fun bs => Dec.ret trivial
    | succ n ih =>
      intro bs
      unfold readIndexEntries
      refine Dec.bind (R := fun _ _ => True) (Dec.readI32 (F := fun e => e.isPanic = false) rfl fun _ => trivial) fun _ rest _ => ?_
      refine Dec.bind (R := fun _ _ => True) (Dec.readI32 (F := fun e => e.isPanic = false) rfl fun _ => trivial) fun _ rest _ => ?_
      exact Dec.bind (ih rest) fun _ _ _ => Dec.ret trivial
  constructor
  · rintro ⟨m, hm⟩
    apply Classical.byContradiction
    intro hno
    have hd : Dec (fun e => e.isPanic = false) multi readIndexFile bs (fun _ _ => True) := by
      unfold readIndexFile
      refine Dec.bind (dec_header multi bs) fun h rest hh => ?_
      obtain ⟨hl, -, ha⟩ := hh
      have hw : 47 ≤ i32At .be 24 bs ∧ i32At .be 24 bs < 2 ^ 30 := by
        constructor <;> apply Classical.byContradiction <;> intro hc <;> exact hno ⟨ha, by omega⟩
      refine Dec.bind (R := fun len _ => len = i32At .be 24 bs * 2) ?_ fun len rest hlen => ?_
      · unfold doubleI32
        rw [hl, if_pos (by omega)]
        exact Dec.ret rfl
      · subst hlen
        simp only
        have h0 : 0 ≤ (i32At .be 24 bs * 2 - 100).tdiv 8 ∧ (i32At .be 24 bs * 2 - 100).tdiv 8 < 2 ^ 31 :=
          (tdiv8 _ (by omega) (by omega)).1 (by omega)
        rw [if_neg (by omega), if_neg (by unfold i32AsUsize; omega)]
        exact hent _ _
    unfold Dec at hd
    rcases hr : run multi readIndexFile bs with ⟨evs, r⟩
    rw [hr] at hd hm
    cases hm
    exact absurd hd.2 (by simp [Err.isPanic])
  · rintro ⟨ha, hw⟩
    obtain ⟨h, rest, hr, hl, rfl⟩ := reads_header multi bs ha
    unfold readIndexFile
    simp only [bind_eq]
    rw [run_bind_ok_nil hr]
    have hrange := i32At_range .be 24 bs
    unfold isI32 at hrange
    unfold doubleI32
    rw [hl]
    by_cases hd : -(2 ^ 31) ≤ i32At .be 24 bs * 2 ∧ i32At .be 24 bs * 2 < 2 ^ 31
    · rw [if_pos hd]
      simp only [ret_bind]
      by_cases h1 : i32At .be 24 bs * 2 - 100 < -(2 ^ 31)
      · rw [if_pos h1]; exact ⟨_, rfl⟩
      · have h2 := (tdiv8 (i32At .be 24 bs * 2 - 100) (by omega) (by omega)).2 (by omega)
        rw [if_neg h1, if_pos (by unfold i32AsUsize; omega)]
        exact ⟨_, rfl⟩
    · rw [if_neg hd]
      exact ⟨_, rfl⟩

example : HeaderAccepted (EsriHeader 46 1000 1 (List.replicate 20 0) (List.replicate 8 0#64)) ∧
    i32At .be 24 (EsriHeader 46 1000 1 (List.replicate 20 0) (List.replicate 8 0#64)) = 46 ∧
    HeaderAccepted (EsriHeader (2 ^ 30) 1000 1 (List.replicate 20 0) (List.replicate 8 0#64)) ∧
    i32At .be 24 (EsriHeader (2 ^ 30) 1000 1 (List.replicate 20 0) (List.replicate 8 0#64)) = 2 ^ 30 :=
  ⟨⟨by decide +kernel, by decide +kernel, by decide +kernel⟩, by decide +kernel,
    ⟨by decide +kernel, by decide +kernel, by decide +kernel⟩, by decide +kernel⟩

end Geozero
