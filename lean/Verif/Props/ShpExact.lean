import Verif.Lemmas.ShpAccept
import Verif.Props.ShpFile

/-!
C42: exactly which shapefile records and files make the reader panic, and which records it accepts.
-/

namespace Geozero
open Spec

/-- Reading a record panics only if the record is one of `RecordPanics`: whatever its bytes, where it is cut off, and whatever
the processor (one that does not itself panic) answers. -/
theorem C42_panics_only_if {σ : Type} (ar : ShpArith) (P : FProc σ)
    (hP : ∀ s e x, P.step s e = .error x → x.isPanic = false) (s : σ) (bs : List Byte) (x : Err)
    (h : (FProg.interp P (readShape ar) s bs).2.2 = .error x) (hx : x.isPanic = true) : RecordPanics bs := by
  obtain ⟨r, hr, hm⟩ := record_exact (P.multi s) bs
  unfold readShape at h
  rw [FProg.interp_bind, FProg.interp_lift_silent P _ s bs _ hr] at h
  cases r with
  | error e =>
    cases h
    exact hm.mp hx
  | ok ab =>
    obtain ⟨⟨w, sh⟩, rest⟩ := ab
    obtain ⟨-, hg, -⟩ := hm
    rcases hg with hg | hg
    · exact hg
    · have hn : FProg.NoPanic (FProg.bind (sh.process ar) fun _ => .ret w) := (noPanic_process ar sh hg).bind fun _ => trivial
      have := hn.sound P hP s rest x h
      rw [this] at hx; cases hx

/-- With a processor whose calls do not fail, reading a record panics exactly on the records of `RecordPanics`. -/
theorem C42_panics_iff {σ : Type} (ar : ShpArith) (P : FProc σ) (hP : ∀ s e, ∃ s', P.step s e = .ok s') (s : σ) (bs : List Byte) :
    (∃ x, (FProg.interp P (readShape ar) s bs).2.2 = .error x ∧ x.isPanic = true) ↔ RecordPanics bs := by
  refine ⟨fun ⟨x, h, hx⟩ => C42_panics_only_if ar P (fun s e x h => ?_) s bs x h hx, fun hp => ?_⟩
  · obtain ⟨s', hs⟩ := hP s e
    rw [hs] at h; cases h
  · obtain ⟨r, hr, hm⟩ := record_exact (P.multi s) bs
    unfold readShape
    rw [FProg.interp_bind, FProg.interp_lift_silent P _ s bs _ hr]
    cases r with
    | error e => exact ⟨e, rfl, hm.mpr hp⟩
    | ok ab =>
      obtain ⟨⟨w, sh⟩, rest⟩ := ab
      exact ((ends_bad ar sh (hm.2.2 hp)).bind_panic (f := fun _ => FProg.ret w)).sound P hP s rest

/-- Every sane record is outside `RecordPanics`: the sufficient condition used elsewhere is implied by the exact one. -/
theorem C42_sane_not_panics (bs : List Byte) (h : SaneRecord bs) : ¬ RecordPanics bs := by
  rintro ⟨h8, h1 | h1 | ⟨h12, -, h1 | h1 | h1 | h1 | h1⟩⟩
  · have := h.size h8; omega
  · have := h.size h8; omega
  · have := h.size h8; omega
  · have := h.size h8; omega
  · have := h.size h8; omega
  · rcases h1 with ⟨a, b, c⟩ | ⟨a, b, c⟩
    · have := h.points b a; omega
    · have := h.parts b a; omega
  · obtain ⟨ht, n, m, hn, hm, hsz, hl, hp⟩ := h1
    have : 52 + 4 * n ≤ bs.length := by
      have : 44 + 4 * (n : Int) ≤ 2 * i32At .be 4 bs := by omega
      omega
    exact hp (hm ▸ h.table n (by omega) ht hn this)

/-- a processor that accepts everything, and a polygon whose second part begins before the first: the panic is met -/
example : RecordPanics (exHead 34 5 ++ boxBytes exExtent ++ encI32 .le 2 ++ encI32 .le 1 ++
      encI32 .le 1 ++ encI32 .le 0 ++ f64Bytes [1#64, 2#64]) := by
  refine ⟨by decide +kernel, Or.inr (Or.inr ⟨by decide +kernel, by decide +kernel, Or.inr (Or.inr (Or.inr (Or.inr
    ⟨by decide +kernel, 2, 1, by decide +kernel, by decide +kernel, Or.inl (by decide +kernel), by decide +kernel, by decide +kernel⟩)))⟩)⟩

example : ¬ RecordPanics (exHead 34 5 ++ boxBytes exExtent ++ encI32 .le 2 ++ encI32 .le 1 ++
      encI32 .le 0 ++ encI32 .le 1 ++ f64Bytes [1#64, 2#64]) := by
  apply C42_sane_not_panics
  refine ⟨fun _ => by decide +kernel, fun _ h => absurd h (by decide +kernel), fun _ _ => by decide +kernel, ?_⟩
  intro n _ _ hn _
  have h2 : i32At .le 44 (exHead 34 5 ++ boxBytes exExtent ++ encI32 .le 2 ++ encI32 .le 1 ++
      encI32 .le 0 ++ encI32 .le 1 ++ f64Bytes [1#64, 2#64]) = (2 : Nat) := by decide +kernel
  rw [h2] at hn
  have : n = 2 := by omega
  subst this
  decide +kernel

/-- With a processor whose calls do not fail, exactly the records of `RecordAccepted` are read successfully; the others are errors, or panics
if they are in `RecordPanics`. -/
theorem C42_accepts_iff {σ : Type} (ar : ShpArith) (P : FProc σ) (hP : ∀ s e, ∃ s', P.step s e = .ok s') (s : σ) (bs : List Byte) :
    (∃ words rest, (FProg.interp P (readShape ar) s bs).2.2 = .ok (words, rest)) ↔ RecordAccepted bs := by
  obtain ⟨r, hr, hm⟩ := record_accept (P.multi s) bs
  have hpan := C42_panics_iff ar P hP s bs
  have hread : RecordAccepted bs ↔ ReadAccepted bs ∧ ¬ BadTable bs := by
    unfold RecordAccepted ReadAccepted
    constructor
    · rintro ⟨h1, h2, h3, h | ⟨h4, h5, h6, h7⟩⟩
      · exact ⟨⟨h1, h2, h3, Or.inl h⟩, fun hb => by have := hb.1; rw [h.1] at this; revert this; decide⟩
      · exact ⟨⟨h1, h2, h3, Or.inr ⟨h4, h5, h6⟩⟩, h7⟩
    · rintro ⟨⟨h1, h2, h3, h | ⟨h4, h5, h6⟩⟩, h7⟩
      · exact ⟨h1, h2, h3, Or.inl h⟩
      · exact ⟨h1, h2, h3, Or.inr ⟨h4, h5, h6, h7⟩⟩
  rw [hread]
  unfold readShape at hpan ⊢
  rw [FProg.interp_bind, FProg.interp_lift_silent P _ s bs _ hr] at hpan ⊢
  cases r with
  | error e =>
    constructor
    · rintro ⟨_, _, h⟩; cases h
    · rintro ⟨h, -⟩; exact absurd h hm
  | ok ab =>
    obtain ⟨⟨w, sh⟩, rest⟩ := ab
    simp only at hpan ⊢
    constructor
    · rintro ⟨w', rest', h⟩
      refine ⟨hm, fun hb => ?_⟩
      have hcodes : i32At .le 8 bs ∈ shapeCodes := by
        have := hb.1
        unfold shapeCodes
        simp only [List.mem_cons, List.not_mem_nil, or_false] at this ⊢
        omega
      obtain ⟨x, hx, -⟩ := hpan.mpr ⟨by have := hm.1; omega, Or.inr (Or.inr ⟨hm.1, hcodes, Or.inr (Or.inr (Or.inr (Or.inr hb)))⟩)⟩
      rw [h] at hx; cases hx
    · rintro ⟨-, hb⟩
      have hnp := accepted_not_panics hm hb
      cases hi : (FProg.interp P (FProg.bind (sh.process ar) fun _ => FProg.ret w) s rest).2.2 with
      | ok wr => exact ⟨wr.1, wr.2, rfl⟩
      | error x =>
        have ho : FProg.OnlyPanic (FProg.bind (sh.process ar) fun _ => FProg.ret w) := (onlyPanic_process ar sh).bind fun _ => trivial
        exact absurd (hpan.mp ⟨x, hi, ho.sound P hP s rest x hi⟩) hnp

example : RecordAccepted exItem.bytes := by
  refine ⟨by decide +kernel, by decide +kernel, by decide +kernel, Or.inr ⟨by decide +kernel, by decide +kernel, ?_, ?_⟩⟩
  · exact Or.inr (Or.inr (Or.inr (Or.inr (Or.inr ⟨by decide +kernel, 2, 8, by decide +kernel, by decide +kernel, by decide +kernel⟩))))
  · rintro ⟨-, n, m, hn, hm, -, -, hp⟩
    have h2 : i32At .le 44 exItem.bytes = (2 : Nat) := by decide +kernel
    have h8 : i32At .le 48 exItem.bytes = (8 : Nat) := by decide +kernel
    rw [h2] at hn; rw [h8] at hm
    have : n = 2 := by omega
    have : m = 8 := by omega
    subst n m
    revert hp
    decide +kernel

/-! ### whole files -/

private def Pan {α σ : Type} (P : FProc σ) (p : FProg α) (s : σ) (bs : List Byte) : Prop :=
  ∃ x, (FProg.interp P p s bs).2.2 = .error x ∧ x.isPanic = true

private theorem Pan.bind_ok {α β σ : Type} {P : FProc σ} {p : FProg α} {f : α → FProg β} {s : σ} {bs : List Byte} {a : α}
    {rest : List Byte} (h : (FProg.interp P p s bs).2.2 = .ok (a, rest)) :
    Pan P (FProg.bind p f) s bs ↔ Pan P (f a) (FProg.interp P p s bs).1 rest := by
  unfold Pan
  rw [FProg.interp_bind]
  rcases hi : FProg.interp P p s bs with ⟨s', evs, r⟩
  rw [hi] at h
  simp only at h
  subst h
  rfl

private theorem Pan.bind_error {α β σ : Type} {P : FProc σ} {p : FProg α} {f : α → FProg β} {s : σ} {bs : List Byte} {x : Err}
    (h : (FProg.interp P p s bs).2.2 = .error x) : Pan P (FProg.bind p f) s bs ↔ x.isPanic = true := by
  unfold Pan
  rw [FProg.interp_bind]
  rcases hi : FProg.interp P p s bs with ⟨s', evs, r⟩
  rw [hi] at h
  simp only at h
  subst h
  constructor
  · rintro ⟨y, hy, h⟩; cases hy; exact h
  · exact fun h => ⟨x, rfl, h⟩

private theorem Reaches.prefix {bs : List Byte} {len j k' pos' : Nat} (h : Reaches bs len j k' pos') (i : Nat) (hi : i < j) :
    ∃ k pos, Reaches bs len i k pos ∧ pos < len ∧ RecordAccepted (bs.drop k) ∧ 0 ≤ i32At .be (k + 4) bs := by
  induction h with
  | first => omega
  | afterNull j k pos n hr hp ha hn ht ih =>
    by_cases h : i < j
    · exact ih h
    · have : i = j := by omega
      subst this
      exact ⟨k, pos, hr, hp, ha, by omega⟩
  | afterShape j k pos n hr hp ha hn ht ih =>
    by_cases h : i < j
    · exact ih h
    · have : i = j := by omega
      subst this
      exact ⟨k, pos, hr, hp, ha, by omega⟩

private theorem Reaches.unique {bs : List Byte} {len i : Nat} : ∀ {k pos k' pos' : Nat}, Reaches bs len i k pos →
    Reaches bs len i k' pos' → k = k' ∧ pos = pos' := by
  induction i with
  | zero =>
    intro k pos k' pos' h h'
    cases h; cases h'; exact ⟨rfl, rfl⟩
  | succ i ih =>
    intro k pos k' pos' h h'
    cases h with
    | afterNull _ k0 pos0 n hr hp ha hn ht =>
      cases h' with
      | afterNull _ k1 pos1 n' hr' hp' ha' hn' ht' => obtain ⟨rfl, rfl⟩ := ih hr hr'; omega
      | afterShape _ k1 pos1 n' hr' hp' ha' hn' ht' => obtain ⟨rfl, rfl⟩ := ih hr hr'; exact absurd ht ht'
    | afterShape _ k0 pos0 n hr hp ha hn ht =>
      cases h' with
      | afterNull _ k1 pos1 n' hr' hp' ha' hn' ht' => obtain ⟨rfl, rfl⟩ := ih hr hr'; exact absurd ht' ht
      | afterShape _ k1 pos1 n' hr' hp' ha' hn' ht' => obtain ⟨rfl, rfl⟩ := ih hr hr'; omega

private theorem Reaches.pos {bs : List Byte} {len i k pos : Nat} (h : Reaches bs len i k pos) : 100 + 8 * i ≤ pos := by
  induction h <;> omega

/-- Reading the record at `k` and advancing: it panics, fails, or succeeds and leads to the next record. -/
private theorem next_exact {σ : Type} (ar : ShpArith) {P : FProc σ} (hP : ∀ s e, ∃ s', P.step s e = .ok s') (bs : List Byte)
    (len i k pos : Nat) (hr : Reaches bs len i k pos) (hp : pos < len) (s : σ) :
    (∃ x, (FProg.interp P (FProg.bind (readShape ar) fun words => FProg.lift (advance pos words)) s (bs.drop k)).2.2 = .error x ∧
      (x.isPanic = true ↔ StopsAt bs k) ∧ ¬ (RecordAccepted (bs.drop k) ∧ 0 ≤ i32At .be (k + 4) bs)) ∨
    (∃ k' pos', (FProg.interp P (FProg.bind (readShape ar) fun words => FProg.lift (advance pos words)) s (bs.drop k)).2.2 =
      .ok (pos', bs.drop k') ∧ Reaches bs len (i + 1) k' pos' ∧ ¬ StopsAt bs k) := by
  have h1 := C42_panics_iff ar P hP s (bs.drop k)
  have h2 := C42_accepts_iff ar P hP s (bs.drop k)
  have hw : i32At .be 4 (bs.drop k) = i32At .be (k + 4) bs := i32At_drop _ _ _ _
  have ht : i32At .le 8 (bs.drop k) = i32At .le (k + 8) bs := i32At_drop _ _ _ _
  rw [FProg.interp_bind]
  rcases hi : FProg.interp P (readShape ar) s (bs.drop k) with ⟨s', evs, r⟩
  rw [hi] at h1 h2
  cases r with
  | error x =>
    left
    have hna : ¬ RecordAccepted (bs.drop k) := fun h => by obtain ⟨w, rest, hx⟩ := h2.mpr h; cases hx
    refine ⟨x, rfl, ⟨fun hx => Or.inl (h1.mp ⟨x, rfl, hx⟩), ?_⟩, fun h => hna h.1⟩
    rintro (h | h)
    · obtain ⟨y, hy, hx⟩ := h1.mpr h
      cases hy; exact hx
    · exact absurd h.1 hna
  | ok ab =>
    obtain ⟨words, rest⟩ := ab
    have ha : RecordAccepted (bs.drop k) := h2.mp ⟨words, rest, rfl⟩
    have hnp : ¬ RecordPanics (bs.drop k) := fun h => by obtain ⟨x, hx, -⟩ := h1.mpr h; cases hx
    obtain ⟨-, hwords, hshape, hnull⟩ := C42_declared_size_partial ar P s (bs.drop k) words rest (by rw [hi])
    rw [hw] at hwords
    rw [ht] at hshape hnull
    have hrange := i32At_range .be (k + 4) bs
    unfold isI32 at hrange
    subst hwords
    simp only
    by_cases h0 : 0 ≤ i32At .be (k + 4) bs
    · right
      have hadv : ∀ multi, Prog.run multi (advance pos (i32At .be (k + 4) bs)) rest =
          ([], .ok (pos + 8 + i32AsUsize (i32At .be (k + 4) bs) * 2, rest)) := by
        intro multi
        unfold advance usizeOk
        rw [if_pos (by have := usize_nonneg (i32At_range .be (k + 4) bs) h0; omega)]
        rfl
      rw [FProg.interp_lift_silent P _ s' rest _ (hadv _)]
      have hv := (usize_nonneg (i32At_range .be (k + 4) bs) h0).1
      have hstop : ¬ StopsAt bs k := by
        rintro (h | h)
        · exact hnp h
        · omega
      by_cases htype : i32At .le (k + 8) bs = 0
      · refine ⟨k + 12, _, ?_, .afterNull i k pos _ hr hp ha hv.symm htype, hstop⟩
        rw [hnull htype, List.drop_drop, Nat.mul_comm]
      · obtain ⟨n, hn, -, hrest⟩ := hshape htype
        refine ⟨k + 8 + 2 * n, _, ?_, .afterShape i k pos n hr hp ha hn htype, hstop⟩
        rw [hrest, List.drop_drop, Nat.add_assoc]
        have : i32AsUsize (i32At .be (k + 4) bs) = n := by omega
        rw [this, Nat.mul_comm]
        simp only [Nat.add_assoc]
    · left
      have hadv : ∀ multi, Prog.run multi (advance pos (i32At .be (k + 4) bs)) rest =
          ([], .error (.panic "attempt to multiply with overflow")) := by
        intro multi
        unfold advance usizeOk
        rw [if_neg (by have := usize_neg (i32At_range .be (k + 4) bs) (by omega); omega)]
        rfl
      rw [FProg.interp_lift_silent P _ s' rest _ (hadv _)]
      exact ⟨_, rfl, ⟨fun _ => Or.inr ⟨ha, by omega⟩, fun _ => rfl⟩, fun h => h0 h.2⟩

/-- a record to come at which the iteration stops -/
private def Later (bs : List Byte) (len i : Nat) (Q : Nat → Prop) : Prop :=
  ∃ j k pos, i ≤ j ∧ Reaches bs len j k pos ∧ pos < len ∧ Q j ∧ StopsAt bs k

private theorem Later.here {bs : List Byte} {len i k pos : Nat} {Q : Nat → Prop} (hr : Reaches bs len i k pos) (hp : pos < len)
    (hq : ∀ j, i ≤ j → Q j → Q i) (hna : ¬ (RecordAccepted (bs.drop k) ∧ 0 ≤ i32At .be (k + 4) bs)) :
    Later bs len i Q ↔ Q i ∧ StopsAt bs k := by
  constructor
  · rintro ⟨j, k', pos', hij, hr', hp', hqj, hs⟩
    by_cases h : i = j
    · subst h
      obtain ⟨rfl, rfl⟩ := Reaches.unique hr hr'
      exact ⟨hqj, hs⟩
    · obtain ⟨k1, pos1, hr1, -, ha, h0⟩ := Reaches.prefix hr' i (by omega)
      obtain ⟨rfl, rfl⟩ := Reaches.unique hr hr1
      exact absurd ⟨ha, h0⟩ hna
  · exact fun ⟨h1, h2⟩ => ⟨i, k, pos, Nat.le_refl _, hr, hp, h1, h2⟩

private theorem Later.next {bs : List Byte} {len i k pos : Nat} {Q : Nat → Prop} (hr : Reaches bs len i k pos)
    (hns : ¬ StopsAt bs k) : Later bs len i Q ↔ Later bs len (i + 1) Q := by
  constructor
  · rintro ⟨j, k', pos', hij, hr', hp', hqj, hs⟩
    by_cases h : i = j
    · subst h
      obtain ⟨rfl, rfl⟩ := Reaches.unique hr hr'
      exact absurd hs hns
    · exact ⟨j, k', pos', by omega, hr', hp', hqj, hs⟩
  · rintro ⟨j, k', pos', hij, h⟩
    exact ⟨j, k', pos', by omega, h⟩

private theorem Later.end {bs : List Byte} {len i k pos : Nat} {Q : Nat → Prop} (hr : Reaches bs len i k pos)
    (hp : len ≤ pos) : ¬ Later bs len i Q := by
  rintro ⟨j, k', pos', hij, hr', hp', hqj, hs⟩
  by_cases h : i = j
  · subst h
    obtain ⟨rfl, rfl⟩ := Reaches.unique hr hr'
    omega
  · obtain ⟨k1, pos1, hr1, hlt, -⟩ := Reaches.prefix hr' i (by omega)
    obtain ⟨rfl, rfl⟩ := Reaches.unique hr hr1
    omega

private theorem pan_shapes {σ : Type} (ar : ShpArith) {P : FProc σ} (hP : ∀ s e, ∃ s', P.step s e = .ok s') (bs : List Byte)
    (len n : Nat) : ∀ (i k pos : Nat), Reaches bs len i k pos → len < n + pos → ∀ s,
      (Pan P (shapesLoop ar len n pos) s (bs.drop k) ↔ Later bs len i fun _ => True) := by
  induction n with
  | zero =>
    intro i k pos hr hn s
    refine iff_of_false ?_ (Later.end hr (by omega))
    rintro ⟨x, hx, hp⟩
    cases hx; cases hp
  | succ n ih =>
    intro i k pos hr hn s
    unfold shapesLoop shapeNext
    by_cases hlen : len ≤ pos
    · rw [if_pos hlen]
      refine iff_of_false ?_ (Later.end hr hlen)
      rintro ⟨x, hx, hp⟩
      cases hx
    · rw [if_neg hlen]
      have e : (FProg.bind (readShape ar) fun words => FProg.bind (FProg.lift (advance pos words)) fun pos => FProg.ret (some pos)) =
          FProg.bind (FProg.bind (readShape ar) fun words => FProg.lift (advance pos words)) fun pos => FProg.ret (some pos) := by
        rw [FProg.bind_assoc]
      rw [e]
      rcases next_exact ar hP bs len i k pos hr (by omega) s with ⟨x, hx, hpx, hna⟩ | ⟨k', pos', hx, hr', hns⟩
      · rw [FProg.bind_assoc, Pan.bind_error hx, Later.here hr (by omega) (fun _ _ h => h) hna, hpx]
        exact ⟨fun h => ⟨trivial, h⟩, fun h => h.2⟩
      · rw [FProg.bind_assoc, Pan.bind_ok hx, Later.next hr hns]
        have := Reaches.pos hr
        have hpos : pos + 8 ≤ pos' := by
          cases hr' with
          | afterNull _ k0 pos0 n hr0 => obtain ⟨rfl, rfl⟩ := Reaches.unique hr hr0; omega
          | afterShape _ k0 pos0 n hr0 => obtain ⟨rfl, rfl⟩ := Reaches.unique hr hr0; omega
        exact ih (i + 1) k' pos' hr' (by omega) _

private theorem quiet {α σ : Type} {P : FProc σ} (hP : ∀ s e, ∃ s', P.step s e = .ok s') {p : FProg α} (hp : FProg.Ends true p) (s : σ)
    (bs : List Byte) : ∃ a, (FProg.interp P p s bs).2.2 = .ok (a, bs) := by
  induction p generalizing s with
  | ret a => exact ⟨a, rfl⟩
  | fail e => exact absurd hp.1 (by decide)
  | read k => exact hp.elim
  | emit e k ih =>
    obtain ⟨s', hs⟩ := hP s e
    simp only [FProg.interp, hs]
    exact ih hp s'
  | emitOk e k ih =>
    obtain ⟨s', hs⟩ := hP s e
    simp only [FProg.interp, hs]
    exact ih hp s'
  | prop i n v k ih =>
    obtain ⟨s', hs⟩ := hP s (.prop i n v)
    simp only [FProg.interp, hs]
    exact ih _ (hp _) s'
  | ask k ih => exact ih _ _ (hp _ _) s

private theorem Pan.quiet {α β σ : Type} {P : FProc σ} (hP : ∀ s e, ∃ s', P.step s e = .ok s') {p : FProg α} (hp : FProg.Ends true p)
    {f : α → FProg β} {s : σ} {bs : List Byte} {C : Prop} (h : ∀ a s', Pan P (f a) s' bs ↔ C) : Pan P (FProg.bind p f) s bs ↔ C := by
  obtain ⟨a, ha⟩ := Geozero.quiet hP hp s bs
  rw [Pan.bind_ok ha]
  exact h _ _

private theorem ends_callOk (e : FEv) : FProg.Ends true (callOk e) := rfl

private theorem ends_properties (row : ShpRow) (i : Nat) : FProg.Ends true (shapeRecordLoop i row) := by
  induction row generalizing i with
  | nil => exact rfl
  | cons f row ih =>
    obtain ⟨n, v⟩ := f
    unfold shapeRecordLoop
    cases v.column with
    | none => exact ih i
    | some c =>
      intro b
      cases b with
      | true => exact rfl
      | false => exact ih (i + 1)

/-- the number of rows before the first that is an error -/
private def lead (rows : List (Except Err ShpRow)) : Nat := (rows.takeWhile Except.isOk).length

private theorem pan_features {σ : Type} (ar : ShpArith) {P : FProc σ} (hP : ∀ s e, ∃ s', P.step s e = .ok s') (bs : List Byte)
    (len n : Nat) : ∀ (i k pos : Nat) (rows : List (Except Err ShpRow)), Reaches bs len i k pos → rows.length < n →
      (∀ e, .error e ∈ rows → e.isPanic = false) → ∀ s,
      (Pan P (featuresLoop ar len n { featno := i, pos, rows }) s (bs.drop k) ↔ Later bs len i fun j => j < i + lead rows) := by
  induction n with
  | zero => intro i k pos rows hr hn; omega
  | succ n ih =>
    intro i k pos rows hr hn hrows s
    have hnone : ∀ s bs, ¬ Pan P (FProg.bind (callOk .dsEnd) fun _ => (FProg.ret () : FProg Unit)) s bs := by
      intro s bs h
      rw [Pan.quiet hP (ends_callOk _) (C := False) fun a s' => iff_of_false (by rintro ⟨x, hx, _⟩; cases hx) id] at h
      exact h
    unfold featuresLoop featureNext
    rw [FProg.bind_assoc]
    refine Pan.quiet hP (by unfold shpDatasetBegin; split <;> exact rfl) fun _ s => ?_
    by_cases hlen : len ≤ pos
    · simp only [if_pos hlen]
      rw [FProg.bind_assoc]
      exact iff_of_false (hnone _ _) (Later.end hr hlen)
    · simp only [if_neg hlen]
      cases rows with
      | nil =>
        simp only
        rw [FProg.bind_assoc]
        refine iff_of_false (hnone _ _) ?_
        rintro ⟨j, k', pos', hij, -, -, hj, -⟩
        exact absurd hj (by show ¬ j < i + 0; omega)
      | cons row rows =>
        cases row with
        | error e =>
          simp only
          refine iff_of_false ?_ ?_
          · rintro ⟨x, hx, hp⟩
            cases hx
            rw [hrows e (by simp)] at hp
            cases hp
          · rintro ⟨j, k', pos', hij, -, -, hj, -⟩
            exact absurd hj (by show ¬ j < i + 0; omega)
        | ok row =>
          have hlead : lead (.ok row :: rows) = lead rows + 1 := rfl
          simp only
          unfold shpFeature
          simp only [Bind.bind, FProg.bind_assoc]
          refine Pan.quiet hP (ends_callOk _) fun _ s => ?_
          refine Pan.quiet hP (ends_callOk _) fun _ s => ?_
          refine Pan.quiet hP (ends_properties row 0) fun _ s => ?_
          refine Pan.quiet hP (ends_callOk _) fun _ s => ?_
          refine Pan.quiet hP (ends_callOk _) fun _ s => ?_
          rw [← FProg.bind_assoc (readShape ar)]
          rcases next_exact ar hP bs len i k pos hr (by omega) s with ⟨x, hx, hpx, hna⟩ | ⟨k', pos', hx, hr', hns⟩
          · rw [Pan.bind_error hx, Later.here hr (by omega) (fun _ _ h => by omega) hna, hpx]
            exact ⟨fun h => ⟨by omega, h⟩, fun h => h.2⟩
          · rw [Pan.bind_ok hx, Later.next hr hns]
            refine Pan.quiet hP (ends_callOk _) fun _ s => ?_
            refine Pan.quiet hP (ends_callOk _) fun _ s => ?_
            have := ih (i + 1) k' pos' rows hr' (by simp only [List.length_cons] at hn; omega) (fun e he => hrows e (by simp [he])) s
            rw [show i + 1 + lead rows = i + lead (.ok row :: rows) by rw [hlead]; omega] at this
            exact this

private theorem pan_header {σ : Type} {P : FProc σ} (s : σ) (bs : List Byte) (f : Nat → FProg Unit) (C : Prop)
    (hf : ∀ s, Pan P (f (announced bs)) s (bs.drop 100) ↔ C) :
    Pan P (FProg.bind (FProg.lift readShpHeader) fun h => FProg.bind (FProg.lift (doubleI32 h.fileLength)) fun len => f (i32AsUsize len)) s bs ↔
      HeaderAccepted bs ∧ (2 ^ 30 ≤ i32At .be 24 bs ∨ i32At .be 24 bs < -2 ^ 30 ∨ C) := by
  by_cases ha : HeaderAccepted bs
  · obtain ⟨h, rest, hr, hl, rfl⟩ := reads_header (P.multi s) bs ha
    have hi := FProg.interp_lift_silent P _ s bs _ hr
    rw [Pan.bind_ok (by rw [hi]), hi]
    have hrange := i32At_range .be 24 bs
    unfold isI32 at hrange
    by_cases hw : -(2 ^ 30) ≤ i32At .be 24 bs ∧ i32At .be 24 bs < 2 ^ 30
    · have hd : ∀ multi, Prog.run multi (doubleI32 h.fileLength) (bs.drop 100) = ([], .ok (h.fileLength * 2, bs.drop 100)) := by
        intro multi
        unfold doubleI32
        rw [hl, if_pos (by omega)]
        rfl
      have hi := FProg.interp_lift_silent P _ s (bs.drop 100) _ (hd _)
      rw [Pan.bind_ok (by rw [hi]), hi]
      have hlen : i32AsUsize (h.fileLength * 2) = announced bs := by
        unfold announced i32AsUsize
        rw [hl]
        split <;> omega
      simp only [hlen]
      rw [hf]
      exact ⟨fun h => ⟨ha, Or.inr (Or.inr h)⟩, fun ⟨_, h⟩ => by rcases h with h | h | h; omega; omega; exact h⟩
    · have hd : ∀ multi, Prog.run multi (doubleI32 h.fileLength) (bs.drop 100) = ([], .error (.panic "attempt to multiply with overflow")) := by
        intro multi
        unfold doubleI32
        rw [hl, if_neg (by omega)]
        rfl
      have hi := FProg.interp_lift_silent P _ s (bs.drop 100) _ (hd _)
      rw [Pan.bind_error (by rw [hi])]
      exact ⟨fun _ => ⟨ha, by omega⟩, fun _ => rfl⟩
  · refine iff_of_false ?_ fun h => ha h.1
    have hd := dec_header (P.multi s) bs
    unfold Dec at hd
    rcases hr : Prog.run (P.multi s) readShpHeader bs with ⟨evs, r⟩
    rw [hr] at hd
    cases r with
    | ok hb => exact absurd hd.2.2.2 ha
    | error e =>
      obtain ⟨rfl, he⟩ := hd
      have hi := FProg.interp_lift_silent P _ s bs _ hr
      rw [Pan.bind_error (by rw [hi]), he]
      decide

/-- Iterating over the shapes of a file, with a processor whose calls do not fail, panics exactly if the file is in `FilePanics`. -/
theorem C42_iterate_shapes_panics_iff {σ : Type} (ar : ShpArith) (P : FProc σ) (hP : ∀ s e, ∃ s', P.step s e = .ok s') (s : σ)
    (bs : List Byte) :
    (∃ x, (FProg.interp P (shpGeometries ar) s bs).2.2 = .error x ∧ x.isPanic = true) ↔ FilePanics none bs := by
  have h := pan_header (P := P) s bs (fun len => shapesLoop ar len (len + 1) 100) _
    fun s => pan_shapes ar hP bs (announced bs) (announced bs + 1) 0 100 100 .first (by omega) s
  unfold shpGeometries
  refine Iff.trans h ?_
  unfold FilePanics Later
  refine and_congr Iff.rfl (or_congr Iff.rfl (or_congr Iff.rfl ⟨?_, ?_⟩))
  · rintro ⟨j, k, pos, -, hr, hp, -, hs⟩
    exact ⟨j, k, pos, hr, hp, fun n hn => (by cases hn), hs⟩
  · rintro ⟨j, k, pos, hr, hp, -, hs⟩
    exact ⟨j, k, pos, Nat.zero_le _, hr, hp, trivial, hs⟩

/-- The same for iterating over features: only the records for which there is a row, before the first row that cannot be read, matter. -/
theorem C42_iterate_features_panics_iff {σ : Type} (ar : ShpArith) (P : FProc σ) (hP : ∀ s e, ∃ s', P.step s e = .ok s') (s : σ)
    (bs : List Byte) (rows : List (Except Err ShpRow)) (hrows : ∀ e, .error e ∈ rows → e.isPanic = false) :
    (∃ x, (FProg.interp P (shpFeatures ar rows) s bs).2.2 = .error x ∧ x.isPanic = true) ↔
      FilePanics (some (rows.takeWhile Except.isOk).length) bs := by
  have h := pan_header (P := P) s bs (fun len => featuresLoop ar len (rows.length + 1) { featno := 0, pos := 100, rows }) _
    fun s => pan_features ar hP bs (announced bs) (rows.length + 1) 0 100 100 rows .first (by omega) hrows s
  unfold shpFeatures
  refine Iff.trans h ?_
  unfold FilePanics Later
  refine and_congr Iff.rfl (or_congr Iff.rfl (or_congr Iff.rfl ⟨?_, ?_⟩))
  · rintro ⟨j, k, pos, -, hr, hp, hj, hs⟩
    refine ⟨j, k, pos, hr, hp, fun n hn => ?_, hs⟩
    cases hn
    unfold lead at hj
    omega
  · rintro ⟨j, k, pos, hr, hp, hj, hs⟩
    refine ⟨j, k, pos, Nat.zero_le _, hr, hp, ?_, hs⟩
    have := hj _ rfl
    unfold lead
    omega

/-- a file with a null shape and a record of an impossible length -/
private def exBadFile : List Byte :=
  EsriHeader 5000 1000 5 (List.replicate 20 0) (List.replicate 8 0#64) ++ exHead 2 0 ++ exHead (2 ^ 30) 5

private theorem exBadFile_first : RecordAccepted (exBadFile.drop 100) :=
  ⟨by decide +kernel, by decide +kernel, by decide +kernel, Or.inl (by decide +kernel)⟩

example : FilePanics none exBadFile :=
  ⟨⟨by decide +kernel, by decide +kernel, by decide +kernel⟩, Or.inr (Or.inr ⟨1, 112, 112,
    .afterNull 0 100 100 2 .first (by decide +kernel) exBadFile_first (by decide +kernel) (by decide +kernel), by decide +kernel,
    (fun _ h => nomatch h), Or.inl ⟨by decide +kernel, Or.inl (by decide +kernel)⟩⟩)⟩

example : ¬ FilePanics (some 1) exBadFile := by
  rintro ⟨-, h | h | ⟨i, k, pos, hr, hp, hi, hs⟩⟩
  · exact absurd h (by decide +kernel)
  · exact absurd h (by decide +kernel)
  · have := hi 1 rfl
    have : i = 0 := by omega
    subst this
    cases hr
    rcases hs with h | ⟨-, h⟩
    · exact accepted_not_panics ⟨by decide +kernel, by decide +kernel, by decide +kernel, Or.inl (by decide +kernel)⟩
        (fun hb => absurd hb.1 (by decide +kernel)) h
    · exact absurd h (by decide +kernel)

end Geozero
