import Verif.Spec.GdalPanic
import Verif.Props.Gdal
import Verif.Props.WkbAny

/-
C55: exactly which calls make the GDAL writer write to freed memory or overflow.
-/

namespace Geozero
open Prog Spec

theorem since_snoc {P : List Ev → Ev → Prop} {Q : Ev → Prop} {calls : List Ev} {e : Ev} :
    Since P Q (calls ++ [e]) ↔ P calls e ∨ (Q e ∧ Since P Q calls) := by
  constructor
  · rintro ⟨a, f, b, h1, h2, h3⟩
    rcases b.eq_nil_or_concat with rfl | ⟨b', x, rfl⟩
    · obtain ⟨rfl, h⟩ := List.append_inj' h1 rfl
      cases h
      exact .inl h2
    · rw [List.concat_eq_append, ← List.cons_append, ← List.append_assoc] at h1
      obtain ⟨rfl, h⟩ := List.append_inj' h1 rfl
      cases h
      exact .inr ⟨h3 _ (by simp), a, f, b', rfl, h2, fun g hg => h3 g (by simp [hg])⟩
  · rintro (h | ⟨h, a, f, b, rfl, h2, h3⟩)
    · exact ⟨calls, e, [], rfl, h, by simp⟩
    · refine ⟨a, f, b ++ [e], by simp, h2, ?_⟩
      intro g hg
      simp only [List.mem_append, List.mem_singleton] at hg
      rcases hg with hg | rfl
      · exact h3 g hg
      · exact h

theorem ogrCurrent_snoc (calls : List Ev) (e : Ev) : ogrCurrent (calls ++ [e]) = (ogrType e).getD (ogrCurrent calls) := by
  unfold ogrCurrent
  cases h : ogrType e <;> simp [List.filterMap_append, h]

theorem noPolygonYet_current {calls : List Ev} (h : NoPolygonYet calls) : ogrCurrent calls = .multiPolygon := by
  obtain ⟨a, e, b, rfl, h1, h2⟩ := h
  have : b.filterMap ogrType = [] := List.filterMap_eq_nil_iff.mpr fun f hf => (h2 f hf).1
  simp [ogrCurrent, List.filterMap_append, h1, this]

theorem ogrType_part {e : Ev} (h : BeginsPart e) : ogrType e = none := by
  obtain ⟨n, i, rfl⟩ := h; rfl

theorem ogrType_partPolygon {e : Ev} (h : BeginsPartPolygon e) : ogrType e = none := by
  obtain ⟨n, i, rfl⟩ := h; rfl

/-- what the writer's state has to do with the calls that led to it -/
structure Hist (calls : List Ev) (w : GdalWriter) : Prop where
  kind : w.geom.kind = some (ogrCurrent calls)
  own : w.line = .own ↔ ∀ f ∈ calls, ¬ BeginsPart f
  dang : w.line = .dangling ↔ LineDropped calls
  polys : ogrCurrent calls = .multiPolygon →
    (w.geom.members = [] ↔ NoPolygonYet calls) ∧ ∀ m ∈ w.geom.members, m.kind = some .polygon

theorem Hist.init : Hist [] {} where
  kind := rfl
  own := by simp
  dang := by
    refine ⟨fun h => by simp at h, ?_⟩
    rintro ⟨a, e, b, h, _⟩
    simp at h
  polys := by intro h; simp [ogrCurrent] at h

theorem Hist.new {calls : List Ev} {w : GdalWriter} (h : Hist calls w) {e : Ev} {k : GKind} (he : ogrType e = some k) :
    Hist (calls ++ [e]) (w.replace (GdalWriter.empty k)) where
  kind := by rw [ogrCurrent_snoc, he]; rfl
  own := by
    have hp : ¬ BeginsPart e := fun hp => by rw [ogrType_part hp] at he; cases he
    simp only [List.mem_append, List.mem_singleton]
    constructor
    · intro hl f hf
      rcases hf with hf | rfl
      · refine h.own.mp ?_ f hf
        revert hl
        unfold GdalWriter.replace
        cases w.line <;> simp
      · exact hp
    · intro hf
      have := h.own.mpr fun f hf' => hf f (.inl hf')
      simp [GdalWriter.replace, this]
  dang := by
    have hp : ¬ BeginsPart e := fun hp => by rw [ogrType_part hp] at he; cases he
    unfold LineDropped
    rw [since_snoc]
    constructor
    · intro hl
      by_cases ho : ∃ f ∈ calls, BeginsPart f
      · exact .inl ⟨ho, by simp [he]⟩
      · have := h.own.mpr fun f hf hb => ho ⟨f, hf, hb⟩
        simp [GdalWriter.replace, this] at hl
    · intro hl
      have hne : w.line ≠ .own := by
        intro ho
        have hn := h.own.mp ho
        rcases hl with ⟨⟨f, hf, hb⟩, _⟩ | ⟨_, hl⟩
        · exact hn f hf hb
        · have := h.dang.mpr hl
          rw [ho] at this
          cases this
      unfold GdalWriter.replace
      cases hw : w.line <;> simp_all
  polys := by
    rw [ogrCurrent_snoc, he]
    rintro hk
    simp only [Option.getD_some] at hk
    subst hk
    refine ⟨⟨fun _ => since_snoc.mpr (.inl he), fun _ => rfl⟩, fun m hm => ?_⟩
    simp [GdalWriter.replace, GdalWriter.empty, OgrGeom.members] at hm

theorem Hist.neutral {calls : List Ev} {w w' : GdalWriter} (h : Hist calls w) {e : Ev} (he : ogrType e = none)
    (hp : ¬ BeginsPart e) (hq : ¬ BeginsPartPolygon e) (hl : w'.line = w.line) (hk : w'.geom.kind = w.geom.kind)
    (hm : ogrCurrent calls = .multiPolygon → (w'.geom.members = [] ↔ w.geom.members = []) ∧
      ((∀ m ∈ w.geom.members, m.kind = some .polygon) → ∀ m ∈ w'.geom.members, m.kind = some .polygon)) :
    Hist (calls ++ [e]) w' where
  kind := by rw [ogrCurrent_snoc, he, hk, h.kind]; rfl
  own := by
    rw [hl, h.own]
    simp only [List.mem_append, List.mem_singleton]
    exact ⟨fun hf f hm => hm.elim (hf f) (fun h => h ▸ hp), fun hf f hm => hf f (.inl hm)⟩
  dang := by
    rw [hl, h.dang]
    unfold LineDropped
    rw [since_snoc]
    exact ⟨fun h => .inr ⟨hp, h⟩, fun h => h.elim (fun h => absurd he h.2) (·.2)⟩
  polys := by
    rw [ogrCurrent_snoc, he]
    intro hc
    simp only [Option.getD_none] at hc
    obtain ⟨h1, h2⟩ := h.polys hc
    obtain ⟨h3, h4⟩ := hm hc
    refine ⟨?_, h4 h2⟩
    rw [h3, h1]
    unfold NoPolygonYet
    rw [since_snoc]
    exact ⟨fun h => .inr ⟨⟨he, hq⟩, h⟩, fun h => h.elim (fun h => by rw [he] at h; cases h) (·.2)⟩

theorem Hist.part {calls : List Ev} {w w' : GdalWriter} (h : Hist calls w) {e : Ev} (hp : BeginsPart e)
    (hl : w'.line ≠ .own ∧ w'.line ≠ .dangling) (hk : w'.geom.kind = w.geom.kind)
    (hm : ogrCurrent calls = .multiPolygon → (w'.geom.members = [] ↔ w.geom.members = []) ∧
      ((∀ m ∈ w.geom.members, m.kind = some .polygon) → ∀ m ∈ w'.geom.members, m.kind = some .polygon)) :
    Hist (calls ++ [e]) w' where
  kind := by rw [ogrCurrent_snoc, ogrType_part hp, hk, h.kind]; rfl
  own := ⟨fun h => absurd h hl.1, fun h => absurd hp (h e (by simp))⟩
  dang := by
    refine ⟨fun h => absurd h hl.2, fun h => ?_⟩
    unfold LineDropped at h
    rw [since_snoc] at h
    exact h.elim (fun h => absurd (ogrType_part hp) h.2) (fun h => absurd hp h.1)
  polys := by
    rw [ogrCurrent_snoc, ogrType_part hp]
    intro hc
    simp only [Option.getD_none] at hc
    obtain ⟨h1, h2⟩ := h.polys hc
    obtain ⟨h3, h4⟩ := hm hc
    refine ⟨?_, h4 h2⟩
    have hq : ¬ BeginsPartPolygon e := by
      rintro ⟨n, i, rfl⟩
      obtain ⟨_, _, hp⟩ := hp
      cases hp
    rw [h3, h1]
    unfold NoPolygonYet
    rw [since_snoc]
    exact ⟨fun h => .inr ⟨⟨ogrType_part hp, hq⟩, h⟩, fun h => h.elim (fun h => by rw [ogrType_part hp] at h; cases h) (·.2)⟩

theorem Hist.partPolygon {calls : List Ev} {w w' : GdalWriter} (h : Hist calls w) {e : Ev} (hq : BeginsPartPolygon e)
    (hl : w'.line = w.line) (hk : w'.geom.kind = w.geom.kind) (hm : w'.geom.members ≠ [])
    (hm' : ogrCurrent calls = .multiPolygon →
      (∀ m ∈ w.geom.members, m.kind = some .polygon) → ∀ m ∈ w'.geom.members, m.kind = some .polygon) :
    Hist (calls ++ [e]) w' := by
  have hp : ¬ BeginsPart e := by
    rintro ⟨n, i, rfl⟩
    obtain ⟨_, _, hq⟩ := hq
    cases hq
  have he := ogrType_partPolygon hq
  refine ⟨?_, ?_, ?_, ?_⟩
  · rw [ogrCurrent_snoc, he, hk, h.kind]; rfl
  · rw [hl, h.own]
    simp only [List.mem_append, List.mem_singleton]
    exact ⟨fun hf f hm => hm.elim (hf f) (fun h => h ▸ hp), fun hf f hm => hf f (.inl hm)⟩
  · rw [hl, h.dang]
    unfold LineDropped
    rw [since_snoc]
    exact ⟨fun h => .inr ⟨hp, h⟩, fun h => h.elim (fun h => absurd he h.2) (·.2)⟩
  · rw [ogrCurrent_snoc, he]
    intro hc
    simp only [Option.getD_none] at hc
    refine ⟨⟨fun h => absurd h hm, fun h => ?_⟩, hm' hc (h.polys hc).2⟩
    unfold NoPolygonYet at h
    rw [since_snoc] at h
    exact h.elim (fun h => by rw [he] at h; cases h) (fun h => absurd hq h.1.2)

/-- the answer to a call, told from the calls before -/
def Answer (calls : List Ev) (e : Ev) : Except Err GdalWriter → Prop
  | .ok w => Hist (calls ++ [e]) w ∧ ¬ Refused calls e ∧ ¬ UsesFreed calls e ∧ ¬ Overflows calls e
  | .error x => (x = .panic "use after free" ∧ UsesFreed calls e ∧ ¬ Refused calls e) ∨
      (x = .panic "attempt to subtract with overflow" ∧ Overflows calls e ∧ ¬ Refused calls e) ∨
      (x.isPanic = false ∧ Refused calls e ∧ ¬ UsesFreed calls e ∧ ¬ Overflows calls e)

private theorem quiet {calls : List Ev} {e : Ev} (h1 : ∀ x y i, e ≠ .xy x y i) (h2 : ¬ BeginsPart e) (h3 : ¬ BeginsPartPolygon e)
    (h4 : ∀ i, e ≠ .emptyPoint i) : ¬ Refused calls e ∧ ¬ UsesFreed calls e ∧ ¬ Overflows calls e := by
  refine ⟨?_, ?_, fun h => h2 h.1⟩
  · rintro (⟨i, h⟩ | ⟨h, _⟩ | ⟨h, _⟩)
    · exact h4 i h
    · exact h2 h
    · exact h3 h
  · rintro ⟨⟨x, y, i, h⟩, _⟩
    exact h1 x y i h

private theorem kind_setPoint2d (g : OgrGeom) (i : Nat) (p : OgrPt) : (GdalWriter.setPoint2d g i p).kind = g.kind := by
  obtain ⟨k, ps, ms⟩ := g
  unfold GdalWriter.setPoint2d
  split
  · rename_i h
    cases h
    split <;> rfl
  · rename_i h
    cases h
    rfl

private theorem kind_onMember (i : Nat) (f : OgrGeom → OgrGeom) (g : OgrGeom) : (GdalWriter.onMember i f g).kind = g.kind := by
  obtain ⟨k, ps, ms⟩ := g; rfl

private theorem members_onMember (i : Nat) (f : OgrGeom → OgrGeom) (hf : ∀ m, (f m).kind = m.kind) (g : OgrGeom) :
    ((GdalWriter.onMember i f g).members = [] ↔ g.members = []) ∧
      ((∀ m ∈ g.members, m.kind = some .polygon) → ∀ m ∈ (GdalWriter.onMember i f g).members, m.kind = some .polygon) := by
  obtain ⟨k, ps, ms⟩ := g
  simp only [GdalWriter.onMember, OgrGeom.members]
  constructor
  · rw [← List.length_eq_zero_iff, List.length_modify, List.length_eq_zero_iff]
  · intro h m hm
    obtain ⟨j, hj, rfl⟩ := List.getElem_of_mem hm
    rw [List.getElem_modify]
    split
    · rw [hf]; exact h _ (List.getElem_mem _)
    · exact h _ (List.getElem_mem _)

theorem ogrCurrent_kind (calls : List Ev) : ogrCurrent calls = .point ∨ ogrCurrent calls = .lineString ∨
    ogrCurrent calls = .multiPoint ∨ ogrCurrent calls = .multiLineString ∨ ogrCurrent calls = .polygon ∨
    ogrCurrent calls = .multiPolygon := by
  unfold ogrCurrent
  rcases hl : (calls.filterMap ogrType).getLast? with _ | k
  · exact .inl rfl
  · obtain ⟨f, _, hf⟩ := List.mem_filterMap.mp (List.mem_of_getLast? hl)
    unfold ogrType at hf
    split at hf <;> cases hf <;> simp

private theorem answer_xy {calls : List Ev} {w : GdalWriter} (h : Hist calls w) (x y : F64) (i : Nat) :
    Answer calls (.xy x y i) (w.xy x y i) := by
  have hp : ¬ BeginsPart (.xy x y i) := by rintro ⟨_, _, h⟩; cases h
  have hq : ¬ BeginsPartPolygon (.xy x y i) := by rintro ⟨_, _, h⟩; cases h
  have hr : ¬ Refused calls (.xy x y i) := by
    rintro (⟨i, h⟩ | ⟨h, _⟩ | ⟨h, _⟩)
    · cases h
    · exact hp h
    · exact hq h
  have ho : ¬ Overflows calls (.xy x y i) := fun h => hp h.1
  have line : ∀ (_ : ogrCurrent calls = .multiLineString ∨ ogrCurrent calls = .polygon ∨ ogrCurrent calls = .multiPolygon),
      Answer calls (.xy x y i) (w.setLine i ⟨x, y, F64.zero⟩) := by
    intro hc
    have hn : w.line ≠ .dangling → ¬ UsesFreed calls (.xy x y i) := fun hl hu => hl (h.dang.mpr hu.2.2)
    unfold GdalWriter.setLine
    split
    · rename_i hl
      exact ⟨h.neutral rfl hp hq rfl rfl fun _ => ⟨Iff.rfl, id⟩, hr, hn (by simp [hl]), ho⟩
    · rename_i hl
      exact ⟨h.neutral rfl hp hq rfl (kind_onMember _ _ _) fun _ => members_onMember _ _ (fun m => kind_setPoint2d _ _ _) _, hr,
        hn (by simp [hl]), ho⟩
    · rename_i hl
      exact ⟨h.neutral rfl hp hq rfl (kind_onMember _ _ _) fun _ => members_onMember _ _ (fun m => kind_onMember _ _ _) _, hr,
        hn (by simp [hl]), ho⟩
    · rename_i hl
      exact .inl ⟨rfl, ⟨⟨x, y, i, rfl⟩, hc, h.dang.mp hl⟩, hr⟩
  have other : ∀ (_ : ogrCurrent calls = .point ∨ ogrCurrent calls = .lineString ∨ ogrCurrent calls = .multiPoint),
      ¬ UsesFreed calls (.xy x y i) := by
    rintro hc ⟨_, hu, _⟩
    rcases hc with hc | hc | hc <;> rw [hc] at hu <;> simp at hu
  have hk := h.kind
  unfold GdalWriter.xy GdalWriter.put
  rw [hk]
  have hcur := ogrCurrent_kind calls
  rcases hcur with hc | hc | hc | hc | hc | hc <;> rw [hc]
  · refine ⟨h.neutral rfl hp hq rfl (kind_setPoint2d _ _ _) fun hc' => ?_, hr, other (.inl hc), ho⟩
    rw [hc] at hc'; cases hc'
  · refine ⟨h.neutral rfl hp hq rfl (kind_setPoint2d _ _ _) fun hc' => ?_, hr, other (.inr (.inl hc)), ho⟩
    rw [hc] at hc'; cases hc'
  · obtain ⟨⟨k, ps, ms⟩, l⟩ := w
    simp only [OgrGeom.kind, hc] at hk
    subst hk
    refine ⟨h.neutral rfl hp hq rfl rfl fun hc' => ?_, hr, other (.inr (.inr hc)), ho⟩
    rw [hc] at hc'; cases hc'
  · exact line (.inl hc)
  · exact line (.inr (.inl hc))
  · exact line (.inr (.inr hc))

private theorem answer_part {calls : List Ev} {w : GdalWriter} (h : Hist calls w) (n i : Nat) :
    Answer calls (.gbegin .lineString false n i) (w.linestringBegin false) := by
  have hp : BeginsPart (.gbegin .lineString false n i) := ⟨n, i, rfl⟩
  have hq : ¬ BeginsPartPolygon (.gbegin .lineString false n i) := by rintro ⟨_, _, h⟩; cases h
  have hu : ¬ UsesFreed calls (.gbegin .lineString false n i) := by rintro ⟨⟨_, _, _, h⟩, _⟩; cases h
  have hr : Refused calls (.gbegin .lineString false n i) ↔
      ogrCurrent calls = .point ∨ ogrCurrent calls = .lineString ∨ ogrCurrent calls = .multiPoint := by
    constructor
    · rintro (⟨i, h⟩ | ⟨_, h⟩ | ⟨h, _⟩)
      · cases h
      · exact h
      · exact absurd h hq
    · exact fun h => .inr (.inl ⟨hp, h⟩)
  have ho : Overflows calls (.gbegin .lineString false n i) ↔ NoPolygonYet calls := ⟨(·.2), fun h => ⟨hp, h⟩⟩
  have hn : ogrCurrent calls ≠ .multiPolygon → ¬ Overflows calls (.gbegin .lineString false n i) :=
    fun hc h => hc (noPolygonYet_current h.2)
  have hk := h.kind
  obtain ⟨⟨k, ps, ms⟩, l⟩ := w
  simp only [OgrGeom.kind] at hk
  subst hk
  unfold GdalWriter.linestringBegin
  simp only [Bool.false_eq_true, if_false, OgrGeom.kind, OgrGeom.members]
  have hcur := ogrCurrent_kind calls
  rcases hcur with hc | hc | hc | hc | hc | hc <;> rw [hc] <;> simp only
  · exact .inr (.inr ⟨rfl, hr.mpr (.inl hc), hu, hn (by simp [hc])⟩)
  · exact .inr (.inr ⟨rfl, hr.mpr (.inr (.inl hc)), hu, hn (by simp [hc])⟩)
  · exact .inr (.inr ⟨rfl, hr.mpr (.inr (.inr hc)), hu, hn (by simp [hc])⟩)
  · refine ⟨h.part hp ⟨by simp, by simp⟩ (by simp [OgrGeom.kind, hc]) fun hc' => ?_, by simp [hr, hc], hu, hn (by simp [hc])⟩
    rw [hc] at hc'; cases hc'
  · refine ⟨h.part hp ⟨by simp, by simp⟩ (by simp [OgrGeom.kind, hc]) fun hc' => ?_, by simp [hr, hc], hu, hn (by simp [hc])⟩
    rw [hc] at hc'; cases hc'
  · obtain ⟨h1, h2⟩ := h.polys hc
    simp only [OgrGeom.members] at h1 h2
    rcases hl : ms.getLast? with _ | poly
    · exact .inr (.inl ⟨rfl, ho.mpr (h1.mp (List.getLast?_eq_none_iff.mp hl)), by simp [hr, hc]⟩)
    · have hne : ms ≠ [] := by rintro rfl; cases hl
      have hpk := h2 poly (List.mem_of_getLast? hl)
      obtain ⟨pk, pps, pms⟩ := poly
      simp only [OgrGeom.kind] at hpk
      subst hpk
      refine ⟨h.part hp ⟨by simp, by simp⟩ (by simp [GdalWriter.onMember, OgrGeom.kind, hc]) fun _ => ⟨?_, ?_⟩, by simp [hr, hc], hu,
        fun h => hne (h1.mpr (ho.mp h))⟩
      · simp only [GdalWriter.onMember, OgrGeom.members]
        rw [← List.length_eq_zero_iff, List.length_modify, List.length_eq_zero_iff]
      · intro _ m hm
        simp only [GdalWriter.onMember, OgrGeom.members] at hm
        obtain ⟨j, hj, rfl⟩ := List.getElem_of_mem hm
        rw [List.getElem_modify]
        split
        · rfl
        · exact h2 _ (List.getElem_mem _)

private theorem answer_partPolygon {calls : List Ev} {w : GdalWriter} (h : Hist calls w) (n i : Nat) :
    Answer calls (.gbegin .polygon false n i) (w.polygonBegin false) := by
  have hq : BeginsPartPolygon (.gbegin .polygon false n i) := ⟨n, i, rfl⟩
  have hp : ¬ BeginsPart (.gbegin .polygon false n i) := by rintro ⟨_, _, h⟩; cases h
  have hu : ¬ UsesFreed calls (.gbegin .polygon false n i) := by rintro ⟨⟨_, _, _, h⟩, _⟩; cases h
  have ho : ¬ Overflows calls (.gbegin .polygon false n i) := fun h => hp h.1
  have hr : Refused calls (.gbegin .polygon false n i) ↔ ogrCurrent calls ≠ .multiPolygon := by
    constructor
    · rintro (⟨i, h⟩ | ⟨h, _⟩ | ⟨_, h⟩)
      · cases h
      · exact absurd h hp
      · exact h
    · exact fun h => .inr (.inr ⟨hq, h⟩)
  have hk := h.kind
  obtain ⟨⟨k, ps, ms⟩, l⟩ := w
  simp only [OgrGeom.kind] at hk
  subst hk
  unfold GdalWriter.polygonBegin GdalWriter.addGeometry
  simp only [Bool.false_eq_true, if_false, GdalWriter.empty, OgrGeom.kind]
  have hcur := ogrCurrent_kind calls
  rcases hcur with hc | hc | hc | hc | hc | hc <;> rw [hc] <;> simp only
  iterate 5 exact .inr (.inr ⟨rfl, hr.mpr (by simp [hc]), hu, ho⟩)
  refine ⟨h.partPolygon hq rfl (by simp [OgrGeom.kind, hc]) (by simp [OgrGeom.members]) ?_, by simp [hr, hc], hu, ho⟩
  intro _ hm m hm'
  simp only [OgrGeom.members, List.mem_append, List.mem_singleton] at hm hm'
  rcases hm' with hm' | rfl
  · exact hm m hm'
  · rfl

theorem Hist.answer {calls : List Ev} {w : GdalWriter} (h : Hist calls w) (e : Ev) : Answer calls e (GdalWriter.step w e) := by
  have nothing : ∀ e, ogrType e = none → ¬ BeginsPart e → ¬ BeginsPartPolygon e → (∀ x y i, e ≠ .xy x y i) →
      (∀ i, e ≠ .emptyPoint i) → Answer calls e (.ok w) := fun e h0 h1 h2 h3 h4 =>
    ⟨h.neutral h0 h1 h2 rfl rfl fun _ => ⟨Iff.rfl, id⟩, quiet h3 h1 h2 h4⟩
  have fresh : ∀ e k, ogrType e = some k → Answer calls e (.ok (w.replace (GdalWriter.empty k))) := fun e k h0 =>
    ⟨h.new h0, quiet (by rintro x y i rfl; cases h0) (fun hp => by rw [ogrType_part hp] at h0; cases h0)
      (fun hp => by rw [ogrType_partPolygon hp] at h0; cases h0) (by rintro i rfl; cases h0)⟩
  cases e with
  | xy x y i => exact answer_xy h x y i
  | emptyPoint i =>
    refine .inr (.inr ⟨rfl, .inl ⟨i, rfl⟩, ?_, ?_⟩)
    · rintro ⟨⟨_, _, _, h⟩, _⟩; cases h
    · rintro ⟨⟨_, _, h⟩, _⟩; cases h
  | gbegin k t n i =>
    cases k with
    | lineString =>
      cases t with
      | true => exact fresh _ _ rfl
      | false => exact answer_part h n i
    | polygon =>
      cases t with
      | true => exact fresh _ _ rfl
      | false => exact answer_partPolygon h n i
    | point => exact fresh _ _ rfl
    | multiPoint => exact fresh _ _ rfl
    | multiLineString => exact fresh _ _ rfl
    | multiPolygon => exact fresh _ _ rfl
    | _ =>
      refine nothing _ rfl ?_ ?_ ?_ ?_
      · rintro ⟨_, _, h⟩; cases h
      · rintro ⟨_, _, h⟩; cases h
      · intro _ _ _ h; cases h
      · intro _ h; cases h
  | _ =>
    refine nothing _ rfl ?_ ?_ ?_ ?_
    · rintro ⟨_, _, h⟩; cases h
    · rintro ⟨_, _, h⟩; cases h
    · intro _ _ _ h; cases h
    · intro _ h; cases h

theorem feed_error {σ : Type} (st : σ → Ev → Except Err σ) (w : σ) (evs : List Ev) (x : Err) :
    feed st w evs = .error x ↔ ∃ pre e post v, evs = pre ++ e :: post ∧ feed st w pre = .ok v ∧ st v e = .error x := by
  constructor
  · induction evs generalizing w with
    | nil => intro h; cases h
    | cons e es ih =>
      intro h
      cases hs : st w e with
      | error y =>
        rw [feed_cons, hs] at h
        cases h
        exact ⟨[], e, es, w, rfl, rfl, hs⟩
      | ok w' =>
        rw [feed_cons, hs] at h
        obtain ⟨pre, f, post, v, rfl, h2, h3⟩ := ih w' h
        exact ⟨e :: pre, f, post, v, rfl, by rw [feed_cons, hs]; exact h2, h3⟩
  · rintro ⟨pre, e, post, v, rfl, h2, h3⟩
    rw [feed_append, h2]
    simp only [feed_cons, h3]

private theorem hist_feed {calls : List Ev} {w : GdalWriter} (h : feed GdalWriter.step {} calls = .ok w) :
    Hist calls w ∧ Harmless calls := by
  have key : ∀ (evs pre : List Ev) (v : GdalWriter), Hist pre v → Harmless pre → feed GdalWriter.step v evs = .ok w →
      Hist (pre ++ evs) w ∧ Harmless (pre ++ evs) := by
    intro evs
    induction evs with
    | nil =>
      intro pre v h1 h2 h3
      cases h3
      simpa using ⟨h1, h2⟩
    | cons e es ih =>
      intro pre v h1 h2 h3
      have ha := h1.answer e
      rw [feed_cons] at h3
      cases hs : GdalWriter.step v e with
      | error x => rw [hs] at h3; cases h3
      | ok v' =>
        rw [hs] at h3 ha
        obtain ⟨h4, h5⟩ := ha
        have := ih (pre ++ [e]) v' h4 ?_ h3
        · simpa using this
        · intro a f b hab
          rcases b.eq_nil_or_concat with rfl | ⟨b', x, rfl⟩
          · obtain ⟨rfl, h⟩ := List.append_inj' hab rfl
            cases h
            exact h5
          · rw [List.concat_eq_append, ← List.cons_append, ← List.append_assoc] at hab
            obtain ⟨rfl, h⟩ := List.append_inj' hab rfl
            exact h2 a f b' rfl
  have := key calls [] {} .init (by intro a e b h; simp at h) h
  simpa using this

private theorem harmless_feed {calls : List Ev} (h : Harmless calls) : ∃ w, feed GdalWriter.step {} calls = .ok w := by
  cases hf : feed GdalWriter.step {} calls with
  | ok w => exact ⟨w, rfl⟩
  | error x =>
    exfalso
    obtain ⟨pre, e, post, v, rfl, h2, h3⟩ := (feed_error _ _ _ _).mp hf
    have ha := (hist_feed h2).1.answer e
    rw [h3] at ha
    obtain ⟨h4, h5, h6⟩ := h pre e post rfl
    rcases ha with h | h | h
    · exact h5 h.2.1
    · exact h6 h.2.1
    · exact h4 h.2.1

private theorem toGdal_error_iff (src : Prog Unit) (bs : List Byte) (x : Err) : toGdal src bs = .error x ↔
    feed GdalWriter.step {} (run false src bs).1 = .error x ∨
      ((∃ w, feed GdalWriter.step {} (run false src bs).1 = .ok w) ∧ (run false src bs).2 = .error x) := by
  have hi := interp_run GdalWriter.proc false (fun _ => rfl) src {} bs
  have hs := interp_spec GdalWriter.proc src {} bs
  cases hf : feed GdalWriter.step {} (run false src bs).1 with
  | ok w =>
    have h := interp_of_feed_ok GdalWriter.proc false (fun _ => rfl) src {} w bs hf
    unfold toGdal
    rw [h]
    rcases (run false src bs) with ⟨evs, r | r⟩ <;> simp
  | error y =>
    have : toGdal src bs = .error y := by
      unfold toGdal
      rcases hr : interp GdalWriter.proc src {} bs with ⟨w, evs, r⟩
      rw [hr] at hs hi
      simp only at hs hi
      rcases hs with h1 | ⟨pre, e, z, h1, h2, h3, h4⟩
      · obtain ⟨h5, h6⟩ := hi.2 h1
        rw [h5] at h1
        have h1' : feed GdalWriter.step {} (run false src bs).1 = .ok w := h1
        rw [hf] at h1'
        cases h1'
      · subst h4
        obtain ⟨t, ht⟩ := hi.1
        have hz : feed GdalWriter.step {} (run false src bs).1 = .error z :=
          (feed_error _ _ _ _).mpr ⟨pre, e, t, w, by rw [← ht, h1]; simp, h2, h3⟩
        rw [hf] at hz
        cases hz
        rfl
    rw [this]
    simp

private theorem feed_panic_iff (calls : List Ev) (m : String) : feed GdalWriter.step {} calls = .error (.panic m) ↔
    ∃ before e after, calls = before ++ e :: after ∧ Harmless before ∧
      (m = "use after free" ∧ UsesFreed before e ∨ m = "attempt to subtract with overflow" ∧ Overflows before e) := by
  rw [feed_error]
  constructor
  · rintro ⟨pre, e, post, v, h1, h2, h3⟩
    obtain ⟨h4, h5⟩ := hist_feed h2
    refine ⟨pre, e, post, h1, h5, ?_⟩
    have ha := h4.answer e
    rw [h3] at ha
    rcases ha with h | h | h
    · simp only [Err.panic.injEq] at h
      exact .inl ⟨h.1, h.2.1⟩
    · simp only [Err.panic.injEq] at h
      exact .inr ⟨h.1, h.2.1⟩
    · exact absurd h.1 (by simp [Err.isPanic])
  · rintro ⟨pre, e, post, h1, h2, h3⟩
    obtain ⟨v, hv⟩ := harmless_feed h2
    have ha := (hist_feed hv).1.answer e
    refine ⟨pre, e, post, v, h1, hv, ?_⟩
    cases hs : GdalWriter.step v e with
    | ok v' =>
      rw [hs] at ha
      rcases h3 with h | h
      · exact absurd h.2 ha.2.2.1
      · exact absurd h.2 ha.2.2.2
    | error x =>
      rw [hs] at ha
      rcases ha with h | h | h <;> rcases h3 with h' | h'
      · rw [h.1, h'.1]
      · obtain ⟨⟨x, y, i, h⟩, _⟩ := h.2.1
        obtain ⟨⟨_, _, h'⟩, _⟩ := h'.2
        rw [h] at h'
        cases h'
      · obtain ⟨⟨x, y, i, h'⟩, _⟩ := h'.2
        obtain ⟨⟨_, _, h⟩, _⟩ := h.2.1
        rw [h'] at h
        cases h
      · rw [h.1, h'.1]
      · exact absurd h'.2 h.2.2.1
      · exact absurd h'.2 h.2.2.2

/-- C55 exactly: converting WKB of any dialect to a GDAL geometry writes to freed memory if and only if, after harmless calls, a
coordinate comes for a multi line string, polygon or multi polygon before any line of it has been begun and after a line of a
geometry before it was. -/
theorem C55_use_after_free_iff (fo : FOps) (d : WkbDialect) (bs : List Byte) :
    gdalFromWkb fo d bs = .error (.panic "use after free") ↔
      ∃ before e after, (run false (processWkbTypeGeom fo d) bs).1 = before ++ e :: after ∧ Harmless before ∧ UsesFreed before e := by
  unfold gdalFromWkb
  rw [toGdal_error_iff, feed_panic_iff]
  constructor
  · rintro (⟨a, e, b, h1, h2, h3⟩ | ⟨_, h⟩)
    · rcases h3 with h3 | h3
      · exact ⟨a, e, b, h1, h2, h3.2⟩
      · exact absurd h3.1 (by decide)
    · exact absurd (C10_reader_never_panics fo d false bs _ _ (Prod.ext rfl h)) (by simp [Err.isPanic])
  · rintro ⟨a, e, b, h1, h2, h3⟩
    exact .inl ⟨a, e, b, h1, h2, .inl ⟨rfl, h3⟩⟩

/-- C55 exactly: converting WKB of any dialect to a GDAL geometry panics or writes to freed memory if and only if one of the
calls, all calls before it being answered without an error, does. -/
theorem C55_panics_iff (fo : FOps) (d : WkbDialect) (bs : List Byte) :
    (∃ m, gdalFromWkb fo d bs = .error (.panic m)) ↔
      ∃ before e after, (run false (processWkbTypeGeom fo d) bs).1 = before ++ e :: after ∧ Harmless before ∧
        (UsesFreed before e ∨ Overflows before e) := by
  unfold gdalFromWkb
  constructor
  · rintro ⟨m, hm⟩
    rw [toGdal_error_iff, feed_panic_iff] at hm
    rcases hm with ⟨a, e, b, h1, h2, h3⟩ | ⟨_, h⟩
    · exact ⟨a, e, b, h1, h2, h3.imp (·.2) (·.2)⟩
    · exact absurd (C10_reader_never_panics fo d false bs _ _ (Prod.ext rfl h)) (by simp [Err.isPanic])
  · rintro ⟨a, e, b, h1, h2, h3 | h3⟩
    · exact ⟨_, (toGdal_error_iff _ _ _).mpr (.inl ((feed_panic_iff _ _).mpr ⟨a, e, b, h1, h2, .inl ⟨rfl, h3⟩⟩))⟩
    · exact ⟨_, (toGdal_error_iff _ _ _).mpr (.inl ((feed_panic_iff _ _).mpr ⟨a, e, b, h1, h2, .inr ⟨rfl, h3⟩⟩))⟩

/-- When there is a result: exactly if the bytes are read to the end and every call is harmless. -/
theorem C55_converts_iff (fo : FOps) (d : WkbDialect) (bs : List Byte) :
    (∃ g, gdalFromWkb fo d bs = .ok g) ↔
      Harmless (run false (processWkbTypeGeom fo d) bs).1 ∧ ∃ rest, (run false (processWkbTypeGeom fo d) bs).2 = .ok ((), rest) := by
  unfold gdalFromWkb
  have h := toGdal_error_iff (processWkbTypeGeom fo d) bs
  constructor
  · rintro ⟨g, hg⟩
    rw [hg] at h
    have hf : ∃ w, feed GdalWriter.step {} (run false (processWkbTypeGeom fo d) bs).1 = .ok w := by
      cases hf : feed GdalWriter.step {} (run false (processWkbTypeGeom fo d) bs).1 with
      | ok w => exact ⟨w, rfl⟩
      | error x => exact absurd ((h x).mpr (.inl hf)) (by simp)
    refine ⟨(hist_feed hf.choose_spec).2, ?_⟩
    cases hr : (run false (processWkbTypeGeom fo d) bs).2 with
    | ok a => exact ⟨a.2, rfl⟩
    | error x => exact absurd ((h x).mpr (.inr ⟨hf, hr⟩)) (by simp)
  · rintro ⟨h1, rest, h2⟩
    obtain ⟨w, hw⟩ := harmless_feed h1
    cases hg : toGdal (processWkbTypeGeom fo d) bs with
    | ok g => exact ⟨g, rfl⟩
    | error x =>
      rcases (h x).mp hg with h3 | ⟨_, h3⟩
      · rw [hw] at h3; cases h3
      · rw [h2] at h3; cases h3

private theorem mem_evList {α : Type} {f : Nat → α → List Ev} {i : Nat} {xs : List α} {e : Ev} (h : e ∈ evList f i xs) :
    ∃ x ∈ xs, ∃ j, e ∈ f j x := by
  induction xs generalizing i with
  | nil => simp [evList] at h
  | cons x xs ih =>
    simp only [evList, List.mem_append] at h
    rcases h with h | h
    · exact ⟨x, by simp, i, h⟩
    · obtain ⟨y, hy, j, hj⟩ := ih h
      exact ⟨y, by simp [hy], j, hj⟩

private theorem none_coords {i : Nat} {cs : List Coord} {e : Ev} (h : e ∈ evList (coordEvs false) i cs) : ogrType e = none := by
  obtain ⟨c, _, j, hj⟩ := mem_evList h
  simp only [coordEvs, coordEv, Bool.false_eq_true, if_false, List.mem_singleton] at hj
  rw [hj]
  rfl

private theorem none_bracket {α : Type} {k : GKind} {idx : Nat} {f : Nat → α → List Ev} {xs : List α} {e : Ev}
    (hf : ∀ x ∈ xs, ∀ j e, e ∈ f j x → ogrType e = none) (t : Bool)
    (hk : ogrType (.gbegin k t xs.length idx) = none) (h : e ∈ bracket k t idx f xs) : ogrType e = none := by
  simp only [bracket, List.mem_cons, List.mem_append, List.not_mem_nil, or_false] at h
  rcases h with rfl | h | rfl
  · exact hk
  · obtain ⟨x, hx, j, hj⟩ := mem_evList h
    exact hf x hx j e hj
  · rfl

private theorem none_line {i : Nat} {cs : List Coord} {e : Ev} (h : e ∈ lineEvs false false i cs) : ogrType e = none :=
  none_bracket (fun c _ j e he => none_coords (i := j) (cs := [c]) (by simpa [evList] using he)) false rfl h

private theorem none_seg {i : Nat} {s : Seg} {e : Ev} (h : e ∈ segEvs false i s) : ogrType e = none := by
  cases s with
  | line cs => exact none_line h
  | circ cs => exact none_bracket (fun c _ j e he => none_coords (i := j) (cs := [c]) (by simpa [evList] using he)) true rfl h

private theorem none_curve {i : Nat} {s : Curve} {e : Ev} (h : e ∈ curveEvs false i s) : ogrType e = none := by
  cases s with
  | seg s => exact none_seg h
  | compound ss => exact none_bracket (fun _ _ _ _ => none_seg) true rfl h

private theorem none_poly {i : Nat} {rs : List (List Coord)} {e : Ev} (h : e ∈ polyEvs false false i rs) : ogrType e = none :=
  none_bracket (fun _ _ _ _ => none_line) false rfl h

private theorem none_tri {i : Nat} {t : Bool} {rs : List (List Coord)} {e : Ev} (h : e ∈ triEvs false t i rs) : ogrType e = none :=
  none_bracket (fun _ _ _ _ => none_line) t rfl h

private theorem none_surface {i : Nat} {s : Surface} {e : Ev} (h : e ∈ surfaceEvs false i s) : ogrType e = none := by
  cases s with
  | polygon rs => exact none_poly h
  | curvePolygon rs => exact none_bracket (fun _ _ _ _ => none_curve) true rfl h

/-- the calls of a geometry other than a collection: only the first makes a geometry, and the first call inside a multi polygon
begins a polygon -/
private def OneGeometry (calls : List Ev) : Prop := ∃ h t, calls = h :: t ∧ (∀ f ∈ t, ogrType f = none) ∧ ¬ BeginsPart h ∧
  (ogrType h = some .multiPolygon → ∀ e t', t = e :: t' → ¬ BeginsPart e ∧ (BeginsPartPolygon e ∨ t' = []))

private theorem one_bracket {α : Type} {k : GKind} {idx : Nat} {f : Nat → α → List Ev} {xs : List α}
    (hf : ∀ x ∈ xs, ∀ j e, e ∈ f j x → ogrType e = none)
    (hm : k = .multiPolygon → ∀ x j, ∃ n t, f j x = .gbegin .polygon false n j :: t) : OneGeometry (bracket k true idx f xs) := by
  refine ⟨_, _, rfl, ?_, ?_, ?_⟩
  · intro e h
    simp only [List.mem_append, List.mem_singleton] at h
    rcases h with h | rfl
    · obtain ⟨x, hx, j, hj⟩ := mem_evList h
      exact hf x hx j e hj
    · rfl
  · rintro ⟨_, _, h⟩; cases h
  · intro hk e t' ht
    have hk' : k = .multiPolygon := by cases k <;> first | rfl | cases hk
    cases xs with
    | nil =>
      simp only [evList, List.nil_append, List.cons.injEq] at ht
      obtain ⟨rfl, rfl⟩ := ht
      exact ⟨(by rintro ⟨_, _, h⟩; cases h), .inr rfl⟩
    | cons x xs =>
      obtain ⟨n, t, hx⟩ := hm hk' x 0
      simp only [evList, hx, List.cons_append, List.cons.injEq] at ht
      obtain ⟨rfl, _⟩ := ht
      exact ⟨(by rintro ⟨_, _, h⟩; cases h), .inl ⟨_, _, rfl⟩⟩

private theorem one_geometry (g : Geom) (hg : ∀ gs, g ≠ .collection gs) (idx : Nat) : OneGeometry (g.events false idx) := by
  have hc : ∀ (cs : List Coord), ∀ x ∈ cs, ∀ j e, e ∈ coordEvs false j x → ogrType e = none :=
    fun cs c _ j e he => none_coords (i := j) (cs := [c]) (by simpa [evList] using he)
  cases g with
  | emptyPoint => exact ⟨_, [], rfl, by simp, (by rintro ⟨_, _, h⟩; cases h), (by intro h; cases h)⟩
  | point c =>
    refine ⟨_, _, rfl, ?_, (by rintro ⟨_, _, h⟩; cases h), (by intro h; cases h)⟩
    intro f hf
    simp only [coordEv, Bool.false_eq_true, if_false, List.mem_cons, List.not_mem_nil, or_false] at hf
    rcases hf with rfl | rfl <;> rfl
  | multiPoint cs => exact one_bracket (hc cs) (by intro h; cases h)
  | lineString cs => exact one_bracket (hc cs) (by intro h; cases h)
  | circularString cs => exact one_bracket (hc cs) (by intro h; cases h)
  | compoundCurve ss => exact one_bracket (fun _ _ _ _ => none_seg) (by intro h; cases h)
  | multiLineString ls => exact one_bracket (fun _ _ _ _ => none_line) (by intro h; cases h)
  | multiCurve cs => exact one_bracket (fun _ _ _ _ => none_curve) (by intro h; cases h)
  | polygon rs => exact one_bracket (fun _ _ _ _ => none_line) (by intro h; cases h)
  | triangle rs => exact one_bracket (fun _ _ _ _ => none_line) (by intro h; cases h)
  | curvePolygon rs => exact one_bracket (fun _ _ _ _ => none_curve) (by intro h; cases h)
  | multiPolygon ps => exact one_bracket (fun _ _ _ _ => none_poly) (fun _ x j => ⟨_, _, rfl⟩)
  | polyhedralSurface ps => exact one_bracket (fun _ _ _ _ => none_poly) (by intro h; cases h)
  | tin ts => exact one_bracket (fun _ _ _ _ => none_tri) (by intro h; cases h)
  | multiSurface ss => exact one_bracket (fun _ _ _ _ => none_surface) (by intro h; cases h)
  | collection gs => exact absurd rfl (hg gs)

private theorem ogrType_loose (e : Ev) : ogrType (looseEv e) = ogrType e := by
  unfold looseEv
  split
  · rfl
  · rfl
  · rename_i t n i; cases t <;> rfl
  · rfl

private theorem part_loose (e : Ev) : BeginsPart (looseEv e) ↔ BeginsPart e := by
  unfold looseEv
  split
  · exact ⟨(by rintro ⟨_, _, h⟩; cases h), (by rintro ⟨_, _, h⟩; cases h)⟩
  · exact ⟨(by rintro ⟨_, _, h⟩; cases h), (by rintro ⟨_, _, h⟩; cases h)⟩
  · rename_i t n i
    exact ⟨(by rintro ⟨_, _, h⟩; cases h; exact ⟨_, _, rfl⟩), (by rintro ⟨_, _, h⟩; cases h; exact ⟨_, _, rfl⟩)⟩
  · rfl

private theorem partPolygon_loose (e : Ev) : BeginsPartPolygon (looseEv e) ↔ BeginsPartPolygon e := by
  unfold looseEv
  split
  · exact ⟨(by rintro ⟨_, _, h⟩; cases h), (by rintro ⟨_, _, h⟩; cases h)⟩
  · exact ⟨(by rintro ⟨_, _, h⟩; cases h), (by rintro ⟨_, _, h⟩; cases h)⟩
  · exact ⟨(by rintro ⟨_, _, h⟩; cases h), (by rintro ⟨_, _, h⟩; cases h)⟩
  · rfl

private theorem since_map {P P' : List Ev → Ev → Prop} {Q Q' : Ev → Prop} {calls : List Ev} (f : Ev → Ev)
    (hP : ∀ a e, P a e → P' (a.map f) (f e)) (hQ : ∀ e, Q e → Q' (f e)) (h : Since P Q calls) : Since P' Q' (calls.map f) := by
  obtain ⟨a, e, b, rfl, h1, h2⟩ := h
  refine ⟨a.map f, f e, b.map f, by simp, hP a e h1, ?_⟩
  intro x hx
  obtain ⟨y, hy, rfl⟩ := List.mem_map.mp hx
  exact hQ y (h2 y hy)

/-- neither can happen with the calls of one geometry that is not a collection -/
private theorem one_harmless {s : Option Int} {calls : List Ev} (h1 : OneGeometry calls) {before : List Ev} {e : Ev}
    (hp : before ++ [e] <+: .srid s :: calls) : ¬ LineDropped before ∧ ¬ Overflows before e := by
  obtain ⟨h, t, rfl, hn, hb, hm⟩ := h1
  have hsr : ¬ BeginsPart (.srid s) := by rintro ⟨_, _, h⟩; cases h
  constructor
  · rintro ⟨a, f, b, rfl, ⟨⟨g, hg, hgp⟩, hf⟩, _⟩
    -- `f` is not the first call of the geometry, as a part was begun before it
    match a, hg with
    | x :: [], hg =>
      simp only [List.cons_append, List.append_assoc, List.cons_prefix_cons] at hp
      simp only [List.mem_singleton] at hg
      rw [hg, hp.1] at hgp
      exact hsr hgp
    | x :: y :: a, hg =>
      simp only [List.cons_append, List.append_assoc, List.cons_prefix_cons] at hp
      exact hf (hn f (hp.2.2.subset (by simp)))
  · rintro ⟨he, a, f, b, rfl, hf, hb'⟩
    match a with
    | [] =>
      simp only [List.nil_append, List.cons_append, List.cons_prefix_cons] at hp
      rw [hp.1] at hf
      cases hf
    | [x] =>
      simp only [List.cons_append, List.nil_append, List.append_assoc, List.cons_prefix_cons] at hp
      obtain ⟨rfl, rfl, ht⟩ := hp
      cases b with
      | nil =>
        simp only [List.nil_append] at ht
        obtain ⟨t', rfl⟩ := ht
        exact (hm hf e t' rfl).1 he
      | cons y b =>
        obtain ⟨t', rfl⟩ := ht
        rcases (hm hf y (b ++ [e] ++ t') (by simp)).2 with h3 | h3
        · exact (hb' y (by simp)).2 h3
        · simp at h3
    | x :: y :: a =>
      simp only [List.cons_append, List.append_assoc, List.cons_prefix_cons] at hp
      rw [hn f (hp.2.2.subset (by simp))] at hf
      cases hf

/-- Only geometry collections can do harm: bytes of any dialect, conformant or not, in which no collection begins are converted or
rejected without a panic and without touching freed memory. -/
theorem C55_outside_collections (fo : FOps) (d : WkbDialect) (bs : List Byte)
    (hc : ∀ e ∈ (run false (processWkbTypeGeom fo d) bs).1, ∀ t n i, e ≠ .gbegin .collection t n i) (m : String) :
    gdalFromWkb fo d bs ≠ .error (.panic m) := by
  intro hm
  obtain ⟨before, e, after, h1, _, h3⟩ := (C55_panics_iff fo d bs).mp ⟨m, hm⟩
  have hpre : ∃ srid g, (run false (processWkbTypeGeom fo d) bs).1.map looseEv
      <+: (Ev.srid srid :: Geom.events false 0 g).map looseEv := by
    rcases hrun : run false (processWkbTypeGeom fo d) bs with ⟨evs, r⟩
    cases r with
    | ok a =>
      obtain ⟨⟨⟩, rest⟩ := a
      by_cases hd : d = .spatiaLite
      · subst hd
        obtain ⟨srid, g, _, h2⟩ := C08_spatialite_success_loose fo false bs rest evs hrun
        exact ⟨srid, g, by rw [h2]; exact List.prefix_refl _⟩
      · obtain ⟨srid, g, _, h2⟩ := C08_success_is_one_geometry fo d hd false bs rest evs hrun
        exact ⟨srid, g, by rw [h2]; exact List.prefix_refl _⟩
    | error e =>
      by_cases hd : d = .spatiaLite
      · subst hd
        exact C09_spatialite_failure_loose fo false bs evs e hrun
      · obtain ⟨srid, g, h2⟩ := C09_failure_is_prefix fo d hd false bs evs e hrun
        exact ⟨srid, g, h2.map _⟩
  obtain ⟨srid, g, hg⟩ := hpre
  rw [h1] at hg hc
  have hsplit : before.map looseEv ++ [looseEv e] <+: (Ev.srid srid :: Geom.events false 0 g).map looseEv :=
    List.IsPrefix.trans ⟨after.map looseEv, by simp⟩ hg
  by_cases hcol : ∃ gs, g = .collection gs
  · obtain ⟨gs, rfl⟩ := hcol
    match before with
    | [] =>
      simp only [List.map_nil, List.nil_append, List.map_cons, List.cons_prefix_cons] at hsplit
      rcases h3 with h3 | h3
      · obtain ⟨⟨x, y, i, rfl⟩, _⟩ := h3
        cases hsplit.1
      · obtain ⟨_, a, f, b, h, _⟩ := h3
        simp at h
    | [x] =>
      simp only [Geom.events, List.map_cons, List.map_nil, List.cons_append, List.nil_append, List.cons_prefix_cons] at hsplit
      have h2 : looseEv e = .gbegin .collection true gs.length 0 := hsplit.2.1
      have := hc e (by simp) true gs.length 0
      cases e with
      | gbegin k t n i => cases k <;> simp_all [looseEv]
      | _ => simp [looseEv] at h2
    | x :: y :: before =>
      simp only [Geom.events, List.map_cons, List.cons_append, List.cons_prefix_cons] at hsplit
      have h2 : looseEv y = .gbegin .collection true gs.length 0 := hsplit.2.1
      have := hc y (by simp) true gs.length 0
      cases y with
      | gbegin k t n i => cases k <;> simp_all [looseEv]
      | _ => simp [looseEv] at h2
  · have hone := one_geometry g (fun gs h => hcol ⟨gs, h⟩) 0
    have hone' : OneGeometry ((g.events false 0).map looseEv) := by
      obtain ⟨h, t, ht, hn, hb, hm⟩ := hone
      refine ⟨looseEv h, t.map looseEv, by simp [ht], ?_, by rwa [part_loose], ?_⟩
      · intro f hf
        obtain ⟨f', hf', rfl⟩ := List.mem_map.mp hf
        rw [ogrType_loose]; exact hn f' hf'
      · rw [ogrType_loose]
        intro hk e t' ht'
        obtain ⟨e', t'', rfl, rfl, rfl⟩ := List.map_eq_cons_iff.mp ht'
        rw [part_loose, partPolygon_loose]
        obtain ⟨h5, h6⟩ := hm hk e' t'' rfl
        exact ⟨h5, h6.imp id (by rintro rfl; rfl)⟩
    obtain ⟨h4, h5⟩ := one_harmless hone' (s := srid) hsplit
    rcases h3 with h3 | h3
    · refine h4 (since_map looseEv ?_ (fun e h => by rwa [part_loose]) h3.2.2)
      rintro a f ⟨⟨x, hx, hxp⟩, hf⟩
      exact ⟨⟨looseEv x, List.mem_map_of_mem hx, by rwa [part_loose]⟩, by rwa [ogrType_loose]⟩
    · refine h5 ⟨(part_loose e).mpr h3.1, since_map looseEv ?_ (fun e h => ?_) h3.2⟩
      · intro a f hf
        rwa [ogrType_loose]
      · rwa [ogrType_loose, partPolygon_loose]

/-! ### non-vacuity -/

/-- a coordinate of the circular string in the polygon begun after the polygon with a ring: `C55_use_after_free_false` -/
example (fo : FOps) : ∃ before e after, (run false (processWkbTypeGeom fo .wkb) ([1, 7, 0, 0, 0, 3, 0, 0, 0] ++
      ([1, 3, 0, 0, 0, 1, 0, 0, 0, 1, 0, 0, 0] ++ List.replicate 16 0) ++ [1, 3, 0, 0, 0, 0, 0, 0, 0] ++
      ([1, 8, 0, 0, 0, 1, 0, 0, 0] ++ List.replicate 16 0))).1 = before ++ e :: after ∧ Harmless before ∧ UsesFreed before e :=
  (C55_use_after_free_iff fo .wkb _).mp (C55_use_after_free_false fo)

/-- the condition can also be checked by hand: `POLYGON((..)), POLYGON EMPTY` and then a coordinate -/
example (x y : F64) : UsesFreed [.gbegin .polygon true 1 0, .gbegin .lineString false 0 0, .gend .lineString false 0, .gend .polygon true 0,
    .gbegin .polygon true 0 1, .gend .polygon true 1] (.xy x y 0) :=
  ⟨⟨x, y, 0, rfl⟩, .inr (.inl rfl), [.gbegin .polygon true 1 0, .gbegin .lineString false 0 0, .gend .lineString false 0,
    .gend .polygon true 0], .gbegin .polygon true 0 1, [.gend .polygon true 1], rfl,
    ⟨⟨.gbegin .lineString false 0 0, by simp, 0, 0, rfl⟩, by simp [ogrType]⟩, by rintro f hf ⟨_, _, rfl⟩; simp at hf⟩

example (fo : FOps) : ∃ before e after, (run false (processWkbTypeGeom fo .wkb) ([1, 7, 0, 0, 0, 2, 0, 0, 0] ++ [1, 6, 0, 0, 0, 0, 0, 0, 0] ++
      ([1, 17, 0, 0, 0, 1, 0, 0, 0, 1, 0, 0, 0] ++ List.replicate 16 0))).1 = before ++ e :: after ∧ Harmless before ∧
        (UsesFreed before e ∨ Overflows before e) :=
  (C55_panics_iff fo .wkb _).mp ⟨_, C55_no_polygon_false fo⟩

/-- a collection of a polygon and a circular string, which becomes part of nothing, is converted -/
example (fo : FOps) : Harmless (run false (processWkbTypeGeom fo .wkb) ([1, 7, 0, 0, 0, 2, 0, 0, 0] ++
      ([1, 3, 0, 0, 0, 1, 0, 0, 0, 1, 0, 0, 0] ++ List.replicate 16 0) ++ ([1, 8, 0, 0, 0, 1, 0, 0, 0] ++ List.replicate 16 0))).1 :=
  ((C55_converts_iff fo .wkb _).mp ⟨_, rfl⟩).1

/-- a truncated multi polygon -/
example (fo : FOps) (m : String) : gdalFromWkb fo .wkb [1, 6, 0, 0, 0, 1, 0, 0, 0, 1, 3, 0, 0, 0, 2, 0, 0, 0] ≠ .error (.panic m) := by
  refine C55_outside_collections fo .wkb _ (fun e he t n i => ?_) m
  have : (run false (processWkbTypeGeom fo .wkb) [1, 6, 0, 0, 0, 1, 0, 0, 0, 1, 3, 0, 0, 0, 2, 0, 0, 0]).1 =
    [.srid none, .gbegin .multiPolygon true 1 0, .gbegin .polygon false 2 0] := rfl
  rw [this] at he
  rintro rfl
  simp at he

end Geozero
