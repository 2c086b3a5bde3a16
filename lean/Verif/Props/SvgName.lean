import Verif.Props.Svg

/-
C44: which data set names an SVG document carries.
-/

namespace Geozero
open Prog

/-- the attribute values collected so far have no markup -/
private def ModePlain : XmlMode → Prop
  | .inTag _ as _ | .attrName _ as _ | .attrEq _ as _ | .slash _ as => ∀ p ∈ as, PlainXml p.2
  | .attrVal _ as _ v => (∀ p ∈ as, PlainXml p.2) ∧ PlainXml v
  | _ => True

private def TokPlain : XmlTok → Prop
  | .open _ as | .empty _ as => ∀ p ∈ as, PlainXml p.2
  | _ => True

private theorem next_plain {m m' : XmlMode} {c : Char} {ts : List XmlTok} (hm : ModePlain m) (h : m.next c = some (m', ts)) :
    ModePlain m' ∧ ∀ t ∈ ts, TokPlain t := by
  cases m with
  | attrVal n as a v =>
    obtain ⟨h1, h2⟩ := hm
    simp only [XmlMode.next] at h
    split at h
    · cases h
      refine ⟨?_, by simp⟩
      intro p hp
      rcases List.mem_append.mp hp with hp | hp
      · exact h1 p hp
      · simp only [List.mem_singleton] at hp
        subst hp
        exact h2
    · split at h
      · cases h
      · rename_i hq hl
        cases h
        refine ⟨⟨h1, ?_⟩, by simp⟩
        intro d hd
        rcases List.mem_append.mp hd with hd | hd
        · exact h2 d hd
        · simp only [List.mem_singleton] at hd
          subst hd
          simp only [not_or] at hl
          exact ⟨hl.1, hl.2, hq⟩
  | _ =>
    simp only [XmlMode.next] at h
    repeat' split at h
    all_goals first
      | (cases h; done)
      | (cases h; exact ⟨by simpa [ModePlain] using hm, by simpa [TokPlain, ModePlain] using hm⟩)
      | (cases h; exact ⟨⟨hm, fun _ h => absurd h (by simp)⟩, by simp⟩)
      | (cases h; simp [TokPlain, ModePlain]; done)

private theorem scan_plain {m m' : XmlMode} {t : Text} {ts : List XmlTok} (hm : ModePlain m) (h : xmlScan m t = some (m', ts)) :
    ∀ x ∈ ts, TokPlain x := by
  induction t generalizing m ts with
  | nil => cases h; simp
  | cons c t ih =>
    simp only [xmlScan] at h
    split at h
    · cases h
    · rename_i m1 t1 h1
      obtain ⟨hm1, ht1⟩ := next_plain hm h1
      split at h
      · cases h
      · rename_i m2 t2 h2
        cases h
        intro x hx
        rcases List.mem_append.mp hx with hx | hx
        · exact ht1 x hx
        · exact ih hm1 h2 x hx

/-- C44, exactly: any writer and any data set of geometries without empty points, whatever its name.  The document is well-formed and has
the name of the data set as the `id` of its group if and only if the name has no `<`, `&` and `"`. -/
theorem C44_name_iff (fo : SvgNum) (hp : fo.Plain) (w : SvgWriter) (hw : w.out = []) (name : Option Text)
    (hs : PlainXml (w.style.getD [])) (fs : List Feat) (gs : List (Option Geom))
    (hf : fs.map Feat.geomCalls = gs.map fun g => (g.map (Geom.events false 0)).getD []) (hg : ∀ g, some g ∈ gs → g.NoEmptyPoint) :
    ∃ w', feed (SvgWriter.step fo) w (datasetEvs name fs) = .ok w' ∧
      ((∃ ts as, xmlTokens w'.out = some ts ∧ xmlDocument false [] ts = true ∧ .open (txt "g") as ∈ ts ∧ (txt "id", name.getD []) ∈ as) ↔
        PlainXml (name.getD [])) := by
  refine ⟨_, feed_dataset fo fs gs hf hg name w, ?_⟩
  simp only [SvgWriter.put_out, hw, List.nil_append]
  constructor
  · rintro ⟨ts, as, h1, -, h2, h3⟩
    unfold xmlTokens at h1
    split at h1
    · rename_i ts' hscan
      cases h1
      exact scan_plain (m := .content) trivial hscan _ h2 _ h3
    · cases h1
  · intro hn
    exact ⟨_, [(txt "id", name.getD [])], tokens_of_scans (scans_doc hp w name hn hs gs), document_doc fo w name gs,
      by simp [svgHeadToks], by simp⟩

example : ¬ PlainXml (txt "Bed & Breakfast") ∧ PlainXml (txt "Straßen") := by
  constructor
  · intro h
    exact (h '&' (by decide)).2.1 rfl
  · intro c hc
    revert c
    decide

end Geozero
