import Verif.Model.Csv
import Verif.Lemmas.Features
import Verif.Lemmas.WktParse

namespace Geozero
open Spec

namespace CsvWriter

/-! ### the geometry column -/

theorem feed_geomEvs (fmt : Fmt) (es : List Ev) (w : CsvWriter) :
    feed (step fmt) w (es.map FEv.geom) =
      match feed (geomStep fmt.f64) w.wkt es with
      | .error x => .error x
      | .ok k => .ok { w with wkt := k } := by
  induction es generalizing w with
  | nil => rfl
  | cons e es ih =>
    simp only [List.map_cons, feed_cons, step]
    cases geomStep fmt.f64 w.wkt e with
    | error x => rfl
    | ok k => exact ih _

/-- set the index of a begin call or empty point -/
def at0 : Ev → Ev
  | .emptyPoint _ => .emptyPoint 0
  | .gbegin k t s _ => .gbegin k t s 0
  | e => e

/-- the index of an end call does not matter -/
def normEnd : Ev → Ev
  | .gend k t _ => .gend k t 0
  | e => e

theorem step_normEnd (num : F64 → Text) (k : WktWriter) (e : Ev) : k.step num (normEnd e) = k.step num e := by
  cases e <;> rfl

theorem feed_normEnd (num : F64 → Text) (k : WktWriter) (es : List Ev) :
    feed (WktWriter.step num) k (es.map normEnd) = feed (WktWriter.step num) k es := by
  induction es generalizing k with
  | nil => rfl
  | cons e es ih =>
    simp only [List.map_cons, feed_cons, step_normEnd]
    cases k.step num e with
    | error x => rfl
    | ok k' => exact ih k'

def noSrid : Ev → Bool
  | .srid _ => false
  | _ => true

theorem geomStep_started (num : F64 → Text) (k : WktWriter) (h : started k = true) (e : Ev) (he : noSrid e = true) :
    geomStep num k e = k.step num e := by
  cases e <;> simp_all [geomStep, offsetIdx, noSrid]

open WktWriter in
theorem step_out (num : F64 → Text) (k k' : WktWriter) (e : Ev) (h : k.step num e = .ok k') :
    ∃ t, k'.out = k.out ++ t := by
  have hh : ∃ t, k.header.out = k.out ++ t := by
    unfold header
    split
    · split
      · exact ⟨[], by simp⟩
      · split
        · exact ⟨[], by simp⟩
        · exact ⟨_, rfl⟩
    · exact ⟨[], by simp⟩
  have hb : ∀ t b n i, ∃ t', (k.geomBegin t b n i).out = k.out ++ t' := by
    intro t b n i
    obtain ⟨u, hu⟩ := hh
    rw [geomBegin_eq]
    simp only [put, hu]
    exact ⟨_, List.append_assoc _ _ _⟩
  have he : ∀ (v v' : WktWriter), v.geomEnd = .ok v' → ∃ t, v'.out = v.out ++ t := by
    intro v v' h
    unfold geomEnd at h
    split at h
    · cases h
      split
      · exact ⟨_, rfl⟩
      · exact ⟨[], by simp⟩
    · cases h
  cases e with
  | srid s => cases h; exact ⟨[], by simp⟩
  | xy x y i =>
    cases h
    simp only [xy, comma_eq]
    split <;> (rw [put_put]; exact ⟨_, rfl⟩)
  | coord x y z m t tm i =>
    cases h
    simp only [coordinate, comma_eq]
    split <;> (rw [put_put]; exact ⟨_, rfl⟩)
  | emptyPoint i =>
    simp only [WktWriter.step] at h
    obtain ⟨t, ht⟩ := he _ _ h
    obtain ⟨u, hu⟩ := hb (txt "POINT") true 0 i
    exact ⟨u ++ t, by rw [ht, hu, List.append_assoc]⟩
  | gbegin g t n i => cases g <;> cases h <;> exact hb _ _ _ _
  | gend g t i => exact he _ _ h

theorem feed_started (num : F64 → Text) (k : WktWriter) (h : started k = true) (es : List Ev)
    (he : ∀ e ∈ es, noSrid e = true) : feed (geomStep num) k es = feed (WktWriter.step num) k es := by
  induction es generalizing k with
  | nil => rfl
  | cons e es ih =>
    simp only [feed_cons, geomStep_started num k h e (he e (by simp))]
    cases hs : k.step num e with
    | error x => rfl
    | ok k' =>
      refine ih k' ?_ (fun e h => he e (by simp [h]))
      obtain ⟨t, ht⟩ := step_out num k k' e hs
      simp only [started, ht] at h ⊢
      cases hk : k.out with
      | nil => rw [hk] at h; cases h
      | cons a b => rfl

theorem started_of_out {k : WktWriter} (h : k.out ≠ []) : started k = true := by
  unfold started
  cases hk : k.out with
  | nil => exact absurd hk h
  | cons a b => rfl

theorem geomStep_first (num : F64 → Text) (k : WktWriter) (h : k.out = []) (e : Ev)
    (he : (∃ i, e = .emptyPoint i) ∨ ∃ g t s i, e = .gbegin g t s i) : geomStep num k e = k.step num (at0 e) := by
  have : started k = false := by unfold started; rw [h]; rfl
  rcases he with ⟨i, rfl⟩ | ⟨g, t, s, i, rfl⟩ <;> simp [geomStep, at0, offsetIdx, this]

theorem noSrid_evList {α : Type} (f : Nat → α → List Ev) (xs : List α)
    (h : ∀ x ∈ xs, ∀ i, ∀ e ∈ f i x, noSrid e = true) (i : Nat) : ∀ e ∈ evList f i xs, noSrid e = true := by
  induction xs generalizing i with
  | nil => simp [evList]
  | cons x xs ih =>
    intro e he
    rcases List.mem_append.mp he with he | he
    · exact h x (by simp) i e he
    · exact ih (fun y hy => h y (by simp [hy])) (i + 1) e he

theorem noSrid_bracket {α : Type} (k : GKind) (t : Bool) (idx : Nat) (f : Nat → α → List Ev) (xs : List α)
    (h : ∀ x ∈ xs, ∀ i, ∀ e ∈ f i x, noSrid e = true) : ∀ e ∈ bracket k t idx f xs, noSrid e = true := by
  intro e he
  simp only [bracket, List.mem_cons, List.mem_append, List.not_mem_nil, or_false] at he
  rcases he with rfl | he | rfl
  · rfl
  · exact noSrid_evList f xs h 0 e he
  · rfl

theorem noSrid_coords (multi : Bool) (k : GKind) (t : Bool) (idx : Nat) (cs : List Coord) :
    ∀ e ∈ bracket k t idx (coordEvs multi) cs, noSrid e = true :=
  noSrid_bracket _ _ _ _ _ fun c _ i e he => by
    cases multi <;> simp [coordEvs, coordEv] at he <;> subst he <;> rfl

theorem noSrid_rings (multi : Bool) (k : GKind) (t : Bool) (idx : Nat) (rs : List (List Coord)) :
    ∀ e ∈ bracket k t idx (lineEvs multi false) rs, noSrid e = true :=
  noSrid_bracket _ _ _ _ _ fun c _ i e he => noSrid_coords multi _ _ i c e he

theorem noSrid_seg (multi : Bool) (i : Nat) (s : Seg) : ∀ e ∈ segEvs multi i s, noSrid e = true := by
  cases s <;> exact noSrid_coords _ _ _ _ _

theorem noSrid_curve (multi : Bool) (i : Nat) (s : Curve) : ∀ e ∈ curveEvs multi i s, noSrid e = true := by
  cases s with
  | seg s => exact noSrid_seg multi i s
  | compound ss => exact noSrid_bracket _ _ _ _ _ fun s _ i e he => noSrid_seg multi i s e he

theorem noSrid_surface (multi : Bool) (i : Nat) (s : Surface) : ∀ e ∈ surfaceEvs multi i s, noSrid e = true := by
  cases s with
  | polygon rs => exact noSrid_rings _ _ _ _ _
  | curvePolygon rs => exact noSrid_bracket _ _ _ _ _ fun s _ i e he => noSrid_curve multi i s e he

/-- a geometry's own calls contain no SRID -/
theorem noSrid_geom (multi : Bool) (g : Geom) (idx : Nat) : ∀ e ∈ g.events multi idx, noSrid e = true := by
  induction g using Geom.ind generalizing idx with
  | emptyPoint => intro e he; simp [Geom.events] at he; subst he; rfl
  | point c =>
    intro e he
    cases multi <;> simp [Geom.events, coordEv] at he <;> rcases he with rfl | rfl | rfl <;> rfl
  | multiPoint cs => simp only [Geom.events]; exact noSrid_coords _ _ _ _ _
  | lineString cs => simp only [Geom.events]; exact noSrid_coords _ _ _ _ _
  | circularString cs => simp only [Geom.events]; exact noSrid_coords _ _ _ _ _
  | compoundCurve ss =>
    simp only [Geom.events]; exact noSrid_bracket _ _ _ _ _ fun s _ i e he => noSrid_seg multi i s e he
  | multiLineString ls => simp only [Geom.events]; exact noSrid_rings _ _ _ _ _
  | multiCurve cs =>
    simp only [Geom.events]; exact noSrid_bracket _ _ _ _ _ fun s _ i e he => noSrid_curve multi i s e he
  | polygon rs => simp only [Geom.events]; exact noSrid_rings _ _ _ _ _
  | triangle rs => simp only [Geom.events]; exact noSrid_rings _ _ _ _ _
  | curvePolygon rs =>
    simp only [Geom.events]; exact noSrid_bracket _ _ _ _ _ fun s _ i e he => noSrid_curve multi i s e he
  | multiPolygon ps =>
    simp only [Geom.events]; exact noSrid_bracket _ _ _ _ _ fun s _ i e he => noSrid_rings _ _ _ i s e he
  | polyhedralSurface ps =>
    simp only [Geom.events]; exact noSrid_bracket _ _ _ _ _ fun s _ i e he => noSrid_rings _ _ _ i s e he
  | tin ts =>
    simp only [Geom.events]; exact noSrid_bracket _ _ _ _ _ fun s _ i e he => noSrid_rings _ _ _ i s e he
  | multiSurface ss =>
    simp only [Geom.events]; exact noSrid_bracket _ _ _ _ _ fun s _ i e he => noSrid_surface multi i s e he
  | collection gs ih =>
    rw [events_collection]; exact noSrid_bracket _ _ _ _ _ fun s hs i e he => ih s hs i e he

/-- a geometry's calls at index `idx` differ from those at 0 in the first begin and the last end only -/
theorem events_split (multi : Bool) (idx : Nat) (g : Geom) :
    ∃ e es, g.events multi idx = e :: es ∧ ((∃ i, e = .emptyPoint i) ∨ ∃ k t s i, e = .gbegin k t s i) ∧
      (at0 e :: es).map normEnd = (g.events multi 0).map normEnd := by
  have hb : ∀ {α : Type} (k : GKind) (t : Bool) (f : Nat → α → List Ev) (xs : List α), ∃ e es,
      bracket k t idx f xs = e :: es ∧ ((∃ i, e = .emptyPoint i) ∨ ∃ k t s i, e = .gbegin k t s i) ∧
      (at0 e :: es).map normEnd = (bracket k t 0 f xs).map normEnd := by
    intro α k t f xs
    exact ⟨_, _, rfl, Or.inr ⟨_, _, _, _, rfl⟩, by simp [at0, bracket, normEnd]⟩
  cases g with
  | emptyPoint => exact ⟨_, [], rfl, Or.inl ⟨_, rfl⟩, rfl⟩
  | point c => exact ⟨_, _, rfl, Or.inr ⟨_, _, _, _, rfl⟩, by simp [Geom.events, at0, normEnd]⟩
  | collection gs => rw [events_collection, events_collection]; exact hb _ _ _ _
  | _ => simp only [Geom.events]; exact hb _ _ _ _

open WktWriter in
theorem step_begin_out (num : F64 → Text) (k k' : WktWriter) (e : Ev)
    (he : (∃ i, e = .emptyPoint i) ∨ ∃ g t s i, e = .gbegin g t s i) (h : k.step num e = .ok k') : k'.out ≠ [] := by
  have hb : ∀ t b n i, (k.geomBegin t b n i).out ≠ [] := by
    intro t b n i
    rw [geomBegin_eq]
    simp only [put]
    cases b <;> by_cases hn : n = 0 <;> simp [txt, hn]
  rcases he with ⟨i, rfl⟩ | ⟨g, t, s, i, rfl⟩
  · simp only [WktWriter.step] at h
    have h0 := hb (txt "POINT") true 0 i
    unfold geomEnd at h
    split at h
    · cases h
      split
      · simp [put, txt]
      · simpa using h0
    · cases h
  · cases g <;> cases h <;> exact hb _ _ _ _

/-- the geometry column of a row: exactly the WKT of the geometry, whatever index it is delivered with -/
theorem feed_geom_column (num : F64 → Text) (multi : Bool) (g : Geom) (idx : Nat) (k : WktWriter) (h : k.out = [])
    (hc : k.Calm) :
    feed (geomStep num) k (g.events multi idx) = .ok { k with out := Spec.wkt num multi g } := by
  obtain ⟨e, es, h1, h2, h3⟩ := events_split multi idx g
  have hns := noSrid_geom multi g idx
  rw [h1] at hns ⊢
  have hfeed : feed (WktWriter.step num) k (at0 e :: es) = .ok { k with out := Spec.wkt num multi g } := by
    rw [← feed_normEnd, h3, feed_normEnd, WktWriter.feed_geom]
    have : k.header = k := hc
    rw [this]
    simp [WktWriter.put, WktWriter.sepOf, h]
  rw [feed_cons] at hfeed ⊢
  rw [geomStep_first num k h e h2]
  have h2' : (∃ i, at0 e = .emptyPoint i) ∨ ∃ g t s i, at0 e = .gbegin g t s i := by
    rcases h2 with ⟨i, rfl⟩ | ⟨g, t, s, i, rfl⟩
    · exact Or.inl ⟨0, rfl⟩
    · exact Or.inr ⟨_, _, _, _, rfl⟩
  cases hs : k.step num (at0 e) with
  | error x => rw [hs] at hfeed; cases hfeed
  | ok k' =>
    rw [hs] at hfeed
    simp only at hfeed ⊢
    rw [feed_started num k' (started_of_out (step_begin_out num k k' _ h2' hs)) es
      (fun e he => hns e (by simp [he]))]
    exact hfeed

/-! ### rows -/

theorem feed_props_first (fmt : Fmt) (ps : List PropRec) (w : CsvWriter) (h : w.written = false) :
    feed (step fmt) w (propEvs ps) =
      .ok { w with headers := w.headers ++ ps.map (fun p => p.2.1),
                   props := w.props ++ ps.map (fun p => p.2.2.display fmt) } := by
  induction ps generalizing w with
  | nil => simp [propEvs]
  | cons p ps ih =>
    have hp : w.property fmt p.1 p.2.1 p.2.2 =
        .ok { w with headers := w.headers ++ [p.2.1], props := w.props ++ [p.2.2.display fmt] } := by
      unfold property; rw [if_neg (by simp [h])]
    have he : propEvs (p :: ps) = .prop p.1 p.2.1 p.2.2 :: propEvs ps := rfl
    rw [he, feed_cons]
    simp only [step, hp]
    refine (ih { w with headers := w.headers ++ [p.2.1], props := w.props ++ [p.2.2.display fmt] } h).trans ?_
    simp

/-- each property fits its header -/
def Fits (headers : List Text) (ps : List PropRec) : Prop := ∀ p ∈ ps, headers[p.1 + 1]? = some p.2.1

theorem feed_props_later (fmt : Fmt) (ps : List PropRec) (w : CsvWriter) (h : w.written = true)
    (hf : Fits w.headers ps) :
    feed (step fmt) w (propEvs ps) = .ok { w with props := w.props ++ ps.map (fun p => p.2.2.display fmt) } := by
  induction ps generalizing w with
  | nil => simp [propEvs]
  | cons p ps ih =>
    have hp : w.property fmt p.1 p.2.1 p.2.2 = .ok { w with props := w.props ++ [p.2.2.display fmt] } := by
      unfold property; simp only [h, if_true, hf p (by simp)]
    have he : propEvs (p :: ps) = .prop p.1 p.2.1 p.2.2 :: propEvs ps := rfl
    rw [he, feed_cons]
    simp only [step, hp]
    refine (ih { w with props := w.props ++ [p.2.2.display fmt] } h (fun q hq => hf q (by simp [hq]))).trans ?_
    simp

theorem feed_props_later_inv (fmt : Fmt) (ps : List PropRec) (w w' : CsvWriter) (h : w.written = true)
    (hf : feed (step fmt) w (propEvs ps) = .ok w') : Fits w.headers ps := by
  induction ps generalizing w with
  | nil => intro p hp; simp at hp
  | cons p ps ih =>
    have he : propEvs (p :: ps) = .prop p.1 p.2.1 p.2.2 :: propEvs ps := rfl
    rw [he, feed_cons] at hf
    simp only [step] at hf
    unfold property at hf
    rw [if_pos h] at hf
    cases hh : w.headers[p.1 + 1]? with
    | none => rw [hh] at hf; cases hf
    | some n =>
      rw [hh] at hf
      simp only at hf
      by_cases hn : p.2.1 = n
      · rw [if_pos hn] at hf
        intro q hq
        rcases List.mem_cons.mp hq with rfl | hq
        · rw [hh, hn]
        · exact ih { w with props := w.props ++ [p.2.2.display fmt] } h hf q hq
      · rw [if_neg hn] at hf; cases hf

/-- between features: no record in progress -/
structure Ready (w : CsvWriter) : Prop where
  cur : w.cur = []
  props : w.props = []
  out : w.wkt.out = []
  calm : w.wkt.Calm

/-- the writer after the properties of a feature -/
def withProps (fmt : Fmt) (w : CsvWriter) (ps : List PropRec) : CsvWriter :=
  { w with headers := if w.written then w.headers else w.headers ++ ps.map (fun p => p.2.1),
           props := ps.map (fun p => p.2.2.display fmt) }

theorem feed_props (fmt : Fmt) (ps : List PropRec) (w : CsvWriter) (h0 : w.props = [])
    (hf : w.written = true → Fits w.headers ps) : feed (step fmt) w (propEvs ps) = .ok (withProps fmt w ps) := by
  cases hw : w.written with
  | false => rw [feed_props_first fmt ps w hw]; simp [withProps, hw, h0]
  | true => rw [feed_props_later fmt ps w hw (hf hw)]; simp [withProps, hw, h0]

theorem feed_propsPart (fmt : Fmt) (f : Feat) (w : CsvWriter) (h0 : w.props = [])
    (hf : w.written = true → Fits w.headers (f.props.getD [])) :
    feed (step fmt) w f.propsPart = .ok (withProps fmt w (f.props.getD [])) := by
  unfold Feat.propsPart
  cases hp : f.props with
  | none => cases hw : w.written <;> simp [withProps, h0, hw] <;> (cases w; simp_all)
  | some ps =>
    rw [hp] at hf
    simp only [Option.getD_some] at hf
    simp only [feed_cons, step, h0, if_true, feed_append, feed_props fmt ps w h0 hf, feed_nil, Option.getD_some]

theorem feed_geomPart (fmt : Fmt) (f : Feat) (w : CsvWriter) (h0 : w.wkt.out = []) (t : Text)
    (ht : feed (geomStep fmt.f64) w.wkt (f.geom.getD []) = .ok { w.wkt with out := t }) :
    feed (step fmt) w f.geomPart = .ok { w with wkt := { w.wkt with out := t } } := by
  unfold Feat.geomPart
  cases hg : f.geom with
  | none =>
    rw [hg] at ht
    simp only [Option.getD_none, feed_nil, Except.ok.injEq] at ht
    rw [feed_nil, ← ht]
  | some es =>
    rw [hg] at ht
    simp only [Option.getD_some] at ht
    have hs : started w.wkt = false := by unfold started; rw [h0]; rfl
    simp only [feed_cons, step, hs, Bool.false_eq_true, if_false, feed_append, feed_geomEvs, ht, feed_nil]

/-- one feature: its calls lead to `feature_end` on the collected row -/
theorem feed_feat (fmt : Fmt) (i : Nat) (f : Feat) (w : CsvWriter) (hr : w.Ready)
    (hf : w.written = true → Fits w.headers (f.props.getD [])) (t : Text)
    (ht : feed (geomStep fmt.f64) w.wkt (f.geom.getD []) = .ok { w.wkt with out := t }) :
    feed (step fmt) w (f.evs i) =
      featureEnd { withProps fmt w (f.props.getD []) with wkt := { w.wkt with out := t } } := by
  have hlast : ∀ (x : CsvWriter), feed (step fmt) x [.ftEnd i] = x.featureEnd := by
    intro x
    simp only [feed, step]
    cases x.featureEnd <;> rfl
  unfold Feat.evs
  simp only [feed_cons, step, hr.props, if_true, feed_append]
  cases f.geomFirst with
  | false =>
    simp only [Bool.false_eq_true, if_false, feed_append]
    rw [feed_propsPart fmt f w hr.props hf]
    simp only
    rw [feed_geomPart fmt f (withProps fmt w (f.props.getD [])) hr.out t ht]
    exact hlast _
  | true =>
    simp only [if_true, feed_append]
    rw [feed_geomPart fmt f w hr.out t ht]
    simp only
    rw [feed_propsPart fmt f { w with wkt := { w.wkt with out := t } } hr.props hf]
    exact hlast _

theorem wkt_reset (k : WktWriter) (h : k.out = []) (t : Text) :
    ({ { k with out := t } with out := [] } : WktWriter) = k := by
  cases k; simp_all

/-- the first feature: header record and its own record -/
theorem feed_first (fmt : Fmt) (i : Nat) (f : Feat) (w : CsvWriter) (hr : w.Ready) (hw : w.written = false)
    (hc : w.count = none) (hh : w.headers = [txt "geometry"]) (t : Text)
    (ht : feed (geomStep fmt.f64) w.wkt (f.geom.getD []) = .ok { w.wkt with out := t }) :
    feed (step fmt) w (f.evs i) =
      .ok { w with
        rows := w.rows ++ [txt "geometry" :: (f.props.getD []).map (fun p => p.2.1),
          t :: (f.props.getD []).map (fun p => p.2.2.display fmt)],
        count := some ((f.props.getD []).length + 1), written := true,
        headers := txt "geometry" :: (f.props.getD []).map (fun p => p.2.1) } := by
  rw [feed_feat fmt i f w hr (fun h => by rw [hw] at h; cases h) t ht]
  simp only [featureEnd, writeHeader, withProps, hw, Bool.false_eq_true, if_false, writeFields, terminate, hc, hr.cur,
    hh, writeRow, writeField]
  have := wkt_reset w.wkt hr.out t
  cases w
  simp_all
  exact hr.props

/-- a later feature whose properties fit and have the right number -/
theorem feed_later (fmt : Fmt) (i : Nat) (f : Feat) (w : CsvWriter) (hr : w.Ready) (hw : w.written = true)
    (hc : w.count = some ((f.props.getD []).length + 1)) (hf : Fits w.headers (f.props.getD [])) (t : Text)
    (ht : feed (geomStep fmt.f64) w.wkt (f.geom.getD []) = .ok { w.wkt with out := t }) :
    feed (step fmt) w (f.evs i) =
      .ok { w with rows := w.rows ++ [t :: (f.props.getD []).map (fun p => p.2.2.display fmt)] } := by
  rw [feed_feat fmt i f w hr (fun _ => hf) t ht]
  simp only [featureEnd, writeHeader, withProps, hw, if_true, writeFields, terminate, hc, hr.cur,
    writeRow, writeField]
  have := wkt_reset w.wkt hr.out t
  cases w
  simp_all
  exact hr.props

end CsvWriter
end Geozero
