import Verif.Lemmas.GeoJson
import Verif.Lemmas.Features

/- Helper lemmas about the GeoJSON line writer and the GeoJSON readers. -/

namespace Geozero
open Json Spec

namespace GeoJsonWriter

/-- the text a call writes -/
def evText (num : F64 → Text) : Ev → Text
  | .srid _ => []
  | .xy x y idx => sep idx ++ (txt "[" ++ num x ++ txt "," ++ num y ++ txt "]")
  | .coord x y z _ _ _ idx => sep idx ++ (txt "[" ++ num x ++ txt "," ++ num y ++ optZ num z ++ txt "]")
  | .emptyPoint idx => sep idx ++ txt "{\"type\": \"Point\", \"coordinates\": []}"
  | .gbegin k tagged _ idx =>
    match beginText k tagged with
    | none => []
    | some t => sep idx ++ t
  | .gend k tagged _ => (endText k tagged).getD []

def stepText (fmt : Fmt) : FEv → Text
  | .dsBegin name => (datasetBegin {} name).out
  | .dsEnd => txt "]}"
  | .ftBegin idx => featSep idx ++ txt "{\"type\": \"Feature\""
  | .ftEnd _ => txt "}"
  | .propsBegin => txt ", \"properties\": {"
  | .propsEnd => txt "}"
  | .geomBegin => txt ", \"geometry\": "
  | .geomEnd => []
  | .prop i name v => (if i > 0 then txt ", " else []) ++ propText fmt name v
  | .geom e => evText fmt.f64 e

theorem geomStep_text (num : F64 → Text) (w : GeoJsonWriter) (e : Ev) : w.geomStep num e = w.put (evText num e) := by
  cases e with
  | gbegin k tagged size idx =>
    simp only [geomStep, evText, comma_eq]
    cases beginText k tagged <;> simp
  | gend k tagged idx =>
    simp only [geomStep, evText]
    cases endText k tagged <;> simp
  | _ => simp [geomStep, evText, comma_eq]

theorem step_text (fmt : Fmt) (w : GeoJsonWriter) (e : FEv) : step fmt w e = .ok (w.put (stepText fmt e)) := by
  cases e <;> try simp only [step, stepText, geomStep_text, put_nil]
  · rename_i name
    cases name <;> simp [datasetBegin, put]
  · unfold featSep; split <;> simp
  · split <;> simp

/-- the text a stream of calls writes -/
def textOf (fmt : Fmt) (es : List FEv) : Text := (es.map (stepText fmt)).flatten

theorem feed_text (fmt : Fmt) (w : GeoJsonWriter) (es : List FEv) :
    feed (step fmt) w es = .ok (w.put (textOf fmt es)) := by
  induction es generalizing w with
  | nil => simp [textOf]
  | cons e es ih => simp [feed_cons, step_text, ih, textOf]

theorem run_text (num : F64 → Text) (w : GeoJsonWriter) (es : List Ev) :
    run num w es = w.put (es.map (evText num)).flatten := by
  induction es generalizing w with
  | nil => simp [run_nil]
  | cons e es ih => simp [run_cons, geomStep_text, ih]

theorem begin_end (k : GKind) (tagged : Bool) : (beginText k tagged).isSome = (endText k tagged).isSome := by
  cases k <;> cases tagged <;> rfl

end GeoJsonWriter

namespace GeoJsonLineWriter
open GeoJsonWriter (run run_append run_cons run_nil comma_eq sep beginText endText begin_end stepText step_text textOf)

/-- inside an open context the line writer does what the plain writer does -/
def Sim (num : F64 → Text) (es : List Ev) : Prop :=
  ∀ c w, 0 < c → feed (geomStep num) ⟨c, w⟩ es = .ok ⟨c, run num w es⟩

theorem Sim.nil (num : F64 → Text) : Sim num [] := fun _ _ _ => rfl

theorem Sim.append {num : F64 → Text} {a b : List Ev} (ha : Sim num a) (hb : Sim num b) : Sim num (a ++ b) := by
  intro c w hc
  rw [feed_append, ha c w hc]
  simp only [hb c _ hc, run_append]

theorem Sim.evList {α : Type} {num : F64 → Text} {f : Nat → α → List Ev} (xs : List α)
    (h : ∀ x ∈ xs, ∀ i, Sim num (f i x)) (i : Nat) : Sim num (evList f i xs) := by
  induction xs generalizing i with
  | nil => exact Sim.nil num
  | cons x xs ih => exact (h x (by simp) i).append (ih (fun y hy => h y (by simp [hy])) (i + 1))

theorem geomStep_begin (num : F64 → Text) (k : GKind) (tagged : Bool) (size idx c : Nat) (w : GeoJsonWriter)
    (h : (beginText k tagged).isSome) (hc : 0 < c ∨ idx = 0) :
    geomStep num ⟨c, w⟩ (.gbegin k tagged size idx) = .ok ⟨c + 1, w.geomStep num (.gbegin k tagged size idx)⟩ := by
  obtain ⟨b, hb⟩ := Option.isSome_iff_exists.mp h
  simp only [geomStep, h, if_true, GeoJsonWriter.geomStep, hb, comma, beginContext]
  by_cases hi : idx > 0
  · have : c > 0 := by omega
    simp [hi, this, GeoJsonWriter.comma]
  · simp [hi, GeoJsonWriter.comma]

theorem Sim.bracket {α : Type} {num : F64 → Text} (k : GKind) (tagged : Bool) (idx : Nat) {f : Nat → α → List Ev}
    (xs : List α) (h : ∀ x ∈ xs, ∀ i, Sim num (f i x)) : Sim num (bracket k tagged idx f xs) := by
  intro c w hc
  have hl := Sim.evList xs h 0
  by_cases hk : (beginText k tagged).isSome
  · simp only [Geozero.bracket, feed_cons, geomStep_begin num k tagged _ idx c w hk (Or.inl hc), feed_append,
      hl (c + 1) _ (by omega)]
    simp only [geomStep, hk, if_true, endContext]
    rw [if_neg (by omega), if_neg (by omega)]
    simp [run_cons, run_append, run_nil]
  · have hb : beginText k tagged = none := by simpa using hk
    have he : endText k tagged = none := by
      have := begin_end k tagged
      rw [hb] at this
      simpa using this.symm
    simp only [Geozero.bracket, feed_cons, geomStep, hk, Bool.false_eq_true, if_false, feed_append, hl c w hc, feed_nil]
    simp [run_cons, run_append, run_nil, GeoJsonWriter.geomStep, hb, he]

theorem Sim.coord (num : F64 → Text) (multi : Bool) (i : Nat) (x : Coord) : Sim num (coordEvs multi i x) := by
  intro c w _
  cases multi <;> rfl

theorem Sim.line (num : F64 → Text) (multi tagged : Bool) (i : Nat) (cs : List Coord) :
    Sim num (lineEvs multi tagged i cs) :=
  Sim.bracket _ _ _ _ fun x _ i => Sim.coord num multi i x

theorem Sim.circ (num : F64 → Text) (multi : Bool) (i : Nat) (cs : List Coord) : Sim num (circEvs multi i cs) :=
  Sim.bracket _ _ _ _ fun x _ i => Sim.coord num multi i x

theorem Sim.poly (num : F64 → Text) (multi tagged : Bool) (i : Nat) (rs : List (List Coord)) :
    Sim num (polyEvs multi tagged i rs) :=
  Sim.bracket _ _ _ _ fun x _ i => Sim.line num multi false i x

theorem Sim.tri (num : F64 → Text) (multi tagged : Bool) (i : Nat) (rs : List (List Coord)) :
    Sim num (triEvs multi tagged i rs) :=
  Sim.bracket _ _ _ _ fun x _ i => Sim.line num multi false i x

theorem Sim.seg (num : F64 → Text) (multi : Bool) (i : Nat) (s : Seg) : Sim num (segEvs multi i s) := by
  cases s with
  | line cs => exact Sim.line num multi false i cs
  | circ cs => exact Sim.circ num multi i cs

theorem Sim.curve (num : F64 → Text) (multi : Bool) (i : Nat) (s : Curve) : Sim num (curveEvs multi i s) := by
  cases s with
  | seg s => exact Sim.seg num multi i s
  | compound ss => exact Sim.bracket _ _ _ _ fun x _ i => Sim.seg num multi i x

theorem Sim.surface (num : F64 → Text) (multi : Bool) (i : Nat) (s : Surface) : Sim num (surfaceEvs multi i s) := by
  cases s with
  | polygon rs => exact Sim.poly num multi false i rs
  | curvePolygon rs => exact Sim.bracket _ _ _ _ fun x _ i => Sim.curve num multi i x

theorem events_point (multi : Bool) (i : Nat) (c : Coord) :
    Geom.events multi i (.point c) = bracket .point true i (coordEvs multi) [c] := by
  simp [Geom.events, bracket, evList, coordEvs]

theorem Sim.geom (num : F64 → Text) (multi : Bool) (g : Geom) : ∀ i, Sim num (g.events multi i) := by
  induction g using Geom.ind with
  | emptyPoint =>
    intro i c w hc
    simp only [Geom.events, feed_cons, geomStep, feed_nil, comma, beginContext, endContext, run_cons, run_nil]
    have hc' : c ≠ 0 := by omega
    by_cases hi : i > 0
    · simp [hi, hc, hc', GeoJsonWriter.geomStep, GeoJsonWriter.comma]
    · simp [hi, hc', GeoJsonWriter.geomStep, GeoJsonWriter.comma]
  | point c => intro i; rw [events_point]; exact Sim.bracket _ _ _ _ fun x _ i => Sim.coord num multi i x
  | multiPoint cs => intro i; exact Sim.bracket _ _ _ _ fun x _ i => Sim.coord num multi i x
  | lineString cs => intro i; exact Sim.line num multi true i cs
  | circularString cs => intro i; exact Sim.circ num multi i cs
  | compoundCurve ss => intro i; exact Sim.bracket _ _ _ _ fun x _ i => Sim.seg num multi i x
  | multiLineString ls => intro i; exact Sim.bracket _ _ _ _ fun x _ i => Sim.line num multi false i x
  | multiCurve cs => intro i; exact Sim.bracket _ _ _ _ fun x _ i => Sim.curve num multi i x
  | polygon rs => intro i; exact Sim.poly num multi true i rs
  | triangle rs => intro i; exact Sim.tri num multi true i rs
  | curvePolygon rs => intro i; exact Sim.bracket _ _ _ _ fun x _ i => Sim.curve num multi i x
  | multiPolygon ps => intro i; exact Sim.bracket _ _ _ _ fun x _ i => Sim.poly num multi false i x
  | polyhedralSurface ps => intro i; exact Sim.bracket _ _ _ _ fun x _ i => Sim.poly num multi false i x
  | tin ts => intro i; exact Sim.bracket _ _ _ _ fun x _ i => Sim.tri num multi false i x
  | multiSurface ss => intro i; exact Sim.bracket _ _ _ _ fun x _ i => Sim.surface num multi i x
  | collection gs ih =>
    intro i
    rw [events_collection]
    exact Sim.bracket _ _ _ _ fun x hx i => ih x hx i

/-- a container at top level is a line -/
theorem top_bracket {α : Type} {num : F64 → Text} (k : GKind) (tagged : Bool) (idx : Nat) {f : Nat → α → List Ev}
    (xs : List α) (hk : (beginText k tagged).isSome) (h : ∀ x ∈ xs, ∀ i, Sim num (f i x)) (w : GeoJsonWriter) :
    feed (geomStep num) ⟨0, w⟩ (bracket k tagged idx f xs) =
      .ok ⟨0, (run num w (bracket k tagged 0 f xs)).put (txt "\n")⟩ := by
  have hl := Sim.evList xs h 0
  have h1 : geomStep num ⟨0, w⟩ (.gbegin k tagged xs.length idx) =
      .ok ⟨1, w.geomStep num (.gbegin k tagged xs.length 0)⟩ := by
    simp [geomStep, hk, comma, beginContext]
  simp only [bracket, feed_cons, h1, feed_append, hl 1 _ (by omega)]
  simp only [geomStep, hk, if_true, endContext]
  rw [if_neg (by omega)]
  simp [run_cons, run_append, run_nil, GeoJsonWriter.geomStep]

theorem top_geom {num : F64 → Text} (multi : Bool) {p : Coord → Prop} {g : Geom} (hg : g.IsGeoJson p) (idx : Nat)
    (w : GeoJsonWriter) :
    feed (geomStep num) ⟨0, w⟩ (g.events multi idx) = .ok ⟨0, (run num w (g.events multi 0)).put (txt "\n")⟩ := by
  cases hg with
  | emptyPoint => simp [Geom.events, feed_cons, geomStep, comma, beginContext, endContext, run_cons, run_nil]
  | point h =>
    rw [events_point, events_point]
    exact top_bracket _ _ _ _ rfl (fun x _ i => Sim.coord num multi i x) w
  | multiPoint h => exact top_bracket _ _ _ _ rfl (fun x _ i => Sim.coord num multi i x) w
  | lineString h => exact top_bracket _ _ _ _ rfl (fun x _ i => Sim.coord num multi i x) w
  | multiLineString h => exact top_bracket _ _ _ _ rfl (fun x _ i => Sim.line num multi false i x) w
  | polygon h => exact top_bracket _ _ _ _ rfl (fun x _ i => Sim.line num multi false i x) w
  | multiPolygon h => exact top_bracket _ _ _ _ rfl (fun x _ i => Sim.poly num multi false i x) w
  | collection h =>
    rw [events_collection, events_collection]
    exact top_bracket _ _ _ _ rfl (fun x _ i => Sim.geom num multi x i) w

/-! ### feature calls -/

theorem feed_geomEvs (fmt : Fmt) (w : GeoJsonLineWriter) (es : List Ev) :
    feed (step fmt) w (es.map FEv.geom) = feed (geomStep fmt.f64) w es := by
  induction es generalizing w with
  | nil => rfl
  | cons e es ih =>
    simp only [List.map_cons, feed_cons, step]
    cases geomStep fmt.f64 w e with
    | error x => rfl
    | ok w' => exact ih w'

theorem feed_propEvs (fmt : Fmt) (c : Nat) (ps : List PropRec) (w : GeoJsonWriter) :
    feed (step fmt) ⟨c, w⟩ (propEvs ps) = .ok ⟨c, w.put (textOf fmt (propEvs ps))⟩ := by
  induction ps generalizing w with
  | nil => simp [propEvs, textOf]
  | cons p ps ih =>
    have := ih (w.put (stepText fmt (.prop p.1 p.2.1 p.2.2)))
    simp only [propEvs, List.map_cons, feed_cons, step, step_text] at this ⊢
    rw [this]
    simp [textOf]

theorem textOf_append (fmt : Fmt) (a b : List FEv) : textOf fmt (a ++ b) = textOf fmt a ++ textOf fmt b := by
  simp [textOf]
theorem textOf_cons (fmt : Fmt) (e : FEv) (b : List FEv) : textOf fmt (e :: b) = stepText fmt e ++ textOf fmt b := by
  simp [textOf]
theorem textOf_nil (fmt : Fmt) : textOf fmt [] = [] := rfl

theorem run_textOf (fmt : Fmt) (w : GeoJsonWriter) (es : List Ev) :
    run fmt.f64 w es = w.put (textOf fmt (es.map FEv.geom)) := by
  rw [GeoJsonWriter.run_text]
  congr 2
  simp [stepText, Function.comp_def]

theorem feed_propsPart (fmt : Fmt) (c : Nat) (f : Feat) (w : GeoJsonWriter) :
    feed (step fmt) ⟨c, w⟩ f.propsPart = .ok ⟨c, w.put (textOf fmt f.propsPart)⟩ := by
  unfold Feat.propsPart
  cases f.props with
  | none => simp [textOf]
  | some ps =>
    simp only [feed_cons, step, step_text, feed_append, feed_propEvs, feed_nil]
    simp [textOf_append, textOf_cons, textOf_nil]

theorem feed_geomPart (fmt : Fmt) (multi : Bool) (c : Nat) (hc : 0 < c) (f : Feat) (g : Option (Nat × Geom))
    (hg : f.geom = g.map fun g => g.2.events multi g.1) (w : GeoJsonWriter) :
    feed (step fmt) ⟨c, w⟩ f.geomPart = .ok ⟨c, w.put (textOf fmt f.geomPart)⟩ := by
  unfold Feat.geomPart
  cases g with
  | none => simp [hg, textOf]
  | some g =>
    simp only [hg, Option.map_some, feed_cons, step, step_text, feed_append, feed_geomEvs,
      Sim.geom fmt.f64 multi g.2 g.1 c _ hc, feed_nil]
    simp [textOf_append, textOf_cons, textOf_nil, run_textOf]

/-- an item at top level is a line -/
theorem feed_item (fmt : Fmt) (multi : Bool) (it : LineItem) (hit : it.Ok) (i : Nat) (w : GeoJsonWriter) :
    feed (step fmt) ⟨0, w⟩ (it.evs multi i) = .ok ⟨0, w.put (textOf fmt (it.evs multi 0) ++ txt "\n")⟩ := by
  cases it with
  | geometry g =>
    simp only [LineItem.evs, feed_geomEvs, top_geom multi hit i w, run_textOf]
    simp
  | feature ps g first =>
    simp only [LineItem.evs, Feat.evs, feed_cons, step, step_text, beginContext]
    have hp := fun w => feed_propsPart fmt 1 ⟨ps, g.map fun g => g.2.events multi g.1, first⟩ w
    have hg := fun w => feed_geomPart fmt multi 1 (by omega) ⟨ps, g.map fun g => g.2.events multi g.1, first⟩ g rfl w
    have h0 : (0 : Nat) + 1 = 1 := rfl
    cases first with
    | false =>
      simp only [Bool.false_eq_true, if_false, feed_append, h0, hp, hg, feed_cons, step, step_text, endContext]
      simp [textOf_append, textOf_cons, textOf_nil, stepText]
    | true =>
      simp only [if_true, feed_append, h0, hp, hg, feed_cons, step, step_text, endContext]
      simp [textOf_append, textOf_cons, textOf_nil, stepText]

/-! ### line breaks -/

theorem escape_newline {t : Text} (h : '\n' ∉ t) : '\n' ∉ GeoJsonWriter.escape t := by
  induction t with
  | nil => simp [GeoJsonWriter.escape]
  | cons c t ih =>
    simp only [List.mem_cons, not_or] at h
    unfold GeoJsonWriter.escape
    split
    · simp only [List.mem_cons, not_or]; exact ⟨by decide, by decide, ih h.2⟩
    · simp only [List.mem_cons, not_or]; exact ⟨h.1, ih h.2⟩

theorem digits_newline {t : Text} (h : ∀ c ∈ t, c.isDigit = true) : '\n' ∉ t := fun hm => by
  have := h _ hm
  revert this
  decide

theorem intText_newline (i : Int) : '\n' ∉ intText i := by
  unfold intText
  split
  · simp only [List.mem_cons, not_or]; exact ⟨by decide, digits_newline (natText_digits _)⟩
  · exact digits_newline (natText_digits _)

theorem sep_newline (i : Nat) : '\n' ∉ sep i := by
  unfold sep; split <;> decide

theorem beginText_newline (k : GKind) (tagged : Bool) : '\n' ∉ (beginText k tagged).getD [] := by
  cases k <;> cases tagged <;> decide

theorem endText_newline (k : GKind) (tagged : Bool) : '\n' ∉ (endText k tagged).getD [] := by
  cases k <;> cases tagged <;> decide

theorem evText_newline (num : F64 → Text) (hn : ∀ x, '\n' ∉ num x) (e : Ev) : '\n' ∉ GeoJsonWriter.evText num e := by
  have hs := sep_newline
  cases e with
  | srid s => simp [GeoJsonWriter.evText]
  | xy x y i => simp [GeoJsonWriter.evText, hs, hn, txt]
  | coord x y z m t tm i =>
    cases z <;> simp [GeoJsonWriter.evText, GeoJsonWriter.optZ, hs, hn, txt]
  | emptyPoint i => simp [GeoJsonWriter.evText, hs, txt]
  | gbegin k tagged size i =>
    have := beginText_newline k tagged
    simp only [GeoJsonWriter.evText]
    cases hb : beginText k tagged with
    | none => simp
    | some t => rw [hb] at this; simpa [hs] using this
  | gend k tagged i => exact endText_newline k tagged

theorem rawProp_newline {n v : Text} (hn : '\n' ∉ n) (hv : '\n' ∉ v) : '\n' ∉ GeoJsonWriter.rawProp n v := by
  simp [GeoJsonWriter.rawProp, escape_newline hn, hv, txt]

theorem strProp_newline {n v : Text} (hn : '\n' ∉ n) (hv : '\n' ∉ v) : '\n' ∉ GeoJsonWriter.strProp n v := by
  simp [GeoJsonWriter.strProp, escape_newline hn, escape_newline hv, txt]

theorem prop_newline (fmt : Fmt) (h32 : ∀ x, '\n' ∉ fmt.f32 x) (h64 : ∀ x, '\n' ∉ fmt.f64 x) (p : PropRec)
    (hp : PropRec.OneLine p) : '\n' ∉ stepText fmt (.prop p.1 p.2.1 p.2.2) := by
  obtain ⟨i, n, v⟩ := p
  obtain ⟨hn, hv⟩ := hp
  have h0 : '\n' ∉ (if i > 0 then txt ", " else []) := by split <;> decide
  simp only [stepText, List.mem_append, not_or]
  refine ⟨h0, ?_⟩
  cases v with
  | string t => exact strProp_newline hn hv
  | dateTime t => exact strProp_newline hn hv
  | json t => exact rawProp_newline hn hv
  | binary b => simp [GeoJsonWriter.propText]
  | float x => exact rawProp_newline hn (h32 x)
  | double x => exact rawProp_newline hn (h64 x)
  | bool b => cases b <;> exact rawProp_newline hn (by simp [ColVal.display, txt])
  | _ => exact rawProp_newline hn (intText_newline _)

theorem item_newline (fmt : Fmt) (h32 : ∀ x, '\n' ∉ fmt.f32 x) (h64 : ∀ x, '\n' ∉ fmt.f64 x) (multi : Bool)
    (it : LineItem) (hit : it.OneLine) : '\n' ∉ textOf fmt (it.evs multi 0) := by
  have hgeom : ∀ es : List Ev, '\n' ∉ textOf fmt (es.map FEv.geom) := by
    intro es
    simp only [textOf, List.map_map, List.mem_flatten, List.mem_map, not_exists, not_and]
    rintro t ⟨e, _, rfl⟩
    exact evText_newline fmt.f64 h64 e
  cases it with
  | geometry g => exact hgeom _
  | feature ps g first =>
    have hp : '\n' ∉ textOf fmt (Feat.propsPart ⟨ps, g.map fun g => g.2.events multi g.1, first⟩) := by
      unfold Feat.propsPart
      cases ps with
      | none => simp [textOf]
      | some ps =>
        have : '\n' ∉ textOf fmt (propEvs ps) := by
          simp only [textOf, propEvs, List.map_map, List.mem_flatten, List.mem_map, not_exists, not_and]
          rintro t ⟨p, hp, rfl⟩
          exact prop_newline fmt h32 h64 p (hit p hp)
        simp only [textOf_cons, textOf_append, textOf_nil, stepText, List.mem_append, not_or]
        exact ⟨by decide, this, by decide, by simp⟩
    have hg : '\n' ∉ textOf fmt (Feat.geomPart ⟨ps, g.map fun g => g.2.events multi g.1, first⟩) := by
      unfold Feat.geomPart
      cases g with
      | none => simp [textOf]
      | some g =>
        simp only [Option.map_some, textOf_cons, textOf_append, textOf_nil, stepText, List.mem_append, not_or]
        exact ⟨by decide, hgeom _, by simp⟩
    have hb : '\n' ∉ stepText fmt (.ftBegin 0) := by simp [stepText, GeoJsonWriter.featSep, txt]
    have he : '\n' ∉ stepText fmt (.ftEnd 0) := by simp [stepText, GeoJsonWriter.featSep, txt]
    simp only [LineItem.evs, Feat.evs, textOf_cons, textOf_append, textOf_nil, List.mem_append, not_or]
    cases first with
    | false =>
      simp only [Bool.false_eq_true, if_false, textOf_append, List.mem_append, not_or]
      exact ⟨hb, ⟨hp, hg⟩, he, by simp⟩
    | true =>
      simp only [if_true, textOf_append, List.mem_append, not_or]
      exact ⟨hb, ⟨hg, hp⟩, he, by simp⟩

end GeoJsonLineWriter
end Geozero