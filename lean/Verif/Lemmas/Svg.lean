import Verif.Spec.Svg
import Verif.Lemmas.Features

/- Helper lemmas for the SVG writer. -/

namespace Geozero

/-! ### tokenizer -/

/-- tokenizing `t` from mode `m` gives `ts` and ends in `m'` -/
def Scans (m : XmlMode) (t : Text) (ts : List XmlTok) (m' : XmlMode) : Prop := xmlScan m t = some (m', ts)

theorem Scans.append {m m' m'' : XmlMode} {a b : Text} {ts us : List XmlTok} (h : Scans m a ts m') (k : Scans m' b us m'') :
    Scans m (a ++ b) (ts ++ us) m'' := by
  unfold Scans at *
  induction a generalizing m ts with
  | nil =>
    simp only [xmlScan, Option.some.injEq, Prod.mk.injEq] at h
    obtain ⟨rfl, rfl⟩ := h
    exact k
  | cons c cs ih =>
    simp only [xmlScan, List.cons_append] at h ⊢
    cases hn : m.next c with
    | none => rw [hn] at h; cases h
    | some p =>
      obtain ⟨m1, t1⟩ := p
      simp only [hn] at h ⊢
      cases hs : xmlScan m1 cs with
      | none => rw [hs] at h; cases h
      | some q =>
        obtain ⟨m2, t2⟩ := q
        simp only [hs, Option.some.injEq, Prod.mk.injEq] at h
        obtain ⟨rfl, rfl⟩ := h
        rw [ih hs]
        simp

theorem Scans.nil (m : XmlMode) : Scans m [] [] m := rfl

theorem Scans.chars {t : Text} (h : PlainXml t) : Scans .content t (t.map .char) .content := by
  unfold Scans
  induction t with
  | nil => rfl
  | cons c cs ih =>
    have hc := h c (by simp)
    simp only [xmlScan, XmlMode.next, hc.1, hc.2.1, if_false, ih fun d hd => h d (by simp [hd])]
    rfl

theorem Scans.value {n a v : Text} {as : List (Text × Text)} {t : Text} (h : PlainXml t) :
    Scans (.attrVal n as a v) t [] (.attrVal n as a (v ++ t)) := by
  unfold Scans
  induction t generalizing v with
  | nil => simp [xmlScan]
  | cons c cs ih =>
    have hc := h c (by simp)
    simp only [xmlScan, XmlMode.next, hc.1, hc.2.1, hc.2.2, if_false, or_self, ih fun d hd => h d (by simp [hd])]
    simp

theorem Scans.flatMap {α : Type} {f : α → Text} {g : α → List XmlTok} (xs : List α)
    (h : ∀ x ∈ xs, Scans .content (f x) (g x) .content) : Scans .content (xs.flatMap f) (xs.flatMap g) .content := by
  induction xs with
  | nil => exact .nil _
  | cons x xs ih =>
    simp only [List.flatMap_cons]
    exact (h x (by simp)).append (ih fun y hy => h y (by simp [hy]))

theorem PlainXml.append {a b : Text} (ha : PlainXml a) (hb : PlainXml b) : PlainXml (a ++ b) := by
  intro c hc
  rcases List.mem_append.mp hc with h | h
  · exact ha c h
  · exact hb c h

theorem PlainXml.flatMap {α : Type} {f : α → Text} (xs : List α) (h : ∀ x, PlainXml (f x)) : PlainXml (xs.flatMap f) := by
  intro c hc
  obtain ⟨x, _, hx⟩ := List.mem_flatMap.mp hc
  exact h x c hx

theorem plain_lit {t : Text} (h : (t.all fun c => c != '<' && c != '&' && c != '"') = true) : PlainXml t := by
  intro c hc
  have := List.all_eq_true.mp h c hc
  simp only [Bool.and_eq_true, bne_iff_ne] at this
  exact ⟨this.1.1, this.1.2, this.2⟩

theorem plain_svgXY {fo : SvgNum} (h : fo.Plain) (inv : Bool) (c : Coord) : PlainXml (svgXY fo inv c) :=
  (((h _).append (plain_lit (by decide))).append (h _)).append (plain_lit (by decide))

theorem plain_svgCoords {fo : SvgNum} (h : fo.Plain) (inv : Bool) (cs : List Coord) : PlainXml (svgCoords fo inv cs) :=
  PlainXml.flatMap cs (plain_svgXY h inv)

theorem plain_svgSub {fo : SvgNum} (h : fo.Plain) (inv : Bool) (cs : List Coord) : PlainXml (svgSub fo inv cs) :=
  ((plain_lit (by decide)).append (plain_svgCoords h inv cs)).append (plain_lit (by decide))

/-- the token of a path element -/
def pathTok (d : Text) : XmlTok := .empty (txt "path") [(txt "d", d)]

/-- the text of a path element -/
def pathElem (d : Text) : Text := txt "<path d=\"" ++ d ++ txt "\"/>"

theorem scans_path {d : Text} (h : PlainXml d) : Scans .content (pathElem d) [pathTok d] .content := by
  have h1 : Scans .content (txt "<path d=\"") [] (.attrVal (txt "path") [] (txt "d") []) := by
    unfold Scans
    decide
  have h2 := Scans.value (n := txt "path") (as := []) (a := txt "d") (v := []) h
  have h3 : Scans (.attrVal (txt "path") [] (txt "d") ([] ++ d)) (txt "\"/>") [pathTok d] .content := rfl
  exact (h1.append h2).append h3

/-! ### what the writer writes for a geometry -/

section
variable (fo : SvgNum) (inv : Bool)

def segText : Seg → Text
  | .line cs => svgSub fo inv cs
  | .circ cs => svgCoords fo inv cs

def curveText : Curve → Text
  | .seg s => segText fo inv s
  | .compound ss => ss.flatMap (segText fo inv)

def surfaceText : Surface → Text
  | .polygon rings => pathElem (rings.flatMap (svgSub fo inv))
  | .curvePolygon rings => rings.flatMap (curveText fo inv)

mutual
/-- the text written for a geometry -/
def svgText : Geom → Text
  | .emptyPoint => []
  | .point c => pathElem (txt "M " ++ svgXY fo inv c ++ txt "Z")
  | .multiPoint cs => svgCoords fo inv cs
  | .lineString cs => pathElem (svgCoords fo inv cs)
  | .circularString cs => svgCoords fo inv cs
  | .compoundCurve ss => ss.flatMap (segText fo inv)
  | .multiLineString ls => pathElem (ls.flatMap (svgSub fo inv))
  | .multiCurve cs => cs.flatMap (curveText fo inv)
  | .polygon rings => pathElem (rings.flatMap (svgSub fo inv))
  | .triangle rings => rings.flatMap (svgSub fo inv)
  | .curvePolygon rings => rings.flatMap (curveText fo inv)
  | .multiPolygon ps => ps.flatMap fun rings => pathElem (rings.flatMap (svgSub fo inv))
  | .polyhedralSurface ps => ps.flatMap fun rings => pathElem (rings.flatMap (svgSub fo inv))
  | .tin ts => ts.flatMap fun rings => rings.flatMap (svgSub fo inv)
  | .multiSurface ss => ss.flatMap (surfaceText fo inv)
  | .collection gs => svgTextList gs

def svgTextList : List Geom → Text
  | [] => []
  | g :: gs => svgText g ++ svgTextList gs
end

def surfaceToks : Surface → List XmlTok
  | .polygon rings => [pathTok (rings.flatMap (svgSub fo inv))]
  | .curvePolygon rings => (rings.flatMap (curveText fo inv)).map .char

mutual
/-- the tokens of that text -/
def svgToks : Geom → List XmlTok
  | .emptyPoint => []
  | .point c => [pathTok (txt "M " ++ svgXY fo inv c ++ txt "Z")]
  | .multiPoint cs => (svgCoords fo inv cs).map .char
  | .lineString cs => [pathTok (svgCoords fo inv cs)]
  | .circularString cs => (svgCoords fo inv cs).map .char
  | .compoundCurve ss => (ss.flatMap (segText fo inv)).map .char
  | .multiLineString ls => [pathTok (ls.flatMap (svgSub fo inv))]
  | .multiCurve cs => (cs.flatMap (curveText fo inv)).map .char
  | .polygon rings => [pathTok (rings.flatMap (svgSub fo inv))]
  | .triangle rings => (rings.flatMap (svgSub fo inv)).map .char
  | .curvePolygon rings => (rings.flatMap (curveText fo inv)).map .char
  | .multiPolygon ps => ps.flatMap fun rings => [pathTok (rings.flatMap (svgSub fo inv))]
  | .polyhedralSurface ps => ps.flatMap fun rings => [pathTok (rings.flatMap (svgSub fo inv))]
  | .tin ts => (ts.flatMap fun rings => rings.flatMap (svgSub fo inv)).map .char
  | .multiSurface ss => ss.flatMap (surfaceToks fo inv)
  | .collection gs => svgToksList gs

def svgToksList : List Geom → List XmlTok
  | [] => []
  | g :: gs => svgToks g ++ svgToksList gs
end

end

section
variable {fo : SvgNum} (hp : fo.Plain) (inv : Bool)
include hp

theorem plain_segText (s : Seg) : PlainXml (segText fo inv s) := by
  cases s with
  | line cs => exact plain_svgSub hp inv cs
  | circ cs => exact plain_svgCoords hp inv cs

theorem plain_curveText (c : Curve) : PlainXml (curveText fo inv c) := by
  cases c with
  | seg s => exact plain_segText hp inv s
  | compound ss => exact PlainXml.flatMap ss (plain_segText hp inv)

theorem scans_surface (s : Surface) : Scans .content (surfaceText fo inv s) (surfaceToks fo inv s) .content := by
  cases s with
  | polygon rings => exact scans_path (PlainXml.flatMap rings (plain_svgSub hp inv))
  | curvePolygon rings => exact Scans.chars (PlainXml.flatMap rings (plain_curveText hp inv))

omit hp in
theorem scans_svgTextList (gs : List Geom) (h : ∀ g ∈ gs, Scans .content (svgText fo inv g) (svgToks fo inv g) .content) :
    Scans .content (svgTextList fo inv gs) (svgToksList fo inv gs) .content := by
  induction gs with
  | nil => exact .nil _
  | cons g gs ih =>
    simp only [svgTextList, svgToksList]
    exact (h g (by simp)).append (ih fun x hx => h x (by simp [hx]))

theorem scans_svgText (g : Geom) : Scans .content (svgText fo inv g) (svgToks fo inv g) .content := by
  have hs := plain_svgSub hp inv
  have hc := plain_svgCoords hp inv
  induction g using Geom.ind with
  | emptyPoint => exact .nil _
  | point c =>
    simp only [svgText, svgToks]
    exact scans_path (((plain_lit (by decide)).append (plain_svgXY hp inv c)).append (plain_lit (by decide)))
  | multiPoint cs => simpa only [svgText, svgToks] using Scans.chars (hc cs)
  | lineString cs => simpa only [svgText, svgToks] using scans_path (hc cs)
  | circularString cs => simpa only [svgText, svgToks] using Scans.chars (hc cs)
  | compoundCurve ss => simpa only [svgText, svgToks] using Scans.chars (PlainXml.flatMap ss (plain_segText hp inv))
  | multiLineString ls => simpa only [svgText, svgToks] using scans_path (PlainXml.flatMap ls hs)
  | multiCurve cs => simpa only [svgText, svgToks] using Scans.chars (PlainXml.flatMap cs (plain_curveText hp inv))
  | polygon rs => simpa only [svgText, svgToks] using scans_path (PlainXml.flatMap rs hs)
  | triangle rs => simpa only [svgText, svgToks] using Scans.chars (PlainXml.flatMap rs hs)
  | curvePolygon rs => simpa only [svgText, svgToks] using Scans.chars (PlainXml.flatMap rs (plain_curveText hp inv))
  | multiPolygon ps =>
    simpa only [svgText, svgToks] using Scans.flatMap ps fun rs _ => scans_path (PlainXml.flatMap rs hs)
  | polyhedralSurface ps =>
    simpa only [svgText, svgToks] using Scans.flatMap ps fun rs _ => scans_path (PlainXml.flatMap rs hs)
  | tin ts =>
    simpa only [svgText, svgToks] using Scans.chars (PlainXml.flatMap ts fun rs => PlainXml.flatMap rs hs)
  | multiSurface ss => simpa only [svgText, svgToks] using Scans.flatMap ss fun s _ => scans_surface hp inv s
  | collection gs ih => simpa only [svgText, svgToks] using scans_svgTextList inv gs ih

end

/-! ### the writer -/

namespace SvgWriter

variable (fo : SvgNum)

@[simp] theorem put_put (w : SvgWriter) (a b : Text) : (w.put a).put b = w.put (a ++ b) := by simp [put]
@[simp] theorem put_inv (w : SvgWriter) (a : Text) : (w.put a).invertY = w.invertY := rfl
@[simp] theorem put_out (w : SvgWriter) (a : Text) : (w.put a).out = w.out ++ a := rfl
theorem put_nil (w : SvgWriter) : w.put [] = w := by simp [put]

theorem feed_evList {α : Type} (inv : Bool) (f : Nat → α → List Ev) (t : α → Text) (xs : List α)
    (h : ∀ i x (w : SvgWriter), x ∈ xs → w.invertY = inv → feed (geomStep fo) w (f i x) = .ok (w.put (t x)))
    (i : Nat) (w : SvgWriter) (hw : w.invertY = inv) :
    feed (geomStep fo) w (evList f i xs) = .ok (w.put (xs.flatMap t)) := by
  induction xs generalizing i w with
  | nil => simp [evList, put_nil]
  | cons x xs ih =>
    simp only [evList, feed_append, h i x w (by simp) hw]
    rw [ih (fun i y w hy => h i y w (by simp [hy])) (i + 1) (w.put (t x)) (by simpa using hw)]
    simp

theorem feed_coords (inv : Bool) (cs : List Coord) (i : Nat) (w : SvgWriter) (hw : w.invertY = inv) :
    feed (geomStep fo) w (evList (coordEvs false) i cs) = .ok (w.put (svgCoords fo inv cs)) :=
  feed_evList fo inv _ _ cs (fun i c w _ hw => by simp [coordEvs, coordEv, feed, geomStep, svgXY, hw]) i w hw

theorem feed_line (inv : Bool) (cs : List Coord) (i : Nat) (w : SvgWriter) (hw : w.invertY = inv) :
    feed (geomStep fo) w (lineEvs false false i cs) = .ok (w.put (svgSub fo inv cs)) := by
  simp only [lineEvs, bracket, feed_cons, geomStep, feed_append, Bool.false_eq_true, if_false]
  rw [feed_coords fo inv cs 0 _ (by simpa using hw)]
  simp [feed, geomStep, svgSub]

theorem feed_lineTagged (inv : Bool) (cs : List Coord) (i : Nat) (w : SvgWriter) (hw : w.invertY = inv) :
    feed (geomStep fo) w (lineEvs false true i cs) = .ok (w.put (pathElem (svgCoords fo inv cs))) := by
  simp only [lineEvs, bracket, feed_cons, geomStep, feed_append, if_true]
  rw [feed_coords fo inv cs 0 _ (by simpa using hw)]
  simp [feed, geomStep, pathElem]

theorem feed_lines (inv : Bool) (ls : List (List Coord)) (i : Nat) (w : SvgWriter) (hw : w.invertY = inv) :
    feed (geomStep fo) w (evList (lineEvs false false) i ls) = .ok (w.put (ls.flatMap (svgSub fo inv))) :=
  feed_evList fo inv _ _ ls (fun i c w _ hw => feed_line fo inv c i w hw) i w hw

theorem feed_poly (inv : Bool) (tagged : Bool) (rs : List (List Coord)) (i : Nat) (w : SvgWriter) (hw : w.invertY = inv) :
    feed (geomStep fo) w (polyEvs false tagged i rs) = .ok (w.put (pathElem (rs.flatMap (svgSub fo inv)))) := by
  simp only [polyEvs, bracket, feed_cons, geomStep, feed_append]
  rw [feed_lines fo inv rs 0 _ (by simpa using hw)]
  simp [feed, geomStep, pathElem]

/-- the methods the writer leaves at their defaults -/
def Silent (k : GKind) : Prop :=
  ∀ (w : SvgWriter) t n i, geomStep fo w (.gbegin k t n i) = .ok w ∧ geomStep fo w (.gend k t i) = .ok w

theorem feed_silent {α : Type} (k : GKind) (hk : Silent fo k) (inv : Bool) (f : Nat → α → List Ev) (t : α → Text)
    (xs : List α) (tagged : Bool)
    (h : ∀ i x (w : SvgWriter), x ∈ xs → w.invertY = inv → feed (geomStep fo) w (f i x) = .ok (w.put (t x)))
    (i : Nat) (w : SvgWriter) (hw : w.invertY = inv) :
    feed (geomStep fo) w (bracket k tagged i f xs) = .ok (w.put (xs.flatMap t)) := by
  simp only [bracket, feed_cons, (hk w tagged xs.length i).1, feed_append]
  rw [feed_evList fo inv f t xs h 0 w hw]
  simp [feed, (hk _ tagged 0 i).2]

theorem feed_circ (inv : Bool) (cs : List Coord) (i : Nat) (w : SvgWriter) (hw : w.invertY = inv) :
    feed (geomStep fo) w (circEvs false i cs) = .ok (w.put (svgCoords fo inv cs)) :=
  feed_silent fo .circularString (fun _ _ _ _ => ⟨rfl, rfl⟩) inv _ (svgXY fo inv) cs true
    (fun i c w _ hw => by simp [coordEvs, coordEv, feed, geomStep, svgXY, hw]) i w hw

theorem feed_seg (inv : Bool) (s : Seg) (i : Nat) (w : SvgWriter) (hw : w.invertY = inv) :
    feed (geomStep fo) w (segEvs false i s) = .ok (w.put (segText fo inv s)) := by
  cases s with
  | line cs => exact feed_line fo inv cs i w hw
  | circ cs => exact feed_circ fo inv cs i w hw

theorem feed_curve (inv : Bool) (c : Curve) (i : Nat) (w : SvgWriter) (hw : w.invertY = inv) :
    feed (geomStep fo) w (curveEvs false i c) = .ok (w.put (curveText fo inv c)) := by
  cases c with
  | seg s => exact feed_seg fo inv s i w hw
  | compound ss =>
    exact feed_silent fo .compoundCurve (fun _ _ _ _ => ⟨rfl, rfl⟩) inv _ _ ss true
      (fun i s w _ hw => feed_seg fo inv s i w hw) i w hw

theorem feed_surface (inv : Bool) (s : Surface) (i : Nat) (w : SvgWriter) (hw : w.invertY = inv) :
    feed (geomStep fo) w (surfaceEvs false i s) = .ok (w.put (surfaceText fo inv s)) := by
  cases s with
  | polygon rs => exact feed_poly fo inv false rs i w hw
  | curvePolygon rs =>
    exact feed_silent fo .curvePolygon (fun _ _ _ _ => ⟨rfl, rfl⟩) inv _ _ rs true
      (fun i s w _ hw => feed_curve fo inv s i w hw) i w hw

theorem svgTextList_eq (inv : Bool) (gs : List Geom) : svgTextList fo inv gs = gs.flatMap (svgText fo inv) := by
  induction gs with
  | nil => rfl
  | cons g gs ih => simp [svgTextList, ih]

theorem feed_geom (inv : Bool) (g : Geom) (hg : g.NoEmptyPoint) (i : Nat) (w : SvgWriter) (hw : w.invertY = inv) :
    feed (geomStep fo) w (Geom.events false i g) = .ok (w.put (svgText fo inv g)) := by
  induction g using Geom.ind generalizing i w with
  | emptyPoint => exact absurd hg (by simp [Geom.NoEmptyPoint])
  | point c =>
    have h1 : txt "<path d=\"M " = txt "<path d=\"" ++ txt "M " := rfl
    have h2 : txt "Z\"/>" = txt "Z" ++ txt "\"/>" := rfl
    simp [Geom.events, coordEv, feed, geomStep, svgText, pathElem, svgXY, hw, h1, h2]
  | multiPoint cs =>
    simp only [Geom.events, svgText]
    exact feed_silent fo .multiPoint (fun _ _ _ _ => ⟨rfl, rfl⟩) inv _ (svgXY fo inv) cs true
      (fun i c w _ hw => by simp [coordEvs, coordEv, feed, geomStep, svgXY, hw]) i w hw
  | lineString cs => simpa only [Geom.events, svgText] using feed_lineTagged fo inv cs i w hw
  | circularString cs => simpa only [Geom.events, svgText] using feed_circ fo inv cs i w hw
  | compoundCurve ss =>
    simp only [Geom.events, svgText]
    exact feed_silent fo .compoundCurve (fun _ _ _ _ => ⟨rfl, rfl⟩) inv _ _ ss true
      (fun i s w _ hw => feed_seg fo inv s i w hw) i w hw
  | multiLineString ls =>
    simp only [Geom.events, svgText, bracket, feed_cons, geomStep, feed_append]
    rw [feed_lines fo inv ls 0 _ (by simpa using hw)]
    simp [feed, geomStep, pathElem]
  | multiCurve cs =>
    simp only [Geom.events, svgText]
    exact feed_silent fo .multiCurve (fun _ _ _ _ => ⟨rfl, rfl⟩) inv _ _ cs true
      (fun i s w _ hw => feed_curve fo inv s i w hw) i w hw
  | polygon rs => simpa only [Geom.events, svgText] using feed_poly fo inv true rs i w hw
  | triangle rs =>
    simp only [Geom.events, svgText]
    exact feed_silent fo .triangle (fun _ _ _ _ => ⟨rfl, rfl⟩) inv _ _ rs true
      (fun i s w _ hw => feed_line fo inv s i w hw) i w hw
  | curvePolygon rs =>
    simp only [Geom.events, svgText]
    exact feed_silent fo .curvePolygon (fun _ _ _ _ => ⟨rfl, rfl⟩) inv _ _ rs true
      (fun i s w _ hw => feed_curve fo inv s i w hw) i w hw
  | multiPolygon ps =>
    simp only [Geom.events, svgText]
    exact feed_silent fo .multiPolygon (fun _ _ _ _ => ⟨rfl, rfl⟩) inv _ _ ps true
      (fun i s w _ hw => feed_poly fo inv false s i w hw) i w hw
  | polyhedralSurface ps =>
    simp only [Geom.events, svgText]
    exact feed_silent fo .polyhedralSurface (fun _ _ _ _ => ⟨rfl, rfl⟩) inv _ _ ps true
      (fun i s w _ hw => feed_poly fo inv false s i w hw) i w hw
  | tin ts =>
    simp only [Geom.events, svgText]
    exact feed_silent fo .tin (fun _ _ _ _ => ⟨rfl, rfl⟩) inv _ _ ts true
      (fun i s w _ hw => feed_silent fo .triangle (fun _ _ _ _ => ⟨rfl, rfl⟩) inv _ _ s false
        (fun i s w _ hw => feed_line fo inv s i w hw) i w hw) i w hw
  | multiSurface ss =>
    simp only [Geom.events, svgText]
    exact feed_silent fo .multiSurface (fun _ _ _ _ => ⟨rfl, rfl⟩) inv _ _ ss true
      (fun i s w _ hw => feed_surface fo inv s i w hw) i w hw
  | collection gs ih =>
    rw [events_collection]
    simp only [svgText, svgTextList_eq]
    simp only [Geom.NoEmptyPoint] at hg
    exact feed_silent fo .collection (fun _ _ _ _ => ⟨rfl, rfl⟩) inv _ _ gs true
      (fun i s w hm hw => ih s hm (hg s hm) i w hw) i w hw

/-- an empty point anywhere makes the writer fail -/
theorem feed_geom_empty (g : Geom) (hg : ¬ g.NoEmptyPoint) (i : Nat) (w : SvgWriter) :
    feed (geomStep fo) w (Geom.events false i g) =
      .error (.geometry "The input was an empty Point, but the output doesn't support empty Points") := by
  induction g using Geom.ind generalizing i w with
  | emptyPoint => rfl
  | collection gs ih =>
    rw [events_collection]
    simp only [bracket, feed_cons, geomStep]
    simp only [Geom.NoEmptyPoint] at hg
    apply feed_prefix_error
    clear i
    generalize 0 = i
    induction gs generalizing i w with
    | nil => exact absurd (by simp) hg
    | cons g gs ihl =>
      simp only [evList]
      by_cases h : g.NoEmptyPoint
      · rw [feed_append, feed_geom fo w.invertY g h i w rfl]
        exact ihl (fun x hx => ih x (by simp [hx])) _ (fun hall => hg fun x hx => by
          rcases List.mem_cons.mp hx with rfl | hx
          · exact h
          · exact hall x hx) _
      · exact feed_prefix_error _ _ _ _ _ (ih g (by simp) h i w)
  | _ => exact absurd (by simp [Geom.NoEmptyPoint]) hg

end SvgWriter

/-! ### tokens of geometries -/

theorem xmlPaths_append (a b : List XmlTok) : xmlPaths (a ++ b) = xmlPaths a ++ xmlPaths b := by
  induction a with
  | nil => rfl
  | cons t ts ih => cases t <;> simp [xmlPaths, ih]

theorem xmlChars_append (a b : List XmlTok) : xmlChars (a ++ b) = xmlChars a ++ xmlChars b := by
  induction a with
  | nil => rfl
  | cons t ts ih => cases t <;> simp [xmlChars, ih] <;> split <;> simp

/-- tokens without tags that open or close -/
def FlatToks (ts : List XmlTok) : Prop := ∀ t ∈ ts, (∃ c, t = .char c) ∨ ∃ d, t = pathTok d

theorem FlatToks.append {a b : List XmlTok} (ha : FlatToks a) (hb : FlatToks b) : FlatToks (a ++ b) := by
  intro t ht
  rcases List.mem_append.mp ht with h | h
  · exact ha t h
  · exact hb t h

theorem FlatToks.chars (t : Text) : FlatToks (t.map .char) := by
  intro x hx
  obtain ⟨c, _, rfl⟩ := List.mem_map.mp hx
  exact .inl ⟨c, rfl⟩

theorem FlatToks.path (d : Text) : FlatToks [pathTok d] := by
  intro x hx
  simp only [List.mem_singleton] at hx
  exact .inr ⟨d, hx⟩

theorem FlatToks.flatMap {α : Type} {f : α → List XmlTok} (xs : List α) (h : ∀ x ∈ xs, FlatToks (f x)) :
    FlatToks (xs.flatMap f) := by
  intro t ht
  obtain ⟨x, hx, h'⟩ := List.mem_flatMap.mp ht
  exact h x hx t h'

theorem svgToksList_eq (fo : SvgNum) (inv : Bool) (gs : List Geom) : svgToksList fo inv gs = gs.flatMap (svgToks fo inv) := by
  induction gs with
  | nil => rfl
  | cons g gs ih => simp [svgToksList, ih]

theorem flat_svgToks (fo : SvgNum) (inv : Bool) (g : Geom) : FlatToks (svgToks fo inv g) := by
  induction g using Geom.ind with
  | emptyPoint => simp [svgToks, FlatToks]
  | multiPolygon ps => simp only [svgToks]; exact .flatMap _ fun _ _ => .path _
  | polyhedralSurface ps => simp only [svgToks]; exact .flatMap _ fun _ _ => .path _
  | multiSurface ss =>
    simp only [svgToks]
    refine .flatMap _ fun s _ => ?_
    cases s with
    | polygon rs => exact .path _
    | curvePolygon rs => exact .chars _
  | collection gs ih => simp only [svgToks, svgToksList_eq]; exact .flatMap _ ih
  | _ => simp only [svgToks]; first | exact .path _ | exact .chars _

theorem balanced_flat {a b : List XmlTok} (h : FlatToks a) (st : List Text) : xmlBalanced st (a ++ b) = xmlBalanced st b := by
  induction a with
  | nil => rfl
  | cons t ts ih =>
    have iht := ih fun x hx => h x (by simp [hx])
    rcases h t (by simp) with ⟨c, rfl⟩ | ⟨d, rfl⟩
    · simpa [xmlBalanced] using iht
    · simpa [xmlBalanced, pathTok, attrsOk] using iht

theorem document_flat {a b : List XmlTok} (h : FlatToks a) (seen : Bool) (s : Text) (st : List Text) :
    xmlDocument seen (s :: st) (a ++ b) = xmlDocument seen (s :: st) b := by
  induction a with
  | nil => rfl
  | cons t ts ih =>
    have iht := ih fun x hx => h x (by simp [hx])
    rcases h t (by simp) with ⟨c, rfl⟩ | ⟨d, rfl⟩
    · simpa [xmlDocument] using iht
    · simpa [xmlDocument, pathTok, attrsOk] using iht

/-- A drawable geometry is written as its paths and nothing else. -/
theorem svgToks_drawable (fo : SvgNum) (inv : Bool) (g : Geom) (hg : g.HasPaths) :
    svgToks fo inv g = (g.svgPaths fo inv).map pathTok := by
  induction g using Geom.ind with
  | point c => rfl
  | lineString cs => rfl
  | multiLineString ls => rfl
  | polygon rs => rfl
  | multiPolygon ps =>
    simp only [svgToks, Geom.svgPaths]
    induction ps with
    | nil => rfl
    | cons p ps ih => simpa using ih (by simp [Geom.HasPaths])
  | polyhedralSurface ps =>
    simp only [svgToks, Geom.svgPaths]
    induction ps with
    | nil => rfl
    | cons p ps ih => simpa using ih (by simp [Geom.HasPaths])
  | multiSurface ss =>
    simp only [Geom.HasPaths] at hg
    simp only [svgToks, Geom.svgPaths]
    induction ss with
    | nil => rfl
    | cons s ss ih =>
      obtain ⟨rs, rfl⟩ := hg s (by simp)
      simp only [List.flatMap_cons, List.map_cons]
      rw [ih fun x hx => hg x (by simp [hx])]
      rfl
  | collection gs ih =>
    simp only [Geom.HasPaths] at hg
    simp only [svgToks, Geom.svgPaths]
    induction gs with
    | nil => rfl
    | cons g gs ihl =>
      simp only [svgToksList, Geom.svgPathsList, List.map_append]
      rw [ih g (by simp) (hg g (by simp)), ihl (fun x hx => ih x (by simp [hx])) fun x hx => hg x (by simp [hx])]
  | _ => exact absurd hg (by simp [Geom.HasPaths])

theorem drawable_noEmpty (g : Geom) (hg : g.HasPaths) : g.NoEmptyPoint := by
  induction g using Geom.ind with
  | emptyPoint => exact absurd hg (by simp [Geom.HasPaths])
  | collection gs ih =>
    simp only [Geom.HasPaths] at hg
    simp only [Geom.NoEmptyPoint]
    exact fun g hm => ih g hm (hg g hm)
  | _ => simp [Geom.NoEmptyPoint]

theorem xmlPaths_paths (ds : List Text) : xmlPaths (ds.map pathTok) = ds := by
  induction ds with
  | nil => rfl
  | cons d ds ih =>
    simp only [List.map_cons, pathTok, xmlPaths, if_true]
    rw [show ([(txt "d", d)].filter fun p => p.1 == txt "d") = [(txt "d", d)] from rfl]
    simpa [pathTok] using ih

theorem xmlChars_paths (ds : List Text) : xmlChars (ds.map pathTok) = [] := by
  induction ds with
  | nil => rfl
  | cons d ds ih => simpa [pathTok, xmlChars] using ih

end Geozero
