import Verif.Lemmas.Svg

/- Helper lemmas for SVG documents. -/

namespace Geozero

theorem plain_natText (n : Nat) : PlainXml (natText n) := by
  induction n using natText.induct with
  | case1 n h =>
    rw [natText, if_pos h]
    intro c hc
    simp only [List.mem_singleton] at hc
    subst hc
    have : n = 0 ∨ n = 1 ∨ n = 2 ∨ n = 3 ∨ n = 4 ∨ n = 5 ∨ n = 6 ∨ n = 7 ∨ n = 8 ∨ n = 9 := by omega
    rcases this with rfl | rfl | rfl | rfl | rfl | rfl | rfl | rfl | rfl | rfl <;> decide
  | case2 n h ih =>
    rw [natText, if_neg h]
    refine ih.append ?_
    intro c hc
    simp only [List.mem_singleton] at hc
    subst hc
    have : n % 10 = 0 ∨ n % 10 = 1 ∨ n % 10 = 2 ∨ n % 10 = 3 ∨ n % 10 = 4 ∨ n % 10 = 5 ∨ n % 10 = 6 ∨ n % 10 = 7 ∨
      n % 10 = 8 ∨ n % 10 = 9 := by omega
    rcases this with h | h | h | h | h | h | h | h | h | h <;> rw [h] <;> decide

/-- the attributes of the root element that are always there -/
def svgAttrs : List (Text × Text) :=
  [(txt "xmlns", txt "http://www.w3.org/2000/svg"), (txt "version", txt "1.2"), (txt "baseProfile", txt "tiny")]

/-- width and height -/
def svgSizeAttrs : Option (UInt32 × UInt32) → List (Text × Text)
  | none => []
  | some (w, h) => [(txt "width", natText w.toNat), (txt "height", natText h.toNat)]

/-- view box -/
def svgBoxAttrs (fo : SvgNum) : Option (F64 × F64 × F64 × F64) → List (Text × Text)
  | none => []
  | some (x0, y0, x1, y1) =>
    [(txt "viewBox", fo.num x0 ++ txt " " ++ fo.num y0 ++ txt " " ++ fo.num (fo.sub x1 x0) ++ txt " " ++ fo.num (fo.sub y1 y0))]

def svgEndAttrs : List (Text × Text) := [(txt "stroke-linecap", txt "round"), (txt "stroke-linejoin", txt "round")]

/-- the tokens of the style element -/
def svgStyleToks : Option Text → List XmlTok
  | none => []
  | some s => .open (txt "style") [] :: (s.map .char ++ [.close (txt "style"), .char '\n'])

/-- the tokens of the beginning of a document -/
def svgHeadToks (fo : SvgNum) (w : SvgWriter) (name : Option Text) : List XmlTok :=
  [.pi, .char '\n', .open (txt "svg") (svgAttrs ++ svgSizeAttrs w.size ++ svgBoxAttrs fo w.viewBox ++ svgEndAttrs),
    .char '\n'] ++ svgStyleToks w.style ++ [.open (txt "g") [(txt "id", name.getD [])]]

/-- the tokens of the end of a document -/
def svgTailToks : List XmlTok := [.char '\n', .close (txt "g"), .char '\n', .close (txt "svg")]

/-- the text of the beginning of a document -/
def svgHeadText (fo : SvgNum) (w : SvgWriter) (name : Option Text) : Text := ({ w with out := [] }.datasetBegin fo name).out

theorem datasetBegin_eq (fo : SvgNum) (w : SvgWriter) (name : Option Text) :
    w.datasetBegin fo name = w.put (svgHeadText fo w name) := by
  unfold svgHeadText SvgWriter.datasetBegin
  obtain ⟨out, inv, box, style, size⟩ := w
  rcases size with _ | ⟨a, b⟩ <;> rcases box with _ | ⟨x, y, z, u⟩ <;> cases style <;> cases name <;>
    simp [SvgWriter.put]

theorem scans_attr {n : Text} {as : List (Text × Text)} {a v : Text} {key : Text} (hv : PlainXml v)
    (h1 : Scans (.inTag n as true) key [] (.attrVal n as a [])) :
    Scans (.inTag n as true) (key ++ v ++ txt "\" ") [] (.inTag n (as ++ [(a, v)]) true) := by
  have h2 := Scans.value (n := n) (as := as) (a := a) (v := []) hv
  have h3 : Scans (.attrVal n as a ([] ++ v)) (txt "\" ") [] (.inTag n (as ++ [(a, v)]) true) := rfl
  simpa using (h1.append h2).append h3

theorem scans_size (n : Text) (as : List (Text × Text)) (size : Option (UInt32 × UInt32)) :
    Scans (.inTag n as true)
      (match size with
        | some (w, h) => txt "width=\"" ++ natText w.toNat ++ txt "\" height=\"" ++ natText h.toNat ++ txt "\" "
        | none => []) [] (.inTag n (as ++ svgSizeAttrs size) true) := by
  cases size with
  | none => simpa [svgSizeAttrs] using Scans.nil (.inTag n as true)
  | some p =>
    obtain ⟨w, h⟩ := p
    have h1 : Scans (.inTag n as true) (txt "width=\"" ++ natText w.toNat ++ txt "\" ") [] _ :=
      scans_attr (a := txt "width") (plain_natText _) rfl
    have h2 : Scans (.inTag n (as ++ [(txt "width", natText w.toNat)]) true)
        (txt "height=\"" ++ natText h.toNat ++ txt "\" ") [] _ := scans_attr (a := txt "height") (plain_natText _) rfl
    have := h1.append h2
    simpa [svgSizeAttrs, show txt "\" height=\"" = txt "\" " ++ txt "height=\"" from rfl] using this

theorem scans_box {fo : SvgNum} (hp : fo.Plain) (n : Text) (as : List (Text × Text)) (box : Option (F64 × F64 × F64 × F64)) :
    Scans (.inTag n as true)
      (match box with
        | some (x0, y0, x1, y1) =>
          txt "viewBox=\"" ++ fo.num x0 ++ txt " " ++ fo.num y0 ++ txt " " ++ fo.num (fo.sub x1 x0) ++ txt " " ++
            fo.num (fo.sub y1 y0) ++ txt "\" "
        | none => []) [] (.inTag n (as ++ svgBoxAttrs fo box) true) := by
  cases box with
  | none => simpa [svgBoxAttrs] using Scans.nil (.inTag n as true)
  | some p =>
    obtain ⟨x0, y0, x1, y1⟩ := p
    have hs : PlainXml (txt " ") := plain_lit (by decide)
    have h1 : Scans (.inTag n as true) (txt "viewBox=\"" ++ (fo.num x0 ++ txt " " ++ fo.num y0 ++ txt " " ++
        fo.num (fo.sub x1 x0) ++ txt " " ++ fo.num (fo.sub y1 y0)) ++ txt "\" ") [] _ :=
      scans_attr (a := txt "viewBox")
        (((((((hp x0).append hs).append (hp y0)).append hs).append (hp _)).append hs).append (hp _)) rfl
    simpa [svgBoxAttrs] using h1

theorem scans_style (style : Option Text) (hs : PlainXml (style.getD [])) :
    Scans .content (match style with
      | some s => txt "<style>" ++ s ++ txt "</style>\n"
      | none => []) (svgStyleToks style) .content := by
  cases style with
  | none => exact .nil _
  | some s =>
    have h1 : Scans .content (txt "<style>") [.open (txt "style") []] .content := by unfold Scans; decide
    have h3 : Scans .content (txt "</style>\n") [.close (txt "style"), .char '\n'] .content := by unfold Scans; decide
    exact (h1.append (Scans.chars hs)).append h3

theorem scans_head {fo : SvgNum} (hp : fo.Plain) (w : SvgWriter) (name : Option Text) (hn : PlainXml (name.getD []))
    (hs : PlainXml (w.style.getD [])) : Scans .content (svgHeadText fo w name) (svgHeadToks fo w name) .content := by
  have h1 : Scans .content
      (txt "<?xml version=\"1.0\"?>\n<svg xmlns=\"http://www.w3.org/2000/svg\" version=\"1.2\" baseProfile=\"tiny\" ")
      [.pi, .char '\n'] (.inTag (txt "svg") svgAttrs true) := by
    unfold Scans
    decide +kernel
  have h2 := scans_size (txt "svg") svgAttrs w.size
  have h3 := scans_box hp (txt "svg") (svgAttrs ++ svgSizeAttrs w.size) w.viewBox
  have h4 : Scans (.inTag (txt "svg") (svgAttrs ++ svgSizeAttrs w.size ++ svgBoxAttrs fo w.viewBox) true)
      (txt "stroke-linecap=\"round\" stroke-linejoin=\"round\">\n")
      [.open (txt "svg") (svgAttrs ++ svgSizeAttrs w.size ++ svgBoxAttrs fo w.viewBox ++ svgEndAttrs), .char '\n'] .content := by
    generalize svgAttrs ++ svgSizeAttrs w.size ++ svgBoxAttrs fo w.viewBox = as
    have : Scans (.inTag (txt "svg") as true) (txt "stroke-linecap=\"round\" stroke-linejoin=\"round\">\n")
      [.open (txt "svg") ((as ++ [(txt "stroke-linecap", txt "round")]) ++ [(txt "stroke-linejoin", txt "round")]), .char '\n']
      .content := rfl
    simpa [svgEndAttrs] using this
  have h5 := scans_style w.style hs
  have h6 : Scans .content (txt "<g id=\"") [] (.attrVal (txt "g") [] (txt "id") []) := by unfold Scans; decide
  have h7 := Scans.value (n := txt "g") (as := []) (a := txt "id") (v := []) hn
  have h8 : Scans (.attrVal (txt "g") [] (txt "id") ([] ++ name.getD [])) (txt "\">")
    [.open (txt "g") [(txt "id", name.getD [])]] .content := rfl
  have h := ((((((h1.append h2).append h3).append h4).append h5).append h6).append h7).append h8
  unfold svgHeadText svgHeadToks SvgWriter.datasetBegin
  obtain ⟨out, inv, box, style, size⟩ := w
  rcases size with _ | ⟨a, b⟩ <;> rcases box with _ | ⟨x, y, z, u⟩ <;> cases style <;> cases name <;>
    simpa [SvgWriter.put] using h

theorem scans_tail : Scans .content (txt "\n</g>\n</svg>") svgTailToks .content := by
  unfold Scans
  decide

/-! ### features -/

/-- the text of the features -/
def svgFeatText (fo : SvgNum) (inv : Bool) : List (Option Geom) → Text
  | [] => []
  | og :: gs => txt "\n" ++ (match og with
    | none => []
    | some g => svgText fo inv g) ++ svgFeatText fo inv gs

/-- the tokens of the features -/
def svgFeatToks (fo : SvgNum) (inv : Bool) : List (Option Geom) → List XmlTok
  | [] => []
  | og :: gs => .char '\n' :: ((match og with
    | none => []
    | some g => svgToks fo inv g) ++ svgFeatToks fo inv gs)

theorem scans_feats {fo : SvgNum} (hp : fo.Plain) (inv : Bool) (gs : List (Option Geom)) :
    Scans .content (svgFeatText fo inv gs) (svgFeatToks fo inv gs) .content := by
  induction gs with
  | nil => exact .nil _
  | cons og gs ih =>
    have h0 : Scans .content (txt "\n") [.char '\n'] .content := by unfold Scans; decide
    cases og with
    | none => exact (h0.append (.nil _)).append ih
    | some g => simpa [svgFeatText, svgFeatToks] using (h0.append (scans_svgText hp inv g)).append ih

theorem flat_feats (fo : SvgNum) (inv : Bool) (gs : List (Option Geom)) : FlatToks (svgFeatToks fo inv gs) := by
  induction gs with
  | nil => simp [svgFeatToks, FlatToks]
  | cons og gs ih =>
    have h0 : FlatToks [.char '\n'] := FlatToks.chars ['\n']
    cases og with
    | none => exact h0.append ih
    | some g => exact h0.append ((flat_svgToks fo inv g).append ih)

/-- Calls of the feature methods other than the geometry ones leave the writer as it is. -/
theorem feed_props (fo : SvgNum) (w : SvgWriter) (f : Feat) : feed (SvgWriter.step fo) w f.propsPart = .ok w := by
  unfold Feat.propsPart
  cases f.props with
  | none => rfl
  | some ps =>
    simp only [feed_cons, SvgWriter.step, feed_append]
    have : ∀ qs : List PropRec, feed (SvgWriter.step fo) w (propEvs qs) = .ok w := by
      intro qs
      induction qs with
      | nil => rfl
      | cons q qs ih => exact ih
    rw [this]
    rfl

theorem feed_map_geom (fo : SvgNum) (w : SvgWriter) (es : List Ev) :
    feed (SvgWriter.step fo) w (es.map FEv.geom) = feed (SvgWriter.geomStep fo) w es := by
  induction es generalizing w with
  | nil => rfl
  | cons e es ih =>
    simp only [List.map_cons, feed_cons, SvgWriter.step]
    cases SvgWriter.geomStep fo w e with
    | ok w' => exact ih w'
    | error x => rfl

/-- the text of a feature's geometry section -/
def optText (fo : SvgNum) (inv : Bool) : Option Geom → Text
  | none => []
  | some g => svgText fo inv g

theorem feed_geomPart (fo : SvgNum) (w : SvgWriter) (f : Feat) (og : Option Geom)
    (hf : f.geomCalls = (og.map (Geom.events false 0)).getD []) (hg : ∀ g ∈ og, g.NoEmptyPoint) :
    feed (SvgWriter.step fo) w f.geomPart = .ok (w.put (optText fo w.invertY og)) := by
  unfold Feat.geomPart
  cases og with
  | none =>
    cases hc : f.geom with
    | none => simp [optText, SvgWriter.put_nil]
    | some es =>
      simp only [Feat.geomCalls, hc, Option.getD_some, Option.map_none, Option.getD_none] at hf
      simp [hf, optText, SvgWriter.put_nil, feed, SvgWriter.step]
  | some g =>
    have hd := SvgWriter.feed_geom fo w.invertY g (hg g rfl) 0 w rfl
    cases hc : f.geom with
    | none =>
      simp only [Feat.geomCalls, hc, Option.getD_none, Option.map_some, Option.getD_some] at hf
      rw [← hf] at hd
      exact hd
    | some es =>
      simp only [Feat.geomCalls, hc, Option.getD_some, Option.map_some] at hf
      simp only [hf, feed_cons, SvgWriter.step, feed_append, feed_map_geom]
      rw [hd]
      rfl

theorem feed_feat (fo : SvgNum) (w : SvgWriter) (f : Feat) (og : Option Geom) (i : Nat)
    (hf : f.geomCalls = (og.map (Geom.events false 0)).getD []) (hg : ∀ g ∈ og, g.NoEmptyPoint) :
    feed (SvgWriter.step fo) w (f.evs i) = .ok (w.put (txt "\n" ++ optText fo w.invertY og)) := by
  have h := feed_geomPart fo (w.put (txt "\n")) f og hf hg
  unfold Feat.evs
  cases f.geomFirst
  · simp only [feed_cons, SvgWriter.step, Bool.false_eq_true, if_false, feed_append, feed_props, h]
    simp [feed, SvgWriter.step]
  · simp only [feed_cons, SvgWriter.step, if_true, feed_append, h, feed_props]
    simp [feed, SvgWriter.step]

theorem feed_feats (fo : SvgNum) (fs : List Feat) (gs : List (Option Geom))
    (hf : fs.map Feat.geomCalls = gs.map fun g => (g.map (Geom.events false 0)).getD []) (hg : ∀ g, some g ∈ gs → g.NoEmptyPoint) (i : Nat)
    (w : SvgWriter) : feed (SvgWriter.step fo) w (featEvs i fs) = .ok (w.put (svgFeatText fo w.invertY gs)) := by
  induction fs generalizing gs i w with
  | nil =>
    cases gs with
    | nil => simp [featEvs, svgFeatText, SvgWriter.put_nil]
    | cons _ _ => cases hf
  | cons f fs ih =>
    cases gs with
    | nil => cases hf
    | cons og gs =>
      simp only [List.map_cons, List.cons.injEq] at hf
      simp only [featEvs, feed_append]
      rw [feed_feat fo w f og i hf.1 (fun g hm => hg g (by simp only [Option.mem_def] at hm; simp [hm]))]
      simp only
      rw [ih gs hf.2 (fun g hm => hg g (by simp [hm])) (i + 1) _]
      cases og <;> simp [svgFeatText, optText]

/-- the whole dataset -/
theorem feed_dataset (fo : SvgNum) (fs : List Feat) (gs : List (Option Geom))
    (hf : fs.map Feat.geomCalls = gs.map fun g => (g.map (Geom.events false 0)).getD []) (hg : ∀ g, some g ∈ gs → g.NoEmptyPoint)
    (name : Option Text) (w : SvgWriter) :
    feed (SvgWriter.step fo) w (datasetEvs name fs) =
      .ok (w.put (svgHeadText fo w name ++ svgFeatText fo w.invertY gs ++ txt "\n</g>\n</svg>")) := by
  simp only [datasetEvs, feed_cons, SvgWriter.step, datasetBegin_eq, feed_append]
  rw [feed_feats fo fs gs hf hg 0 _]
  simp [feed, SvgWriter.step]

/-! ### tokens of documents -/

theorem scans_doc {fo : SvgNum} (hp : fo.Plain) (w : SvgWriter) (name : Option Text) (hn : PlainXml (name.getD []))
    (hs : PlainXml (w.style.getD [])) (gs : List (Option Geom)) :
    Scans .content (svgHeadText fo w name ++ svgFeatText fo w.invertY gs ++ txt "\n</g>\n</svg>")
      (svgHeadToks fo w name ++ svgFeatToks fo w.invertY gs ++ svgTailToks) .content :=
  ((scans_head hp w name hn hs).append (scans_feats hp w.invertY gs)).append scans_tail

theorem tokens_of_scans {t : Text} {ts : List XmlTok} (h : Scans .content t ts .content) : xmlTokens t = some ts := by
  unfold xmlTokens
  rw [show xmlScan .content t = some (.content, ts) from h]

theorem document_chars (t : Text) (rest : List XmlTok) (seen : Bool) (s : Text) (st : List Text) :
    xmlDocument seen (s :: st) (t.map .char ++ rest) = xmlDocument seen (s :: st) rest :=
  document_flat (FlatToks.chars t) seen s st

theorem attrsOk_root (fo : SvgNum) (w : SvgWriter) :
    attrsOk (svgAttrs ++ svgSizeAttrs w.size ++ svgBoxAttrs fo w.viewBox ++ svgEndAttrs) = true := by
  unfold attrsOk
  obtain ⟨out, inv, box, style, size⟩ := w
  rcases size with _ | ⟨a, b⟩ <;> rcases box with _ | ⟨x, y, z, u⟩ <;>
    simp [svgAttrs, svgSizeAttrs, svgBoxAttrs, svgEndAttrs] <;> decide

theorem document_doc (fo : SvgNum) (w : SvgWriter) (name : Option Text) (gs : List (Option Geom)) :
    xmlDocument false [] (svgHeadToks fo w name ++ svgFeatToks fo w.invertY gs ++ svgTailToks) = true := by
  have htail : xmlDocument true [txt "g", txt "svg"] svgTailToks = true := by decide
  have hfeat := document_flat (b := svgTailToks) (flat_feats fo w.invertY gs) true (txt "g") [txt "svg"]
  rw [htail] at hfeat
  have hg : attrsOk [(txt "id", name.getD [])] = true := by simp [attrsOk]
  unfold svgHeadToks
  have hsp : isXmlSpace '\n' = true := by decide
  have hr := attrsOk_root fo w
  simp only [List.append_assoc] at hr
  have h0 : attrsOk [] = true := by decide
  cases hst : w.style with
  | none => simp [xmlDocument, hr, svgStyleToks, hsp, hg, hfeat]
  | some s => simp [xmlDocument, hr, svgStyleToks, hsp, hg, hfeat, document_chars, h0]

/-- paths of features -/
def optPaths (fo : SvgNum) (inv : Bool) : Option Geom → List Text
  | none => []
  | some g => g.svgPaths fo inv

theorem feats_drawable (fo : SvgNum) (inv : Bool) (gs : List (Option Geom)) (hg : ∀ g, some g ∈ gs → g.HasPaths) :
    xmlPaths (svgFeatToks fo inv gs) = gs.flatMap (optPaths fo inv) ∧ xmlChars (svgFeatToks fo inv gs) = [] := by
  have hsp : isXmlSpace '\n' = true := by decide
  induction gs with
  | nil => exact ⟨rfl, rfl⟩
  | cons og gs ih =>
    obtain ⟨h1, h2⟩ := ih fun g hm => hg g (by simp [hm])
    cases og with
    | none => simp [svgFeatToks, xmlPaths, xmlChars, h1, h2, optPaths, hsp]
    | some g =>
      have hd := svgToks_drawable fo inv g (hg g (by simp))
      simp [svgFeatToks, xmlPaths, xmlChars, h1, h2, optPaths, hsp, hd, xmlPaths_append, xmlChars_append, xmlPaths_paths,
        xmlChars_paths]

theorem xmlChars_chars (t : Text) : xmlChars (t.map .char) = t.filter fun c => !isXmlSpace c := by
  induction t with
  | nil => rfl
  | cons c t ih =>
    simp only [List.map_cons, xmlChars, List.filter_cons, ih]
    cases isXmlSpace c <;> simp

theorem xmlPaths_chars (t : Text) : xmlPaths (t.map .char) = [] := by
  induction t with
  | nil => rfl
  | cons c t ih => simpa [xmlPaths] using ih

theorem head_paths (fo : SvgNum) (w : SvgWriter) (name : Option Text) :
    xmlPaths (svgHeadToks fo w name) = [] ∧
    xmlChars (svgHeadToks fo w name) = (w.style.getD []).filter fun c => !isXmlSpace c := by
  have hsp : isXmlSpace '\n' = true := by decide
  have h1 : (txt "svg" = txt "path") = False := by simp [txt]
  have h2 : (txt "g" = txt "path") = False := by simp [txt]
  have h3 : (txt "style" = txt "path") = False := by simp [txt]
  unfold svgHeadToks
  cases w.style with
  | none => simp [xmlPaths, xmlChars, svgStyleToks, hsp, h1, h2]
  | some s =>
    simp [xmlPaths, xmlChars, svgStyleToks, hsp, h1, h2, h3, xmlPaths_append, xmlChars_append, xmlPaths_chars, xmlChars_chars]

end Geozero
