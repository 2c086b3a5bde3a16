import Verif.Lemmas.SvgPath
import Verif.Lemmas.Values
import Verif.Props.WkbAny

/-
Properties of the SVG writer: C44 (well-formed output, coordinates in paths), C52 (path data), C56 (view box).
-/

namespace Geozero
open Prog

/-- the only calls besides those of the geometry are SRIDs -/
def OnlySrid (pre : List Ev) : Prop := ∀ e ∈ pre, ∃ s, e = .srid s

private theorem feed_pre (fo : SvgNum) (w : SvgWriter) (pre : List Ev) (h : OnlySrid pre) :
    feed (SvgWriter.geomStep fo) w pre = .ok w := by
  induction pre with
  | nil => rfl
  | cons e es ih =>
    obtain ⟨s, rfl⟩ := h e (by simp)
    exact ih fun x hx => h x (by simp [hx])

private theorem toSvg_eq (fo : SvgNum) (src : Prog Unit) (bs rest : List Byte) (pre : List Ev) (g : Geom)
    (hpre : OnlySrid pre) (hsrc : run false src bs = (pre ++ Geom.events false 0 g, .ok ((), rest))) (hg : g.NoEmptyPoint) :
    toSvg fo src bs = .ok (svgText fo false g) := by
  have hf : feed (SvgWriter.gproc fo).step (SvgWriter.new false) (run false src bs).1 =
      .ok ((SvgWriter.new false).put (svgText fo false g)) := by
    rw [hsrc, feed_append]
    simp only [SvgWriter.gproc]
    rw [feed_pre fo _ pre hpre]
    exact SvgWriter.feed_geom fo false g hg 0 _ rfl
  unfold toSvg
  rw [interp_of_feed_ok (SvgWriter.gproc fo) false (fun _ => rfl) src _ _ bs hf, hsrc]
  simp [svgResult, SvgWriter.new]

/-- C44, balance.  Converting any geometry without empty points to SVG succeeds, and the text consists of balanced
elements with distinct attributes. -/
theorem C44_to_svg_balanced (fo : SvgNum) (hp : fo.Plain) (src : Prog Unit) (bs rest : List Byte) (pre : List Ev) (g : Geom)
    (hpre : OnlySrid pre) (hsrc : run false src bs = (pre ++ Geom.events false 0 g, .ok ((), rest))) (hg : g.NoEmptyPoint) :
    ∃ t ts, toSvg fo src bs = .ok t ∧ xmlTokens t = some ts ∧ xmlBalanced [] ts = true := by
  refine ⟨_, _, toSvg_eq fo src bs rest pre g hpre hsrc hg, tokens_of_scans (scans_svgText hp false g), ?_⟩
  simpa [xmlBalanced] using balanced_flat (b := []) (flat_svgToks fo false g) []

/-- C44 for geometries the writer has elements for: the text is one path element per point, line string, multi line
string or polygon, with the coordinates in its `d` attribute, and no character data.
Missing: multi points, circular strings, compound curves, multi curves, curve polygons, triangles and TINs, for which it is
false (`C44_multipoint_false`). -/
theorem C44_to_svg_paths_partial (fo : SvgNum) (hp : fo.Plain) (src : Prog Unit) (bs rest : List Byte) (pre : List Ev)
    (g : Geom) (hpre : OnlySrid pre) (hsrc : run false src bs = (pre ++ Geom.events false 0 g, .ok ((), rest)))
    (hg : g.HasPaths) :
    ∃ t ts, toSvg fo src bs = .ok t ∧ xmlTokens t = some ts ∧ xmlBalanced [] ts = true ∧
      xmlPaths ts = g.svgPaths fo false ∧ xmlChars ts = [] := by
  have hn := drawable_noEmpty g hg
  refine ⟨_, _, toSvg_eq fo src bs rest pre g hpre hsrc hn, tokens_of_scans (scans_svgText hp false g), ?_, ?_⟩
  · simpa [xmlBalanced] using balanced_flat (b := []) (flat_svgToks fo false g) []
  · rw [svgToks_drawable fo false g hg]
    exact ⟨xmlPaths_paths _, xmlChars_paths _⟩

/-- An empty point anywhere in the geometry makes the conversion fail. -/
theorem C44_empty_point_rejected (fo : SvgNum) (src : Prog Unit) (bs rest : List Byte) (pre : List Ev) (g : Geom)
    (hpre : OnlySrid pre) (hsrc : run false src bs = (pre ++ Geom.events false 0 g, .ok ((), rest)))
    (hg : ¬ g.NoEmptyPoint) :
    toSvg fo src bs = .error (.geometry "The input was an empty Point, but the output doesn't support empty Points") ∧
    toSvgDocument fo src bs = .error (.geometry "The input was an empty Point, but the output doesn't support empty Points") := by
  have key : ∀ w : SvgWriter, (interp (SvgWriter.gproc fo) src w bs).2.2 =
      .error (.geometry "The input was an empty Point, but the output doesn't support empty Points") := by
    intro w
    apply interp_of_feed_error (SvgWriter.gproc fo) false (fun _ => rfl) src w bs
    rw [hsrc, feed_append]
    simp only [SvgWriter.gproc]
    rw [feed_pre fo _ pre hpre]
    exact SvgWriter.feed_geom_empty fo g hg 0 _
  constructor
  · have := key (SvgWriter.new false)
    unfold toSvg svgResult
    revert this
    rcases interp (SvgWriter.gproc fo) src (SvgWriter.new false) bs with ⟨w, evs, r⟩
    rintro rfl
    rfl
  · have := key (((SvgWriter.new false).datasetBegin fo none).put (txt "\n"))
    unfold toSvgDocument svgResult
    revert this
    simp only
    rcases interp (SvgWriter.gproc fo) src (((SvgWriter.new false).datasetBegin fo none).put (txt "\n")) bs with ⟨w, evs, r⟩
    rintro rfl
    rfl

/-- a number format without markup characters: the decimal value of the bit pattern, signless -/
def exNum : SvgNum := { num := fun v => natText v.toNat, sub := fun a _ => a }

theorem exNum_plain : exNum.Plain := fun v => plain_natText _

/-- a source that delivers a geometry collection with a point, a line and a polygon with a hole -/
def exSvgGeom : Geom := .collection [.point ⟨1#64, 2#64, none, none⟩,
  .lineString [⟨1#64, 1#64, none, none⟩, ⟨2#64, 2#64, none, none⟩],
  .polygon [[⟨0#64, 0#64, none, none⟩, ⟨9#64, 0#64, none, none⟩, ⟨0#64, 0#64, none, none⟩], [⟨1#64, 1#64, none, none⟩]]]

/-- a reader that delivers given calls -/
def replay : List Ev → Prog Unit
  | [] => .ret ()
  | e :: es => .emit e (replay es)

theorem run_replay (multi : Bool) (es : List Ev) (bs : List Byte) : run multi (replay es) bs = (es, .ok ((), bs)) := by
  induction es with
  | nil => rfl
  | cons e es ih => simp [replay, run, ih]

example : exSvgGeom.HasPaths ∧ exSvgGeom.NoEmptyPoint := by simp [exSvgGeom, Geom.HasPaths, Geom.NoEmptyPoint]
example : OnlySrid [.srid (some 4326)] ∧
    run false (replay ([.srid (some 4326)] ++ exSvgGeom.events false 0)) [] =
      ([.srid (some 4326)] ++ exSvgGeom.events false 0, .ok ((), [])) :=
  ⟨by simp [OnlySrid], run_replay _ _ _⟩
example : exSvgGeom.svgPaths exNum false =
    [txt "M 1 2 Z", txt "1 1 2 2 ", txt "M 0 0 9 0 0 0 Z M 1 1 Z "] := by
  simp only [exSvgGeom, Geom.svgPaths, Geom.svgPathsList]
  decide +kernel
example : ¬ (Geom.collection [.emptyPoint]).NoEmptyPoint := by simp [Geom.NoEmptyPoint]

/-- C44 fails for multi points: the coordinates end up as character data, outside any element. -/
theorem C44_multipoint_false : ∃ (g : Geom) (t : Text) (ts : List XmlTok),
    toSvg exNum (replay (g.events false 0)) [] = .ok t ∧ xmlTokens t = some ts ∧ xmlPaths ts = [] ∧ xmlChars ts = txt "12" :=
  ⟨.multiPoint [⟨1#64, 2#64, none, none⟩], txt "1 2 ", [.char '1', .char ' ', .char '2', .char ' '],
    (toSvg_eq exNum (replay (Geom.events false 0 (.multiPoint [⟨1#64, 2#64, none, none⟩]))) [] [] []
        (.multiPoint [⟨1#64, 2#64, none, none⟩]) (by simp [OnlySrid]) (run_replay _ _ _) (by simp [Geom.NoEmptyPoint])).trans
      (congrArg _ (by simp only [svgText]; decide +kernel)), by decide +kernel, by decide +kernel, by decide +kernel⟩

/-! ## documents -/

/-- C44 for documents.  Any writer (with or without inverted y axis, dimensions and style), any dataset whose features have
no geometry or one without empty points: what is written is an XML document with balanced elements. -/
theorem C44_document_balanced (fo : SvgNum) (hp : fo.Plain) (w : SvgWriter) (hw : w.out = []) (name : Option Text)
    (hn : PlainXml (name.getD [])) (hs : PlainXml (w.style.getD [])) (fs : List Feat) (gs : List (Option Geom))
    (hf : fs.map Feat.geomCalls = gs.map fun g => (g.map (Geom.events false 0)).getD []) (hg : ∀ g, some g ∈ gs → g.NoEmptyPoint) :
    ∃ w' ts, feed (SvgWriter.step fo) w (datasetEvs name fs) = .ok w' ∧ xmlTokens w'.out = some ts ∧
      xmlDocument false [] ts = true := by
  refine ⟨_, _, feed_dataset fo fs gs hf hg name w, ?_, document_doc fo w name gs⟩
  simp only [SvgWriter.put_out, hw, List.nil_append]
  exact tokens_of_scans (scans_doc hp w name hn hs gs)

/-- C44 for documents of drawable geometries: the paths are those of the features in order, and the only character data is
the style. -/
theorem C44_document_paths_partial (fo : SvgNum) (hp : fo.Plain) (w : SvgWriter) (hw : w.out = []) (name : Option Text)
    (hn : PlainXml (name.getD [])) (hs : PlainXml (w.style.getD [])) (fs : List Feat) (gs : List (Option Geom))
    (hf : fs.map Feat.geomCalls = gs.map fun g => (g.map (Geom.events false 0)).getD []) (hg : ∀ g, some g ∈ gs → g.HasPaths) :
    ∃ w' ts, feed (SvgWriter.step fo) w (datasetEvs name fs) = .ok w' ∧ xmlTokens w'.out = some ts ∧
      xmlDocument false [] ts = true ∧
      xmlPaths ts = gs.flatMap (fun og => (og.map (Geom.svgPaths fo w.invertY)).getD []) ∧
      xmlChars ts = (w.style.getD []).filter fun c => !isXmlSpace c := by
  refine ⟨_, _, feed_dataset fo fs gs hf (fun g hm => drawable_noEmpty g (hg g hm)) name w, ?_, document_doc fo w name gs, ?_⟩
  · simp only [SvgWriter.put_out, hw, List.nil_append]
    exact tokens_of_scans (scans_doc hp w name hn hs gs)
  · obtain ⟨h1, h2⟩ := feats_drawable fo w.invertY gs hg
    obtain ⟨h3, h4⟩ := head_paths fo w name
    have e : (fun og : Option Geom => (og.map (Geom.svgPaths fo w.invertY)).getD []) = optPaths fo w.invertY := by
      funext og
      cases og <;> rfl
    have h5 : xmlPaths svgTailToks = [] := by decide
    have h6 : xmlChars svgTailToks = [] := by decide
    simp [xmlPaths_append, xmlChars_append, h1, h2, h3, h4, h5, h6, e]

/-- a writer with dimensions and style, features with and without geometry, properties before and after it -/
def exSvgWriter : SvgWriter := ((SvgWriter.new true).setDimensions 0#64 0#64 9#64 9#64 800 600).setStyle (some (txt "path{fill:red}"))

def exSvgFeats : List Feat :=
  [{ geom := some (exSvgGeom.events false 0), props := some [(0, txt "a", .int 1)] },
   { geom := none, props := some [] },
   { geom := some ((Geom.polygon []).events false 0), geomFirst := true }]

example : exSvgWriter.out = [] ∧ PlainXml ((some (txt "map")).getD []) ∧ PlainXml (exSvgWriter.style.getD []) ∧
    exSvgFeats.map Feat.geomCalls = [some exSvgGeom, none, some (.polygon [])].map (fun g => (g.map (Geom.events false 0)).getD []) ∧
    ∀ g, some g ∈ [some exSvgGeom, none, some (Geom.polygon [])] → g.HasPaths := by
  refine ⟨rfl, plain_lit (by decide), plain_lit (by decide), rfl, ?_⟩
  intro g hg
  simp only [List.mem_cons, Option.some.injEq, reduceCtorEq, List.not_mem_nil, or_false, false_or] at hg
  rcases hg with rfl | rfl <;> simp [exSvgGeom, Geom.HasPaths]

/-- C44: converting a data source that delivers such a dataset -/
theorem C44_source_document (fo : SvgNum) (hp : fo.Plain) (src : FProg Unit) (bs rest : List Byte)
    (name : Option Text) (hn : PlainXml (name.getD [])) (fs : List Feat) (gs : List (Option Geom))
    (hsrc : FProg.run { multi := false, dims := {}, ans := fun _ => true } src bs = (datasetEvs name fs, .ok ((), rest)))
    (hf : fs.map Feat.geomCalls = gs.map fun g => (g.map (Geom.events false 0)).getD []) (hg : ∀ g, some g ∈ gs → g.NoEmptyPoint) :
    ∃ t ts, processToSvg fo src bs = .ok t ∧ xmlTokens t = some ts ∧ xmlDocument false [] ts = true := by
  obtain ⟨w', ts, h1, h2, h3⟩ := C44_document_balanced fo hp (SvgWriter.new false) rfl name hn (by simp [SvgWriter.new, PlainXml])
    fs gs hf hg
  refine ⟨w'.out, ts, ?_, h2, h3⟩
  have ha : FProg.Agrees (SvgWriter.proc fo) { multi := false, dims := {}, ans := fun _ => true } (fun _ => True) :=
    ⟨fun _ _ => rfl, fun _ _ => rfl, fun _ _ _ => rfl, fun _ _ _ _ _ => trivial⟩
  unfold processToSvg
  rw [FProg.interp_of_feed_ok ha src (SvgWriter.new false) w' trivial bs (by rw [hsrc]; exact h1), hsrc]

/-- C44: `to_svg_document` of a geometry -/
theorem C44_to_svg_document (fo : SvgNum) (hp : fo.Plain) (src : Prog Unit) (bs rest : List Byte) (pre : List Ev) (g : Geom)
    (hpre : OnlySrid pre) (hsrc : run false src bs = (pre ++ Geom.events false 0 g, .ok ((), rest))) (hg : g.NoEmptyPoint) :
    ∃ t ts, toSvgDocument fo src bs = .ok t ∧ xmlTokens t = some ts ∧ xmlDocument false [] ts = true ∧
      (g.HasPaths → xmlPaths ts = g.svgPaths fo false ∧ xmlChars ts = []) := by
  have key : toSvgDocument fo src bs =
      .ok (svgHeadText fo (SvgWriter.new false) none ++ svgFeatText fo false [some g] ++ txt "\n</g>\n</svg>") := by
    unfold toSvgDocument
    simp only [datasetBegin_eq]
    rw [interp_of_feed_ok (SvgWriter.gproc fo) false (fun _ => rfl) src _ _ bs
      (by rw [hsrc, feed_append]
          simp only [SvgWriter.gproc]
          rw [feed_pre fo _ pre hpre]
          exact SvgWriter.feed_geom fo false g hg 0 _ rfl), hsrc]
    simp [svgResult, SvgWriter.new, svgFeatText]
  have hnil : PlainXml [] := by simp [PlainXml]
  refine ⟨_, _, key, tokens_of_scans (scans_doc hp (SvgWriter.new false) none hnil hnil [some g]),
    document_doc fo (SvgWriter.new false) none [some g], ?_⟩
  intro hd
  obtain ⟨h1, h2⟩ := feats_drawable fo false [some g] (by simpa using hd)
  obtain ⟨h3, h4⟩ := head_paths fo (SvgWriter.new false) none
  have h5 : xmlPaths svgTailToks = [] := by decide
  have h6 : xmlChars svgTailToks = [] := by decide
  have hinv : (SvgWriter.new false).invertY = false := rfl
  have hst : (SvgWriter.new false).style = none := rfl
  simp [xmlPaths_append, xmlChars_append, h1, h2, h3, h4, h5, h6, hinv, hst, optPaths]

/-- C44 fails for dataset names that need escaping: the name is copied into an attribute as it is, and one containing a
double quote or a `<` breaks the document. -/
theorem C44_name_false : ∃ (name : Text) (w' : SvgWriter),
    feed (SvgWriter.step exNum) (SvgWriter.new false) (datasetEvs (some name) []) = .ok w' ∧ xmlTokens w'.out = none :=
  ⟨txt "a<b", _, rfl, by decide +kernel⟩

private theorem svg_semi (fo : SvgNum) (w : SvgWriter) (e : Ev) : w.geomStep fo (semiEv e) = w.geomStep fo e := by
  cases e with
  | gbegin k => cases k <;> rfl
  | _ => rfl

private theorem svg_feed_semi (fo : SvgNum) (evs : List Ev) (w : SvgWriter) :
    feed (SvgWriter.geomStep fo) w (evs.map semiEv) = feed (SvgWriter.geomStep fo) w evs := by
  induction evs generalizing w with
  | nil => rfl
  | cons e evs ih =>
    simp only [List.map_cons, feed_cons, svg_semi]
    cases w.geomStep fo e with
    | error x => rfl
    | ok w' => exact ih w'

/-- C44 for WKB: on every input of every dialect, compressed SpatiaLite geometries included, `SvgString::from_wkb` fails with the
reader's error, or because of an empty point, or gives a text of balanced elements. -/
theorem C44_from_wkb (fo : SvgNum) (hp : fo.Plain) (fw : FOps) (d : WkbDialect) (bs : List Byte) :
    (∃ t ts, svgFromWkb fo fw d bs = .ok t ∧ xmlTokens t = some ts ∧ xmlBalanced [] ts = true) ∨
    svgFromWkb fo fw d bs = .error (.geometry "The input was an empty Point, but the output doesn't support empty Points") ∨
    ∃ evs e, run false (processWkbTypeGeom fw d) bs = (evs, .error e) ∧ svgFromWkb fo fw d bs = .error e := by
  have herr : ∀ evs r x, run false (processWkbTypeGeom fw d) bs = (evs, r) →
      feed (SvgWriter.geomStep fo) (SvgWriter.new false) evs = .error x → svgFromWkb fo fw d bs = .error x := by
    intro evs r x hr hf
    have h := interp_of_feed_error (SvgWriter.gproc fo) false (fun _ => rfl) (processWkbTypeGeom fw d)
      (SvgWriter.new false) bs x (by rw [hr]; exact hf)
    unfold svgFromWkb toSvg svgResult
    revert h
    rcases interp (SvgWriter.gproc fo) (processWkbTypeGeom fw d) (SvgWriter.new false) bs with ⟨w, evs', r⟩
    rintro rfl
    rfl
  have hsrid : ∀ (s : Option Int) g, feed (SvgWriter.geomStep fo) (SvgWriter.new false) (.srid s :: Geom.events false 0 g) =
      feed (SvgWriter.geomStep fo) (SvgWriter.new false) (Geom.events false 0 g) := fun _ _ => rfl
  cases hr : run false (processWkbTypeGeom fw d) bs with
  | mk evs r =>
    cases r with
    | ok p =>
      obtain ⟨⟨⟩, rest⟩ := p
      obtain ⟨s, g, _, he⟩ := C08_spatialite_success_semi fw d false bs rest evs hr
      have hpre : OnlySrid [.srid s] := by simp [OnlySrid]
      have hf : feed (SvgWriter.geomStep fo) (SvgWriter.new false) evs =
          feed (SvgWriter.geomStep fo) (SvgWriter.new false) (.srid s :: Geom.events false 0 g) := by
        rw [← svg_feed_semi, he, svg_feed_semi]
      by_cases hg : g.NoEmptyPoint
      · left
        have hok := SvgWriter.feed_geom fo false g hg 0 (SvgWriter.new false) rfl
        have hsame : svgFromWkb fo fw d bs = toSvg fo (replay (.srid s :: Geom.events false 0 g)) [] := by
          unfold svgFromWkb toSvg
          rw [interp_of_feed_ok (SvgWriter.gproc fo) false (fun _ => rfl) _ _ _ bs (by rw [hr]; exact hf.trans ((hsrid s g).trans hok)),
            interp_of_feed_ok (SvgWriter.gproc fo) false (fun _ => rfl) (replay (.srid s :: Geom.events false 0 g)) _ _ []
              (by rw [run_replay]; exact (hsrid s g).trans hok), hr, run_replay]
          rfl
        rw [hsame]
        exact C44_to_svg_balanced fo hp _ [] [] [.srid s] g hpre (run_replay ..) hg
      · right; left
        refine herr evs _ _ hr ?_
        rw [hf, hsrid, SvgWriter.feed_geom_empty fo g hg 0 _]
    | error e =>
      right
      obtain ⟨s, g, t, ht⟩ := C09_spatialite_failure_semi fw d false bs evs e hr
      cases hp2 : feed (SvgWriter.geomStep fo) (SvgWriter.new false) evs with
      | ok w' =>
        right
        refine ⟨evs, e, rfl, ?_⟩
        unfold svgFromWkb toSvg
        rw [interp_of_feed_ok (SvgWriter.gproc fo) false (fun _ => rfl) _ _ w' bs (by rw [hr]; exact hp2), hr]
        rfl
      | error x =>
        left
        have hx := feed_prefix_error _ _ _ t x ((svg_feed_semi fo evs _).trans hp2)
        rw [ht, svg_feed_semi, hsrid] at hx
        have : x = .geometry "The input was an empty Point, but the output doesn't support empty Points" := by
          by_cases hg : g.NoEmptyPoint
          · rw [SvgWriter.feed_geom fo false g hg 0 _ rfl] at hx
            cases hx
          · rw [SvgWriter.feed_geom_empty fo g hg 0 _] at hx
            cases hx
            rfl
        subst this
        exact herr evs _ _ hr hp2

example (fw : FOps) : ∃ t, svgFromWkb exNum fw .wkb ([1] ++ encU32 .le 1 ++ List.replicate 16 0) = .ok t := ⟨_, rfl⟩
example (fw : FOps) : svgFromWkb exNum fw .wkb [1, 2] = .error .io := rfl

/-! ## C52: path data -/

/-- C52 for all drawable geometries but line strings: the data of every path is valid and draws exactly the positions of the
geometry, one subpath per line or ring.
Missing: line strings (`C52_line_string_false`). -/
theorem C52_path_data_partial (fo : SvgNum) (hn : fo.Numeric) (inv : Bool) (g : Geom) (hg : g.DrawsOk) :
    g.HasPaths ∧ (g.svgPaths fo inv).map pathData = (g.svgShapes fo inv).map some := by
  have hl : ∀ ps : List (List (List Coord)), (∀ rs ∈ ps, RingsOk rs) →
      (ps.map fun rings => rings.flatMap (svgSub fo inv)).map pathData =
        (ps.map fun rings => rings.map (List.map (svgPos fo inv))).map some := by
    intro ps h
    simp only [List.map_map]
    apply List.map_congr_left
    intro rs hrs
    exact pathData_subs hn inv rs (h rs hrs)
  induction g using Geom.ind with
  | point c =>
    simp only [Geom.DrawsOk] at hg
    refine ⟨by simp [Geom.HasPaths], ?_⟩
    simp only [Geom.svgPaths, Geom.svgShapes, List.map_cons, List.map_nil]
    rw [pathData_point hn inv c hg.1 hg.2]
  | multiLineString ls =>
    refine ⟨by simp [Geom.HasPaths], ?_⟩
    simp only [Geom.svgPaths, Geom.svgShapes, List.map_cons, List.map_nil]
    rw [pathData_subs hn inv ls hg]
  | polygon rs =>
    refine ⟨by simp [Geom.HasPaths], ?_⟩
    simp only [Geom.svgPaths, Geom.svgShapes, List.map_cons, List.map_nil]
    rw [pathData_subs hn inv rs hg]
  | multiPolygon ps => exact ⟨by simp [Geom.HasPaths], hl ps hg⟩
  | polyhedralSurface ps => exact ⟨by simp [Geom.HasPaths], hl ps hg⟩
  | multiSurface ss =>
    simp only [Geom.DrawsOk] at hg
    refine ⟨?_, ?_⟩
    · simp only [Geom.HasPaths]
      intro s hs
      obtain ⟨rs, rfl, _⟩ := hg s hs
      exact ⟨rs, rfl⟩
    · simp only [Geom.svgPaths, Geom.svgShapes, List.map_map]
      apply List.map_congr_left
      intro s hs
      obtain ⟨rs, rfl, h⟩ := hg s hs
      exact pathData_subs hn inv rs h
  | collection gs ih =>
    simp only [Geom.DrawsOk] at hg
    simp only [Geom.HasPaths, Geom.svgPaths, Geom.svgShapes]
    induction gs with
    | nil => simp [Geom.svgPathsList, Geom.svgShapesList]
    | cons g gs ihl =>
      simp only [Geom.DrawsOkList] at hg
      obtain ⟨h1, h2⟩ := ih g (by simp) hg.1
      obtain ⟨h3, h4⟩ := ihl (fun x hx => ih x (by simp [hx])) hg.2
      refine ⟨?_, ?_⟩
      · intro x hx
        rcases List.mem_cons.mp hx with rfl | hx
        · exact h1
        · exact h3 x hx
      · simp only [Geom.svgPathsList, Geom.svgShapesList, List.map_append, h2, h4]
  | _ => exact absurd hg (by simp [Geom.DrawsOk])

theorem exNum_numeric : exNum.Numeric := by
  intro v _
  have h1 := natText_ne_nil v.toNat
  have h2 := natText_digits v.toNat
  simp only [isSvgNumber, exNum, Bool.and_eq_true, Bool.not_eq_true', List.isEmpty_eq_false_iff, List.all_eq_true]
  exact ⟨h1, fun c hc => by simp [h2 c hc]⟩

example : (Geom.collection [.point ⟨1#64, 2#64, none, none⟩,
    .multiPolygon [[[⟨0#64, 0#64, none, none⟩, ⟨9#64, 0#64, none, none⟩], [⟨1#64, 1#64, none, none⟩]]]]).DrawsOk := by
  simp [Geom.DrawsOk, Geom.DrawsOkList, RingsOk, F64.Finite]

/-- C52 fails for line strings: their path data has no initial `M`, so no line string is drawn. -/
theorem C52_line_string_false (fo : SvgNum) (hn : fo.Numeric) (inv : Bool) (cs : List Coord) (hne : cs ≠ [])
    (h : ∀ c ∈ cs, c.x.Finite ∧ c.y.Finite) :
    ((Geom.lineString cs).svgPaths fo inv).map pathData = [none] := by
  cases cs with
  | nil => exact absurd rfl hne
  | cons c cs =>
    have hw := words_coords hn inv (c :: cs) h []
    simp only [List.append_nil] at hw
    obtain ⟨h1, _⟩ := num_pos hn inv (h c (by simp)).1 (h c (by simp)).2
    have hM : (svgPos fo inv c).1 ≠ txt "M" := by
      intro e
      rw [e] at h1
      revert h1
      decide
    simp only [Geom.svgPaths, List.map_cons, List.map_nil, pathData, hw, List.flatMap_cons, List.cons_append, List.nil_append]
    rw [pathSubs, if_neg hM]

example : (⟨1#64, 1#64, none, none⟩ : Coord).x.Finite ∧ (⟨1#64, 1#64, none, none⟩ : Coord).y.Finite := by simp [F64.Finite]

/-! ## C56: the view box -/

theorem F64.value_negate (x : F64) : x.negate.value = - x.value := by
  have hx := x.isLt
  have h : x.negate.toNat % 2 ^ 63 = x.toNat % 2 ^ 63 := by
    unfold F64.negate
    rw [BitVec.toNat_xor, Nat.xor_mod_two_pow]
    simp
  have hd : x.negate.toNat / 2 ^ 63 = (x.toNat / 2 ^ 63) ^^^ 1 := by
    unfold F64.negate
    rw [BitVec.toNat_xor, Nat.xor_div_two_pow]
    rfl
  have h2 : x.toNat / 2 ^ 63 = 0 ∨ x.toNat / 2 ^ 63 = 1 := by omega
  unfold F64.value
  rw [h, hd]
  rcases h2 with e | e <;> rw [e] <;> simp

/-- C56.  A writer with dimensions, any dataset: the root element has the given width and height, and its view box is
`x y dx dy` with `dx` and `dy` the extents between two corners such that a position lies in the given box exactly if the
position drawn for it lies between these corners: these are the given ones, mirrored at the x axis when y is inverted. -/
theorem C56_view_box (fo : SvgNum) (hp : fo.Plain) (inv : Bool) (xmin ymin xmax ymax : F64) (width height : UInt32)
    (style : Option Text) (hs : PlainXml (style.getD [])) (name : Option Text) (hn : PlainXml (name.getD []))
    (fs : List Feat) (gs : List (Option Geom))
    (hf : fs.map Feat.geomCalls = gs.map fun g => (g.map (Geom.events false 0)).getD []) (hg : ∀ g, some g ∈ gs → g.NoEmptyPoint) :
    ∃ w' ts root x0 y0 x1 y1,
      feed (SvgWriter.step fo) (((SvgWriter.new inv).setDimensions xmin ymin xmax ymax width height).setStyle style)
        (datasetEvs name fs) = .ok w' ∧
      xmlTokens w'.out = some ts ∧ xmlRoot ts = some (txt "svg", root) ∧
      root.lookup (txt "width") = some (natText width.toNat) ∧ root.lookup (txt "height") = some (natText height.toNat) ∧
      root.lookup (txt "viewBox") = some (fo.num x0 ++ txt " " ++ fo.num y0 ++ txt " " ++ fo.num (fo.sub x1 x0) ++ txt " " ++
        fo.num (fo.sub y1 y0)) ∧
      (∀ x y : F64, InBox xmin ymin xmax ymax x y ↔ InBox x0 y0 x1 y1 x (if inv then y.negate else y)) ∧
      x0 = xmin ∧ x1 = xmax ∧ (y0, y1) = (if inv then (ymax.negate, ymin.negate) else (ymin, ymax)) := by
  let w := ((SvgWriter.new inv).setDimensions xmin ymin xmax ymax width height).setStyle style
  have ht := tokens_of_scans (scans_doc hp w name hn hs gs)
  refine ⟨_, svgHeadToks fo w name ++ svgFeatToks fo w.invertY gs ++ svgTailToks,
    svgAttrs ++ svgSizeAttrs (some (width, height)) ++ svgBoxAttrs fo (some
      (xmin, if inv then ymax.negate else ymin, xmax, if inv then ymin.negate else ymax)) ++ svgEndAttrs,
    xmin, if inv then ymax.negate else ymin, xmax, if inv then ymin.negate else ymax, feed_dataset fo fs gs hf hg name w,
    ht, ?_, ?_, ?_, ?_, ?_, rfl, rfl, by cases inv <;> rfl⟩
  · cases inv <;> simp [w, svgHeadToks, xmlRoot, SvgWriter.setStyle, SvgWriter.setDimensions, SvgWriter.new]
  · simp only [svgAttrs, svgSizeAttrs, List.cons_append, List.nil_append]
    rfl
  · simp only [svgAttrs, svgSizeAttrs, List.cons_append, List.nil_append]
    rfl
  · simp only [svgAttrs, svgSizeAttrs, svgBoxAttrs, List.cons_append, List.nil_append]
    rfl
  · intro x y
    cases inv
    · simp
    · simp only [InBox, if_true, F64.value_negate]
      omega

example : PlainXml ((some (txt "path{fill:red}")).getD []) ∧ PlainXml ((none : Option Text).getD []) ∧
    exSvgFeats.map Feat.geomCalls = [some exSvgGeom, none, some (.polygon [])].map (fun g => (g.map (Geom.events false 0)).getD []) :=
  ⟨plain_lit (by decide), by simp [PlainXml], rfl⟩
/-- inside and outside -/
example : InBox 0#64 0#64 9#64 9#64 1#64 2#64 ∧ ¬ InBox 0#64 0#64 9#64 9#64 1#64 (F64.negate 2#64) := by
  decide +kernel

end Geozero
