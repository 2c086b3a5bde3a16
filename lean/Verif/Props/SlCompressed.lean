import Verif.Spec.SlCompressed
import Verif.Props.WkbSpatialite
import Verif.Props.Db
import Verif.Props.Geos
import Verif.Props.Gdal
import Verif.Model.Svg
import Verif.Model.Mvt
import Verif.Props.GeoJson

/-
C64: compressed SpatiaLite geometries convert like the geometry they stand for.
-/

namespace Geozero
open Prog Spec

/-- forget the index of a coordinate, except whether it is 0 -/
def idxEv : Ev → Ev
  | .xy x y i => .xy x y (min i 1)
  | .coord x y z m t tm i => .coord x y z m t tm (min i 1)
  | e => e

theorem idx_coordEv (multi : Bool) (c : Coord) (i : Nat) : idxEv (coordEv multi c i) = coordEv multi c (min i 1) := by
  unfold coordEv; split <;> rfl

private theorem inner_length (fo : FOps) (p : Coord) (δs : List Delta) : (inner fo p δs).length = δs.length := by
  induction δs generalizing p with
  | nil => rfl
  | cons δ δs ih => simp [inner, ih]

private theorem vertices_length (fo : FOps) (first : Coord) (δs : List Delta) (last : Coord) :
    (vertices fo first δs last).length = δs.length + 2 := by
  simp [vertices, inner_length]

theorem slEvList_append {α : Type} (f : Nat → α → List Ev) (i : Nat) (xs ys : List α) :
    evList f i (xs ++ ys) = evList f i xs ++ evList f (i + xs.length) ys := by
  induction xs generalizing i with
  | nil => simp [evList]
  | cons x xs ih => simp [evList, ih, Nat.add_assoc, Nat.add_comm 1]

/-- a compressed line string differs from the plain one in the index of the last coordinate only -/
private theorem compressed_idx (fo : FOps) (multi tagged : Bool) (i : Nat) (first : Coord) (δs : List Delta) (last : Coord) :
    (compressedLineEvs fo multi tagged i first δs last).map idxEv
      = (lineEvs multi tagged i (vertices fo first δs last)).map idxEv := by
  have h1 : min (δs.length + 2) 1 = 1 := by omega
  have h2 : min (0 + (first :: inner fo first δs).length) 1 = 1 := by simp [inner_length]
  have e : vertices fo first δs last = (first :: inner fo first δs) ++ [last] := by simp [vertices]
  unfold compressedLineEvs lineEvs bracket
  rw [vertices_length, e, slEvList_append]
  simp only [List.map_cons, List.map_append, List.map_nil, evList, coordEvs, List.append_nil, idx_coordEv, h1, h2,
    List.append_assoc]
  rfl

private theorem rings_idx (fo : FOps) (multi : Bool) (rings : List (Coord × List Delta × Coord)) (i : Nat) :
    (evList (fun i (r : Coord × List Delta × Coord) => compressedLineEvs fo multi false i r.1 r.2.1 r.2.2) i rings).map idxEv
      = (evList (lineEvs multi false) i (rings.map fun r => vertices fo r.1 r.2.1 r.2.2)).map idxEv := by
  induction rings generalizing i with
  | nil => rfl
  | cons r rs ih => simp [evList, compressed_idx, ih]

/-- what the reader delivers for a compressed blob -/
private theorem compressed_run (fo : FOps) (d : Dims) (srid : Int) (g : Geom) (blob : List Byte)
    (h : Compressed fo d srid g blob) (multi : Bool) :
    ∃ evs rest, run multi (processWkbTypeGeom fo .spatiaLite) blob = (evs, .ok ((), rest)) ∧
      evs.map idxEv = (.srid (if srid = 0 then none else some srid) :: g.events multi 0).map idxEv := by
  obtain ⟨hs, e, mbr, hm, ⟨first, δs, last, ⟨h1, h2, h3, h4⟩, rfl, rfl⟩ | ⟨rings, hr, hp, rfl, rfl⟩⟩ := h
  · have := C06_compressed_linestring_partial fo d e srid hs mbr hm first last δs h1 h2 h3 h4 [] multi
    rw [List.append_nil] at this
    exact ⟨_, _, this, by simp only [List.map_cons, compressed_idx, Geom.events]⟩
  · have := C06_compressed_polygon_partial fo d e srid hs mbr hm rings hr
      (fun r hr => ⟨(hp r hr).1, (hp r hr).2.1, (hp r hr).2.2.1, (hp r hr).2.2.2⟩) [] multi
    rw [List.append_nil] at this
    refine ⟨_, _, this, ?_⟩
    simp only [List.map_cons, Geom.events, polyEvs, bracket, List.map_append, rings_idx, List.length_map]

theorem feed_idx {σ : Type} {step : σ → Ev → Except Err σ} (hi : ∀ s e, step s (idxEv e) = step s e)
    (evs evs' : List Ev) (h : evs.map idxEv = evs'.map idxEv) (s : σ) : feed step s evs = feed step s evs' := by
  have key : ∀ (evs : List Ev) (s : σ), feed step s (evs.map idxEv) = feed step s evs := by
    intro evs
    induction evs with
    | nil => intro s; rfl
    | cons e evs ih =>
      intro s
      simp only [List.map_cons, feed_cons, hi]
      cases step s e with
      | error x => rfl
      | ok s' => exact ih s'
  rw [← key evs, h, key]

/-- how a conversion ends: the final state of the processor, or the error -/
def outcome {σ : Type} (P : Proc σ) (p : Prog Unit) (s : σ) (bs : List Byte) : Except Err σ :=
  match interp P p s bs with
  | (s', _, .ok _) => .ok s'
  | (_, _, .error e) => .error e

theorem outcome_eq {σ : Type} (P : Proc σ) (multi : Bool) (I : σ → Prop) (hm : ∀ s, I s → P.multi s = multi)
    (hI : ∀ s e s', I s → P.step s e = .ok s' → I s') (p : Prog Unit) (s : σ) (hs : I s) (bs rest : List Byte)
    (evs : List Ev) (hr : run multi p bs = (evs, .ok ((), rest))) : outcome P p s bs = feed P.step s evs := by
  unfold outcome
  cases hf : feed P.step s evs with
  | ok s' =>
    rw [interp_of_feed_ok_inv P multi I hm hI p s s' hs bs (by rw [hr]; exact hf), hr]
  | error x =>
    have h2 := interp_run_inv P multi I hm hI p s hs bs
    rcases hi : interp P p s bs with ⟨w, es, r⟩
    rcases interp_spec P p s bs with h1 | ⟨pre, e, x', he, hp, hx, hr'⟩
    · exfalso
      rw [(h2.2 h1).1, hr] at h1
      rw [hf] at h1
      cases h1
    · obtain ⟨t, ht⟩ := h2.1
      rw [hr] at ht
      simp only at ht
      rw [← ht, he, List.append_assoc, feed_append, hp] at hf
      simp only [List.singleton_append, feed, hx, Except.error.injEq] at hf
      rw [hi] at hr'
      simp only at hr'
      rw [hr', hf]

/-- The heart of C64: no processor that uses coordinate indices only to tell the first coordinate from the others can see
the difference between a compressed blob and a plain one. -/
theorem outcome_compressed {σ : Type} (P : Proc σ) (multi : Bool) (I : σ → Prop) (hm : ∀ s, I s → P.multi s = multi)
    (hI : ∀ s e s', I s → P.step s e = .ok s' → I s') (hi : ∀ s e, P.step s (idxEv e) = P.step s e) (s : σ) (hs : I s)
    (fo : FOps) (z m : Bool) (srid : Int) (g : Geom) (blob : List Byte)
    (h : ∀ multi, ∃ evs rest, run multi (processWkbTypeGeom fo .spatiaLite) blob = (evs, .ok ((), rest)) ∧
      evs.map idxEv = (.srid (if srid = 0 then none else some srid) :: g.events multi 0).map idxEv)
    (dl : WkbDialect) (plain : List Byte) (hp : Holds dl { z, m } (if srid = 0 then none else some srid) g plain)
    (hl : g.levels ≤ 128) :
    outcome P (processWkbTypeGeom fo .spatiaLite) s blob = outcome P (processWkbTypeGeom fo dl) s plain := by
  obtain ⟨evs, rest, hr, he⟩ := h multi
  rw [outcome_eq P multi I hm hI _ s hs blob rest evs hr,
    outcome_eq P multi I hm hI _ s hs plain _ _ ((holds_read fo dl z m _ g plain hp hl).1 multi)]
  exact feed_idx hi _ _ he s

private theorem compressed_levels {fo : FOps} {d : Dims} {srid : Int} {g : Geom} {blob : List Byte}
    (h : Compressed fo d srid g blob) : g.levels ≤ 128 := by
  obtain ⟨-, e, mbr, -, ⟨_, _, _, -, rfl, -⟩ | ⟨_, -, -, rfl, -⟩⟩ := h <;> simp [Geom.levels]

private theorem min1_pos (i : Nat) : (min i 1 > 0) = (i > 0) := propext ⟨fun h => by omega, fun h => by omega⟩

private theorem wkt_idx (num : F64 → Text) (w : WktWriter) (e : Ev) : WktWriter.step num w (idxEv e) = WktWriter.step num w e := by
  cases e <;> simp only [idxEv, WktWriter.step, WktWriter.xy, WktWriter.coordinate, WktWriter.comma, min1_pos]

theorem wkb_idx (w : WkbWriter) (e : Ev) : w.step (idxEv e) = w.step e := by
  cases e <;> rfl

private theorem geo_idx (sz : ElemSizes) (w : GeoWriter) (e : Ev) : w.step sz (idxEv e) = w.step sz e := by
  cases e <;> rfl

private theorem json_idx (num : F64 → Text) (w : GeoJsonWriter) (e : Ev) :
    (GeoJsonWriter.geomProc num).step w (idxEv e) = (GeoJsonWriter.geomProc num).step w e := by
  cases e <;> simp only [idxEv, GeoJsonWriter.geomProc, GeoJsonWriter.geomStep, GeoJsonWriter.comma, min1_pos]

private theorem svg_idx (fo : SvgNum) (w : SvgWriter) (e : Ev) : w.geomStep fo (idxEv e) = w.geomStep fo e := by
  cases e <;> rfl

private theorem mvt_idx (sz : ElemSizes) (tr : F64 → F64 → IXY) (w : MvtWriter) (e : Ev) :
    (MvtWriter.proc sz tr).step w (idxEv e) = (MvtWriter.proc sz tr).step w e := by
  cases e <;> rfl

/-- the conversions of two blobs that are read with the same calls, but for the indices of coordinates after the first -/
theorem like_plain_of_run (fo : FOps) (z m : Bool) (srid : Int) (g : Geom) (blob : List Byte)
    (h : ∀ multi, ∃ evs rest, run multi (processWkbTypeGeom fo .spatiaLite) blob = (evs, .ok ((), rest)) ∧
      evs.map idxEv = (.srid (if srid = 0 then none else some srid) :: g.events multi 0).map idxEv)
    (dl : WkbDialect) (plain : List Byte) (hp : Holds dl { z, m } (if srid = 0 then none else some srid) g plain)
    (hl : g.levels ≤ 128) :
    (∀ num dialect dims s, (GeoSource.ofWkb fo .spatiaLite blob).toWktWithOpts num dialect dims s
      = (GeoSource.ofWkb fo dl plain).toWktWithOpts num dialect dims s) ∧
    (∀ dialect dims s env, (GeoSource.ofWkb fo .spatiaLite blob).toWkbDialect dialect dims s env
      = (GeoSource.ofWkb fo dl plain).toWkbDialect dialect dims s env) ∧
    (∀ sz, geoFromWkb fo sz .spatiaLite blob = geoFromWkb fo sz dl plain) ∧
    (∀ num, geoJsonFromWkb fo num .spatiaLite blob = geoJsonFromWkb fo num dl plain) ∧
    (∀ svg, svgFromWkb svg fo .spatiaLite blob = svgFromWkb svg fo dl plain) ∧
    (∀ ar sz, mvtFromWkb ar sz fo .spatiaLite blob = mvtFromWkb ar sz fo dl plain) := by
  refine ⟨fun num dialect dims s => ?_, fun dialect dims s env => ?_, fun sz => ?_, fun num => ?_, fun svg => ?_, fun ar sz => ?_⟩
  · have k := outcome_compressed (WktWriter.proc num) dims.multi (fun w => w.dims = dims)
      (fun w h => by simp [WktWriter.proc, h]) (WktWriter.step_dims num dims) (wkt_idx num)
      (WktWriter.withOpts dialect dims s) rfl fo z m srid g blob h dl plain hp hl
    have e : ∀ p bs, toWktWithOpts num p dialect dims s bs =
        (outcome (WktWriter.proc num) p (WktWriter.withOpts dialect dims s) bs).map WktWriter.out := by
      intro p bs
      unfold toWktWithOpts outcome
      rcases interp (WktWriter.proc num) p (WktWriter.withOpts dialect dims s) bs with ⟨w, es, _ | _⟩ <;> rfl
    simp only [GeoSource.toWktWithOpts, GeoSource.ofWkb, e, k]
  · have k := outcome_compressed WkbWriter.proc (WkbWriter.withOpts dialect dims s env).readDims.multi
      (fun w => w.readDims = (WkbWriter.withOpts dialect dims s env).readDims)
      (fun w h => by simp [WkbWriter.proc, h]) (fun s e s' h hs => by rw [← h]; exact WkbWriter.step_readDims hs) wkb_idx
      (WkbWriter.withOpts dialect dims s env) rfl fo z m srid g blob h dl plain hp hl
    have e : ∀ v : GeoSource, v.toWkbDialect dialect dims s env =
        (outcome WkbWriter.proc v.prog (WkbWriter.withOpts dialect dims s env) v.bytes).map WkbWriter.out := by
      intro v
      unfold GeoSource.toWkbDialect GeoSource.writeWkb outcome
      rcases interp WkbWriter.proc v.prog (WkbWriter.withOpts dialect dims s env) v.bytes with ⟨w, es, _ | _⟩ <;> rfl
    simp only [e, GeoSource.ofWkb, k]
  · have k := outcome_compressed (GeoWriter.proc sz) false (fun _ => True) (fun _ _ => rfl) (fun _ _ _ _ _ => trivial)
      (geo_idx sz) {} trivial fo z m srid g blob h dl plain hp hl
    have e : ∀ d bs, geoFromWkb fo sz d bs = (outcome (GeoWriter.proc sz) (processWkbTypeGeom fo d) {} bs).bind
        (fun w => match w.takeGeometry.1 with
          | some g => .ok g
          | none => .error (.geometry "Missing Geometry")) := by
      intro d bs
      unfold geoFromWkb outcome
      rcases interp (GeoWriter.proc sz) (processWkbTypeGeom fo d) {} bs with ⟨w, es, _ | _⟩ <;> rfl
    simp only [e, k]
  · have k := outcome_compressed (GeoJsonWriter.geomProc num) false (fun w => w.dims = {})
      (fun w hw => by show w.dims.multi = false; rw [hw]; rfl)
      (fun w e w' hw h => by
        simp only [GeoJsonWriter.geomProc, Except.ok.injEq] at h
        subst h
        rw [GeoJsonWriter.geomStep_text]
        exact hw) (json_idx num) {} rfl fo z m srid g blob h dl plain hp hl
    have e : ∀ d bs, geoJsonFromWkb fo num d bs =
        (outcome (GeoJsonWriter.geomProc num) (processWkbTypeGeom fo d) {} bs).map GeoJsonWriter.out := by
      intro d bs
      unfold geoJsonFromWkb outcome
      rcases interp (GeoJsonWriter.geomProc num) (processWkbTypeGeom fo d) {} bs with ⟨w, es, _ | _⟩ <;> rfl
    simp only [e, k]
  · have k := outcome_compressed (SvgWriter.gproc svg) false (fun _ => True) (fun _ _ => rfl) (fun _ _ _ _ _ => trivial)
      (svg_idx svg) (SvgWriter.new false) trivial fo z m srid g blob h dl plain hp hl
    have e : ∀ d bs, svgFromWkb svg fo d bs =
        (outcome (SvgWriter.gproc svg) (processWkbTypeGeom fo d) (SvgWriter.new false) bs).map SvgWriter.out := by
      intro d bs
      unfold svgFromWkb toSvg outcome
      rcases interp (SvgWriter.gproc svg) (processWkbTypeGeom fo d) (SvgWriter.new false) bs with ⟨w, es, _ | _⟩ <;> rfl
    simp only [e, k]
  · have k : ∀ tr, _ := fun tr => outcome_compressed (MvtWriter.proc sz tr) false (fun _ => True) (fun _ _ => rfl)
      (fun _ _ _ _ _ => trivial) (mvt_idx sz tr) {} trivial fo z m srid g blob h dl plain hp hl
    have e : ∀ tr d bs, toMvt sz tr (processWkbTypeGeom fo d) bs =
        (outcome (MvtWriter.proc sz tr) (processWkbTypeGeom fo d) {} bs).bind MvtWriter.intoFeature := by
      intro tr d bs
      unfold toMvt outcome
      rcases interp (MvtWriter.proc sz tr) (processWkbTypeGeom fo d) {} bs with ⟨w, es, _ | _⟩ <;> rfl
    unfold mvtFromWkb toMvtUnscaled
    split
    · rfl
    · simp only [e, k]

/-- C64.  A compressed SpatiaLite line string or polygon converts to WKT, to WKB of any dialect, to geo-types, GeoJSON, SVG and
vector tiles exactly like an uncompressed blob, of any dialect, holding the geometry it stands for. -/
theorem C64_compressed_like_plain_partial (fo : FOps) (z m : Bool) (srid : Int) (g : Geom) (blob : List Byte)
    (h : Compressed fo { z, m } srid g blob) (dl : WkbDialect) (plain : List Byte)
    (hp : Holds dl { z, m } (if srid = 0 then none else some srid) g plain) :
    (∀ num dialect dims s, (GeoSource.ofWkb fo .spatiaLite blob).toWktWithOpts num dialect dims s
      = (GeoSource.ofWkb fo dl plain).toWktWithOpts num dialect dims s) ∧
    (∀ dialect dims s env, (GeoSource.ofWkb fo .spatiaLite blob).toWkbDialect dialect dims s env
      = (GeoSource.ofWkb fo dl plain).toWkbDialect dialect dims s env) ∧
    (∀ sz, geoFromWkb fo sz .spatiaLite blob = geoFromWkb fo sz dl plain) ∧
    (∀ num, geoJsonFromWkb fo num .spatiaLite blob = geoJsonFromWkb fo num dl plain) ∧
    (∀ svg, svgFromWkb svg fo .spatiaLite blob = svgFromWkb svg fo dl plain) ∧
    (∀ ar sz, mvtFromWkb ar sz fo .spatiaLite blob = mvtFromWkb ar sz fo dl plain) :=
  like_plain_of_run fo z m srid g blob (compressed_run fo _ srid g blob h) dl plain hp (compressed_levels h)

/-- a compressed line string of three vertices, whatever the float operations are -/
private theorem exCompressed (fo : FOps) : ∃ blob, Compressed fo { z := true, m := false } 4326
    (.lineString (vertices fo ⟨1#64, 2#64, some 3#64, none⟩ [⟨1#32, 2#32, some 3#32, none⟩] ⟨7#64, 8#64, some 9#64, none⟩)) blob :=
  ⟨_, by decide, .le, [1#64, 2#64, 7#64, 8#64], rfl,
    .inl ⟨_, _, _, ⟨by simp [HasDims], by simp [HasDims], by simp [Delta.HasDims], by decide⟩, rfl, rfl⟩⟩

/-- the hypotheses of C64 can be met: there is a compressed line string, and EWKB that holds the same geometry -/
example (fo : FOps) : ∃ g blob plain, Compressed fo { z := true, m := false } 4326 g blob ∧
    Holds .ewkb { z := true, m := false } (if (4326 : Int) = 0 then none else some 4326) g plain ∧ g ≠ .polygon [] := by
  obtain ⟨blob, h⟩ := exCompressed fo
  have hb : ∀ cs : List Coord, ∃ bb, Cat (fun c b => b = coordBytes .le c) cs bb := by
    intro cs
    induction cs with
    | nil => exact ⟨[], rfl⟩
    | cons c cs ih => obtain ⟨bb, hb⟩ := ih; exact ⟨_, _, _, rfl, rfl, hb⟩
  obtain ⟨bb, hb⟩ := hb (vertices fo ⟨1#64, 2#64, some 3#64, none⟩ [⟨1#32, 2#32, some 3#32, none⟩] ⟨7#64, 8#64, some 9#64, none⟩)
  refine ⟨_, blob, _, h, ⟨by decide, .le, ?_, _, ⟨?_, bb, rfl, hb⟩, rfl⟩, by simp⟩
  · simp [AllCoords, vertices, inner, HasDims, Delta.apply]
  · simp [vertices, inner]

/-! ### the processors that do use the indices -/

private theorem geos_fill (lib : GeosLib) (n : Nat) (cs : List Coord) (i : Nat) (hi : i + cs.length ≤ n) (w : GeosWriter)
    (hw : ∃ seq, w.cs.getLast? = some seq ∧ seq.length = n) :
    ∃ w', feed (GeosWriter.step lib) w (evList (coordEvs false) i cs) = .ok w' ∧
      ∃ seq, w'.cs.getLast? = some seq ∧ seq.length = n := by
  induction cs generalizing i w with
  | nil => exact ⟨w, rfl, hw⟩
  | cons c cs ih =>
    obtain ⟨seq, h1, h2⟩ := hw
    simp only [List.length_cons] at hi
    simp only [evList, coordEvs, coordEv, Bool.false_eq_true, if_false, List.singleton_append, feed_cons, GeosWriter.step,
      GeosWriter.xy, h1]
    rw [if_pos (by omega)]
    exact ih (i + 1) (by omega) _ ⟨_, List.getLast?_concat .., by simp [h2]⟩

/-- a compressed line string writes its last coordinate behind the end of the GEOS sequence -/
private theorem geos_line (lib : GeosLib) (fo : FOps) (tagged : Bool) (i : Nat) (first : Coord) (δs : List Delta) (last : Coord)
    (hn : δs.length + 2 < 2 ^ 32) (w : GeosWriter) (tl : List Ev) :
    feed (GeosWriter.step lib) w (compressedLineEvs fo false tagged i first δs last ++ tl) = .error lib.outOfRange := by
  have key : ∀ w : GeosWriter, (∃ seq, w.cs.getLast? = some seq ∧ seq.length = δs.length + 2) →
      feed (GeosWriter.step lib) w (evList (coordEvs false) 0 (first :: inner fo first δs) ++
        (.xy last.x last.y (δs.length + 2) :: .gend .lineString tagged i :: tl)) = .error lib.outOfRange := by
    intro w hw
    obtain ⟨w', h1, seq, h2, h3⟩ := geos_fill lib _ (first :: inner fo first δs) 0 (by simp [inner_length]) w hw
    rw [feed_append, h1]
    simp only [feed_cons, GeosWriter.step, GeosWriter.xy, h2, h3, Nat.lt_irrefl, if_false]
  have e : compressedLineEvs fo false tagged i first δs last ++ tl = .gbegin .lineString tagged (δs.length + 2) i ::
      (evList (coordEvs false) 0 (first :: inner fo first δs) ++
        (.xy last.x last.y (δs.length + 2) :: .gend .lineString tagged i :: tl)) := by
    simp [compressedLineEvs, bracket, evList, coordEvs, coordEv]
  rw [e, feed_cons]
  cases tagged <;>
  exact key _ ⟨_, List.getLast?_concat .., by rw [List.length_replicate]; exact Nat.mod_eq_of_lt hn⟩

/-- C64 fails for GEOS: no compressed line string, and no compressed polygon with a ring, can be converted.  The last coordinate
is announced with an index one too high, which is outside the GEOS coordinate sequence. -/
theorem C64_geos_false (lib : GeosLib) (fo : FOps) (z m : Bool) (srid : Int) (g : Geom) (blob : List Byte)
    (h : Compressed fo { z, m } srid g blob) (hg : g ≠ .polygon []) :
    geosFromWkb lib fo .spatiaLite blob = .error lib.outOfRange := by
  have fin : ∀ evs rest, run false (processWkbTypeGeom fo .spatiaLite) blob = (evs, .ok ((), rest)) →
      feed (GeosWriter.step lib) {} evs = .error lib.outOfRange → geosFromWkb lib fo .spatiaLite blob = .error lib.outOfRange := by
    intro evs rest hr hf
    have h := interp_of_feed_error (GeosWriter.proc lib) false (fun _ => rfl) (processWkbTypeGeom fo .spatiaLite) {} blob
      lib.outOfRange (by rw [hr]; exact hf)
    unfold geosFromWkb toGeos
    revert h
    rcases interp (GeosWriter.proc lib) (processWkbTypeGeom fo .spatiaLite) {} blob with ⟨w, evs', r⟩
    rintro rfl
    rfl
  obtain ⟨hs, e, mbr, hm, ⟨first, δs, last, ⟨h1, h2, h3, h4⟩, rfl, rfl⟩ | ⟨rings, hr, hp, rfl, rfl⟩⟩ := h
  · have := C06_compressed_linestring_partial fo _ e srid hs mbr hm first last δs h1 h2 h3 h4 [] false
    rw [List.append_nil] at this
    refine fin _ _ this ?_
    have k := geos_line lib fo true 0 first δs last h4 { srid := if srid = 0 then none else some srid } []
    rw [List.append_nil] at k
    exact k
  · have := C06_compressed_polygon_partial fo _ e srid hs mbr hm rings hr
      (fun r hr => ⟨(hp r hr).1, (hp r hr).2.1, (hp r hr).2.2.1, (hp r hr).2.2.2⟩) [] false
    rw [List.append_nil] at this
    refine fin _ _ this ?_
    cases rings with
    | nil => exact absurd rfl hg
    | cons r rs =>
      simp only [bracket, evList, List.append_assoc, feed_cons, GeosWriter.step]
      exact geos_line lib fo false 0 r.1 r.2.1 r.2.2 (hp r (by simp)).2.2.2 _ _

/-- C64 fails for GDAL: every compressed line string gets an additional vertex at the origin before its last one. -/
theorem C64_gdal_false (fo : FOps) (z m : Bool) (srid : Int) (cs : List Coord) (last : Coord) (blob : List Byte)
    (h : Compressed fo { z, m } srid (.lineString (cs ++ [last])) blob) :
    gdalFromWkb fo .spatiaLite blob = .ok ((Geom.lineString (cs ++ [⟨F64.zero, F64.zero, none, none⟩, last])).map Coord.flat).ogr := by
  obtain ⟨hs, e, mbr, hm, ⟨first, δs, last', ⟨h1, h2, h3, h4⟩, hg, rfl⟩ | ⟨rings, hr, hp, hg, rfl⟩⟩ := h
  · have hv : cs = first :: inner fo first δs ∧ last = last' := by
      have e : vertices fo first δs last' = (first :: inner fo first δs) ++ [last'] := by simp [vertices]
      injection hg with hg
      rw [e] at hg
      simpa using List.append_inj' hg rfl
    obtain ⟨rfl, rfl⟩ := hv
    have hr := C06_compressed_linestring_partial fo _ e srid hs mbr hm first last δs h1 h2 h3 h4 [] false
    rw [List.append_nil] at hr
    have hf : feed GdalWriter.step {} (.srid (if srid = 0 then none else some srid) ::
        compressedLineEvs fo false true 0 first δs last) = .ok
        { geom := .node (some .lineString) ((first :: inner fo first δs).map (fun c => c.flat.ogr) ++
            [⟨F64.zero, F64.zero, F64.zero⟩, last.flat.ogr]) [] } := by
      have k := GdalWriter.feed_pts_geom GdalWriter.like_step { geom := .node (some .lineString) [] [] } .lineString rfl [] []
        (first :: inner fo first δs) rfl
      rw [List.nil_append, List.length_nil] at k
      have hb : ∀ n, GdalWriter.step {} (.gbegin .lineString true n 0) =
          .ok { geom := .node (some .lineString) [] [] } := fun _ => rfl
      have hs : ∀ s, GdalWriter.step {} (.srid s) = .ok {} := fun _ => rfl
      have hx : GdalWriter.setPt ((first :: inner fo first δs).map fun c => c.flat.ogr) (δs.length + 2) last.flat.ogr =
          (first :: inner fo first δs).map (fun c => c.flat.ogr) ++ [⟨F64.zero, F64.zero, F64.zero⟩, last.flat.ogr] := by
        have e1 : ¬ δs.length + 2 < ((first :: inner fo first δs).map fun c => c.flat.ogr).length := by simp [inner_length]
        have e2 : δs.length + 2 - ((first :: inner fo first δs).map fun c => c.flat.ogr).length = 1 := by
          simp [inner_length]
        unfold GdalWriter.setPt
        rw [if_neg e1, e2]
        simp
      unfold compressedLineEvs
      rw [feed_cons, hs]
      simp only [feed_cons, hb, feed_append, k]
      simp only [feed_cons, coordEv, Bool.false_eq_true, if_false, GdalWriter.step, GdalWriter.xy, GdalWriter.put, OgrGeom.kind,
        GdalWriter.setPoint2d]
      rw [← GdalWriter.ogr_flat, hx]
      rfl
    unfold gdalFromWkb toGdal
    rw [interp_of_feed_ok GdalWriter.proc false (fun _ => rfl) _ {} _ _ (by rw [hr]; exact hf), hr]
    simp [Geom.map, Geom.ogr, ogrLine, Coord.ogr, Coord.flat]
  · cases hg

example (fo : FOps) : ∃ cs last blob, Compressed fo { z := true, m := false } 4326 (.lineString (cs ++ [last])) blob :=
  let ⟨blob, h⟩ := exCompressed fo
  ⟨_ :: inner fo _ _, _, blob, h⟩

/-! ### C53 and C54 for uncompressed blobs of every dialect -/

/-- C53 from a blob of any dialect, SpatiaLite included as long as the blob is not compressed: the geometry in two dimensions, with the
SRID of the blob. -/
theorem C53_from_blob_partial (lib : GeosLib) (fo : FOps) (dl : WkbDialect) (z m : Bool) (srid : Option Int) (g : Geom) (t : GeosGeom)
    (blob : List Byte) (h : Holds dl { z, m } srid g blob) (hl : g.levels ≤ 128) (hg : g.geos = some t) (ha : lib.accepts g) (hs : g.Short) :
    geosFromWkb lib fo dl blob = .ok (t, srid.getD 0) :=
  C53_to_geos_partial lib _ blob _ srid g t (.inl ((holds_read fo dl z m srid g blob h hl).1 false)) hg ha hs

/-- C54 from a blob of any dialect, SpatiaLite included as long as the blob is not compressed. -/
theorem C54_from_blob_partial (fo : FOps) (dl : WkbDialect) (z m : Bool) (srid : Option Int) (g : Geom) (blob : List Byte)
    (h : Holds dl { z, m } srid g blob) (hl : g.levels ≤ 128) (hb : g.Basic) :
    gdalFromWkb fo dl blob = .ok (g.map Coord.flat).ogr :=
  C54_to_gdal_partial _ blob _ srid g hb (.inl ((holds_read fo dl z m srid g blob h hl).1 false))

/-- the SpatiaLite blob of a point -/
def slPointBlob : List Byte := [0, 1] ++ encI32 .le 4326 ++ List.replicate 32 0 ++ [0x7C, 1, 0, 0, 0] ++ List.replicate 16 0 ++ [0xFE]

theorem slPointBlob_holds : Holds .spatiaLite {} (some 4326) (.point ⟨0#64, 0#64, none, none⟩) slPointBlob := by
  refine ⟨.le, 4326, [0#64, 0#64, 0#64, 0#64], rfl, by decide, ?_⟩
  exact ⟨rfl, ⟨rfl, rfl⟩, _, ⟨fun h => absurd h.1 (by decide), rfl⟩, by decide +kernel⟩

example (fo : FOps) : geosFromWkb exLib fo .spatiaLite slPointBlob = .ok (.point [⟨0#64, 0#64, none⟩], 4326) := rfl

end Geozero
