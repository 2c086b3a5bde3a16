import Verif.Lemmas.Reuse
import Verif.Props.Mvt

/-
C82 for `MvtWriter`: several data sets into one layer.
-/

namespace Geozero
open Prog Spec

namespace MvtWriter

/-- features before those of the writer -/
def before (fs : List MvtFeature) (w : MvtWriter) : MvtWriter := { w with features := fs ++ w.features }

theorem blind_finish (fs : List MvtFeature) (w : MvtWriter) (g : MvtGeom) : (w.before fs).finish g = (w.finish g).before fs := by
  unfold finish before
  simp only
  split <;> rfl

theorem blind_geom (sz : ElemSizes) (tr : F64 → F64 → IXY) (fs : List MvtFeature) (w : MvtWriter) (e : Ev) :
    step sz tr (w.before fs) e = (step sz tr w e).map (before fs) := by
  cases e with
  | srid s => rfl
  | coord => rfl
  | emptyPoint => rfl
  | xy x y i =>
    simp only [step, before]
    split <;> rfl
  | gbegin k t n i =>
    cases k <;> simp only [step, gbegin, debugAssert, before] <;> (repeat' split) <;> simp_all [Except.map, before] <;>
      split <;> rfl
  | gend k t i =>
    cases k <;> simp only [step, gend, before] <;> (repeat' split) <;> simp_all [Except.map, before, finish] <;>
      (repeat' split) <;> simp_all

theorem blind (sz : ElemSizes) (tr : F64 → F64 → IXY) (fs : List MvtFeature) : (fproc sz tr).Blind (before fs) := by
  refine ⟨fun s e => ?_, fun _ _ => rfl, fun _ _ => rfl, fun _ => rfl, fun _ => rfl⟩
  cases e with
  | geom e => exact blind_geom sz tr fs s e
  | ftEnd i =>
    obtain ⟨a, b, gs, c, d, e, f⟩ := s
    match gs with
    | [] => rfl
    | [g] => simp [fproc, featureEnd, takeGeometry, before, Except.map]
    | g :: h :: gs => simp [fproc, featureEnd, takeGeometry, before, Except.map]
  | _ => rfl

end MvtWriter

/-- C82, `MvtWriter`.  A source of features that uses a writer whose last source ended between two features (`w` holds features
and nothing else) adds to them the features a new writer gets from it, with the same calls and the same result; this holds also
if it fails. -/
theorem C82_mvt (sz : ElemSizes) (tr : F64 → F64 → IXY) (cfg : MvtConfig) (name : Text) (w : MvtWriter)
    (hw : w = { features := w.features }) (src : FProg Unit) (bs : List Byte) :
    (MvtWriter.layer cfg (FProg.interp (MvtWriter.fproc sz tr) src w bs).1 name).features =
        w.features ++ (MvtWriter.layer cfg (FProg.interp (MvtWriter.fproc sz tr) src {} bs).1 name).features ∧
      (FProg.interp (MvtWriter.fproc sz tr) src w bs).2 = (FProg.interp (MvtWriter.fproc sz tr) src {} bs).2 := by
  have hb := (MvtWriter.blind sz tr w.features).interp src {} bs
  rw [show ({} : MvtWriter).before w.features = w by rw [hw]; simp [MvtWriter.before]] at hb
  rw [hb]
  exact ⟨rfl, rfl⟩

/-- C82, `MvtWriter`.  Any number of data sets given to one writer, each with the tile features `C49_layer` says a new writer
gets from it: the layer holds those of the first, then those of the second and so on. -/
theorem C82_mvt_data_sets (sz : ElemSizes) (tr : F64 → F64 → IXY) (cfg : MvtConfig) (name : Text)
    (ds : List (Option Text × List Feat × List (Option MvtFeature))) (h : ∀ d ∈ ds, TileFeatures sz tr d.2.1 d.2.2) :
    ∃ w, feed (MvtWriter.fproc sz tr).step {} (ds.flatMap fun d => datasetEvs d.1 d.2.1) = .ok w ∧
      MvtWriter.layer cfg w name =
        { name, extent := cfg.extent, features := ds.flatMap fun d => d.2.2.flatMap Option.toList } := by
  have key : ∀ w : MvtWriter, w.Rest →
      ∃ ps, feed (MvtWriter.fproc sz tr).step w (ds.flatMap fun d => datasetEvs d.1 d.2.1) =
        .ok { w with properties := ps, features := w.features ++ ds.flatMap fun d => d.2.2.flatMap Option.toList } := by
    induction ds with
    | nil => exact fun w _ => ⟨w.properties, by simp [feed]⟩
    | cons d ds ih =>
      intro w hw
      obtain ⟨ps, hps⟩ := MvtWriter.feed_feats sz tr d.2.1 d.2.2 (h d (by simp)) w 0 hw
      obtain ⟨qs, hqs⟩ := ih (fun d hd => h d (by simp [hd]))
        { w with properties := ps, features := w.features ++ d.2.2.flatMap Option.toList } hw
      refine ⟨qs, ?_⟩
      have hd : feed (MvtWriter.fproc sz tr).step w (datasetEvs d.1 d.2.1) =
          .ok { w with properties := ps, features := w.features ++ d.2.2.flatMap Option.toList } := by
        unfold datasetEvs
        rw [feed_cons]
        show feed (MvtWriter.fproc sz tr).step w _ = _
        rw [feed_append, hps]
        rfl
      simp only [List.flatMap_cons, feed_append, hd, hqs, List.append_assoc]
  obtain ⟨ps, hps⟩ := key {} ⟨⟨rfl, rfl, rfl⟩, rfl, rfl⟩
  exact ⟨_, hps, by simp [MvtWriter.layer]⟩

/-- C82 fails for `MvtWriter` after an error: a data set that ends inside a geometry collection, then one with a single point.  The
point ends up in the collection begun before and its feature is not in the layer, although every call succeeds. -/
theorem C82_mvt_false (sz : ElemSizes) (hsz : sz.geom ≤ 2 ^ 20) (tr : F64 → F64 → IXY) (cfg : MvtConfig) (name : Text) : ∃ w,
    feed (MvtWriter.fproc sz tr).step {} ([.dsBegin none, .ftBegin 0, .geomBegin, .geom (.gbegin .collection true 1 0)] ++
        datasetEvs none [{ props := none, geom := some (Geom.events false 0 (.point ⟨0#64, 0#64, none, none⟩)) }]) = .ok w ∧
      (MvtWriter.layer cfg w name).features = [] ∧
      ∃ v, feed (MvtWriter.fproc sz tr).step {}
          (datasetEvs none [{ props := none, geom := some (Geom.events false 0 (.point ⟨0#64, 0#64, none, none⟩)) }]) = .ok v ∧
        (MvtWriter.layer cfg v name).features = [⟨.point (tr 0#64 0#64), []⟩] := by
  have hv : boundedVec MvtGeom sz.geom 1 = .ok ([], 1 * sz.geom) :=
    GeoWriter.boundedVec_ok (by unfold Within; omega)
  have h1 : (MvtWriter.fproc sz tr).step {} (.geom (.gbegin .collection true 1 0)) = .ok { collections := [[]] } := by
    simp [MvtWriter.fproc, MvtWriter.step, MvtWriter.gbegin, hv]
  refine ⟨{ collections := [[.point (tr 0#64 0#64)]] }, ?_, rfl, ⟨[⟨.point (tr 0#64 0#64), []⟩], [], [], [], none, none, none⟩, rfl, rfl⟩
  show feed (MvtWriter.fproc sz tr).step {} (.geom (.gbegin .collection true 1 0) :: _) = _
  rw [feed_cons, h1]
  rfl

/-! ### non-vacuity -/

private def p0 : F64 := 0x4039000000000000#64
private def p1 : F64 := 0x4031000000000000#64
private def szR : ElemSizes := ⟨8, 24, 48, 56⟩

/-- the second data set does not get the property `b` of the last feature of the first, which has no geometry -/
example (tr : F64 → F64 → IXY) (cfg : MvtConfig) (name : Text) : ∃ w, feed (MvtWriter.fproc szR tr).step {}
    (datasetEvs (some (txt "a")) [{ props := some [(0, txt "a", .int 7)], geom := some (Geom.events false 3 (.point ⟨p0, p1, none, none⟩)) },
      { props := some [(0, txt "b", .int 8)], geom := none }] ++
     datasetEvs none [{ props := none, geom := some (Geom.events false 3 (.point ⟨p1, p0, none, none⟩)) }]) = .ok w ∧
    (MvtWriter.layer cfg w name).features =
      [⟨.point (tr p0 p1), [(txt "a", .sint 7)]⟩, ⟨.point (tr p1 p0), []⟩] := by
  obtain ⟨w, h1, h2⟩ := C82_mvt_data_sets szR tr cfg name
    [(some (txt "a"), [{ props := some [(0, txt "a", .int 7)], geom := some (Geom.events false 3 (.point ⟨p0, p1, none, none⟩)) },
      { props := some [(0, txt "b", .int 8)], geom := none }], [some ⟨.point (tr p0 p1), [(txt "a", .sint 7)]⟩, none]),
     (none, [{ props := none, geom := some (Geom.events false 3 (.point ⟨p1, p0, none, none⟩)) }], [some ⟨.point (tr p1 p0), []⟩])]
    (by
      intro d hd
      simp only [List.mem_cons, List.not_mem_nil, or_false] at hd
      rcases hd with rfl | rfl
      · exact .cons _ _ _ _ (.keep (.point ⟨p0, p1, none, none⟩) 3 _ rfl rfl trivial trivial)
          (.cons _ _ _ _ (.skip (Or.inl rfl)) .nil)
      · exact .cons _ _ _ _ (.keep (.point ⟨p1, p0, none, none⟩) 3 _ rfl rfl trivial trivial) .nil)
  exact ⟨w, by simpa using h1, by rw [h2]; rfl⟩

/-- a layer read into a writer that already holds a feature -/
example (tr : F64 → F64 → IXY) (cfg : MvtConfig) (f : MvtFeature) :
    (MvtWriter.layer cfg (FProg.interp (MvtWriter.fproc szR tr)
      (mvtProcess ⟨txt "l", 4096, [⟨.point ⟨1, 2⟩, [(txt "a", .sint 5)]⟩]⟩) { features := [f] } []).1 []).features =
    [f, ⟨.point (tr (F64.ofI32 1) (F64.ofI32 2)), [(txt "a", .sint 5)]⟩] :=
  (C82_mvt szR tr cfg [] { features := [f] } rfl _ []).1

/-- the data set is cut off between two features -/
example (sz : ElemSizes) (tr : F64 → F64 → IXY) : ∃ w, feed (MvtWriter.fproc sz tr).step {}
    [.dsBegin none, .ftBegin 0, .ftEnd 0] = .ok w ∧ w = { features := w.features } := ⟨{}, rfl, rfl⟩

end Geozero
