import Verif.Spec.SameData
import Verif.Lemmas.Feature
import Verif.Lemmas.ShpFile
import Verif.Props.Joined

/-
C89: the same features as a collection, as lines or one by one.
-/

namespace Geozero

/-- two programs that differ only in the indices of geometries -/
private inductive FProg.Alike {α : Type} : FProg α → FProg α → Prop
  | ret (a : α) : Alike (.ret a) (.ret a)
  | fail (e : Err) : Alike (.fail e) (.fail e)
  | read {k k' : Byte → FProg α} (h : ∀ b, Alike (k b) (k' b)) : Alike (.read k) (.read k')
  | emit {e e' : FEv} {k k' : FProg α} (he : e.noIdx = e'.noIdx) (h : Alike k k') : Alike (.emit e k) (.emit e' k')
  | emitOk {e e' : FEv} {k k' : FProg α} (he : e.noIdx = e'.noIdx) (h : Alike k k') : Alike (.emitOk e k) (.emitOk e' k')
  | prop (i : Nat) (m : Text) (v : ColVal) {k k' : Bool → FProg α} (h : ∀ b, Alike (k b) (k' b)) :
      Alike (.prop i m v k) (.prop i m v k')
  | ask {k k' : Bool → Dims → FProg α} (h : ∀ b d, Alike (k b d) (k' b d)) : Alike (.ask k) (.ask k')

namespace FProg

private theorem Alike.refl {α : Type} (p : FProg α) : Alike p p := by
  induction p with
  | ret a => exact .ret a
  | fail e => exact .fail e
  | read k ih => exact .read ih
  | emit e k ih => exact .emit rfl ih
  | emitOk e k ih => exact .emitOk rfl ih
  | prop i m v k ih => exact .prop i m v ih
  | ask k ih => exact .ask ih

private theorem Alike.bind {α β : Type} {p q : FProg α} {f g : α → FProg β} (h : Alike p q) (hf : ∀ a, Alike (f a) (g a)) :
    Alike (bind p f) (bind q g) := by
  induction h with
  | ret a => exact hf a
  | fail e => exact .fail e
  | read _ ih => exact .read ih
  | emit he _ ih => exact .emit he ih
  | emitOk he _ ih => exact .emitOk he ih
  | prop i m v _ ih => exact .prop i m v ih
  | ask _ ih => exact .ask ih

private theorem Alike.forIdx {α : Type} {f g : Nat → α → FProg Unit} (xs : List α) (h : ∀ i, ∀ x ∈ xs, Alike (f i x) (g i x)) (k : Nat) :
    Alike (forIdx f k xs) (forIdx g k xs) := by
  induction xs generalizing k with
  | nil => exact .ret ()
  | cons x xs ih => exact (h k x (by simp)).bind fun _ => ih (fun i y hy => h i y (by simp [hy])) (k + 1)

private theorem lift_bind {α β : Type} (p : Prog α) (f : α → Prog β) : lift (Prog.bind p f) = bind (lift p) fun a => lift (f a) := by
  induction p with
  | ret a => rfl
  | fail e => rfl
  | read k ih => simp only [Prog.bind, lift, bind, ih]
  | emit e k ih => simp only [Prog.bind, lift, bind, ih]
  | askMulti k ih => simp only [Prog.bind, lift, bind, ih]

private theorem Alike.around (k : GKind) (tagged : Bool) (n i j : Nat) (p : Prog Unit) :
    Alike (lift (Prog.bind (Prog.emitEv (.gbegin k tagged n i)) fun _ => Prog.bind p fun _ => Prog.emitEv (.gend k tagged i)))
      (lift (Prog.bind (Prog.emitEv (.gbegin k tagged n j)) fun _ => Prog.bind p fun _ => Prog.emitEv (.gend k tagged j))) := by
  refine .emit rfl ?_
  simp only [Prog.bind, lift_bind]
  exact (Alike.refl _).bind fun _ => .emit rfl (.ret ())

private theorem Alike.geom (i j : Nat) (g : GjGeom) : Alike (lift (gjGeomN i g)) (lift (gjGeomN j g)) := by
  cases g with
  | point p =>
    simp only [gjGeomN, Prog.bind_eq]
    simpa only [Prog.bind_assoc] using Alike.around .point true 1 i j (Prog.bind Prog.multiDim fun multi => gjCoord multi 0 p)
  | multiPoint ps =>
    simp only [gjGeomN, Prog.bind_eq]
    simpa only [Prog.bind_assoc] using
      Alike.around .multiPoint true ps.length i j (Prog.bind Prog.multiDim fun multi => Geozero.forIdx (gjCoord multi) 0 ps)
  | lineString ps =>
    simp only [gjGeomN, gjLine, Prog.bind_eq]
    simpa only [Prog.bind_assoc] using
      Alike.around .lineString true ps.length i j (Prog.bind Prog.multiDim fun multi => Geozero.forIdx (gjCoord multi) 0 ps)
  | multiLineString ls => simp only [gjGeomN, Prog.bind_eq]; exact Alike.around .multiLineString true _ i j _
  | polygon rs => simp only [gjGeomN, gjPolygon, Prog.bind_eq]; exact Alike.around .polygon true _ i j _
  | multiPolygon ps => simp only [gjGeomN, Prog.bind_eq]; exact Alike.around .multiPolygon true _ i j _
  | collection gs => simp only [gjGeomN, Prog.bind_eq]; exact Alike.around .collection true _ i j _

private theorem Alike.geometryPart (i j : Nat) (g : Option GjGeom) : Alike (gjGeometryPart i g) (gjGeometryPart j g) := by
  cases g with
  | none => exact .ret ()
  | some g =>
    simp only [gjGeometryPart, bind_eq]
    exact (Alike.refl _).bind fun _ => (Alike.geom i j g).bind fun _ => .refl _

private theorem Alike.feature (i : Nat) (f : GjFeature) : Alike (gjCollectionFeature i f) (gjLineFeature i f) := by
  simp only [gjCollectionFeature, gjLineFeature, bind_eq]
  exact (Alike.refl _).bind fun _ => (Alike.refl _).bind fun _ => (Alike.geometryPart i 0 _).bind fun _ => .refl _

private theorem Alike.collection (fs : List GjFeature) :
    Alike (processGeoJson (.featureCollection fs)) (readGeoJsonLines (fs.map fun f => .ok (.feature f))) := by
  have hm : ∀ k, FProg.forIdx gjLineItem k (fs.map fun f => .ok (.feature f)) = FProg.forIdx gjLineFeature k fs := by
    induction fs with
    | nil => exact fun _ => rfl
    | cons f fs ih => exact fun k => by simp only [List.map_cons, FProg.forIdx, ih]; rfl
  simp only [processGeoJson, readGeoJsonLines, bind_eq, hm]
  exact (Alike.refl _).bind fun _ => (Alike.forIdx fs (fun i f _ => Alike.feature i f) 0).bind fun _ => .refl _

private theorem Alike.item (n j : Nat) (l : Except Err GeoJsonValue) : Alike (gjLineItem (n + j) l) (renum n (gjLineItem j l)) := by
  match l with
  | .ok (.geometry g) =>
    simp only [gjLineItem, renum_lift]
    exact Alike.geom (n + j) j g
  | .error e => rw [renum_gjLineItem n j _ fun g h => by cases h]; exact .refl _
  | .ok (.featureCollection fs) => rw [renum_gjLineItem n j _ fun g h => by cases h]; exact .refl _
  | .ok (.feature f) => rw [renum_gjLineItem n j _ fun g h => by cases h]; exact .refl _

private theorem Alike.items (n k : Nat) (ls : List (Except Err GeoJsonValue)) :
    Alike (FProg.forIdx gjLineItem (n + k) ls) (renum n (FProg.forIdx gjLineItem k ls)) := by
  induction ls generalizing k with
  | nil => exact .ret ()
  | cons l ls ih =>
    simp only [FProg.forIdx, renum_bind]
    exact (Alike.item n k l).bind fun _ => ih (k + 1)

private theorem Alike.lines (la lb : List (Except Err GeoJsonValue)) :
    Alike (readGeoJsonLines (la ++ lb))
      (inDataset none (FProg.bind (FProg.forIdx gjLineItem 0 la) fun _ => renum la.length (FProg.forIdx gjLineItem 0 lb))) := by
  simp only [readGeoJsonLines, bind_eq, inDataset, forIdx_joined]
  refine (Alike.refl _).bind fun _ => Alike.bind ((Alike.refl _).bind fun _ => ?_) fun _ => .refl _
  have := Alike.items la.length 0 lb
  rwa [Nat.add_comm] at this

private theorem Alike.run {α : Type} {p q : FProg α} (h : Alike p q) (env : Env) (bs : List Byte) :
    (run env p bs).1.map FEv.noIdx = (run env q bs).1.map FEv.noIdx ∧ (run env p bs).2 = (run env q bs).2 := by
  induction h generalizing bs with
  | ret a => exact ⟨rfl, rfl⟩
  | fail e => exact ⟨rfl, rfl⟩
  | read _ ih =>
    cases bs with
    | nil => exact ⟨rfl, rfl⟩
    | cons b bs => exact ih b bs
  | emit he _ ih => exact ⟨by simp only [FProg.run, List.map_cons, he, (ih bs).1], (ih bs).2⟩
  | emitOk he _ ih => exact ⟨by simp only [FProg.run, List.map_cons, he, (ih bs).1], (ih bs).2⟩
  | prop i m v _ ih => exact ⟨by simp only [FProg.run, List.map_cons, (ih _ bs).1], (ih _ bs).2⟩
  | ask _ ih => exact ih _ _ bs

private theorem Alike.interp {α σ : Type} {p q : FProg α} (h : Alike p q) (P : FProc σ) (hP : P.IgnoresIndices) (s : σ) (bs : List Byte) :
    (interp P p s bs).1 = (interp P q s bs).1 ∧ (interp P p s bs).2.2 = (interp P q s bs).2.2 := by
  induction h generalizing s bs with
  | ret a => exact ⟨rfl, rfl⟩
  | fail e => exact ⟨rfl, rfl⟩
  | read _ ih =>
    cases bs with
    | nil => exact ⟨rfl, rfl⟩
    | cons b bs => exact ih b s bs
  | @emit e e' k k' he _ ih =>
    have h1 : P.step s e = P.step s e' := by rw [← hP.step s e, he, hP.step]
    simp only [FProg.interp, h1]
    cases P.step s e' with
    | error x => exact ⟨rfl, rfl⟩
    | ok s' => exact ih s' bs
  | @emitOk e e' k k' he _ ih =>
    have h1 : P.step s e = P.step s e' := by rw [← hP.step s e, he, hP.step]
    have h2 : P.left s e = P.left s e' := by rw [← hP.left s e, he, hP.left]
    simp only [FProg.interp, h1, h2]
    cases P.step s e' with
    | error x =>
      simp only
      split
      · exact ⟨rfl, rfl⟩
      · exact ih _ bs
    | ok s' => exact ih s' bs
  | prop i m v _ ih =>
    simp only [FProg.interp]
    cases P.step s (.prop i m v) with
    | error x => exact ⟨rfl, rfl⟩
    | ok s' => exact ih _ s' bs
  | ask _ ih => exact ih _ _ s bs

private theorem single_interp {σ : Type} (P : FProc σ) (hP : P.IgnoresDataset) (f : GjFeature)
    (hf : f.geometry.isSome = true ∨ f.properties.isSome = true) (i : Nat) (s : σ) (bs : List Byte) :
    (FProg.interp P (gjSingleFeature i f) s bs).1 = (FProg.interp P (gjCollectionFeature i f) s bs).1 ∧
      (FProg.interp P (gjSingleFeature i f) s bs).2.2 = (FProg.interp P (gjCollectionFeature i f) s bs).2.2 := by
  have h : (f.geometry.isSome || f.properties.isSome) = true := by simpa using hf
  simp only [gjSingleFeature, h, if_true, bind_eq, call, FProg.bind, FProg.interp, hP.dsBegin, interp_bind]
  cases FProg.interp P (gjCollectionFeature i f) s bs with
  | mk s1 r =>
    obtain ⟨evs, r⟩ := r
    cases r with
    | error e => exact ⟨rfl, rfl⟩
    | ok q => simp [FProg.interp, hP.dsEnd]

private theorem one_by_one {σ : Type} (P : FProc σ) (hP : P.IgnoresDataset) (fs : List GjFeature)
    (hf : ∀ f ∈ fs, f.geometry.isSome = true ∨ f.properties.isSome = true) (k : Nat) (s : σ) (bs : List Byte) :
    (FProg.interp P (FProg.forIdx readFcFeature k (fs.map .ok)) s bs).1 = (FProg.interp P (FProg.forIdx gjCollectionFeature k fs) s bs).1 ∧
      (FProg.interp P (FProg.forIdx readFcFeature k (fs.map .ok)) s bs).2.2 =
        (FProg.interp P (FProg.forIdx gjCollectionFeature k fs) s bs).2.2 := by
  induction fs generalizing k s bs with
  | nil => exact ⟨rfl, rfl⟩
  | cons f fs ih =>
    have h1 := single_interp P hP f (hf f (by simp)) k s bs
    simp only [List.map_cons, FProg.forIdx, readFcFeature, interp_bind]
    revert h1
    cases FProg.interp P (gjSingleFeature k f) s bs with
    | mk s1 r1 =>
      obtain ⟨e1, r1⟩ := r1
      cases FProg.interp P (gjCollectionFeature k f) s bs with
      | mk s2 r2 =>
        obtain ⟨e2, r2⟩ := r2
        rintro ⟨h1, h2⟩
        simp only at h1 h2
        subst h1
        subst h2
        cases r1 with
        | error e => exact ⟨rfl, rfl⟩
        | ok q => exact ih (fun g hg => hf g (by simp [hg])) (k + 1) _ _

end FProg

/-- C89, the calls: a feature collection and a line-delimited text with the same features make the same calls, but for the indices of
geometries, and end alike. -/
theorem C89_collection_or_lines (env : FProg.Env) (fs : List GjFeature) (bs : List Byte) :
    (FProg.run env (processGeoJson (.featureCollection fs)) bs).1.map FEv.noIdx =
        (FProg.run env (readGeoJsonLines (fs.map fun f => .ok (.feature f))) bs).1.map FEv.noIdx ∧
      (FProg.run env (processGeoJson (.featureCollection fs)) bs).2 =
        (FProg.run env (readGeoJsonLines (fs.map fun f => .ok (.feature f))) bs).2 :=
  (FProg.Alike.collection fs).run env bs

/-- C89, the effect: on a processor that ignores the indices of geometries they have the same effect, with the same outcome. -/
theorem C89_collection_or_lines_processed {σ : Type} (p : FProc σ) (hp : p.IgnoresIndices) (fs : List GjFeature) (s : σ) (bs : List Byte) :
    (FProg.interp p (processGeoJson (.featureCollection fs)) s bs).1 =
        (FProg.interp p (readGeoJsonLines (fs.map fun f => .ok (.feature f))) s bs).1 ∧
      (FProg.interp p (processGeoJson (.featureCollection fs)) s bs).2.2 =
        (FProg.interp p (readGeoJsonLines (fs.map fun f => .ok (.feature f))) s bs).2.2 :=
  (FProg.Alike.collection fs).interp p hp s bs

/-- C89, one by one: reading the features of a collection one at a time (`read_geojson_fc`) has the same effect as reading the
collection, on a processor that ignores the ends of datasets.  Missing: features without geometry and properties, which are skipped
(`C89_bare_feature_false`). -/
theorem C89_one_by_one_partial {σ : Type} (p : FProc σ) (hp : p.IgnoresDataset) (fs : List GjFeature)
    (hf : ∀ f ∈ fs, f.geometry.isSome = true ∨ f.properties.isSome = true) (s : σ) (bs : List Byte) :
    (FProg.interp p (readGeoJsonFc (fs.map .ok)) s bs).1 = (FProg.interp p (processGeoJson (.featureCollection fs)) s bs).1 ∧
      (FProg.interp p (readGeoJsonFc (fs.map .ok)) s bs).2.2 = (FProg.interp p (processGeoJson (.featureCollection fs)) s bs).2.2 := by
  have h := FProg.one_by_one p hp fs hf 0 s bs
  simp only [readGeoJsonFc, h, processGeoJson, FProg.bind_eq, FProg.call, FProg.bind, FProg.interp, hp.dsBegin, FProg.interp_bind]
  cases FProg.interp p (FProg.forIdx gjCollectionFeature 0 fs) s bs with
  | mk s1 r =>
    obtain ⟨evs, r⟩ := r
    cases r with
    | error e => exact ⟨rfl, rfl⟩
    | ok q => simp [FProg.interp, hp.dsEnd]

/-- C89 fails for a feature without geometry and properties: as a member of a collection it is an error for geo-types, one by one it
is skipped without one. -/
theorem C89_bare_feature_false (sz : ElemSizes) : ∃ f : GjFeature,
    (GeoFeatureWriter.proc sz).IgnoresDataset ∧ toGeoFeatures sz (readGeoJsonFc [.ok f]) [] = .ok [] ∧
    ∃ e, toGeoFeatures sz (processGeoJson (.featureCollection [f])) [] = .error e :=
  ⟨{}, ⟨fun _ _ => rfl, fun _ => rfl⟩, rfl, _, rfl⟩

/-- C89, who ignores indices: the writers of geo-types features, of tile layers and of SVG, the bounds and the tessellator. -/
theorem C89_processors (sz : ElemSizes) (tr : F64 → F64 → IXY) (ly : Lyon) (fo : SvgNum) :
    (GeoFeatureWriter.proc sz).IgnoresIndices ∧ (MvtWriter.fproc sz tr).IgnoresIndices ∧ (SvgWriter.proc fo).IgnoresIndices ∧
    boundsProc.IgnoresIndices ∧ ({ step := Tess.fstep ly } : FProc Tess).IgnoresIndices := by
  refine ⟨⟨?_, ?_⟩, ⟨?_, ?_⟩, ⟨?_, ?_⟩, ⟨?_, ?_⟩, ⟨?_, ?_⟩⟩
  all_goals
    intro s e
    cases e with
    | geom e =>
      cases e with
      | gbegin k t n i => first | rfl | (cases k <;> rfl) | (cases k <;> cases t <;> rfl)
      | gend k t i => first | rfl | (cases k <;> rfl) | (cases k <;> cases t <;> rfl)
      | _ => rfl
    | _ => rfl

private theorem joinedRun_noIdx (n : Nat) (a b : List FEv × Except Err (Unit × List Byte)) :
    ((joinedRun n a b).1.map FEv.noIdx, (joinedRun n a b).2) =
      joinedRun n (a.1.map FEv.noIdx, a.2) (b.1.map FEv.noIdx, b.2) := by
  have hc : ∀ e : FEv, (e.later n).noIdx = e.noIdx.later n := by
    intro e
    cases e with
    | geom e => cases e <;> rfl
    | _ => rfl
  unfold joinedRun
  cases a.2 with
  | error e => rfl
  | ok q =>
    have hf : FEv.noIdx ∘ FEv.later n = FEv.later n ∘ FEv.noIdx := funext hc
    simp [List.map_dropLast, List.map_tail, hf]

private theorem lines_of_features (la lb : List GjFeature) (env : FProg.Env) :
    FProg.run env (readGeoJsonLines ((la ++ lb).map fun f => .ok (.feature f))) [] =
      joinedRun la.length (FProg.run env (readGeoJsonLines (la.map fun f => .ok (.feature f))) [])
        (FProg.run env (readGeoJsonLines (lb.map fun f => .ok (.feature f))) []) := by
  have := joined_lines env (la.map fun f => .ok (.feature f)) (lb.map fun f => .ok (.feature f)) (by simp)
  simpa using this

/-- C88, line-delimited GeoJSON with any lines, bare geometries too: the calls for the joined text, but for the indices of geometries,
are those for the first and those for the second, renumbered. -/
theorem C88_geojson_any_lines (env : FProg.Env) (parse : Text → Except Err GeoJsonValue) (a b : Text)
    (ha : a = [] ∨ a.getLast? = some '\n') :
    ((FProg.run env (readGeoJsonLinesText parse (a ++ b)) []).1.map FEv.noIdx, (FProg.run env (readGeoJsonLinesText parse (a ++ b)) []).2) =
      joinedRun (bufLines a).length
        ((FProg.run env (readGeoJsonLinesText parse a) []).1.map FEv.noIdx, (FProg.run env (readGeoJsonLinesText parse a) []).2)
        ((FProg.run env (readGeoJsonLinesText parse b) []).1.map FEv.noIdx, (FProg.run env (readGeoJsonLinesText parse b) []).2) := by
  have h := (FProg.Alike.lines ((bufLines a).map parse) ((bufLines b).map parse)).run env []
  simp only [readGeoJsonLinesText, bufLines_join a b ha, List.map_append]
  rw [h.1, h.2, FProg.joined_run, joinedRun_noIdx, List.length_map]
  rfl

/-- C88, line-delimited GeoJSON with any lines and a processor that ignores the indices of geometries, the numbers of features and the
ends of datasets: the joined text has the same effect on it as the first text and then the second. -/
theorem C88_geojson_any_lines_processed {σ : Type} (p : FProc σ) (hi : p.IgnoresIndices) (hn : p.IgnoresNumbers) (hd : p.IgnoresDataset)
    (s : σ) (parse : Text → Except Err GeoJsonValue) (a b : Text) (ha : a = [] ∨ a.getLast? = some '\n') :
    ((FProg.interp p (readGeoJsonLinesText parse (a ++ b)) s []).1,
      (FProg.interp p (readGeoJsonLinesText parse (a ++ b)) s []).2.2.map fun _ => ()) =
    processBoth p (readGeoJsonLinesText parse a) (readGeoJsonLinesText parse b) s := by
  have h := (FProg.Alike.lines ((bufLines a).map parse) ((bufLines b).map parse)).interp p hi s []
  simp only [readGeoJsonLinesText, bufLines_join a b ha, List.map_append]
  rw [h.1, h.2]
  exact FProg.joined_interp p hn hd none _ _ _ s

/-- C88, feature collections: the calls for a collection, but for the indices of geometries, are those for the collections of its
first features and of the others, renumbered; it fails like they do. -/
theorem C88_geojson_collection (env : FProg.Env) (fa fb : List GjFeature) :
    ((FProg.run env (processGeoJson (.featureCollection (fa ++ fb))) []).1.map FEv.noIdx,
      (FProg.run env (processGeoJson (.featureCollection (fa ++ fb))) []).2) =
    joinedRun fa.length
      ((FProg.run env (processGeoJson (.featureCollection fa)) []).1.map FEv.noIdx, (FProg.run env (processGeoJson (.featureCollection fa)) []).2)
      ((FProg.run env (processGeoJson (.featureCollection fb)) []).1.map FEv.noIdx, (FProg.run env (processGeoJson (.featureCollection fb)) []).2) := by
  simp only [(C89_collection_or_lines env _ []).1, (C89_collection_or_lines env _ []).2, lines_of_features, joinedRun_noIdx]

/-- C88, feature collections with a processor that ignores the indices of geometries too. -/
theorem C88_geojson_collection_processed {σ : Type} (p : FProc σ) (hi : p.IgnoresIndices) (hn : p.IgnoresNumbers) (hd : p.IgnoresDataset)
    (s : σ) (fa fb : List GjFeature) :
    ((FProg.interp p (processGeoJson (.featureCollection (fa ++ fb))) s []).1,
      (FProg.interp p (processGeoJson (.featureCollection (fa ++ fb))) s []).2.2.map fun _ => ()) =
    processBoth p (processGeoJson (.featureCollection fa)) (processGeoJson (.featureCollection fb)) s := by
  have h := C89_collection_or_lines_processed p hi
  have hl := joined_lines_processed p hn hd s (fa.map fun f => .ok (.feature f)) (fb.map fun f => .ok (.feature f)) (by simp)
  rw [← List.map_append] at hl
  rw [(h (fa ++ fb) s []).1, (h (fa ++ fb) s []).2, hl]
  unfold processBoth
  have ha := h fa s []
  revert ha
  cases FProg.interp p (processGeoJson (.featureCollection fa)) s [] with
  | mk s1 r1 =>
    obtain ⟨e1, r1⟩ := r1
    cases FProg.interp p (readGeoJsonLines (fa.map fun f => .ok (.feature f))) s [] with
    | mk s2 r2 =>
      obtain ⟨e2, r2⟩ := r2
      rintro ⟨h1, h2⟩
      simp only at h1 h2
      subst h1
      subst h2
      cases r1 with
      | error e => rfl
      | ok q => simp only [(h fb s1 []).1, (h fb s1 []).2]

/-- two features, one without properties and one with a collection -/
def exSameData : List GjFeature :=
  [{ geometry := some (.point [1#64, 2#64]) },
   { geometry := some (.collection [.point [3#64, 4#64], .lineString [[1#64, 2#64], [3#64, 4#64, 5#64]]]),
     properties := some [(txt "a", .bool true), (txt "b", .null)] }]

example : (∀ f ∈ exSameData, f.geometry.isSome = true ∨ f.properties.isSome = true) ∧
    (let env : FProg.Env := { multi := false, dims := {}, ans := fun _ => true }
     (FProg.run env (processGeoJson (.featureCollection exSameData)) []).1 ≠
        (FProg.run env (readGeoJsonLines (exSameData.map fun f => .ok (.feature f))) []).1) :=
  ⟨by simp [exSameData], by decide +kernel⟩

/-- a collection in two parts: the whole has the bounds of both -/
example (sz : ElemSizes) (tr : F64 → F64 → IXY) (ly : Lyon) (fo : SvgNum) : boundsProc.IgnoresIndices ∧ boundsProc.IgnoresNumbers ∧ boundsProc.IgnoresDataset ∧
    (let env : FProg.Env := { multi := false, dims := {}, ans := fun _ => true }
     let c (l : List GjFeature) := (FProg.run env (processGeoJson (.featureCollection l)) []).1
     (c exSameData).length + 2 = (c (exSameData.take 1)).length + (c (exSameData.drop 1)).length) :=
  ⟨(C89_processors sz tr ly fo).2.2.2.1, (C88_processors sz tr ly).2.2.1.1, (C88_processors sz tr ly).2.2.1.2, by decide +kernel⟩

/-- with a bare geometry in the second text the indices differ -/
example :
    let env : FProg.Env := { multi := false, dims := {}, ans := fun _ => true }
    let c (t : Text) := (FProg.run env (readGeoJsonLinesText exJoinParse t) []).1
    (txt "p\n").getLast? = some '\n' ∧ FEv.geom (.gbegin .point true 1 1) ∈ c (txt "p\ng\n") ∧
      FEv.geom (.gbegin .point true 1 1) ∉ c (txt "p\n") ∧ FEv.geom (.gbegin .point true 1 1) ∉ c (txt "g\n") := by
  decide +kernel

end Geozero
