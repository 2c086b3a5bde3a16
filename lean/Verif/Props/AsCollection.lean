import Verif.Spec.AsCollection
import Verif.Lemmas.GeoJsonRead
import Verif.Props.Reuse
import Verif.Lemmas.Input
import Verif.Model.Mvt
import Verif.Model.Tessellator

/-
C90: a file converted to one geometry is the collection of its geometries.
-/

namespace Geozero

/-- programs with calls related by `R` -/
private inductive Prog.Like (R : Ev → Ev → Prop) {α : Type} : Prog α → Prog α → Prop
  | ret (a : α) : Like R (.ret a) (.ret a)
  | fail (e : Err) : Like R (.fail e) (.fail e)
  | read {k k' : Byte → Prog α} (h : ∀ b, Like R (k b) (k' b)) : Like R (.read k) (.read k')
  | emit {e e' : Ev} {k k' : Prog α} (he : R e e') (h : Like R k k') : Like R (.emit e k) (.emit e' k')
  | askMulti {k k' : Bool → Prog α} (h : ∀ b, Like R (k b) (k' b)) : Like R (.askMulti k) (.askMulti k')

namespace Prog

private theorem Like.refl {R : Ev → Ev → Prop} (hR : ∀ e, R e e) {α : Type} (p : Prog α) : Like R p p := by
  induction p with
  | ret a => exact .ret a
  | fail e => exact .fail e
  | read k ih => exact .read ih
  | emit e k ih => exact .emit (hR e) ih
  | askMulti k ih => exact .askMulti ih

private theorem Like.bind {R : Ev → Ev → Prop} {α β : Type} {p q : Prog α} {f g : α → Prog β} (h : Like R p q)
    (hf : ∀ a, Like R (f a) (g a)) : Like R (Prog.bind p f) (Prog.bind q g) := by
  induction h with
  | ret a => exact hf a
  | fail e => exact .fail e
  | read _ ih => exact .read ih
  | emit he _ ih => exact .emit he ih
  | askMulti _ ih => exact .askMulti ih

private theorem Like.interp {R : Ev → Ev → Prop} {α σ : Type} {p q : Prog α} (h : Like R p q) (P : Proc σ)
    (hP : ∀ s e e', R e e' → P.step s e = P.step s e') (s : σ) (bs : List Byte) :
    (Prog.interp P p s bs).1 = (Prog.interp P q s bs).1 ∧ (Prog.interp P p s bs).2.2 = (Prog.interp P q s bs).2.2 := by
  induction h generalizing s bs with
  | ret a => exact ⟨rfl, rfl⟩
  | fail e => exact ⟨rfl, rfl⟩
  | read _ ih =>
    cases bs with
    | nil => exact ⟨rfl, rfl⟩
    | cons b bs => exact ih b s bs
  | @emit e e' k k' he _ ih =>
    simp only [Prog.interp, hP s e e' he]
    cases P.step s e' with
    | error x => exact ⟨rfl, rfl⟩
    | ok s' => exact ih s' bs
  | askMulti _ ih => exact ih _ s bs

end Prog

open Prog (Like)

/-- the calls for a collection of `n` geometries, announced as one geometry, and with other indices -/
private def anyIdx (n : Nat) (e e' : Ev) : Prop :=
  e.noIdx = e'.noIdx ∨ (e = .gbegin .collection true 1 0 ∧ e' = .gbegin .collection true n 0)

/-- the calls for a collection of `n` geometries, announced as one geometry -/
private def anySize (n : Nat) (e e' : Ev) : Prop :=
  e = e' ∨ (e = .gbegin .collection true 1 0 ∧ e' = .gbegin .collection true n 0)

private theorem like_around {R : Ev → Ev → Prop} (hr : ∀ e e', e.noIdx = e'.noIdx → R e e') (k : GKind) (tagged : Bool) (n i j : Nat)
    (p : Prog Unit) :
    Like R (Prog.bind (Prog.emitEv (.gbegin k tagged n i)) fun _ => Prog.bind p fun _ => Prog.emitEv (.gend k tagged i))
      (Prog.bind (Prog.emitEv (.gbegin k tagged n j)) fun _ => Prog.bind p fun _ => Prog.emitEv (.gend k tagged j)) :=
  .emit (hr _ _ rfl) ((Like.refl (fun e => hr e e rfl) p).bind fun _ => .emit (hr _ _ rfl) (.ret ()))

private theorem like_geom {R : Ev → Ev → Prop} (hr : ∀ e e', e.noIdx = e'.noIdx → R e e') (i j : Nat) (g : GjGeom) :
    Like R (gjGeomN i g) (gjGeomN j g) := by
  cases g with
  | point p =>
    simp only [gjGeomN, Prog.bind_eq]
    simpa only [Prog.bind_assoc] using like_around hr .point true 1 i j (Prog.bind Prog.multiDim fun multi => gjCoord multi 0 p)
  | multiPoint ps =>
    simp only [gjGeomN, Prog.bind_eq]
    simpa only [Prog.bind_assoc] using
      like_around hr .multiPoint true ps.length i j (Prog.bind Prog.multiDim fun multi => forIdx (gjCoord multi) 0 ps)
  | lineString ps =>
    simp only [gjGeomN, gjLine, Prog.bind_eq]
    simpa only [Prog.bind_assoc] using
      like_around hr .lineString true ps.length i j (Prog.bind Prog.multiDim fun multi => forIdx (gjCoord multi) 0 ps)
  | multiLineString ls => simp only [gjGeomN, Prog.bind_eq]; exact like_around hr .multiLineString true _ i j _
  | polygon rs => simp only [gjGeomN, gjPolygon, Prog.bind_eq]; exact like_around hr .polygon true _ i j _
  | multiPolygon ps => simp only [gjGeomN, Prog.bind_eq]; exact like_around hr .multiPolygon true _ i j _
  | collection gs => simp only [gjGeomN, Prog.bind_eq]; exact like_around hr .collection true _ i j _

private theorem like_started {R : Ev → Ev → Prop} (hr : ∀ e e', e.noIdx = e'.noIdx → R e e') (ls : List GeoJsonValue)
    (hfc : ∀ fs, .featureCollection fs ∉ ls) (k j : Nat) :
    Like R (gjLineGeoms true k (ls.map .ok)) (Prog.bind (gjMembers j (ls.filterMap GeoJsonValue.ownGeometry)) fun _ => .ret true) := by
  induction ls generalizing k j with
  | nil => exact .ret true
  | cons l ls ih =>
    have ih := ih fun fs h => hfc fs (by simp [h])
    have one : ∀ g, Like R (Prog.bind (gjAddGeometry true k g) fun s => gjLineGeoms s (k + 1) (ls.map .ok))
        (Prog.bind (gjMembers j (g :: ls.filterMap GeoJsonValue.ownGeometry)) fun _ => .ret true) := by
      intro g
      simp only [gjAddGeometry, gjMembers, Prog.bind_eq, Prog.pure_eq, if_pos, Prog.bind_assoc, Prog.bind]
      exact (like_geom hr k j g).bind fun _ => ih (k + 1) (j + 1)
    match l, hfc with
    | .featureCollection fs, hfc => exact absurd (by simp) (hfc fs)
    | .geometry g, _ => exact one g
    | .feature f, _ =>
      cases hg : f.geometry with
      | none =>
        simpa only [List.map_cons, gjLineGeoms, hg, List.filterMap_cons, GeoJsonValue.ownGeometry] using ih (k + 1) j
      | some g =>
        simpa only [List.map_cons, gjLineGeoms, hg, List.filterMap_cons, GeoJsonValue.ownGeometry] using one g

private theorem like_lines (n : Nat) (ls : List GeoJsonValue) (hfc : ∀ fs, .featureCollection fs ∉ ls) (k : Nat) :
    if ls.filterMap GeoJsonValue.ownGeometry = [] then gjLineGeoms false k (ls.map .ok) = .ret false
    else Like (anyIdx n) (gjLineGeoms false k (ls.map .ok))
      (.emit (.gbegin .collection true n 0) (Prog.bind (gjMembers 0 (ls.filterMap GeoJsonValue.ownGeometry)) fun _ => .ret true)) := by
  induction ls generalizing k with
  | nil => rfl
  | cons l ls ih =>
    have hfc' : ∀ fs, .featureCollection fs ∉ ls := fun fs h => hfc fs (by simp [h])
    have ih := ih hfc'
    have one : ∀ g, Like (anyIdx n) (Prog.bind (gjAddGeometry false k g) fun s => gjLineGeoms s (k + 1) (ls.map .ok))
        (.emit (.gbegin .collection true n 0) (Prog.bind (gjMembers 0 (g :: ls.filterMap GeoJsonValue.ownGeometry)) fun _ => .ret true)) := by
      intro g
      refine .emit (Or.inr ⟨rfl, rfl⟩) ?_
      simp only [gjMembers, Prog.bind_eq, Prog.pure_eq, Prog.bind_assoc, Prog.bind]
      exact (like_geom (fun _ _ => Or.inl) k 0 g).bind fun _ => like_started (fun _ _ => Or.inl) ls hfc' (k + 1) 1
    match l, hfc with
    | .featureCollection fs, hfc => exact absurd (by simp) (hfc fs)
    | .geometry g, _ => exact (if_neg (by simp [GeoJsonValue.ownGeometry])).mpr (one g)
    | .feature f, _ =>
      cases hg : f.geometry with
      | none =>
        simpa only [List.map_cons, gjLineGeoms, hg, List.filterMap_cons, GeoJsonValue.ownGeometry] using ih (k + 1)
      | some g =>
        simpa only [List.map_cons, gjLineGeoms, hg, List.filterMap_cons, GeoJsonValue.ownGeometry, reduceCtorEq, if_false] using one g

/-- C90, line-delimited GeoJSON read as a geometry has the same effect, with the same outcome, as the GeoJSON geometry collection of
the geometries on its lines: for every processor that ignores indices and the announced number of members. -/
theorem C90_lines {σ : Type} (p : Prog.Proc σ) (hi : Proc.IgnoresIndices p) (ls : List GeoJsonValue)
    (hfc : ∀ fs, .featureCollection fs ∉ ls) (hs : Proc.IgnoresSize p (ls.filterMap GeoJsonValue.ownGeometry).length)
    (s : σ) (bs : List Byte) :
    Proc.effect p (readGeoJsonLineGeometries (ls.map .ok)) s bs =
      Proc.effect p (processGeoJsonGeom (.geometry (.collection (ls.filterMap GeoJsonValue.ownGeometry)))) s bs := by
  have h := like_lines (ls.filterMap GeoJsonValue.ownGeometry).length ls hfc 0
  have hP : ∀ s e e', anyIdx (ls.filterMap GeoJsonValue.ownGeometry).length e e' → p.step s e = p.step s e' := by
    rintro s e e' (h | ⟨rfl, rfl⟩)
    · rw [← hi s e, h, hi]
    · exact hs s
  simp only [readGeoJsonLineGeometries, processGeoJsonGeom, gjGeomN, Prog.bind_eq, Proc.effect]
  split at h
  · next hnil => rw [h, hnil]; rfl
  · have h2 := (h.bind (f := fun started => Prog.bind (if started then pure () else Prog.emitEv (.gbegin .collection true 0 0)) fun _ =>
        Prog.emitEv (.gend .collection true 0)) (fun _ => Like.refl (fun e => Or.inl rfl) _)).interp p hP s bs
    rw [h2.1, h2.2]
    simp only [Prog.bind, Prog.bind_assoc, Prog.emitEv, if_pos, Prog.pure_eq]

private theorem csv_records {σ : Type} (R : Ev → Ev → Prop) (hr : ∀ e, R e e) (parse : Text → Except Err WktGeom) (c : Nat)
    (rows : List (List Text)) (gs : List WktGeom) (h : rows.map (fun r => (r[c]?).map parse) = gs.map fun g => some (.ok g)) (i : Nat) :
    Like R (forIdx (csvGeomRecord parse c) (i + 1) (rows.map .ok)) (wktProcessMembers (i + 1) gs) := by
  induction rows generalizing gs i with
  | nil =>
    cases gs with
    | nil => exact .ret ()
    | cons g gs => simp at h
  | cons r rows ih =>
    cases gs with
    | nil => simp at h
    | cons g gs =>
      simp only [List.map_cons, List.cons.injEq, Option.map_eq_some_iff] at h
      obtain ⟨⟨t, h1, h2⟩, h3⟩ := h
      simp only [List.map_cons, forIdx, wktProcessMembers, csvGeomRecord, h1, h2, if_neg (Nat.succ_ne_zero i), Prog.bind]
      exact (Like.refl hr _).bind fun _ => ih gs h3 (i + 1)

/-- C90, a CSV table read as a geometry has the same effect, with the same outcome, as the WKT collection of the geometries in its
rows: for every processor that ignores the announced number of members. -/
theorem C90_csv {σ : Type} (p : Prog.Proc σ) (parse : Text → Except Err WktGeom) (headers : List Text) (column : Text) (c : Nat)
    (hc : headers.findIdx? (· == column) = some c) (rows : List (List Text)) (gs : List WktGeom)
    (h : rows.map (fun r => (r[c]?).map parse) = gs.map fun g => some (.ok g)) (hs : Proc.IgnoresSize p gs.length)
    (s : σ) (bs : List Byte) :
    Proc.effect p (processCsvGeom parse (.ok headers) (rows.map .ok) column) s bs = Proc.effect p (wktProcessGeom (.collection gs)) s bs := by
  have hP : ∀ s e e', anySize gs.length e e' → p.step s e = p.step s e' := by
    rintro s e e' (rfl | ⟨rfl, rfl⟩)
    · rfl
    · exact hs s
  have key : Like (anySize gs.length) (processCsvGeom parse (.ok headers) (rows.map .ok) column)
      (.emit (.gbegin .collection true gs.length 0) (Prog.bind (wktProcessMembers 0 gs) fun _ => Prog.emitEv (.gend .collection true 0))) := by
    simp only [processCsvGeom, hc]
    cases rows with
    | nil =>
      cases gs with
      | nil => exact Like.refl (fun _ => Or.inl rfl) _
      | cons g gs => simp at h
    | cons r rows =>
      cases gs with
      | nil => simp at h
      | cons g gs =>
        simp only [List.map_cons, List.cons.injEq, Option.map_eq_some_iff] at h
        obtain ⟨⟨t, h1, h2⟩, h3⟩ := h
        simp only [List.map_cons, forIdx, wktProcessMembers, csvGeomRecord, h1, h2, if_pos, reduceCtorEq, if_false, Prog.bind, Prog.emitEv,
          Prog.bind_assoc]
        refine .emit (Or.inr ⟨rfl, rfl⟩) ((Like.refl (fun _ => Or.inl rfl) _).bind fun _ => ?_)
        exact (csv_records (σ := σ) _ (fun _ => Or.inl rfl) parse c rows gs h3 0).bind fun _ => .emit (Or.inl rfl) (.ret ())
  have h2 := key.interp p hP s bs
  unfold Proc.effect
  rw [h2.1, h2.2]
  rfl

private theorem geo_indices (sz : ElemSizes) : Proc.IgnoresIndices (GeoWriter.proc sz) := by
  intro s e
  cases e <;> rfl

private theorem geo_size (sz : ElemSizes) (n : Nat) (h1 : sz.geom ≤ maxPreallocBytes) (hn : n * sz.geom ≤ maxPreallocBytes) :
    Proc.IgnoresSize (GeoWriter.proc sz) n := by
  have hv : ∀ m, m * sz.geom ≤ maxPreallocBytes → boundedVec GeoGeom sz.geom m = .ok ([], m * sz.geom) := by
    intro m hm
    have : ¬ saturatingMul m sz.geom > maxPreallocBytes := by unfold saturatingMul; omega
    simp only [boundedVec, validateCapacity, if_neg this]
  intro s
  simp only [GeoWriter.proc, GeoWriter.step, GeoWriter.gbegin, hv 1 (by omega), hv n hn]

private theorem toGeo_of_effect (sz : ElemSizes) (a b : Prog Unit) (bs : List Byte)
    (h : Proc.effect (GeoWriter.proc sz) a {} bs = Proc.effect (GeoWriter.proc sz) b {} bs) : toGeo sz a bs = toGeo sz b bs := by
  simp only [Proc.effect, Prod.mk.injEq] at h
  unfold toGeo
  revert h
  cases Prog.interp (GeoWriter.proc sz) a {} bs with
  | mk s1 r1 =>
    cases Prog.interp (GeoWriter.proc sz) b {} bs with
    | mk s2 r2 =>
      obtain ⟨e1, r1⟩ := r1
      obtain ⟨e2, r2⟩ := r2
      rintro ⟨h1, h2⟩
      simp only at h1 h2
      subst h1
      subst h2
      cases r1 <;> rfl

/-- C90, who ignores what: the geo-types and vector tile writers and the tessellator ignore indices; the tessellator ignores sizes, the
geo-types writer those within its budget for reservations. -/
theorem C90_processors (sz : ElemSizes) (tr : F64 → F64 → IXY) (ly : Lyon) :
    Proc.IgnoresIndices (GeoWriter.proc sz) ∧ Proc.IgnoresIndices (MvtWriter.proc sz tr) ∧
    Proc.IgnoresIndices ({ step := Tess.step ly, multi := fun _ => false } : Prog.Proc Tess) ∧
    (∀ n, Proc.IgnoresSize ({ step := Tess.step ly, multi := fun _ => false } : Prog.Proc Tess) n) ∧
    (∀ n, sz.geom ≤ maxPreallocBytes → n * sz.geom ≤ maxPreallocBytes → Proc.IgnoresSize (GeoWriter.proc sz) n) := by
  refine ⟨geo_indices sz, ?_, ?_, fun n s => rfl, fun n => geo_size sz n⟩
  all_goals
    intro s e
    cases e with
    | gbegin k t n i => first | rfl | (cases k <;> rfl) | (cases k <;> cases t <;> rfl)
    | gend k t i => first | rfl | (cases k <;> rfl) | (cases k <;> cases t <;> rfl)
    | _ => rfl

/-- C90, geo-types: `to_geo` of a line-delimited text gives what `to_geo` of the geometry collection gives. -/
theorem C90_lines_to_geo (sz : ElemSizes) (ls : List GeoJsonValue) (hfc : ∀ fs, .featureCollection fs ∉ ls)
    (h1 : sz.geom ≤ maxPreallocBytes) (hn : (ls.filterMap GeoJsonValue.ownGeometry).length * sz.geom ≤ maxPreallocBytes) (bs : List Byte) :
    toGeo sz (readGeoJsonLineGeometries (ls.map .ok)) bs =
      toGeo sz (processGeoJsonGeom (.geometry (.collection (ls.filterMap GeoJsonValue.ownGeometry)))) bs :=
  toGeo_of_effect sz _ _ bs (C90_lines _ (geo_indices sz) ls hfc (geo_size sz _ h1 hn) {} bs)

/-- C90, geo-types: `to_geo` of a CSV table gives what `to_geo` of the WKT collection gives. -/
theorem C90_csv_to_geo (sz : ElemSizes) (parse : Text → Except Err WktGeom) (headers : List Text) (column : Text) (c : Nat)
    (hc : headers.findIdx? (· == column) = some c) (rows : List (List Text)) (gs : List WktGeom)
    (h : rows.map (fun r => (r[c]?).map parse) = gs.map fun g => some (.ok g))
    (h1 : sz.geom ≤ maxPreallocBytes) (hn : gs.length * sz.geom ≤ maxPreallocBytes) (bs : List Byte) :
    toGeo sz (processCsvGeom parse (.ok headers) (rows.map .ok) column) bs = toGeo sz (wktProcessGeom (.collection gs)) bs :=
  toGeo_of_effect sz _ _ bs (C90_csv _ parse headers column c hc rows gs h (geo_size sz _ h1 hn) {} bs)

/-- C90 is false for the geo-types writer and more members than it reserves memory for: the collection is refused, the lines are not. -/
theorem C90_size_false : ∃ (sz : ElemSizes) (ls : List GeoJsonValue), (∀ fs, .featureCollection fs ∉ ls) ∧
    (∃ e, toGeo sz (processGeoJsonGeom (.geometry (.collection (ls.filterMap GeoJsonValue.ownGeometry)))) [] = .error e) ∧
    ∃ g, toGeo sz (readGeoJsonLineGeometries (ls.map .ok)) [] = .ok g := by
  refine ⟨⟨1, 1, 1, maxPreallocBytes⟩, [.geometry (.multiPoint []), .geometry (.multiPoint [])], by simp, ⟨_, rfl⟩, ⟨_, rfl⟩⟩

private theorem run_geoms (gs : List GjGeom) (h : ∀ g ∈ gs, g.Ok) (i : Nat) (bs : List Byte) :
    Prog.run false (forIdx gjGeomN i gs) bs = (evList (Geom.events false) i (gs.map GjGeom.geom), .ok ((), bs)) := by
  induction gs generalizing i with
  | nil => rfl
  | cons g gs ih =>
    simp only [forIdx, List.map_cons, evList]
    rw [Prog.run_bind_ok (run_gjGeomN false (h g (by simp)) i bs), ih (fun g hg => h g (by simp [hg]))]

private theorem feed_geoms (sz : ElemSizes) (gs : List Geom) (rs acc : List GeoGeom) (hr : Geom.geoList gs = some rs)
    (hb : Geom.BudgetList sz gs) (i : Nat) :
    feed (GeoWriter.step sz) { geoms := acc } (evList (Geom.events false) i gs) = .ok { geoms := acc ++ rs } := by
  induction gs generalizing rs acc i with
  | nil => cases hr; simp [evList, feed]
  | cons g gs ih =>
    simp only [Geom.geoList] at hr
    split at hr
    · next r rs' h1 h2 =>
      cases hr
      simp only [Geom.BudgetList] at hb
      simp only [evList, feed_append, GeoWriter.feed_geom sz g { geoms := acc } r i ⟨rfl, rfl, rfl⟩ h1 hb.1, GeoWriter.finish]
      rw [ih rs' (acc ++ [r]) h2 hb.2]
      simp
    · cases hr

/-- C90, feature collections: `to_geo` gives a collection with the geometries of the features in their order, if there are at least
two; a single one is given by itself, and none at all is an error. -/
theorem C90_feature_collection_to_geo (sz : ElemSizes) (fs : List GjFeature) (hok : ∀ g ∈ fs.filterMap GjFeature.geometry, g.Ok)
    (rs : List GeoGeom) (hr : Geom.geoList ((fs.filterMap GjFeature.geometry).map GjGeom.geom) = some rs)
    (hb : Geom.BudgetList sz ((fs.filterMap GjFeature.geometry).map GjGeom.geom)) (bs : List Byte) :
    toGeo sz (processGeoJsonGeom (.featureCollection fs)) bs =
      match rs with
      | [] => .error (.geometry "Missing Geometry")
      | [r] => .ok r
      | rs => .ok (.collection rs) := by
  have hrun := run_geoms _ hok 0 bs
  have hf := Prog.interp_of_feed_ok (GeoWriter.proc sz) false (fun _ => rfl) (processGeoJsonGeom (.featureCollection fs)) {} { geoms := rs } bs
    (by simpa only [processGeoJsonGeom, hrun, List.nil_append, GeoWriter.proc] using feed_geoms sz _ rs [] hr hb 0)
  unfold toGeo
  rw [hf]
  simp only [processGeoJsonGeom, hrun, GeoWriter.takeGeometry]
  match rs with
  | [] => rfl
  | [r] => rfl
  | r :: r' :: rs => rfl

/-- C90, the values: the lines of a text give the collection of their geometries, with any number of them. -/
theorem C90_lines_to_geo_value (sz : ElemSizes) (ls : List GeoJsonValue) (hfc : ∀ fs, .featureCollection fs ∉ ls)
    (h1 : sz.geom ≤ maxPreallocBytes) (hn : (ls.filterMap GeoJsonValue.ownGeometry).length * sz.geom ≤ maxPreallocBytes)
    (hok : ∀ g ∈ ls.filterMap GeoJsonValue.ownGeometry, g.Ok)
    (rs : List GeoGeom) (hr : Geom.geoList ((ls.filterMap GeoJsonValue.ownGeometry).map GjGeom.geom) = some rs)
    (hb : Geom.BudgetList sz ((ls.filterMap GeoJsonValue.ownGeometry).map GjGeom.geom)) (bs : List Byte) :
    toGeo sz (readGeoJsonLineGeometries (ls.map .ok)) bs = .ok (.collection rs) := by
  rw [C90_lines_to_geo sz ls hfc h1 hn]
  have hrun := run_gjGeomN false (GjGeom.Ok.collection hok) 0 bs
  have hbud : (GjGeom.collection (ls.filterMap GeoJsonValue.ownGeometry)).geom.Budget sz := by
    simp only [GjGeom.geom, Geom.Budget]
    refine ⟨?_, hb⟩
    simp only [Within, List.length_map]
    simpa only [maxPreallocBytes] using hn
  have hf := Prog.interp_of_feed_ok (GeoWriter.proc sz) false (fun _ => rfl)
    (processGeoJsonGeom (.geometry (.collection (ls.filterMap GeoJsonValue.ownGeometry)))) {} _ bs
    (by
      simp only [processGeoJsonGeom, hrun]
      exact GeoWriter.feed_geom sz _ {} (.collection rs) 0 ⟨rfl, rfl, rfl⟩ (by simp [GjGeom.geom, Geom.geo, hr]) hbud)
  unfold toGeo
  rw [hf]
  simp only [processGeoJsonGeom, hrun]
  rfl

private theorem lines_bad (ls rest : List (Except Err GeoJsonValue)) (bad : Except Err GeoJsonValue) (e : Err)
    (hb : bad = .error e ∨ ∃ fs, bad = .ok (.featureCollection fs) ∧ e = lineError) (started : Bool) (k : Nat) :
    gjLineGeoms started k (ls ++ bad :: rest) = Prog.bind (gjLineGeoms started k ls) fun _ => .fail e := by
  induction ls generalizing started k with
  | nil =>
    rcases hb with rfl | ⟨fs, rfl, rfl⟩
    · rfl
    · rfl
  | cons l ls ih =>
    match l with
    | .error _ => rfl
    | .ok (.featureCollection _) => rfl
    | .ok (.geometry g) => simp only [List.cons_append, gjLineGeoms, ih, Prog.bind_assoc]
    | .ok (.feature f) =>
      cases hg : f.geometry with
      | none => simp only [List.cons_append, gjLineGeoms, hg, ih]
      | some g => simp only [List.cons_append, gjLineGeoms, hg, ih, Prog.bind_assoc]

private theorem effect_cut {α σ : Type} (p : Prog.Proc σ) (loop : Prog α) (e : Err) (f : α → Prog Unit) (g : α → Prog Unit)
    (hf : ∀ a, f a = .fail e) (s : σ) (bs : List Byte) :
    (Proc.effect p (Prog.bind loop f) s bs).2 = .error e ∨
      ∃ x, (Proc.effect p (Prog.bind loop f) s bs).2 = .error x ∧ (Proc.effect p (Prog.bind loop g) s bs).2 = .error x := by
  simp only [Proc.effect, Prog.interp_bind_eq]
  cases Prog.interp p loop s bs with
  | mk s1 r1 =>
    obtain ⟨e1, r1⟩ := r1
    cases r1 with
    | error x => exact Or.inr ⟨x, rfl, rfl⟩
    | ok q => exact Or.inl (by simp only [hf]; rfl)

/-- C90, a line that is not a feature or geometry: the error is reported, whatever follows, if not one was before. -/
theorem C90_bad_line {σ : Type} (p : Prog.Proc σ) (ls rest : List (Except Err GeoJsonValue)) (bad : Except Err GeoJsonValue) (e : Err)
    (hb : bad = .error e ∨ ∃ fs, bad = .ok (.featureCollection fs) ∧ e = lineError) (s : σ) (bs : List Byte) :
    (Proc.effect p (readGeoJsonLineGeometries (ls ++ bad :: rest)) s bs).2 = .error e ∨
      ∃ x, (Proc.effect p (readGeoJsonLineGeometries (ls ++ bad :: rest)) s bs).2 = .error x ∧
        (Proc.effect p (readGeoJsonLineGeometries ls) s bs).2 = .error x := by
  simp only [readGeoJsonLineGeometries, Prog.bind_eq, lines_bad ls rest bad e hb, Prog.bind_assoc]
  exact effect_cut p _ e _ _ (fun _ => rfl) s bs

private theorem forIdx_bad {α : Type} (body : Nat → α → Prog Unit) (xs rest : List α) (bad : α) (e : Err) (hb : ∀ i, body i bad = .fail e)
    (k : Nat) : forIdx body k (xs ++ bad :: rest) = Prog.bind (forIdx body k xs) fun _ => .fail e := by
  induction xs generalizing k with
  | nil => simp only [List.nil_append, forIdx, hb]; rfl
  | cons x xs ih => simp only [List.cons_append, forIdx, ih, Prog.bind_assoc]

/-- C90, a row that cannot be read, has no field in the geometry column, or a text there that is not a geometry: the error is reported,
whatever follows, if not one was before. -/
theorem C90_bad_row {σ : Type} (p : Prog.Proc σ) (parse : Text → Except Err WktGeom) (headers : List Text) (column : Text) (c : Nat)
    (hc : headers.findIdx? (· == column) = some c) (rows rest : List (Except Err (List Text))) (bad : Except Err (List Text)) (e : Err)
    (hb : bad = .error e ∨ (∃ r, bad = .ok r ∧ r[c]? = none ∧ e = .columnNotFound) ∨
      ∃ r t, bad = .ok r ∧ r[c]? = some t ∧ parse t = .error e) (s : σ) (bs : List Byte) :
    (Proc.effect p (processCsvGeom parse (.ok headers) (rows ++ bad :: rest) column) s bs).2 = .error e ∨
      ∃ x, (Proc.effect p (processCsvGeom parse (.ok headers) (rows ++ bad :: rest) column) s bs).2 = .error x ∧
        (Proc.effect p (processCsvGeom parse (.ok headers) rows column) s bs).2 = .error x := by
  have hbad : ∀ i, csvGeomRecord parse c i bad = .fail e := by
    intro i
    rcases hb with rfl | ⟨r, rfl, h1, rfl⟩ | ⟨r, t, rfl, h1, h2⟩
    · rfl
    · simp only [csvGeomRecord, h1]
    · simp only [csvGeomRecord, h1, h2]
  simp only [processCsvGeom, hc, forIdx_bad _ rows rest bad e hbad, Prog.bind_assoc]
  exact effect_cut p _ e _ _ (fun _ => rfl) s bs

/-- a feature without geometry, a bare point and a feature with a line -/
def exAsCollection : List GeoJsonValue :=
  [.feature {}, .geometry (.point [1#64, 2#64]), .feature { geometry := some (.lineString [[1#64, 2#64], [3#64, 4#64]]) }]

example : (∀ fs, .featureCollection fs ∉ exAsCollection) ∧ (exAsCollection.filterMap GeoJsonValue.ownGeometry).length = 2 ∧
    (∀ g ∈ exAsCollection.filterMap GeoJsonValue.ownGeometry, g.Ok) ∧
    Geom.geoList ((exAsCollection.filterMap GeoJsonValue.ownGeometry).map GjGeom.geom) =
      some [.point ⟨1#64, 2#64⟩, .lineString [⟨1#64, 2#64⟩, ⟨3#64, 4#64⟩]] ∧
    Geom.BudgetList ⟨16, 24, 48, 56⟩ ((exAsCollection.filterMap GeoJsonValue.ownGeometry).map GjGeom.geom) ∧
    56 ≤ maxPreallocBytes ∧ 2 * 56 ≤ maxPreallocBytes := by
  refine ⟨by simp [exAsCollection], rfl, ?_, ?_, ?_, by decide, by decide⟩
  · intro g hg
    simp only [exAsCollection, List.filterMap_cons, GeoJsonValue.ownGeometry, List.filterMap_nil, List.mem_cons, List.not_mem_nil,
      or_false] at hg
    rcases hg with rfl | rfl
    · exact .point (by decide)
    · exact .lineString (by decide)
  · simp [exAsCollection, GeoJsonValue.ownGeometry, List.filterMap_cons, GjGeom.geom, Geom.geoList, Geom.geo, posCoord, Coord.xyPart]
  · simp [exAsCollection, GeoJsonValue.ownGeometry, List.filterMap_cons, Geom.BudgetList, GjGeom.geom, Geom.Budget, Within, maxPreallocBytes]

/-- two rows with the geometry in the second column -/
example : [txt "a", txt "g"].findIdx? (· == txt "g") = some 1 ∧
    [[txt "1", txt "x"], [txt "2", txt "x"]].map (fun r => (r[1]?).map fun _ => (.ok (.point none) : Except Err WktGeom)) =
      [WktGeom.point none, .point none].map fun g => some (.ok g) :=
  ⟨by decide +kernel, rfl⟩

/-- a bad second line: the first one is delivered, then the error reported -/
example (sz : ElemSizes) (h : sz.geom ≤ maxPreallocBytes) :
    (Proc.effect (GeoWriter.proc sz) (readGeoJsonLineGeometries [.ok (.geometry (.point [1#64, 2#64])), .error .io]) {} []).2 = .error .io ∧
    ∃ r, (Proc.effect (GeoWriter.proc sz) (readGeoJsonLineGeometries [.ok (.geometry (.point [1#64, 2#64]))]) {} []).2 = .ok r := by
  have hl := C90_lines_to_geo_value sz [.geometry (.point [1#64, 2#64])] (by simp) h (by simpa [GeoJsonValue.ownGeometry] using h)
    (by intro g hg; simp only [List.filterMap_cons, GeoJsonValue.ownGeometry, List.filterMap_nil, List.mem_cons, List.not_mem_nil,
          or_false] at hg; subst hg; exact .point (by decide)) [.point ⟨1#64, 2#64⟩]
    (by simp [GeoJsonValue.ownGeometry, List.filterMap_cons, GjGeom.geom, Geom.geoList, Geom.geo, posCoord, Coord.xyPart])
    (by simp [GeoJsonValue.ownGeometry, List.filterMap_cons, Geom.BudgetList, GjGeom.geom, Geom.Budget]) []
  have hr : ∃ r, (Proc.effect (GeoWriter.proc sz) (readGeoJsonLineGeometries [.ok (.geometry (.point [1#64, 2#64]))]) {} []).2 = .ok r := by
    unfold toGeo at hl
    unfold Proc.effect
    revert hl
    simp only [List.map_cons, List.map_nil]
    cases Prog.interp (GeoWriter.proc sz) (readGeoJsonLineGeometries [.ok (.geometry (.point [1#64, 2#64]))]) {} [] with
    | mk s1 r1 =>
      obtain ⟨e1, r1⟩ := r1
      cases r1 with
      | error x => intro h; cases h
      | ok q => exact fun _ => ⟨q, rfl⟩
  refine ⟨?_, hr⟩
  obtain ⟨r, hr⟩ := hr
  rcases C90_bad_line (GeoWriter.proc sz) [.ok (.geometry (.point [1#64, 2#64]))] [] (.error .io) .io (Or.inl rfl) {} [] with h | ⟨x, -, h⟩
  · exact h
  · rw [hr] at h; cases h

end Geozero
