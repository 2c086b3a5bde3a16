import Verif.Spec.Joined
import Verif.Lemmas.Feature
import Verif.Lemmas.ShpFile

/-
C88: joined files.
-/

namespace Geozero
namespace FProg

/-- the program with later numbers of features -/
def renum (n : Nat) {α : Type} : FProg α → FProg α
  | ret a => ret a
  | fail e => fail e
  | read k => read fun b => renum n (k b)
  | emit e k => emit (e.later n) (renum n k)
  | emitOk e k => emitOk (e.later n) (renum n k)
  | prop i m v k => prop i m v fun b => renum n (k b)
  | ask k => ask fun b d => renum n (k b d)

theorem renum_bind (n : Nat) {α β : Type} (p : FProg α) (f : α → FProg β) :
    renum n (bind p f) = bind (renum n p) fun a => renum n (f a) := by
  induction p with
  | ret a => rfl
  | fail e => rfl
  | read k ih => simp only [bind, renum, ih]
  | emit e k ih => simp only [bind, renum, ih]
  | emitOk e k ih => simp only [bind, renum, ih]
  | prop i m v k ih => simp only [bind, renum, ih]
  | ask k ih => simp only [bind, renum, ih]

theorem renum_lift (n : Nat) {α : Type} (p : Prog α) : renum n (lift p) = lift p := by
  induction p with
  | ret a => rfl
  | fail e => rfl
  | read k ih => simp only [lift, renum, ih]
  | emit e k ih => simp only [lift, renum, ih, FEv.later]
  | askMulti k ih => simp only [lift, renum, ih]

private theorem renum_forIdx (n : Nat) {α : Type} (body body' : Nat → α → FProg Unit) (xs : List α) (k k' : Nat)
    (h : ∀ j, ∀ x ∈ xs, body' (k' + j) x = renum n (body (k + j) x)) : forIdx body' k' xs = renum n (forIdx body k xs) := by
  induction xs generalizing k k' with
  | nil => rfl
  | cons x xs ih =>
    have h0 := h 0 x (by simp)
    simp only [Nat.add_zero] at h0
    have ih := ih (k + 1) (k' + 1) fun j y hy => by
      have := h (j + 1) y (by simp [hy])
      rwa [show k' + (j + 1) = k' + 1 + j by omega, show k + (j + 1) = k + 1 + j by omega] at this
    simp only [forIdx, renum_bind, h0, ih]

theorem forIdx_joined {α : Type} (body : Nat → α → FProg Unit) (xs ys : List α) (k : Nat) :
    forIdx body k (xs ++ ys) = bind (forIdx body k xs) fun _ => forIdx body (k + xs.length) ys := by
  induction xs generalizing k with
  | nil => rfl
  | cons x xs ih =>
    simp only [List.cons_append, forIdx, ih, bind_assoc, List.length_cons]
    rw [show k + 1 + xs.length = k + (xs.length + 1) by omega]

private theorem run_renum (n : Nat) {α : Type} (env : Env) (p : FProg α) (bs : List Byte) :
    run env (renum n p) bs = ((run env p bs).1.map (FEv.later n), (run env p bs).2) := by
  induction p generalizing bs with
  | ret a => rfl
  | fail e => rfl
  | read k ih =>
    cases bs with
    | nil => rfl
    | cons b bs => simp only [renum, run, ih]
  | emit e k ih => simp only [renum, run, ih, List.map_cons]
  | emitOk e k ih => simp only [renum, run, ih, List.map_cons]
  | prop i m v k ih => simp only [renum, run, ih, List.map_cons, FEv.later]
  | ask k ih => simp only [renum, run, ih]

private theorem interp_renum (n : Nat) {α σ : Type} (p : FProc σ) (hp : p.IgnoresNumbers) (q : FProg α) (s : σ) (bs : List Byte) :
    interp p (renum n q) s bs = ((interp p q s bs).1, (interp p q s bs).2.1.map (FEv.later n), (interp p q s bs).2.2) := by
  induction q generalizing s bs with
  | ret a => rfl
  | fail e => rfl
  | read k ih =>
    cases bs with
    | nil => rfl
    | cons b bs => simp only [renum, interp, ih]
  | emit e k ih =>
    simp only [renum, interp, hp.step]
    cases p.step s e with
    | error x => rfl
    | ok s' => simp only [ih, List.map_cons]
  | emitOk e k ih =>
    simp only [renum, interp, hp.step, hp.left]
    cases p.step s e with
    | error x =>
      simp only
      split
      · rfl
      · simp only [ih, List.map_cons]
    | ok s' => simp only [ih, List.map_cons]
  | prop i m v k ih =>
    simp only [renum, interp]
    cases p.step s (.prop i m v) with
    | error x => rfl
    | ok s' => simp only [ih, List.map_cons, FEv.later]
  | ask k ih => simp only [renum, interp, ih]

/-- nothing is left of no bytes -/
private theorem run_nil {α : Type} (env : Env) (p : FProg α) (evs : List FEv) (a : α) (rest : List Byte)
    (h : run env p [] = (evs, .ok (a, rest))) : rest = [] := by
  induction p generalizing evs with
  | ret b => simp only [run, Prod.mk.injEq, Except.ok.injEq] at h; exact h.2.2.symm
  | fail e => simp [run] at h
  | read k ih => simp [run] at h
  | emit e k ih => simp only [run, Prod.mk.injEq] at h; exact ih _ (Prod.ext rfl h.2)
  | emitOk e k ih => simp only [run, Prod.mk.injEq] at h; exact ih _ (Prod.ext rfl h.2)
  | prop i m v k ih => simp only [run, Prod.mk.injEq] at h; exact ih _ _ (Prod.ext rfl h.2)
  | ask k ih => exact ih _ _ _ h

private theorem interp_nil {α σ : Type} (p : FProc σ) (q : FProg α) (s s' : σ) (evs : List FEv) (a : α) (rest : List Byte)
    (h : interp p q s [] = (s', evs, .ok (a, rest))) : rest = [] := by
  induction q generalizing s evs with
  | ret b => simp only [interp, Prod.mk.injEq, Except.ok.injEq] at h; exact h.2.2.2.symm
  | fail e => simp [interp] at h
  | read k ih => simp [interp] at h
  | emit e k ih =>
    simp only [interp] at h
    cases hs : p.step s e with
    | error x => rw [hs] at h; simp at h
    | ok s1 => rw [hs] at h; simp only [Prod.mk.injEq] at h; exact ih s1 _ (Prod.ext h.1 (Prod.ext rfl h.2.2))
  | emitOk e k ih =>
    simp only [interp] at h
    cases hs : p.step s e with
    | error x =>
      rw [hs] at h
      simp only at h
      split at h
      · simp at h
      · simp only [Prod.mk.injEq] at h; exact ih _ _ (Prod.ext h.1 (Prod.ext rfl h.2.2))
    | ok s1 => rw [hs] at h; simp only [Prod.mk.injEq] at h; exact ih s1 _ (Prod.ext h.1 (Prod.ext rfl h.2.2))
  | prop i m v k ih =>
    simp only [interp] at h
    cases hs : p.step s (.prop i m v) with
    | error x => rw [hs] at h; simp at h
    | ok s1 => rw [hs] at h; simp only [Prod.mk.injEq] at h; exact ih _ s1 _ (Prod.ext h.1 (Prod.ext rfl h.2.2))
  | ask k ih => exact ih _ _ _ _ h

/-- a dataset with the loop `loop` -/
def inDataset (name : Option Text) (loop : FProg Unit) : FProg Unit :=
  bind (call (.dsBegin name)) fun _ => bind loop fun _ => call .dsEnd

private theorem run_dataset (env : Env) (name : Option Text) (loop : FProg Unit) :
    run env (inDataset name loop) [] = match run env loop [] with
      | (evs, .ok _) => (.dsBegin name :: (evs ++ [.dsEnd]), .ok ((), []))
      | (evs, .error e) => (.dsBegin name :: evs, .error e) := by
  simp only [inDataset, call, bind, run, run_bind, andThen]
  cases h : run env loop [] with
  | mk evs r =>
    cases r with
    | error e => rfl
    | ok q =>
      obtain ⟨⟨⟩, rest⟩ := q
      cases run_nil env loop _ _ _ h
      rfl

theorem joined_run (env : Env) (name : Option Text) (n : Nat) (a b : FProg Unit) :
    run env (inDataset name (bind a fun _ => renum n b)) [] =
      joinedRun n (run env (inDataset name a) []) (run env (inDataset name b) []) := by
  simp only [run_dataset, run_bind, andThen]
  cases ha : run env a [] with
  | mk evs r =>
    cases r with
    | error e => rfl
    | ok q =>
      obtain ⟨⟨⟩, rest⟩ := q
      cases run_nil env a _ _ _ ha
      simp only [run_renum]
      cases hb : run env b [] with
      | mk evs' r' =>
        cases r' with
        | error e =>
          simp only [joinedRun, List.tail_cons, ← List.cons_append, List.dropLast_concat]
        | ok q' =>
          simp only [joinedRun, List.tail_cons, List.map_append, List.map_cons, List.map_nil, FEv.later, ← List.cons_append,
            List.dropLast_concat]
          simp [FEv.later]

private theorem interp_dataset {σ : Type} (p : FProc σ) (hp : p.IgnoresDataset) (name : Option Text) (loop : FProg Unit) (s : σ) :
    (interp p (inDataset name loop) s []).1 = (interp p loop s []).1 ∧
      (interp p (inDataset name loop) s []).2.2.map (fun _ => ()) = (interp p loop s []).2.2.map fun _ => () := by
  simp only [inDataset, call, bind, interp, hp.dsBegin, interp_bind]
  cases h : interp p loop s [] with
  | mk s1 r =>
    obtain ⟨evs, r⟩ := r
    cases r with
    | error e => exact ⟨rfl, rfl⟩
    | ok q => simp [interp, hp.dsEnd, Except.map]

theorem joined_interp {σ : Type} (p : FProc σ) (hn : p.IgnoresNumbers) (hp : p.IgnoresDataset) (name : Option Text) (n : Nat)
    (a b : FProg Unit) (s : σ) :
    ((interp p (inDataset name (bind a fun _ => renum n b)) s []).1,
      (interp p (inDataset name (bind a fun _ => renum n b)) s []).2.2.map fun _ => ()) =
    processBoth p (inDataset name a) (inDataset name b) s := by
  obtain ⟨h1, h2⟩ := interp_dataset p hp name (bind a fun _ => renum n b) s
  rw [h1, h2, interp_bind]
  unfold processBoth
  obtain ⟨h3, h4⟩ := interp_dataset p hp name a s
  revert h3 h4
  cases interp p (inDataset name a) s [] with
  | mk s1 r =>
    obtain ⟨evs, r⟩ := r
    cases ha : interp p a s [] with
    | mk s2 r2 =>
      obtain ⟨evs2, r2⟩ := r2
      intro h3 h4
      simp only at h3 h4
      subst h3
      cases r2 with
      | error e =>
        cases r with
        | error e' => simp only [Except.map, Except.error.injEq] at h4; subst h4; rfl
        | ok q => cases h4
      | ok q =>
        cases r with
        | error e' => cases h4
        | ok q' =>
          obtain ⟨⟨⟩, rest⟩ := q
          cases interp_nil p a _ _ _ _ _ ha
          obtain ⟨h5, h6⟩ := interp_dataset p hp name b s1
          simp only [interp_renum n p hn, h5, h6]

private theorem call_later {n : Nat} {e e' : FEv} (h : e' = e.later n) : call e' = renum n (call e) := by rw [h]; rfl

private theorem renum_call (n : Nat) (e : FEv) : renum n (call e) = call (e.later n) := rfl

private theorem renum_gjProperties (n : Nat) (ps : Option (List (Text × GjVal))) :
    renum n (gjPropertiesPart ps) = gjPropertiesPart ps := by
  cases ps with
  | none => rfl
  | some ps =>
    simp only [gjPropertiesPart, bind_eq, renum_bind, renum_call, FEv.later]
    rw [← renum_forIdx n gjProperty gjProperty ps 0 0 fun j x _ => ?_]
    unfold gjProperty
    cases x.2.column <;> rfl

private theorem renum_gjGeometry (n : Nat) (g : Option GjGeom) : renum n (gjGeometryPart 0 g) = gjGeometryPart 0 g := by
  cases g with
  | none => rfl
  | some g => simp only [gjGeometryPart, bind_eq, renum_bind, renum_call, FEv.later, renum_lift]

theorem renum_gjLineItem (n j : Nat) (l : Except Err GeoJsonValue) (h : ∀ g, l ≠ .ok (.geometry g)) :
    gjLineItem (n + j) l = renum n (gjLineItem j l) := by
  match l, h with
  | .error e, _ => rfl
  | .ok (.featureCollection fs), _ => rfl
  | .ok (.geometry g), h => exact absurd rfl (h g)
  | .ok (.feature f), _ =>
    simp only [gjLineItem, gjLineFeature, bind_eq, renum_bind, renum_call, FEv.later, renum_gjProperties, renum_gjGeometry]

private theorem renum_csvFeature (n j : Nat) (parse : Text → Except Err WktGeom) (headers : List Text) (c : Nat)
    (r : Except Err (List Text)) : csvFeature parse headers c (n + j) r = renum n (csvFeature parse headers c j r) := by
  cases r with
  | error e => rfl
  | ok r =>
    have hg : renum n (csvGeometryPart parse r c) = csvGeometryPart parse r c := by
      unfold csvGeometryPart
      cases r[c]? with
      | none => rfl
      | some f =>
        simp only
        cases f.isEmpty with
        | true => rfl
        | false =>
          simp only [Bool.false_eq_true, if_false, bind_eq, renum_bind, renum_call, FEv.later, csvGeometry]
          cases parse f with
          | error e => rfl
          | ok g => simp only [renum_lift]
    have hp : renum n (forIdx csvProperty 0 (csvPairs headers r c)) = forIdx csvProperty 0 (csvPairs headers r c) :=
      (renum_forIdx n csvProperty csvProperty _ 0 0 fun j x _ => rfl).symm
    simp only [csvFeature, bind_eq, renum_bind, renum_call, FEv.later, hg, hp]

private theorem renum_mvtFeature (n j : Nat) (f : MvtFeature) : mvtFeature (n + j) f = renum n (mvtFeature j f) := by
  have hp : renum n (forIdx mvtProperty 0 f.properties) = forIdx mvtProperty 0 f.properties := by
    refine (renum_forIdx n mvtProperty mvtProperty _ 0 0 fun j x _ => ?_).symm
    unfold mvtProperty
    split <;> rfl
  simp only [mvtFeature, bind_eq, renum_bind, renum_call, FEv.later, hp, renum_lift]

private theorem lines_eq (la lb : List (Except Err GeoJsonValue)) (hb : ∀ l ∈ lb, ∀ g, l ≠ .ok (.geometry g)) :
    readGeoJsonLines (la ++ lb) =
      inDataset none (bind (forIdx gjLineItem 0 la) fun _ => renum la.length (forIdx gjLineItem 0 lb)) := by
  simp only [readGeoJsonLines, bind_eq, inDataset, forIdx_joined]
  rw [renum_forIdx la.length gjLineItem gjLineItem lb 0 (0 + la.length) fun j l hl => by
    simpa using renum_gjLineItem la.length j l (hb l hl)]

private theorem csv_eq (parse : Text → Except Err WktGeom) (headers : List Text) (ra rb : List (Except Err (List Text))) (c : Nat) :
    forIdx (csvFeature parse headers c) 0 (ra ++ rb) =
      bind (forIdx (csvFeature parse headers c) 0 ra) fun _ => renum ra.length (forIdx (csvFeature parse headers c) 0 rb) := by
  rw [forIdx_joined, renum_forIdx ra.length (csvFeature parse headers c) (csvFeature parse headers c) rb 0 (0 + ra.length) fun j r _ => by
    simpa using renum_csvFeature ra.length j parse headers c r]

private theorem mvt_eq (name : Text) (extent : Nat) (fa fb : List MvtFeature) :
    mvtProcess { name, extent, features := fa ++ fb } =
      inDataset (some name) (bind (forIdx mvtFeature 0 fa) fun _ => renum fa.length (forIdx mvtFeature 0 fb)) := by
  simp only [mvtProcess, bind_eq, inDataset, forIdx_joined]
  rw [renum_forIdx fa.length mvtFeature mvtFeature fb 0 (0 + fa.length) fun j f _ => by
    simpa using renum_mvtFeature fa.length j f]

end FProg

private theorem bufLinesFrom_join (a b cur : Text) : bufLinesFrom cur (a ++ '\n' :: b) = bufLinesFrom cur (a ++ ['\n']) ++ bufLines b := by
  induction a generalizing cur with
  | nil => simp [bufLinesFrom, bufLines]
  | cons c a ih =>
    simp only [List.cons_append, bufLinesFrom]
    split
    · simp [ih]
    · exact ih _

/-- a text all of whose lines are finished -/
theorem bufLines_join (a b : Text) (ha : a = [] ∨ a.getLast? = some '\n') : bufLines (a ++ b) = bufLines a ++ bufLines b := by
  rcases ha with rfl | ha
  · rfl
  · obtain ⟨p, rfl⟩ := List.getLast?_eq_some_iff.mp ha
    have := bufLinesFrom_join p b []
    simpa [bufLines] using this

/-- lists of lines -/
theorem joined_lines (env : FProg.Env) (la lb : List (Except Err GeoJsonValue)) (hb : ∀ l ∈ lb, ∀ g, l ≠ .ok (.geometry g)) :
    FProg.run env (readGeoJsonLines (la ++ lb)) [] =
      joinedRun la.length (FProg.run env (readGeoJsonLines la) []) (FProg.run env (readGeoJsonLines lb) []) := by
  rw [FProg.lines_eq _ _ hb, FProg.joined_run]
  rfl

theorem joined_lines_processed {σ : Type} (p : FProc σ) (hn : p.IgnoresNumbers) (hd : p.IgnoresDataset) (s : σ)
    (la lb : List (Except Err GeoJsonValue)) (hb : ∀ l ∈ lb, ∀ g, l ≠ .ok (.geometry g)) :
    ((FProg.interp p (readGeoJsonLines (la ++ lb)) s []).1, (FProg.interp p (readGeoJsonLines (la ++ lb)) s []).2.2.map fun _ => ()) =
    processBoth p (readGeoJsonLines la) (readGeoJsonLines lb) s := by
  rw [FProg.lines_eq _ _ hb]
  exact FProg.joined_interp p hn hd none _ _ _ s

/-- C88, line-delimited GeoJSON: the calls for two texts joined to one are those for the first and those for the second, renumbered;
a failure of either is that of the whole.  The first text ends with a line break or is empty.  The lines of the second are not
geometries without a feature (their line number is in the calls for the geometry). -/
theorem C88_geojson_lines (env : FProg.Env) (parse : Text → Except Err GeoJsonValue) (a b : Text)
    (ha : a = [] ∨ a.getLast? = some '\n') (hb : ∀ l ∈ bufLines b, ∀ g, parse l ≠ .ok (.geometry g)) :
    FProg.run env (readGeoJsonLines ((bufLines (a ++ b)).map parse)) [] =
      joinedRun (bufLines a).length (FProg.run env (readGeoJsonLines ((bufLines a).map parse)) [])
        (FProg.run env (readGeoJsonLines ((bufLines b).map parse)) []) := by
  rw [bufLines_join a b ha, List.map_append, FProg.lines_eq _ _ (by simpa using hb), FProg.joined_run]
  simp only [List.length_map]
  rfl

/-- C88, line-delimited GeoJSON with a processor that ignores the numbers of features and the ends of datasets: the joined text has
the same effect on it as the first text and then the second. -/
theorem C88_geojson_lines_processed {σ : Type} (p : FProc σ) (hn : p.IgnoresNumbers) (hd : p.IgnoresDataset) (s : σ)
    (parse : Text → Except Err GeoJsonValue) (a b : Text)
    (ha : a = [] ∨ a.getLast? = some '\n') (hb : ∀ l ∈ bufLines b, ∀ g, parse l ≠ .ok (.geometry g)) :
    ((FProg.interp p (readGeoJsonLines ((bufLines (a ++ b)).map parse)) s []).1,
      (FProg.interp p (readGeoJsonLines ((bufLines (a ++ b)).map parse)) s []).2.2.map fun _ => ()) =
    processBoth p (readGeoJsonLines ((bufLines a).map parse)) (readGeoJsonLines ((bufLines b).map parse)) s := by
  rw [bufLines_join a b ha, List.map_append, FProg.lines_eq _ _ (by simpa using hb)]
  exact FProg.joined_interp p hn hd none _ _ _ s

/-- C88, CSV: the calls for two tables with the same header row, one below the other, are those for the first and those for the second,
renumbered. -/
theorem C88_csv (env : FProg.Env) (parse : Text → Except Err WktGeom) (headers : List Text) (ra rb : List (Except Err (List Text)))
    (column : Text) :
    FProg.run env (processCsvFeatures parse (.ok headers) (ra ++ rb) column) [] =
      joinedRun ra.length (FProg.run env (processCsvFeatures parse (.ok headers) ra column) [])
        (FProg.run env (processCsvFeatures parse (.ok headers) rb column) []) := by
  unfold processCsvFeatures
  simp only
  cases headers.findIdx? (· == column) with
  | none => rfl
  | some c =>
    simp only [FProg.csv_eq]
    exact FProg.joined_run env none ra.length _ _

/-- C88, CSV with a processor that ignores the numbers of features and the ends of datasets. -/
theorem C88_csv_processed {σ : Type} (p : FProc σ) (hn : p.IgnoresNumbers) (hd : p.IgnoresDataset) (s : σ)
    (parse : Text → Except Err WktGeom) (headers : List Text) (ra rb : List (Except Err (List Text))) (column : Text) :
    ((FProg.interp p (processCsvFeatures parse (.ok headers) (ra ++ rb) column) s []).1,
      (FProg.interp p (processCsvFeatures parse (.ok headers) (ra ++ rb) column) s []).2.2.map fun _ => ()) =
    processBoth p (processCsvFeatures parse (.ok headers) ra column) (processCsvFeatures parse (.ok headers) rb column) s := by
  unfold processCsvFeatures
  simp only
  cases headers.findIdx? (· == column) with
  | none =>
    simp only [FProg.bind_eq, FProg.call, FProg.bind, FProg.interp, hd.dsBegin, processBoth]
    rfl
  | some c =>
    simp only [FProg.csv_eq]
    exact FProg.joined_interp p hn hd none ra.length _ _ s

/-- C88, vector tiles: the calls for a layer are those for the layers with the first features and with the other features. -/
theorem C88_mvt (env : FProg.Env) (name : Text) (extent : Nat) (fa fb : List MvtFeature) :
    FProg.run env (mvtProcess { name, extent, features := fa ++ fb }) [] =
      joinedRun fa.length (FProg.run env (mvtProcess { name, extent, features := fa }) [])
        (FProg.run env (mvtProcess { name, extent, features := fb }) []) := by
  rw [FProg.mvt_eq, FProg.joined_run]
  rfl

/-- C88, vector tiles with a processor that ignores the numbers of features and the ends of datasets. -/
theorem C88_mvt_processed {σ : Type} (p : FProc σ) (hn : p.IgnoresNumbers) (hd : p.IgnoresDataset) (s : σ)
    (name : Text) (extent : Nat) (fa fb : List MvtFeature) :
    ((FProg.interp p (mvtProcess { name, extent, features := fa ++ fb }) s []).1,
      (FProg.interp p (mvtProcess { name, extent, features := fa ++ fb }) s []).2.2.map fun _ => ()) =
    processBoth p (mvtProcess { name, extent, features := fa }) (mvtProcess { name, extent, features := fb }) s := by
  rw [FProg.mvt_eq]
  exact FProg.joined_interp p hn hd (some name) _ _ _ s

/-- C88, who ignores them: the writers of geo-types features and of tile layers, the bounds and the tessellator. -/
theorem C88_processors (sz : ElemSizes) (tr : F64 → F64 → IXY) (ly : Lyon) :
    ((GeoFeatureWriter.proc sz).IgnoresNumbers ∧ (GeoFeatureWriter.proc sz).IgnoresDataset) ∧
    ((MvtWriter.fproc sz tr).IgnoresNumbers ∧ (MvtWriter.fproc sz tr).IgnoresDataset) ∧
    (boundsProc.IgnoresNumbers ∧ boundsProc.IgnoresDataset) ∧
    (({ step := Tess.fstep ly } : FProc Tess).IgnoresNumbers ∧ ({ step := Tess.fstep ly } : FProc Tess).IgnoresDataset) := by
  refine ⟨⟨⟨?_, ?_⟩, ⟨?_, ?_⟩⟩, ⟨⟨?_, ?_⟩, ⟨?_, ?_⟩⟩, ⟨⟨?_, ?_⟩, ⟨?_, ?_⟩⟩, ⟨⟨?_, ?_⟩, ⟨?_, ?_⟩⟩⟩
  all_goals first | (intro s e n; cases e <;> rfl) | (intro s n; rfl) | (intro s; rfl)

/-- a parser of lines for the examples: "p" is a feature with a property and a point, "g" a geometry, anything else an error -/
def exJoinParse (t : Text) : Except Err GeoJsonValue :=
  if t = txt "p" then .ok (.feature { geometry := some (.point [1#64, 2#64]), properties := some [(txt "a", .bool true)] })
  else if t = txt "g" then .ok (.geometry (.point [1#64, 2#64])) else .error .io

example :
    let a := txt "p\ng\r\n"
    let b := txt "p\np"
    (a = [] ∨ a.getLast? = some '\n') ∧ (bufLines b).length = 2 ∧ (bufLines (a ++ b)).length = 4 ∧
    (∀ l ∈ bufLines b, ∀ g, exJoinParse l ≠ .ok (.geometry g)) ∧
    (FProg.run { multi := false, dims := {}, ans := fun _ => true } (readGeoJsonLines ((bufLines (a ++ b)).map exJoinParse)) []).1.filter
      (fun e => match e with | .ftBegin _ => true | _ => false) = [.ftBegin 0, .ftBegin 2, .ftBegin 3] := by
  refine ⟨.inr rfl, rfl, rfl, ?_, by decide +kernel⟩
  intro l hl g
  have : bufLines (txt "p\np") = [txt "p", txt "p"] := rfl
  rw [this] at hl
  simp only [List.mem_cons, List.not_mem_nil, or_false, or_self] at hl
  subst hl
  simp [exJoinParse]

end Geozero
