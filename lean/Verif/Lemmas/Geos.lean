import Verif.Spec.Geos
import Verif.Lemmas.GeoTypes

/- Helper lemmas for GEOS. -/

namespace Geozero
open Prog

/-! ### empty points -/

/-- a call every state rejects makes the stream fail -/
theorem feed_mem_error {σ : Type} (step : σ → Ev → Except Err σ) (e : Ev) (he : ∀ s, ∃ x, step s e = .error x) (evs : List Ev)
    (h : e ∈ evs) (s : σ) : ∃ x, feed step s evs = .error x := by
  induction evs generalizing s with
  | nil => cases h
  | cons a as ih =>
    rw [feed_cons]
    rcases List.mem_cons.mp h with rfl | h
    · obtain ⟨x, hx⟩ := he s
      exact ⟨x, by rw [hx]⟩
    · cases hs : step s a with
      | ok s' => exact ih h s'
      | error x => exact ⟨x, rfl⟩

theorem emptyPoint_mem_events (multi : Bool) (g : Geom) (h : g.hasEmptyPoint = true) (i : Nat) :
    ∃ j, Ev.emptyPoint j ∈ g.events multi i := by
  induction g using Geom.ind generalizing i with
  | emptyPoint => exact ⟨i, by simp [Geom.events]⟩
  | collection gs ih =>
    rw [events_collection]
    simp only [Geom.hasEmptyPoint] at h
    suffices ∀ k, ∃ j, Ev.emptyPoint j ∈ evList (Geom.events multi) k gs by
      obtain ⟨j, hj⟩ := this 0
      exact ⟨j, by simp [bracket, hj]⟩
    induction gs with
    | nil => cases h
    | cons g gs ihl =>
      intro k
      simp only [Geom.hasEmptyPointList, Bool.or_eq_true] at h
      rcases h with h | h
      · obtain ⟨j, hj⟩ := ih g (by simp) h k
        exact ⟨j, by simp [evList, hj]⟩
      · obtain ⟨j, hj⟩ := ihl (fun x hx => ih x (by simp [hx])) h (k + 1)
        exact ⟨j, by simp [evList, hj]⟩
  | _ => cases h

/-! ### reader -/

theorem posEv_eq (multi : Bool) (p : GPos) (i : Nat) :
    (if multi then Ev.coord p.x p.y p.z none none none i else .xy p.x p.y i) = coordEv multi p.coord i := by
  cases multi <;> rfl

theorem evList_shift {α : Type} (f : Nat → α → List Ev) (k i : Nat) (xs : List α) :
    evList (fun j x => f (k + j) x) i xs = evList f (k + i) xs := by
  induction xs generalizing i with
  | nil => rfl
  | cons x xs ih => simp [evList, ih, Nat.add_assoc]

theorem run_geosCoordSeq (multi : Bool) (cs : GSeq) (off : Nat) (bs : List Byte) :
    run multi (geosCoordSeq cs off) bs = (evList (coordEvs multi) off (GSeq.coords cs), .ok ((), bs)) := by
  unfold geosCoordSeq
  simp only [bind_eq, run_multiDim_bind, posEv_eq]
  rw [run_forIdx (f := fun i (c : GPos) => coordEvs multi (off + i) c.coord) cs (fun i c _ bs => by simp [coordEvs]) 0 bs]
  rw [GSeq.coords, evList_map, evList_shift (fun i (c : GPos) => coordEvs multi i c.coord)]
  simp

theorem run_geosLinestring (multi tagged : Bool) (cs : GSeq) (idx : Nat) (bs : List Byte) :
    run multi (geosLinestring cs tagged idx) bs = (lineEvs multi tagged idx (GSeq.coords cs), .ok ((), bs)) := by
  unfold geosLinestring
  simp only [bind_eq, run_emitEv_bind]
  rw [run_bind_ok (run_geosCoordSeq multi cs 0 bs)]
  simp [lineEvs, bracket, GSeq.coords]

theorem run_geosPolygon (multi tagged : Bool) (e : GSeq) (is : List GSeq) (idx : Nat) (bs : List Byte) :
    run multi (geosPolygon e is tagged idx) bs = (polyEvs multi tagged idx ((e :: is).map GSeq.coords), .ok ((), bs)) := by
  unfold geosPolygon
  simp only [bind_eq, run_emitEv_bind]
  rw [run_bind_ok (run_geosLinestring multi false e 0 bs)]
  rw [run_bind_ok (run_forIdx (f := fun i r => lineEvs multi false (i + 1) (GSeq.coords r)) is
    (fun i r _ bs => run_geosLinestring multi false r (i + 1) bs) 0 bs)]
  have h := evList_shift (fun j (r : GSeq) => lineEvs multi false j (GSeq.coords r)) 1 0 is
  simp only [Nat.add_comm 1] at h
  simp [polyEvs, bracket, evList_map, evList, h]

/-- the calls the reader makes: as documented, except that an empty point is delivered as a point without coordinates -/
theorem run_geosGeomN (multi : Bool) (bs : List Byte) (g : GeosGeom) : ∀ idx, g.NoEmptyPoint →
    run multi (geosGeomN idx g) bs = (g.denote.events multi idx, .ok ((), bs)) := by
  refine GeosGeom.rec
    (motive_1 := fun g => ∀ idx, g.NoEmptyPoint → run multi (geosGeomN idx g) bs = (g.denote.events multi idx, .ok ((), bs)))
    (motive_2 := fun gs => ∀ i, GeosGeom.NoEmptyPointList gs →
      run multi (geosMembers i gs) bs = (eventsList multi i (GeosGeom.denoteList gs), .ok ((), bs)))
    ?_ ?_ ?_ ?_ ?_ ?_ ?_ ?_ ?_ ?_ g
  · intro cs idx h
    simp only [GeosGeom.NoEmptyPoint] at h
    obtain ⟨p, rfl⟩ := List.length_eq_one_iff.mp h
    simp only [geosGeomN, geosPoint, bind_eq, run_emitEv_bind]
    rw [run_bind_ok (run_geosCoordSeq multi [p] 0 bs)]
    simp [GeosGeom.denote, Geom.events, GSeq.coords, evList, coordEvs]
  · intro ps idx h
    simp only [GeosGeom.NoEmptyPoint] at h
    simp only [geosGeomN, geosPoint, bind_eq, run_emitEv_bind]
    rw [run_bind_ok (run_forIdx (f := fun i p => evList (coordEvs multi) i (GSeq.coords p)) ps
      (fun i p _ bs => run_geosCoordSeq multi p i bs) 0 bs)]
    have key : ∀ (ps : List GSeq) (i : Nat), (∀ p ∈ ps, p.length = 1) →
        evList (fun i p => evList (coordEvs multi) i (GSeq.coords p)) i ps =
          evList (coordEvs multi) i (ps.flatMap GSeq.coords) ∧ (ps.flatMap GSeq.coords).length = ps.length := by
      intro ps
      induction ps with
      | nil => simp [evList]
      | cons p ps ih =>
        intro i h
        obtain ⟨c, rfl⟩ := List.length_eq_one_iff.mp (h p (by simp))
        obtain ⟨h1, h2⟩ := ih (i + 1) fun p hp => h p (by simp [hp])
        simp only [GSeq.coords, List.map_cons, List.map_nil] at h1 h2
        simp only [evList, GSeq.coords, List.map_cons, List.map_nil, List.flatMap_cons, List.singleton_append,
          List.append_nil, List.length_cons]
        exact ⟨by rw [h1], by rw [h2]⟩
    obtain ⟨h1, h2⟩ := key ps 0 h
    simp [GeosGeom.denote, Geom.events, bracket, h1, h2]
  · intro cs idx _
    simpa [geosGeomN, GeosGeom.denote, Geom.events] using run_geosLinestring multi true cs idx bs
  · intro cs idx _
    simpa [geosGeomN, GeosGeom.denote, Geom.events] using run_geosLinestring multi true cs idx bs
  · intro ls idx _
    simp only [geosGeomN, bind_eq, run_emitEv_bind]
    rw [run_bind_ok (run_forIdx (f := fun i l => lineEvs multi false i (GSeq.coords l)) ls
      (fun i l _ bs => run_geosLinestring multi false l i bs) 0 bs)]
    simp [GeosGeom.denote, Geom.events, bracket, evList_map]
  · intro e is idx _
    simpa [geosGeomN, GeosGeom.denote, Geom.events] using run_geosPolygon multi true e is idx bs
  · intro ps idx _
    simp only [geosGeomN, bind_eq, run_emitEv_bind]
    rw [run_bind_ok (run_forIdx (f := fun i (p : GSeq × List GSeq) => polyEvs multi false i ((p.1 :: p.2).map GSeq.coords)) ps
      (fun i p _ bs => run_geosPolygon multi false p.1 p.2 i bs) 0 bs)]
    simp [GeosGeom.denote, Geom.events, bracket, evList_map]
  · intro gs ih idx h
    simp only [GeosGeom.NoEmptyPoint] at h
    simp only [geosGeomN, bind_eq, run_emitEv_bind]
    rw [run_bind_ok (ih 0 h)]
    have hl : ∀ gs : List GeosGeom, (GeosGeom.denoteList gs).length = gs.length := by
      intro gs
      induction gs with
      | nil => rfl
      | cons g gs ih => simp [GeosGeom.denoteList, ih]
    simp [GeosGeom.denote, Geom.events, hl]
  · intro i _
    rfl
  · intro g gs ihg ihl i h
    simp only [GeosGeom.NoEmptyPointList] at h
    simp only [geosMembers]
    rw [run_bind_ok (ihg i h.1), ihl (i + 1) h.2]
    simp [GeosGeom.denoteList, eventsList]

/-! ### writer -/

namespace GeosWriter

theorem feed_coords_fill (lib : GeosLib) (w : GeosWriter) (done : List GPos) (cs : List Coord) (pre : List GSeq) :
    feed (step lib) { w with cs := pre ++ [done ++ List.replicate cs.length lib.fresh] }
        (evList (coordEvs false) done.length cs) =
      .ok { w with cs := pre ++ [done ++ cs.map Coord.gpos] } := by
  induction cs generalizing done with
  | nil => simp [evList, feed]
  | cons c cs ih =>
    have h := ih (done ++ [c.gpos])
    simp only [evList, coordEvs, coordEv, Bool.false_eq_true, if_false, List.singleton_append, feed_cons, step, xy,
      List.getLast?_concat, List.length_append, List.length_replicate, List.length_cons]
    rw [if_pos (by omega)]
    simp only [List.length_append, List.length_singleton, List.append_assoc, List.singleton_append] at h
    simp only [List.dropLast_concat, List.map_cons, List.replicate_succ]
    have e : (done ++ lib.fresh :: List.replicate cs.length lib.fresh)[done.length]! = lib.fresh := by simp
    rw [e, List.set_append_right _ _ (Nat.le_refl _)]
    simpa [Coord.gpos, GeosLib.fresh] using h

theorem feed_coords (lib : GeosLib) (w : GeosWriter) (pre : List GSeq) (hw : w.cs = pre) (n : Nat) (cs : List Coord)
    (hn : n % 2 ^ 32 = cs.length) :
    feed (step lib) (addSeq lib w n) (evList (coordEvs false) 0 cs) = .ok { w with cs := pre ++ [cs.map Coord.gpos] } := by
  have h := feed_coords_fill lib w [] cs pre
  simp only [List.nil_append, List.length_nil] at h
  simp only [addSeq, hw, hn, h]

theorem feed_lineU (lib : GeosLib) (w : GeosWriter) (i : Nat) (cs : List Coord) (h : cs.length < 2 ^ 32) :
    feed (step lib) w (lineEvs false false i cs) = .ok { w with cs := w.cs ++ [cs.map Coord.gpos] } := by
  simp only [lineEvs, bracket, feed_cons, step, gbegin, Bool.false_eq_true, if_false, feed_append]
  rw [feed_coords lib w w.cs rfl _ cs (Nat.mod_eq_of_lt h)]
  simp [feed, step, gend, linestringEnd]

theorem feed_linesU (lib : GeosLib) (ls : List (List Coord)) (h : ∀ l ∈ ls, l.length < 2 ^ 32) (i : Nat) (w : GeosWriter) :
    feed (step lib) w (evList (lineEvs false false) i ls) = .ok { w with cs := w.cs ++ ls.map (List.map Coord.gpos) } := by
  induction ls generalizing i w with
  | nil => simp [evList, feed]
  | cons l ls ih =>
    simp only [evList, feed_append]
    rw [feed_lineU lib w i l (h l (by simp))]
    simp only [ih (fun l hl => h l (by simp [hl]))]
    simp

/-- what a polygon delivers up to its end -/
theorem feed_polyBody (lib : GeosLib) (rs : List (List Coord)) (h : ∀ l ∈ rs, l.length < 2 ^ 32) (i : Nat) (w : GeosWriter)
    (tagged : Bool) :
    feed (step lib) w (polyEvs false tagged i rs) =
      polygonEnd lib { w with cs := rs.map (List.map Coord.gpos) } tagged := by
  simp only [polyEvs, bracket, feed_cons, step, gbegin, feed_append]
  rw [feed_linesU lib rs h 0 _]
  simp only [feed, step, gend, List.nil_append]
  cases polygonEnd lib _ tagged <;> rfl

theorem polygonEnd_ok (lib : GeosLib) (w : GeosWriter) (rs : List (List Coord)) (hne : rs ≠ []) (ha : lib.acceptsPoly rs)
    (tagged : Bool) : polygonEnd lib { w with cs := rs.map (List.map Coord.gpos) } tagged =
      .ok (if tagged then setGeom { w with cs := [] } (.polygon ((rs.headD []).map Coord.gpos) (rs.tail.map (List.map Coord.gpos)))
        else { w with cs := [], polys := w.polys ++ [((rs.headD []).map Coord.gpos, rs.tail.map (List.map Coord.gpos))] }) := by
  cases rs with
  | nil => exact absurd rfl hne
  | cons e is =>
    obtain ⟨h1, h2⟩ := ha
    simp only [List.headD_cons, List.tail_cons] at h2
    have h3 : (is.map (List.map Coord.gpos)).all lib.ringOk = true := by
      simp only [List.all_map, List.all_eq_true, Function.comp]
      intro r hr
      exact h1 r (by simp [hr])
    simp only [polygonEnd, List.map_cons, h1 e (by simp), h2, h3, Bool.and_self, if_true, List.headD_cons, List.tail_cons]
    cases tagged <;> simp

theorem polygonEnd_err (lib : GeosLib) (w : GeosWriter) (rs : List (List Coord)) (h : rs = [] ∨ ¬ lib.acceptsPoly rs)
    (tagged : Bool) : ∃ e, polygonEnd lib { w with cs := rs.map (List.map Coord.gpos) } tagged = .error e ∧
      (e = missing ∨ e = lib.err) := by
  cases rs with
  | nil => exact ⟨_, rfl, .inl rfl⟩
  | cons e is =>
    rcases h with h | h
    · cases h
    refine ⟨lib.err, ?_, .inr rfl⟩
    simp only [polygonEnd, List.map_cons]
    rw [if_neg]
    intro hc
    apply h
    simp only [Bool.and_eq_true, List.all_map, List.all_eq_true, Function.comp] at hc
    refine ⟨?_, hc.2⟩
    intro r hr
    rcases List.mem_cons.mp hr with rfl | hr
    · exact hc.1.1
    · exact hc.1.2 r hr

theorem feed_polysU (lib : GeosLib) (ps : List (List (List Coord))) (hs : ∀ rs ∈ ps, ∀ l ∈ rs, l.length < 2 ^ 32)
    (ha : ∀ rs ∈ ps, rs ≠ [] ∧ lib.acceptsPoly rs) (i : Nat) (w : GeosWriter) :
    ∃ cs, feed (step lib) w (evList (polyEvs false false) i ps) =
      .ok { w with cs := cs, polys := (w.polys ++
        ps.map fun rs => ((rs.headD []).map Coord.gpos, rs.tail.map (List.map Coord.gpos))) } := by
  induction ps generalizing i w with
  | nil => exact ⟨w.cs, by simp [evList, feed]⟩
  | cons rs ps ih =>
    obtain ⟨hne, hacc⟩ := ha rs (by simp)
    simp only [evList, feed_append]
    rw [feed_polyBody lib rs (hs rs (by simp)) i w false, polygonEnd_ok lib w rs hne hacc false]
    obtain ⟨cs, h⟩ := ih (fun rs h => hs rs (by simp [h])) (fun rs h => ha rs (by simp [h])) (i + 1)
      { w with cs := [], polys := w.polys ++ [((rs.headD []).map Coord.gpos, rs.tail.map (List.map Coord.gpos))] }
    refine ⟨cs, ?_⟩
    simp only [Bool.false_eq_true, if_false]
    rw [h]
    simp

theorem feed_polysU_err (lib : GeosLib) (ps : List (List (List Coord))) (hs : ∀ rs ∈ ps, ∀ l ∈ rs, l.length < 2 ^ 32)
    (ha : ¬ ∀ rs ∈ ps, rs ≠ [] ∧ lib.acceptsPoly rs) (i : Nat) (w : GeosWriter) :
    ∃ e, feed (step lib) w (evList (polyEvs false false) i ps) = .error e ∧ (e = missing ∨ e = lib.err) := by
  induction ps generalizing i w with
  | nil => exact absurd (by simp) ha
  | cons rs ps ih =>
    simp only [evList, feed_append]
    rw [feed_polyBody lib rs (hs rs (by simp)) i w false]
    by_cases hc : rs ≠ [] ∧ lib.acceptsPoly rs
    · rw [polygonEnd_ok lib w rs hc.1 hc.2 false]
      apply ih (fun rs h => hs rs (by simp [h]))
      intro hall
      apply ha
      intro r hr
      rcases List.mem_cons.mp hr with rfl | hr
      · exact hc
      · exact hall r hr
    · have : rs = [] ∨ ¬ lib.acceptsPoly rs := by
        by_cases h1 : rs = []
        · exact .inl h1
        · exact .inr fun h2 => hc ⟨h1, h2⟩
      obtain ⟨e, h1, h2⟩ := polygonEnd_err lib w rs this false
      exact ⟨e, by rw [h1], h2⟩

/-- a geometry of one of the basic kinds the library accepts -/
theorem feed_geom (lib : GeosLib) (g : Geom) (t : GeosGeom) (hg : g.geos = some t) (ha : lib.accepts g) (hs : g.Short)
    (i : Nat) (w : GeosWriter) :
    ∃ w', feed (step lib) w (g.events false i) = .ok w' ∧ w'.geom = t ∧ w'.geomSrid = w.srid.getD 0 ∧ w'.srid = w.srid := by
  cases g with
  | point c =>
    cases hg
    refine ⟨setGeom { w with cs := [] } (.point [c.gpos]), ?_, rfl, rfl, rfl⟩
    have h := feed_coords lib { w with cs := [] } [] rfl 1 [c] rfl
    simp only [evList, coordEvs, List.append_nil] at h
    have e : Geom.events false i (.point c) = .gbegin .point true 1 i :: ([coordEv false c 0] ++ [.gend .point true i]) := by
      simp [Geom.events]
    rw [e]
    simp only [feed_cons, step, gbegin, feed_append, h]
    simp [feed, step, gend, pointEnd]
  | multiPoint cs =>
    cases hg
    refine ⟨setGeom { w with cs := [] } (.multiPoint (cs.map fun c => [c.gpos])), ?_, rfl, rfl, rfl⟩
    simp only [Geom.events, bracket, feed_cons, step, gbegin, feed_append]
    rw [feed_coords lib { w with cs := [] } [] rfl _ cs (Nat.mod_eq_of_lt hs)]
    simp [feed, step, gend, multipointEnd, Coord.gpos, Function.comp_def]
  | lineString cs =>
    cases hg
    refine ⟨setGeom { w with cs := [] } (.lineString (cs.map Coord.gpos)), ?_, rfl, rfl, rfl⟩
    simp only [Geom.events, lineEvs, bracket, feed_cons, step, gbegin, if_true, feed_append]
    rw [feed_coords lib { w with cs := [] } [] rfl _ cs (Nat.mod_eq_of_lt hs)]
    simp only [GeosLib.accepts] at ha
    simp [feed, step, gend, linestringEnd, ha]
  | multiLineString ls =>
    cases hg
    refine ⟨setGeom { w with cs := [] } (.multiLineString (ls.map (List.map Coord.gpos))), ?_, rfl, rfl, rfl⟩
    simp only [Geom.events, bracket, feed_cons, step, gbegin, feed_append]
    rw [feed_linesU lib ls hs 0 _]
    have : (ls.map (List.map Coord.gpos)).all lib.lineOk = true := by
      simpa only [List.all_map, List.all_eq_true, Function.comp, GeosLib.accepts] using ha
    simp [feed, step, gend, multilinestringEnd, this]
  | polygon rs =>
    cases rs with
    | nil => cases hg
    | cons e is =>
      cases hg
      refine ⟨setGeom { w with cs := [] } (.polygon (e.map Coord.gpos) (is.map (List.map Coord.gpos))), ?_, rfl, rfl, rfl⟩
      simp only [Geom.events]
      rw [feed_polyBody lib (e :: is) hs i w true, polygonEnd_ok lib w (e :: is) (by simp) ha true]
      simp
  | multiPolygon ps =>
    simp only [Geom.geos] at hg
    split at hg
    · rename_i hne
      cases hg
      have hne' : ∀ rs ∈ ps, rs ≠ [] := by simpa [List.all_eq_true] using hne
      obtain ⟨cs, h⟩ := feed_polysU lib ps hs (fun rs hr => ⟨hne' rs hr, ha rs hr⟩) 0 { w with polys := [] }
      refine ⟨setGeom { w with cs := cs, polys := [] } (.multiPolygon (ps.map fun rs =>
        ((rs.headD []).map Coord.gpos, rs.tail.map (List.map Coord.gpos)))), ?_, rfl, rfl, rfl⟩
      simp only [Geom.events, bracket, feed_cons, step, gbegin, feed_append, h]
      simp [feed, step, gend, multipolygonEnd, setGeom]
    · cases hg
  | _ => cases hg

/-- a geometry of one of the basic kinds that is not accepted -/
theorem feed_geom_err (lib : GeosLib) (g : Geom) (hb : g.Basic) (hn : g.geos = none ∨ ¬ lib.accepts g) (hs : g.Short)
    (i : Nat) (w : GeosWriter) :
    ∃ e, feed (step lib) w (g.events false i) = .error e ∧ (e = missing ∨ e = lib.err) := by
  cases g with
  | point c => simp [Geom.geos, GeosLib.accepts] at hn
  | multiPoint cs => simp [Geom.geos, GeosLib.accepts] at hn
  | lineString cs =>
    simp only [Geom.geos, GeosLib.accepts, reduceCtorEq, false_or] at hn
    refine ⟨lib.err, ?_, .inr rfl⟩
    simp only [Geom.events, lineEvs, bracket, feed_cons, step, gbegin, if_true, feed_append]
    rw [feed_coords lib { w with cs := [] } [] rfl _ cs (Nat.mod_eq_of_lt hs)]
    simp [feed, step, gend, linestringEnd, hn]
  | multiLineString ls =>
    simp only [Geom.geos, GeosLib.accepts, reduceCtorEq, false_or] at hn
    refine ⟨lib.err, ?_, .inr rfl⟩
    simp only [Geom.events, bracket, feed_cons, step, gbegin, feed_append]
    rw [feed_linesU lib ls hs 0 _]
    have : ¬ (ls.map (List.map Coord.gpos)).all lib.lineOk = true := by
      simpa only [List.all_map, List.all_eq_true, Function.comp] using hn
    simp only [feed, step, gend, multilinestringEnd, List.nil_append]
    rw [if_neg this]
  | polygon rs =>
    have : rs = [] ∨ ¬ lib.acceptsPoly rs := by
      cases rs with
      | nil => exact .inl rfl
      | cons e is => simpa [Geom.geos, GeosLib.accepts] using hn
    simp only [Geom.events]
    rw [feed_polyBody lib rs hs i w true]
    exact polygonEnd_err lib w rs this true
  | multiPolygon ps =>
    have : ¬ ∀ rs ∈ ps, rs ≠ [] ∧ lib.acceptsPoly rs := by
      intro hall
      rcases hn with hn | hn
      · simp only [Geom.geos] at hn
        split at hn
        · cases hn
        · rename_i hx
          apply hx
          simpa [List.all_eq_true] using fun rs hr => (hall rs hr).1
      · exact hn fun rs hr => (hall rs hr).2
    obtain ⟨e, h1, h2⟩ := feed_polysU_err lib ps hs this 0 { w with polys := [] }
    refine ⟨e, ?_, h2⟩
    simp only [Geom.events, bracket, feed_cons, step, gbegin, feed_append, h1]
  | _ => exact absurd hb (by simp [Geom.Basic])

end GeosWriter

end Geozero
