import Verif.Model.ShpOpen
import Verif.Spec.ShpOpen
import Verif.Props.ShpFile
import Verif.Lemmas.ShpReserve

/-
C78: opening a shapefile by its path.
-/

namespace Geozero
open Spec
open MProg (ofProg)

theorem run_of_silent {α : Type} {p : Prog α} (h : p.Silent) (multi multi' : Bool) (bs : List Byte) :
    Prog.run multi p bs = Prog.run multi' p bs ∧ (Prog.run multi p bs).1 = [] := by
  have h1 := MProg.run_erase (ofProg p) multi bs
  have h2 := MProg.run_erase (ofProg p) multi' bs
  rw [MProg.erase_ofProg h] at h1 h2
  rw [h1, h2]
  exact ⟨rfl, rfl⟩

theorem run_readI32_exact (multi : Bool) (e : Endian) (bs : List Byte) :
    Prog.run multi (Prog.readI32 e) bs = ([], if 4 ≤ bs.length then .ok (i32At e 0 bs, bs.drop 4) else .error .io) := by
  unfold Prog.readI32
  rw [Prog.run_bind, run_readN_any]
  by_cases h : 4 ≤ bs.length
  · rw [if_pos h, if_pos h]; rfl
  · rw [if_neg h, if_neg h]; rfl

/-- the entries of an index file, from the first of them -/
theorem run_indexEntries (multi : Bool) (n : Nat) (bs : List Byte) :
    Prog.run multi (readIndexEntries n) bs = ([], if 8 * n ≤ bs.length then
      .ok ((List.range n).map fun i => (i32At .be (8 * i) bs, i32At .be (8 * i + 4) bs), bs.drop (8 * n)) else .error .io) := by
  induction n generalizing bs with
  | zero => rfl
  | succ n ih =>
    simp only [readIndexEntries, Prog.bind_eq]
    rw [Prog.run_bind, run_readI32_exact]
    by_cases h4 : 4 ≤ bs.length
    · rw [if_pos h4]
      simp only [Prog.andThen, Prog.run_bind, run_readI32_exact, List.length_drop]
      by_cases h8 : 4 ≤ bs.length - 4
      · rw [if_pos h8]
        simp only [Prog.andThen, Prog.run_bind, ih, List.length_drop, List.drop_drop]
        by_cases hn : 8 * n ≤ bs.length - 4 - 4
        · rw [if_pos (by omega), if_pos (by omega)]
          simp only [Prog.run, List.nil_append, Prod.mk.injEq, Except.ok.injEq, true_and]
          refine ⟨?_, by congr 1; omega⟩
          rw [List.range_succ_eq_map, List.map_cons, List.map_map]
          simp only [i32At_drop, List.cons.injEq, Nat.mul_zero, Nat.zero_add, Nat.add_zero, true_and]
          refine List.map_congr_left fun i _ => ?_
          simp only [Function.comp_apply]
          rw [show 4 + 4 + 8 * i = 8 * (i + 1) by omega, show 4 + 4 + (8 * i + 4) = 8 * (i + 1) + 4 by omega]
        · rw [if_neg (by omega), if_neg (by omega)]; rfl
      · rw [if_neg h8, if_neg (by omega)]; rfl
    · rw [if_neg h4, if_neg (by omega)]; rfl

/-- What becomes of an index file. -/
theorem run_indexFile (multi : Bool) (bs : List Byte) :
    (IndexAccepted bs → ∃ rest, Prog.run multi readIndexFile bs = ([], .ok ((List.range (indexEntries bs)).map fun i =>
      (i32At .be (100 + 8 * i) bs, i32At .be (104 + 8 * i) bs), rest))) ∧
    (¬ IndexAccepted bs → ∃ e, Prog.run multi readIndexFile bs = ([], .error e)) := by
  have hsil : (Prog.run multi readIndexFile bs).1 = [] := by
    rw [← erase_mReadIndexFile, MProg.run_erase]
  have key : ∀ r, (Prog.run multi readIndexFile bs).2 = r → Prog.run multi readIndexFile bs = ([], r) := by
    rintro r rfl
    rw [← hsil]
  by_cases ha : HeaderAccepted bs
  · by_cases hw : i32At .be 24 bs < 47 ∨ 2 ^ 30 ≤ i32At .be 24 bs
    · obtain ⟨m, hm⟩ := (C42_index_panics_iff multi bs).mpr ⟨ha, hw⟩
      exact ⟨fun h => by have := h.2.1; have := h.2.2.1; omega, fun _ => ⟨_, key _ hm⟩⟩
    · obtain ⟨h, rest, hr, hl, rfl⟩ := reads_header multi bs ha
      have heq : Prog.run multi readIndexFile bs =
          Prog.run multi (readIndexEntries (indexEntries bs)) (bs.drop 100) := by
        unfold readIndexFile
        simp only [Prog.bind_eq]
        rw [Prog.run_bind_ok_nil hr, doubleI32, hl, if_pos (by omega)]
        simp only [Prog.ret_bind]
        have ht : (i32At .be 24 bs * 2 - 100).tdiv 8 = (indexEntries bs : Int) := by
          unfold indexEntries
          by_cases h50 : 50 ≤ i32At .be 24 bs
          · rw [Int.tdiv_eq_ediv_of_nonneg (by omega)]; omega
          · have : i32At .be 24 bs = 47 ∨ i32At .be 24 bs = 48 ∨ i32At .be 24 bs = 49 := by omega
            rcases this with h | h | h <;> rw [h] <;> rfl
        have hb : indexEntries bs < 2 ^ 29 := by unfold indexEntries; omega
        rw [ht, if_neg (by omega), if_neg (by unfold i32AsUsize; omega)]
        rfl
      rw [heq, run_indexEntries, List.length_drop]
      constructor
      · intro h
        rw [if_pos (by have := h.2.2.2; omega)]
        refine ⟨(bs.drop 100).drop (8 * indexEntries bs), ?_⟩
        simp only [i32At_drop, Prod.mk.injEq, Except.ok.injEq, and_true, true_and]
        refine List.map_congr_left fun i _ => ?_
        rw [show 100 + (8 * i + 4) = 104 + 8 * i by omega]
      · intro h
        refine ⟨.io, ?_⟩
        have := ha.1
        rw [if_neg fun hc => h ⟨ha, by omega, by omega, by omega⟩]
  · refine ⟨fun h => absurd h.1 ha, fun _ => ?_⟩
    rcases hr : Prog.run multi readShpHeader bs with ⟨evs, e | ⟨h, rest⟩⟩
    · refine ⟨e, ?_⟩
      have h0 := (run_of_silent silent_readShpHeader multi multi bs).2
      rw [hr] at h0
      simp only at h0
      subst h0
      unfold readIndexFile
      simp only [Prog.bind_eq]
      rw [Prog.run_bind, hr]
      rfl
    · exact absurd ((C42_header_accepted_iff multi bs).mp ⟨h, rest, by
        rw [hr]
        have h0 := (run_of_silent silent_readShpHeader multi multi bs).2
        rw [hr] at h0
        simp only at h0
        subst h0
        rfl⟩) ha

/-! ### the paths of the companions -/

theorem fileName_dir (dir name : Text) (hd : dir = [] ∨ ∃ d, dir = d ++ ['/']) (hn : '/' ∉ name) : fileName (dir ++ name) = name := by
  have hall : ∀ x ∈ name.reverse, decide (x ≠ '/') = true := by
    intro x hx
    simp only [decide_eq_true_eq]
    rintro rfl
    exact hn (List.mem_reverse.mp hx)
  unfold fileName
  rw [List.reverse_append, List.takeWhile_append_of_pos hall]
  rcases hd with rfl | ⟨d, rfl⟩
  · simp
  · simp

/-- The companions of `dir/stem.ext` are `dir/stem.shx` and `dir/stem.dbf`: whatever the directory, however many dots the name has. -/
theorem C78_companion_paths (dir stem ext : Text) (hd : dir = [] ∨ ∃ d, dir = d ++ ['/']) (hs : '/' ∉ stem) (hs0 : stem ≠ [])
    (he : '/' ∉ ext) (he' : '.' ∉ ext) (hdots : stem ++ '.' :: ext ≠ ['.', '.']) (new : Text) :
    withExtension (dir ++ (stem ++ '.' :: ext)) new = dir ++ (stem ++ '.' :: new) := by
  have hn : '/' ∉ stem ++ '.' :: ext := by
    simp only [List.mem_append, List.mem_cons]
    rintro (h | h | h)
    · exact hs h
    · cases h
    · exact he h
  unfold withExtension
  simp only [fileName_dir dir _ hd hn]
  have hlen : stem.length ≠ 0 := fun h => hs0 (List.eq_nil_of_length_eq_zero h)
  rw [if_neg (by
    rintro (h | h | h)
    · simp at h
    · have := congrArg List.length h
      simp at this
      omega
    · exact hdots h)]
  have hall : ∀ x ∈ ext.reverse, decide (x ≠ '.') = true := by
    intro x hx
    simp only [decide_eq_true_eq]
    rintro rfl
    exact he' (List.mem_reverse.mp hx)
  have hdrop : (stem ++ '.' :: ext).reverse.dropWhile (fun x => decide (x ≠ '.')) = '.' :: stem.reverse := by
    rw [List.reverse_append, List.reverse_cons, List.append_assoc, List.dropWhile_append_of_pos hall]
    simp
  rw [hdrop]
  simp only [List.reverse_eq_nil_iff, hs0, if_false, List.reverse_reverse]
  have ht : (dir ++ (stem ++ '.' :: ext)).take ((dir ++ (stem ++ '.' :: ext)).length - (stem ++ '.' :: ext).length) = dir := by
    rw [List.length_append, Nat.add_sub_cancel, List.take_left]
  rw [ht, List.append_assoc]

example : withExtension (txt "a.b/c.tar.shp") (txt "dbf") = txt "a.b/c.tar.dbf" := by decide +kernel
example : withExtension (txt "data") (txt "dbf") = txt "data.dbf" := by decide +kernel

/-! ### opening -/

theorem exists_absent : FileEntry.absent.exists = false := rfl
theorem exists_locked : FileEntry.locked.exists = true := rfl
theorem exists_file (bs : List Byte) : (FileEntry.file bs).exists = true := rfl
theorem open_absent : FileEntry.absent.open = .error .io := rfl
theorem open_locked : FileEntry.locked.open = .error .io := rfl
theorem open_file (bs : List Byte) : (FileEntry.file bs).open = .ok bs := rfl

theorem new_cases (bs : List Byte) :
    (HeaderAccepted bs ∧ ∃ h, (∀ multi, Prog.run multi readShpHeader bs = ([], .ok (h, bs.drop 100))) ∧
      ShpReader.new bs = .ok { source := bs.drop 100, header := h }) ∨
    (¬ HeaderAccepted bs ∧ ∃ e, ShpReader.new bs = .error e ∧ e.isPanic = false) := by
  by_cases ha : HeaderAccepted bs
  · obtain ⟨h, rest, hr, -, rfl⟩ := reads_header false bs ha
    refine .inl ⟨ha, h, fun multi => ?_, ?_⟩
    · rw [(run_of_silent silent_readShpHeader multi false bs).1, hr]
    · unfold ShpReader.new
      rw [hr]
  · refine .inr ⟨ha, ?_⟩
    rcases hr : Prog.run false readShpHeader bs with ⟨evs, e | ⟨h, rest⟩⟩
    · refine ⟨e, by unfold ShpReader.new; rw [hr], ?_⟩
      exact C42_header_never_panics false bs e (by rw [hr])
    · refine absurd ((C42_header_accepted_iff false bs).mp ⟨h, rest, ?_⟩) ha
      have h0 := (run_of_silent silent_readShpHeader false false bs).2
      rw [hr] at h0
      simp only at h0
      subst h0
      exact hr

/-- the companion at a path, if there is one, is a file that `P` holds of -/
def Companion (e : FileEntry) (P : List Byte → Prop) : Prop := e = .absent ∨ ∃ bs, e = .file bs ∧ P bs

/-- Opening succeeds exactly if the `.shp` file is there and begins with an accepted header, the `.shx` file is not there or is an
accepted index, and the `.dbf` file is not there or is a table.  A companion that is missing is no error. -/
theorem C78_open_iff (lib : DbaseLib) (fs : FileTree) (path : Text) :
    (∃ r, ShpReader.fromPath lib fs path = .ok r) ↔
      (∃ shp, fs path = .file shp ∧ HeaderAccepted shp) ∧
      Companion (fs (withExtension path (txt "shx"))) IndexAccepted ∧
      Companion (fs (withExtension path (txt "dbf"))) (fun bs => ∃ t, lib.openTable bs = .ok t) := by
  unfold ShpReader.fromPath Companion
  cases hp : fs path with
  | absent => simp [open_absent, open_locked, open_file, bind, Except.bind]
  | locked => simp [open_absent, open_locked, open_file, bind, Except.bind]
  | file shp =>
    rcases new_cases shp with ⟨ha, h, -, hn⟩ | ⟨ha, e, hn, -⟩
    · simp only [open_absent, open_locked, open_file, bind, Except.bind, hn]
      have hidx : ∀ (r : ShpReader) bs, (IndexAccepted bs → ∃ i, ShpReader.addIndexSource r bs = .ok { r with index := some i }) ∧
          (¬ IndexAccepted bs → ∃ e, ShpReader.addIndexSource r bs = .error e) := by
        intro r bs
        unfold ShpReader.addIndexSource
        refine ⟨fun h => ?_, fun h => ?_⟩
        · obtain ⟨rest, hr⟩ := (run_indexFile false bs).1 h
          rw [hr]; exact ⟨_, rfl⟩
        · obtain ⟨e, hr⟩ := (run_indexFile false bs).2 h
          rw [hr]; exact ⟨_, rfl⟩
      have hdbf : ∀ (r : ShpReader), (∃ r', (if (fs (withExtension path (txt "dbf"))).exists = true then
            Except.bind (fs (withExtension path (txt "dbf"))).open (ShpReader.addDbfSource lib r)
            else Except.ok r) = .ok r') ↔
          (fs (withExtension path (txt "dbf")) = .absent ∨
            ∃ bs, fs (withExtension path (txt "dbf")) = .file bs ∧ ∃ t, lib.openTable bs = .ok t) := by
        intro r
        cases fs (withExtension path (txt "dbf")) with
        | absent => simp [exists_absent, exists_locked, exists_file]
        | locked => simp [exists_absent, exists_locked, exists_file, open_absent, open_locked, open_file, Except.bind]
        | file bs =>
          simp only [exists_absent, exists_locked, exists_file, if_true, open_absent, open_locked, open_file, ShpReader.addDbfSource, Except.bind]
          cases ht : lib.openTable bs with
          | error e => simp [ht]
          | ok t => simp [ht]
      have hshp : (∃ s, FileEntry.file shp = FileEntry.file s ∧ HeaderAccepted s) ↔ True := by simp [ha]
      rw [hshp, true_and]
      cases hx : fs (withExtension path (txt "shx")) with
      | absent =>
        simp only [exists_absent, exists_locked, exists_file, Bool.false_eq_true, if_false, true_or, true_and]
        exact hdbf _
      | locked => simp [exists_absent, exists_locked, exists_file, open_absent, open_locked, open_file]
      | file bs =>
        simp only [exists_absent, exists_locked, exists_file, if_true, open_absent, open_locked, open_file]
        by_cases hi : IndexAccepted bs
        · obtain ⟨i, h2⟩ := (hidx { source := shp.drop 100, header := h } bs).1 hi
          rw [h2]
          simp only [reduceCtorEq, FileEntry.file.injEq, false_or, exists_eq_left', hi, true_and]
          exact hdbf _
        · obtain ⟨e, h2⟩ := (hidx { source := shp.drop 100, header := h } bs).2 hi
          rw [h2]
          simp [hi]
    · simp [open_absent, open_locked, open_file, bind, Except.bind, hn, ha]

/-- what an open reader holds: the header and the rest of the `.shp` file, the entries of the `.shx` file, the table of the `.dbf` file -/
theorem open_fields {lib : DbaseLib} {fs : FileTree} {path : Text} {r : ShpReader} (hr : ShpReader.fromPath lib fs path = .ok r) :
    (∃ shp, fs path = .file shp ∧ (∀ multi, Prog.run multi readShpHeader shp = ([], .ok (r.header, shp.drop 100))) ∧
      r.source = shp.drop 100) ∧
    (r.index = match fs (withExtension path (txt "shx")) with
      | .file bs => some ((List.range (indexEntries bs)).map fun i => (i32At .be (100 + 8 * i) bs, i32At .be (104 + 8 * i) bs))
      | _ => none) ∧
    (match fs (withExtension path (txt "dbf")) with
      | .file bs => ∃ t, lib.openTable bs = .ok t ∧ r.table = some t
      | _ => r.table = none) := by
  obtain ⟨⟨shp, hp, ha⟩, hx, hd⟩ := (C78_open_iff lib fs path).mp ⟨r, hr⟩
  unfold ShpReader.fromPath at hr
  rcases new_cases shp with ⟨-, h, hm, hn⟩ | ⟨hna, _⟩
  · simp only [open_absent, open_locked, open_file, bind, Except.bind, hn, hp] at hr
    rcases hx with hx | ⟨bx, hx, hix⟩
    · simp only [hx, exists_absent, exists_locked, exists_file, Bool.false_eq_true, if_false] at hr
      rcases hd with hd | ⟨bd, hd, t, ht⟩
      · simp only [hd, exists_absent, Bool.false_eq_true, if_false, Except.ok.injEq] at hr
        subst hr
        simp only [hx, hd]
        exact ⟨⟨shp, hp, hm, rfl⟩, trivial, trivial⟩
      · simp only [hd, exists_file, open_file, if_true, ShpReader.addDbfSource, ht, Except.ok.injEq] at hr
        subst hr
        simp only [hx, hd]
        exact ⟨⟨shp, hp, hm, rfl⟩, trivial, t, ht, rfl⟩
    · obtain ⟨rest, hrun⟩ := (run_indexFile false bx).1 hix
      simp only [hx, exists_absent, exists_locked, exists_file, open_file, if_true, ShpReader.addIndexSource, hrun] at hr
      rcases hd with hd | ⟨bd, hd, t, ht⟩
      · simp only [hd, exists_absent, Bool.false_eq_true, if_false, Except.ok.injEq] at hr
        subst hr
        simp only [hx, hd]
        exact ⟨⟨shp, hp, hm, rfl⟩, trivial, trivial⟩
      · simp only [hd, exists_file, open_file, if_true, ShpReader.addDbfSource, ht, Except.ok.injEq] at hr
        subst hr
        simp only [hx, hd]
        exact ⟨⟨shp, hp, hm, rfl⟩, trivial, t, ht, rfl⟩
  · exact absurd ha hna

/-- The geometries delivered are those of the `.shp` file, to every processor, whatever the companions contain. -/
theorem C78_geometries {σ : Type} (lib : DbaseLib) (fs : FileTree) (path : Text) (r : ShpReader) (shp : List Byte) (ar : ShpArith)
    (P : FProc σ) (s : σ) (hr : ShpReader.fromPath lib fs path = .ok r) (hp : fs path = .file shp) :
    FProg.interp P (r.iterGeometries ar) s r.source = FProg.interp P (shpGeometries ar) s shp := by
  obtain ⟨⟨shp', hp', hm, hs⟩, -, -⟩ := open_fields hr
  rw [hp] at hp'
  cases hp'
  unfold shpGeometries
  rw [FProg.interp_bind, FProg.interp_lift_silent P _ s shp _ (hm _), hs]
  rfl

/-- The features delivered are those of the `.shp` file with the rows of the `.dbf` file. -/
theorem C78_features {σ : Type} (lib : DbaseLib) (fs : FileTree) (path : Text) (r : ShpReader) (shp dbf : List Byte) (t : DbfTable)
    (ar : ShpArith) (P : FProc σ) (s : σ) (hr : ShpReader.fromPath lib fs path = .ok r) (hp : fs path = .file shp)
    (hd : fs (withExtension path (txt "dbf")) = .file dbf) (ht : lib.openTable dbf = .ok t) :
    FProg.interp P (r.iterFeatures ar) s r.source = FProg.interp P (shpFeatures ar t.rows) s shp := by
  obtain ⟨⟨shp', hp', hm, hs⟩, -, htab⟩ := open_fields hr
  rw [hp] at hp'
  cases hp'
  rw [hd] at htab
  obtain ⟨t', ht', htab⟩ := htab
  rw [ht] at ht'
  cases ht'
  unfold shpFeatures ShpReader.iterFeatures
  rw [htab, FProg.interp_bind P (FProg.lift readShpHeader), FProg.interp_lift_silent P _ s shp _ (hm _), hs]
  rfl

/-- All records, and the names of all fields but the deletion flag. -/
theorem C78_records (lib : DbaseLib) (fs : FileTree) (path : Text) (r : ShpReader) (dbf : List Byte) (t : DbfTable)
    (hr : ShpReader.fromPath lib fs path = .ok r) (hd : fs (withExtension path (txt "dbf")) = .file dbf)
    (ht : lib.openTable dbf = .ok t) :
    (∀ rows : List ShpRow, t.rows = rows.map .ok → r.readRecords = .ok rows) ∧
    (∀ (rows : List ShpRow) e more, t.rows = rows.map .ok ++ .error e :: more → r.readRecords = .error e) ∧
    (∃ fields, r.dbfFields = .ok fields ∧ fields.Sublist t.fields ∧
      ∀ f, f ∈ fields ↔ f ∈ t.fields ∧ f.name ≠ txt "DeletionFlag") := by
  obtain ⟨-, -, htab⟩ := open_fields hr
  rw [hd] at htab
  obtain ⟨t', ht', htab⟩ := htab
  rw [ht] at ht'
  cases ht'
  unfold ShpReader.readRecords ShpReader.dbfFields
  rw [htab]
  refine ⟨fun rows h => ?_, fun rows e more h => ?_, _, rfl, List.filter_sublist, fun f => by simp⟩
  · simp only [h]
    clear h
    induction rows with
    | nil => rfl
    | cons x xs ih =>
      rw [List.map_cons, List.mapM_cons, ih]
      rfl
  · simp only [h]
    clear h
    induction rows with
    | nil => rfl
    | cons x xs ih =>
      rw [List.map_cons, List.cons_append, List.mapM_cons, ih]
      rfl

/-- Without a `.dbf` file geometries can be read, and everything else says what is missing, before any call. -/
theorem C78_missing_dbf {σ : Type} (lib : DbaseLib) (fs : FileTree) (path : Text) (r : ShpReader) (ar : ShpArith)
    (P : FProc σ) (s : σ) (hr : ShpReader.fromPath lib fs path = .ok r) (hd : fs (withExtension path (txt "dbf")) = .absent) :
    FProg.interp P (r.iterFeatures ar) s r.source = (s, [], .error (.shp "MissingDbf")) ∧
      r.readRecords = .error (.shp "MissingDbf") ∧ r.dbfFields = .error (.shp "MissingDbf") := by
  obtain ⟨-, -, htab⟩ := open_fields hr
  rw [hd] at htab
  unfold ShpReader.iterFeatures ShpReader.readRecords ShpReader.dbfFields
  rw [htab]
  exact ⟨rfl, rfl, rfl⟩

/-- The index file never changes what is delivered: with another accepted one, or none, everything is the same. -/
theorem C78_index_irrelevant {σ : Type} (lib : DbaseLib) (fs fs' : FileTree) (path : Text) (r r' : ShpReader) (ar : ShpArith)
    (P : FProc σ) (s : σ) (hr : ShpReader.fromPath lib fs path = .ok r) (hr' : ShpReader.fromPath lib fs' path = .ok r')
    (hp : fs path = fs' path) (hd : fs (withExtension path (txt "dbf")) = fs' (withExtension path (txt "dbf"))) :
    r.header = r'.header ∧ FProg.interp P (r.iterGeometries ar) s r.source = FProg.interp P (r'.iterGeometries ar) s r'.source ∧
      FProg.interp P (r.iterFeatures ar) s r.source = FProg.interp P (r'.iterFeatures ar) s r'.source := by
  obtain ⟨⟨shp, h1, h2, h3⟩, -, h4⟩ := open_fields hr
  obtain ⟨⟨shp', h1', h2', h3'⟩, -, h4'⟩ := open_fields hr'
  rw [← hp, h1] at h1'
  cases h1'
  have hh : r.header = r'.header := by
    have h5 := h2 false
    rw [h2' false] at h5
    simp only [Prod.mk.injEq, Except.ok.injEq, true_and] at h5
    exact h5.1.symm
  have ht : r.table = r'.table := by
    rw [← hd] at h4'
    cases he : fs (withExtension path (txt "dbf")) with
    | absent => rw [he] at h4 h4'; rw [h4, h4']
    | locked => rw [he] at h4 h4'; rw [h4, h4']
    | file b =>
      rw [he] at h4 h4'
      obtain ⟨t, ht, h4⟩ := h4
      obtain ⟨t', ht', h4'⟩ := h4'
      rw [ht] at ht'
      cases ht'
      rw [h4, h4']
  refine ⟨hh, ?_, ?_⟩
  · unfold ShpReader.iterGeometries
    rw [hh, h3, h3']
  · unfold ShpReader.iterFeatures
    rw [hh, h3, h3', ht]

/-- The entries of the index file are kept as they are. -/
theorem C78_index_entries (lib : DbaseLib) (fs : FileTree) (path : Text) (r : ShpReader) (shx : List Byte)
    (hr : ShpReader.fromPath lib fs path = .ok r) (hx : fs (withExtension path (txt "shx")) = .file shx) :
    r.index = some ((List.range (indexEntries shx)).map fun i => (i32At .be (100 + 8 * i) shx, i32At .be (104 + 8 * i) shx)) := by
  have := (open_fields hr).2.1
  rw [hx] at this
  exact this

/-- Opening panics exactly if the header of the `.shp` file is accepted and the index file announces less than 47 or at least 2^30 words. -/
theorem C78_open_panics_iff (lib : DbaseLib) (hlib : ∀ bs e, lib.openTable bs = .error e → e.isPanic = false) (fs : FileTree)
    (path : Text) :
    (∃ m, ShpReader.fromPath lib fs path = .error (.panic m)) ↔
      (∃ shp, fs path = .file shp ∧ HeaderAccepted shp) ∧ ∃ shx, fs (withExtension path (txt "shx")) = .file shx ∧ IndexPanics shx := by
  have hdbf : ∀ (r : ShpReader), ¬ ∃ m, (if (fs (withExtension path (txt "dbf"))).exists = true then
        Except.bind (fs (withExtension path (txt "dbf"))).open (ShpReader.addDbfSource lib r)
        else Except.ok r) = .error (.panic m) := by
    rintro r ⟨m, hm⟩
    cases he : fs (withExtension path (txt "dbf")) with
    | absent => simp [he, exists_absent, exists_locked, exists_file] at hm
    | locked => simp [he, exists_absent, exists_locked, exists_file, open_absent, open_locked, open_file, Except.bind] at hm
    | file bs =>
      simp only [he, exists_absent, exists_locked, exists_file, if_true, open_absent, open_locked, open_file, ShpReader.addDbfSource, Except.bind] at hm
      cases ht : lib.openTable bs with
      | error e =>
        rw [ht] at hm
        cases hm
        exact absurd (hlib _ _ ht) (by simp [Err.isPanic])
      | ok t => rw [ht] at hm; cases hm
  unfold ShpReader.fromPath
  cases hp : fs path with
  | absent => simp [open_absent, open_locked, open_file, bind, Except.bind]
  | locked => simp [open_absent, open_locked, open_file, bind, Except.bind]
  | file shp =>
    rcases new_cases shp with ⟨ha, h, -, hn⟩ | ⟨ha, e, hn, hne⟩
    · simp only [open_absent, open_locked, open_file, bind, Except.bind, hn]
      have hshp : (∃ s, FileEntry.file shp = FileEntry.file s ∧ HeaderAccepted s) ↔ True := by simp [ha]
      rw [hshp, true_and]
      cases hx : fs (withExtension path (txt "shx")) with
      | absent =>
        simp only [exists_absent, exists_locked, exists_file, Bool.false_eq_true, if_false, reduceCtorEq, false_and, exists_false, iff_false]
        exact hdbf _
      | locked => simp [exists_absent, exists_locked, exists_file, open_absent, open_locked, open_file]
      | file bs =>
        simp only [exists_absent, exists_locked, exists_file, if_true, open_absent, open_locked, open_file, FileEntry.file.injEq, exists_eq_left']
        have hiff : IndexPanics bs ↔ ∃ m, (Prog.run false readIndexFile bs).2 = .error (.panic m) :=
          (C42_index_panics_iff false bs).symm
        rw [hiff]
        unfold ShpReader.addIndexSource
        rcases hrun : Prog.run false readIndexFile bs with ⟨evs, e | ⟨i, rest⟩⟩
        · simp
        · simp only [reduceCtorEq, exists_false, iff_false]
          exact hdbf _
    · simp only [open_absent, open_locked, open_file, bind, Except.bind, hn]
      constructor
      · rintro ⟨m, hm⟩
        cases hm
        simp [Err.isPanic] at hne
      · rintro ⟨⟨s, hs, hh⟩, -⟩
        cases hs
        exact absurd hh ha

/-! ### what does not hold -/

/-- a header alone: no shapes -/
def bareHeader (words : Int) : List Byte := EsriHeader words 1000 1 (List.replicate 20 0) (List.replicate 8 0#64)

/-- a file system of one directory -/
def treeOf (files : List (Text × List Byte)) : FileTree := fun p =>
  match files.find? fun f => f.1 = p with
  | some f => .file f.2
  | none => .absent

/-- The index is not needed for anything, but a damaged one makes the file unreadable: one that is cut short is an error, one whose header
says 46 words a panic. -/
theorem C78_damaged_index_false (lib : DbaseLib) :
    (∃ r, ShpReader.fromPath lib (treeOf [(txt "a.shp", bareHeader 50)]) (txt "a.shp") = .ok r) ∧
    (∃ e, ShpReader.fromPath lib (treeOf [(txt "a.shp", bareHeader 50), (txt "a.shx", [])]) (txt "a.shp") = .error e) ∧
    ∃ m, ShpReader.fromPath lib (treeOf [(txt "a.shp", bareHeader 50), (txt "a.shx", bareHeader 46)]) (txt "a.shp") =
      .error (.panic m) := ⟨⟨_, rfl⟩, ⟨_, rfl⟩, ⟨_, rfl⟩⟩

/-- The companions of a file with an extension in capital letters are not found under such names: the table is there, and is missing. -/
theorem C78_capital_letters_false (lib : DbaseLib) (table : List Byte) :
    ∃ r, ShpReader.fromPath lib (treeOf [(txt "A.SHP", bareHeader 50), (txt "A.DBF", table)]) (txt "A.SHP") = .ok r ∧
      r.readRecords = .error (.shp "MissingDbf") := ⟨_, rfl, rfl⟩

/-- a shapefile without shapes, its index and its table: the hypotheses of the theorems above -/
example : ∃ r, ShpReader.fromPath ⟨fun _ => .ok ⟨[⟨txt "id", 'N', 4⟩], []⟩⟩
    (treeOf [(txt "d/a.shp", bareHeader 50), (txt "d/a.shx", bareHeader 50), (txt "d/a.dbf", [3])]) (txt "d/a.shp") = .ok r ∧
    r.readRecords = .ok [] ∧ r.dbfFields = .ok [⟨txt "id", 'N', 4⟩] ∧ r.index = some [] := ⟨_, rfl, rfl, rfl, rfl⟩

end Geozero
