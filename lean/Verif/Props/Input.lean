import Verif.Lemmas.Input
import Verif.Model.WkbReader

/-
C71: the result does not depend on how the input arrives, and an input that fails is reported.
-/

namespace Geozero

/-! ### readers of bytes -/

/-- A geometry reader (WKB in every dialect) on an input that arrives in pieces: the same calls, the same result, the same state of the
processor and the same bytes left as on the list of its bytes.  `Prog.seen` takes these from the run. -/
theorem C71_geometry_arrival {σ : Type} (fo : FOps) (d : WkbDialect) (P : Prog.Proc σ) (s : σ) (i : Input) :
    Prog.seen (Prog.interpOn P (processWkbTypeGeom fo d) s i) = Prog.interp P (processWkbTypeGeom fo d) s i.bytes :=
  Prog.interpOn_seen P _ s i

/-- So two inputs with the same bytes give the same. -/
theorem C71_same_bytes {σ : Type} (fo : FOps) (d : WkbDialect) (P : Prog.Proc σ) (s : σ) (i j : Input) (h : i.bytes = j.bytes) :
    Prog.seen (Prog.interpOn P (processWkbTypeGeom fo d) s i) = Prog.seen (Prog.interpOn P (processWkbTypeGeom fo d) s j) := by
  rw [C71_geometry_arrival, C71_geometry_arrival, h]

/-- An input that ends or fails too early: the calls are a beginning of the calls for the complete bytes, and the result is an I/O error
unless the reader needs no more, in which case nothing changes. -/
theorem C71_geometry_failing {σ : Type} (fo : FOps) (d : WkbDialect) (P : Prog.Proc σ) (s : σ) (i : Input) (more : List Byte) :
    let r := Prog.interpOn P (processWkbTypeGeom fo d) s i
    let full := Prog.interp P (processWkbTypeGeom fo d) s (i.bytes ++ more)
    r.2.1 <+: full.2.1 ∧ (r.2.2.1 = .error .io ∨ r.1 = full.1 ∧ r.2.1 = full.2.1 ∧ r.2.2.1 = full.2.2.map Prod.fst) := by
  intro r full
  have h1 := C71_geometry_arrival fo d P s i
  obtain ⟨h2, h3⟩ := Prog.interp_short P (processWkbTypeGeom fo d) s i.bytes more
  rw [← h1] at h2 h3
  refine ⟨h2, h3.imp (fun h => ?_) (fun h => ⟨h.1, h.2.1, ?_⟩)⟩
  · simp only [Prog.seen] at h
    split at h
    · cases h
    · cases h; assumption
  · rw [← h.2.2]
    simp only [Prog.seen, r]
    cases (Prog.interpOn P (processWkbTypeGeom fo d) s i).2.2.1 <;> rfl

/-- Numbers are read with one `read_exact` of their size; the model reads their bytes one by one.  Whatever reader follows, this makes no
difference. -/
theorem C71_numbers {α σ : Type} (P : Prog.Proc σ) (n : Nat) (k : List Byte → Prog α) (s : σ) (i : Input) :
    Prog.seen (Prog.interpOn P (Prog.bind (Prog.readN n) k) s i) =
      match i.readExact n with
      | (.ok bs, i') => Prog.seen (Prog.interpOn P (k bs) s i')
      | (.error e, i') => (s, [], .error e) := by
  have key : ∀ (n : Nat) (k : List Byte → Prog α) (bs : List Byte), Prog.interp P (Prog.bind (Prog.readN n) k) s bs =
      if n ≤ bs.length then Prog.interp P (k (bs.take n)) s (bs.drop n) else (s, [], .error .io) := by
    intro n
    induction n with
    | zero => intro k bs; simp [Prog.readN, Prog.bind]
    | succ n ih =>
      intro k bs
      cases bs with
      | nil => rfl
      | cons b bs =>
        simp only [Prog.readN, Prog.readByte, Prog.bind, Prog.bind_assoc, Prog.interp]
        rw [ih (fun l => k (b :: l)) bs]
        simp
  rw [Prog.interpOn_seen, key]
  split
  · rename_i h
    obtain ⟨i', h1, h2, h3⟩ := Input.readExact_ok h
    rw [h1]
    simp only
    rw [Prog.interpOn_seen, h2]
  · rename_i h
    obtain ⟨i', h1, h2, h3⟩ := Input.readExact_error (Nat.lt_of_not_le h)
    rw [h1]

/-- Shapefiles, geometries only. -/
theorem C71_shapefile_arrival {σ : Type} (ar : ShpArith) (P : FProc σ) (s : σ) (i : Input) :
    FProg.seen (FProg.interpOn P (shpGeometries ar) s i) = FProg.interp P (shpGeometries ar) s i.bytes :=
  FProg.interpOn_seen P _ s i

/-- Shapefiles with an attribute table. -/
theorem C71_shapefile_features_arrival {σ : Type} (ar : ShpArith) (rows : List (Except Err ShpRow)) (P : FProc σ) (s : σ) (i : Input) :
    FProg.seen (FProg.interpOn P (shpFeatures ar rows) s i) = FProg.interp P (shpFeatures ar rows) s i.bytes :=
  FProg.interpOn_seen P _ s i

/-- Shapefiles that end or fail too early, with or without attribute table. -/
theorem C71_shapefile_failing {σ : Type} (ar : ShpArith) (p : FProg Unit)
    (hp : p = shpGeometries ar ∨ ∃ rows, p = shpFeatures ar rows) (P : FProc σ) (s : σ) (i : Input) (more : List Byte) :
    let r := FProg.interpOn P p s i
    let full := FProg.interp P p s (i.bytes ++ more)
    r.2.1 <+: full.2.1 ∧ (r.2.2.1 = .error .io ∨ r.1 = full.1 ∧ r.2.1 = full.2.1 ∧ r.2.2.1 = full.2.2.map Prod.fst) := by
  intro r full
  have h1 := FProg.interpOn_seen P p s i
  obtain ⟨h2, h3⟩ := FProg.interp_short P p s i.bytes more
  rw [← h1] at h2 h3
  refine ⟨h2, h3.imp (fun h => ?_) (fun h => ⟨h.1, h.2.1, ?_⟩)⟩
  · simp only [FProg.seen] at h
    split at h
    · cases h
    · cases h; assumption
  · rw [← h.2.2]
    simp only [FProg.seen, r]
    cases (FProg.interpOn P p s i).2.2.1 <;> rfl

/-- a point arriving as 1, 3, 0 (interrupted twice) and 17 bytes, and an input that fails after 7 bytes -/
example (fo : FOps) :
    let bytes : List Byte := 1 :: 1 :: 0 :: 0 :: 0 :: List.replicate 16 0
    let count : Prog.Proc Nat := { step := fun n _ => .ok (n + 1), multi := fun _ => false }
    (∃ i', Prog.interpOn count (processWkbTypeGeom fo .wkb) 0 ⟨bytes, [.atMost 0, .atMost 2, .interrupted, .interrupted], true⟩ =
      (4, [.srid none, .gbegin .point true 1 0, .xy 0#64 0#64 0, .gend .point true 0], .ok (), i')) ∧
    (Prog.interpOn count (processWkbTypeGeom fo .wkb) 0 ⟨bytes.take 7, [.interrupted], true⟩).2.2.1 = .error .io := by
  intro bytes count
  refine ⟨⟨(Prog.interpOn count (processWkbTypeGeom fo .wkb) 0 ⟨bytes, [.atMost 0, .atMost 2, .interrupted, .interrupted], true⟩).2.2.2, ?_⟩, ?_⟩
  · have h := C71_geometry_arrival fo .wkb count 0 ⟨bytes, [.atMost 0, .atMost 2, .interrupted, .interrupted], true⟩
    have h2 : Prog.interp count (processWkbTypeGeom fo .wkb) 0 bytes =
      (4, [.srid none, .gbegin .point true 1 0, .xy 0#64 0#64 0, .gend .point true 0], .ok ((), [])) := by rfl
    rw [show (Input.mk bytes [.atMost 0, .atMost 2, .interrupted, .interrupted] true).bytes = bytes from rfl, h2] at h
    rcases hr : Prog.interpOn count (processWkbTypeGeom fo .wkb) 0 ⟨bytes, [.atMost 0, .atMost 2, .interrupted, .interrupted], true⟩ with ⟨a, b, c, d⟩
    rw [hr] at h
    simp only [Prog.seen, Prod.mk.injEq] at h ⊢
    obtain ⟨rfl, rfl, h⟩ := h
    cases c
    · cases h
    · trivial
  · have h := C71_geometry_arrival fo .wkb count 0 ⟨bytes.take 7, [.interrupted], true⟩
    have h2 : (Prog.interp count (processWkbTypeGeom fo .wkb) 0 (bytes.take 7)).2.2 = .error .io := by rfl
    have h3 := congrArg (·.2.2) h
    simp only at h3
    rw [h2] at h3
    simp only [Prog.seen] at h3
    split at h3
    · cases h3
    · cases h3; assumption

/-! ### readers of text -/

/-- Readers that read the whole text: any text, arriving in any way. -/
theorem C71_text_arrival (bufs : Nat → Nat) (t : Text) (plan : List Arrival)
    (wkt : Text → Except Err WktGeom) (gj : Text → Except Err GeoJsonValue) :
    readWkt bufs wkt ⟨utf8Bytes t, plan, false⟩ = processWktText wkt t ∧
    readGeoJsonOn bufs gj ⟨utf8Bytes t, plan, false⟩ = readGeoJson (gj t) ∧
    readGeoJsonGeomOn bufs gj ⟨utf8Bytes t, plan, false⟩ =
      (match gj t with
       | .error e => .fail e
       | .ok v => processGeoJsonGeom v) := by
  have h : Input.readToString bufs ⟨utf8Bytes t, plan, false⟩ = .ok t := by
    rw [Input.readToString, Input.readToEnd_spec, if_neg (by simp)]
    simp only [decodeUtf8_utf8Bytes]
  simp only [readWkt, readGeoJsonOn, readGeoJsonGeomOn, h]
  exact ⟨trivial, trivial, rfl⟩

/-- An input that fails, or is not UTF-8, is an I/O error before the first call. -/
theorem C71_text_failing (bufs : Nat → Nat) (i : Input) (h : i.fails = true ∨ ∀ t, i.bytes ≠ utf8Bytes t)
    (wkt : Text → Except Err WktGeom) (gj : Text → Except Err GeoJsonValue) :
    readWkt bufs wkt i = .fail .io ∧ readGeoJsonOn bufs gj i = .fail .io ∧ readGeoJsonGeomOn bufs gj i = .fail .io := by
  have h : Input.readToString bufs i = .error .io := by
    rw [Input.readToString, Input.readToEnd_spec]
    split
    · rename_i e he
      split at he
      · cases he; rfl
      · cases he
    · rename_i bs he
      split at he
      · cases he
      · rename_i hf
        cases he
        have h := h.resolve_left hf
        split
        · rfl
        · rename_i t ht
          exact absurd ((decodeUtf8_iff _ _).1 ht) (h t)
  simp only [readWkt, readGeoJsonOn, readGeoJsonGeomOn, h]
  exact ⟨trivial, trivial, trivial⟩

example : readWkt (fun _ => 31) (fun _ => .ok (.point none)) ⟨[0xC3, 0xA9], [.atMost 0, .interrupted], false⟩ = wktProcessGeom (.point none) :=
  (C71_text_arrival (fun _ => 31) ['é'] [.atMost 0, .interrupted] _ (fun _ => .error .io)).1

/-! ### lines of GeoJSON -/

/-- GeoJSON lines do not depend on the platform they were written on: whichever lines end in `\r\n` and whichever in `\n`, with or
without a line break after the last, it is the same lines that are read. -/
theorem C26_line_breaks (parse : Text → Except Err GeoJsonValue) (ls : List (Text × Bool)) (last : Text)
    (h : ∀ l ∈ ls, '\n' ∉ l.1 ∧ (l.2 = false → l.1.getLast? ≠ some '\r')) (hl : '\n' ∉ last) :
    readGeoJsonLinesText parse ((ls.map fun l => l.1 ++ if l.2 then ['\r', '\n'] else ['\n']).flatten ++ last) =
      readGeoJsonLines ((ls.map (·.1) ++ if last = [] then [] else [last]).map parse) := by
  have key : bufLines ((ls.map fun l => l.1 ++ if l.2 then ['\r', '\n'] else ['\n']).flatten ++ last) =
      ls.map (·.1) ++ if last = [] then [] else [last] := by
    induction ls with
    | nil => exact BufReader.bufLinesFrom_last [] last hl
    | cons l ls ih =>
      obtain ⟨l, b⟩ := l
      have h1 := h (l, b) (List.mem_cons_self ..)
      have ih := ih fun x hx => h x (List.mem_cons_of_mem _ hx)
      rw [List.map_cons, List.flatten_cons, List.map_cons, List.cons_append, ← ih]
      cases b with
      | true =>
        have := BufReader.bufLinesFrom_line [] (l ++ ['\r'])
          ((ls.map fun l => l.1 ++ if l.2 then ['\r', '\n'] else ['\n']).flatten ++ last) (by simpa using h1.1)
        simpa [bufLines] using this
      | false =>
        have := BufReader.bufLinesFrom_line [] l
          ((ls.map fun l => l.1 ++ if l.2 then ['\r', '\n'] else ['\n']).flatten ++ last) h1.1
        simpa [bufLines, h1.2 rfl] using this
  rw [readGeoJsonLinesText, key]

/-- a line ended the Windows way, one ended the Unix way, one that is not ended -/
example : bufLines (txt "a\r\nb\nc") = [txt "a", txt "b", txt "c"] := by decide +kernel

/-- Line-delimited GeoJSON, arriving in any way, with a buffer of any size. -/
theorem C71_lines_arrival (cap : Nat) (parse : Text → Except Err GeoJsonValue) (t : Text) (plan : List Arrival) :
    readGeoJsonLinesOn cap parse ⟨utf8Bytes t, plan, false⟩ = readGeoJsonLinesText parse t ∧
    readGeoJsonLineGeometriesOn cap parse ⟨utf8Bytes t, plan, false⟩ = readGeoJsonLineGeometries ((bufLines t).map parse) := by
  have h : BufReader.lines cap ⟨[], ⟨utf8Bytes t, plan, false⟩⟩ = (bufLines t).map .ok := BufReader.lines_ok cap t _ rfl rfl
  simp only [readGeoJsonLinesOn, readGeoJsonLineGeometriesOn, readGeoJsonLinesText, h, List.map_map]
  exact ⟨rfl, rfl⟩

theorem cuts_forIdx (xs : List (Except Err GeoJsonValue)) (n : Nat) (i : Nat) :
    FProg.Cuts .io (FProg.forIdx gjLineItem i xs) (FProg.forIdx gjLineItem i (xs.take n ++ [.error .io])) := by
  induction xs generalizing n i with
  | nil => rw [List.take_nil]; exact FProg.Cuts.fail _ _
  | cons x xs ih =>
    cases n with
    | zero => exact FProg.Cuts.fail _ _
    | succ n => exact FProg.Cuts.bind (FProg.Cuts.refl _ _) fun _ => ih n (i + 1)

theorem cuts_lineGeoms (xs : List (Except Err GeoJsonValue)) (n : Nat) (started : Bool) (i : Nat) :
    Prog.Cuts .io (gjLineGeoms started i xs) (gjLineGeoms started i (xs.take n ++ [.error .io])) := by
  induction xs generalizing n i started with
  | nil => rw [List.take_nil]; exact Prog.Cuts.fail _ _
  | cons x xs ih =>
    cases n with
    | zero => exact Prog.Cuts.fail _ _
    | succ n =>
      rw [List.take_succ_cons, List.cons_append]
      match x with
      | .error e => exact Prog.Cuts.refl _ _
      | .ok (.featureCollection _) => exact Prog.Cuts.refl _ _
      | .ok (.geometry g) => exact Prog.Cuts.bind (Prog.Cuts.refl _ _) fun s => ih n s (i + 1)
      | .ok (.feature f) =>
        simp only [gjLineGeoms]
        cases f.geometry with
        | none => exact ih n started (i + 1)
        | some g => exact Prog.Cuts.bind (Prog.Cuts.refl _ _) fun s => ih n s (i + 1)

/-- Line-delimited GeoJSON from an input that fails after some bytes of the text: the calls are a beginning of the calls for the whole
text, and the result is an I/O error unless an earlier line or the processor already ended it. -/
theorem C71_lines_failing {σ : Type} (cap : Nat) (parse : Text → Except Err GeoJsonValue) (t : Text) (pre post : List Byte)
    (h : utf8Bytes t = pre ++ post) (plan : List Arrival) (P : FProc σ) (s : σ) (bs : List Byte) :
    let r := FProg.interp P (readGeoJsonLinesOn cap parse ⟨pre, plan, true⟩) s bs
    let full := FProg.interp P (readGeoJsonLinesText parse t) s bs
    r.2.1 <+: full.2.1 ∧ (r = full ∨ r.2.2 = .error .io) := by
  intro r full
  obtain ⟨n, hn⟩ := BufReader.lines_failing cap t ⟨[], ⟨pre, plan, true⟩⟩ post h rfl
  have hr : readGeoJsonLinesOn cap parse ⟨pre, plan, true⟩ = readGeoJsonLines ((((bufLines t).map parse).take n) ++ [.error .io]) := by
    simp only [readGeoJsonLinesOn, hn, List.map_append, List.map_map, List.map_take]
    rfl
  have hc : FProg.Cuts .io (readGeoJsonLinesText parse t) (readGeoJsonLinesOn cap parse ⟨pre, plan, true⟩) := by
    rw [hr]
    exact FProg.Cuts.bind (FProg.Cuts.refl _ _) fun _ => FProg.Cuts.bind (cuts_forIdx _ n 0) fun _ => FProg.Cuts.refl _ _
  exact hc σ P s bs

/-- The same for the geometries of line-delimited GeoJSON. -/
theorem C71_line_geometries_failing {σ : Type} (cap : Nat) (parse : Text → Except Err GeoJsonValue) (t : Text) (pre post : List Byte)
    (h : utf8Bytes t = pre ++ post) (plan : List Arrival) (P : Prog.Proc σ) (s : σ) (bs : List Byte) :
    let r := Prog.interp P (readGeoJsonLineGeometriesOn cap parse ⟨pre, plan, true⟩) s bs
    let full := Prog.interp P (readGeoJsonLineGeometries ((bufLines t).map parse)) s bs
    r.2.1 <+: full.2.1 ∧ (r = full ∨ r.2.2 = .error .io) := by
  intro r full
  obtain ⟨n, hn⟩ := BufReader.lines_failing cap t ⟨[], ⟨pre, plan, true⟩⟩ post h rfl
  have hr : readGeoJsonLineGeometriesOn cap parse ⟨pre, plan, true⟩ =
      readGeoJsonLineGeometries ((((bufLines t).map parse).take n) ++ [.error .io]) := by
    simp only [readGeoJsonLineGeometriesOn, hn, List.map_append, List.map_map, List.map_take]
    rfl
  have hc : Prog.Cuts .io (readGeoJsonLineGeometries ((bufLines t).map parse)) (readGeoJsonLineGeometriesOn cap parse ⟨pre, plan, true⟩) := by
    rw [hr]
    exact Prog.Cuts.bind (cuts_lineGeoms _ n false 0) fun _ => Prog.Cuts.refl _ _
  exact hc σ P s bs

/-- two lines, the second one cut off, and the lines read from it -/
example : utf8Bytes ("{}\nxy".toList) = [123, 125, 10, 120] ++ [121] ∧
    BufReader.lines 1 ⟨[], ⟨[123, 125, 10, 120], [.atMost 0, .interrupted], true⟩⟩ = [.ok ['{', '}'], .error .io] := by
  refine ⟨by decide, ?_⟩
  obtain ⟨b', h1, h2, h3, -⟩ := BufReader.lines_line 1 ⟨[], ⟨[123, 125, 10, 120], [.atMost 0, .interrupted], true⟩⟩ ['{', '}'] [120] rfl (by decide)
  have hs := BufReader.readUntil_spec 1 b' []
  rw [h2, if_neg (by decide), if_pos h3] at hs
  rw [h1, if_neg (by decide), BufReader.lines]
  split
  · rename_i h; rw [h] at hs; cases hs; rfl
  · rename_i h; rw [h] at hs; cases hs

end Geozero
