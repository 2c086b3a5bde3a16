import Verif.Model.Output
import Verif.Model.Shp
import Verif.Model.GeoJson

/-
Inputs as `io::Read` delivers them: in pieces of any size, with interrupted reads, possibly failing.  The readers of the other
modules read from a list of bytes; here the same readers are run on such inputs, with the functions of the standard library they
use (`read_exact`, `read_to_string`, `BufReader`, `lines`).
-/

namespace Geozero

/-- what the next call of `read` does: `ErrorKind::Interrupted`, or at most `k + 1` bytes
(std; the readers of wkb_reader.rs:14-112, geojson_reader.rs:59, geojson_line_reader.rs:39, 81 take any `Read`) -/
inductive Arrival
  | interrupted
  | atMost (k : Nat)

/-- An `io::Read`: the bytes still to come, how they will come (when the plan is used up, as many at a time as the buffer takes), and
what comes after them, the end (`Ok(0)`) or an I/O error, again and again.
(std; the readers of wkb_reader.rs:14-112, geojson_reader.rs:59, geojson_line_reader.rs:39, 81 take any `Read`) -/
structure Input where
  bytes : List Byte
  plan : List Arrival := []
  fails : Bool := false

/-- the result of `read`: bytes (none at the end), interrupted, another error
(std; the readers of wkb_reader.rs:14-112, geojson_reader.rs:59, geojson_line_reader.rs:39, 81 take any `Read`) -/
inductive ReadResult
  | data (d : List Byte)
  | interrupted
  | failed

namespace Input

/-- at most `n` of the bytes
(std; the readers of wkb_reader.rs:14-112, geojson_reader.rs:59, geojson_line_reader.rs:39, 81 take any `Read`) -/
def give (i : Input) (n : Nat) (plan : List Arrival) : ReadResult × Input :=
  if i.bytes = [] then (if i.fails then .failed else .data [], { i with plan })
  else (.data (i.bytes.take n), { i with bytes := i.bytes.drop n, plan })

/-- `Read::read` with a buffer of `n` bytes
(std; the readers of wkb_reader.rs:14-112, geojson_reader.rs:59, geojson_line_reader.rs:39, 81 take any `Read`) -/
def read (i : Input) (n : Nat) : ReadResult × Input :=
  match i.plan with
  | .interrupted :: plan => (.interrupted, { i with plan })
  | .atMost k :: plan => i.give (min n (k + 1)) plan
  | [] => i.give n []

/-- everything that can still happen: used for termination
(std; the readers of wkb_reader.rs:14-112, geojson_reader.rs:59, geojson_line_reader.rs:39, 81 take any `Read`) -/
def size (i : Input) : Nat := i.plan.length + i.bytes.length

theorem read_interrupted {i i' : Input} {n : Nat} (h : i.read n = (.interrupted, i')) :
    i'.plan.length < i.plan.length ∧ i'.bytes = i.bytes ∧ i'.fails = i.fails := by
  obtain ⟨bs, plan, f⟩ := i
  match plan, h with
  | .interrupted :: plan, h => cases h; simp
  | .atMost k :: plan, h => simp only [read, give] at h; split at h <;> (try split at h) <;> cases h
  | [], h => simp only [read, give] at h; split at h <;> (try split at h) <;> cases h

theorem read_failed {i i' : Input} {n : Nat} (h : i.read n = (.failed, i')) :
    i.bytes = [] ∧ i.fails = true ∧ i'.bytes = [] ∧ i'.fails = true := by
  obtain ⟨bs, plan, f⟩ := i
  match plan, h with
  | .interrupted :: plan, h => cases h
  | .atMost k :: plan, h =>
    simp only [read, give] at h
    split at h
    · split at h
      · cases h; simp_all
      · cases h
    · cases h
  | [], h =>
    simp only [read, give] at h
    split at h
    · split at h
      · cases h; simp_all
      · cases h
    · cases h

theorem read_data {i i' : Input} {n : Nat} {d : List Byte} (hn : 0 < n) (h : i.read n = (.data d, i')) :
    i.bytes = d ++ i'.bytes ∧ d.length ≤ n ∧ i'.plan.length ≤ i.plan.length ∧ i'.fails = i.fails ∧
      (d = [] → i.bytes = [] ∧ i.fails = false) := by
  obtain ⟨bs, plan, f⟩ := i
  have key : ∀ m plan', 0 < m → m ≤ n → plan'.length ≤ plan.length → (⟨bs, plan, f⟩ : Input).give m plan' = (.data d, i') →
      bs = d ++ i'.bytes ∧ d.length ≤ n ∧ i'.plan.length ≤ plan.length ∧ i'.fails = f ∧ (d = [] → bs = [] ∧ f = false) := by
    intro m plan' hm hmn hp h
    simp only [give] at h
    split at h
    · rename_i hb
      have hb : bs = [] := hb
      subst hb
      split at h
      · cases h
      · cases h
        simp_all
    · rename_i hb
      simp only [Prod.mk.injEq, ReadResult.data.injEq] at h
      obtain ⟨rfl, rfl⟩ := h
      refine ⟨(List.take_append_drop m bs).symm, by simp; omega, hp, rfl, fun h => ?_⟩
      rcases List.take_eq_nil_iff.1 h with h | h
      · omega
      · exact absurd h hb
  match plan, h, key with
  | .interrupted :: plan, h, _ => cases h
  | .atMost k :: plan, h, key => exact key _ _ (by omega) (by omega) (by simp) h
  | [], h, key => exact key _ _ hn (Nat.le_refl _) (by simp) h

/-- `Read::read_exact` for a buffer of `n` bytes (the default method of the standard library): interrupted reads are repeated, the
end of the input is `UnexpectedEof` (std; behind `ioread_with`, wkb_reader.rs:195-318) -/
def readExact (n : Nat) (i : Input) : Except Err (List Byte) × Input :=
  if hn : n = 0 then (.ok [], i)
  else
    match h : i.read n with
    | (.interrupted, i') => readExact n i'
    | (.failed, i') => (.error .io, i')
    | (.data d, i') =>
      if hd : d = [] then (.error .io, i')
      else
        match readExact (n - d.length) i' with
        | (.ok ds, i'') => (.ok (d ++ ds), i'')
        | (.error e, i'') => (.error e, i'')
termination_by i.plan.length + n
decreasing_by
  · have := read_interrupted h; omega
  · have h1 := read_data (Nat.pos_of_ne_zero hn) h
    have : 0 < d.length := List.length_pos_iff.2 hd
    omega

/-- `Read::read_to_end`, with buffers of any sizes (`bufs`, at least 1)
(std; behind `read_to_string`, geojson_reader.rs:59) -/
def readToEnd (bufs : Nat → Nat) (i : Input) : Except Err (List Byte) × Input :=
  match h : i.read (bufs i.bytes.length + 1) with
  | (.interrupted, i') => readToEnd bufs i'
  | (.failed, i') => (.error .io, i')
  | (.data d, i') =>
    if hd : d = [] then (.ok [], i')
    else
      match readToEnd bufs i' with
      | (.ok ds, i'') => (.ok (d ++ ds), i'')
      | (.error e, i'') => (.error e, i'')
termination_by i.size
decreasing_by
  · have := read_interrupted h; simp only [size, this.2.1]; omega
  · have h1 := read_data (by omega) h
    have : 0 < d.length := List.length_pos_iff.2 hd
    simp only [size, h1.1, List.length_append]
    omega

end Input

/-- `String::from_utf8` (std; behind `read_to_string`, geojson_reader.rs:59) -/
def decodeUtf8 (bs : List Byte) : Option Text := (bs.toByteArray.utf8Decode?).map Array.toList

/-- `Read::read_to_string`: bytes that are not UTF-8 are an I/O error (`InvalidData`)
(std; called in geojson_reader.rs:59) -/
def Input.readToString (bufs : Nat → Nat) (i : Input) : Except Err Text :=
  match (i.readToEnd bufs).1 with
  | .error e => .error e
  | .ok bs =>
    match decodeUtf8 bs with
    | none => .error .io
    | some t => .ok t

/-- `BufReader`: the bytes in its buffer and the reader inside (std; geojson_line_reader.rs:39, 81) -/
structure BufReader where
  buf : List Byte := []
  inner : Input

namespace BufReader

/-- `fill_buf`, the buffer having a capacity of `cap + 1` bytes (std; behind `lines`, geojson_line_reader.rs:57, 84) -/
def fill (cap : Nat) (b : BufReader) : ReadResult × BufReader :=
  if b.buf = [] then
    match b.inner.read (cap + 1) with
    | (.data d, i) => (.data d, ⟨d, i⟩)
    | (r, i) => (r, ⟨[], i⟩)
  else (.data b.buf, b)

/-- everything that can still happen: used for termination
(no counterpart; for `BufReader`, geojson_line_reader.rs:39, 81) -/
def size (b : BufReader) : Nat := b.inner.size + b.buf.length

theorem fill_interrupted {cap : Nat} {b b' : BufReader} (h : b.fill cap = (.interrupted, b')) :
    b'.size < b.size ∧ b'.buf = [] ∧ b.buf = [] ∧ b'.inner.bytes = b.inner.bytes ∧ b'.inner.fails = b.inner.fails := by
  simp only [fill] at h
  split at h
  · rename_i hb
    split at h
    · cases h
    · rename_i r i hnd hr
      simp only [Prod.mk.injEq] at h
      obtain ⟨rfl, rfl⟩ := h
      have := Input.read_interrupted hr
      refine ⟨?_, rfl, hb, this.2⟩
      simp only [size, Input.size, this.2.1, hb, List.length_nil]
      omega
  · cases h

theorem fill_failed {cap : Nat} {b b' : BufReader} (h : b.fill cap = (.failed, b')) :
    b.buf = [] ∧ b.inner.bytes = [] ∧ b.inner.fails = true := by
  simp only [fill] at h
  split at h
  · rename_i hb
    split at h
    · cases h
    · rename_i r i hnd hr
      simp only [Prod.mk.injEq] at h
      obtain ⟨rfl, rfl⟩ := h
      have := Input.read_failed hr
      exact ⟨hb, this.1, this.2.1⟩
  · cases h

theorem fill_data {cap : Nat} {b b' : BufReader} {d : List Byte} (h : b.fill cap = (.data d, b')) :
    b'.buf = d ∧ b.buf ++ b.inner.bytes = d ++ b'.inner.bytes ∧ b'.inner.fails = b.inner.fails ∧ b'.size ≤ b.size ∧
      (d = [] → b.buf = [] ∧ b.inner.bytes = [] ∧ b.inner.fails = false) := by
  simp only [fill] at h
  split at h
  · rename_i hb
    split at h
    · rename_i d' i hr
      simp only [Prod.mk.injEq, ReadResult.data.injEq] at h
      obtain ⟨rfl, rfl⟩ := h
      have := Input.read_data (by omega) hr
      refine ⟨rfl, by rw [hb]; exact this.1, this.2.2.2.1, ?_, fun h => ⟨hb, this.2.2.2.2 h⟩⟩
      simp only [size, Input.size, this.1, hb, List.length_append, List.length_nil]
      omega
    · rename_i r i hnd hr
      simp only [Prod.mk.injEq] at h
      exact absurd h.1 (hnd d)
  · rename_i hb
    simp only [Prod.mk.injEq, ReadResult.data.injEq] at h
    obtain ⟨rfl, rfl⟩ := h
    exact ⟨rfl, rfl, rfl, Nat.le_refl _, fun h => absurd h hb⟩

/-- `read_until(b'\n', acc)` (`BufRead` of the standard library), `acc` being what has been read so far
(std; behind `lines`, geojson_line_reader.rs:57, 84) -/
def readUntil (cap : Nat) (b : BufReader) (acc : List Byte) : Except Err (List Byte) × BufReader :=
  match h : b.fill cap with
  | (.interrupted, b') => readUntil cap b' acc
  | (.failed, b') => (.error .io, b')
  | (.data d, b') =>
    if hd : d = [] then (.ok acc, b')
    else if 10 ∈ d then (.ok (acc ++ d.take (d.idxOf 10 + 1)), { b' with buf := d.drop (d.idxOf 10 + 1) })
    else readUntil cap { b' with buf := [] } (acc ++ d)
termination_by b.size
decreasing_by
  · exact (fill_interrupted h).1
  · have h1 := fill_data h
    have : 0 < d.length := List.length_pos_iff.2 hd
    simp only [size, h1.1, List.length_nil] at h1 ⊢
    omega

/-- `lines` without the line break: `\n`, and a `\r` before it (std; behind `lines`, geojson_line_reader.rs:57, 84) -/
def stripLine (t : Text) : Text :=
  if t.getLast? = some '\n' then
    (if t.dropLast.getLast? = some '\r' then t.dropLast.dropLast else t.dropLast)
  else t

theorem readUntil_size (cap : Nat) (b : BufReader) (acc : List Byte) :
    (readUntil cap b acc).2.size ≤ b.size ∧ ∀ l, (readUntil cap b acc).1 = .ok l → l ≠ acc → (readUntil cap b acc).2.size < b.size := by
  fun_induction readUntil cap b acc with
  | case1 b acc b' h ih =>
    have := (fill_interrupted h).1
    exact ⟨by omega, fun l hl hne => by have := ih.2 l hl hne; omega⟩
  | case2 b acc b' h =>
    refine ⟨?_, fun l hl => by cases hl⟩
    have h0 := fill_failed h
    simp only [fill, if_pos h0.1] at h
    split at h
    · cases h
    · rename_i r i hnd hr
      simp only [Prod.mk.injEq] at h
      obtain ⟨rfl, rfl⟩ := h
      have h2 := Input.read_failed hr
      simp only [size, Input.size, h2.1, h2.2.2.1, List.length_nil, Nat.add_zero, h0.1]
      obtain ⟨bu, bs, plan, f⟩ := b
      match plan, hr with
      | .interrupted :: plan, hr => cases hr
      | .atMost k :: plan, hr =>
        simp only [Input.read, Input.give] at hr
        split at hr
        · split at hr
          · cases hr; simp
          · cases hr
        · cases hr
      | [], hr =>
        simp only [Input.read, Input.give] at hr
        split at hr
        · split at hr
          · cases hr; simp
          · cases hr
        · cases hr
  | case3 b acc b' h =>
    have h1 := fill_data h
    exact ⟨h1.2.2.2.1, fun l hl hne => absurd (by cases hl; rfl) hne⟩
  | case4 b acc d b' h hd hmem =>
    have h1 := fill_data h
    have : 0 < d.length := List.length_pos_iff.2 hd
    simp only [size, h1.1, List.length_drop] at h1 ⊢
    exact ⟨by omega, fun l hl hne => by omega⟩
  | case5 b acc d b' h hd hmem ih =>
    have h1 := fill_data h
    have : 0 < d.length := List.length_pos_iff.2 hd
    have e : ({ b' with buf := [] } : BufReader).size + d.length = b'.size := by simp [size, h1.1]
    refine ⟨by omega, fun l hl hne => ?_⟩
    have := ih.1
    omega

/-- `BufRead::lines`, up to the first error (std; called in geojson_line_reader.rs:57, 84) -/
def lines (cap : Nat) (b : BufReader) : List (Except Err Text) :=
  match h : readUntil cap b [] with
  | (.error e, _) => [.error e]
  | (.ok l, b') =>
    if hl : l = [] then []
    else
      match decodeUtf8 l with
      | none => [.error .io]
      | some t => .ok (stripLine t) :: lines cap b'
termination_by b.size
decreasing_by
  have := (readUntil_size cap b []).2 l (by rw [h]) hl
  rw [h] at this
  exact this

end BufReader

namespace Prog

/-- A geometry reader on an input.  Every byte is read with `read_exact`; numbers are read with one `read_exact` for all their bytes,
which makes no difference (`C71_numbers`).  The last component is what is left of the input.
(e.g. wkb_reader.rs:115-165) -/
def interpOn {α σ : Type} (p : Proc σ) : Prog α → σ → Input → σ × List Ev × Except Err α × Input
  | ret a, s, i => (s, [], .ok a, i)
  | fail e, s, i => (s, [], .error e, i)
  | read k, s, i =>
    match i.readExact 1 with
    | (.ok bs, i') => interpOn p (k (bs.headD 0)) s i'
    | (.error e, i') => (s, [], .error e, i')
  | emit e k, s, i =>
    match p.step s e with
    | .error x => (s, [e], .error x, i)
    | .ok s' => ((interpOn p k s' i).1, e :: (interpOn p k s' i).2.1, (interpOn p k s' i).2.2)
  | askMulti k, s, i => interpOn p (k (p.multi s)) s i

end Prog

namespace FProg

/-- A feature reader on an input, as `Prog.interpOn`. (e.g. shp/reader.rs:43-92) -/
def interpOn {α σ : Type} (p : FProc σ) : FProg α → σ → Input → σ × List FEv × Except Err α × Input
  | ret a, s, i => (s, [], .ok a, i)
  | fail e, s, i => (s, [], .error e, i)
  | read k, s, i =>
    match i.readExact 1 with
    | (.ok bs, i') => interpOn p (k (bs.headD 0)) s i'
    | (.error e, i') => (s, [], .error e, i')
  | emit e k, s, i =>
    match p.step s e with
    | .error x => (s, [e], .error x, i)
    | .ok s' => ((interpOn p k s' i).1, e :: (interpOn p k s' i).2.1, (interpOn p k s' i).2.2)
  | emitOk e k, s, i =>
    match p.step s e with
    | .error x =>
      if x.isPanic then (s, [e], .error x, i)
      else ((interpOn p k (p.left s e) i).1, e :: (interpOn p k (p.left s e) i).2.1, (interpOn p k (p.left s e) i).2.2)
    | .ok s' => ((interpOn p k s' i).1, e :: (interpOn p k s' i).2.1, (interpOn p k s' i).2.2)
  | prop n name v k, s, i =>
    match p.step s (.prop n name v) with
    | .error x => (s, [.prop n name v], .error x, i)
    | .ok s' =>
      ((interpOn p (k (p.abort s (.prop n name v))) s' i).1,
        .prop n name v :: (interpOn p (k (p.abort s (.prop n name v))) s' i).2.1,
        (interpOn p (k (p.abort s (.prop n name v))) s' i).2.2)
  | ask k, s, i => interpOn p (k (p.multi s) (p.dims s)) s i

end FProg

/-! ### readers that take the whole text -/

/-- `read_wkt` (wkt_reader.rs:82-90) -/
def readWkt (bufs : Nat → Nat) (parse : Text → Except Err WktGeom) (i : Input) : Prog Unit :=
  match i.readToString bufs with
  | .error e => .fail e
  | .ok t => processWktText parse t

/-- `read_geojson` (geojson_reader.rs:57-62) -/
def readGeoJsonOn (bufs : Nat → Nat) (parse : Text → Except Err GeoJsonValue) (i : Input) : FProg Unit :=
  match i.readToString bufs with
  | .error e => .fail e
  | .ok t => readGeoJson (parse t)

/-- `read_geojson_geom` (geojson_reader.rs:73-82) -/
def readGeoJsonGeomOn (bufs : Nat → Nat) (parse : Text → Except Err GeoJsonValue) (i : Input) : Prog Unit :=
  match i.readToString bufs with
  | .error e => .fail e
  | .ok t =>
    match parse t with
    | .error e => .fail e
    | .ok v => processGeoJsonGeom v

/-- `line?.parse::<GeoJson>()?` (geojson_line_reader.rs:58, 85) -/
def parseLine (parse : Text → Except Err GeoJsonValue) : Except Err Text → Except Err GeoJsonValue
  | .error e => .error e
  | .ok t => parse t

/-- `read_geojson_lines` (geojson_line_reader.rs:79-96), with the buffer of `BufReader` (8192 bytes) of any size -/
def readGeoJsonLinesOn (cap : Nat) (parse : Text → Except Err GeoJsonValue) (i : Input) : FProg Unit :=
  readGeoJsonLines ((BufReader.lines cap ⟨[], i⟩).map (parseLine parse))

/-- `read_geojson_line_geometries` (geojson_line_reader.rs:34-76) -/
def readGeoJsonLineGeometriesOn (cap : Nat) (parse : Text → Except Err GeoJsonValue) (i : Input) : Prog Unit :=
  readGeoJsonLineGeometries ((BufReader.lines cap ⟨[], i⟩).map (parseLine parse))

/-! ### the iterators of shapefiles, called again and again -/

/-- `ShapeIterator` (reader.rs:13-18): the processor, the source and the position -/
structure ShapeIter (σ : Type) where
  proc : σ
  source : Input
  pos : Nat

/-- `ShapeIterator::next` (reader.rs:23-36), also after an error: the position is then the old one, the source where it is.
Simplification: a panic is an error like the others; a user of the iterator does not come to call `next` again. -/
def ShapeIter.next {σ : Type} (ar : ShpArith) (P : FProc σ) (len : Nat) (it : ShapeIter σ) : Option (Except Err Unit) × ShapeIter σ :=
  match FProg.interpOn P (shapeNext ar len it.pos) it.proc it.source with
  | (s, _, .ok none, i) => (none, ⟨s, i, it.pos⟩)
  | (s, _, .ok (some pos), i) => (some (.ok ()), ⟨s, i, pos⟩)
  | (s, _, .error e, i) => (some (.error e), ⟨s, i, it.pos⟩)

/-- the iterator after `n` calls of `next` (shp/reader.rs:13-36) -/
def ShapeIter.after {σ : Type} (ar : ShpArith) (P : FProc σ) (len : Nat) : Nat → ShapeIter σ → ShapeIter σ
  | 0, it => it
  | n + 1, it => after ar P len n (it.next ar P len).2

/-- what call number `n` of `next` returns (shp/reader.rs:13-36) -/
def ShapeIter.nth {σ : Type} (ar : ShpArith) (P : FProc σ) (len n : Nat) (it : ShapeIter σ) : Option (Except Err Unit) :=
  ((it.after ar P len n).next ar P len).1

/-- `ShpReader::new` and `iter_geometries` (reader.rs:121-129, 155-165): the iterator, its source after the 100 bytes of the header, and the
length of the file it will read to; `none` if the header is not accepted -/
def openShapes {σ : Type} (P : FProc σ) (s : σ) (i : Input) : Option (ShapeIter σ × Nat) :=
  match FProg.interpOn P (FProg.lift (Prog.bind readShpHeader fun h => doubleI32 h.fileLength)) s i with
  | (s, _, .ok len, i) => some (⟨s, i, 100⟩, i32AsUsize len)
  | (_, _, .error _, _) => none

/-- `ShapeRecordIterator` (reader.rs:41-45) with the results of successive calls of `dbf_reader.iter_records().next()` -/
structure RecordIter (σ : Type) where
  shapes : ShapeIter σ
  rows : Nat → Option (Except Err ShpRow)
  featno : Nat

/-- the body of `ShapeRecordIterator::next` (reader.rs:54-96) with the row the attribute table returns when asked: `none` for `None`,
otherwise the new position -/
def recordNext (ar : ShpArith) (len featno pos : Nat) (row : Option (Except Err ShpRow)) : FProg (Option Nat) :=
  FProg.bind (shpDatasetBegin featno) fun _ =>
  if len ≤ pos then FProg.bind (callOk .dsEnd) fun _ => .ret none
  else
    match row with
    | none => FProg.bind (callOk .dsEnd) fun _ => .ret none
    | some (.error e) => .fail e
    | some (.ok row) => FProg.bind (shpFeature ar featno pos row) fun pos => .ret (some pos)

/-- `ShapeRecordIterator::next` (reader.rs:54-96), also after an error: the number of the feature and the position are then the old ones,
the row is used up -/
def RecordIter.next {σ : Type} (ar : ShpArith) (P : FProc σ) (len : Nat) (it : RecordIter σ) : Option (Except Err Unit) × RecordIter σ :=
  let rows := if len ≤ it.shapes.pos then it.rows else fun n => it.rows (n + 1)
  match FProg.interpOn P (recordNext ar len it.featno it.shapes.pos (it.rows 0)) it.shapes.proc it.shapes.source with
  | (s, _, .ok none, i) => (none, { it with shapes := ⟨s, i, it.shapes.pos⟩, rows })
  | (s, _, .ok (some pos), i) => (some (.ok ()), ⟨⟨s, i, pos⟩, rows, it.featno + 1⟩)
  | (s, _, .error e, i) => (some (.error e), { it with shapes := ⟨s, i, it.shapes.pos⟩, rows })

/-- the iterator after `n` calls of `next` (shp/reader.rs:43-92) -/
def RecordIter.after {σ : Type} (ar : ShpArith) (P : FProc σ) (len : Nat) : Nat → RecordIter σ → RecordIter σ
  | 0, it => it
  | n + 1, it => after ar P len n (it.next ar P len).2

/-- what call number `n` of `next` returns (shp/reader.rs:43-92) -/
def RecordIter.nth {σ : Type} (ar : ShpArith) (P : FProc σ) (len n : Nat) (it : RecordIter σ) : Option (Except Err Unit) :=
  ((it.after ar P len n).next ar P len).1

end Geozero
