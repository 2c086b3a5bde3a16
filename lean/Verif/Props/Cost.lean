import Verif.Lemmas.CostShp
import Verif.Lemmas.ShpFile
import Verif.Lemmas.CostWrite
import Verif.Lemmas.CostText

/-
C75: a reader makes a number of calls bounded by the length of its input.
-/

namespace Geozero
open Spec Prog

/-- WKB, every dialect, every input and every processor: at most one call for every two bytes, also when reading fails.  When it
succeeds, the bytes counted are those that were read. -/
theorem C75_wkb {σ : Type} (fo : FOps) (d : WkbDialect) (P : Proc σ) (s : σ) (bs : List Byte) :
    2 * (interp P (processWkbTypeGeom fo d) s bs).2.1.length ≤ bs.length ∧
    ∀ rest, (interp P (processWkbTypeGeom fo d) s bs).2.2 = .ok ((), rest) →
      2 * (interp P (processWkbTypeGeom fo d) s bs).2.1.length + rest.length ≤ bs.length := by
  obtain ⟨h1, h2⟩ := ((earns_wkb fo d).pays 0).sound P s bs
  refine ⟨by omega, fun rest h => ?_⟩
  obtain ⟨c', _, h4⟩ := h2 () rest h
  omega

/-- The bound is reached up to a constant: a polygon of n empty rings makes 3 + 2n calls from 9 + 4n bytes. -/
example (fo : FOps) (rest : List Byte) : ∃ bs : List Byte, bs.length = 9 + 4 * 3 ∧
    (interp (σ := Unit) { step := fun _ _ => .ok (), multi := fun _ => false } (processWkbTypeGeom fo .wkb) () (bs ++ rest)).2.1.length
      = 3 + 2 * 3 :=
  ⟨[1] ++ encU32 .le 3 ++ encU32 .le 3 ++ List.replicate 12 0, rfl, rfl⟩

/-- A WKB header that announces 2^32 - 1 points makes as many calls as there are points, not as are announced. -/
example (fo : FOps) :
    (interp (σ := Unit) { step := fun _ _ => .ok (), multi := fun _ => false } (processWkbTypeGeom fo .wkb) ()
      ([1] ++ encU32 .le 2 ++ encU32 .le (2 ^ 32 - 1) ++ List.replicate 32 0)).2.1.length = 4 := rfl

/-- What the WKB writer has written, in every dialect and with every option, after any calls of any reader, also if it stopped with an
error: at most 37 bytes for each call besides the header and the envelope. -/
theorem C75_wkb_written {α : Type} (p : Prog α) (dialect : WkbDialect) (dims : Dims) (srid : Option Int) (env : List F64) (bs : List Byte) :
    (interp WkbWriter.proc p (WkbWriter.withOpts dialect dims srid env) bs).1.out.length ≤
      37 * (interp WkbWriter.proc p (WkbWriter.withOpts dialect dims srid env) bs).2.1.length + 39 + 8 * env.length := by
  have h := Prog.measure_le WkbWriter.proc WkbWriter.mass 37 (fun s e s' => WkbWriter.mass_step s e s') p
    (WkbWriter.withOpts dialect dims srid env) bs
  have h1 : (WkbWriter.withOpts dialect dims srid env).mass = 39 + 8 * env.length := by
    simp [WkbWriter.mass, WkbWriter.withOpts, WkbWriter.withExtendedOpts]
  have h2 : ∀ w : WkbWriter, w.out.length ≤ w.mass := fun w => Nat.le_add_right _ _
  have h3 := h2 (interp WkbWriter.proc p (WkbWriter.withOpts dialect dims srid env) bs).1
  omega

/-- Converting WKB of any dialect to WKB of any dialect: the output is linear in the input. -/
theorem C75_wkb_to_wkb (fo : FOps) (d dialect : WkbDialect) (dims : Dims) (srid : Option Int) (env : List F64) (bs : List Byte) :
    2 * (interp WkbWriter.proc (processWkbTypeGeom fo d) (WkbWriter.withOpts dialect dims srid env) bs).1.out.length ≤
      37 * bs.length + 78 + 16 * env.length := by
  have h1 := C75_wkb_written (processWkbTypeGeom fo d) dialect dims srid env bs
  have h2 := (C75_wkb fo d WkbWriter.proc (WkbWriter.withOpts dialect dims srid env) bs).1
  omega

/-- a point becomes the same 21 bytes -/
example (fo : FOps) :
    (interp WkbWriter.proc (processWkbTypeGeom fo .wkb) (WkbWriter.withOpts .wkb {} none [])
      ([1] ++ encU32 .le 1 ++ List.replicate 16 0)).1.out.length = 21 := rfl

/-! ### texts -/

/-- the characters of the `SRID=..;` that an EWKT text with this SRID begins with -/
def sridPrefix : WktDialect → Option Int → Nat
  | .ewkt, some v => if v = 0 then 0 else 6 + (toString v).toList.length
  | _, _ => 0

/-- WKT and EWKT: after any calls of any reader, also if it stopped with an error, at most 25 characters and four numbers for each call
besides the SRID. -/
theorem C75_wkt_written {α : Type} (p : Prog α) (num : F64 → Text) (B : Nat) (hB : ∀ x, (num x).length ≤ B) (dialect : WktDialect)
    (dims : Dims) (srid : Option Int) (bs : List Byte) :
    let r := interp (WktWriter.proc num) p (WktWriter.withOpts dialect dims srid) bs
    r.1.out.length ≤ (25 + 4 * B) * r.2.1.length + sridPrefix r.1.dialect r.1.srid := by
  intro r
  have h := Prog.measure_le (WktWriter.proc num) WktWriter.mass (25 + 4 * B)
    (fun s e s' => WktWriter.mass_step num B hB s e s') p (WktWriter.withOpts dialect dims srid) bs
  have h1 : (WktWriter.withOpts dialect dims srid).mass = 0 := rfl
  have h2 := WktWriter.out_le_mass r.1
  have h3 : r.1.sridChars = sridPrefix r.1.dialect r.1.srid := rfl
  simp only [r] at *
  omega

/-- WKB of any dialect to WKT or EWKT: the text is linear in the input. -/
theorem C75_wkb_to_wkt (fo : FOps) (d : WkbDialect) (num : F64 → Text) (B : Nat) (hB : ∀ x, (num x).length ≤ B) (dialect : WktDialect)
    (dims : Dims) (srid : Option Int) (bs : List Byte) :
    let w := (interp (WktWriter.proc num) (processWkbTypeGeom fo d) (WktWriter.withOpts dialect dims srid) bs).1
    2 * w.out.length ≤ (25 + 4 * B) * bs.length + 2 * sridPrefix w.dialect w.srid := by
  intro w
  have h1 := C75_wkt_written (processWkbTypeGeom fo d) num B hB dialect dims srid bs
  have h2 := (C75_wkb fo d (WktWriter.proc num) (WktWriter.withOpts dialect dims srid) bs).1
  have h3 := Nat.mul_le_mul_left (25 + 4 * B) h2
  rw [Nat.mul_left_comm] at h3
  simp only [w] at *
  omega

/-- GeoJSON: at most 47 characters and three numbers for each call. -/
theorem C75_geojson_written {α : Type} (p : Prog α) (num : F64 → Text) (B : Nat) (hB : ∀ x, (num x).length ≤ B) (w : GeoJsonWriter)
    (bs : List Byte) :
    let r := interp (GeoJsonWriter.geomProc num) p w bs
    r.1.out.length ≤ w.out.length + (47 + 3 * B) * r.2.1.length :=
  Prog.measure_le (GeoJsonWriter.geomProc num) (fun w => w.out.length) (47 + 3 * B)
    (fun s e s' h => by obtain rfl := (Except.ok.inj h).symm; exact GeoJsonWriter.length_geomStep num B hB s e) p w bs

/-- WKB of any dialect to GeoJSON: the text is linear in the input. -/
theorem C75_wkb_to_geojson (fo : FOps) (d : WkbDialect) (num : F64 → Text) (B : Nat) (hB : ∀ x, (num x).length ≤ B) (bs : List Byte)
    (t : Text) (h : geoJsonFromWkb fo num d bs = .ok t) : 2 * t.length ≤ (47 + 3 * B) * bs.length := by
  have h1 := C75_geojson_written (processWkbTypeGeom fo d) num B hB {} bs
  have h2 := (C75_wkb fo d (GeoJsonWriter.geomProc num) {} bs).1
  have h3 := Nat.mul_le_mul_left (47 + 3 * B) h2
  rw [Nat.mul_left_comm] at h3
  unfold geoJsonFromWkb at h
  split at h
  · next w evs r hr =>
    obtain rfl := Except.ok.inj h
    simp only [hr] at h1 h3
    simp only [List.length_nil] at h1
    omega
  · cases h

/-- SVG: at most 11 characters and two numbers for each call. -/
theorem C75_svg_written {α : Type} (p : Prog α) (fo : SvgNum) (B : Nat) (hB : ∀ x, (fo.num x).length ≤ B) (w : SvgWriter)
    (bs : List Byte) :
    let r := interp (SvgWriter.gproc fo) p w bs
    r.1.out.length ≤ w.out.length + (11 + 2 * B) * r.2.1.length :=
  Prog.measure_le (SvgWriter.gproc fo) (fun w => w.out.length) (11 + 2 * B)
    (fun s e s' h => SvgWriter.length_geomStep fo B hB s e s' h) p w bs

/-- WKB of any dialect to SVG: the text is linear in the input. -/
theorem C75_wkb_to_svg (fo : SvgNum) (fw : FOps) (d : WkbDialect) (B : Nat) (hB : ∀ x, (fo.num x).length ≤ B) (bs : List Byte)
    (t : Text) (h : svgFromWkb fo fw d bs = .ok t) : 2 * t.length ≤ (11 + 2 * B) * bs.length := by
  have h1 := C75_svg_written (processWkbTypeGeom fw d) fo B hB (SvgWriter.new false) bs
  have h2 := (C75_wkb fw d (SvgWriter.gproc fo) (SvgWriter.new false) bs).1
  have h3 := Nat.mul_le_mul_left (11 + 2 * B) h2
  rw [Nat.mul_left_comm] at h3
  unfold svgFromWkb toSvg at h
  revert h h1 h3
  generalize interp (SvgWriter.gproc fo) (processWkbTypeGeom fw d) (SvgWriter.new false) bs = r
  intro h h1 h3
  obtain ⟨w, evs, x⟩ := r
  cases x with
  | error e => cases h
  | ok a =>
    obtain rfl := Except.ok.inj h
    simp only [SvgWriter.new, List.length_nil] at h1
    simp only at h3
    omega

/-- a point with numbers printed with one digit: 10 characters from 21 bytes, 39 in GeoJSON and 19 in SVG -/
example (fo : FOps) :
    (toWktWithOpts (fun _ => ['7']) (processWkbTypeGeom fo .wkb) .wkt {} none ([1] ++ encU32 .le 1 ++ List.replicate 16 0)).toOption
      = some "POINT(7 7)".toList ∧
    ((geoJsonFromWkb fo (fun _ => ['7']) .wkb ([1] ++ encU32 .le 1 ++ List.replicate 16 0)).toOption.map List.length) = some 39 ∧
    ((svgFromWkb { num := fun _ => ['7'], sub := fun a _ => a } fo .wkb ([1] ++ encU32 .le 1 ++ List.replicate 16 0)).toOption.map
      List.length) = some 19 := ⟨rfl, rfl, rfl⟩

/-- EWKT with an SRID: the prefix is counted apart -/
example (fo : FOps) :
    (interp (WktWriter.proc fun _ => ['7']) (processWkbTypeGeom fo .wkb) (WktWriter.withOpts .ewkt {} (some 4326))
      ([1] ++ encU32 .le 1 ++ List.replicate 16 0)).1.out = "SRID=4326;POINT(7 7)".toList ∧
    sridPrefix .ewkt (some 4326) = 10 := ⟨rfl, rfl⟩

/-- The shapes of a shapefile (builds with overflow checks): at most one call for each byte of the file. -/
theorem C75_shapefile_geometries {σ : Type} (ar : ShpArith) (P : FProc σ) (s : σ) (bs : List Byte) :
    (FProg.interp P (shpGeometries ar) s bs).2.1.length ≤ bs.length := by
  have h := ((pays_shpGeometries ar 0).sound P s bs).1
  omega

/-- One shape: at most one call for each byte of its record, and not for the twelve bytes of its header. -/
theorem C75_shape {σ : Type} (ar : ShpArith) (P : FProc σ) (s : σ) (bs : List Byte) (w : Int) (rest : List Byte)
    (h : (FProg.interp P (readShape ar) s bs).2.2 = .ok (w, rest)) :
    (FProg.interp P (readShape ar) s bs).2.1.length + 12 + rest.length ≤ bs.length := by
  obtain ⟨c', h1, h2⟩ := ((pays_readShape ar 0).sound P s bs).2 w rest h
  omega

/-- a polyline of two points: six calls from 88 bytes -/
example (ar : ShpArith) : ∃ bs : List Byte, bs.length = 88 ∧ ∃ w,
    (FProg.interp (σ := Unit) { step := fun _ _ => .ok () } (readShape ar) () bs).2.2 = .ok (w, []) ∧
    (FProg.interp (σ := Unit) { step := fun _ _ => .ok () } (readShape ar) () bs).2.1.length = 6 :=
  ⟨EsriShape.record 1 .xy false { box := (1#64, 2#64, 3#64, 4#64), zRange := (0#64, 0#64), mRange := (0#64, 0#64) }
    (.polyLine [[{ x := 1#64, y := 2#64 }, { x := 3#64, y := 4#64 }]]), rfl, 40, rfl, rfl⟩

/-- The features of a shapefile (builds with overflow checks): at most one call for each byte of the main file and each field of the
attribute table. -/
theorem C75_shapefile_features {σ : Type} (ar : ShpArith) (rows : List (Except Err ShpRow)) (P : FProc σ) (s : σ) (bs : List Byte) :
    (FProg.interp P (shpFeatures ar rows) s bs).2.1.length ≤ bs.length + fieldCount rows := by
  have h := ((pays_shpFeatures ar rows).sound P s bs).1
  omega

/-! ### builds without overflow checks -/

/-- `k` times the whole of `n` points and back -/
def zigzag (n : Nat) : Nat → List Nat
  | 0 => []
  | k + 1 => 0 :: n :: zigzag n k

/-- a polyline record with the part table `idx` and `n` points -/
def polylineRecord (x : EsriExtent) (idx : List Nat) (cs : List Coord) : List Byte :=
  encI32 .be 1 ++ encI32 .be ((22 + 2 * idx.length + 8 * cs.length : Nat) : Int) ++ encI32 .le 3 ++ boxBytes x ++
    encI32 .le (idx.length : Int) ++ encI32 .le (cs.length : Int) ++ i32Bytes idx ++ xyBytes cs

theorem length_zigzag (n k : Nat) : (zigzag n k).length = 2 * k := by
  induction k with
  | zero => rfl
  | succ k ih => simp only [zigzag, List.length_cons, ih]; omega

theorem mem_zigzag (n k v : Nat) (h : v ∈ zigzag n k) : v ≤ n := by
  induction k with
  | zero => simp [zigzag] at h
  | succ k ih =>
    simp only [zigzag, List.mem_cons] at h
    rcases h with rfl | rfl | h
    · omega
    · omega
    · exact ih h

theorem run_polylineRecord (multi : Bool) (x : EsriExtent) (idx : List Nat) (cs : List Coord) (rest : List Byte)
    (hi : ∀ v ∈ idx, v < 2 ^ 31) (hl : 44 + 4 * idx.length + 16 * cs.length < 2 ^ 31) :
    run multi readShpRecord (polylineRecord x idx cs ++ rest) =
      ([], .ok ((((22 + 2 * idx.length + 8 * cs.length : Nat) : Int), .multipart false (idx ++ [cs.length]) (cs.map toXY) [] []), rest)) := by
  have hm : run multi (readMultiPart false (40 + 4 * idx.length + 16 * cs.length) false)
      (boxBytes x ++ (encI32 .le (idx.length : Int) ++ (encI32 .le (cs.length : Int) ++ (i32Bytes idx ++ (xyBytes cs ++ rest))))) =
      ([], .ok (.multipart false (idx ++ [cs.length]) (cs.map toXY) [] [], rest)) := by
    simp only [readMultiPart, bind_eq]
    rw [run_bind_ok_nil (run_readBbox multi x _),
      run_bind_ok_nil (run_readI32 multi .le idx.length _ (by unfold isI32; omega)),
      run_bind_ok_nil (run_readI32 multi .le cs.length _ (by unfold isI32; omega)), i32AsUsize_nat (by omega), i32AsUsize_nat (by omega),
      usizeOk_ok (by omega), usizeOk_ok (by omega), ret_bind, ret_bind]
    have hM : decide (40 + 4 * idx.length + 16 * cs.length = multipartRecordSize cs.length idx.length +
        (if false = true then dimValueSize cs.length else 0) + dimValueSize cs.length) = false := by
      simp [multipartRecordSize, dimValueSize]
    rw [hM, if_neg (by simp [multipartRecordSize]), run_bind_ok_nil (run_readParts multi idx _ hi), run_bind_ok_nil (run_readXYs multi cs _)]
    rfl
  have hw : (((22 + 2 * idx.length + 8 * cs.length : Nat) : Int)) * 2 = ((44 + 4 * idx.length + 16 * cs.length : Nat) : Int) := by omega
  unfold polylineRecord
  simp only [readShpRecord, bind_eq, List.append_assoc]
  rw [run_bind_ok_nil (run_readI32 multi .be 1 _ (by unfold isI32; omega)),
    run_bind_ok_nil (run_readI32 multi .be _ _ (by unfold isI32; omega)), doubleI32, if_pos (by omega), ret_bind, hw, i32AsUsize_nat hl]
  have hc : run multi (readShpContent (44 + 4 * idx.length + 16 * cs.length))
      (encI32 .le 3 ++ (boxBytes x ++ (encI32 .le (idx.length : Int) ++ (encI32 .le (cs.length : Int) ++ (i32Bytes idx ++ (xyBytes cs ++ rest)))))) =
      ([], .ok (.multipart false (idx ++ [cs.length]) (cs.map toXY) [] [], rest)) := by
    simp only [readShpContent, readShpType, bind_eq]
    rw [Prog.bind_assoc, run_bind_ok_nil (run_readI32 multi .le 3 _ (by unfold isI32; omega))]
    simp only [ShpType.fromCode, ret_bind, if_neg (show ¬ (44 + 4 * idx.length + 16 * cs.length < 4) by omega),
      show 44 + 4 * idx.length + 16 * cs.length - 4 = 40 + 4 * idx.length + 16 * cs.length by omega]
    exact hm
  rw [run_bind_ok_nil hc]
  rfl

theorem run_coords_wrapping (coords : List XY) (n a i : Nat) (h : a + n ≤ coords.length) (bs : List Byte) :
    ∃ evs, FProg.run {} (FProg.forIdx (fun i ofs => shpCoord coords [] [] false false false ofs i) i (List.range' a n)) bs =
      (evs, .ok ((), bs)) ∧ evs.length = n := by
  induction n generalizing a i with
  | zero => exact ⟨[], rfl, rfl⟩
  | succ n ih =>
    obtain ⟨evs, h1, h2⟩ := ih (a + 1) (i + 1) (by omega)
    refine ⟨.geom (.xy coords[a].x coords[a].y i) :: evs, ?_, by simp [h2]⟩
    have hc : shpCoord coords [] [] false false false a i = FProg.call (.geom (.xy coords[a].x coords[a].y i)) := by
      simp only [shpCoord, List.getElem?_eq_getElem (show a < coords.length by omega), Bool.false_eq_true, if_false]
    rw [List.range'_succ]
    simp only [FProg.forIdx]
    rw [hc, FProg.run_call_bind, h1]

theorem run_part_wrapping (coords : List XY) (i a b : Nat) (h : b ≤ coords.length) (bs : List Byte) :
    ∃ evs, FProg.run {} (shpPartWrapping coords [] [] false false false i (a, b)) bs = (evs, .ok ((), bs)) ∧ evs.length = 2 + (b - a) := by
  by_cases hab : a ≤ b
  · obtain ⟨evs, h1, h2⟩ := run_coords_wrapping coords (b - a) a 0 (by omega) bs
    refine ⟨.geom (.gbegin .lineString false ((b + 2 ^ 64 - a) % 2 ^ 64) i) :: (evs ++ [.geom (.gend .lineString false i)]), ?_,
      by simp [h2]; omega⟩
    unfold shpPartWrapping
    simp only [FProg.bind_eq, FProg.run_call_bind]
    rw [FProg.run_bind_ok h1]
    rfl
  · refine ⟨[.geom (.gbegin .lineString false ((b + 2 ^ 64 - a) % 2 ^ 64) i), .geom (.gend .lineString false i)], ?_,
      by simp; omega⟩
    unfold shpPartWrapping
    simp only [show b - a = 0 by omega]
    rfl

theorem run_parts_wrapping (coords : List XY) (k i : Nat) (bs : List Byte) :
    ∃ evs, FProg.run {} (FProg.forIdx (shpPartWrapping coords [] [] false false false) i
      (windows2 (zigzag coords.length k ++ [coords.length]))) bs = (evs, .ok ((), bs)) ∧ k * coords.length ≤ evs.length := by
  induction k generalizing i with
  | zero => exact ⟨[], rfl, by simp⟩
  | succ k ih =>
    have h2 : ∃ b, b ≤ coords.length ∧ windows2 (coords.length :: (zigzag coords.length k ++ [coords.length])) =
        (coords.length, b) :: windows2 (zigzag coords.length k ++ [coords.length]) := by
      cases k with
      | zero => exact ⟨_, Nat.le_refl _, rfl⟩
      | succ k => exact ⟨_, Nat.zero_le _, rfl⟩
    obtain ⟨b, hb, hw⟩ := h2
    obtain ⟨e1, h1, l1⟩ := run_part_wrapping coords i 0 coords.length (Nat.le_refl _) bs
    obtain ⟨e2, h2, l2⟩ := run_part_wrapping coords (i + 1) coords.length b hb bs
    obtain ⟨e3, h3, l3⟩ := ih (i + 1 + 1)
    refine ⟨e1 ++ (e2 ++ e3), ?_, ?_⟩
    · simp only [zigzag, List.cons_append, windows2]
      rw [hw]
      simp only [FProg.forIdx]
      rw [FProg.run_bind_ok h1, FProg.run_bind_ok h2, h3]
    · simp only [List.length_append, Nat.add_mul, Nat.one_mul]
      omega

/-- Without overflow checks a polyline whose parts end where they begin or later is delivered as with overflow checks, whatever
dimensions are asked for. -/
theorem C75_shapefile_wrapping_ordered (ar : ShpArith) (partsIndex : List Nat) (coords : List XY) (zs ms : List F64)
    (h : ∀ w ∈ windows2 partsIndex, w.1 ≤ w.2 ∧ w.2 < 2 ^ 64) :
    shpLinesWrapping partsIndex coords zs ms = shpProcess ar false partsIndex coords zs ms := by
  have hp : partWindows partsIndex (0, partsIndex.length - 1) = windows2 partsIndex := by
    unfold partWindows
    rw [List.drop_zero, List.take_of_length_le (by omega)]
  have hl : ∀ (multi getZ getM : Bool) (ws : List (Nat × Nat)) (i : Nat), (∀ w ∈ ws, w.1 ≤ w.2 ∧ w.2 < 2 ^ 64) →
      FProg.forIdx (shpPartWrapping coords zs ms multi getZ getM) i ws = FProg.forIdx (shpPart coords zs ms multi getZ getM) i ws := by
    intro multi getZ getM ws
    induction ws with
    | nil => intro i _; rfl
    | cons w ws ih =>
      intro i hw
      have hw0 := hw w (by simp)
      have h1 : shpPartWrapping coords zs ms multi getZ getM i w = shpPart coords zs ms multi getZ getM i w := by
        unfold shpPartWrapping shpPart
        rw [if_neg (by omega), show (w.2 + 2 ^ 64 - w.1) % 2 ^ 64 = w.2 - w.1 by omega]
      simp only [FProg.forIdx, h1]
      rw [ih (i + 1) fun x hx => hw x (by simp [hx])]
  unfold shpLinesWrapping shpProcess
  simp only [hp, Bool.false_eq_true, if_false]
  congr 1
  funext _ dims
  rw [hl _ _ _ _ 0 h]

/-- non-vacuity: two parts of two points -/
example : ∀ w ∈ windows2 [0, 2, 4], w.1 ≤ w.2 ∧ w.2 < 2 ^ 64 := by decide

/-- Without overflow checks, as in release builds, a polyline record whose part table jumps back and forth delivers its points over and
over again: 52 + 24k bytes make more than k² calls, so the number of calls is not bounded by a multiple of the length. -/
theorem C75_shapefile_wrapping_false (x : EsriExtent) (c : Coord) (k : Nat) (hk : k < 2 ^ 24) (rest : List Byte) :
    (polylineRecord x (zigzag k k) (List.replicate k c)).length = 52 + 24 * k ∧
    ∃ evs, FProg.run {} readLinesWrapping (polylineRecord x (zigzag k k) (List.replicate k c) ++ rest) = (evs, .ok ((), rest)) ∧
      k * k < evs.length := by
  refine ⟨?_, ?_⟩
  · simp only [polylineRecord, List.length_append, encI32_length, boxBytes_length, i32Bytes_length, xyBytes_length, length_zigzag,
      List.length_replicate]
    omega
  · have hr := run_polylineRecord false x (zigzag k k) (List.replicate k c) rest
      (fun v hv => by have := mem_zigzag k k v hv; omega) (by simp only [length_zigzag, List.length_replicate]; omega)
    obtain ⟨evs, h1, h2⟩ := run_parts_wrapping ((List.replicate k c).map toXY) k 0 rest
    simp only [List.length_map, List.length_replicate] at h1 h2 hr
    refine ⟨.geom (.gbegin .multiLineString true ((zigzag k k ++ [k]).length - 1) 0) :: (evs ++ [.geom (.gend .multiLineString true 0)]),
      ?_, by simp only [List.length_cons, List.length_append]; omega⟩
    unfold readLinesWrapping
    have hl := FProg.run_lift {} readShpRecord (polylineRecord x (zigzag k k) (List.replicate k c) ++ rest)
    rw [hr] at hl
    rw [FProg.run_bind_ok hl]
    show FProg.run {} (shpLinesWrapping _ _ _ _) rest = _
    unfold shpLinesWrapping
    have hp : partWindows (zigzag k k ++ [k]) (0, (zigzag k k ++ [k]).length - 1) = windows2 (zigzag k k ++ [k]) := by
      unfold partWindows
      rw [List.drop_zero, List.take_of_length_le (by simp)]
    simp only [FProg.run, FProg.bind_eq, FProg.run_call_bind, hp]
    have hf : (({} : Dims).z || ({} : Dims).m) = false := rfl
    simp only [List.isEmpty_nil, Bool.not_true, Bool.and_false]
    rw [show (({} : Dims).z || ({} : Dims).m) = false from rfl] at *
    rw [FProg.run_bind_ok h1]
    rfl

end Geozero
