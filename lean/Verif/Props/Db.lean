import Verif.Lemmas.Db
import Verif.Props.GeoTypes

/-
C61: database values.
-/

namespace Geozero
open Prog Spec WkbWriter

/-! ### C61: encode, then decode -/

/-- Encoding a geo-types geometry for any of the three drivers succeeds, appends to what the argument buffer
holds, and decoding the value gives the geometry back, normalised; the macros for PostGIS do the same. -/
theorem C61_geo_round_trip (fo : FOps) (sz : ElemSizes) (hz : sz.Pos) (g : GeoGeom) (hc : g.Closed)
    (hb : g.denote.Budget sz) (hn : g.denote.hasNaNPoint = false) (hl : g.denote.levels ≤ 128) :
    (∃ blob, gpkgEncode (.ofGeo g) = .ok blob ∧ gpkgDecode fo sz (some blob) = .ok (some g.normal)) ∧
    (∃ blob, (∀ buf, pgSqlxEncode (.ofGeo g) buf = .ok (buf ++ blob)) ∧
      pgSqlxDecode fo sz (some blob) = .ok (some g.normal)) ∧
    (∃ blob, (∀ buf, pgSqlxMacroEncode (.ofGeo g) buf = .ok (buf ++ blob)) ∧
      pgSqlxMacroDecode fo sz (some blob) = .ok g.normal) ∧
    (∃ blob, (∀ out, pgToSql (.ofGeo g) out = (out ++ blob, .ok ())) ∧
      pgFromSql fo sz (some blob) = .ok (some g.normal) ∧ pgMacroFromSql fo sz (some blob) = .ok g.normal) := by
  have key : ∀ dl, HeaderOk dl none [] → ∃ blob, (GeoSource.ofGeo g).writeWkb dl {} none [] = (blob, .ok ()) ∧
      geoFromWkb fo sz dl blob = .ok g.normal := by
    intro dl hh
    obtain ⟨blob, h1, h2⟩ := C17_geo_wkb_geo fo sz hz dl {} none [] hh g hc hb hn hl
    refine ⟨blob, ?_, h2⟩
    unfold toWkbDialect at h1
    unfold GeoSource.writeWkb GeoSource.ofGeo
    rcases hi : interp WkbWriter.proc (geoProcessGeom g) (withOpts dl {} none []) [] with ⟨w, ev, r⟩
    simp only [hi] at h1 ⊢
    cases r with
    | ok _ => cases h1; rfl
    | error _ => cases h1
  obtain ⟨b1, h1, h1'⟩ := key .geopackage ⟨by simp, Or.inl rfl⟩
  obtain ⟨b2, h2, h2'⟩ := key .ewkb (by simp [HeaderOk])
  have h1 : (GeoSource.ofGeo g).writeWkb .geopackage (GeoSource.ofGeo g).dims (GeoSource.ofGeo g).srid []
    = (b1, .ok ()) := h1
  have h2 : (GeoSource.ofGeo g).writeWkb .ewkb (GeoSource.ofGeo g).dims (GeoSource.ofGeo g).srid []
    = (b2, .ok ()) := h2
  refine ⟨⟨b1, ?_, ?_⟩, ⟨b2, fun buf => ?_, ?_⟩, ⟨b2, fun buf => ?_, ?_⟩, b2, fun buf => ?_, ?_⟩
  · simp only [gpkgEncode, h1, expectEncoded]
  · simp only [gpkgDecode, h1']
  · simp only [pgSqlxEncode, h2, expectEncoded]
  · simp only [pgSqlxDecode, h2']
  · simp only [pgSqlxMacroEncode, h2, expectEncoded]
  · simp only [pgSqlxMacroDecode, h2']
  · simp only [pgToSql, h2]
  · simp only [pgFromSql, pgMacroFromSql, h2', and_self]

/-- A blob of any of the five dialects, in any byte order, holding any geometry without empty points, can be
encoded for PostGIS and for a GeoPackage: the new value holds the same geometry with the same dimensions and the
same SRID, and decoding it gives whatever decoding the original gives. -/
theorem C61_blob_to_postgis (fo : FOps) (dl : WkbDialect) (z m : Bool) (srid : Option Int) (g : Geom)
    (bs : List Byte) (h : Holds dl { z, m } srid g bs) (he : g.hasEmptyPoint = false) (hl : g.levels ≤ 128) :
    ∃ blob, (∀ buf, pgSqlxEncode (.ofWkb fo dl bs) buf = .ok (buf ++ blob)) ∧
      (∀ out, pgToSql (.ofWkb fo dl bs) out = (out ++ blob, .ok ())) ∧
      Ewkb { z, m } .le srid g blob ∧
      ∀ sz, geoFromWkb fo sz .ewkb blob = geoFromWkb fo sz dl bs := by
  obtain ⟨hr, hd, hs, hf, hn, hc⟩ := holds_read fo dl z m srid g bs h hl
  obtain ⟨w, h1, h2⟩ := C07_ewkb_writer_conforms { z, m } srid srid [] g hf he
  rw [Geom.stored_eq _ g hc hn] at h2
  have hw : (GeoSource.ofWkb fo dl bs).writeWkb .ewkb (GeoSource.ofWkb fo dl bs).dims
      (GeoSource.ofWkb fo dl bs).srid [] = (w.out, .ok ()) := by
    simp only [GeoSource.ofWkb, hd, hs]
    exact writeWkb_ok (hr _) h1
  have hi : ∀ s ∈ srid, isI32 s := by
    cases dl with
    | wkb => rw [h.1]; simp
    | ewkb => exact h.1
    | geopackage => obtain ⟨_, s, _, rfl, hi, _⟩ := h; intro t ht; cases ht; exact hi
    | mySQL => obtain ⟨n, rfl, hi, _⟩ := h; intro t ht; cases ht; simp only [isI32]; omega
    | spatiaLite =>
      obtain ⟨_, s, _, rfl, hi, _⟩ := h
      intro t ht
      split at ht
      · cases ht
      · cases ht; exact hi
  refine ⟨w.out, fun buf => ?_, fun out => ?_, h2, fun sz => ?_⟩
  · simp only [pgSqlxEncode, hw, expectEncoded]
  · simp only [pgToSql, hw]
  · have h3 := C06_ewkb_decodes fo { z, m } .le srid hi g w.out [] false h2 hl
    rw [List.append_nil] at h3
    exact geoFromWkb_congr fo sz _ _ _ _ _ _ _ _ _ h3 (hr false)

/-- The same for a GeoPackage, which has no way to say that there is no SRID: it becomes 0. -/
theorem C61_blob_to_gpkg (fo : FOps) (dl : WkbDialect) (z m : Bool) (srid : Option Int) (g : Geom)
    (bs : List Byte) (h : Holds dl { z, m } srid g bs) (he : g.hasEmptyPoint = false) (hl : g.levels ≤ 128) :
    ∃ blob, gpkgEncode (.ofWkb fo dl bs) = .ok blob ∧
      Gpkg { z, m } .le .le (srid.getD 0) [] g blob ∧
      ∀ sz, geoFromWkb fo sz .geopackage blob = geoFromWkb fo sz dl bs := by
  obtain ⟨hr, hd, hs, hf, hn, hc⟩ := holds_read fo dl z m srid g bs h hl
  obtain ⟨w, h1, h2⟩ := C07_gpkg_writer_conforms { z, m } { z, m } srid srid [] {} false false g
    (Or.inl ⟨rfl, rfl⟩) hf he
  rw [Geom.stored_eq _ g hc hn] at h2
  have hw : (GeoSource.ofWkb fo dl bs).writeWkb .geopackage (GeoSource.ofWkb fo dl bs).dims
      (GeoSource.ofWkb fo dl bs).srid [] = (w.out, .ok ()) := by
    simp only [GeoSource.ofWkb, hd, hs]
    exact writeWkb_ok (hr _) h1
  have hi : isI32 (srid.getD 0) := by
    cases dl with
    | wkb => rw [h.1]; decide
    | ewkb => cases srid with
      | none => decide
      | some v => exact h.1 v rfl
    | geopackage => obtain ⟨_, s, _, rfl, hi, _⟩ := h; exact hi
    | mySQL => obtain ⟨n, rfl, hi, _⟩ := h; simp only [isI32, Option.getD]; omega
    | spatiaLite =>
      obtain ⟨_, s, _, rfl, hi, _⟩ := h
      split
      · decide
      · exact hi
  refine ⟨w.out, ?_, h2, fun sz => ?_⟩
  · simp only [gpkgEncode, hw, expectEncoded]
  · have h3 := C06_gpkg_decodes_partial fo { z, m } .le _ hi [] g w.out [] false h2 hl
    rw [List.append_nil] at h3
    exact geoFromWkb_congr fo sz _ _ _ _ _ _ _ _ _ h3 (hr false)

/-! ### C61: NULL, raw values, no panic -/

/-- Every `Decode` wrapper decodes to `None` exactly for SQL NULL. -/
theorem C61_null_is_none (fo : FOps) (sz : ElemSizes) (v : Option (List Byte)) :
    (gpkgDecode fo sz v = .ok none ↔ v = none) ∧ (pgSqlxDecode fo sz v = .ok none ↔ v = none) ∧
    (pgFromSql fo sz v = .ok none ↔ v = none) := by
  cases v with
  | none => exact ⟨⟨fun _ => rfl, fun _ => rfl⟩, ⟨fun _ => rfl, fun _ => rfl⟩, ⟨fun _ => rfl, fun _ => rfl⟩⟩
  | some b =>
    simp only [gpkgDecode, pgSqlxDecode, pgFromSql, reduceCtorEq, iff_false]
    cases geoFromWkb fo sz .geopackage b <;> cases geoFromWkb fo sz .ewkb b <;> simp

/-- What the macros generate rejects NULL with an error. -/
theorem C61_macro_rejects_null (fo : FOps) (sz : ElemSizes) :
    (∃ e, gpkgMacroDecode fo sz none = .error e ∧ e.isPanic = false) ∧
    (∃ e, pgSqlxMacroDecode fo sz none = .error e ∧ e.isPanic = false) ∧
    (∃ e, pgMacroFromSql fo sz none = .error e ∧ e.isPanic = false) :=
  ⟨⟨_, rfl, rfl⟩, ⟨_, rfl, rfl⟩, _, rfl, rfl⟩

/-- No column value whatsoever makes decoding panic. -/
theorem C61_decode_never_panics (fo : FOps) (sz : ElemSizes) (v : Option (List Byte)) (e : Err)
    (h : gpkgDecode fo sz v = .error e ∨ pgSqlxDecode fo sz v = .error e ∨ pgFromSql fo sz v = .error e ∨
      gpkgMacroDecode fo sz v = .error e ∨ pgSqlxMacroDecode fo sz v = .error e ∨
      pgMacroFromSql fo sz v = .error e) : e.isPanic = false := by
  cases v with
  | none =>
    simp only [gpkgDecode, pgSqlxDecode, pgFromSql, gpkgMacroDecode, pgSqlxMacroDecode, pgMacroFromSql,
      reduceCtorEq, false_or, or_self_left, Except.error.injEq] at h
    rcases h with h | h <;> (rw [← h]; rfl)
  | some b =>
    have hg := C16_from_wkb_never_panics fo sz .geopackage b e
    have he := C16_from_wkb_never_panics fo sz .ewkb b e
    simp only [gpkgDecode, pgSqlxDecode, pgFromSql, gpkgMacroDecode, pgSqlxMacroDecode, pgMacroFromSql] at h
    cases h1 : geoFromWkb fo sz .geopackage b <;> cases h2 : geoFromWkb fo sz .ewkb b <;>
      simp only [h1, h2, reduceCtorEq, Except.error.injEq, or_false, false_or, or_self, or_self_left] at h hg he <;>
      grind

/-- The raw wrappers keep the bytes; NULL becomes an empty value, which every later use reports as an error. -/
theorem C61_raw_keeps_bytes (fo : FOps) (blob : List Byte) :
    gpkgDecodeRaw (some blob) = .ok blob ∧ pgSqlxDecodeRaw (some blob) = .ok blob ∧
    pgFromSqlRaw (some blob) = .ok blob ∧ dieselFromSql (dieselToSql blob []) = blob ∧
    gpkgDecodeRaw none = .ok [] ∧ pgSqlxDecodeRaw none = .ok [] ∧ pgFromSqlRaw none = .ok [] ∧
    ∀ dl multi, ∃ e, run multi (processWkbTypeGeom fo dl) [] = ([], .error e) ∧ e.isPanic = false := by
  refine ⟨rfl, rfl, rfl, by simp [dieselFromSql, dieselToSql], rfl, rfl, rfl, fun dl multi => ?_⟩
  cases dl <;> exact ⟨_, rfl, rfl⟩

/-! ### C61: failures -/

/-- The rust-postgres encoder reports exactly the error `to_wkb_dialect` reports; the two sqlx encoders panic
instead. -/
theorem C61_encode_failure (v : GeoSource) (e : Err) :
    ((v.toEwkb v.dims v.srid = .error e) ↔ ∀ out, (pgToSql v out).2 = .error e) ∧
    ((∃ e, v.toEwkb v.dims v.srid = .error e) ↔
      ∀ buf, ∃ m, pgSqlxEncode v buf = .error (.panic m) ∧ pgSqlxMacroEncode v buf = .error (.panic m)) ∧
    ((∃ e, v.toGpkgWkb v.dims v.srid [] = .error e) ↔
      ∃ m, gpkgEncode v = .error (.panic m) ∧ gpkgMacroEncode v = .error (.panic m)) := by
  unfold GeoSource.toEwkb GeoSource.toGpkgWkb GeoSource.toWkbDialect pgToSql pgSqlxEncode pgSqlxMacroEncode
    gpkgEncode gpkgMacroEncode
  rcases v.writeWkb .ewkb v.dims v.srid [] with ⟨o1, r1⟩
  rcases v.writeWkb .geopackage v.dims v.srid [] with ⟨o2, r2⟩
  cases r1 <;> cases r2 <;> simp [expectEncoded]

/-- an EWKB value for an empty point, as PostGIS stores `POINT EMPTY` -/
def emptyPointBlob : List Byte :=
  [1, 1, 0, 0, 0, 0, 0, 0, 0, 0, 0, 0xF8, 0x7F, 0, 0, 0, 0, 0, 0, 0xF8, 0x7F]

/-- An empty point read from a database makes both sqlx encoders panic. -/
theorem C61_empty_point_panics_false (fo : FOps) :
    Holds .ewkb {} none .emptyPoint emptyPointBlob ∧
    pgSqlxEncode (.ofWkb fo .ewkb emptyPointBlob) [] = .error (.panic "Failed to encode Geometry") ∧
    gpkgEncode (.ofWkb fo .ewkb emptyPointBlob) = .error (.panic "Failed to encode Geometry") ∧
    (pgToSql (.ofWkb fo .ewkb emptyPointBlob) []).2 = .error
      (.geometry "The input was an empty Point, but the output doesn't support empty Points") := by
  refine ⟨⟨by simp, .le, trivial, _, ⟨⟨0x7FF8000000000000#64, 0x7FF8000000000000#64, none, none⟩, ?_, ?_, rfl⟩, ?_⟩,
    rfl, rfl, rfl⟩
  · exact ⟨rfl, rfl⟩
  · exact ⟨rfl, rfl, nofun, nofun⟩
  · decide +kernel

/-- a failing read fails whatever the processor does -/
theorem geoFromWkb_error (fo : FOps) (sz : ElemSizes) (dl : WkbDialect) (bs : List Byte)
    (h : ∃ e, (run false (processWkbTypeGeom fo dl) bs).2 = .error e) : ∃ e, geoFromWkb fo sz dl bs = .error e := by
  obtain ⟨e, he⟩ := h
  have h2 := interp_run (GeoWriter.proc sz) false (fun _ => rfl) (processWkbTypeGeom fo dl) {} bs
  unfold geoFromWkb
  rcases interp_spec (GeoWriter.proc sz) (processWkbTypeGeom fo dl) {} bs with h1 | ⟨_, _, x, -, -, -, hx⟩
  · have := (h2.2 h1).2
    rw [he] at this
    rcases hi : interp (GeoWriter.proc sz) (processWkbTypeGeom fo dl) {} bs with ⟨w, ev, r⟩
    rw [hi] at this
    simp only at this
    subst this
    exact ⟨_, rfl⟩
  · rcases hi : interp (GeoWriter.proc sz) (processWkbTypeGeom fo dl) {} bs with ⟨w, ev, r⟩
    rw [hi] at hx
    simp only at hx
    subst hx
    exact ⟨_, rfl⟩

/-- no blob with the GeoPackage magic number is EWKB -/
theorem gpkg_magic_not_ewkb (fo : FOps) (rest : List Byte) :
    ∃ e, (run false (processWkbTypeGeom fo .ewkb) (0x47 :: 0x50 :: rest)).2 = .error e := by
  match rest with
  | [] => exact ⟨_, rfl⟩
  | [_] => exact ⟨_, rfl⟩
  | [_, _] => exact ⟨_, rfl⟩
  | a :: b :: c :: rest =>
    have hdec : decUInt .le [0x50, a, b, c] % 256 = 80 := by
      simp only [decUInt, fromLE]
      rw [Nat.add_mul_mod_self_left]
      rfl
    have hb := fromU32_undeliverable 80 (by omega) rfl
    have hu : run false (readU32 .le) (0x50 :: a :: b :: c :: rest) = ([], .ok (decUInt .le [0x50, a, b, c], rest)) := rfl
    simp only [processWkbTypeGeom, processEwkbGeom, processTop, readEwkbHeader, bind_eq, bind_assoc,
      run_readByte_cons]
    have h47 : Endian.ofLE ((0x47 : Byte) != 0) = .le := rfl
    rw [h47, run_bind_ok_nil hu]
    simp only [pure_eq, ret_bind, hdec]
    by_cases ht : testBitN (decUInt .le [0x50, a, b, c]) 29 = true
    · simp only [ht, if_true, bind_assoc, ret_bind, run_emitEv_bind]
      match rest with
      | [] => exact ⟨_, rfl⟩
      | [_] => exact ⟨_, rfl⟩
      | [_, _] => exact ⟨_, rfl⟩
      | [_, _, _] => exact ⟨_, rfl⟩
      | r0 :: r1 :: r2 :: r3 :: rest =>
        have hi : run false (readI32 .le) (r0 :: r1 :: r2 :: r3 :: rest)
          = ([], .ok (i32OfNat (decUInt .le [r0, r1, r2, r3]), rest)) := rfl
        rw [run_bind_ok_nil hi, run_emitEv_bind, geomN_rejects fo _ 129 _ 0 hb]
        exact ⟨_, rfl⟩
    · simp only [ht, ret_bind, run_emitEv_bind, Bool.false_eq_true, if_false]
      rw [geomN_rejects fo _ 129 _ 0 hb]
      exact ⟨_, rfl⟩

/-- What `impl_sqlx_gpkg_encode!` writes, and any other GeoPackage blob, `impl_sqlx_gpkg_decode!` rejects: it
decodes EWKB. -/
theorem C61_gpkg_macro_false (fo : FOps) (sz : ElemSizes) (d : Dims) (he e : Endian) (srid : Int) (env : List F64)
    (g : Geom) (blob : List Byte) (h : Gpkg d he e srid env g blob) :
    ∃ x, gpkgMacroDecode fo sz (some blob) = .error x := by
  obtain ⟨hb, wb, rfl, ⟨v, code, x, y, -, rfl⟩, -⟩ := h
  exact geoFromWkb_error fo sz .ewkb _ (gpkg_magic_not_ewkb fo _)

/-- In particular nothing the macro pair stores can be loaded again. -/
theorem C61_gpkg_macro_round_trip_false (fo : FOps) (sz : ElemSizes) (dl : WkbDialect) (z m : Bool)
    (srid : Option Int) (g : Geom) (bs : List Byte) (h : Holds dl { z, m } srid g bs)
    (he : g.hasEmptyPoint = false) (hl : g.levels ≤ 128) :
    ∃ blob x, gpkgMacroEncode (.ofWkb fo dl bs) = .ok blob ∧ gpkgMacroDecode fo sz (some blob) = .error x := by
  obtain ⟨blob, h1, h2, -⟩ := C61_blob_to_gpkg fo dl z m srid g bs h he hl
  obtain ⟨x, hx⟩ := C61_gpkg_macro_false fo sz _ _ _ _ _ _ _ h2
  exact ⟨blob, x, h1, hx⟩

/-! ### `to_wkb`, `to_ewkb`, `to_gpkg_wkb`, `to_spatialite_wkb` -/

/-- a value whose `process_geom` delivers `g`, after an optional SRID, to a processor that wants z or m, or not -/
def GeoSource.Delivers (v : GeoSource) (multi : Bool) (g : Geom) : Prop :=
  ∃ (pre : List Ev) (rest : List Byte), (pre = [] ∨ ∃ s, pre = [.srid s]) ∧
    run multi v.prog v.bytes = (pre ++ g.events multi 0, .ok ((), rest))

theorem GeoSource.delivers_ofGeo (g : GeoGeom) (multi : Bool) : (GeoSource.ofGeo g).Delivers multi g.denote :=
  ⟨[], [], Or.inl rfl, C15_geo_reader_stream g multi []⟩

theorem GeoSource.delivers_ofWkb (fo : FOps) (dl : WkbDialect) (z m : Bool) (srid : Option Int) (g : Geom)
    (bs : List Byte) (h : Holds dl { z, m } srid g bs) (hl : g.levels ≤ 128) (multi : Bool) :
    (GeoSource.ofWkb fo dl bs).Delivers multi g :=
  ⟨[.srid srid], _, Or.inr ⟨_, rfl⟩, (holds_read fo dl z m srid g bs h hl).1 multi⟩

theorem GeoSource.toWkbDialect_of {v : GeoSource} {dl : WkbDialect} {d : Dims} {srid : Option Int} {env : List F64}
    {g : Geom} {w : WkbWriter} (hv : v.Delivers d.multi g)
    (hf : feed WkbWriter.step (WkbWriter.withOpts dl d srid env) (.srid none :: g.events d.multi 0) = .ok w) :
    v.toWkbDialect dl d srid env = .ok w.out := by
  obtain ⟨pre, rest, hp, hr⟩ := hv
  have : feed WkbWriter.step (WkbWriter.withOpts dl d srid env) (pre ++ g.events d.multi 0) = .ok w := by
    rcases hp with rfl | ⟨s, rfl⟩ <;> exact hf
  unfold GeoSource.toWkbDialect
  rw [writeWkb_ok hr this]

/-- Whatever kind of value it is called on, `to_wkb(dims)` writes ISO WKB of the geometry with the dimensions asked for. -/
theorem C07_to_wkb (v : GeoSource) (d : Dims) (g : Geom) (hv : v.Delivers d.multi g) (hf : g.Fits)
    (he : g.hasEmptyPoint = false) : ∃ out, v.toWkb d = .ok out ∧ OgcWkb d .le (g.stored d) out := by
  obtain ⟨w, h1, h2⟩ := C07_wkb_writer_conforms d none none [] g hf he
  exact ⟨w.out, GeoSource.toWkbDialect_of hv h1, h2⟩

/-- `to_ewkb(dims, srid)`: EWKB with this SRID. -/
theorem C07_to_ewkb (v : GeoSource) (d : Dims) (srid : Option Int) (g : Geom) (hv : v.Delivers d.multi g) (hf : g.Fits)
    (he : g.hasEmptyPoint = false) : ∃ out, v.toEwkb d srid = .ok out ∧ Ewkb d .le srid (g.stored d) out := by
  obtain ⟨w, h1, h2⟩ := C07_ewkb_writer_conforms d srid none [] g hf he
  exact ⟨w.out, GeoSource.toWkbDialect_of hv h1, h2⟩

/-- `to_gpkg_wkb(dims, srid, envelope)`: a GeoPackage blob with this SRID and envelope, for an empty envelope or one of
four numbers.  Missing: envelopes with z or m, for which it is false. -/
theorem C07_to_gpkg_wkb_partial (v : GeoSource) (d : Dims) (srid : Option Int) (env : List F64) (g : Geom)
    (hv : v.Delivers d.multi g) (henv : env.length = 0 ∨ env.length = 4) (hf : g.Fits) (he : g.hasEmptyPoint = false) :
    ∃ out, v.toGpkgWkb d srid env = .ok out ∧ Gpkg d .le .le (srid.getD 0) env (g.stored d) out := by
  obtain ⟨w, h1, h2⟩ := C07_gpkg_writer_conforms d d srid none env {} false false g (by
    unfold envelopeCodeOf
    rcases henv with h | h
    · exact Or.inl ⟨by simp [List.length_eq_zero_iff.mp h], h⟩
    · exact Or.inr (Or.inl ⟨by rw [if_neg (by intro h0; simp [h0] at h)]; rfl, h⟩)) hf he
  exact ⟨w.out, GeoSource.toWkbDialect_of hv h1, h2⟩

/-- `to_spatialite_wkb(dims, srid, envelope)`, with the restrictions of `C07_spatialite_writer_conforms_partial`. -/
theorem C07_to_spatialite_wkb_partial (v : GeoSource) (d : Dims) (srid : Option Int) (env : List F64) (g : Geom)
    (hv : v.Delivers d.multi g) (henv : env.length = 0 ∨ env.length = 4) (hsafe : slSafe g = true) (hf : g.Fits)
    (he : g.hasEmptyPoint = false) :
    ∃ out, v.toSpatialiteWkb d srid env = .ok out ∧
      SpatiaLite d .le (srid.getD 0) (if env = [] then [F64.zero, F64.zero, F64.zero, F64.zero] else env) (g.stored d) out := by
  obtain ⟨w, h1, h2⟩ := C07_spatialite_writer_conforms_partial d srid none env g henv hsafe hf he
  exact ⟨w.out, GeoSource.toWkbDialect_of hv h1, h2⟩

/-- `to_mysql_wkb(srid)`: two dimensions, from any kind of value. -/
theorem C07_to_mysql_wkb (v : GeoSource) (srid : Option Int) (g : Geom) (hv : v.Delivers false g)
    (hs : ∀ n ∈ srid, 0 ≤ n) (hf : g.Fits) (he : g.hasEmptyPoint = false) :
    ∃ out, v.toMysqlWkb srid = .ok out ∧ MySql {} (srid.getD 0).toNat (g.stored {}) out := by
  obtain ⟨w, h1, h2⟩ := C07_mysql_writer_conforms {} srid none [] g hs hf he
  exact ⟨w.out, GeoSource.toWkbDialect_of hv h1, h2⟩

/-- An envelope of six numbers given to `to_gpkg_wkb` is announced as one of four: the blob cannot be read. -/
theorem C07_to_gpkg_wkb_envelope_false (fo : FOps) :
    ∃ (g : GeoGeom) (env : List F64) (out : List Byte) (x : Err), env.length = 6 ∧
      (GeoSource.ofGeo g).toGpkgWkb {} none env = .ok out ∧
      (run false (processWkbTypeGeom fo .geopackage) out).2 = .error x :=
  ⟨.point ⟨1#64, 2#64⟩, [0x3FF0000000000000#64, 0x3FF0000000000000#64, 0x3FF0000000000000#64, 0x3FF0000000000000#64, 0x3FF0000000000000#64, 0x3FF0000000000000#64],
    _, _, rfl, rfl, rfl⟩

/-! ### `to_mysql_wkb` -/

/-- `to_mysql_wkb` has no dimensions argument: of a geometry with z or m it stores x and y. -/
theorem C04_to_mysql_wkb_is_two_dimensional (fo : FOps) (dl : WkbDialect) (z m : Bool) (srid srid' : Option Int)
    (g : Geom) (bs : List Byte) (h : Holds dl { z, m } srid g bs) (he : g.hasEmptyPoint = false)
    (hl : g.levels ≤ 128) (hs : ∀ v ∈ srid', 0 ≤ v) :
    ∃ out, (GeoSource.ofWkb fo dl bs).toMysqlWkb srid' = .ok out ∧
      MySql {} (srid'.getD 0).toNat (g.stored {}) out := by
  obtain ⟨hr, -, -, hf, -, -⟩ := holds_read fo dl z m srid g bs h hl
  obtain ⟨w, h1, h2⟩ := C07_mysql_writer_conforms {} srid' srid [] g hs hf he
  refine ⟨w.out, ?_, h2⟩
  unfold GeoSource.toMysqlWkb GeoSource.toWkbDialect
  rw [writeWkb_ok (v := GeoSource.ofWkb fo dl bs) (hr _) h1]

/-! ### Non-vacuity -/

/-- big-endian EWKB of `POINT Z(1 2 3)` (bit patterns) with SRID 4326 -/
def dbBlob : List Byte :=
  0 :: encU32 .be (ewkbCode { z := true } true 1) ++ encI32 .be 4326 ++
    (encF64 .be 1#64 ++ encF64 .be 2#64 ++ encF64 .be 3#64)

example : Holds .ewkb { z := true, m := false } (some 4326) (.point ⟨1#64, 2#64, some 3#64, none⟩) dbBlob ∧
    (Geom.point ⟨1#64, 2#64, some 3#64, none⟩).hasEmptyPoint = false ∧
    (Geom.point ⟨1#64, 2#64, some 3#64, none⟩).levels ≤ 128 := by
  refine ⟨⟨by decide, .be, ⟨rfl, rfl⟩, _, ⟨fun h => absurd h.1 (by decide), rfl⟩, ?_⟩, rfl, by decide⟩
  decide +kernel

/-- geo-types: a point satisfies the hypotheses of the round trip -/
example : (GeoGeom.point ⟨1#64, 2#64⟩).Closed ∧ (GeoGeom.point ⟨1#64, 2#64⟩).denote.hasNaNPoint = false ∧
    (GeoGeom.point ⟨1#64, 2#64⟩).denote.levels ≤ 128 := by
  refine ⟨trivial, by decide, by decide⟩

/-- failures exist and are not panics for rust-postgres -/
example (fo : FOps) : ∃ e, (GeoSource.ofWkb fo .ewkb []).toEwkb {} none = .error e := ⟨_, rfl⟩

/-- a value for the `to_*` methods: a geo-types line, stored without z -/
example : (GeoSource.ofGeo (.lineString [⟨1#64, 2#64⟩, ⟨3#64, 4#64⟩])).Delivers true
      (.lineString [⟨1#64, 2#64, none, none⟩, ⟨3#64, 4#64, none, none⟩]) ∧
    (Geom.lineString [⟨1#64, 2#64, none, none⟩, ⟨3#64, 4#64, none, none⟩]).Fits ∧
    (Geom.lineString [⟨1#64, 2#64, none, none⟩, ⟨3#64, 4#64, none, none⟩]).hasEmptyPoint = false ∧
    slSafe (Geom.lineString [⟨1#64, 2#64, none, none⟩, ⟨3#64, 4#64, none, none⟩]) = true :=
  ⟨GeoSource.delivers_ofGeo _ _, by simp [Geom.Fits, Geom.Lens], rfl, rfl⟩

end Geozero
