import Verif.Model.Property
import Verif.Spec.Features
import Verif.Lemmas.Feature
import Verif.Lemmas.Values

/-
C35 (property lookup), C36 (property maps), and properties of shapefile records.
-/

namespace Geozero

/-- the column value holding a value of the given scalar type -/
def ReadTy.column : (ty : ReadTy) → ty.Val → ColVal
  | .i8, v => .byte v
  | .u8, v => .ubyte v
  | .bool, v => .bool v
  | .i16, v => .short v
  | .u16, v => .ushort v
  | .i32, v => .int v
  | .u32, v => .uint v
  | .i64, v => .long v
  | .u64, v => .ulong v
  | .f32, v => .float v
  | .f64, v => .double v
  | .string, v => .string v

/-- A typed getter of a scalar type succeeds exactly on the corresponding variant, and returns the stored value
unchanged. -/
theorem C35_scalar_getter (fmt : Fmt) (ty : ReadTy) (hty : ty ≠ .string) (v : ColVal) (x : ty.Val) :
    getValue fmt ty v = .ok x ↔ v = ty.column x := by
  cases ty <;> first | exact absurd rfl hty | skip
  all_goals
    cases v <;> first
      | exact ⟨fun h => by cases h; rfl, fun h => by cases h; rfl⟩
      | exact ⟨fun h => (by cases h), fun h => (by cases h)⟩

/-- Otherwise it fails with a type error; it never converts. -/
theorem C35_scalar_getter_error (fmt : Fmt) (ty : ReadTy) (v : ColVal)
    (h : ∀ x : ty.Val, v ≠ ty.column x) (hty : ty ≠ .string) : ∃ m, getValue fmt ty v = .error (.columnType m) := by
  cases ty <;> first | exact absurd rfl hty | skip
  all_goals (cases v <;> first | exact ⟨_, rfl⟩ | exact absurd rfl (h _))

/-- The string getter always succeeds, with the printed value. -/
theorem C35_string_getter (fmt : Fmt) (v : ColVal) : getValue fmt .string v = .ok (v.display fmt) := by
  cases v <;> rfl

private theorem interp_reader (fmt : Fmt) (ty : ReadTy) (name : Text) (ps : List PropRec) (s : Except Err ty.Val) :
    (FProg.interp (propertyReader fmt ty name) (propsProg ps) s []).1 =
        (match ps.find? (fun p => p.2.1 = name) with | none => s | some p => getValue fmt ty p.2.2) ∧
    (FProg.interp (propertyReader fmt ty name) (propsProg ps) s []).2.2 =
        .ok ((ps.any fun p => p.2.1 = name), []) ∧
    (FProg.interp (propertyReader fmt ty name) (propsProg ps) s []).2.1 =
        propEvs (ps.takeWhile (fun p => p.2.1 ≠ name) ++ (ps.dropWhile (fun p => p.2.1 ≠ name)).take 1) := by
  induction ps generalizing s with
  | nil => exact ⟨rfl, rfl, rfl⟩
  | cons p ps ih =>
    obtain ⟨i, n, v⟩ := p
    simp only [propsProg, FProg.interp, propertyReader]
    by_cases h : n = name
    · subst h
      simp [FProg.interp, propEvs]
    · simp only [h, if_false, decide_false, Bool.false_eq_true]
      have := ih s
      simp only [propertyReader] at this
      refine ⟨?_, ?_, ?_⟩
      · rw [this.1]; simp [List.find?_cons, h]
      · rw [this.2.1]; simp [h]
      · rw [this.2.2]; simp [h, propEvs]

/-- `property(name)`: the value of the first property with that name, converted; `ColumnNotFound` if there is none. -/
theorem C35_by_name (fmt : Fmt) (ps : List PropRec) (ty : ReadTy) (name : Text) :
    propertyByName fmt (propsProg ps) ty name =
      match ps.find? (fun p => p.2.1 = name) with
      | none => .error .columnNotFound
      | some p => getValue fmt ty p.2.2 := by
  have h := interp_reader fmt ty name ps (.error .columnNotFound)
  unfold propertyByName
  generalize hr : FProg.interp (propertyReader fmt ty name) (propsProg ps) (.error .columnNotFound) [] = r at h
  obtain ⟨a, b, c⟩ := r
  obtain ⟨h1, h2, -⟩ := h
  simp only at h1 h2
  subst h1
  subst h2
  rfl

/-- ... and the lookup stops right after that property. -/
theorem C35_by_name_stops (fmt : Fmt) (pre post : List PropRec) (i : Nat) (v : ColVal) (ty : ReadTy) (name : Text)
    (hpre : ∀ p ∈ pre, p.2.1 ≠ name) :
    (FProg.interp (propertyReader fmt ty name) (propsProg (pre ++ (i, name, v) :: post)) (.error .columnNotFound) []).2.1
      = propEvs (pre ++ [(i, name, v)]) := by
  rw [(interp_reader fmt ty name _ _).2.2]
  congr 1
  have h1 : (pre ++ (i, name, v) :: post).takeWhile (fun p => decide (p.2.1 ≠ name)) = pre := by
    rw [List.takeWhile_append_of_pos (by simpa using hpre)]
    simp
  have h2 : (pre ++ (i, name, v) :: post).dropWhile (fun p => decide (p.2.1 ≠ name)) = (i, name, v) :: post := by
    rw [List.dropWhile_append_of_pos (by simpa using hpre)]
    simp
  rw [h1, h2]
  rfl

private theorem interp_readerIdx (fmt : Fmt) (ty : ReadTy) (n : Nat) (ps : List PropRec) (s : Except Err ty.Val) :
    (FProg.interp (propertyReaderIdx fmt ty n) (propsProg ps) s []).1 =
        (match ps.find? (fun p => p.1 = n) with | none => s | some p => getValue fmt ty p.2.2) ∧
    (FProg.interp (propertyReaderIdx fmt ty n) (propsProg ps) s []).2.2 = .ok ((ps.any fun p => p.1 = n), []) := by
  induction ps generalizing s with
  | nil => exact ⟨rfl, rfl⟩
  | cons p ps ih =>
    obtain ⟨i, m, v⟩ := p
    simp only [propsProg, FProg.interp, propertyReaderIdx]
    by_cases h : i = n
    · subst h
      simp [FProg.interp]
    · simp only [h, if_false, decide_false, Bool.false_eq_true]
      have := ih s
      simp only [propertyReaderIdx] at this
      refine ⟨?_, ?_⟩
      · rw [this.1]; simp [List.find?_cons, h]
      · rw [this.2]; simp [h]

/-- `property_n(n)`: the value of the (first) property with that index, converted; `ColumnNotFound` if there is none. -/
theorem C35_by_index (fmt : Fmt) (ps : List PropRec) (ty : ReadTy) (n : Nat) :
    propertyByIdx fmt (propsProg ps) ty n =
      match ps.find? (fun p => p.1 = n) with
      | none => .error .columnNotFound
      | some p => getValue fmt ty p.2.2 := by
  have h := interp_readerIdx fmt ty n ps (.error .columnNotFound)
  unfold propertyByIdx
  generalize hr : FProg.interp (propertyReaderIdx fmt ty n) (propsProg ps) (.error .columnNotFound) [] = r at h
  obtain ⟨a, b, c⟩ := r
  obtain ⟨h1, h2⟩ := h
  simp only at h1 h2
  subst h1
  subst h2
  rfl

/-- For properties numbered 0, 1, ... `property_n(n)` is the n-th property. -/
theorem C35_by_position (fmt : Fmt) (ps : List (Text × ColVal)) (ty : ReadTy) (n : Nat) :
    propertyByIdx fmt (propsProg (enumFrom 0 ps)) ty n =
      match ps[n]? with
      | none => .error .columnNotFound
      | some p => getValue fmt ty p.2 := by
  rw [C35_by_index]
  have : ∀ (ps : List (Text × ColVal)) (i : Nat), (enumFrom i ps).find? (fun p => p.1 = i + n) =
      (ps[n]?).map fun p => (i + n, p) := by
    intro ps
    induction n generalizing ps with
    | zero =>
      intro i
      cases ps <;> simp [enumFrom]
    | succ n ih =>
      intro i
      cases ps with
      | nil => rfl
      | cons p ps =>
        have h := ih ps (i + 1)
        rw [show i + 1 + n = i + (n + 1) by omega] at h
        simp [enumFrom, List.find?_cons, h]
  have h := this ps 0
  rw [Nat.zero_add] at h
  rw [h]
  cases ps[n]? <;> rfl

example (fmt : Fmt) :
    propertyByName fmt (propsProg [(0, txt "a", .int 1), (1, txt "b", .string (txt "x")), (2, txt "b", .int 7)]) .i32
      (txt "b") = .error (.columnType "ColumnValue::Int") ∧
    propertyByName fmt (propsProg [(0, txt "a", .int 1), (1, txt "b", .string (txt "x")), (2, txt "b", .int 7)]) .string
      (txt "b") = .ok (txt "x") ∧
    propertyByIdx fmt (propsProg [(0, txt "a", .int 1), (1, txt "b", .string (txt "x")), (2, txt "b", .int 7)]) .i32 2 =
      .ok (7 : Int32) := by
  refine ⟨?_, ?_, ?_⟩ <;> rfl

/-! ## C36 -/

private theorem interp_hashMap (fmt : Fmt) (ps : List PropRec) (m : Text → Option Text) :
    (FProg.interp (hashMapProc fmt) (propsProg ps) m []).1 =
        (fun k => match ps.reverse.find? (fun p => p.2.1 = k) with
          | none => m k
          | some p => some (p.2.2.display fmt)) ∧
    (FProg.interp (hashMapProc fmt) (propsProg ps) m []).2.2 = .ok (false, []) := by
  induction ps generalizing m with
  | nil => exact ⟨rfl, rfl⟩
  | cons p ps ih =>
    obtain ⟨i, n, v⟩ := p
    simp only [propsProg, FProg.interp, hashMapProc, Bool.false_eq_true, if_false]
    have := ih (fun k => if k = n then some (v.display fmt) else m k)
    simp only [hashMapProc] at this
    refine ⟨?_, this.2⟩
    rw [this.1]
    funext k
    rw [List.reverse_cons, List.find?_append]
    cases h : ps.reverse.find? (fun p => decide (p.2.1 = k)) with
    | some q => rfl
    | none =>
      by_cases hk : n = k
      · subst hk; simp
      · have hk' : k ≠ n := fun h => hk h.symm
        simp [hk, hk']

/-- `properties()` of every property list succeeds with the map that gives, for a name, the printed value of the last
property with that name. -/
theorem C36_map (fmt : Fmt) (ps : List PropRec) :
    propertyMap fmt (propsProg ps) =
      .ok fun k => (ps.reverse.find? (fun p => p.2.1 = k)).map fun p => p.2.2.display fmt := by
  have h := interp_hashMap fmt ps (fun _ => none)
  unfold propertyMap
  generalize hr : FProg.interp (hashMapProc fmt) (propsProg ps) (fun _ => none) [] = r at h
  obtain ⟨a, b, c⟩ := r
  obtain ⟨h1, h2⟩ := h
  simp only at h1 h2
  subst h1
  subst h2
  simp only []
  congr 1
  funext k
  cases ps.reverse.find? (fun p => decide (p.2.1 = k)) <;> rfl

/-- The keys are exactly the names; the value of a name is that of its last property. -/
theorem C36_keys_and_last (fmt : Fmt) (ps : List PropRec) (m : Text → Option Text)
    (h : propertyMap fmt (propsProg ps) = .ok m) :
    (∀ k, (m k).isSome ↔ k ∈ ps.map (fun p => p.2.1)) ∧
    (∀ pre i k v post, ps = pre ++ (i, k, v) :: post → (∀ p ∈ post, p.2.1 ≠ k) → m k = some (v.display fmt)) := by
  rw [C36_map] at h
  cases h
  refine ⟨fun k => ?_, ?_⟩
  · simp [List.find?_isSome]
  · intro pre i k v post hps hpost
    subst hps
    simp only [List.reverse_append, List.reverse_cons, List.append_assoc, List.find?_append]
    have : post.reverse.find? (fun p => decide (p.2.1 = k)) = none := by
      simpa [List.find?_eq_none] using hpost
    simp [this]

example (fmt : Fmt) : ∃ m,
    propertyMap fmt (propsProg [(0, txt "a", .bool true), (1, txt "b", .string (txt "x")), (2, txt "a", .binary [1])]) =
      .ok m ∧ m (txt "a") = some (txt "[BINARY]") ∧ m (txt "b") = some (txt "x") ∧ m (txt "c") = none :=
  ⟨_, C36_map fmt _, rfl, rfl, rfl⟩

/-! ### printed values -/

/-- The printed form of an integer value reads back as that integer. -/
theorem C36_display_integer (fmt : Fmt) (v : ColVal) (i : Int) (h : v.content = some (.int i)) :
    decimal (v.display fmt) = some i := by
  cases v <;> simp only [ColVal.content, Option.some.injEq, Content.int.injEq, reduceCtorEq] at h <;> subst h <;>
    exact decimal_intText _

/-- Strings, dates and JSON are printed as they are, booleans as `true`/`false`, floats by the formatter. -/
theorem C36_display_other (fmt : Fmt) (v : ColVal) :
    (∀ t, v.content = some (.text t) → v.display fmt = t) ∧
    (∀ t, v.content = some (.json t) → v.display fmt = t) ∧
    (∀ t, v.content = some (.date t) → v.display fmt = t) ∧
    (∀ b, v.content = some (.bool b) → v.display fmt = if b then txt "true" else txt "false") ∧
    (∀ x, v.content = some (.float64 x) → v.display fmt = fmt.f64 x) ∧
    (∀ x, v.content = some (.float32 x) → v.display fmt = fmt.f32 x) := by
  cases v <;> simp [ColVal.content, ColVal.display]

example (fmt : Fmt) : (ColVal.short (-300)).display fmt = txt "-300" := by
  have : ((-300 : Int16).toInt) = -300 := by decide
  simp only [ColVal.display, this]
  simp [intText, natText, txt]

/-! ## records of a shapefile -/

/-- Each field is delivered with its content unchanged; null fields have none. -/
theorem C35_shape_field (f : FieldValue) : f.column.bind ColVal.content = f.content := by
  cases f with
  | character v => cases v <;> rfl
  | numeric v => cases v <;> rfl
  | logical v => cases v <;> rfl
  | date v => cases v <;> rfl
  | float v => cases v <;> rfl
  | integer v => rfl
  | currency v => rfl
  | dateTime v => rfl
  | double v => rfl
  | memo v => rfl

/-- the fields that are not null, numbered from `i` -/
def recordProps (i : Nat) (rec : List (Text × FieldValue)) : List PropRec :=
  enumFrom i (rec.filterMap fun f => f.2.column.map fun v => (f.1, v))

/-- A shapefile record delivers its non-null fields, numbered 0, 1, ..., and stops when told to. -/
theorem C35_shape_record (rec : List (Text × FieldValue)) :
    shapeRecordProperties rec = propsProg (recordProps 0 rec) := by
  unfold shapeRecordProperties recordProps
  generalize 0 = i
  induction rec generalizing i with
  | nil => rfl
  | cons f rec ih =>
    obtain ⟨n, v⟩ := f
    simp only [shapeRecordLoop]
    cases hv : v.column with
    | none => simp only [hv, List.filterMap_cons, Option.map_none]; exact ih i
    | some c =>
      simp only [hv, List.filterMap_cons, Option.map_some, enumFrom, propsProg]
      congr
      funext b
      rw [ih (i + 1)]

/-- For a record (whose field names are distinct): `property(name)` succeeds exactly when the field is there, not
null, and of the requested type; it then returns the field's value. -/
theorem C35_shape_record_by_name (fmt : Fmt) (rec : List (Text × FieldValue)) (hd : (rec.map Prod.fst).Nodup)
    (ty : ReadTy) (name : Text) (x : ty.Val) :
    propertyByName fmt (shapeRecordProperties rec) ty name = .ok x ↔
      ∃ f v, (name, f) ∈ rec ∧ f.column = some v ∧ getValue fmt ty v = .ok x := by
  rw [C35_shape_record, C35_by_name]
  unfold recordProps
  generalize 0 = i
  induction rec generalizing i with
  | nil => simp [enumFrom]
  | cons f rec ih =>
    obtain ⟨n, w⟩ := f
    simp only [List.map_cons, List.nodup_cons] at hd
    have hn : n = name → ∀ f, (name, f) ∉ rec := by
      rintro rfl f hf
      exact hd.1 (List.mem_map.mpr ⟨_, hf, rfl⟩)
    cases hw : w.column with
    | none =>
      simp only [hw, List.filterMap_cons, Option.map_none]
      rw [ih hd.2 i]
      constructor
      · rintro ⟨f, v, h1, h2, h3⟩
        exact ⟨f, v, List.mem_cons_of_mem _ h1, h2, h3⟩
      · rintro ⟨f, v, h1, h2, h3⟩
        rcases List.mem_cons.mp h1 with h | h
        · cases h; rw [hw] at h2; cases h2
        · exact ⟨f, v, h, h2, h3⟩
    | some c =>
      simp only [hw, List.filterMap_cons, Option.map_some, enumFrom, List.find?_cons]
      by_cases hne : n = name
      · subst hne
        simp only [decide_true]
        constructor
        · intro h; exact ⟨w, c, by simp, hw, h⟩
        · rintro ⟨f, v, h1, h2, h3⟩
          rcases List.mem_cons.mp h1 with h | h
          · cases h; rw [hw] at h2; cases h2; exact h3
          · exact absurd h (hn rfl f)
      · simp only [hne, decide_false]
        rw [ih hd.2 (i + 1)]
        constructor
        · rintro ⟨f, v, h1, h2, h3⟩
          exact ⟨f, v, List.mem_cons_of_mem _ h1, h2, h3⟩
        · rintro ⟨f, v, h1, h2, h3⟩
          rcases List.mem_cons.mp h1 with h | h
          · cases h; exact absurd rfl hne
          · exact ⟨f, v, h, h2, h3⟩

/-- The index of a field is not its column: null fields are not counted, so the same column has different indices in
different records. -/
theorem C35_shape_record_index_false (fmt : Fmt) :
    propertyByIdx fmt (shapeRecordProperties [(txt "a", .integer 1), (txt "b", .integer 2)]) .i32 1 = .ok (2 : Int32) ∧
    propertyByIdx fmt (shapeRecordProperties [(txt "a", .logical none), (txt "b", .integer 2)]) .i32 1 =
      .error .columnNotFound := by
  constructor <;> rfl

example : (([(txt "a", FieldValue.integer 1), (txt "b", .numeric none)] : List (Text × FieldValue)).map Prod.fst).Nodup := by
  decide

end Geozero
