import Verif.Model.Shp

/-
Opening a shapefile: `ShpReader` (reader.rs:101-231).  The `dbase` crate is a parameter.
-/

namespace Geozero

/-- `dbase::FieldInfo`: the part that is looked at, and the rest (external; shp/reader.rs:146) -/
structure DbfField where
  name : Text
  kind : Char
  length : Nat
deriving DecidableEq, Repr

/-- an open `dbase::Reader`: its fields and what successive calls of `iter_records().next()` return.
Simplification: the end of the list is `None` (see `Model/Input.lean` for tables that do not end).
(external; shp/reader.rs:106) -/
structure DbfTable where
  fields : List DbfField
  rows : List (Except Err ShpRow)

/-- the `dbase` crate: `dbase::Reader::new` (external; shp/reader.rs:200) -/
structure DbaseLib where
  openTable : List Byte → Except Err DbfTable

/-- what is at a path: nothing, something that cannot be opened, or a file (the paths of shp/reader.rs:214-226) -/
inductive FileEntry
  | absent
  | locked
  | file (bytes : List Byte)
deriving DecidableEq, Repr

/-- the file system (the paths of shp/reader.rs:214-226) -/
abbrev FileTree := Text → FileEntry

/-- `Path::exists` (std) (called in shp/reader.rs:220, 225) -/
def FileEntry.exists : FileEntry → Bool
  | .absent => false
  | _ => true

/-- `File::open` (std), and all it will read (called in shp/reader.rs:217, 221, 226) -/
def FileEntry.open : FileEntry → Except Err (List Byte)
  | .file bytes => .ok bytes
  | _ => .error .io

/-- what is after the last slash (for `Path::with_extension`, shp/reader.rs:214-215) -/
def fileName (p : Text) : Text := (p.reverse.takeWhile (· ≠ '/')).reverse

/-- `Path::with_extension` (std): what is after the last dot of the file name is replaced; a dot at its beginning does not count.
Simplification: paths that end in a slash or in a `.` component are left as they are.
(called in shp/reader.rs:214-215) -/
def withExtension (p ext : Text) : Text :=
  let name := fileName p
  let dir := p.take (p.length - name.length)
  if name = [] ∨ name = ['.'] ∨ name = ['.', '.'] then p
  else
    match name.reverse.dropWhile (· ≠ '.') with
    | [] => p ++ '.' :: ext
    | _ :: before => if before = [] then p ++ '.' :: ext else dir ++ before.reverse ++ '.' :: ext

/-- `ShpReader` (reader.rs:102-107); the source is what is not yet read of it -/
structure ShpReader where
  source : List Byte
  header : ShpHeader
  index : Option (List (Int × Int)) := none
  table : Option DbfTable := none

namespace ShpReader

/-- the error of a function that needs the attribute table (shp/reader.rs:139, 145, 185) -/
def missingDbf : Err := .shp "MissingDbf"

/-- `ShpReader::new` (reader.rs:121-130) -/
def new (source : List Byte) : Except Err ShpReader :=
  match Prog.run false readShpHeader source with
  | (_, .ok (header, rest)) => .ok { source := rest, header }
  | (_, .error e) => .error e

/-- `read_records` (reader.rs:138-141); `dbase::Reader::read` returns all records or the first error -/
def readRecords (r : ShpReader) : Except Err (List ShpRow) :=
  match r.table with
  | none => .error missingDbf
  | some t => t.rows.mapM id

/-- `dbf_fields` (reader.rs:144-153) -/
def dbfFields (r : ShpReader) : Except Err (List DbfField) :=
  match r.table with
  | none => .error missingDbf
  | some t => .ok (t.fields.filter fun f => f.name ≠ txt "DeletionFlag")

/-- `iter_geometries` (reader.rs:155-165), run to the end on the source of the reader -/
def iterGeometries (ar : ShpArith) (r : ShpReader) : FProg Unit :=
  FProg.bind (FProg.lift (doubleI32 r.header.fileLength)) fun len =>
    shapesLoop ar (i32AsUsize len) (i32AsUsize len + 1) 100

/-- `iter_features` (reader.rs:172-187), run to the end on the source of the reader -/
def iterFeatures (ar : ShpArith) (r : ShpReader) : FProg Unit :=
  match r.table with
  | none => .fail missingDbf
  | some t => FProg.bind (FProg.lift (doubleI32 r.header.fileLength)) fun len =>
    featuresLoop ar (i32AsUsize len) (t.rows.length + 1) { featno := 0, pos := 100, rows := t.rows }

/-- `add_index_source` (reader.rs:193-196) -/
def addIndexSource (r : ShpReader) (source : List Byte) : Except Err ShpReader :=
  match Prog.run false readIndexFile source with
  | (_, .ok (index, _)) => .ok { r with index := some index }
  | (_, .error e) => .error e

/-- `add_dbf_source` (reader.rs:199-203) -/
def addDbfSource (lib : DbaseLib) (r : ShpReader) (source : List Byte) : Except Err ShpReader :=
  match lib.openTable source with
  | .ok table => .ok { r with table := some table }
  | .error e => .error e

/-- `from_path` (reader.rs:212-230) -/
def fromPath (lib : DbaseLib) (fs : FileTree) (path : Text) : Except Err ShpReader := do
  let shxPath := withExtension path (txt "shx")
  let dbfPath := withExtension path (txt "dbf")
  let source ← (fs path).open
  let reader ← new source
  let reader ←
    if (fs shxPath).exists then do
      let indexSource ← (fs shxPath).open
      addIndexSource reader indexSource
    else .ok reader
  if (fs dbfPath).exists then do
    let dbfSource ← (fs dbfPath).open
    addDbfSource lib reader dbfSource
  else .ok reader

end ShpReader

end Geozero
