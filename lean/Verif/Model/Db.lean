import Verif.Model.GeoTypes
import Verif.Model.WkbWriter
import Verif.Model.Wkt

/-
Models the database bindings: /repo/geozero/src/gpkg/geopackage.rs (SQLite / GeoPackage),
/repo/geozero/src/postgis/postgis_sqlx.rs, postgis_postgres.rs and postgis_diesel.rs (PostGIS), and the provided
methods of `ToWkb` in /repo/geozero/src/wkb/mod.rs, of `ToWkt` in /repo/geozero/src/wkt/mod.rs, and `FromWkb` for the WKT types.

A column value is `none` (SQL NULL) or the bytes of the blob.  Not modelled: the drivers, in particular the
failure of `<&[u8] as Decode>::decode` for a value that is no blob; type names (`type_info`, `accepts`); the
wrapping of an error into `sqlx::Error::Decode` (the model keeps the geozero error itself).
-/

namespace Geozero
open Prog

/-- A value implementing `GeozeroGeometry` (api.rs:12-30): what `process_geom` does, the bytes it owns, and the
answers of `dims()` and `srid()`. -/
structure GeoSource where
  prog : Prog Unit
  bytes : List Byte
  dims : Dims
  srid : Option Int

/-- a geo-types value: `dims()` and `srid()` are the trait defaults (api.rs:23-29) -/
def GeoSource.ofGeo (g : GeoGeom) : GeoSource := { prog := geoProcessGeom g, bytes := [], dims := {}, srid := none }

/-- `Wkb`, `Ewkb`, `GpkgWkb`, `SpatiaLiteWkb` or `MySQLWkb` around bytes (wkb_reader.rs:14-112) -/
def GeoSource.ofWkb (fo : FOps) (dl : WkbDialect) (bs : List Byte) : GeoSource :=
  { prog := processWkbTypeGeom fo dl, bytes := bs, dims := wkbDims dl bs, srid := wkbSrid dl bs }

/-- running `process_geom` with `WkbWriter::with_opts(_, dialect, dims, srid, env)`: the bytes written, also
when the call fails, and the outcome
(wkb/mod.rs:94-97, gpkg/geopackage.rs:56, 130, postgis_postgres.rs:46, 111, postgis_sqlx.rs:74, 154) -/
def GeoSource.writeWkb (v : GeoSource) (dialect : WkbDialect) (dims : Dims) (srid : Option Int) (env : List F64) :
    List Byte × Except Err Unit :=
  match interp WkbWriter.proc v.prog (WkbWriter.withOpts dialect dims srid env) v.bytes with
  | (w, _, .ok _) => (w.out, .ok ())
  | (w, _, .error e) => (w.out, .error e)

/-- `ToWkb::to_wkb_dialect` (wkb/mod.rs:84-97) -/
def GeoSource.toWkbDialect (v : GeoSource) (dialect : WkbDialect) (dims : Dims) (srid : Option Int)
    (env : List F64) : Except Err (List Byte) :=
  match v.writeWkb dialect dims srid env with
  | (out, .ok _) => .ok out
  | (_, .error e) => .error e

/-- `ToWkb::to_wkb` (wkb/mod.rs:48-50) -/
def GeoSource.toWkb (v : GeoSource) (dims : Dims) : Except Err (List Byte) := v.toWkbDialect .wkb dims none []
/-- `ToWkb::to_ewkb` (wkb/mod.rs:52-54) -/
def GeoSource.toEwkb (v : GeoSource) (dims : Dims) (srid : Option Int) : Except Err (List Byte) :=
  v.toWkbDialect .ewkb dims srid []
/-- `ToWkb::to_gpkg_wkb` (wkb/mod.rs:56-63) -/
def GeoSource.toGpkgWkb (v : GeoSource) (dims : Dims) (srid : Option Int) (env : List F64) :
    Except Err (List Byte) := v.toWkbDialect .geopackage dims srid env
/-- `ToWkb::to_spatialite_wkb` (wkb/mod.rs:65-72) -/
def GeoSource.toSpatialiteWkb (v : GeoSource) (dims : Dims) (srid : Option Int) (env : List F64) :
    Except Err (List Byte) := v.toWkbDialect .spatiaLite dims srid env
/-- `ToWkb::to_mysql_wkb` (wkb/mod.rs:74-81) -/
def GeoSource.toMysqlWkb (v : GeoSource) (srid : Option Int) : Except Err (List Byte) :=
  v.toWkbDialect .mySQL {} srid []

/-- `ToWkt::to_wkt_with_opts` (wkt/mod.rs:45-57); the output is text by construction, so the UTF-8 check of the
code cannot fail -/
def GeoSource.toWktWithOpts (num : F64 → Text) (v : GeoSource) (dialect : WktDialect) (dims : Dims)
    (srid : Option Int) : Except Err Text := Geozero.toWktWithOpts num v.prog dialect dims srid v.bytes
/-- `ToWkt::to_wkt` (wkt/mod.rs:33-35) -/
def GeoSource.toWkt (num : F64 → Text) (v : GeoSource) : Except Err Text := v.toWktWithOpts num .wkt {} none
/-- `ToWkt::to_ewkt` (wkt/mod.rs:37-39); `CoordDimensions::xyzm()` has z and m -/
def GeoSource.toEwkt (num : F64 → Text) (v : GeoSource) (srid : Option Int) : Except Err Text :=
  v.toWktWithOpts num .ewkt { z := true, m := true } srid
/-- `ToWkt::to_wkt_ndim` (wkt/mod.rs:41-43) -/
def GeoSource.toWktNdim (num : F64 → Text) (v : GeoSource) (dims : Dims) : Except Err Text :=
  v.toWktWithOpts num .wkt dims none

/-- `from_wkb` of `Wkt<String>` and the deprecated `WktString` (wkt/mod.rs:71-81, 97-108) -/
def wktFromWkb (num : F64 → Text) (fo : FOps) (dl : WkbDialect) (bs : List Byte) : Except Err Text :=
  Geozero.toWktWithOpts num (processWkbTypeGeom fo dl) .wkt {} none bs
/-- `from_wkb` of `Ewkt<String>` and the deprecated `EwktString` (wkt/mod.rs:83-94, 110-122) -/
def ewktFromWkb (num : F64 → Text) (fo : FOps) (dl : WkbDialect) (bs : List Byte) : Except Err Text :=
  Geozero.toWktWithOpts num (processWkbTypeGeom fo dl) .ewkt { z := true, m := true } none bs

/-- `.expect("Failed to encode Geometry")` after `process_geom` into a local buffer
(geopackage.rs:62-64, postgis_sqlx.rs:77-79) -/
def expectEncoded (r : List Byte × Except Err Unit) : Except Err (List Byte) :=
  match r with
  | (out, .ok _) => .ok out
  | (_, .error _) => .error (.panic "Failed to encode Geometry")

/-! ### GeoPackage (sqlx, SQLite) -/

/-- `Encode::encode_by_ref` of `wkb::Encode<T>` (geopackage.rs:52-67) -/
def gpkgEncode (v : GeoSource) : Except Err (List Byte) :=
  expectEncoded (v.writeWkb .geopackage v.dims v.srid [])

/-- `Decode::decode` of `wkb::Decode<Geometry>` (geopackage.rs:17-29) -/
def gpkgDecode (fo : FOps) (sz : ElemSizes) : Option (List Byte) → Except Err (Option GeoGeom)
  | none => .ok none
  | some blob =>
    match geoFromWkb fo sz .geopackage blob with
    | .ok g => .ok (some g)
    | .error e => .error e

/-- `Decode::decode` of `GpkgWkb<Vec<u8>>` (geopackage.rs:37-45) -/
def gpkgDecodeRaw : Option (List Byte) → Except Err (List Byte)
  | none => .ok []
  | some blob => .ok blob

/-- the `encode_by_ref` that `impl_sqlx_gpkg_encode!` generates (geopackage.rs:112-139) -/
def gpkgMacroEncode (v : GeoSource) : Except Err (List Byte) :=
  expectEncoded (v.writeWkb .geopackage v.dims v.srid [])

/-- the `decode` that `impl_sqlx_gpkg_decode!` generates (geopackage.rs:87-108); it asks for the EWKB dialect -/
def gpkgMacroDecode (fo : FOps) (sz : ElemSizes) : Option (List Byte) → Except Err GeoGeom
  | none => .error (.geometry "Cannot decode NULL value")
  | some blob => geoFromWkb fo sz .ewkb blob

/-! ### PostGIS with sqlx -/

/-- `Encode::encode_by_ref` of `wkb::Encode<T>` (postgis_sqlx.rs:67-85): the argument buffer is extended -/
def pgSqlxEncode (v : GeoSource) (buf : List Byte) : Except Err (List Byte) :=
  match expectEncoded (v.writeWkb .ewkb v.dims v.srid []) with
  | .ok out => .ok (buf ++ out)
  | .error e => .error e

/-- `Decode::decode` of `wkb::Decode<Geometry>` (postgis_sqlx.rs:23-35) -/
def pgSqlxDecode (fo : FOps) (sz : ElemSizes) : Option (List Byte) → Except Err (Option GeoGeom)
  | none => .ok none
  | some blob =>
    match geoFromWkb fo sz .ewkb blob with
    | .ok g => .ok (some g)
    | .error e => .error e

/-- `Decode::decode` of `Ewkb<Vec<u8>>` (postgis_sqlx.rs:49-57) -/
def pgSqlxDecodeRaw : Option (List Byte) → Except Err (List Byte)
  | none => .ok []
  | some blob => .ok blob

/-- the `encode_by_ref` that `impl_sqlx_postgis_encode!` generates (postgis_sqlx.rs:143-168) -/
def pgSqlxMacroEncode (v : GeoSource) (buf : List Byte) : Except Err (List Byte) :=
  match expectEncoded (v.writeWkb .ewkb v.dims v.srid []) with
  | .ok out => .ok (buf ++ out)
  | .error e => .error e

/-- the `decode` that `impl_sqlx_postgis_decode!` generates (postgis_sqlx.rs:117-138) -/
def pgSqlxMacroDecode (fo : FOps) (sz : ElemSizes) : Option (List Byte) → Except Err GeoGeom
  | none => .error (.geometry "Cannot decode NULL value")
  | some blob => geoFromWkb fo sz .ewkb blob

/-! ### PostGIS with rust-postgres -/

/-- `ToSql::to_sql` of `wkb::Encode<T>` and of the macro (postgis_postgres.rs:40-55, 99-119): it writes straight
into `out`, so a failure leaves a partial value behind; the driver drops the buffer then -/
def pgToSql (v : GeoSource) (out : List Byte) : List Byte × Except Err Unit :=
  match v.writeWkb .ewkb v.dims v.srid [] with
  | (b, r) => (out ++ b, r)

/-- `FromSql::from_sql` and `from_sql_null` of `wkb::Decode<Geometry>` (postgis_postgres.rs:8-18) -/
def pgFromSql (fo : FOps) (sz : ElemSizes) : Option (List Byte) → Except Err (Option GeoGeom)
  | none => .ok none
  | some raw =>
    match geoFromWkb fo sz .ewkb raw with
    | .ok g => .ok (some g)
    | .error e => .error e

/-- the `from_sql` that `impl_postgres_postgis_decode!` generates (postgis_postgres.rs:72-94); it does not define
`from_sql_null`, whose default in postgres-types returns the error `WasNull` -/
def pgMacroFromSql (fo : FOps) (sz : ElemSizes) : Option (List Byte) → Except Err GeoGeom
  | none => .error (.geometry "a Postgres value was `NULL`")
  | some raw => geoFromWkb fo sz .ewkb raw

/-- `FromSql` of `Ewkb<Vec<u8>>` (postgis_postgres.rs:25-33) -/
def pgFromSqlRaw : Option (List Byte) → Except Err (List Byte)
  | none => .ok []
  | some raw => .ok raw

/-! ### PostGIS with diesel -/

/-- `ToSql<Geometry, Pg>` and `ToSql<Geography, Pg>` of `Ewkb<B>` (postgis_diesel.rs:23-35) -/
def dieselToSql (b : List Byte) (out : List Byte) : List Byte := out ++ b

/-- `FromSql<Geometry, Pg>` and `FromSql<Geography, Pg>` of `Ewkb<Vec<u8>>` (postgis_diesel.rs:37-47); diesel maps
NULL to `None` before calling it -/
def dieselFromSql (b : List Byte) : List Byte := b

end Geozero
