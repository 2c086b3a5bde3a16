import Verif.Spec.GeosParts
import Verif.Props.Gdal
import Verif.Props.Reuse
import Verif.Props.SlCompressed

/-
C54, C45, C82: converting collections, nested to any depth, of the basic kinds to GDAL.
-/

namespace Geozero
open Prog

/-- what a geometry leaves behind in a GDAL writer that has made `before` already: the last of its basic parts in two dimensions -/
def Geom.ogrLast (g : Geom) (before : OgrGeom) : OgrGeom :=
  match g.basicParts.getLast? with
  | some p => (p.map Coord.flat).ogr
  | none => before

namespace GdalWriter

private def lastOf (ps : List Geom) (before : OgrGeom) : OgrGeom :=
  match ps.getLast? with
  | some p => (p.map Coord.flat).ogr
  | none => before

private theorem lastOf_append (a b : List Geom) (t : OgrGeom) : lastOf (a ++ b) t = lastOf b (lastOf a t) := by
  simp only [lastOf, List.getLast?_append]
  cases b.getLast? <;> rfl

mutual
private theorem feed_plain_ok (g : Geom) (hp : g.Plain) (he : g.hasEmptyPoint = false) (i : Nat) (w : GdalWriter) :
    ∃ w', feed step w (g.events false i) = .ok w' ∧ w'.geom = lastOf g.basicParts w.geom := by
  have basicly : g.Basic → g.basicParts = [g] →
      ∃ w', feed step w (g.events false i) = .ok w' ∧ w'.geom = lastOf g.basicParts w.geom := by
    intro hb hg
    obtain ⟨w', h1, h2⟩ := feed_basic like_step g hb i w
    exact ⟨w', h1, by rw [h2, hg]; rfl⟩
  cases g with
  | emptyPoint => simp [Geom.hasEmptyPoint] at he
  | point c => exact basicly trivial (by simp [Geom.basicParts])
  | multiPoint c => exact basicly trivial (by simp [Geom.basicParts])
  | lineString c => exact basicly trivial (by simp [Geom.basicParts])
  | multiLineString c => exact basicly trivial (by simp [Geom.basicParts])
  | polygon c => exact basicly trivial (by simp [Geom.basicParts])
  | multiPolygon c => exact basicly trivial (by simp [Geom.basicParts])
  | collection gs =>
    simp only [Geom.Plain] at hp
    simp only [Geom.hasEmptyPoint] at he
    obtain ⟨w', h1, h2⟩ := feed_plains_ok gs hp he 0 w
    refine ⟨w', ?_, by simp only [Geom.basicParts]; exact h2⟩
    simp only [Geom.events, feed_cons, step, feed_append, h1]
    rfl
  | _ => simp [Geom.Plain] at hp

private theorem feed_plains_ok (gs : List Geom) (hp : Geom.PlainList gs) (he : Geom.hasEmptyPointList gs = false) (i : Nat) (w : GdalWriter) :
    ∃ w', feed step w (eventsList false i gs) = .ok w' ∧ w'.geom = lastOf (Geom.basicPartsList gs) w.geom := by
  cases gs with
  | nil => exact ⟨w, rfl, by simp [Geom.basicPartsList, lastOf]⟩
  | cons g gs =>
    simp only [Geom.PlainList] at hp
    simp only [Geom.hasEmptyPointList, Bool.or_eq_false_iff] at he
    obtain ⟨w1, h1, h2⟩ := feed_plain_ok g hp.1 he.1 i w
    obtain ⟨w2, h3, h4⟩ := feed_plains_ok gs hp.2 he.2 (i + 1) w1
    refine ⟨w2, by simp only [eventsList, feed_append, h1]; exact h3, ?_⟩
    simp only [Geom.basicPartsList, lastOf_append, h4, h2]
end

end GdalWriter

private theorem gdalAgain_plain (w : GdalWriter) (u : Use) (g : Geom) (hp : g.Plain) (he : g.hasEmptyPoint = false)
    (hu : Delivers false u g) : gdalAgain w u = .ok (g.ogrLast w.geom) := by
  obtain ⟨ss, rest, hu⟩ := hu
  obtain ⟨w', h1, h2⟩ := GdalWriter.feed_plain_ok g hp he 0 w
  have h := interp_of_feed_ok GdalWriter.proc false (fun _ => rfl) u.1 w w' u.2
    (by rw [hu, feed_srids _ fun _ _ => rfl]; exact h1)
  unfold gdalAgain
  rw [h, hu]
  simp only [h2]
  rfl

/-- C54 (and C45) for collections nested to any depth of points, line strings, polygons and multis of these: without empty points the
result is the last of these parts in two dimensions, POINT EMPTY if there is none; with an empty point it is an error. -/
theorem C54_nested_collections (src : Prog Unit) (bs : List Byte) (g : Geom) (hp : g.Plain) (hu : Delivers false (src, bs) g) :
    if g.hasEmptyPoint then ∃ e, toGdal src bs = .error e else toGdal src bs = .ok (g.ogrLast (GdalWriter.empty .point)) := by
  cases he : g.hasEmptyPoint with
  | true =>
    obtain ⟨ss, rest, hu⟩ := hu
    exact C54_empty_point_rejected src bs _ g _ hu he
  | false => exact gdalAgain_plain {} (src, bs) g hp he hu

example :
    let g := Geom.collection [.point ⟨1#64, 2#64, none, none⟩, .collection [.lineString [⟨3#64, 4#64, some 5#64, none⟩], .collection []]]
    g.Plain ∧ g.hasEmptyPoint = false ∧ g.ogrLast (GdalWriter.empty .point) = .node (some .lineString) [⟨3#64, 4#64, F64.zero⟩] [] := by
  refine ⟨?_, ?_, ?_⟩ <;> simp [Geom.Plain, Geom.PlainList, Geom.hasEmptyPoint, Geom.hasEmptyPointList, Geom.ogrLast, Geom.basicParts,
    Geom.basicPartsList, Geom.map, Geom.ogr, Coord.flat, Coord.ogr, ogrLine]

/-- C54 from a blob of any dialect that is not compressed, for nested collections. -/
theorem C54_nested_blob (fo : FOps) (dl : WkbDialect) (z m : Bool) (srid : Option Int) (g : Geom) (blob : List Byte)
    (h : Spec.Holds dl { z, m } srid g blob) (hl : g.levels ≤ 128) (hp : g.Plain) :
    if g.hasEmptyPoint then ∃ e, gdalFromWkb fo dl blob = .error e
    else gdalFromWkb fo dl blob = .ok (g.ogrLast (GdalWriter.empty .point)) :=
  C54_nested_collections _ blob g hp ⟨[srid], _, (holds_read fo dl z m srid g blob h hl).1 false⟩

/-- C82, `GdalWriter`, for nested collections: whatever the writer was used for before, a geometry with a basic part gives what a new writer
gives.  Missing: geometries without basic part, for which it is false (`C82_gdal_stale_false`), and kinds other than collections and the
basic ones, also false (`C82_gdal_curve_false`). -/
theorem C82_gdal_nested_partial (w : GdalWriter) (u : Use) (g : Geom) (hp : g.Plain) (he : g.hasEmptyPoint = false)
    (hb : g.basicParts ≠ []) (hu : Delivers false u g) : gdalAgain w u = toGdal u.1 u.2 := by
  have h1 := gdalAgain_plain w u g hp he hu
  have h2 : toGdal u.1 u.2 = .ok (g.ogrLast (GdalWriter.empty .point)) := gdalAgain_plain {} u g hp he hu
  rw [h1, h2]
  obtain ⟨p, hp⟩ := Option.ne_none_iff_exists'.mp (mt List.getLast?_eq_none_iff.mp hb)
  simp only [Geom.ogrLast, hp]

/-- C82 fails for geometries without basic part: an empty collection after a point gives the point again, and a new writer POINT EMPTY. -/
theorem C82_gdal_stale_false :
    gdalAgain (GdalWriter.proc.after {} [(geoProcessGeom (.point ⟨1#64, 2#64⟩), [])]) (geoProcessGeom (.collection []), []) =
      .ok (.node (some .point) [⟨1#64, 2#64, F64.zero⟩] []) ∧
    toGdal (geoProcessGeom (.collection [])) [] = .ok (.node (some .point) [] []) := by
  constructor <;> rfl

/-- C82 fails for curves: a WKB compound curve of one line string after a multi line string without lines gives the multi line string with the
line added to it; a new writer refuses it. -/
theorem C82_gdal_curve_false (fo : FOps) :
    let multi : Use := (geoProcessGeom (.multiLineString []), [])
    let curve : Use := (processWkbTypeGeom fo .wkb, [1, 9, 0, 0, 0, 1, 0, 0, 0, 1, 2, 0, 0, 0, 1, 0, 0, 0] ++ List.replicate 16 0)
    gdalAgain (GdalWriter.proc.after {} [multi]) curve =
      .ok (.node (some .multiLineString) [] [.node (some .lineString) [⟨0#64, 0#64, F64.zero⟩] []]) ∧
    toGdal curve.1 curve.2 = .error GdalWriter.unsupported := by
  constructor <;> rfl

end Geozero
