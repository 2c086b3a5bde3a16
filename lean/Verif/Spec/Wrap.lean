import Verif.Spec.Adaptors
import Verif.Model.Wkt
import Verif.Model.GeoJson
import Verif.Model.GeoTypes
import Verif.Model.Geos
import Verif.Model.Gdal
import Verif.Model.Gpx
import Verif.Model.Adaptors
import Verif.Model.Shp

/-
What it means to transform the positions of a geometry before it is read, for the geometries of every format, and to transform
them on the way from the reader to the processor.
-/

namespace Geozero

/-! ### transformed geometries -/

/-- a position with `f` applied -/
def XY.mapXY (f : F64 → F64 → F64 × F64) (c : XY) : XY := { x := (f c.x c.y).1, y := (f c.x c.y).2 }

def GPoly.mapXY (f : F64 → F64 → F64 × F64) (p : GPoly) : GPoly :=
  { exterior := p.exterior.map (XY.mapXY f), interiors := p.interiors.map (List.map (XY.mapXY f)) }

mutual
/-- a geometry of geo-types with every position transformed; a rectangle becomes the polygon of its transformed corners, a triangle
the polygon of its transformed vertices -/
def GeoGeom.mapXY (f : F64 → F64 → F64 × F64) : GeoGeom → GeoGeom
  | .point p => .point (p.mapXY f)
  | .line a b => .line (a.mapXY f) (b.mapXY f)
  | .lineString cs => .lineString (cs.map (XY.mapXY f))
  | .polygon p => .polygon (p.mapXY f)
  | .multiPoint ps => .multiPoint (ps.map (XY.mapXY f))
  | .multiLineString ls => .multiLineString (ls.map (List.map (XY.mapXY f)))
  | .multiPolygon ps => .multiPolygon (ps.map (GPoly.mapXY f))
  | .collection gs => .collection (GeoGeom.mapXYList f gs)
  | .rect mn mx => .polygon ((rectPolygon mn mx).mapXY f)
  | .triangle a b c => .polygon ((trianglePolygon a b c).mapXY f)

def GeoGeom.mapXYList (f : F64 → F64 → F64 × F64) : List GeoGeom → List GeoGeom
  | [] => []
  | g :: gs => g.mapXY f :: GeoGeom.mapXYList f gs
end

def GPos.mapXY (f : F64 → F64 → F64 × F64) (c : GPos) : GPos := { c with x := (f c.x c.y).1, y := (f c.x c.y).2 }

mutual
/-- a geometry of GEOS with every position transformed -/
def GeosGeom.mapXY (f : F64 → F64 → F64 × F64) : GeosGeom → GeosGeom
  | .point cs => .point (cs.map (GPos.mapXY f))
  | .multiPoint ps => .multiPoint (ps.map (List.map (GPos.mapXY f)))
  | .lineString cs => .lineString (cs.map (GPos.mapXY f))
  | .linearRing cs => .linearRing (cs.map (GPos.mapXY f))
  | .multiLineString ls => .multiLineString (ls.map (List.map (GPos.mapXY f)))
  | .polygon e is => .polygon (e.map (GPos.mapXY f)) (is.map (List.map (GPos.mapXY f)))
  | .multiPolygon ps => .multiPolygon (ps.map fun p => (p.1.map (GPos.mapXY f), p.2.map (List.map (GPos.mapXY f))))
  | .collection gs => .collection (GeosGeom.mapXYList f gs)

def GeosGeom.mapXYList (f : F64 → F64 → F64 × F64) : List GeosGeom → List GeosGeom
  | [] => []
  | g :: gs => g.mapXY f :: GeosGeom.mapXYList f gs
end

def OgrPt.mapXY (f : F64 → F64 → F64 × F64) (c : OgrPt) : OgrPt := { c with x := (f c.x c.y).1, y := (f c.x c.y).2 }

mutual
/-- a geometry of OGR with every position transformed -/
def OgrGeom.mapXY (f : F64 → F64 → F64 × F64) : OgrGeom → OgrGeom
  | .node k ps ms => .node k (ps.map (OgrPt.mapXY f)) (OgrGeom.mapXYList f ms)

def OgrGeom.mapXYList (f : F64 → F64 → F64 × F64) : List OgrGeom → List OgrGeom
  | [] => []
  | g :: gs => g.mapXY f :: OgrGeom.mapXYList f gs
end

mutual
/-- a parsed WKT geometry with every position transformed -/
def WktGeom.mapXY (f : F64 → F64 → F64 × F64) : WktGeom → WktGeom
  | .point c => .point (c.map (Coord.mapXY f))
  | .lineString cs => .lineString (cs.map (Coord.mapXY f))
  | .polygon rs => .polygon (rs.map (List.map (Coord.mapXY f)))
  | .multiPoint ps => .multiPoint (ps.map (Option.map (Coord.mapXY f)))
  | .multiLineString ls => .multiLineString (ls.map (List.map (Coord.mapXY f)))
  | .multiPolygon ps => .multiPolygon (ps.map (List.map (List.map (Coord.mapXY f))))
  | .collection gs => .collection (WktGeom.mapXYList f gs)

def WktGeom.mapXYList (f : F64 → F64 → F64 × F64) : List WktGeom → List WktGeom
  | [] => []
  | g :: gs => g.mapXY f :: WktGeom.mapXYList f gs
end

/-- a GeoJSON position: the first two numbers are transformed, a position with fewer numbers stays -/
def gjMapXY (f : F64 → F64 → F64 × F64) : List F64 → List F64
  | x :: y :: rest => (f x y).1 :: (f x y).2 :: rest
  | p => p

mutual
/-- a parsed GeoJSON geometry with every position transformed -/
def GjGeom.mapXY (f : F64 → F64 → F64 × F64) : GjGeom → GjGeom
  | .point p => .point (gjMapXY f p)
  | .multiPoint ps => .multiPoint (ps.map (gjMapXY f))
  | .lineString ps => .lineString (ps.map (gjMapXY f))
  | .multiLineString ls => .multiLineString (ls.map (List.map (gjMapXY f)))
  | .polygon rs => .polygon (rs.map (List.map (gjMapXY f)))
  | .multiPolygon ps => .multiPolygon (ps.map (List.map (List.map (gjMapXY f))))
  | .collection gs => .collection (GjGeom.mapXYList f gs)

def GjGeom.mapXYList (f : F64 → F64 → F64 × F64) : List GjGeom → List GjGeom
  | [] => []
  | g :: gs => g.mapXY f :: GjGeom.mapXYList f gs
end

/-- a feature with a transformed geometry; its properties stay -/
def GjFeature.mapXY (f : F64 → F64 → F64 × F64) (ft : GjFeature) : GjFeature :=
  { ft with geometry := ft.geometry.map (GjGeom.mapXY f) }

def GeoJsonValue.mapXY (f : F64 → F64 → F64 × F64) : GeoJsonValue → GeoJsonValue
  | .featureCollection fs => .featureCollection (fs.map (GjFeature.mapXY f))
  | .feature ft => .feature (ft.mapXY f)
  | .geometry g => .geometry (g.mapXY f)

def GpxDoc.mapXY (f : F64 → F64 → F64 × F64) (d : GpxDoc) : GpxDoc :=
  { waypoints := d.waypoints.map (XY.mapXY f)
    tracks := d.tracks.map (List.map (List.map (XY.mapXY f)))
    routes := d.routes.map (List.map (XY.mapXY f)) }

/-- a shape with every position transformed; rings keep their order -/
def ShpShape.mapXY (f : F64 → F64 → F64 × F64) : ShpShape → ShpShape
  | .null => .null
  | .patch => .patch
  | .point x y z m => .point (f x y).1 (f x y).2 z m
  | .multipoint cs zs ms => .multipoint (cs.map (XY.mapXY f)) zs ms
  | .multipart asPoly is cs zs ms => .multipart asPoly is (cs.map (XY.mapXY f)) zs ms

namespace Spec

/-- The transformation keeps the orientation, as the reader computes it, of every run of positions of a polygon: outer rings stay
outer rings and holes stay holes. -/
def KeepsOrientation (ar : ShpArith) (f : F64 → F64 → F64 × F64) : ShpShape → Prop
  | .multipart true _ cs _ _ => ∀ a n, ringInner ar (((cs.drop a).take n).map (XY.mapXY f)) = ringInner ar ((cs.drop a).take n)
  | _ => True

/-! ### transforming on the way -/

/-- a geometry processor behind a wrapper: it gets every call with the position transformed -/
def wrapGeom {σ : Type} (f : F64 → F64 → F64 × F64) (P : Prog.Proc σ) : Prog.Proc σ :=
  { P with step := fun s e => P.step s (e.mapXY f) }

/-- Reading with `p` into any processor behind the wrapper is the same as reading with `q` into the processor itself: same state of
the processor in the end, same outcome, same unread input, same calls received. -/
def ReadsAs {α : Type} (f : F64 → F64 → F64 × F64) (p q : Prog α) : Prop :=
  ∀ (σ : Type) (P : Prog.Proc σ) (s : σ) (bs : List Byte),
    Prog.interp P q s bs = ((Prog.interp (wrapGeom f P) p s bs).1, (Prog.interp (wrapGeom f P) p s bs).2.1.map (Ev.mapXY f),
      (Prog.interp (wrapGeom f P) p s bs).2.2)

/-- The same for readers of features, with the wrapper of the code. -/
def FReadsAs {α : Type} (f : F64 → F64 → F64 × F64) (p q : FProg α) : Prop :=
  ∀ (σ : Type) (P : FProc σ) (s : σ) (bs : List Byte),
    FProg.interp P q s bs = ((FProg.interp (wrapXY f P) p s bs).1, (FProg.interp (wrapXY f P) p s bs).2.1.map (FEv.mapXY f),
      (FProg.interp (wrapXY f P) p s bs).2.2)

/-- what a reader of geometries sees of a processor of features -/
def geomPart {σ : Type} (P : FProc σ) : Prog.Proc σ where
  step s e := P.step s (.geom e)
  multi := P.multi

/-- The same for readers of bytes: `bs` read into any processor behind the wrapper is `bs'` read into the processor itself. The
processor has made up its mind about further dimensions. -/
def BlobReadsAs {α : Type} (f : F64 → F64 → F64 × F64) (p : Prog α) (bs bs' : List Byte) : Prop :=
  ∀ (σ : Type) (P : Prog.Proc σ) (multi : Bool) (_ : ∀ s, P.multi s = multi) (s : σ),
    Prog.interp P p s bs' = ((Prog.interp (wrapGeom f P) p s bs).1, (Prog.interp (wrapGeom f P) p s bs).2.1.map (Ev.mapXY f),
      (Prog.interp (wrapGeom f P) p s bs).2.2)

end Spec
end Geozero
