import Verif.Model.Bytes

/-
Models /repo/geozero/src/wkb/wkb_common.rs (dialects, geometry type codes).
-/

namespace Geozero

/-- `WkbDialect` (wkb_common.rs:40-48) -/
inductive WkbDialect
  | wkb | ewkb | geopackage | mySQL | spatiaLite
deriving DecidableEq, Repr, Inhabited

/-- `WKBGeometryType` (wkb_common.rs:50-122) -/
inductive WkbType
  | unknown
  | point
  | lineString
  | polygon
  | multiPoint
  | multiLineString
  | multiPolygon
  | geometryCollection
  | circularString
  | compoundCurve
  | curvePolygon
  | multiCurve
  | multiSurface
  | curve
  | surface
  | polyhedralSurface
  | tin
  | triangle
  | pointZ
  | lineStringZ
  | polygonZ
  | multiPointZ
  | multiLineStringZ
  | multiPolygonZ
  | geometryCollectionZ
  | circularStringZ
  | compoundCurveZ
  | curvePolygonZ
  | multiCurveZ
  | multiSurfaceZ
  | curveZ
  | surfaceZ
  | polyhedralSurfaceZ
  | tinZ
  | triangleZ
  | pointM
  | lineStringM
  | polygonM
  | multiPointM
  | multiLineStringM
  | multiPolygonM
  | geometryCollectionM
  | circularStringM
  | compoundCurveM
  | curvePolygonM
  | multiCurveM
  | multiSurfaceM
  | curveM
  | surfaceM
  | polyhedralSurfaceM
  | tinM
  | triangleM
  | pointZM
  | lineStringZM
  | polygonZM
  | multiPointZM
  | multiLineStringZM
  | multiPolygonZM
  | geometryCollectionZM
  | circularStringZM
  | compoundCurveZM
  | curvePolygonZM
  | multiCurveZM
  | multiSurfaceZM
  | curveZM
  | surfaceZM
  | polyhedralSurfaceZM
  | tinZM
  | triangleZM
deriving DecidableEq, Repr, Inhabited

/-- `wkb_type as u32`: the explicit discriminants (wkb_common.rs:52-122) -/
def WkbType.toU32 : WkbType → Nat
  | .unknown => 0
  | .point => 1
  | .lineString => 2
  | .polygon => 3
  | .multiPoint => 4
  | .multiLineString => 5
  | .multiPolygon => 6
  | .geometryCollection => 7
  | .circularString => 8
  | .compoundCurve => 9
  | .curvePolygon => 10
  | .multiCurve => 11
  | .multiSurface => 12
  | .curve => 13
  | .surface => 14
  | .polyhedralSurface => 15
  | .tin => 16
  | .triangle => 17
  | .pointZ => 1001
  | .lineStringZ => 1002
  | .polygonZ => 1003
  | .multiPointZ => 1004
  | .multiLineStringZ => 1005
  | .multiPolygonZ => 1006
  | .geometryCollectionZ => 1007
  | .circularStringZ => 1008
  | .compoundCurveZ => 1009
  | .curvePolygonZ => 1010
  | .multiCurveZ => 1011
  | .multiSurfaceZ => 1012
  | .curveZ => 1013
  | .surfaceZ => 1014
  | .polyhedralSurfaceZ => 1015
  | .tinZ => 1016
  | .triangleZ => 1017
  | .pointM => 2001
  | .lineStringM => 2002
  | .polygonM => 2003
  | .multiPointM => 2004
  | .multiLineStringM => 2005
  | .multiPolygonM => 2006
  | .geometryCollectionM => 2007
  | .circularStringM => 2008
  | .compoundCurveM => 2009
  | .curvePolygonM => 2010
  | .multiCurveM => 2011
  | .multiSurfaceM => 2012
  | .curveM => 2013
  | .surfaceM => 2014
  | .polyhedralSurfaceM => 2015
  | .tinM => 2016
  | .triangleM => 2017
  | .pointZM => 3001
  | .lineStringZM => 3002
  | .polygonZM => 3003
  | .multiPointZM => 3004
  | .multiLineStringZM => 3005
  | .multiPolygonZM => 3006
  | .geometryCollectionZM => 3007
  | .circularStringZM => 3008
  | .compoundCurveZM => 3009
  | .curvePolygonZM => 3010
  | .multiCurveZM => 3011
  | .multiSurfaceZM => 3012
  | .curveZM => 3013
  | .surfaceZM => 3014
  | .polyhedralSurfaceZM => 3015
  | .tinZM => 3016
  | .triangleZM => 3017

/-- `WKBGeometryType::from_u32` (wkb_common.rs:125-197) -/
def WkbType.fromU32 (value : Nat) : WkbType :=
  match value with
  | 1 => .point
  | 2 => .lineString
  | 3 => .polygon
  | 4 => .multiPoint
  | 5 => .multiLineString
  | 6 => .multiPolygon
  | 7 => .geometryCollection
  | 8 => .circularString
  | 9 => .compoundCurve
  | 10 => .curvePolygon
  | 11 => .multiCurve
  | 12 => .multiSurface
  | 13 => .curve
  | 14 => .surface
  | 15 => .polyhedralSurface
  | 16 => .tin
  | 17 => .triangle
  | 1001 => .pointZ
  | 1002 => .lineStringZ
  | 1003 => .polygonZ
  | 1004 => .multiPointZ
  | 1005 => .multiLineStringZ
  | 1006 => .multiPolygonZ
  | 1007 => .geometryCollectionZ
  | 1008 => .circularStringZ
  | 1009 => .compoundCurveZ
  | 1010 => .curvePolygonZ
  | 1011 => .multiCurveZ
  | 1012 => .multiSurfaceZ
  | 1013 => .curveZ
  | 1014 => .surfaceZ
  | 1015 => .polyhedralSurfaceZ
  | 1016 => .tinZ
  | 1017 => .triangleZ
  | 2001 => .pointM
  | 2002 => .lineStringM
  | 2003 => .polygonM
  | 2004 => .multiPointM
  | 2005 => .multiLineStringM
  | 2006 => .multiPolygonM
  | 2007 => .geometryCollectionM
  | 2008 => .circularStringM
  | 2009 => .compoundCurveM
  | 2010 => .curvePolygonM
  | 2011 => .multiCurveM
  | 2012 => .multiSurfaceM
  | 2013 => .curveM
  | 2014 => .surfaceM
  | 2015 => .polyhedralSurfaceM
  | 2016 => .tinM
  | 2017 => .triangleM
  | 3001 => .pointZM
  | 3002 => .lineStringZM
  | 3003 => .polygonZM
  | 3004 => .multiPointZM
  | 3005 => .multiLineStringZM
  | 3006 => .multiPolygonZM
  | 3007 => .geometryCollectionZM
  | 3008 => .circularStringZM
  | 3009 => .compoundCurveZM
  | 3010 => .curvePolygonZM
  | 3011 => .multiCurveZM
  | 3012 => .multiSurfaceZM
  | 3013 => .curveZM
  | 3014 => .surfaceZM
  | 3015 => .polyhedralSurfaceZM
  | 3016 => .tinZM
  | 3017 => .triangleZM
  | _ => .unknown

end Geozero
