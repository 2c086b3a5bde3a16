import Verif.Model.Basic
import Verif.Model.Prog
import Verif.Model.Bytes
import Verif.Model.WkbTypes
import Verif.Model.WkbReader
import Verif.Model.WkbWriter
import Verif.Spec.Geom
import Verif.Spec.Wkb
import Verif.Spec.Stored
import Verif.Lemmas.Prog
import Verif.Lemmas.Bytes
import Verif.Lemmas.WkbRead
import Verif.Lemmas.WkbHeaders
import Verif.Lemmas.WkbWrite
import Verif.Lemmas.SlFoot
import Verif.Lemmas.WkbTop
import Verif.Props.WkbRead
import Verif.Props.WkbWrite
import Verif.Props.SlRoundTrip
import Verif.Lemmas.WkbSat
import Verif.Props.WkbAny
import Verif.Model.GeoTypes
import Verif.Spec.Rings
import Verif.Spec.GeoTypes
import Verif.Lemmas.Rings
import Verif.Lemmas.GeoTypes
import Verif.Props.GeoTypes
import Verif.Spec.WkbSpatialite
import Verif.Props.WkbSpatialite
import Verif.Model.Wkt
import Verif.Spec.Wkt
import Verif.Lemmas.Wkt
import Verif.Lemmas.WktParse
import Verif.Props.Wkt
import Verif.Model.Feature
import Verif.Model.Adaptors
import Verif.Spec.Adaptors
import Verif.Lemmas.Feature
import Verif.Lemmas.Adaptors
import Verif.Props.Adaptors
import Verif.Props.AdaptorFail
import Verif.Model.Property
import Verif.Spec.Features
import Verif.Props.Property
import Verif.Props.FeatureAccess
import Verif.Model.Csv
import Verif.Lemmas.Features
import Verif.Lemmas.Csv
import Verif.Props.Convert
import Verif.Props.Csv
import Verif.Spec.Values
import Verif.Lemmas.Values
import Verif.Spec.Json
import Verif.Lemmas.Json
import Verif.Model.GeoJson
import Verif.Spec.GeoJson
import Verif.Lemmas.GeoJson
import Verif.Lemmas.GeoJsonLine
import Verif.Lemmas.GeoJsonRead
import Verif.Props.GeoJson
import Verif.Props.GeoJsonExact
import Verif.Model.Mvt
import Verif.Spec.Mvt
import Verif.Lemmas.F64Int
import Verif.Lemmas.Mvt
import Verif.Props.Mvt
import Verif.Model.Shp
import Verif.Spec.Shp
import Verif.Lemmas.Shp
import Verif.Lemmas.ShpProcess
import Verif.Lemmas.ShpAny
import Verif.Lemmas.ShpFile
import Verif.Props.Shp
import Verif.Props.ShpConv
import Verif.Model.Gpx
import Verif.Spec.Gpx
import Verif.Lemmas.Gpx
import Verif.Props.Gpx
import Verif.Model.Svg
import Verif.Spec.Svg
import Verif.Lemmas.Svg
import Verif.Lemmas.SvgDoc
import Verif.Lemmas.SvgPath
import Verif.Props.Svg
import Verif.Model.Geos
import Verif.Spec.Geos
import Verif.Lemmas.Geos
import Verif.Props.Geos
import Verif.Model.Gdal
import Verif.Spec.Gdal
import Verif.Lemmas.Gdal
import Verif.Props.Gdal
import Verif.Props.GdalNd
import Verif.Model.GeoFeature
import Verif.Spec.GeoFeature
import Verif.Props.GeoFeature
import Verif.Model.Tessellator
import Verif.Spec.Tessellator
import Verif.Props.Tessellator
import Verif.Props.TessExact
import Verif.Spec.TessAny
import Verif.Props.TessAny
import Verif.Spec.Joined
import Verif.Props.Joined
import Verif.Spec.SameData
import Verif.Props.SameData
import Verif.Model.Db
import Verif.Spec.Db
import Verif.Lemmas.Db
import Verif.Props.Db
import Verif.Model.Cli
import Verif.Props.Cli
import Verif.Props.WktConv
import Verif.Spec.SlCompressed
import Verif.Spec.Nesting
import Verif.Lemmas.Nesting
import Verif.Lemmas.NestingShp
import Verif.Lemmas.NestingWrite
import Verif.Props.Nesting
import Verif.Props.SlCompressed
import Verif.Spec.GpkgMixed
import Verif.Props.GpkgMixed
import Verif.Spec.ShpFile
import Verif.Props.ShpFile
import Verif.Lemmas.ShpExact
import Verif.Lemmas.ShpAccept
import Verif.Props.ShpExact
import Verif.Spec.RoundTrip
import Verif.Props.RoundTrip
import Verif.Spec.Output
import Verif.Model.Output
import Verif.Lemmas.Output
import Verif.Lemmas.OutputWriters
import Verif.Props.Output
import Verif.Spec.Chain
import Verif.Props.Chain
import Verif.Model.Input
import Verif.Lemmas.Input
import Verif.Props.Input
import Verif.Props.ShpIter
import Verif.Lemmas.Cost
import Verif.Lemmas.CostShp
import Verif.Lemmas.CostWrite
import Verif.Lemmas.CostText
import Verif.Props.Cost
import Verif.Props.CostTree
import Verif.Props.Dims
import Verif.Spec.Wrap
import Verif.Lemmas.Wrap
import Verif.Props.Wrap
import Verif.Spec.WrapOut
import Verif.Lemmas.WrapOut
import Verif.Props.WrapOut
import Verif.Spec.WkbLenient
import Verif.Lemmas.WkbAccept
import Verif.Lemmas.WkbAcceptHdr
import Verif.Lemmas.WkbLenient
import Verif.Props.WkbAccept
import Verif.Spec.Reserve
import Verif.Lemmas.Reserve
import Verif.Model.ShpReserve
import Verif.Lemmas.ShpReserve
import Verif.Props.Reserve
import Verif.Model.ShpOpen
import Verif.Spec.ShpOpen
import Verif.Props.ShpOpen
import Verif.Spec.SlLenient
import Verif.Lemmas.SlAccept
import Verif.Props.SlAccept
import Verif.Spec.WkbCanon
import Verif.Lemmas.WkbCanon
import Verif.Lemmas.WkbCanonFits
import Verif.Props.WkbCanon
import Verif.Spec.Float
import Verif.Lemmas.Float
import Verif.Spec.MvtScale
import Verif.Lemmas.MvtScale
import Verif.Props.MvtScale
import Verif.Spec.Float32
import Verif.Lemmas.Float32
import Verif.Spec.Compress
import Verif.Lemmas.Compress
import Verif.Props.Compress
import Verif.Spec.Reuse
import Verif.Lemmas.Reuse
import Verif.Props.Reuse
import Verif.Props.ReuseMvt
import Verif.Spec.GdalPanic
import Verif.Props.GdalPanic
import Verif.Spec.WktShown
import Verif.Props.WktExact
import Verif.Props.GeoLines
import Verif.Spec.GeosParts
import Verif.Props.GeosAny
import Verif.Props.GdalAny
import Verif.Spec.Stream
import Verif.Props.Stream
import Verif.Props.SvgName
import Verif.Spec.ToCsv
import Verif.Props.ToCsv
import Verif.Spec.AsCollection
import Verif.Props.AsCollection
