{"id": "C01", "title": "WKB write/read round trip", "statement": "Feeding the event stream of any geometry (all supported types, empty parts allowed, container nesting the reader accepts, counts below 2^32) to WkbWriter with dialect Wkb never fails, and running process_wkb_geom on the bytes produced replays exactly the same event stream (same order, tagged flags, sizes, indices, coordinate bit patterns) and consumes exactly the bytes written.", "quantifier": "every geometry tree of every supported type, every coordinate bit pattern that is not an all-NaN point, XY/XYZ/XYM/XYZM, every suffix of trailing bytes", "why_tests_cant": "The space of geometry trees is infinite and nested; tests sample a handful of literals per type.", "anchors": ["geozero/src/wkb/wkb_writer.rs: WkbWriter (GeomProcessor impl), write_wkb_header", "geozero/src/wkb/wkb_reader.rs: process_wkb_geom, process_wkb_geom_n, read_wkb_header"]}
{"id": "C02", "title": "EWKB write/read round trip with SRID", "statement": "As C01 for dialect Ewkb: the replayed stream starts with srid(s) where s is exactly the SRID option the writer was given (any i32), and the SRID is written once, in the outermost header only.", "quantifier": "every geometry tree, every SRID option (None or any i32), every dimension flag combination", "why_tests_cant": "SRID presence, dimension flags and nesting interact; only a universally quantified statement covers the combinations.", "anchors": ["geozero/src/wkb/wkb_writer.rs: write_ewkb_header", "geozero/src/wkb/wkb_reader.rs: process_ewkb_geom, read_ewkb_header, read_ewkb_nested_header"]}
{"id": "C03", "title": "GeoPackage write/read round trip with envelope and SRID", "statement": "As C01 for dialect Geopackage: for every geometry, SRID option and envelope whose length matches its declared dimensions, process_gpkg_geom replays the stream, reports srid Some(s.unwrap_or(0)) and skips the envelope exactly.", "quantifier": "every geometry tree, SRID option, envelope contents, envelope dimension flags, extended/empty flag bits", "why_tests_cant": "Header length depends on four flag bits; an off-by-one desynchronises every later byte only for particular inputs.", "anchors": ["geozero/src/wkb/wkb_writer.rs: write_gpkg_header", "geozero/src/wkb/wkb_reader.rs: read_gpkg_header, process_gpkg_geom"]}
{"id": "C04", "title": "MySQL WKB write/read round trip; negative SRID rejected", "statement": "As C01 for dialect MySQL: for every geometry and non-negative SRID the stream is replayed with srid Some(s.unwrap_or(0)); for a negative SRID the writer returns the Srid(v) error at the first geometry event having written no bytes.", "quantifier": "every geometry tree, every i32 SRID", "why_tests_cant": "The sign boundary and the interaction with every geometry's first header cannot be enumerated by tests.", "anchors": ["geozero/src/wkb/wkb_writer.rs: write_mysql_header", "geozero/src/wkb/wkb_reader.rs: read_mysql_header, process_mysql_geom"]}
{"id": "C05", "title": "SpatiaLite write/read round trip", "statement": "A geometry written by WkbWriter with dialect SpatiaLite and read by process_spatialite_geom replays the same event stream, with srid None for 0/None and Some(s) otherwise.", "quantifier": "every geometry tree, SRID option and four-number envelope", "why_tests_cant": "Whether terminators land in the right place depends on the nesting structure of arbitrary trees.", "anchors": ["geozero/src/wkb/wkb_writer.rs: write_spatialite_header, write_footer, nesting_level", "geozero/src/wkb/wkb_reader.rs: read_spatialite_header, read_spatialite_nested_header, process_spatialite_geom"]}
{"id": "C06", "title": "WKB reader decodes every OGC-conformant encoding in either byte order", "statement": "For every geometry and every choice, independently for each nested geometry, of byte order, the OGC 06-103 encoding of the geometry is decoded by process_wkb_geom to the event stream of that geometry.", "quantifier": "every geometry tree, every assignment of byte orders to its (sub)geometries, every dimension combination", "why_tests_cant": "Exponentially many byte-order assignments per tree; tests only use uniformly little- or big-endian samples.", "anchors": ["geozero/src/wkb/wkb_reader.rs: read_wkb_header, read_wkb_nested_header, process_wkb_geom_n"]}
{"id": "C07", "title": "WKB writer output is the OGC encoding", "statement": "The bytes WkbWriter produces for the event stream of any geometry equal the little-endian encoding prescribed by OGC 06-103 (and, for Ewkb, the PostGIS EWKB extension; for Geopackage/MySQL the standard prefix followed by OGC WKB), stated by a separate encoder.", "quantifier": "every geometry tree, dimension flags, SRID", "why_tests_cant": "Round-trip tests cannot detect a mistake shared by writer and reader; the statement must relate bytes to the standard for all inputs.", "anchors": ["geozero/src/wkb/wkb_writer.rs: WkbWriter"]}
{"id": "C08", "title": "Successful WKB reads on arbitrary bytes emit exactly one well-formed geometry", "statement": "For every byte string, every dialect and every processor dimension setting, if process_wkb_type_geom succeeds (uncompressed input) then the events after srid are the event stream of exactly one geometry: begin/end balanced, announced sizes equal to the number of children delivered, indices consecutive from 0.", "quantifier": "every byte string, every dialect, every processor dimension setting", "why_tests_cant": "Adversarial byte strings form an infinite space; fuzzing samples it.", "anchors": ["geozero/src/wkb/wkb_reader.rs: process_wkb_type_geom, process_wkb_geom_n", "geozero/src/geometry_processor.rs: trait GeomProcessor documented contract"]}
{"id": "C09", "title": "Failing WKB reads only deliver a prefix of a well-formed stream", "statement": "For every byte string on which the reader returns an error, the events delivered before the error form a prefix of the event stream of some geometry, so a processor never sees an end without its begin, a coordinate outside a geometry, or an out-of-order index.", "quantifier": "every byte string, every dialect", "why_tests_cant": "Truncation or corruption may occur at any byte of any nesting; tests pick a few cut points.", "anchors": ["geozero/src/wkb/wkb_reader.rs: process_wkb_geom_n"]}
{"id": "C10", "title": "WKB nesting depth is bounded", "statement": "Reading any byte string never descends more than 128 container levels (so stack use is bounded); every collection nested deeper than the limit is rejected with WkbMaxNestingDepth(128), and every geometry nested within the limit is accepted.", "quantifier": "every byte string, every nesting depth", "why_tests_cant": "An attacker chooses the depth; the exact boundary must hold for every mix of container types.", "anchors": ["geozero/src/wkb/wkb_reader.rs: WKB_MAX_NESTING_DEPTH, process_wkb_geom_n, process_compoundcurve, process_curvepolygon"]}
{"id": "C11", "title": "WKB reading is independent of what follows and detects truncation", "statement": "If reading a byte string succeeds, reading it followed by any further bytes delivers the same events and leaves exactly those further bytes unread (plus what was left before), so concatenated geometries can be read back to back; and every strict prefix of the consumed bytes makes the read fail.", "quantifier": "every byte string, every suffix, every cut point, every dialect", "why_tests_cant": "Quantifies over every cut point of every input.", "anchors": ["geozero/src/wkb/wkb_reader.rs: process_wkb_type_geom"]}
{"id": "C12", "title": "Header introspection agrees with processing", "statement": "dims() and srid() of Wkb/Ewkb/GpkgWkb/MySQLWkb/SpatiaLiteWkb never fail; when processing succeeds, srid() is the SRID delivered by process_geom and dims() tells which of z/m the coordinates of the outermost geometry carry; when the header is unreadable they return the defaults.", "quantifier": "every byte string, every dialect", "why_tests_cant": "Two different code paths must agree on every input.", "anchors": ["geozero/src/wkb/wkb_reader.rs: GeozeroGeometry impls, WkbInfo::dims"]}
{"id": "C13", "title": "WKB type codes", "statement": "For each of the 17 OGC base types and 4 dimension combinations, the numeric code the writer emits is the OGC code, decoding that code gives the same base type and dimensions, and any code outside the table is rejected by the reader without emitting geometry events.", "quantifier": "every 32-bit type code", "why_tests_cant": "2^32 codes; the arithmetic (%, /, masks) must be right on all of them.", "anchors": ["geozero/src/wkb/wkb_common.rs: WKBGeometryType::from_u32", "geozero/src/wkb/wkb_reader.rs: read_wkb_header, read_ewkb_header"]}
{"id": "C14", "title": "GeoPackage header byte order does not constrain the WKB body", "statement": "A GeoPackage blob whose header byte-order flag differs from the byte-order mark of the WKB body decodes to the same geometry as one where they agree (the GeoPackage spec makes the two independent).", "quantifier": "every geometry tree, both header byte orders, every body byte order", "why_tests_cant": "Tests only contain blobs where both orders agree.", "anchors": ["geozero/src/wkb/wkb_reader.rs: read_gpkg_header"]}
{"id": "C15", "title": "geo-types round trip", "statement": "For every geo_types::Geometry, process_geom into GeoWriter succeeds and take_geometry returns an equal geometry up to the documented normalisation (Line, Rect and Triangle become LineString/Polygon), leaving the writer empty.", "quantifier": "every geo-types geometry, arbitrary nesting of collections, polygons with closed rings as geo-types guarantees; counts within the 16 MiB budget of C18", "why_tests_cant": "Unbounded recursion through collections with shared mutable writer state.", "anchors": ["geozero/src/geo_types/geo_types_reader.rs: process_geom_n", "geozero/src/geo_types/geo_types_writer.rs: GeoWriter"]}
{"id": "C16", "title": "Decoding WKB to geo-types never panics", "statement": "For every byte string and every dialect, from_wkb into geo_types::Geometry returns Ok or Err: the code paths that would panic (indexing an empty point buffer, begin while another is in progress under debug assertions) are unreachable.", "quantifier": "every byte string, every dialect", "why_tests_cant": "Absence of panics on hostile input is a universal statement.", "anchors": ["geozero/src/geo_types/mod.rs: FromWkb impl", "geozero/src/geo_types/geo_types_writer.rs: point_end", "geozero/src/wkb/wkb_reader.rs: process_wkb_geom_n"]}
{"id": "C17", "title": "geo-types to WKB and back", "statement": "Encoding any geo-types geometry to WKB (any round-tripping dialect) and decoding with from_wkb yields an equal geometry (up to Line/Rect/Triangle normalisation and provided no point is all-NaN).", "quantifier": "every geo-types geometry within the nesting limit, every dialect of C01-C04; counts within the 16 MiB budget of C18", "why_tests_cant": "End-to-end composition over unbounded trees.", "anchors": ["geozero/src/wkb/mod.rs: ToWkb", "geozero/src/geo_types/mod.rs: FromWkb impl"]}
{"id": "C18", "title": "Size hints cannot cause unbounded allocation", "statement": "Whatever size a source announces in a *_begin event, GeoWriter allocates at most 16 MiB up front for it: larger announcements are rejected with an error before allocating, smaller ones are accepted, with the boundary exact and no arithmetic overflow for any usize.", "quantifier": "every announced size (any usize) and element size", "why_tests_cant": "The boundary involves saturating multiplication over 64-bit sizes.", "anchors": ["geozero/src/geometry_processor.rs: bounded_vec, validate_capacity, MAX_PREALLOC_BYTES", "geozero/src/geo_types/geo_types_writer.rs"]}
{"id": "C19", "title": "WKT writer output denotes the geometry", "statement": "For every geometry whose event stream is fed to WktWriter, the text produced is the WKT of that geometry according to an independent printer (tags once, EMPTY for empty parts, comma separated, parentheses balanced), and the SRID prefix appears exactly once, first, and only for Ewkt with a non-zero SRID.", "quantifier": "every geometry tree of all types, every coordinate formatter, every dialect and SRID", "why_tests_cant": "Text layout depends on arbitrary nesting and on emptiness at each level.", "anchors": ["geozero/src/wkt/wkt_writer.rs: WktWriter"]}
{"id": "C20", "title": "WKT text is unambiguous: distinct geometries give distinct text", "statement": "A parser for the WKT grammar recovers from WktWriter's output exactly the geometry written (for a number formatter whose output parses back), so distinct geometries never produce the same text.", "quantifier": "every geometry tree the WKT grammar covers, every parseable number formatting", "why_tests_cant": "Requires parsing arbitrary nesting back, for all trees.", "anchors": ["geozero/src/wkt/wkt_writer.rs: WktWriter", "geozero/src/wkt/wkt_reader.rs"]}
{"id": "C21", "title": "WKT reader event stream", "statement": "Processing a parsed WKT geometry delivers the documented event stream: announced sizes equal the number of items delivered and indices are consecutive.", "quantifier": "every parsed WKT tree, including MULTIPOINT with EMPTY members", "why_tests_cant": "Sizes and indices must agree at every level of arbitrary trees.", "anchors": ["geozero/src/wkt/wkt_reader.rs: process_wkt_geom_n"]}
{"id": "C22", "title": "GeoJSON geometry output is valid JSON denoting the geometry", "statement": "For every geometry of a GeoJSON type fed to GeoJsonWriter, the text is a well-formed JSON value equal to the RFC 7946 object of that geometry (type, nested coordinates arrays, geometries).", "quantifier": "every geometry tree of the seven GeoJSON types, every number formatter producing JSON numbers, XY or XYZ", "why_tests_cant": "JSON well-formedness depends on comma/bracket placement at every nesting level.", "anchors": ["geozero/src/geojson/geojson_writer.rs: GeoJsonWriter (GeomProcessor impl)"]}
{"id": "C23", "title": "GeoJSON string escaping", "statement": "For every property name and string value, GeoJsonWriter emits a JSON string literal that decodes to exactly that name/value.", "quantifier": "every Unicode string", "why_tests_cant": "The set of strings is infinite; escape bugs hide in rare characters.", "anchors": ["geozero/src/geojson/geojson_writer.rs: PropertyProcessor impl, write_num_prop/write_str_prop"]}
{"id": "C24", "title": "GeoJSON FeatureCollection output is valid JSON", "statement": "For every dataset delivered under the FeatureProcessor contract, the complete output of GeoJsonWriter is one well-formed JSON FeatureCollection containing every feature in order, with its geometry and properties.", "quantifier": "every sequence of features, properties and geometries", "why_tests_cant": "Feature, property and geometry counts are unbounded and interact through separators.", "anchors": ["geozero/src/geojson/geojson_writer.rs: GeoJsonWriter", "geozero/src/geojson/geojson_reader.rs: process_geojson"]}
{"id": "C25", "title": "Line-delimited GeoJSON: one line per item", "statement": "For every sequence of top-level items (features or bare geometries) delivered to GeoJsonLineWriter, the output is exactly one line per item, each line being what GeoJsonWriter writes for that item alone, and no newline inside a line.", "quantifier": "every sequence of features and geometries with arbitrary nesting", "why_tests_cant": "Line breaks are driven by a counter over arbitrarily nested begin/end calls.", "anchors": ["geozero/src/geojson/geojson_line_writer.rs: GeoJsonLineWriter"]}
{"id": "C26", "title": "GeoJSON reader delivers every feature in order", "statement": "Processing a FeatureCollection delivers dataset_begin once, then for each feature in order feature_begin(i), its non-null properties in order, its geometry, feature_end(i), then dataset_end; nothing is dropped, duplicated or reordered.", "quantifier": "every FeatureCollection", "why_tests_cant": "Unbounded number of features/properties.", "anchors": ["geozero/src/geojson/geojson_reader.rs: process_geojson, process_geojson_feature, process_properties"]}
{"id": "C27", "title": "Feature readers obey the FeatureProcessor contract", "statement": "The event sequences produced by the datasource readers (GeoJSON, GeoJSON lines, CSV, MVT layer/tile, shapefile iteration) are accepted by the documented automaton: one dataset, features with consecutive indices, properties and geometry inside features, no event after dataset_end.", "quantifier": "every input file content", "why_tests_cant": "A contract on traces of unbounded length.", "anchors": ["geozero/src/feature_processor.rs", "geozero/src/geojson/geojson_reader.rs", "geozero/src/csv/csv_reader.rs", "geozero/src/mvt/mvt_reader.rs", "geozero/src/shp/reader.rs"]}
{"id": "C28", "title": "CSV writer: one rectangular record per feature", "statement": "For every dataset whose features all have the same property names in the same order, CsvWriter writes one header record and exactly one record per feature, in order, each with as many fields as the header, the geometry column being exactly the WKT of that feature's geometry; a feature with other names is never written silently misaligned.", "quantifier": "every sequence of features with arbitrary properties and geometries", "why_tests_cant": "Row/column alignment over unbounded histories of a mutable writer.", "anchors": ["geozero/src/csv/csv_writer.rs: CsvWriter"]}
{"id": "C29", "title": "CSV reader maps columns correctly", "statement": "For every table, process_csv_features delivers one feature per record whose properties are exactly the non-geometry columns in order (indices 0,1,..., header names, string values) and whose geometry is that of the geometry column; a missing geometry column is an error.", "quantifier": "every header, every number of records, every position of the geometry column", "why_tests_cant": "Index arithmetic around the removed geometry column must hold for each position.", "anchors": ["geozero/src/csv/csv_reader.rs: process_csv_features"]}
{"id": "C30", "title": "Bounds are correct and tight", "statement": "After processing any event stream, Bounds contains every coordinate delivered, each of its four sides is attained by some coordinate, and it is None iff no coordinate was delivered (coordinates not NaN).", "quantifier": "every finite sequence of coordinates", "why_tests_cant": "Universal over sequences and values; NaN ordering matters.", "anchors": ["geozero/src/bounds.rs"]}
{"id": "C31", "title": "Coordinate wrapping is exactly a map over coordinates", "statement": "WrappedXYProcessor delivers to the wrapped processor exactly the same events with x,y replaced by f(x,y); wrapping with f then g equals wrapping with the composition; z/m/idx and structure are untouched.", "quantifier": "every event stream, every transformation function", "why_tests_cant": "Second-order quantification over all functions and traces.", "anchors": ["geozero/src/wrap.rs: WrappedXYProcessor", "geozero/src/geometry_processor.rs: pre_process_xy"]}
{"id": "C32", "title": "Multiplexer delivers the stream to both processors", "statement": "Each of the two processors behind a Multiplexer receives exactly the events it would receive if it processed the source alone.", "quantifier": "every event stream, every pair of processors", "why_tests_cant": "Forwarding must be complete for every event kind and trace.", "anchors": ["geozero/src/multiplex.rs: Multiplexer"]}
{"id": "C33", "title": "Datasource-as-geometry adaptor forwards all geometry events", "statement": "Processing a datasource through its GeozeroGeometry-style process_geom delivers to the processor exactly the geometry events the datasource produces, in order.", "quantifier": "every event stream", "why_tests_cant": "Must hold for all event kinds and traces.", "anchors": ["geozero/src/api.rs: DatasourceGeomProcessor"]}
{"id": "C34", "title": "Processor errors stop processing immediately", "statement": "When the processor returns an error from some event, the WKB reader returns that same error and delivers no further event.", "quantifier": "every byte string, every failing processor, every failure point", "why_tests_cant": "Quantifies over every possible failure point in every stream.", "anchors": ["geozero/src/wkb/wkb_reader.rs: process_wkb_geom_n", "geozero/src/geo_types/geo_types_reader.rs"]}
{"id": "C35", "title": "Property lookup by name and by index", "statement": "FeatureProperties::property(name) returns the value of the first property with that name (typed conversion applied), stopping there, and ColumnNotFound when there is none; property_n(i) likewise for the index; typed getters succeed iff the stored variant is the requested one and never lose information.", "quantifier": "every property list, name, index and requested type", "why_tests_cant": "Unbounded lists and all value variants.", "anchors": ["geozero/src/api.rs: FeatureProperties", "geozero/src/property_processor.rs: PropertyReader, PropertyReaderIdx, impl_scalar_property_reader"]}
{"id": "C36", "title": "Property maps keep the last value per name", "statement": "FeatureProperties::properties() returns a map whose keys are exactly the property names and whose value for a name is the display string of the last property with that name.", "quantifier": "every property list", "why_tests_cant": "Unbounded lists with duplicate names.", "anchors": ["geozero/src/property_processor.rs: HashMap impl", "geozero/src/api.rs: properties"]}
{"id": "C37", "title": "MVT geometry round trip", "statement": "Encoding a geometry with the unscaled MVT writer (or from WKB) and processing the resulting tile feature delivers the same parts, rings and coordinates, for whole-number coordinates in i32 range and closed rings; other coordinates are rounded towards zero and saturate. With a scaled writer every coordinate goes through the same tile transformation and nothing else changes. (The bit-level command encoding is in the fast-mvt crate, outside the project.)", "quantifier": "every point/line/polygon/multi/collection geometry with any number of parts and vertices, any source delivering it", "why_tests_cant": "Unbounded vertex sequences and nesting, all 2^64 coordinate values.", "anchors": ["geozero/src/mvt/mvt_writer.rs: MvtWriter", "geozero/src/mvt/mvt_reader.rs: process_geom"]}
{"id": "C38", "title": "MVT writer never emits degenerate geometry", "statement": "Every geometry the MVT writer outputs satisfies the validity minimum of the spec (lines have at least two vertices, rings at least three distinct positions, polygons at least one ring); inputs violating it are rejected with TooFewCoordinates.", "quantifier": "every event stream", "why_tests_cant": "Must hold for every trace reaching the writer.", "anchors": ["geozero/src/mvt/mvt_writer.rs: linestring_end, multilinestring_end, polygon_end, multipolygon_end"]}
{"id": "C39", "title": "MVT property values are preserved", "statement": "Each property value is stored in a tile value of the kind prescribed for its type, decoding back to the same number, string or boolean.", "quantifier": "every ColumnValue", "why_tests_cant": "All integer/float values of 15 variants.", "anchors": ["geozero/src/mvt/mvt_writer.rs: column_value mapping", "geozero/src/mvt/mvt_reader.rs: process_property"]}
{"id": "C40", "title": "Shapefile polygon rings are grouped without loss", "statement": "Grouping a polygon record's rings into polygons partitions the rings: each ring appears exactly once, in order, and each group begins with an outer ring (the first ring counting as outer).", "quantifier": "every number of parts, every orientation pattern", "why_tests_cant": "All orientation sequences of unbounded length.", "anchors": ["geozero/src/shp/shp_reader.rs: detect_polys, ring_type, process"]}
{"id": "C41", "title": "Shapefile record geometry decoding", "statement": "For every well-formed point, multipoint, polyline or polygon record (any of the XY/Z/M variants), the reader delivers the event stream of the geometry the ESRI specification assigns to it.", "quantifier": "every record, any number of parts and points", "why_tests_cant": "Part index arithmetic for all part/point counts.", "anchors": ["geozero/src/shp/shp_reader.rs: read_shape_rec, MultiPartShape"]}
{"id": "C42", "title": "Shapefile reader rejects inconsistent record sizes and never panics", "statement": "For every byte string, reading a shape record returns Ok or Err: declared sizes that disagree with the content length are rejected and no index or subtraction panics.", "quantifier": "every byte string", "why_tests_cant": "Hostile part tables and sizes are unboundedly many.", "anchors": ["geozero/src/shp/shp_reader.rs: read_shape_rec, MultiPartShape::process", "geozero/src/shp/header.rs"]}
{"id": "C43", "title": "GPX reader event stream", "statement": "Processing a parsed GPX document delivers a geometry collection whose announced size equals the number of members delivered, indices consecutive: waypoints, then tracks, then routes.", "quantifier": "every GPX document", "why_tests_cant": "Any numbers of waypoints, tracks, segments, routes.", "anchors": ["geozero/src/gpx/gpx_reader.rs: process_gpx"]}
{"id": "C44", "title": "SVG output is balanced", "statement": "For every geometry/feature stream under the contract, the SVG document written has balanced elements and every coordinate is inside a path's d attribute.", "quantifier": "every geometry and feature stream", "why_tests_cant": "Nesting and emptiness patterns are unbounded.", "anchors": ["geozero/src/svg/writer.rs: SvgWriter"]}
{"id": "C45", "title": "GEOS/geo tree writers handle nested collections", "statement": "Converting a GeometryCollection through the tree-building writers keeps every member.", "quantifier": "every collection", "why_tests_cant": "Arbitrary collections.", "anchors": ["geozero/src/geos/geos_writer.rs: GeosWriter", "geozero/src/geo_types/geo_types_writer.rs"]}
{"id": "C46", "title": "WKB to WKT conversion", "statement": "Converting a WKB blob of any dialect to WKT or EWKT gives the text of exactly the geometry the reader delivers, prefixed by the SRID stored in the blob for EWKT; a blob the reader rejects is rejected with the reader's error, and the text writer itself never fails.", "quantifier": "every byte sequence, every dialect, all output options and number formats", "why_tests_cant": "Ranges over all byte sequences, including malformed ones, and all geometry shapes.", "anchors": ["geozero/src/wkt/mod.rs: to_wkt_with_opts, FromWkb for Wkt and Ewkt", "geozero/src/wkt/wkt_writer.rs: WktWriter", "geozero/src/wkb/wkb_reader.rs: process_wkb_type_geom"]}
{"id": "C47", "title": "Geometry-only table readers deliver one collection", "statement": "Reading only the geometries of a CSV table or of a GeoJSON-lines file delivers one geometry collection whose members are the geometries of the records in order, numbered 0, 1, ..., with the number of members announced at its start.", "quantifier": "every table or file, any number of records, any position of the geometry column", "why_tests_cant": "Ranges over unbounded record counts; the announced size must agree with each of them.", "anchors": ["geozero/src/csv/csv_reader.rs: process_csv_geom", "geozero/src/geojson/geojson_line_reader.rs: read_geojson_line_geometries"]}
{"id": "C48", "title": "Conversion to GeoJSON", "statement": "Converting any supported source (WKB dialects, geo-types, WKT, CSV tables) to GeoJSON text with to_json or GeoJsonString::from_wkb yields one well-formed JSON text, the RFC 7946 object of the source's geometry (or feature collection of its rows).", "quantifier": "all geometries of GeoJSON types with finite coordinates, all conformant encodings of them, all CSV tables", "why_tests_cant": "It composes a reader and a writer over unboundedly nested inputs; tests compare a few strings.", "anchors": ["geozero/src/geojson/mod.rs: ToJson::to_json, ProcessToJson::to_json, GeoJsonString::from_wkb", "geozero/src/geojson/geojson_writer.rs: GeoJsonWriter"]}
{"id": "C49", "title": "MVT layers hold the features in order", "statement": "The layer built from a stream of features holds exactly the features that have a geometry, in order, each with its geometry and all its properties in order; processing a layer delivers one dataset with its name and every feature in order with its properties (except null ones) and geometry; layer to processor to layer gives the same features.", "quantifier": "every feature stream, every layer", "why_tests_cant": "Unboundedly many features, properties and geometries interact through the state of one writer.", "anchors": ["geozero/src/mvt/mvt_writer.rs: MvtWriter, layer, feature_end, property", "geozero/src/mvt/mvt_reader.rs: process"]}
{"id": "C50", "title": "Decoding WKB to a tile feature never panics", "statement": "For any bytes in any WKB dialect, decoding them into an MVT feature returns a feature or an error and never panics.", "quantifier": "every byte string, every dialect", "why_tests_cant": "Arbitrary malformed input.", "anchors": ["geozero/src/mvt/mvt_writer.rs: FromWkb", "geozero/src/wkb/wkb_reader.rs"]}
{"id": "C51", "title": "Shapefile iteration delivers every shape and feature in order", "statement": "Iterating over a well-formed shapefile delivers the geometries of all its shapes in file order and nothing else; iterating over its features delivers one dataset with one feature per shape that has an attribute row, in order, with the non-null fields of its row as properties and the geometry of its shape. Iteration ends on every input.", "quantifier": "every well-formed file below 2 GiB, any number of shapes, parts and points, any rows; for termination every byte string", "why_tests_cant": "Record positions accumulate over unboundedly many records of unbounded size.", "anchors": ["geozero/src/shp/reader.rs: ShapeIterator, ShapeRecordIterator, ShpReader", "geozero/src/shp/header.rs: Header::read_from"]}
{"id": "C52", "title": "SVG path data is valid and draws the geometry", "statement": "The d attribute of every path written for a geometry is valid SVG path data, and drawing it visits exactly the geometry's positions in order, with one subpath per line or ring (y negated if inverted).", "quantifier": "every geometry with finite coordinates and without empty lines or rings, both axis directions", "why_tests_cant": "Ranges over all geometries; tests compare a few literal strings, and a string comparison does not tell whether a renderer accepts the path.", "anchors": ["geozero/src/svg/writer.rs: SvgWriter"]}
{"id": "C53", "title": "GEOS conversion is faithful or an error", "statement": "Processing a GEOS geometry delivers the documented event stream of the geometry it denotes. Converting to GEOS yields a GEOS geometry that denotes the same two-dimensional geometry with the delivered SRID, or an error; never another geometry.", "quantifier": "every GEOS geometry; every source and every geometry it delivers; every behaviour of the library's validity checks", "why_tests_cant": "Unboundedly many geometries, and the writer's stacks of rings and polygons depend on the whole history of calls.", "anchors": ["geozero/src/geos/geos_reader.rs: process_geom", "geozero/src/geos/geos_writer.rs: GeosWriter", "geozero/src/geos/mod.rs: ToGeos, FromWkb"]}
{"id": "C54", "title": "GDAL conversion is faithful or an error", "statement": "Processing an OGR geometry delivers the documented event stream of the geometry it denotes, or a format error if it is malformed. Converting to GDAL in two dimensions yields an OGR geometry denoting the same geometry, or an error; never another geometry.", "quantifier": "every tree of OGR geometries of all types; every source and every geometry it delivers", "why_tests_cant": "Unboundedly many trees, and the writer's current line depends on the whole history of calls.", "anchors": ["geozero/src/gdal/gdal_reader.rs: process_geom", "geozero/src/gdal/gdal_writer.rs: GdalWriter", "geozero/src/gdal/mod.rs: ToGdal, FromWkb"]}
{"id": "C55", "title": "Decoding WKB to GDAL is memory safe and never panics", "statement": "For every byte string and dialect, from_wkb for gdal geometries returns a geometry or an error: it does not panic and does not write through its unowned pointer to the current line after the geometry owning that line has been dropped.", "quantifier": "every byte string, every dialect", "why_tests_cant": "The dangling pointer needs particular sequences of members in a collection.", "anchors": ["geozero/src/gdal/gdal_writer.rs: GdalWriter::xy, linestring_begin", "geozero/src/gdal/mod.rs: FromWkb"]}
{"id": "C56", "title": "The SVG view box shows exactly the requested extent", "statement": "After set_dimensions, the document's root element has the given width and height, and its view box encloses the drawn position of a coordinate exactly if the coordinate lies in the requested extent, with the y axis inverted or not.", "quantifier": "every extent, size, style and dataset name, inverted or not, every dataset without empty points", "why_tests_cant": "The extent is four arbitrary floating-point numbers, and every position inside and outside of it must be on the right side.", "anchors": ["geozero/src/svg/writer.rs: SvgWriter::set_dimensions, dataset_begin, xy"]}
{"id": "C57", "title": "Conversion to geo-types features keeps every feature", "statement": "to_geo_features on a GeoJSON feature collection or feature, newline-delimited GeoJSON features, a CSV table or a vector tile layer returns one GeoFeature per feature, in order, with its geometry and, for every property name, the last value delivered under that name with its type; property() returns that value converted, or ColumnNotFound. A feature without a geometry makes the conversion fail with 'missing geometry'. A source that delivers geometries without feature calls (WKT, GPX, a GeoJSON geometry) yields no features.", "quantifier": "every dataset of any size, every representable geometry, every list of properties including repeated names", "why_tests_cant": "Unboundedly many features, properties and geometries pass through one stateful writer.", "anchors": ["geozero/src/geo_types/geo_types_feature_writer.rs: GeoFeatureWriter, GeoFeature::property, OwnedColumnValue", "geozero/src/geo_types/mod.rs: ToGeoFeatures"]}
{"id": "C58", "title": "Conversion to geo-types features never panics", "statement": "to_geo_features on any data source returns features or an error; none of its debug assertions fails, whatever the kinds of geometry, missing geometries or a source failing midway.", "quantifier": "every source and every sequence of calls it delivers, complete or cut short", "why_tests_cant": "The assertions depend on the state left by all earlier features.", "anchors": ["geozero/src/geo_types/geo_types_feature_writer.rs: feature_begin, geometry_begin, property", "geozero/src/geo_types/mod.rs: ToGeoFeatures"]}
{"id": "C59", "title": "Tessellation fills every polygon from its own rings", "statement": "Processing a dataset with the tessellator delivers to the vertex output, for every polygon in order, the vertices and then the triangles of the fill of exactly that polygon's rings, each ring one closed path with positions rounded to single precision, and nothing for other geometries. It can only fail if the fill or stroke tessellator does.", "quantifier": "every dataset: any number of features, any nesting and mix of geometries", "why_tests_cant": "One path builder is shared by all geometries, so what is filled depends on everything processed before.", "anchors": ["geozero/src/tessellator/mod.rs: Tessellator, tessellate_poly"]}
{"id": "C60", "title": "OBJ output describes the triangles of the polygons", "statement": "The lines printed by ObjWriter form an OBJ document whose faces, referring to the document's vertices counted from one, are exactly the triangles produced for the polygons; printing does not fail.", "quantifier": "every list of vertices and triangles of every number of polygons", "why_tests_cant": "Whether an index names the right vertex depends on all vertices printed before.", "anchors": ["geozero/src/tessellator/mod.rs: ObjWriter, tessellate_poly"]}
{"id": "C61", "title": "Database values keep the geometry", "statement": "Encoding a geometry for GeoPackage (SQLite) or PostGIS and decoding the column value gives the geometry back; re-encoding a blob of any WKB dialect keeps geometry, dimensions and SRID; NULL decodes to None and only NULL does; no column value makes decoding panic; the raw wrappers keep the bytes; encoding reports failures as errors; the encode and decode macros of each database fit together.", "quantifier": "every geometry, blob, dialect, byte order, SRID and column value, for the sqlx, rust-postgres and diesel bindings", "why_tests_cant": "Column values are arbitrary bytes written by other software, and needs a database to test.", "anchors": ["geozero/src/gpkg/geopackage.rs", "geozero/src/postgis/postgis_sqlx.rs", "geozero/src/postgis/postgis_postgres.rs", "geozero/src/postgis/postgis_diesel.rs", "geozero/src/wkb/mod.rs: ToWkb"]}
{"id": "C62", "title": "The command converts whole files", "statement": "The geozero command writes into the destination exactly what the library writes for the input file and touches no other file; an SVG made without --extent shows all of the data and no more (every drawn position is in the view box and each side of it is touched); --extent takes four numbers separated by commas and reports anything else as an error; --extent restricts the output; a failing conversion does not destroy the destination or the input.", "quantifier": "every input file, destination, extent text and dataset", "why_tests_cant": "Depends on the data in the file and on which of the arguments coincide; needs all inputs.", "anchors": ["geozero-cli/src/main.rs: process, transform, get_extent, parse_extent"]}
{"id": "C63", "title": "WKT text has the dimensions asked for", "statement": "to_wkt() prints x and y of every coordinate; to_ewkt(srid) prints every ordinate a coordinate has; to_wkt_ndim(dims) prints x, y and, of z and m, exactly those that were asked for and that the coordinate has.", "quantifier": "every geometry value, every coordinate and every choice of dimensions", "why_tests_cant": "Which ordinates are printed depends on the dimensions asked for and on those of each coordinate of the source; all combinations and all nestings of geometries matter.", "anchors": ["geozero/src/wkt/mod.rs: ToWkt::to_wkt, to_ewkt, to_wkt_ndim, to_wkt_with_opts", "geozero/src/wkt/wkt_writer.rs: WktWriter::xy, coordinate"]}
{"id": "C64", "title": "Compressed SpatiaLite geometries convert to the vertices they stand for", "statement": "Converting a compressed SpatiaLite line string or polygon blob to any output format gives the same result as converting an uncompressed blob with the vertices the compressed one stands for.", "quantifier": "every compressed SpatiaLite line string or polygon blob (any byte order, dimensions, SRID, number of vertices and rings), every uncompressed blob of any WKB dialect with the same geometry, every output format", "why_tests_cant": "Blobs have any number of vertices, rings and any dimensions, and a wrong coordinate index only shows with output formats that use it.", "anchors": ["geozero/src/wkb/wkb_reader.rs: process_linestring, process_wkb_type_geom, read_spatialite_header", "geozero/src/geos/geos_writer.rs: GeosWriter::xy", "geozero/src/gdal/gdal_writer.rs: GdalWriter::xy"]}
{"id": "C65", "title": "Converting whole shapefiles", "statement": "Iterating over the features of a shapefile into a writer (GeoJSON, CSV, geo-types features, SVG, vector tile) gives one output feature for each row and shape, in order, with the geometry of the shape and every field of the row that is not null; nothing is lost without an error.", "quantifier": "every well-formed shapefile (any number of records, all shape types and dimensions) with any attribute rows, every writer and every choice of its dimensions", "why_tests_cant": "Files have any number of records of any type, rows any fields, null or not, in an order that is not defined; the writers keep state from feature to feature, and the reader drops their errors.", "anchors": ["geozero/src/shp/reader.rs: ShapeRecordIterator::next, ShpReader::iter_features", "geozero/src/shp/property_processor.rs: process_properties", "geozero/src/geojson/geojson_writer.rs", "geozero/src/csv/csv_writer.rs: feature_end, property", "geozero/src/geo_types/geo_types_feature_writer.rs: feature_end, property", "geozero/src/svg/writer.rs", "geozero/src/mvt/mvt_writer.rs: feature_end"]}
{"id": "C66", "title": "WKT and CSV round trips", "statement": "A two-dimensional geometry of the seven simple feature types written as WKT text and read again with any parser that understands WKT is the same geometry; features written as CSV with their geometry in a column and read again have the same values as text, in the same order and columns, and the same geometries.", "quantifier": "every geometry (any nesting and size, no NaN), every source delivering it, every dataset of rows with the same columns, every WKT parser and CSV codec that does what its format says", "why_tests_cant": "Geometries have unbounded size and nesting and values any text; a test compares a few texts, not what any reader of the format makes of every text.", "anchors": ["geozero/src/wkt/wkt_writer.rs", "geozero/src/wkt/wkt_reader.rs: process_wkt_geom", "geozero/src/csv/csv_writer.rs", "geozero/src/csv/csv_reader.rs: process_csv", "geozero/src/csv/mod.rs: ProcessToCsv"]}
{"id": "C67", "title": "GeoJSON round trip", "statement": "Features written as GeoJSON (feature collection or one feature per line) and read again are the same features in the same order: the same geometry, the same property names with the same values; so is a geometry written with to_json.", "quantifier": "every dataset whose features GeoJSON can carry (any number of features and properties, any nesting of geometries, two or three dimensions), every source delivering it, every parser that reads GeoJSON as RFC 7946 says, with any order of properties", "why_tests_cant": "The writer prints text piece by piece with separators that depend on indices and nesting; only for all inputs can one say that every reader gets the same features back.", "anchors": ["geozero/src/geojson/geojson_writer.rs", "geozero/src/geojson/geojson_line_writer.rs", "geozero/src/geojson/geojson_reader.rs: process_geojson, process_properties", "geozero/src/geojson/geojson_line_reader.rs: read_geojson_lines", "geozero/src/geojson/mod.rs: ToJson, ProcessToJson"]}
{"id": "C68", "title": "Processing one feature delivers exactly that feature", "statement": "FeatureAccess::process(processor, idx) makes one call feature_begin(idx), then delivers the properties of the feature in order inside one properties section (stopping early only if the processor asks to), then the whole geometry inside one geometry section, then feature_end(idx). If reading fails the error is returned and nothing more is delivered. A data source that processes its features this way obeys the FeatureProcessor contract.", "quantifier": "every feature (any property list, any geometry program, any index), every processor, including those that fail or ask to stop", "why_tests_cant": "The default method is used by every implementor; the order of the calls must hold for all features and for processors that stop or fail at any call.", "anchors": ["geozero/src/api.rs: FeatureAccess::process, FeatureProperties::process_properties"]}
{"id": "C69", "title": "A refused write is reported, and what was written is the beginning of the output", "statement": "Each writer over an io::Write output (GeoJSON, lines of GeoJSON, WKT/EWKT, SVG, WKB in all dialects) fed by a source makes a fixed sequence of writes. If the output takes them all, the result is that of the conversion and the output holds the whole text. As soon as it refuses one, the result is an I/O error and the output holds a beginning of the text: the call never reports success on an incomplete output and never writes bytes that are not part of it.", "quantifier": "every output (any state, any point at which it fails, any number of bytes taken by the failing write), every source that drops no error, every geometry and feature it delivers, every number format", "why_tests_cant": "The output may fail at any byte of any conversion; a test fixes the document and the failure point.", "anchors": ["geozero/src/geojson/geojson_writer.rs: GeoJsonWriter", "geozero/src/geojson/geojson_line_writer.rs: GeoJsonLineWriter", "geozero/src/wkt/wkt_writer.rs: WktWriter", "geozero/src/svg/writer.rs: SvgWriter", "geozero/src/wkb/wkb_writer.rs: WkbWriter", "geozero/src/csv/csv_writer.rs: CsvWriter", "geozero-cli/src/main.rs: process", "geozero/src/shp/reader.rs: ShapeRecordIterator"]}
{"id": "C70", "title": "Converting in several steps is converting in one", "statement": "Convert a two-dimensional geometry without empty points through any sequence of formats (WKB in any of its five dialects, WKT, GeoJSON, geo-types, GEOS, GDAL), in any order and any number of times. If each format of the sequence can hold the geometry, every step succeeds, and the reader at the end delivers exactly the geometry started with. So the GeoJSON, WKT, SVG or geo-types value made from the result is the one made from the original directly, and any two-dimensional processor ending the chain succeeds or fails alike.", "quantifier": "every source, every geometry (any size and nesting), every finite sequence of formats that can hold it, every SRID and envelope on the way, every final processor", "why_tests_cant": "The number of detours is unbounded, and each step composes a writer and a reader that are tested on their own documents only.", "anchors": ["geozero/src/wkb/wkb_writer.rs: WkbWriter", "geozero/src/wkb/wkb_reader.rs: process_wkb_type_geom", "geozero/src/wkt/wkt_writer.rs: WktWriter", "geozero/src/wkt/wkt_reader.rs: process_wkt_geom_n", "geozero/src/geojson/geojson_writer.rs: GeoJsonWriter", "geozero/src/geojson/geojson_reader.rs: process_geojson_geom", "geozero/src/geo_types/geo_types_writer.rs: GeoWriter", "geozero/src/geo_types/geo_types_reader.rs: process_geom", "geozero/src/geos/geos_writer.rs: GeosWriter", "geozero/src/geos/geos_reader.rs: process_geom", "geozero/src/gdal/gdal_writer.rs: GdalWriter", "geozero/src/gdal/gdal_reader.rs: process_geom"]}
{"id": "C71", "title": "How the input arrives does not matter; an input that fails is reported", "statement": "A reader given any io::Read makes the same calls and returns the same result as on the bytes themselves, however the input splits them over read calls, however often a read is interrupted, and whatever the size of the buffers. If the input ends or fails too early, the processor has received a beginning of the calls for the complete input, and the result is an I/O error unless the reader needed no more bytes or had already failed. Text that is not UTF-8 is an I/O error before the first call.", "quantifier": "every sequence of bytes, every division into reads with any number of interruptions, every buffer size, every point of failure, every processor; for WKB in all dialects, shapefiles with and without attributes, WKT, GeoJSON and line-delimited GeoJSON", "why_tests_cant": "Tests read from slices and local files, which deliver everything at once; short and interrupted reads and failures come from the operating system at any byte.", "anchors": ["geozero/src/wkb/wkb_reader.rs: process_wkb_type_geom", "geozero/src/shp/reader.rs: ShpReader", "geozero/src/wkt/wkt_reader.rs: read_wkt", "geozero/src/geojson/geojson_reader.rs: read_geojson, read_geojson_geom", "geozero/src/geojson/geojson_line_reader.rs: GeoJsonLineReader"]}
{"id": "C72", "title": "Iterating over a shapefile comes to an end", "statement": "A program that calls next on the iterator of iter_geometries or iter_features until it returns None, also after errors, makes finitely many calls: one for each shape of a complete file, and no more than the file has bytes otherwise.", "quantifier": "every .shp content, also truncated, every way it arrives, every attribute table, every processor", "why_tests_cant": "Tests iterate over complete files; a file can be cut off at any byte, and a call that never comes cannot be observed by a test.", "anchors": ["geozero/src/shp/reader.rs: ShapeIterator::next, ShapeRecordIterator::next, iter_geometries, iter_features", "geozero/src/shp/mod.rs: example with count()", "geozero/tests/shp-reader.rs: loops over iter_geometries"]}
{"id": "C73", "title": "Every begin call is matched by its end call", "statement": "A reader ends only what it began last and has not ended yet, with the same tagged flag and the same index; calls about datasets, features and properties are made while no geometry is open. When it reports success, everything it began is ended.", "quantifier": "every reader, every input also malformed, every processor also one that fails at any call", "why_tests_cant": "Tests look at the calls for some complete inputs; a missing end call shows only for the one kind, nesting or early exit where it is missing.", "anchors": ["geozero/src/geometry_processor.rs: GeomProcessor", "geozero/src/feature_processor.rs: FeatureProcessor", "geozero/src/wkb/wkb_reader.rs", "geozero/src/wkt/wkt_reader.rs", "geozero/src/geojson/geojson_reader.rs", "geozero/src/geojson/geojson_line_reader.rs", "geozero/src/csv/csv_reader.rs", "geozero/src/gpx/gpx_reader.rs", "geozero/src/mvt/mvt_reader.rs", "geozero/src/shp/reader.rs", "geozero/src/geos/geos_reader.rs", "geozero/src/gdal/gdal_reader.rs", "geozero/src/geo_types/geo_types_reader.rs"]}
{"id": "C74", "title": "Writers do not panic on what readers deliver", "statement": "A conversion to WKT or EWKT, WKB in any dialect, GeoJSON, line-delimited GeoJSON, SVG or GEOS panics only if the reader itself panics on the input; a conversion from WKB to any of these never panics.", "quantifier": "every reader that makes matched calls (C73), every input, every option of the writer", "why_tests_cant": "The writers count open geometries and subtract without a check; that no input makes the count wrong is a statement about all call sequences of all readers.", "anchors": ["geozero/src/wkt/wkt_writer.rs: geom_end, debug_assert", "geozero/src/wkb/wkb_writer.rs: nesting_level", "geozero/src/geojson/geojson_line_writer.rs: end_context", "geozero/src/geojson/geojson_writer.rs", "geozero/src/svg/writer.rs", "geozero/src/geos/geos_writer.rs"]}
{"id": "C75", "title": "The work a reader does is bounded by the length of its input", "statement": "However large the counts announced in its input, a WKB reader makes at most one call for every two bytes it is given, the reader of a shapefile's shapes at most one for each byte and its reader of features one for each byte and attribute field; converting WKB to WKB writes at most a fixed multiple of the input and the envelope, and converting it to WKT, GeoJSON or SVG at most a multiple of the input that depends on how long a printed number can be; and readers of parsed values (geo-types, GEOS, GDAL, WKT, GeoJSON, tile layers, GPX, CSV) make at most one call for each position and property, two for each geometry, line and ring, six for each feature and two for the data set.", "quantifier": "every byte string, every dialect, every processor, every option of the WKB and WKT writers, every way of printing numbers with at most B characters, every attribute table; for shapefiles builds with overflow checks", "why_tests_cant": "A short hostile input can announce four billion points or a part table that visits points again; that no input makes the reader do work out of proportion is a statement about all inputs.", "anchors": ["geozero/src/wkb/wkb_reader.rs: process_wkb_geom_n, process_linestring", "geozero/src/shp/shp_reader.rs: read_shape, process", "geozero/src/shp/reader.rs: iter_geometries, iter_features", "geozero/src/wkb/wkb_writer.rs", "geozero/src/wkt/wkt_writer.rs", "geozero/src/geojson/geojson_writer.rs", "geozero/src/svg/writer.rs", "geozero/src/geo_types/geo_types_reader.rs", "geozero/src/geos/geos_reader.rs", "geozero/src/gdal/gdal_reader.rs", "geozero/src/wkt/wkt_reader.rs", "geozero/src/geojson/geojson_reader.rs", "geozero/src/mvt/mvt_reader.rs", "geozero/src/gpx/gpx_reader.rs", "geozero/src/csv/csv_reader.rs"]}
{"id": "C76", "title": "Which bytes a WKB reader accepts is exactly known", "statement": "A WKB, EWKB, GeoPackage, MySQL or SpatiaLite reader succeeds on an input if and only if the input starts with a byte string that is, up to a short list of leniencies (any nonzero byte order mark, ignored type of the members of multi geometries, members with their own dimensions, ignored high digits or bits of the type word, nested SRIDs, any GeoPackage version, compressed geometries at any place of a SpatiaLite BLOB), the encoding of a geometry nested at most 128 levels deep; it consumes exactly that string and makes exactly the calls of that geometry (a compressed line string is announced with the number of vertices the BLOB says, and its last vertex is numbered with it).", "quantifier": "every byte string, every dialect, both answers of the processor to the question for dimensions", "why_tests_cant": "Tests show that some valid inputs are accepted and some invalid ones refused. That nothing else is accepted, and nothing else misread as a geometry, is a statement about all byte strings.", "anchors": ["geozero/src/wkb/wkb_reader.rs: read_wkb_header, read_ewkb_header, read_gpkg_header, read_spatialite_header, read_mysql_header, process_wkb_geom_n", "geozero/src/wkb/wkb_common.rs: WKBGeometryType::from_u32"]}
{"id": "C77", "title": "Memory reserved from announced sizes is bounded", "statement": "Sizes announced by the input (a number of points, parts, members, the length of a record or of an index file) cannot make a reader or the writer it feeds reserve memory without bound: building a geo-types geometry or a vector-tile feature from WKB reserves at most a constant per byte of input plus 131 reservations of at most 16 MiB, and only the constant per byte when it succeeds; a shapefile record reserves at most four times the size it declares, and a record or index file that is read at most four times its bytes.", "quantifier": "every byte string, every dialect of WKB, every moment of the run, also of runs that fail", "why_tests_cant": "A test sees the memory of one hostile input. That no input of a given length does worse, however it nests its announcements, is a statement about all of them.", "anchors": ["geozero/src/geometry_processor.rs: bounded_vec, MAX_PREALLOC_BYTES", "geozero/src/geo_types/geo_types_writer.rs: GeoWriter", "geozero/src/mvt/mvt_writer.rs: MvtWriter", "geozero/src/wkb/wkb_reader.rs: process_wkb_geom_n, WKB_MAX_NESTING_DEPTH", "geozero/src/shp/shp_reader.rs: read_multipatch_shape_content, MultiPartShape, read_bbox", "geozero/src/shp/shx_reader.rs: read_index_file", "geozero/src/geos/geos_writer.rs: GeosWriter"]}
{"id": "C78", "title": "Opening a shapefile by its path", "statement": "Opening a shapefile by its path looks for the index and the table under the same path with the extensions shx and dbf. It succeeds exactly if the .shp file begins with an accepted header and each companion is either missing or acceptable. The geometries, features, records and fields delivered are those of the files; the index never changes them, and without a table everything that needs one reports that it is missing. An index file that is not needed cannot make the data unreadable.", "quantifier": "every path, every content of the file system, every processor", "why_tests_cant": "The combinations of missing, unreadable, damaged and foreign companions are unbounded; a test opens a handful of complete sets of files.", "anchors": ["geozero/src/shp/reader.rs: ShpReader::from_path, new, add_index_source, add_dbf_source, read_records, dbf_fields, iter_geometries, iter_features", "geozero/src/shp/shx_reader.rs: read_index_file"]}
{"id": "C79", "title": "Transcoding WKB is canonical, and detours change nothing", "statement": "Converting a WKB value of any dialect to WKB of any dialect gives an output that depends only on the geometry the input stands for and on the dimensions, SRID and envelope asked for: the encoding with every part in little endian byte order. Byte orders, flags, envelopes, irrelevant type codes and trailing bytes of the input leave no trace. Converting the output again changes no byte, and converting through an intermediate dialect with enough dimensions gives the same bytes as converting directly.", "quantifier": "every byte string, every source, intermediate and target dialect, all dimensions, SRIDs and envelopes", "why_tests_cant": "Mixed byte orders, odd codes, nested SRIDs and compressed parts can be combined at every level of nesting; that none of it leaks into the output, for all 125 pairs of conversions and all inputs, is no finite check.", "anchors": ["geozero/src/wkb/wkb_writer.rs: WkbWriter, write_header, GeomProcessor impl", "geozero/src/wkb/wkb_reader.rs: process_wkb_type_geom", "geozero/src/wkb/mod.rs: ToWkb::to_wkb_dialect"]}
{"id": "C80", "title": "Scaling into a tile", "statement": "When a geometry is written to a tile with bounds (left, bottom, right, top) and an extent, every coordinate gets the position where it belongs: column floor((x - left) * extent / (right - left)) and row extent - floor((y - bottom) * extent / (top - bottom)), up to an error of floating point rounding of at most 2^-18 of a unit before the floor is taken. Order along both axes is kept, what lies within the bounds lies within the tile, the lower left corner of the bounds is that of the tile and the upper right corner is that of the tile.", "quantifier": "every finite coordinate up to 2^500, all such bounds at least 2^-400 apart, every extent up to 2^30, every arithmetic that rounds to nearest as IEEE 754 demands", "why_tests_cant": "Four rounding steps happen for each ordinate; whether they can push a position out of the tile, swap two positions, or move it further than one unit depends on the numbers, and there are 2^64 of them for each ordinate and each bound.", "anchors": ["geozero/src/mvt/mvt_writer.rs: MvtWriter::new, MvtWriter::transform", "geozero/src/mvt/mod.rs: ToMvt::to_mvt"]}
{"id": "C81", "title": "Compressed SpatiaLite geometries are read to within rounding error", "statement": "A compressed SpatiaLite line string or polygon stores the inner vertices as single precision differences to the vertex before. Reading it delivers as many coordinates as were compressed; first and last vertex of each line or ring and every m are exact; and if each stored difference is right up to η, then x, y and z of the i-th vertex are off by at most 2*i*(η + 2^-53 M + 2^-1075), M being the largest ordinate. If the differences are rounded to the nearest single precision number and neighbours are at most D apart, η is 2^-24 D + 2^-150. If all differences are exact, nothing is lost.", "quantifier": "every line string and every polygon with up to 2^32 vertices per ring and finite ordinates up to 2^900, every dimensionality and byte order, every compressor whose differences are right up to η, every IEEE 754 arithmetic, processors with and without z and m", "why_tests_cant": "Errors of rounding add up from vertex to vertex; a test on a few short lines does not show that the drift stays linear in the number of vertices for all coordinates.", "anchors": ["geozero/src/wkb/wkb_reader.rs: process_compressed_coord, process_linestring, process_polygon, read_spatialite_header"]}
{"id": "C82", "title": "Writers can be used again: what a writer did before does not change what comes next", "statement": "A writer may be handed to several sources one after the other. GeoWriter with take_geometry after each source, GeosWriter and GdalWriter with geometry() read after each source give for every source what a new writer gives, including the SRID and also when an earlier source failed half-way. SvgWriter, GeoJsonWriter, WktWriter and WkbWriter append, for every source, what a new writer would have written. MvtWriter adds to its layer, for every data set, the features a new writer would have got.", "quantifier": "every sequence of sources used with one writer, successful or failed, and every source that comes next", "why_tests_cant": "It ranges over all histories of a writer, including aborted ones; tests use one writer per geometry, and whatever state is left over only shows with particular pairs of sources.", "anchors": ["geozero/src/geo_types/geo_types_writer.rs: GeoWriter, take_geometry, finish_geometry", "geozero/src/geos/geos_writer.rs: GeosWriter", "geozero/src/gdal/gdal_writer.rs: GdalWriter", "geozero/src/svg/writer.rs: SvgWriter", "geozero/src/geojson/geojson_writer.rs: GeoJsonWriter", "geozero/src/wkt/wkt_writer.rs: WktWriter", "geozero/src/wkb/wkb_writer.rs: WkbWriter, write_header", "geozero/src/mvt/mvt_writer.rs: MvtWriter, layer, feature_begin, feature_end"]}
{"id": "C83", "title": "Geometries one after the other in one stream", "statement": "Blobs of any dialects (WKB, EWKB, GeoPackage, MySQL, SpatiaLite) may stand one after the other in one stream. Reading once for each of them delivers every geometry with its SRID, in order, and leaves the stream behind the last blob; at the end of the stream the next read is an I/O error without any call; if the stream is cut anywhere, the complete geometries are all delivered, then a beginning of the one that is cut, then an I/O error. Geometries written with one WkbWriter one after the other are all read back in this way.", "quantifier": "every number and mixture of blobs, every geometry in them, every place where the stream is cut, every sequence of geometries written with one writer", "why_tests_cant": "It ranges over all sequences of blobs of any length; tests read one blob from a buffer that ends with it, where bytes read too many or too few do not show.", "anchors": ["geozero/src/wkb/wkb_reader.rs: process_wkb_type_geom, process_wkb_geom, process_ewkb_geom, process_gpkg_geom, process_mysql_geom, process_spatialite_geom, read_spatialite_header", "geozero/src/wkb/wkb_writer.rs: WkbWriter, write_header"]}
{"id": "C84", "title": "Converting vector tiles and GeoJSON to CSV gives the whole table or fails", "statement": "Converting a vector tile layer, a GeoJSON feature collection or newline-delimited GeoJSON features to CSV gives a header record with the column geometry and the attributes of the first feature that are not null, and one record for each feature with the WKT of its geometry and its values, exactly if every other feature has values for the same columns in the same order (null values only after them). In every other case the conversion fails; it never returns an incomplete or misaligned table.", "quantifier": "every layer and every collection: any number of features, any geometries, any attributes and null values", "why_tests_cant": "It ranges over all combinations of attributes and null values over any number of features; tests convert files whose features all have the same columns.", "anchors": ["geozero/src/csv/csv_writer.rs: CsvWriter", "geozero/src/csv/mod.rs: ProcessToCsv::to_csv", "geozero/src/mvt/mvt_reader.rs: process, process_properties", "geozero/src/geojson/geojson_reader.rs: process_geojson, process_properties", "geozero/src/geojson/geojson_line_reader.rs: GeoJsonLineReader"]}
{"id": "C85", "title": "What a processor asks for changes only the dimensions it gets", "statement": "Every reader asks the processor which dimensions it wants (multi_dim(), dimensions()). The answers, even if they change while reading, decide only whether coordinates come as coordinate(x, y, z, m, ..) or as xy(x, y): for a processor that looks at x and y only, which may also fail, the state it ends in, the outcome (success, error or panic), the input left unread and all calls up to the further dimensions are the same whatever it answers. In particular a processor that asks for two dimensions gets exactly the calls it would have got otherwise, without the further dimensions, and never a call of coordinate.", "quantifier": "every reader (five WKB dialects, WKT, geo-types, GEOS, GDAL, vector tiles, GPX, GeoJSON in its three forms, CSV, shapefiles), every input including malformed and truncated ones, every processor that looks at x and y only, every answer it gives at any time", "why_tests_cant": "It compares two runs on every input, malformed input too, and every processor; tests read a few files with one processor.", "anchors": ["geozero/src/geometry_processor.rs: GeomProcessor::multi_dim, dimensions, xy, coordinate", "geozero/src/wkb/wkb_reader.rs: process_compressed_coord, emit_coord", "geozero/src/wkt/wkt_reader.rs", "geozero/src/geo_types/geo_types_reader.rs", "geozero/src/geos/geos_reader.rs", "geozero/src/gdal/gdal_reader.rs", "geozero/src/geojson/geojson_reader.rs", "geozero/src/mvt/mvt_reader.rs", "geozero/src/shp/shp_reader.rs: MultiPartShape::process, read_multipoint, read_point"]}
{"id": "C86", "title": "Transforming coordinates while reading is transforming the geometry first", "statement": "pre_process_xy(f) puts a wrapper between a reader and a processor. For every function f on positions, reading a value into the wrapped processor gives the processor the same calls, the same final state, and the caller the same outcome as reading the value with every position replaced by f of it into the processor itself. No reader looks at a position to decide what to call, and none makes up a position of its own.", "quantifier": "every function on positions, every processor (failing at any call, any answers to multi_dim), every value of WKT, geo-types, GEOS, GDAL, GPX, GeoJSON in its forms, CSV, and every pair of blobs of a geometry and of the transformed geometry in the five WKB dialects, and every shape of a shapefile", "why_tests_cant": "It compares two runs for every function, every geometry of any depth and every processor; a test transforms one geometry with one function.", "anchors": ["geozero/src/wrap.rs: WrappedXYProcessor", "geozero/src/geometry_processor.rs: GeomProcessor::pre_process_xy", "geozero/src/wkb/wkb_reader.rs", "geozero/src/wkt/wkt_reader.rs", "geozero/src/geo_types/geo_types_reader.rs", "geozero/src/geos/geos_reader.rs", "geozero/src/gdal/gdal_reader.rs: process_point", "geozero/src/geojson/geojson_reader.rs", "geozero/src/geojson/geojson_line_reader.rs", "geozero/src/gpx/gpx_reader.rs", "geozero/src/csv/csv_reader.rs", "geozero/src/shp/shp_reader.rs: MultiPartShape::process, detect_polys"]}
{"id": "C87", "title": "Transforming before, during or after the conversion to geo-types is the same", "statement": "Converting the transformed value to geo-types, converting the value with the writer behind pre_process_xy(f), and converting the value and transforming every position of the result give the same geometry, or fail with the same error. The error, if any, never depends on the transformation.", "quantifier": "every function on positions, every source and input including malformed ones, every target (sizes of elements)", "why_tests_cant": "It compares three runs for every function, source and input; the writer compares positions when it closes rings, so single examples say nothing about others.", "anchors": ["geozero/src/wrap.rs: WrappedXYProcessor", "geozero/src/geometry_processor.rs: GeomProcessor::pre_process_xy", "geozero/src/geo_types/geo_types_writer.rs: GeoWriter", "geozero/src/geo_types/mod.rs: ToGeo, FromWkb"]}
{"id": "C88", "title": "Joined files are read like their parts", "statement": "Reading two line-delimited GeoJSON texts joined to one, a feature collection with the features of two, two CSV tables with the same header one below the other, or a vector tile layer with the features of two layers, makes the calls for the first and then the calls for the second with feature numbers that go on, in one dataset (the index of a geometry in a feature collection, or of a geometry on a line of its own, aside); it fails exactly if one of them does, with the same error and after the same calls. For processors that ignore feature numbers and dataset ends (geo-types features, tile layers, bounds, tessellator) the joined file has the same effect as the two files one after the other.", "quantifier": "every pair of texts, tables or layers of any length including malformed ones, every processor and answer of a processor", "why_tests_cant": "It compares three runs for every pair of inputs and every way to split one; state carried from record to record (counters, buffers, line endings) would only show for particular inputs.", "anchors": ["geozero/src/geojson/geojson_line_reader.rs: read_geojson_lines", "geozero/src/csv/csv_reader.rs: process_csv_features", "geozero/src/mvt/mvt_reader.rs: process", "geozero/src/geo_types/geo_types_feature_writer.rs: GeoFeatureWriter", "geozero/src/bounds.rs: BoundsProcessor"]}
{"id": "C89", "title": "The same features give the same result from every kind of GeoJSON file", "statement": "A FeatureCollection, a line-delimited text with the same features, and reading the features of the collection one by one give the same result: the same calls but for the indices of geometries and the ends of datasets, the same error if any, and the same geo-types features, tile layer, drawing, bounds and triangles.", "quantifier": "every list of features of any length, with any geometry and properties including positions with too few numbers; every processor that does not look at the indices (and ends of datasets), in any state", "why_tests_cant": "It compares runs of three readers for every list of features and every processor.", "anchors": ["geozero/src/geojson/geojson_reader.rs: process_geojson, read_geojson_fc, process_geojson_feature", "geozero/src/geojson/geojson_line_reader.rs: read_geojson_lines", "geozero/src/geo_types/mod.rs: ToGeoFeatures"]}
{"id": "C90", "title": "A file converted to one geometry is the collection of its geometries", "statement": "Converting line-delimited GeoJSON or a CSV table to a geometry has the effect of converting the geometry collection with the geometries of its lines or rows, in their order; a text without geometries gives an empty collection. A FeatureCollection with several geometries is converted to geo-types as the collection of them. A line or row that cannot be read as one is an error.", "quantifier": "every list of lines or rows of any length, lines without geometry included, any geometries including invalid ones; every processor that ignores the announced number of members (and, for lines, indices), in any state", "why_tests_cant": "It compares two readers for all lists of lines and all processors; the line reader starts the collection at the first line that has a geometry, wherever it is.", "anchors": ["geozero/src/geojson/geojson_line_reader.rs: read_geojson_line_geometries", "geozero/src/csv/csv_reader.rs: process_csv_geom", "geozero/src/geojson/geojson_reader.rs: process_geojson_geom", "geozero/src/geo_types/geo_types_writer.rs: GeoWriter, take_geometry", "geozero/src/geo_types/mod.rs: ToGeo"]}
