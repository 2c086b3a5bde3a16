{
 "claims": [
  {
   "property": "C01",
   "status": "proved",
   "theorems": [
    "Geozero.C01_wkb_round_trip",
    "Geozero.C01_wkb_round_trip_stored"
   ],
   "note": "Plain WKB: writer output of every geometry stream is read back to the same stream (missing z/m become 0, superfluous ones are dropped, an all-NaN point becomes the empty point, as the property says). Geometries with an empty point are excluded: the writer rejects them (C07_writer_rejects_empty_point)."
  },
  {
   "property": "C02",
   "status": "proved",
   "theorems": [
    "Geozero.C02_ewkb_round_trip"
   ],
   "note": "EWKB round trip including the SRID."
  },
  {
   "property": "C03",
   "status": "proved",
   "theorems": [
    "Geozero.C03_gpkg_round_trip"
   ],
   "note": "GeoPackage round trip; no SRID is stored as 0."
  },
  {
   "property": "C04",
   "status": "proved",
   "theorems": [
    "Geozero.C04_to_mysql_wkb_is_two_dimensional",
    "Geozero.C04_mysql_round_trip",
    "Geozero.C04_mysql_negative_srid"
   ],
   "note": "MySQL round trip for every non-negative 31-bit SRID, and rejection of negative SRIDs without output."
  },
  {
   "property": "C05",
   "status": "partial",
   "theorems": [
    "Geozero.C05_spatialite_single_part_partial",
    "Geozero.C05_spatialite_second_ring_lost",
    "Geozero.C05_spatialite_second_part_rejected",
    "Geozero.C05_spatialite_round_trip_partial",
    "Geozero.C05_spatialite_polygon_false"
   ],
   "note": "Round trip proved for every geometry whose outermost polygon, triangle, compound curve, curve polygon, polyhedral surface or TIN has no second part (C05_spatialite_single_part_partial; all other outermost types without restriction). False otherwise, and proved to fail always: C05_spatialite_second_ring_lost (polygons and triangles with two or more rings), C05_spatialite_second_part_rejected (two or more segments, curves or patches); C05_spatialite_polygon_false is a concrete witness."
  },
  {
   "property": "C06",
   "status": "partial",
   "theorems": [
    "Geozero.C06_nan_pattern",
    "Geozero.C06_wkb_decodes",
    "Geozero.C06_ewkb_decodes",
    "Geozero.C06_gpkg_decodes_partial",
    "Geozero.C06_mysql_decodes",
    "Geozero.C06_spatialite_decodes",
    "Geozero.C06_tinypoint_decodes",
    "Geozero.C06_compressed_linestring_partial",
    "Geozero.C06_compressed_polygon_partial"
   ],
   "note": "All five dialects, any mixture of byte orders of nested geometries, SpatiaLite TinyPoint blobs and SpatiaLite compressed line strings and polygons. GeoPackage only when the GeoPackage header has the byte order of the top-level WKB header: the general statement is false, see C14.  For compressed geometries see the theorem for the index delivered with the last vertex."
  },
  {
   "property": "C07",
   "status": "partial",
   "theorems": [
    "Geozero.C07_to_wkb",
    "Geozero.C07_to_ewkb",
    "Geozero.C07_to_gpkg_wkb_partial",
    "Geozero.C07_to_spatialite_wkb_partial",
    "Geozero.C07_to_mysql_wkb",
    "Geozero.C07_to_gpkg_wkb_envelope_false",
    "Geozero.C07_wkb_writer_conforms",
    "Geozero.C07_ewkb_writer_conforms",
    "Geozero.C07_gpkg_writer_conforms",
    "Geozero.C07_mysql_writer_conforms",
    "Geozero.C07_spatialite_writer_conforms_partial",
    "Geozero.C07_writer_rejects_empty_point"
   ],
   "note": "Writer output is an encoding of the specification; SpatiaLite with the same restriction as C05."
  },
  {
   "property": "C08",
   "status": "proved",
   "theorems": [
    "Geozero.C08_success_is_one_geometry",
    "Geozero.C08_spatialite_success_loose",
    "Geozero.C08_spatialite_success_semi",
    "Geozero.C08_spatialite_uncompressed",
    "Geozero.C08_spatialite_compressed_false"
   ],
   "note": "All dialects, all byte strings. For SpatiaLite the exact statement needs input without compressed line strings (as the property says); compressed ones get sizes and indices wrong (C08_spatialite_compressed_false)."
  },
  {
   "property": "C09",
   "status": "proved",
   "theorems": [
    "Geozero.C09_spatialite_uncompressed",
    "Geozero.C09_failure_is_prefix",
    "Geozero.C09_spatialite_failure_loose",
    "Geozero.C09_spatialite_failure_semi"
   ],
   "note": "All dialects, all byte strings; SpatiaLite as in C08."
  },
  {
   "property": "C10",
   "status": "proved",
   "theorems": [
    "Geozero.C10_reader_never_panics",
    "Geozero.C10_wkb_too_deep",
    "Geozero.C10_ewkb_too_deep",
    "Geozero.C10_gpkg_too_deep",
    "Geozero.C10_mysql_too_deep",
    "Geozero.C10_spatialite_too_deep"
   ],
   "note": "Depth limit exact on encodings; on arbitrary bytes no delivered geometry is deeper (C08) and no panic occurs."
  },
  {
   "property": "C11",
   "status": "proved",
   "theorems": [
    "Geozero.C11_append_stable",
    "Geozero.C11_truncation_detected",
    "Geozero.C11_back_to_back"
   ],
   "note": "All dialects, all byte strings, all cut points."
  },
  {
   "property": "C12",
   "status": "proved",
   "theorems": [
    "Geozero.C12_srid_agrees_on_any_input",
    "Geozero.C12_wkb_introspection",
    "Geozero.C12_ewkb_introspection",
    "Geozero.C12_gpkg_introspection",
    "Geozero.C12_mysql_introspection",
    "Geozero.C12_spatialite_introspection"
   ],
   "note": "dims()/srid() on encodings of all dialects; on arbitrary bytes srid() equals the delivered SRID."
  },
  {
   "property": "C13",
   "status": "partial",
   "theorems": [
    "Geozero.C13_wkb_code_decodes",
    "Geozero.C13_ewkb_code_decodes",
    "Geozero.C13_conversion",
    "Geozero.C13_writer_codes",
    "Geozero.C13_writer_codes_distinct",
    "Geozero.C13_wkb_unknown_code_rejected",
    "Geozero.C13_ewkb_unknown_code_rejected",
    "Geozero.C13_ewkb_unknown_code_srid_rejected",
    "Geozero.C13_wkb_any_code",
    "Geozero.C13_ewkb_any_code",
    "Geozero.C13_code_outside_table_false"
   ],
   "note": "All codes of the table are decoded and written correctly and undeliverable base types rejected; the strict reading (every code outside the table is rejected) is false: C13_code_outside_table_false. What every other 32-bit code does is stated exactly (C13_wkb_any_code, C13_ewkb_any_code)."
  },
  {
   "property": "C14",
   "status": "partial",
   "theorems": [
    "Geozero.C14_gpkg_mixed_point",
    "Geozero.C14_gpkg_mixed_parts",
    "Geozero.C14_gpkg_mixed_small_parts",
    "Geozero.C14_gpkg_mixed_rings_partial",
    "Geozero.C14_gpkg_mixed_small_rings",
    "Geozero.C14_gpkg_mixed_order_false",
    "Geozero.C14_gpkg_same_order_partial"
   ],
   "note": "False: C14_gpkg_mixed_order_false is a counterexample. Proved when both byte orders agree. What happens when they differ is stated exactly for all geometries but polygons and triangles: points are delivered with the bytes of their ordinates reversed (C14_gpkg_mixed_point); the number of parts of the others is read with its bytes reversed, so that reading fails or only the first parts are delivered (C14_gpkg_mixed_parts; always a failure for 1 to 65535 parts, C14_gpkg_mixed_small_parts). Polygons and triangles with 1 to 65535 rings fail in blobs of less than 256 KiB (C14_gpkg_mixed_rings_partial, C14_gpkg_mixed_small_rings); missing: what is delivered from larger ones."
  },
  {
   "property": "C15",
   "status": "proved",
   "theorems": [
    "Geozero.C15_geo_reader_stream",
    "Geozero.C15_normal_same_geometry",
    "Geozero.C15_geo_round_trip",
    "Geozero.C15_to_geo",
    "Geozero.C15_geo_writer_appends",
    "Geozero.C15_take_geometry",
    "Geozero.C15_large_line_false"
   ],
   "note": "Every geo-types value with closed rings whose counts are within the 16 MiB budget of C18. C15_large_line_false shows the budget hypothesis is needed: a line string of more than 1048576 coordinates is refused."
  },
  {
   "property": "C16",
   "status": "proved",
   "theorems": [
    "Geozero.C16_from_wkb_never_panics"
   ],
   "note": "All bytes, all five dialects, debug assertions on."
  },
  {
   "property": "C17",
   "status": "proved",
   "theorems": [
    "Geozero.C17_geo_wkb_geo",
    "Geozero.C17_geo_spatialite_geo_partial"
   ],
   "note": "WKB, EWKB, GeoPackage and MySQL with any writer dimensions; SpatiaLite (not among the round-tripping dialects) as an additional _partial theorem."
  },
  {
   "property": "C18",
   "status": "proved",
   "theorems": [
    "Geozero.C18_validate_capacity_exact",
    "Geozero.C18_reserved_bytes_bounded",
    "Geozero.C18_announced_size_rejected",
    "Geozero.C18_announced_size_accepted"
   ],
   "note": "Exact boundary, saturation, and rejection/acceptance by the writer for every kind that announces a size."
  },
  {
   "property": "C19",
   "status": "proved",
   "theorems": [
    "Geozero.C19_wkt_writer_prints",
    "Geozero.C19_wkt_writer_sequence"
   ],
   "note": "All geometries, any number formatter, both dialects, any dimensions and SRIDs; also several geometries on one writer."
  },
  {
   "property": "C20",
   "status": "partial",
   "theorems": [
    "Geozero.C20_wkt_parses_back_partial",
    "Geozero.C20_ewkt_parses_back_partial",
    "Geozero.C20_wkt_injective_partial",
    "Geozero.C20_m_without_z_false",
    "Geozero.C20_nan_point_false",
    "Geozero.C20_same_text_iff",
    "Geozero.C20_same_ewkt_iff"
   ],
   "note": "Proved for coordinates without NaN ordinates and without m where z is missing; the remaining cases are refuted (C20_m_without_z_false, C20_nan_point_false). C20_same_text_iff and C20_same_ewkt_iff say for all geometries exactly when two give the same text: the same tree, coordinates showing the same numbers in the same order and, for EWKT, the same SRID up to 0."
  },
  {
   "property": "C21",
   "status": "partial",
   "theorems": [
    "Geozero.C21_wkt_reader_stream_partial",
    "Geozero.C21_multipoint_members",
    "Geozero.C21_multipoint_empty_false",
    "Geozero.C21_wkt_to_wkt",
    "Geozero.C21_wkt_to_wkt_values"
   ],
   "note": "Proved for trees whose multi points have no EMPTY member; C21_multipoint_members gives the exact stream otherwise, which breaks the property (C21_multipoint_empty_false)."
  },
  {
   "property": "C22",
   "status": "partial",
   "theorems": [
    "Geozero.C22_geometry_json_partial",
    "Geozero.C22_unambiguous",
    "Geozero.C22_nan_false",
    "Geozero.C22_curve_false",
    "Geozero.C22_json_iff"
   ],
   "note": "For every geometry of a GeoJSON type (any nesting), index and number printer that prints the ordinates as JSON numbers: the text is one JSON value, the RFC 7946 object (Spec/GeoJson.lean, on the JSON grammar of Spec/Json.lean). False for ordinates that are not finite (C22_nan_false); types without GeoJSON counterpart are not rejected (C22_curve_false). With floats printed as Rust does, the text is JSON exactly if all ordinates are finite (C22_json_iff)."
  },
  {
   "property": "C23",
   "status": "partial",
   "theorems": [
    "Geozero.C23_string_property_partial",
    "Geozero.C23_datetime_property_partial",
    "Geozero.C23_other_property_partial",
    "Geozero.C23_escaping_false",
    "Geozero.C23_changed_value_false"
   ],
   "note": "The literal written denotes the string if and only if it has no backslash and no control character; false otherwise (C23_escaping_false, C23_changed_value_false)."
  },
  {
   "property": "C24",
   "status": "partial",
   "theorems": [
    "Geozero.C24_feature_collection_partial",
    "Geozero.C24_binary_false",
    "Geozero.C24_name_false",
    "Geozero.C24_geojson_to_geojson_false",
    "Geozero.C24_null_property_false",
    "Geozero.C24_json_iff"
   ],
   "note": "Every dataset with plain names and strings, finite numbers, no binary values, properties numbered 0, 1, ... and geometry index 0: the output is one JSON text, the feature collection. False for binary values, dataset names with quotes, properties skipped by the reader, and geometries delivered with the feature index (C24_*_false), in particular GeoJSON to GeoJSON with two features. With floats printed as Rust does, the output is JSON exactly if all floats and ordinates are finite (C24_json_iff)."
  },
  {
   "property": "C25",
   "status": "partial",
   "theorems": [
    "Geozero.C25_one_line_per_item_partial",
    "Geozero.C25_dataset_frame",
    "Geozero.C25_no_newline_partial",
    "Geozero.C25_newline_false",
    "Geozero.C25_curve_false"
   ],
   "note": "One line per item for every sequence of features and bare geometries of GeoJSON types, each line what GeoJsonWriter writes for the item alone. No line break inside a line if the strings have none (C25_newline_false otherwise)."
  },
  {
   "property": "C26",
   "status": "proved",
   "theorems": [
    "Geozero.C26_feature_collection",
    "Geozero.C26_feature",
    "Geozero.C26_geometry",
    "Geozero.C26_values",
    "Geozero.C26_feature_lines",
    "Geozero.C26_lines",
    "Geozero.C26_bad_line",
    "Geozero.C26_geometries",
    "Geozero.C26_single_geometry",
    "Geozero.C26_fc_stream",
    "Geozero.C26_short_position_false",
    "Geozero.C26_line_breaks"
   ],
   "note": "Feature collections, single features, bare geometries, GeoJSON lines and read_geojson_fc, over values as parsed by the geojson crate. The geometry of feature i is delivered with index i."
  },
  {
   "property": "C27",
   "status": "partial",
   "theorems": [
    "Geozero.C27_csv",
    "Geozero.C27_geojson_partial",
    "Geozero.C27_geojson_lines_partial",
    "Geozero.C27_bare_geometry_false",
    "Geozero.C27_fc_false",
    "Geozero.C27_gpx_false",
    "Geozero.C27_mvt",
    "Geozero.C27_shapefile",
    "Geozero.C27_shapefile_after_end_false"
   ],
   "note": "Proved against every processor (also failing ones) and every input for CSV, MVT layers, GeoJSON feature collections and features, GeoJSON lines of features, shapefile iteration. False for bare GeoJSON geometries and for read_geojson_fc (C27_bare_geometry_false, C27_fc_false) and when a shapefile iterator is called again after its end (C27_shapefile_after_end_false), and for GPX, which delivers bare geometry (C27_gpx_false)."
  },
  {
   "property": "C28",
   "status": "proved",
   "theorems": [
    "Geozero.C28_csv_writer",
    "Geozero.C28_rectangular",
    "Geozero.C28_never_misaligned",
    "Geozero.C28_unordered_indices_false",
    "Geozero.C28_after_empty_dataset",
    "Geozero.C28_several_datasets_partial",
    "Geozero.C28_second_dataset_false",
    "Geozero.C28_null_property_false"
   ],
   "note": "One header record and one record per feature for every dataset with uniform names. The header is written with the first feature, so a dataset without features gets none. Never misaligned: every accepted dataset whose property indices go up inside a feature has uniform names; C28_unordered_indices_false shows that this hypothesis is needed, C28_second_dataset_false that the writer panics on a second dataset. The csv crate's quoting is not modelled (records are lists of fields). GeoJSON to CSV: a null first property makes the writer panic (C28_null_property_false)."
  },
  {
   "property": "C29",
   "status": "proved",
   "theorems": [
    "Geozero.C29_csv_reader",
    "Geozero.C29_no_geometry_column"
   ],
   "note": "Every rectangular table and every position of the geometry column, every processor answer. The csv crate and the wkt parser are parameters (records as lists of fields, parse function); geometries with an EMPTY member inside a MULTIPOINT are excluded because of C21_multipoint_empty_false."
  },
  {
   "property": "C30",
   "status": "proved",
   "theorems": [
    "Geozero.C30_bounds",
    "Geozero.C30_none_iff",
    "Geozero.C30_bounds_any_source",
    "Geozero.C30_nan_ignored",
    "Geozero.C30_nan_first_false",
    "Geozero.C30_geometry",
    "Geozero.C30_order"
   ],
   "note": "For every accepted stream and for every source (also failing ones); NaN excluded as in the property. Additionally: later NaNs are ignored per axis; C30_nan_first_false shows a NaN first position sticks."
  },
  {
   "property": "C31",
   "status": "proved",
   "theorems": [
    "Geozero.C31_wrap_calls",
    "Geozero.C31_wrap_source",
    "Geozero.C31_wrap_compose",
    "Geozero.C31_wrap_id",
    "Geozero.C31_wrap_geometry"
   ],
   "note": "Second-order: for every function, processor, source and geometry."
  },
  {
   "property": "C32",
   "status": "partial",
   "theorems": [
    "Geozero.C32_multiplexed_run",
    "Geozero.C32_forwards_partial",
    "Geozero.C32_accepts_partial",
    "Geozero.C32_multiplexer_partial",
    "Geozero.C32_multiplexer_exact",
    "Geozero.C32_collection_false",
    "Geozero.C32_empty_point_false",
    "Geozero.C32_dimensions_false",
    "Geozero.C32_abort_false"
   ],
   "note": "Proved for plain streams (no SRID, empty point, collection begin/end), two-dimensional processors with equal property answers; the full property is false, with machine-checked counterexamples for collections, empty points, z/m and the abort answer. C32_multiplexer_exact says what happens for any source without empty points: each processor receives the calls made for a two-dimensional processor with the second one's answers, without SRIDs and collection begin/end. C32_multiplexed_run describes every run of any source that reports the errors it gets: either all calls are taken, or the run ends with the error of the first call refused (an empty point, or one the first processor refuses, or one the second refuses after the first accepted it), both processors having accepted everything before it."
  },
  {
   "property": "C33",
   "status": "partial",
   "theorems": [
    "Geozero.C33_datasource_run",
    "Geozero.C33_forwards_partial",
    "Geozero.C33_datasource_geometry_partial",
    "Geozero.C33_datasource_geometry_exact",
    "Geozero.C33_collection_false",
    "Geozero.C33_dimensions_false",
    "Geozero.C33_empty_point_false"
   ],
   "note": "Proved for plain streams; false for collections, empty points and z/m (counterexamples). C33_datasource_geometry_exact says what happens for any datasource without empty points. C33_datasource_run describes every run, with empty points and failing processors."
  },
  {
   "property": "C34",
   "status": "proved",
   "theorems": [
    "Geozero.C34_processor_error_stops"
   ],
   "note": "For every stateful processor with constant multi_dim."
  },
  {
   "property": "C35",
   "status": "proved",
   "theorems": [
    "Geozero.C35_scalar_getter",
    "Geozero.C35_scalar_getter_error",
    "Geozero.C35_string_getter",
    "Geozero.C35_by_name",
    "Geozero.C35_by_name_stops",
    "Geozero.C35_by_index",
    "Geozero.C35_by_position",
    "Geozero.C35_shape_field",
    "Geozero.C35_shape_record",
    "Geozero.C35_shape_record_by_name",
    "Geozero.C35_shape_record_index_false"
   ],
   "note": "Getters, lookup by name and by index on every property list, including which calls are made before the lookup stops. Shapefile records: by name proved; the index of a field counts only the non-null fields before it (C35_shape_record_index_false). C35_shape_field: which value each field type of a shapefile record is delivered with."
  },
  {
   "property": "C36",
   "status": "proved",
   "theorems": [
    "Geozero.C36_map",
    "Geozero.C36_keys_and_last",
    "Geozero.C36_display_integer",
    "Geozero.C36_display_other"
   ],
   "note": "Map contents for every property list; the text kept for a value is its decimal representation (integers), the text itself or the printed float."
  },
  {
   "property": "C37",
   "status": "proved",
   "theorems": [
    "Geozero.C37_any_transform",
    "Geozero.C37_unscaled_roundtrip",
    "Geozero.C37_wkb",
    "Geozero.C37_rounding",
    "Geozero.C37_rounding_total",
    "Geozero.C37_saturates",
    "Geozero.C37_rounding_special",
    "Geozero.C37_extent",
    "Geozero.C37_extent_unscaled",
    "Geozero.C37_extent_scaled"
   ],
   "note": "Round trip through the unscaled writer and the reader for every geometry kind a tile holds; general theorem for every coordinate transformation; rounding and saturation of single coordinates. f64 arithmetic of the scaled transformation is a parameter."
  },
  {
   "property": "C38",
   "status": "partial",
   "theorems": [
    "Geozero.C38_output_minimal_partial",
    "Geozero.C38_feature_minimal_partial",
    "Geozero.C38_rejects",
    "Geozero.C38_distinct_false",
    "Geozero.C38_collapsed_false"
   ],
   "note": "Every output of every call sequence satisfies the counts (lines 2, rings 3 before the closing position, polygons 1 ring); violating geometries are rejected. False as stated: the positions of a ring need not be distinct (C38_distinct_false, C38_collapsed_false)."
  },
  {
   "property": "C39",
   "status": "proved",
   "theorems": [
    "Geozero.C39_stored",
    "Geozero.C39_binary",
    "Geozero.C39_read",
    "Geozero.C39_roundtrip"
   ],
   "note": "Kind and content of every value both ways; base64 text decodes to the bytes."
  },
  {
   "property": "C40",
   "status": "proved",
   "theorems": [
    "Geozero.C40_grouping",
    "Geozero.C40_unique",
    "Geozero.C40_count",
    "Geozero.C40_one_polygon",
    "Geozero.C40_outer_rings",
    "Geozero.C40_exists",
    "Geozero.C40_orientation"
   ],
   "note": "Partition, uniqueness and orientation on closed integer rings; the f64 arithmetic is a parameter exact on integers up to a bound (IEEE: 2^53)."
  },
  {
   "property": "C41",
   "status": "proved",
   "theorems": [
    "Geozero.C41_record",
    "Geozero.C41_unique",
    "Geozero.C41_keep_all"
   ],
   "note": "For processors whose multi_dim says whether they want z or m. MultiPatch records are skipped by the code."
  },
  {
   "property": "C42",
   "status": "partial",
   "theorems": [
    "Geozero.C42_no_panic_partial",
    "Geozero.C42_declared_size_partial",
    "Geozero.C42_no_panic_false",
    "Geozero.C42_declared_size_false",
    "Geozero.C42_header_never_panics",
    "Geozero.C42_file_code",
    "Geozero.C42_file_length_false",
    "Geozero.C42_panics_only_if",
    "Geozero.C42_panics_iff",
    "Geozero.C42_sane_not_panics",
    "Geozero.C42_accepts_iff",
    "Geozero.C42_iterate_shapes_panics_iff",
    "Geozero.C42_iterate_features_panics_iff",
    "Geozero.C42_iterate_shapes_partial",
    "Geozero.C42_iterate_features_partial",
    "Geozero.C42_header_accepted_iff",
    "Geozero.C42_file_length_panics",
    "Geozero.C42_index_panics_iff"
   ],
   "note": "Proved for records with sane counts and part table, any other bytes; declared sizes are enforced except for null shapes. False in general: C42_no_panic_false, C42_declared_size_false, C42_file_length_false. The file code is checked (C42_file_code). For whole files: iterating over shapes or features never panics if the announced length can be doubled and every record the iteration comes to is sane; headers accepted characterised exactly; reading an index file panics exactly when an accepted header announces fewer than 47 or at least 2^30 words. Exact, for processors whose calls do not fail: a record panics iff RecordPanics (C42_panics_iff), is accepted iff RecordAccepted (C42_accepts_iff); iterating over shapes or features of a file panics iff FilePanics."
  },
  {
   "property": "C43",
   "status": "partial",
   "theorems": [
    "Geozero.C43_gpx_partial",
    "Geozero.C43_size_iff",
    "Geozero.C43_indices_partial",
    "Geozero.C43_size_false",
    "Geozero.C43_all_points",
    "Geozero.C43_balanced",
    "Geozero.C43_rejected",
    "Geozero.C43_wkt_partial",
    "Geozero.C43_empty_segment_wkt_false"
   ],
   "note": "Order, indices and coordinates proved for every document; announced size right exactly when no track is without segments and there is at most one route (C43_size_iff). False in general: C43_size_false; empty segments give malformed WKT (C43_empty_segment_wkt_false)."
  },
  {
   "property": "C44",
   "status": "partial",
   "theorems": [
    "Geozero.C44_to_svg_balanced",
    "Geozero.C44_to_svg_paths_partial",
    "Geozero.C44_empty_point_rejected",
    "Geozero.C44_multipoint_false",
    "Geozero.C44_document_balanced",
    "Geozero.C44_document_paths_partial",
    "Geozero.C44_source_document",
    "Geozero.C44_to_svg_document",
    "Geozero.C44_name_false",
    "Geozero.C44_from_wkb",
    "Geozero.C44_name_iff"
   ],
   "note": "Balance proved for every geometry without empty points, every writer setting and dataset with plain name and style, and for every WKB input of every dialect; coordinates in d attributes proved for drawable geometries. False for multi points and names that need escaping (C44_multipoint_false, C44_name_false). Number formatting is a parameter. C44_name_iff says exactly which names of data sets a document carries."
  },
  {
   "property": "C45",
   "status": "partial",
   "theorems": [
    "Geozero.C45_gdal_false",
    "Geozero.C45_geo_types",
    "Geozero.C45_geos_false"
   ],
   "note": "geo-types keeps every member (C45_geo_types); GEOS and GDAL keep only the last one (C45_geos_false, C45_gdal_false). For every kind and nesting depth: what GEOS gives (C53_any_geometry: the last basic part, or an error), and what GDAL gives for nested collections of basic kinds (C54_nested_collections)."
  },
  {
   "property": "C46",
   "status": "proved",
   "theorems": [
    "Geozero.C46_to_wkt_text",
    "Geozero.C46_wkb_to_wkt",
    "Geozero.C46_any_wkb_to_wkt",
    "Geozero.C46_to_wkt",
    "Geozero.C46_to_ewkt",
    "Geozero.C46_geo_to_wkt",
    "Geozero.C46_wkt_from_wkb",
    "Geozero.C46_ewkt_from_wkb",
    "Geozero.C46_ewkt_from_wkb_lossless_partial"
   ],
   "note": "C46_any_wkb_to_wkt: all bytes, every dialect; sizes and indices, which compressed SpatiaLite line strings get wrong (C08), do not show in the text. C46_wkb_to_wkt is the exact form for the other dialects; to_wkt/to_ewkt of any value; EWKT of WKB loses nothing where C20 holds (C46_ewkt_from_wkb_lossless_partial)."
  },
  {
   "property": "C47",
   "status": "partial",
   "theorems": [
    "Geozero.C47_csv_collection_partial",
    "Geozero.C47_csv_short",
    "Geozero.C47_csv_size_false",
    "Geozero.C47_line_geometries_partial",
    "Geozero.C47_line_size_false",
    "Geozero.C47_line_index_false"
   ],
   "note": "CSV: members in order with consecutive indices for every table; the announced size is always 1 (C47_csv_size_false), right only for at most one record (C47_csv_short). GeoJSON lines: members in order, numbered with line numbers, so with gaps (C47_line_index_false), announced size 1 (C47_line_size_false)."
  },
  {
   "property": "C48",
   "status": "partial",
   "theorems": [
    "Geozero.C48_gpx_partial",
    "Geozero.C48_gpx_empty_segment_false",
    "Geozero.C48_geos_partial",
    "Geozero.C48_gdal_partial",
    "Geozero.C48_mvt_layer_partial",
    "Geozero.C48_mvt_null_false",
    "Geozero.C48_to_json",
    "Geozero.C48_errors",
    "Geozero.C48_feature_errors",
    "Geozero.C48_wkb",
    "Geozero.C48_ewkb",
    "Geozero.C48_mysql",
    "Geozero.C48_spatialite",
    "Geozero.C48_gpkg_partial",
    "Geozero.C48_geo",
    "Geozero.C48_wkt_partial",
    "Geozero.C48_geojson_geometry",
    "Geozero.C48_geojson_features_false",
    "Geozero.C48_csv_partial"
   ],
   "note": "From every source whose stream is a geometry of a GeoJSON type: WKB, EWKB, MySQL, SpatiaLite and GeoPackage bytes, geo-types, WKT trees, CSV tables. Numbers must be finite (C22). WKT: no empty members; GeoPackage: one byte order; CSV: as C24. Also GPX documents without empty parts (C48_gpx_partial), GEOS and GDAL geometries without empty points (C48_geos_partial, C48_gdal_partial) and vector tile layers without null values (C48_mvt_layer_partial); invalid for an empty first track segment (C48_gpx_empty_segment_false) and for null tile values (C48_mvt_null_false)."
  },
  {
   "property": "C49",
   "status": "proved",
   "theorems": [
    "Geozero.C49_layer",
    "Geozero.C49_read",
    "Geozero.C49_roundtrip"
   ],
   "note": "Features without geometry are left out (skip case of TileFeature)."
  },
  {
   "property": "C50",
   "status": "proved",
   "theorems": [
    "Geozero.C50_mvt_from_wkb_never_panics"
   ],
   "note": "All byte strings, all dialects; debug assertions counted as panics."
  },
  {
   "property": "C51",
   "status": "proved",
   "theorems": [
    "Geozero.C51_index_file",
    "Geozero.C51_terminates",
    "Geozero.C51_geometries",
    "Geozero.C51_features",
    "Geozero.C51_all_features",
    "Geozero.C51_missing_rows_false",
    "Geozero.C51_cut_off_false"
   ],
   "note": "Shapes beyond the last row are dropped without error (C51_missing_rows_false). Index files: C51_index_file. On a file that is cut off the shape iterator returns errors forever (C51_cut_off_false)."
  },
  {
   "property": "C52",
   "status": "partial",
   "theorems": [
    "Geozero.C52_path_data_partial",
    "Geozero.C52_line_string_false"
   ],
   "note": "Proved for all drawable geometries except line strings of their own, for which it is false for every line string (C52_line_string_false). Number formatting is a parameter assumed to print finite numbers as SVG numbers."
  },
  {
   "property": "C53",
   "status": "partial",
   "theorems": [
    "Geozero.C53_reader_partial",
    "Geozero.C53_to_wkt_partial",
    "Geozero.C53_empty_point_false",
    "Geozero.C53_to_geos_partial",
    "Geozero.C53_same_geometry",
    "Geozero.C53_rejected",
    "Geozero.C53_empty_point_rejected",
    "Geozero.C53_from_wkb_partial",
    "Geozero.C53_surface_false",
    "Geozero.C53_multipoint_blank_false",
    "Geozero.C53_round_trip_partial",
    "Geozero.C53_to_ewkb_partial",
    "Geozero.C53_any_geometry",
    "Geozero.C53_nothing_left_false",
    "Geozero.C53_arc_rejected",
    "Geozero.C53_any_blob",
    "Geozero.C53_from_blob_partial"
   ],
   "note": "Proved for the six basic kinds without empty points, every library behaviour; WKB composition for every dialect (C53_from_blob_partial: every blob that is not a compressed SpatiaLite one). Empty points are an error when writing. False for reading empty points, surfaces and multi points with blank members (witnesses). Compressed line strings of SpatiaLite are rejected (C64_geos_false). What the writer gives for every geometry of every kind, nested to any depth, is stated exactly (C53_any_geometry, C53_any_blob)."
  },
  {
   "property": "C54",
   "status": "partial",
   "theorems": [
    "Geozero.C54_reader_partial",
    "Geozero.C54_reads_every_kind",
    "Geozero.C54_to_wkt_partial",
    "Geozero.C54_empty_point_false",
    "Geozero.C54_to_gdal_partial",
    "Geozero.C54_empty_point_rejected",
    "Geozero.C54_same_geometry",
    "Geozero.C54_from_wkb_partial",
    "Geozero.C54_circular_false",
    "Geozero.C54_round_trip_partial",
    "Geozero.C54_to_ewkb_partial",
    "Geozero.C54_nested_collections",
    "Geozero.C54_nested_blob",
    "Geozero.C54_to_gdal_measured_partial",
    "Geozero.C54_z_rejected",
    "Geozero.C54_m_lost_false",
    "Geozero.C54_from_blob_partial"
   ],
   "note": "Reading is proved for all OGR trees without empty points (all kinds, malformed ones included); writing for the six basic kinds in 2D and with m requested (x, y, z kept). With z only every coordinate is rejected (C54_z_rejected), with m the m is lost (C54_m_lost_false). Empty points are an error when writing. False for reading empty points and circular strings (witnesses). From WKB for every blob of every dialect that is not a compressed SpatiaLite one (C54_from_blob_partial); compressed line strings get an additional vertex (C64_gdal_false). For collections nested to any depth of basic kinds the result is exactly the last part (C54_nested_collections, C54_nested_blob)."
  },
  {
   "property": "C55",
   "status": "partial",
   "theorems": [
    "Geozero.C55_use_after_free_false",
    "Geozero.C55_no_polygon_false",
    "Geozero.C55_no_use_after_free_partial",
    "Geozero.C55_never_panics_partial",
    "Geozero.C55_use_after_free_iff",
    "Geozero.C55_panics_iff",
    "Geozero.C55_converts_iff",
    "Geozero.C55_outside_collections"
   ],
   "note": "False in general: a blob with a use after free and one with an overflow. Stated exactly: C55_use_after_free_iff and C55_panics_iff say for which sequences of calls (Spec/GdalPanic.lean, in terms of the calls alone) this happens, for all bytes of all dialects; C55_converts_iff says when there is a result. It never happens without a geometry collection (C55_outside_collections), a use after free never without circular strings (C55_no_use_after_free_partial), no panic for nested collections of basic kinds (C55_never_panics_partial)."
  },
  {
   "property": "C56",
   "status": "proved",
   "theorems": [
    "Geozero.C56_view_box"
   ],
   "note": "Containment is by the values of the doubles; the printed width and height of the box are the formatted float differences of its corners (formatting and subtraction are parameters). Name and style must need no escaping (C44_name_false)."
  },
  {
   "property": "C57",
   "status": "proved",
   "theorems": [
    "Geozero.C57_features",
    "Geozero.C57_property",
    "Geozero.C57_geojson",
    "Geozero.C57_geojson_feature",
    "Geozero.C57_geojson_lines",
    "Geozero.C57_csv",
    "Geozero.C57_mvt",
    "Geozero.C57_missing_geometry",
    "Geozero.C57_bare_geometry_false",
    "Geozero.C57_abort_false",
    "Geozero.C57_lines_iff"
   ],
   "note": "C57_features is for every source delivering a dataset while every property is answered with true, which the repository's readers do (they ignore the answer). C57_abort_false: the writer answers true, so a source that stops when told to, as documented, only delivers the first property. C57_bare_geometry_false: nothing comes out of bare geometries. C57_lines_iff says for newline-delimited GeoJSON of any lines exactly when the conversion succeeds, and with which features."
  },
  {
   "property": "C58",
   "status": "partial",
   "theorems": [
    "Geozero.C58_no_panic_partial",
    "Geozero.C58_geojson_partial",
    "Geozero.C58_mvt_partial",
    "Geozero.C58_csv_partial",
    "Geozero.C58_lines_false",
    "Geozero.C58_lines_iff"
   ],
   "note": "Proved for every source whose calls are a dataset with complete geometries, or the beginning of one. False for newline-delimited GeoJSON that mixes geometries and features (C58_lines_false); C58_lines_iff says exactly which lines panic: features with geometry, then bare geometries, then a feature."
  },
  {
   "property": "C59",
   "status": "partial",
   "theorems": [
    "Geozero.C59_filled_any_geometry",
    "Geozero.C59_filled_exact",
    "Geozero.C59_fills_partial",
    "Geozero.C59_point_false",
    "Geozero.C59_multi_line_false"
   ],
   "note": "Proved for datasets of polygons, multi polygons, polyhedral surfaces, separate line strings and collections of them, with and without the assertions of lyon's builder; lyon itself is a parameter. False after points (C59_point_false) and multi line strings (C59_multi_line_false). C59_filled_exact says exactly what is filled for every dataset without points and circular strings: each polygon together with the loose lines since the last polygon or separate line string. C59_filled_any_geometry says it for every dataset without empty points, with points and circular strings, and exactly when the assertions of lyon panic."
  },
  {
   "property": "C60",
   "status": "partial",
   "theorems": [
    "Geozero.C60_obj_exact",
    "Geozero.C60_obj_printed_iff",
    "Geozero.C60_obj_partial",
    "Geozero.C60_obj_succeeds_partial",
    "Geozero.C60_obj_false",
    "Geozero.C60_overflow_false"
   ],
   "note": "Proved for one polygon with fewer than 65536 vertices. False for two polygons (C60_obj_false); the 65536th vertex overflows (C60_overflow_false). C60_obj_exact says what any printed document describes; C60_obj_printed_iff says exactly which documents are printed."
  },
  {
   "property": "C61",
   "status": "partial",
   "theorems": [
    "Geozero.C61_geo_round_trip",
    "Geozero.C61_blob_to_postgis",
    "Geozero.C61_blob_to_gpkg",
    "Geozero.C61_null_is_none",
    "Geozero.C61_macro_rejects_null",
    "Geozero.C61_decode_never_panics",
    "Geozero.C61_raw_keeps_bytes",
    "Geozero.C61_encode_failure",
    "Geozero.C61_empty_point_panics_false",
    "Geozero.C61_gpkg_macro_false",
    "Geozero.C61_gpkg_macro_round_trip_false"
   ],
   "note": "Round trips, re-encoding, NULL, raw values and panic freedom of decoding are proved for all inputs. False parts: the sqlx encoders panic on every geometry the WKB writer rejects (C61_encode_failure, C61_empty_point_panics_false), and the GeoPackage macro pair does not fit together (C61_gpkg_macro_false: the decoder rejects every GeoPackage blob)."
  },
  {
   "property": "C62",
   "status": "partial",
   "theorems": [
    "Geozero.C62_extent",
    "Geozero.C62_extent_false",
    "Geozero.C62_json",
    "Geozero.C62_csv",
    "Geozero.C62_wkt",
    "Geozero.C62_wkt_features_false",
    "Geozero.C62_input_extension",
    "Geozero.C62_failure_reported",
    "Geozero.C62_csv_to_geojson_partial",
    "Geozero.C62_other_files",
    "Geozero.C62_unknown_extension_false",
    "Geozero.C62_same_file_false",
    "Geozero.C62_missing_input_false",
    "Geozero.C62_extent_ignored_false",
    "Geozero.C62_svg_shows_everything",
    "Geozero.C62_svg_extent"
   ],
   "note": "Proved: destination contents for GeoJSON and CSV output, other files untouched, SVG view box for every dataset without --extent (C62_svg_shows_everything) and with it (C62_svg_extent), extent parsing. False parts, with witnesses: malformed extents panic (C62_extent_false), --extent has no effect for text inputs (C62_extent_ignored_false), converting a file to itself loses it (C62_same_file_false), failures leave the destination empty (C62_unknown_extension_false, C62_missing_input_false). C62_csv_to_geojson_partial has the restrictions of C48_csv_partial."
  },
  {
   "property": "C63",
   "status": "partial",
   "theorems": [
    "Geozero.C63_to_wkt_ndim_exact",
    "Geozero.C63_to_wkt_ndim_partial",
    "Geozero.C63_to_wkt_two_dimensions",
    "Geozero.C63_to_wkt_ndim_false"
   ],
   "note": "C63_to_wkt_ndim_exact says exactly what is printed for every choice of dimensions. The property follows for to_wkt, for x, y only, for all four dimensions and when the coordinates have no dimension that was not asked for; it is false when one of z and m is asked for and the other present (C63_to_wkt_ndim_false)."
  },
  {
   "property": "C64",
   "status": "partial",
   "theorems": [
    "Geozero.C64_packed_anywhere_like_plain_partial",
    "Geozero.C64_compressed_like_plain_partial",
    "Geozero.C64_geos_false",
    "Geozero.C64_gdal_false"
   ],
   "note": "Proved for WKT, WKB of all dialects, geo-types, GeoJSON, SVG and vector tiles, for compressed line strings and polygons (C64_compressed_like_plain_partial) and for compressed geometries at any place in a BLOB (C64_packed_anywhere_like_plain_partial). False for GEOS, which rejects every compressed line string (C64_geos_false), and for GDAL, whose line string gets an additional vertex at the origin (C64_gdal_false): the reader announces the last coordinate with an index one too high."
  },
  {
   "property": "C65",
   "status": "partial",
   "theorems": [
    "Geozero.C65_geojson_partial",
    "Geozero.C65_geojson_null_shape_false",
    "Geozero.C65_csv_partial",
    "Geozero.C65_csv_null_field_false",
    "Geozero.C65_csv_null_field_panics_false",
    "Geozero.C65_csv_order_false",
    "Geozero.C65_geo_types_partial",
    "Geozero.C65_geo_types_null_false",
    "Geozero.C65_geo_types_null_panics_false",
    "Geozero.C65_geo_types_fields_false",
    "Geozero.C65_svg",
    "Geozero.C65_mvt_layer"
   ],
   "note": "Proved: GeoJSON for files without null shapes and with printable values (C65_geojson_partial), CSV if all rows have the same fields that are not null in the same order (C65_csv_partial), geo-types features without null shapes, first field only (C65_geo_types_partial), SVG documents of every file (C65_svg), vector tile layers (C65_mvt_layer). False: a null shape makes the GeoJSON invalid (C65_geojson_null_shape_false); a null field makes CSV lose the record without an error or panic (C65_csv_null_field_false, C65_csv_null_field_panics_false), so do fields in another order (C65_csv_order_false); a null shape makes geo-types conversion lose the feature or panic (C65_geo_types_null_false, C65_geo_types_null_panics_false), and all fields but the first are lost (C65_geo_types_fields_false)."
  },
  {
   "property": "C66",
   "status": "partial",
   "theorems": [
    "Geozero.C66_wkt",
    "Geozero.C66_csv_partial",
    "Geozero.C66_csv_no_features_false"
   ],
   "note": "Proved: WKT of two-dimensional geometries (C66_wkt), CSV with at least one row that has a geometry column (C66_csv_partial); parsers and codecs that meet the hypotheses exist (exists_wktParser, exists_csvCodec). False: a dataset without features gives an empty text, which the reader rejects (C66_csv_no_features_false)."
  },
  {
   "property": "C67",
   "status": "partial",
   "theorems": [
    "Geozero.C67_feature_collection_partial",
    "Geozero.C67_to_json_partial",
    "Geozero.C67_geometry_partial",
    "Geozero.C67_geometry_process_geom_partial",
    "Geozero.C67_lines_partial",
    "Geozero.C67_float_type_false",
    "Geozero.C67_embedded_null_false",
    "Geozero.C67_rfc7946_iff",
    "Geozero.C67_geometry_rfc7946_iff"
   ],
   "note": "Proved: feature collections for writers of any dimensions (C67_feature_collection_partial), to_json of datasets and geometries (C67_to_json_partial, C67_geometry_partial), line-delimited output (C67_lines_partial), with properties of all kinds including embedded JSON (arrays and objects printed again by the parser, strings, numbers and booleans as such); a parser that meets the hypotheses exists (exists_gjParser). The output is a feature collection (geometry) of RFC 7946 exactly if every feature has both sections and no geometry has an empty point (C67_rfc7946_iff, C67_geometry_rfc7946_iff), so the other datasets cannot be read back by every parser. False: a float printed without a decimal point comes back as an integer (C67_float_type_false), an embedded null does not come back (C67_embedded_null_false)."
  },
  {
   "property": "C68",
   "status": "proved",
   "theorems": [
    "Geozero.C68_feature",
    "Geozero.C68_all_properties",
    "Geozero.C68_failing_geometry",
    "Geozero.C68_contract"
   ],
   "note": "C68_feature, C68_all_properties, C68_failing_geometry, C68_contract."
  },
  {
   "property": "C69",
   "status": "partial",
   "theorems": [
    "Geozero.C69_sources",
    "Geozero.C69_geojson",
    "Geozero.C69_geojson_lines",
    "Geozero.C69_wkt",
    "Geozero.C69_svg",
    "Geozero.C69_wkb",
    "Geozero.C69_shapefile_false",
    "Geozero.C69_buffered_partial",
    "Geozero.C69_buffered_complete",
    "Geozero.C69_buffered_small",
    "Geozero.C69_cli_false",
    "Geozero.C69_csv_partial",
    "Geozero.C69_csv_complete",
    "Geozero.C69_csv_small",
    "Geozero.C69_csv_false"
   ],
   "note": "C69_geojson, C69_geojson_lines, C69_wkt, C69_svg and C69_wkb prove it in full for every source that drops no error, and C69_sources lists these (all but the features of a shapefile). Where the code violates it: C69_shapefile_false (the feature reader drops errors with .ok()), C69_csv_false (CsvWriter never flushes its csv::Writer) and C69_cli_false (the command never flushes its BufWriter). For the last two C69_csv_partial and C69_buffered_partial say exactly what still holds (the output holds a beginning of the text; at most the last buffer is missing), C69_csv_small and C69_buffered_small that every output that fits the buffer is reported as a success whatever the output does."
  },
  {
   "property": "C70",
   "status": "proved",
   "theorems": [
    "Geozero.C70_one_step",
    "Geozero.C70_chain",
    "Geozero.C70_same_result",
    "Geozero.C70_detour"
   ],
   "note": "C70_one_step: one conversion, for each of the formats; C70_chain: any sequence of conversions, by induction; C70_same_result: what any processor makes of two sources of the same geometry; C70_detour: GeoJSON, WKT, SVG and geo-types made after a chain are those made directly. What each format can hold is Tools.Holds in Spec/Chain.lean: the seven RFC 7946 types with recoverable coordinates for WKT and GeoJSON, closed rings and memory budget for geo-types, what GEOS represents and accepts for GEOS, Geom.Basic for GDAL, counts and nesting within bounds for WKB, one part for SpatiaLite. The parsers of WKT and GeoJSON, GEOS, and number printing are parameters (Tools)."
  },
  {
   "property": "C71",
   "status": "proved",
   "theorems": [
    "Geozero.C71_geometry_arrival",
    "Geozero.C71_same_bytes",
    "Geozero.C71_geometry_failing",
    "Geozero.C71_numbers",
    "Geozero.C71_shapefile_arrival",
    "Geozero.C71_shapefile_features_arrival",
    "Geozero.C71_shapefile_failing",
    "Geozero.C71_text_arrival",
    "Geozero.C71_text_failing",
    "Geozero.C71_lines_arrival",
    "Geozero.C71_lines_failing",
    "Geozero.C71_line_geometries_failing"
   ],
   "note": "C71_geometry_arrival, C71_same_bytes, C71_numbers, C71_geometry_failing: WKB; C71_shapefile_*: shapefiles; C71_text_*: WKT and GeoJSON; C71_lines_*, C71_line_geometries_failing: line-delimited GeoJSON. Not covered: csv::Reader, read_geojson_fc (geojson::FeatureReader), gpx and dbase read the input inside their crates."
  },
  {
   "property": "C72",
   "status": "partial",
   "theorems": [
    "Geozero.C72_settles",
    "Geozero.C72_complete_ends_partial",
    "Geozero.C72_conformant_ends_partial",
    "Geozero.C72_truncated_never_ends",
    "Geozero.C72_ends_false",
    "Geozero.C72_rows_end",
    "Geozero.C72_truncated_records_never_end"
   ],
   "note": "False in general (C72_ends_false): after an error the position stays, so a truncated file gives an I/O error on every further call and never None (C72_truncated_never_ends, for every file that can be read to its last byte, cut anywhere after the header; C72_truncated_records_never_end with an attribute table that does not end, which is what reader.rs says of dbase 0.8). Proved: C72_settles (after at most as many calls as bytes the outcome is the same for ever, None or an I/O error), C72_complete_ends_partial and C72_conformant_ends_partial (complete files end, one Ok for each shape), C72_rows_end (an attribute table that ends ends the iteration, whatever the file). A panic counts as an error in the model."
  },
  {
   "property": "C73",
   "status": "proved",
   "theorems": [
    "Geozero.C73_wkb",
    "Geozero.C73_wkt",
    "Geozero.C73_wkt_text",
    "Geozero.C73_geo_types",
    "Geozero.C73_geos",
    "Geozero.C73_gdal",
    "Geozero.C73_mvt",
    "Geozero.C73_gpx",
    "Geozero.C73_geojson_geometries",
    "Geozero.C73_geojson_lines_geometries",
    "Geozero.C73_csv_geometries",
    "Geozero.C73_geojson",
    "Geozero.C73_geojson_collection",
    "Geozero.C73_geojson_lines",
    "Geozero.C73_csv",
    "Geozero.C73_mvt_layer",
    "Geozero.C73_shapefile_geometries",
    "Geozero.C73_shapefile_features"
   ],
   "note": "One theorem for each reader: WKB (all dialects), WKT values and text, geo-types, GEOS, GDAL, MVT features and layers, GPX, GeoJSON documents, collections and lines (features and geometries), CSV (features and geometries), shapefiles (geometries and features). The specification is Spec/Nesting.lean."
  },
  {
   "property": "C74",
   "status": "proved",
   "theorems": [
    "Geozero.C74_wkt",
    "Geozero.C74_wkb",
    "Geozero.C74_geojson_geometry",
    "Geozero.C74_geojson",
    "Geozero.C74_geojson_lines",
    "Geozero.C74_wkt_features",
    "Geozero.C74_svg",
    "Geozero.C74_svg_document",
    "Geozero.C74_geos",
    "Geozero.C74_from_wkb_never_panics"
   ],
   "note": "Writers of WKT (geometries and features), WKB, GeoJSON (geometry and document), line-delimited GeoJSON, SVG (fragment and document) and GEOS (if the library does not panic). For the writers of geo-types, vector tiles, GDAL, CSV and geo-types features, which do panic on some inputs, see C16, C50, C55, C24 and C58. C74_from_wkb_never_panics composes with C10. Integer overflow of nesting_level and open_contexts upwards (2^32 open geometries) is not modelled."
  },
  {
   "property": "C75",
   "status": "partial",
   "theorems": [
    "Geozero.C75_wkb",
    "Geozero.C75_wkb_written",
    "Geozero.C75_wkb_to_wkb",
    "Geozero.C75_wkt_written",
    "Geozero.C75_wkb_to_wkt",
    "Geozero.C75_geojson_written",
    "Geozero.C75_wkb_to_geojson",
    "Geozero.C75_svg_written",
    "Geozero.C75_wkb_to_svg",
    "Geozero.C75_shapefile_geometries",
    "Geozero.C75_shape",
    "Geozero.C75_shapefile_features",
    "Geozero.C75_shapefile_wrapping_ordered",
    "Geozero.C75_shapefile_wrapping_false",
    "Geozero.C75_geo_types",
    "Geozero.C75_geos",
    "Geozero.C75_gdal",
    "Geozero.C75_wkt_read",
    "Geozero.C75_geojson_read",
    "Geozero.C75_geojson_geom_read",
    "Geozero.C75_geojson_lines_read",
    "Geozero.C75_geojson_line_geometries_read",
    "Geozero.C75_geojson_features_read",
    "Geozero.C75_mvt_read",
    "Geozero.C75_gpx_read",
    "Geozero.C75_csv_read",
    "Geozero.C75_csv_geom_read",
    "Geozero.C75_csv_no_column"
   ],
   "note": "C75_wkb, C75_wkb_written, C75_wkb_to_wkb, C75_wkt_written, C75_wkb_to_wkt, C75_geojson_written, C75_wkb_to_geojson, C75_svg_written, C75_wkb_to_svg, C75_shapefile_geometries, C75_shape and C75_shapefile_features hold for every input, also when reading fails. C75_geo_types, C75_geos, C75_gdal, C75_wkt_read, C75_geojson_read, C75_geojson_geom_read, C75_geojson_lines_read, C75_geojson_line_geometries_read, C75_geojson_features_read, C75_mvt_read, C75_gpx_read, C75_csv_read, C75_csv_geom_read and C75_csv_no_column bound the readers of parsed values by the size of the value (Spec/CostTree.lean), most of them reached. In builds without overflow checks the claim is false for polylines: C75_shapefile_wrapping_false gives for every k below 2^24 a record of 52 + 24k bytes that makes more than k^2 calls. Only calls and what the WKB, WKT, GeoJSON and SVG writers write are counted here; memory reserved from announced counts is C77."
  },
  {
   "property": "C76",
   "status": "proved",
   "theorems": [
    "Geozero.C76_spatialite_accepts_exactly",
    "Geozero.C76_wkb_accepts_exactly",
    "Geozero.C76_ewkb_accepts_exactly",
    "Geozero.C76_gpkg_accepts_exactly",
    "Geozero.C76_mysql_accepts_exactly",
    "Geozero.C76_spatialite_plain_accepts_exactly",
    "Geozero.C76_spatialite_accepts",
    "Geozero.C76_standard_is_accepted",
    "Geozero.C76_accepted_strings_are_unambiguous",
    "Geozero.C76_only_standard_encodings_false"
   ],
   "note": "C76_wkb/ewkb/gpkg/mysql/spatialite_accepts_exactly are equivalences for every input. Spec/WkbLenient.lean and, for SpatiaLite with compressed geometries at any place, Spec/SlLenient.lean describe the accepted strings; C76_standard_is_accepted shows that they contain the standard encodings of Spec/Wkb.lean. A compressed line string is announced with the number the BLOB says and its last vertex is numbered with that number (Sl.lineEvs). C76_only_standard_encodings_false is about a stronger claim, that only standard encodings are accepted."
  },
  {
   "property": "C77",
   "status": "partial",
   "theorems": [
    "Geozero.C77_geo_from_wkb",
    "Geozero.C77_geo_from_wkb_success",
    "Geozero.C77_mvt_announced_size_rejected",
    "Geozero.C77_mvt_from_wkb",
    "Geozero.C77_input_alone_false",
    "Geozero.C77_geos_from_wkb_false",
    "Geozero.C77_shapefile_record_same",
    "Geozero.C77_index_file_same",
    "Geozero.C77_shapefile_record_declared",
    "Geozero.C77_shapefile_record",
    "Geozero.C77_index_file",
    "Geozero.C77_shapefile_record_false",
    "Geozero.C77_index_file_false"
   ],
   "note": "C77_geo_from_wkb, C77_geo_from_wkb_success, C77_mvt_from_wkb, C77_shapefile_record_declared, C77_shapefile_record and C77_index_file hold for every input. That the input alone bounds the memory is false for failing runs: C77_input_alone_false (1161 bytes of nested collections, more than 2 GiB), C77_shapefile_record_false (12 bytes, nearly 2 GiB), C77_index_file_false (100 bytes, nearly 2 GiB). The GEOS writer has no cap at all: C77_geos_from_wkb_false (9 bytes reserve 4294967295 positions). The growth of vectors by pushing is not counted."
  },
  {
   "property": "C78",
   "status": "partial",
   "theorems": [
    "Geozero.C78_companion_paths",
    "Geozero.C78_open_iff",
    "Geozero.C78_geometries",
    "Geozero.C78_features",
    "Geozero.C78_records",
    "Geozero.C78_missing_dbf",
    "Geozero.C78_index_irrelevant",
    "Geozero.C78_index_entries",
    "Geozero.C78_open_panics_iff",
    "Geozero.C78_damaged_index_false",
    "Geozero.C78_capital_letters_false"
   ],
   "note": "C78_companion_paths, C78_open_iff, C78_open_panics_iff, C78_geometries, C78_features, C78_records, C78_missing_dbf, C78_index_irrelevant and C78_index_entries hold for every file system. The last sentence is false: a damaged index, which no operation uses, is an error or a panic (C78_damaged_index_false). A table with its extension in capital letters is not found (C78_capital_letters_false). The dbase library is a parameter: which bytes are a table, and its rows, are not modelled."
  },
  {
   "property": "C79",
   "status": "partial",
   "theorems": [
    "Geozero.C79_writer_exact",
    "Geozero.C79_transcode",
    "Geozero.C79_empty_point_refused",
    "Geozero.C79_transcode_exact",
    "Geozero.C79_canonical_is_accepted",
    "Geozero.C79_detour",
    "Geozero.C79_detour_keeping_dimensions",
    "Geozero.C79_again_partial",
    "Geozero.C79_again_false",
    "Geozero.C79_dishonest_spatialite_false"
   ],
   "note": "C79_writer_exact gives the bytes the writer writes as a function (Spec/WkbCanon.lean); C79_transcode is the first two sentences for every accepted input, C79_transcode_exact says for the four dialects other than SpatiaLite, and for any bytes, exactly when a conversion succeeds and what it writes; C79_detour is an exact dichotomy. The third sentence is false when dimensions are dropped: a point (NaN, NaN, z) becomes an empty point, which no conversion takes (C79_again_false; C79_again_partial otherwise). The first is false for SpatiaLite input whose compressed line string announces one vertex (C79_dishonest_spatialite_false), and SpatiaLite output of polygons and the like is wrong (C05)."
  },
  {
   "property": "C80",
   "status": "partial",
   "theorems": [
    "Geozero.C80_accuracy",
    "Geozero.C80_exact",
    "Geozero.C80_order",
    "Geozero.C80_inside",
    "Geozero.C80_corner",
    "Geozero.C80_right_edge_partial",
    "Geozero.C80_feature_inside",
    "Geozero.C80_right_edge_false",
    "Geozero.C80_extent_false"
   ],
   "note": "C80_accuracy (error at most 2^-18 unit), C80_exact (no error if all intermediate results are representable, e.g. widths that are powers of two), C80_order, C80_inside, C80_corner, and C80_feature_inside for whole geometries through to_mvt. False: the upper right corner of the bounds can be one unit off (C80_right_edge_false: bounds 0,0,49,49 and extent 4096 put (49,49) at column 4095, row 1; C80_right_edge_partial: never more than one), and extents from 2^31 wrap around (C80_extent_false). The arithmetic is a parameter of the model that is assumed to round to nearest (FArith.Ieee; exists_ieee shows there is one)."
  },
  {
   "property": "C81",
   "status": "proved",
   "theorems": [
    "Geozero.C81_line",
    "Geozero.C81_exact",
    "Geozero.C81_single_precision",
    "Geozero.C81_polygon"
   ],
   "note": "C81_line, C81_polygon (each ring), C81_exact, C81_single_precision. The two float operations (widening f32 to f64, adding f64) are a parameter assumed to be IEEE 754 (FOps.Ieee: widening is exact, sums are rounded to nearest; exists_fops_ieee shows there are such operations). The index of the last coordinate, which is one too high, is C08's subject; the other conversions get the same vertices by C64."
  },
  {
   "property": "C82",
   "status": "partial",
   "theorems": [
    "Geozero.C82_gdal_nested_partial",
    "Geozero.C82_gdal_stale_false",
    "Geozero.C82_gdal_curve_false",
    "Geozero.C82_geos_any_partial",
    "Geozero.C82_geos_stale_false",
    "Geozero.C82_geos_arc_false",
    "Geozero.C82_geo_types_partial",
    "Geozero.C82_geo_types_false",
    "Geozero.C82_geos_partial",
    "Geozero.C82_geos_geometry_partial",
    "Geozero.C82_geos_srid_false",
    "Geozero.C82_gdal_partial",
    "Geozero.C82_svg",
    "Geozero.C82_geojson",
    "Geozero.C82_svg_features",
    "Geozero.C82_geojson_features",
    "Geozero.C82_wkt",
    "Geozero.C82_ewkt_false",
    "Geozero.C82_wkb",
    "Geozero.C82_wkb_dialects_false",
    "Geozero.C82_mvt",
    "Geozero.C82_mvt_data_sets",
    "Geozero.C82_mvt_false"
   ],
   "note": "Proved: SVG and GeoJSON (any sources, geometries and data sets), MVT layers (any source after one that ended between two features, any sequence of data sets), WKT and WKB dialects, geo-types after successful sources, GDAL for any state, GEOS for any state if the source delivers its SRID (basic kinds of geometries). False: a GeoWriter after a failed source (C82_geo_types_false), an MvtWriter after a failed source (C82_mvt_false), the SRID of a GeosWriter if the next source has none (C82_geos_srid_false), EWKT (C82_ewkt_false) and the WKB dialects with a header (C82_wkb_dialects_false): the header is written once per writer. GEOS for every kind with a basic part and without arcs (C82_geos_any_partial), GDAL for nested collections with a basic part (C82_gdal_nested_partial); for the rest it is false (C82_geos_stale_false, C82_geos_arc_false, C82_gdal_stale_false, C82_gdal_curve_false)."
  },
  {
   "property": "C83",
   "status": "partial",
   "theorems": [
    "Geozero.C83_stream",
    "Geozero.C83_end",
    "Geozero.C83_stream_cut",
    "Geozero.C83_spatialite_false",
    "Geozero.C83_spatialite_skipping_partial",
    "Geozero.C83_one_writer",
    "Geozero.C83_one_ewkb_writer_false",
    "Geozero.C83_one_header_writer_false"
   ],
   "note": "C83_stream, C83_end and C83_stream_cut hold for any number and mixture of WKB, EWKB, GeoPackage and MySQL blobs, C83_one_writer for any geometries written with one WkbWriter of the dialect WKB. False: a SpatiaLite blob cannot be followed by another (C83_spatialite_false, for every blob: its end marker is left unread; C83_spatialite_skipping_partial: it works if the user skips one byte); with one writer EWKB loses the second SRID (C83_one_ewkb_writer_false) and GeoPackage and MySQL cannot be read back (C83_one_header_writer_false)."
  },
  {
   "property": "C84",
   "status": "proved",
   "theorems": [
    "Geozero.C84_mvt",
    "Geozero.C84_geojson",
    "Geozero.C84_geojson_lines",
    "Geozero.C84_null_panics_false"
   ],
   "note": "C84_mvt, C84_geojson and C84_geojson_lines: the exact condition and the exact records, for every layer or collection whose geometries are geometries of the format. What the external csv crate makes of the records is a parameter. The failure can be a panic (C84_null_panics_false: the same null value in two features is enough)."
  },
  {
   "property": "C85",
   "status": "proved",
   "theorems": [
    "Geozero.C85_wkb",
    "Geozero.C85_wkt",
    "Geozero.C85_geo_types",
    "Geozero.C85_geos",
    "Geozero.C85_gdal",
    "Geozero.C85_mvt_geometry",
    "Geozero.C85_gpx",
    "Geozero.C85_geojson_geometry",
    "Geozero.C85_geojson_line_geometries",
    "Geozero.C85_csv_geometry",
    "Geozero.C85_geojson",
    "Geozero.C85_geojson_features",
    "Geozero.C85_geojson_lines",
    "Geozero.C85_csv",
    "Geozero.C85_mvt",
    "Geozero.C85_shp_geometries",
    "Geozero.C85_shp_features",
    "Geozero.C85_calls",
    "Geozero.C85_no_coordinate",
    "Geozero.C85_same_outcome",
    "Geozero.C85_feature_calls"
   ],
   "note": "One theorem per reader: with every answer, the run against a processor that looks at x and y only equals, up to the further dimensions, the run against the same processor asking for two. C85_calls, C85_feature_calls, C85_no_coordinate and C85_same_outcome state the consequences for the calls alone and for two processors with different answers."
  },
  {
   "property": "C86",
   "status": "partial",
   "theorems": [
    "Geozero.C86_wrapper",
    "Geozero.C86_wkt",
    "Geozero.C86_geo_types",
    "Geozero.C86_geos",
    "Geozero.C86_gdal_partial",
    "Geozero.C86_gdal_false",
    "Geozero.C86_gpx",
    "Geozero.C86_geojson_geometry",
    "Geozero.C86_geojson_line_geometries",
    "Geozero.C86_csv_geometry",
    "Geozero.C86_geojson",
    "Geozero.C86_geojson_features",
    "Geozero.C86_geojson_lines",
    "Geozero.C86_csv",
    "Geozero.C86_shape_partial",
    "Geozero.C86_shape_false",
    "Geozero.C86_wkb",
    "Geozero.C86_ewkb",
    "Geozero.C86_gpkg",
    "Geozero.C86_mysql",
    "Geozero.C86_spatialite"
   ],
   "note": "Proved for WKT, geo-types, GEOS, GPX, GeoJSON (documents, feature collections read one by one, newline-delimited, geometries alone), CSV and the five WKB dialects. GDAL makes up a position for an empty point, which is then transformed (C86_gdal_false); C86_gdal_partial covers the transformations that leave that position where it is. A WKB point that is transformed to NaN in all ordinates has no encoding of its own (it would be the empty point) and is not covered. The shapefile reader tells outer rings from holes by their orientation: C86_shape_partial covers points, multipoints, polylines, and polygons whose rings keep their orientation; C86_shape_false is a polygon with a hole under swapped axes. Vector tiles hold integers, so there the claim is not made."
  },
  {
   "property": "C87",
   "status": "partial",
   "theorems": [
    "Geozero.C87_before_is_during",
    "Geozero.C87_blob_before_is_during",
    "Geozero.C87_during_is_after_partial",
    "Geozero.C87_same_outcome",
    "Geozero.C87_before_is_after_partial",
    "Geozero.C87_collapse_false"
   ],
   "note": "Before is during for every reader of C86 (C87_before_is_during, C87_blob_before_is_during), and errors never depend on the transformation (C87_same_outcome), without restriction. During is after if the transformation keeps equal positions equal and different ones different, for the positions delivered (C87_during_is_after_partial); otherwise geo-types closes a ring in one case and not in the other (C87_collapse_false)."
  },
  {
   "property": "C88",
   "status": "proved",
   "theorems": [
    "Geozero.C88_geojson_lines",
    "Geozero.C88_geojson_lines_processed",
    "Geozero.C88_csv",
    "Geozero.C88_csv_processed",
    "Geozero.C88_mvt",
    "Geozero.C88_mvt_processed",
    "Geozero.C88_processors",
    "Geozero.C88_geojson_any_lines",
    "Geozero.C88_geojson_any_lines_processed",
    "Geozero.C88_geojson_collection",
    "Geozero.C88_geojson_collection_processed"
   ],
   "note": "The exact calls: lines of the second text must not be bare geometries, whose line number is an index in the calls for the geometry itself. For all lines, and for feature collections, the calls agree but for such indices (C88_geojson_any_lines, C88_geojson_collection). Splitting a text into lines is modelled (BufRead::lines); the parsers of a line and of a CSV text are parameters."
  },
  {
   "property": "C89",
   "status": "partial",
   "theorems": [
    "Geozero.C89_collection_or_lines",
    "Geozero.C89_collection_or_lines_processed",
    "Geozero.C89_one_by_one_partial",
    "Geozero.C89_bare_feature_false",
    "Geozero.C89_processors"
   ],
   "note": "Collections and lines: without restriction (C89_collection_or_lines, C89_collection_or_lines_processed). One by one: for features with a geometry or properties (C89_one_by_one_partial); others are skipped without an error (C89_bare_feature_false). The writers of geo-types features, tile layers and SVG, the bounds and the tessellator ignore the indices (C89_processors)."
  },
  {
   "property": "C90",
   "status": "partial",
   "theorems": [
    "Geozero.C90_lines",
    "Geozero.C90_csv",
    "Geozero.C90_processors",
    "Geozero.C90_lines_to_geo",
    "Geozero.C90_csv_to_geo",
    "Geozero.C90_size_false",
    "Geozero.C90_feature_collection_to_geo",
    "Geozero.C90_lines_to_geo_value",
    "Geozero.C90_bad_line",
    "Geozero.C90_bad_row"
   ],
   "note": "Lines and tables: C90_lines, C90_csv for every processor, C90_lines_to_geo, C90_lines_to_geo_value and C90_csv_to_geo for geo-types within its budget for reservations; false beyond it (C90_size_false: the collection is refused, the same lines are not). Feature collections: C90_feature_collection_to_geo; a single geometry is given by itself and none is an error. Lines and rows that cannot be read are reported (C90_bad_line, C90_bad_row). Parsers are parameters."
  }
 ]
}
