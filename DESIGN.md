# Formal model of geozero in Lean 4 - design

Source: /repo (georust/geozero at the pinned commit), read as text; it is not built or run here.

## Trusted base

* Lean 4.33.0 kernel. Theorems may depend only on `propext`, `Classical.choice`, `Quot.sound`.
* The faithfulness of the hand-written model to the Rust source (each definition cites file and lines).
* Mathlib's rational numbers, floor and ordered-field tactics (checked by the same kernel) in the modules about rounding (C80); the rest
  uses Lean's own library only.
* No axioms added, no `sorry`, `native_decide`, `bv_decide`, `implemented_by`, `unsafe`.

## Modelling conventions

* `f64` is a 64-bit pattern (`F64 := BitVec 64`); NaN-ness and ordering are defined on bits. Arithmetic
  on floats and number formatting/parsing are parameters with stated laws (`FArith.Ieee` for the arithmetic).
* A processor call is an event `Ev`. A reader of bytes is an *interaction tree* `Prog` whose nodes read one
  byte, emit one event, ask `multi_dim()`, fail or return; its meaning is given by `run` (trace of emitted
  events plus result and rest of input) and `interp` (against an arbitrary stateful processor).
* A processor/writer is a step function `sigma -> Ev -> Except Err sigma`. A Rust panic is the error value
  `Err.panic`.
* `Geom` is the specification tree; `Geom.events` the documented event stream.
* Reader recursion is by fuel `129 - depth`, so that fuel 0 is exactly `depth > WKB_MAX_NESTING_DEPTH`.
* I/O: reading from a byte slice (EOF the only error), writing to a `Vec<u8>` (never fails).

## Plan per property

* **C01 WKB write/read round trip** - WKB reader and writer modelled; writer = spec encoder (induction on tree), reader decodes spec encoding (induction on tree, fuel = remaining depth), composed.
* **C02 EWKB write/read round trip with SRID** - Same modules, EWKB header functions; header lemma per dialect plugged into the generic body proof.
* **C03 GeoPackage write/read round trip with envelope and SRID** - Same, GPKG prefix; envelope lengths a decidable hypothesis.
* **C04 MySQL WKB write/read round trip; negative SRID rejected** - Same, MySQL prefix; negative SRID branch proved separately.
* **C05 SpatiaLite write/read round trip** - Same, SpatiaLite header/footer with the nesting counter. Expected false for multi-ring polygons at top level: witness + partial theorem.
* **C06 WKB reader decodes every OGC-conformant encoding in either byte order** - Spec encoding as a relation that chooses a byte order at each header; reader lemma proved against the relation.
* **C07 WKB writer output is the OGC encoding** - Spec encoder written from the OGC/PostGIS documents in Verif/Spec; equality with writer output by induction.
* **C08 Successful WKB reads on arbitrary bytes emit exactly one well-formed geometry** - Program logic (Sat) over the reader's interaction tree: success => trace = events of some geometry.
* **C09 Failing WKB reads only deliver a prefix of a well-formed stream** - Same program logic, failure postcondition = prefix of events of some geometry.
* **C10 WKB nesting depth is bounded** - Depth measure on trees; reader succeeds iff depth fits; from C08 the emitted trees fit.
* **C11 WKB reading is independent of what follows and detects truncation** - Generic theorems about all interaction trees (append-stability, truncation => EOF).
* **C12 Header introspection agrees with processing** - Header functions shared between introspection and processing in the model as in the code; proved on all bytes.
* **C13 WKB type codes** - Literal table; arithmetic proved for all codes.
* **C14 GeoPackage header byte order does not constrain the WKB body** - Expected false: witness; partial theorem when orders agree.
* **C15 geo-types round trip** - GeoWriter state machine + geo-types reader; induction on geometry with a state invariant.
* **C16 Decoding WKB to geo-types never panics** - GeoWriter fed any prefix of any geometry stream never reaches the panic value; composed with C08/C09.
* **C17 geo-types to WKB and back** - Composition of C01-C04 and C15.
* **C18 Size hints cannot cause unbounded allocation** - validate_capacity on 64-bit sizes.
* **C19 WKT writer output denotes the geometry** - WktWriter state machine vs independent printer on trees.
* **C20 WKT text is unambiguous: distinct geometries give distinct text** - Parser for the grammar, parse(print g) = g for abstract number formatter with parse law. Without restriction on the coordinates (Props/WktExact): two geometries give the same text if and only if they look alike (Spec/WktShown: the same tree, coordinates showing the same numbers in the same order), for number formats printing every NaN alike; by parsing into a normal form.
* **C21 WKT reader event stream** - wkt tree reader; expected false for MULTIPOINT with EMPTY: witness + partial.
* **C22 GeoJSON geometry output is valid JSON denoting the geometry** - GeoJsonWriter state machine vs printer of an abstract JSON value; JSON parser round trip.
* **C23 GeoJSON string escaping** - Escape function and JSON string decoder. Expected false for backslash/control: witness + partial.
* **C24 GeoJSON FeatureCollection output is valid JSON** - Writer over feature streams; expected false (see findings): witness + partial.
* **C25 Line-delimited GeoJSON: one line per item** - GeoJsonLineWriter state machine; induction over item sequences.
* **C26 GeoJSON reader delivers every feature in order** - Reader over parsed GeoJSON values.
* **C27 Feature readers obey the FeatureProcessor contract** - Automaton for the documented contract; readers' traces accepted.
* **C28 CSV writer: one rectangular record per feature** - CsvWriter state machine producing records (csv crate abstracted as list of records).
* **C29 CSV reader maps columns correctly** - CSV reader over parsed tables.
* **C30 Bounds are correct and tight** - Bounds over sequences with an order on f64 bit patterns.
* **C31 Coordinate wrapping is exactly a map over coordinates** - Trace transformation; map/composition laws.
* **C32 Multiplexer delivers the stream to both processors** - Multiplexer step function; expected false for events it does not delegate: witness + partial. What happens on every run, also when a processor fails or the source has empty points: `C32_multiplexed_run` (Props/AdaptorFail.lean).
* **C33 Datasource-as-geometry adaptor forwards all geometry events** - Adaptor step function; as C32. Every run: `C33_datasource_run`.
* **C34 Processor errors stop processing immediately** - Generic theorem about the interaction-tree interpreter against an arbitrary processor.
* **C35 Property lookup by name and by index** - Property fold with abort flag.
* **C36 Property maps keep the last value per name** - Fold into association map.
* **C37 MVT geometry round trip** - MvtWriter state machine with an arbitrary coordinate transformation; f64/i32 conversions on bit patterns; tile reader; composed.
* **C38 MVT writer never emits degenerate geometry** - Invariant of MvtWriter output.
* **C39 MVT property values are preserved** - Value mapping both ways.
* **C40 Shapefile polygon rings are grouped without loss** - detect_polys as fold; partition theorem.
* **C41 Shapefile record geometry decoding** - Record decode vs spec encoder.
* **C42 Shapefile reader rejects inconsistent record sizes and never panics** - Reader over bytes with explicit panic value; expected false (malformed part tables): witness + partial. Made exact afterwards: which bytes make a record, an index file or an iteration over a whole file panic, and which records are accepted (`Spec.RecordPanics`, `RecordAccepted`, `FilePanics`).
* **C43 GPX reader event stream** - GPX tree reader; expected false with several routes/empty tracks: witness + partial.
* **C44 SVG output is balanced** - SvgWriter state machine; witness/partial as needed.
* **C45 GEOS/geo tree writers handle nested collections** - GeosWriter state machine; expected false: witness; GeoWriter positive part.
* **C46 WKB to WKT conversion** - Composition of C08, C09 and C19.

* **C47 Geometry-only table readers deliver one collection** - Trace of the readers vs the collection's events; expected false for the announced size: witness + partial.
* **C48 Conversion to GeoJSON** - Composition of C06, C15, C21, C29 with C22 and C24.
* **C51 Shapefile iteration** - Induction over the records of a file after the ESRI description; loops with fuel shown to be enough for every input.
* **C49 MVT layers hold the features in order** - Writer over feature streams (induction over features), reader trace, composed.
* **C52 SVG path data** - A grammar of path data (M, positions, Z) in Spec/Svg.lean; parsing the d attributes gives the positions; expected false for line strings: witness for all of them.
* **C53 GEOS conversion** - GEOS tree reader and GeosWriter state machine; the library's validity checks are the parameter `GeosLib`; expected false for kinds the writer ignores: witnesses + partial. `Props/GeosAny.lean` says exactly what every geometry of every kind gives (`Spec/GeosParts.lean`: the last of its basic parts).
* **C54 GDAL conversion** - OGR trees (type, points, members) with a total description of the reader; GdalWriter state machine. `Props/GdalAny.lean`: collections nested to any depth of basic kinds.
* **C55 GDAL memory safety** - The writer's unowned line pointer is modelled as a path that dangles when its geometry is replaced; expected false: witnesses as bytes + partial. `Spec/GdalPanic.lean` then says in terms of the calls alone which call writes to freed memory, overflows or is refused; `Props/GdalPanic.lean` proves by an invariant between the calls made and the writer's state that the panics are exactly these.
* **C56 SVG view box** - Root element from the tokens of the document; the box test on values of doubles, proved as an equivalence for every position.
* **C57 geo-types features** - `GeoFeatureWriter` modelled as a processor of the feature layer around `GeoWriter`; the map of properties is a function from names. Invariant: between features the geometry writer is fresh and no properties are pending; composed with the GeoJSON, CSV and tile readers.
* **C58 no panic in it** - The debug assertions are modelled as panics; no-panic invariant carried through properties, geometries (with the no-panic lemma of C16) and the end of each feature; a cut-off stream is a prefix of a whole one. For newline-delimited GeoJSON both outcomes are exact (Props/GeoLines): an induction over the lines with the number of pending geometries as state.
* **C59 tessellation** - `Tessellator` modelled as a processor over a recorder for lyon's path builder (with its documented assertions switched on or off by a parameter); fill and stroke tessellators and the cast to `f32` are parameters. Invariant: between polygons the builder is empty; proved by induction over rings, members, collections and features. `C59_filled_exact` (Props/TessExact): the same induction with the loose lines left in the builder carried along. `C59_filled_any_geometry` (Spec/TessAny, Props/TessAny): the same for every geometry without empty points: the paths filled are `pathsFrom` of the parts of the dataset, and with total tessellators the run fails exactly if lyon's assertions are on and positions arrive while the sub-path of a point or circular string is open (`overlaps`); proved by carrying the open path through every kind of geometry.
* **C60 OBJ output** - `ObjWriter` as a map from output calls to lines; a separate reading of OBJ documents (vertices of the whole document, counted from 1). `C60_obj_exact` and `C60_obj_printed_iff` hold for any calls to the output.
* **C61 database values** - A column value is NULL or bytes; each binding is a function of it. Composed with C06, C07, C12, C16 and C17; `Holds` (Spec/Db.lean) says per dialect what a blob contains. Expected false for the GeoPackage decode macro (it asks for EWKB) and for `.expect` in the sqlx encoders.
* **C62 command** - `cliProcess` maps a file system and arguments to the file system afterwards and the outcome, in the order the code works: create the destination, open the input, convert (twice for SVG). Composed with C24, C28, C30, C44, C48 and C56. Expected false where the destination is created first. `C62_svg_extent`: with `--extent` the view box is that extent.
* **C63 dimensions of WKT** - the provided methods of `ToWkt` over any `GeoSource`; the text is compared with the text of the geometry with all other ordinates removed (`Coord.only`). Expected false for a mix, because the writer prints every ordinate it is handed.
* **C64 compressed SpatiaLite** - both blobs are read, the event streams agree up to the index of the last coordinate of each line; every writer but GEOS and GDAL is shown to ignore indices other than 0. For compressed parts at any place (`Props/SlAccept.lean`) the calls come from the exact acceptance theorem of C76, and `Sl.Geom.meant` is the geometry they stand for.
* **C65 whole shapefiles** - composition: the stream of a file (C51, with the geometries unique by C40) fed to each writer (C24, C28, C44, C49, C57). The reader drops errors of some calls with `.ok()`: the model keeps the state such a failed call leaves behind (`FProc.left`) and lets panics through.
* **C66 WKT and CSV round trips** - composition of the writers (C20, C28) with the readers (C21, C29). The external WKT parser and CSV codec are variables with the hypothesis that they understand the format: the parser maps a text of the grammar (`parseWkt`, Spec/Wkt) to a value denoting the geometry of the grammar, the codec gets back records of equal length. Both hypotheses are shown to be met by a parser and a codec (`exists_wktParser`, `exists_csvCodec`). Only two-dimensional WKT: the writer prints no dimension tags, which the `wkt` crate needs for more than two numbers.
* **C67 GeoJSON round trip** - composition of the writers (C24, C25) with the reader (C26). The external parser is a variable (`GjParser`): for texts it accepts it yields the value that RFC 7946 gives to the JSON value of the text (`IsFeatureCollection`, `IsFeature`, `IsGeometry`, relations on JSON values, not on what the writer prints); it may reject texts (nesting limits), order properties as it likes, and read numbers as it likes: the theorems ask that the coordinates of the dataset are printed as numbers that are read back as they were (serde_json without its `float_roundtrip` feature may be off by one unit for some numbers). `exists_gjParser` shows that there is such a parser. `C67_rfc7946_iff` settles which datasets can be read back at all: the JSON written is a feature collection of RFC 7946 exactly if every feature has a properties and a geometry section and no geometry has an empty point (`Complete`); embedded JSON comes back as what it is: arrays and objects printed again by the parser, strings, booleans and numbers as such, null not at all.
* **C68 processing one feature** - `featureProcess` models the default method of `FeatureAccess`; properties and geometry of the feature are arbitrary (`propsProg ps`, any `Prog`). The specification is `Feat.evs` and the automaton of C27.
* **C69 refused writes** - `Spec/Output.lean` describes outputs (`Output`: any state, a write is taken or fails after some bytes) and what is claimed of a conversion (`Faithful`). `Model/Output.lean` gives each call of a writer as a list of actions (updates of its fields, failures, pieces of bytes written), in the order of the code; `Out.Refines` proves that with an output that takes everything this is the writer already modelled (so that both models say the same), and `Out.reports` follows a conversion on any output by induction over the source. `BufWriter` and the buffer of `csv::Writer` are modelled in the same file (the latter for any way of cutting the text into chunks that keeps its bytes and does not write before 8192 are there). Negative theorems for the three places where a refused write is lost.
* **C70 several steps** - `Spec/Chain.lean` describes a source that delivers a geometry (`Source.Delivers`), the formats, a conversion (`Tools.convert`: the writer run on the source, then the reader of the format on its result), sequences of them (`Tools.chain`) and what each format can hold (`Tools.Holds`). One step per format uses the round trips of C02/C05, C19-C21, C23, C15, C16, C66 and C67, each stated again for any source that delivers the geometry (not only one reader); the chain follows by induction over the list of formats.
* **C71 arrival of the input** - `Model/Input.lean` describes an `io::Read` (`Input`: bytes, how the following calls to `read` behave, whether it fails at the end), the loops of the standard library over it (`readExact`, `readToEnd`, `readToString`, `BufReader` with `read_until` and `lines`) and the readers on it (`interpOn` for the byte readers, `readWkt`, `readGeoJsonOn`, `readGeoJsonLinesOn`). `readExact` and `BufReader` are proved to return the bytes regardless of the plan by induction on the calls still to come; runs on an input then equal runs on its bytes by induction on the reader. A failing input is a reader cut off at some point (`Cuts`).
* **C72 end of an iteration** - `Model/Input.lean` has the iterators as states with `next` that can be called again after an error (`ShapeIter`, `RecordIter`, `nth`). Every call before the end of the file reads a byte or finds none (`shapeNext_reads`, `Needs`), which gives `C72_settles` by strong induction on the bytes left. A run on a beginning of the bytes does the same as on all of them, or stops with an I/O error and no bytes left (`interpOn_short`); from there nothing changes. Stated for the header, one shape and one record; induction over the shapes of the complete file gives the theorems on truncated files.
* **C73 matched calls** - `Spec/Nesting.lean` says what is open after a list of calls and which calls are allowed. `Lemmas/Nesting.lean` is a program logic for it: `Prog.Nests Q st p` follows every path of a reader from what is open; `Keeps`/`Closed` are the readers that end with what was open, closed under sequence, loops and choice. Soundness is for every processor and every input. Each reader is then taken apart once; the recursive ones (WKB collections, WKT, GeoJSON, GEOS, GDAL) by induction.
* **C74 panics come from readers** - `Prog.panic_from_reader`: if an invariant between what is open and the state of the writer rules out a panic on every allowed call, then a panic of the conversion is one of the reader run alone. Invariants: one size on the stack of the WKT writer for each open geometry; `nesting_level` of the WKB writer and `open_contexts` of the line writer at least the number of open things they count (`load`). GeoJSON, SVG and GEOS writers do not panic on any call.
* **C75 bounded work** - a logic of credits (`Prog.Pays`, `FProg.Pays`): each byte read earns one, each call costs two (WKB) or one (shapefiles); `Pays.sound` gives the bound for every processor. In shapefiles the calls of a shape are paid by the bytes its vectors were read from (`Leaves`), which needs the part table to be sorted; it is because the subtraction of two entries panics otherwise. `WkbWriter.mass` bounds what the WKB writer writes per call, `WktWriter.mass` and two lemmas in Lemmas/CostText.lean the same for WKT (the SRID prefix apart), GeoJSON and SVG, with numbers printed in at most B characters. Readers of parsed values make no read that could pay; `Prog.AtMost` and `FProg.AtMost` (Lemmas/CostTree.lean) count their calls against the size of the value given in Spec/CostTree.lean. For builds without overflow checks `readLinesWrapping` models the same code with wrapping subtraction.
* **C76 exact acceptance** - `Spec/WkbLenient.lean` describes the accepted byte strings without reference to the reader. `Acc multi p a evs u` (p reads exactly u, delivers evs, returns a) has an exact rule for every construct of `Prog` (`acc_bind`, `acc_loop`, ...), so each reader function gets an equivalence, the recursion one by induction on the nesting bound (`acc_geomN`). Header readers enter through `HdrExact`/`TopExact`. For SpatiaLite the same development is repeated in the namespace `Geozero.Sl` with a frame that also says whether line strings are compressed, and geometries whose line strings are plain or packed (`Spec/SlLenient.lean`, `Lemmas/SlAccept.lean`).
* **C77 reserved memory** - `Spec/Reserve.lean` says what a call of the processor makes a writer reserve (`announcedBytes`). `Owes`/`Backs` (Lemmas/Reserve.lean) are a calculus in which every announced count that a reader has accepted is later paid by the members read, except for the counts of the at most 131 loops open at a time. For shapefiles the readers of Model/Shp.lean are repeated with their `Vec::with_capacity` and `vec!` calls (`MProg`, Model/ShpReserve.lean); `C77_shapefile_record_same` and `C77_index_file_same` show that erasing the allocations gives the readers themselves.
* **C78 opening a shapefile** - `Model/ShpOpen.lean` models `ShpReader` as a record of the bytes after the header, the header, the index and the table; the file system is a function from paths to entries (absent, unreadable, file), read once. `dbase::Reader::new` is a parameter. `C78_open_iff` and `C78_open_panics_iff` are exact; delivery is reduced to the stream programs of C15 and C42 by `FProg.interp_bind`.
* **C79 transcoding** - `Spec/WkbCanon.lean` defines the canonical encoding as a function of the geometry, and acceptance through the relations of C76. `Lemmas/WkbCanon.lean` reruns the writer induction of C07 with equality instead of the encoding relation (no bound on counts is needed). The detour theorems combine it with C76; that accepted geometries have 32-bit counts and no all-NaN point is in `Lemmas/WkbCanonFits.lean`.
* **C80 scaling into a tile** - `Spec/Float.lean` gives an `f64` bit pattern its value as a rational number (Mathlib's `ℚ`) and says what IEEE 754 arithmetic is: the result is a number nearest to the exact one. `Lemmas/Float.lean` proves the error bound of rounding, that rounding is monotone and exact on representable numbers, and that such arithmetic exists. `Lemmas/MvtScale.lean` follows the four rounding steps of one ordinate (width, multiplier, distance, product). Nothing is assumed about ties, overflow, NaN or the signs of zeros.
* **C81 compressed SpatiaLite geometries are read to within rounding error** - `Spec/Float32.lean` gives `f32` bit patterns their values and says what widening and adding have to satisfy; `Spec/Compress.lean` says what a compressor writes (`CompressedFrom`, for any relation between true and stored differences) and when vertices read are near to the true ones (`ReadWithin`). `Lemmas/Compress.lean` proves the recurrence for the accumulated error by induction over the vertices.
* **C82 writers can be used again** - `Spec/Reuse.lean` defines a writer after a list of uses and the result of the next use. `Lemmas/Reuse.lean` shows that no call of the SVG, GeoJSON, WKB and MVT (`Props/ReuseMvt.lean`) writers looks at the output or features written so far (`Blind`), so that the next output is appended; for the writers that hold a geometry the lemmas of C15, C53 and C54 are already stated for any state they start from.
* **C83 geometries one after the other in one stream** - `Spec/Stream.lean`: a list of blobs with what they hold, and the reader called once for each. Induction over the list with C06/C11 (`holds_read`, `run_append`, `run_consumed`); the writer half with C82.
* **C84 vector tiles and GeoJSON to CSV** - `Spec/ToCsv.lean`: features with null values, the condition under which they make one table, and the table. `Props/ToCsv.lean`: the writer accepts a dataset exactly if the indices of the properties of every later feature are 0, 1, ... and the names those of the first feature (inversion of the writer's steps from `Props/Csv.lean`), composed with C49 and C26.
* **C85 what a processor asks for** - `Spec/Dims.lean`: `flatEv` drops the further dimensions of a call, `OnlyDims` and `FOnlyDims` compare the run against a processor with the run against the same processor asking for two dimensions. `Lemmas/Dims.lean`: a relational logic (`Prog.Sim`, `FProg.Sim`) on two readers, one told any answer, the other told two dimensions, with one lemma for each function of each reader. Compressed SpatiaLite lines keep a previous point whose z depends on the answer, so the relation there is equality of x and y; shapefiles need that the values of a further dimension are none or one for each point, otherwise asking for them would panic.
* **C86 transforming while reading** - `Spec/Wrap.lean`: the transformed value for each format (`mapXY`), the wrapper of a geometry processor (`wrapGeom`, which C86_wrapper shows to be the wrapper of the code, `wrapXY`, as a geometry reader sees it), `ReadsAs`/`FReadsAs`/`BlobReadsAs` compare the two runs. `Lemmas/Wrap.lean`: the reader of the transformed value is, as a program, the reader of the value with all positions transformed (`Moved`), one lemma for each function of each reader; for WKB the calls are those of the geometry (C06) and so is the run against any processor whose answer to multi_dim does not change.
* **C87 before, during, after** - `Spec/WrapOut.lean`: `toGeoWrapped` is `toGeo` with the writer behind the wrapper, `KeepsEquality` the condition on the transformation for the positions delivered. `Lemmas/WrapOut.lean`: a step of the writer commutes with transforming its state as long as the unfinished positions are among those delivered; for errors, a step on two writers with the same outline (numbers of parts) gives the same outline or the same error.
* **C88 joined files** - `Spec/Joined.lean`: `joinedRun` makes the calls and outcome of the whole from those of the parts, `processBoth` processes with one source and then another. `Props/Joined.lean`: the loop body for record n + i is the program for record i with later feature numbers (`renum`, a map on programs that commutes with sequencing, and with both semantics); the loop over appended lists is the sequence of two loops; a text that ends with a line break splits into lines independently of what follows. Collections and lines with bare geometries (in `Props/SameData.lean`): with the relation `Alike` of C89, programs with the same calls but for the indices of geometries.
* **C89 same features, other file** - `Spec/SameData.lean`: `FEv.noIdx` drops the index of the geometry or part a call begins or ends. `Props/SameData.lean`: the programs of the two readers are related node by node, equal up to these indices (`Alike`, closed under sequencing and loops), and related programs have equal effects on processors that ignore them. One by one: by induction over the features, dataset calls do nothing.
* **C90 files as one geometry** - `Spec/AsCollection.lean`: the geometry of a line, processors that ignore indices or announced sizes, the effect of a source on a processor. `Props/AsCollection.lean`: the program of the line reader (and of the table reader) is related to that of the collection node by node (`Like`), by induction over the lines with the two states of the loop (collection started or not); related programs have the same effect. Geo-types values: from the trace and the writer's result for a geometry (`feed_geom`).
* **C50 Decoding WKB to a tile feature never panics** - State invariant of MvtWriter on prefixes of geometry streams; composed with C08/C09/C10.

JSON: Spec/Json.lean is the grammar of RFC 8259 as inductive relations between texts and values (numbers keep their
text); Lemmas/Json.lean has a complete parser for it, used to show that a text denotes at most one value and to refute
that a given text is JSON.

Feature layer: `FEv` is a call of `FeatureProcessor`, `PropertyProcessor` or `GeomProcessor`; readers of features are
interaction trees `FProg` (which can also look at the answer of `property`, or drop an error with `.ok()`), processors
are `FProc`. The documented order of calls is the automaton `Phase` in Spec/Features.lean; `FProg.FollowsContract`
quantifies over all processors and inputs.

MVT: the tile feature is modelled at the level of the fast-mvt crate's types (geometry with i32 positions, values); its
byte encoding (commands, delta and zigzag) is in that crate and not modelled. The f64 arithmetic of the scaled
transformation is a parameter.

Shapefiles: reading and delivering are separated (the code reads a whole record before its first call). The build modelled has overflow checks (debug); allocation failure is not
modelled. The f64 arithmetic of the orientation test is a parameter. The iterator is driven until it returns `None` or
an error.

SVG: the text is scanned by a small XML automaton (Spec/Svg.lean); the decimal formatting of numbers is a parameter. GPX:
the parsed document is the input.

GEOS: a geometry is the tree the library exposes; which lines, rings and polygons it accepts is the parameter `GeosLib`.
GEOS and GDAL readers ask `dimensions().z` where others ask `multi_dim()`; `Prog.Proc.askedZ` is a processor asked so.

GDAL: an OGR geometry is a node with type, points and members. OGR's own behaviour (extending a line in `set_point_2d`, ignoring
indices > 0 of points, which members `add_geometry` accepts, rings reporting the line string type, the position of an
empty point) is taken from its documentation and from the tests in the code. `GdalNd` is the writer made with `GdalWriter::with_dims`: the three-dimensional
state adds the two flags, and the OGR type codes with their dimension offsets, which `coordinate` compares modulo 1000.

## Coverage

Paths are relative to /repo/geozero/src. "Constructors" are `new`, `default`, `with_dims` and field accessors: the model starts from the
record they build.

| code | model | left out |
|---|---|---|
| wkb/wkb_common.rs, wkb/wkb_reader.rs | WkbTypes, WkbReader | `Display`/`Debug` of the header types |
| wkb/wkb_writer.rs | WkbWriter | constructors |
| wkb/mod.rs (wrapper types, `to_wkb_dialect`, `FromWkb`) | Db, WkbWriter | - |
| wkt/wkt_writer.rs, wkt/wkt_reader.rs, wkt/mod.rs | Wkt, Db | the tokenizer and parser of the crate `wkt`: the input is the parsed tree; reading bytes into a `String` |
| geojson/*.rs | GeoJson | the parser of `serde_json`/`geojson`: the input is the parsed document |
| csv/*.rs | Csv | the crate `csv`: records are lists of fields |
| mvt/*.rs | Mvt | the protobuf and command encoding of the crate `fast-mvt` |
| shp/*.rs | Shp, Property | the crate `dbase` (a row is a list of fields), opening files by path, `Display`, accessors |
| gpx/gpx_reader.rs | Gpx | the XML parser of the crate `gpx` |
| io::Write outputs of the writers, `BufWriter`, the buffer of `csv::Writer` | Output | retries of interrupted writes; how `csv::Writer` cuts the text into chunks (parameter) |
| svg/*.rs | Svg | number formatting (parameter) |
| geo_types/*.rs | GeoTypes, GeoFeature | accessors |
| geos/*.rs | Geos | the GEOS library (parameter `GeosLib`) |
| gdal/*.rs | Gdal | the OGR library |
| tessellator/mod.rs | Tessellator | lyon's triangulation (parameter) |
| postgis/*.rs, gpkg/geopackage.rs | Db | type names sent to the database (`type_info`, `accepts`), the drivers themselves |
| geometry_processor.rs, feature_processor.rs, property_processor.rs, api.rs, error.rs | Basic, Prog, Feature, Property | - |
| bounds.rs, multiplex.rs, wrap.rs | Adaptors | accessors |
| ../geozero-cli/src/main.rs | Cli | argument parsing (`clap`), FlatGeobuf and GeoParquet readers, HTTP |

Not modelled at all: the `arrow` crate and asynchronous readers outside this repository, allocation failure, threads (the library
starts none).

## Findings

Places where the code at the pinned commit does not have the property, each with a machine-checked
counterexample (a theorem about the model; witness computed by the kernel).

- C05, `C05_spatialite_polygon_false`: the SpatiaLite writer emits its 0xFE end marker after every ring
  or part of a top-level Polygon with several rings (also Triangle, CompoundCurve, CurvePolygon,
  PolyhedralSurface, Tin), because only multi-geometries raise `nesting_level`. The reader cannot read
  such a blob back.
- C08, `C08_spatialite_compressed_false`: compressed SpatiaLite line strings: a line string announcing 1
  point delivers 2; the last coordinate has index `length` instead of `length - 1`.
- C13, `C13_code_outside_table_false`: WKB type code 4001 and EWKB type code 0x101 are accepted as
  two-dimensional points.
- C14, `C14_gpkg_mixed_order_false`: the GeoPackage reader uses the byte order of the GeoPackage flags
  for the body, ignoring the byte order mark of the WKB inside.
  `C14_gpkg_mixed_point`: a point written in the other order is accepted with byte-swapped ordinates (silent corruption).
  `C14_gpkg_mixed_parts`: of any other geometry (polygons excepted) the number of parts is read with its bytes reversed; if that is more,
  the blob is rejected as cut off, otherwise only the first parts are delivered, without an error (65536 points become 256).
  `C14_gpkg_mixed_rings_partial`: polygons and triangles are rejected as cut off if the blob has fewer than four bytes for each ring of
  that number.
- C07, `C07_writer_rejects_empty_point`: the WKB writer returns an error for every geometry that
  contains an empty point, although readers deliver `empty_point` events.
- C15/C17, `C15_large_line_false`: the 16 MiB budget of `bounded_vec` also applies to sizes announced by
  trusted sources: a `geo_types::LineString` of more than 1048576 coordinates cannot be converted.
- C20, `C20_m_without_z_false`: the WKT writer never writes the `Z`, `M` or `ZM` keyword, so an XYM geometry
  prints exactly like an XYZ geometry. `C20_nan_point_false`: a point whose ordinates are all NaN prints
  `POINT(EMPTY)`, which is not WKT (`POINT EMPTY` is).
- C21, `C21_multipoint_empty_false`: the WKT reader announces all members of a MULTIPOINT but skips the EMPTY
  ones, so fewer coordinates than announced are delivered and their indices have gaps.
- C30, `C30_nan_first_false`: if the first coordinate delivered to the bounds processor is NaN in an axis, the bounds of
  that axis stay NaN. Later NaN values are ignored.
- C32, `C32_collection_false`, `C32_empty_point_false`, `C32_dimensions_false`, `C32_abort_false`: the multiplexer does
  not forward geometry collections, SRIDs and empty points, always asks for two dimensions, and answers `property` with
  the second processor's answer only.
- C33, `C33_collection_false`, `C33_dimensions_false`, `C33_empty_point_false`: the adaptor from a geometry source to a
  feature sink drops the same calls.
- C35, `C35_shape_record_index_false`: the index of a shapefile field counts only the non-null fields before it.
- C28, `C28_second_dataset_false`: a `CsvWriter` panics on the first property of a second dataset.
  `C28_unordered_indices_false`: properties delivered out of index order are written in the wrong column.
- C47, `C47_csv_size_false`: the CSV geometry reader announces a collection of size 1 whatever its size.
  `C47_line_size_false`, `C47_line_index_false`: so does the GeoJSON-lines geometry reader, which also numbers the members
  with line numbers, leaving gaps for lines without geometry.
- C22, `C22_nan_false`, `C22_curve_false`: coordinates that are not finite are written as `NaN`/`inf`, which is not JSON;
  curves are written as bare positions instead of being rejected.
- C23, `C23_escaping_false`, `C23_changed_value_false`: the GeoJSON writer escapes only double quotes. A backslash or
  control character in a name or string gives invalid JSON or another string.
- C24, `C24_geojson_to_geojson_false`: the GeoJSON reader delivers the geometry of feature i with index i and the writer
  writes a comma before a geometry with index > 0, so converting a feature collection with two features to GeoJSON gives
  invalid JSON (`"geometry": ,{`). `C24_null_property_false`: null properties are skipped but counted, so a null first
  property gives `{, "b": ...}`. `C24_binary_false`: a binary property gives an empty member. `C24_name_false`: the
  dataset name is not escaped.
- C25, `C25_newline_false`: a line break in a string splits a GeoJSON line. `C25_curve_false`: a bare curve gets no line.
- C27, `C27_bare_geometry_false`, `C27_fc_false`: bare GeoJSON geometries are delivered outside any dataset or feature;
  `read_geojson_fc` starts a dataset per feature.
- C28, `C28_null_property_false`: GeoJSON to CSV panics when the first property of the features is null.
- C38, `C38_distinct_false`, `C38_collapsed_false`: the MVT writer counts the positions of a ring without comparing them
  and before looking at what rounding did: a ring a, b, a, b or one whose positions all round to (0, 0) is accepted.
- C49: features without geometry are dropped silently by the MVT writer. `-0.0` is read back as `0.0`.
- C42, `C42_no_panic_false`: a shapefile record whose part table decreases or exceeds the points, with a negative count, with
  declared size 0 or with a size of 2^30 words panics. `C42_declared_size_false`: a null shape is accepted with any
  declared size and the reader loses its place. `C42_file_length_false`: a header with a file length of 2^30 words
  panics when iterating, an index file with length 0 panics.
- C27, `C27_shapefile_after_end_false`: calling `next` after the end repeats `dataset_begin`/`dataset_end`, although the
  iterator is declared fused.
- C51, `C51_missing_rows_false`: shapes without an attribute row are dropped without an error.
- C43, `C43_size_false`: the GPX reader counts the routes and tracks it announces in another way than it delivers them, so
  the announced size of the collection differs from the number of members. `C43_empty_segment_wkt_false`: a track with an
  empty segment gives malformed WKT. C27, `C27_gpx_false`: GPX documents are delivered without dataset and features.
- C44, `C44_multipoint_false`: the SVG writer has no element for multi points, curves and triangles; their coordinates are
  written as character data. `C44_name_false`: the dataset name (and the style) is copied without escaping.
- C52, `C52_line_string_false`: the path of a line string has no initial `M` command, so its data is invalid and nothing is
  drawn. Lines of a multi line string are closed with `Z` like rings.
- C45, `C45_geos_false`: of a collection the GEOS writer keeps only the last member; an empty collection becomes
  `POINT EMPTY`.
- C53, `C53_surface_false`: polyhedral surfaces, multi surfaces, TINs and multi curves of line strings silently become
  `POINT EMPTY`. `C53_empty_point_false`: empty points of GEOS are delivered as points without a coordinate, which the
  WKT writer prints as `POINT()`. `C53_multipoint_blank_false`: EMPTY members of a WKT multi point leave unset positions.
- C53, `C53_nothing_left_false`: every geometry without basic part that GEOS lets through becomes POINT EMPTY with SRID 0.
- C45, `C45_gdal_false`: the GDAL writer keeps only the last member of a collection, too.
- C54, `C54_circular_false`: a circular string silently becomes the point at its first coordinate.
  `C54_empty_point_false`: an empty OGR point is delivered as the point (0 0).
- C54, `C54_z_rejected`, `C54_m_lost_false`: `to_gdal_ndim` with z and without m rejects every geometry with a coordinate (OGR's 2.5D codes have
  the high bit set and are not a basic kind modulo 1000); with m it drops the m of every coordinate without an error and adds a z.
- C55, `C55_use_after_free_false`: `GdalWriter.line` is an unowned pointer into `geom`. The blob of
  `GEOMETRYCOLLECTION(POLYGON((0 0)), POLYGON EMPTY, CIRCULARSTRING(0 0))` makes `xy` write through it after the first polygon
  has been dropped: memory corruption from safe code and untrusted bytes. `C55_no_polygon_false`: an empty multi polygon
  followed by a triangle computes `0 - 1` (a panic in debug builds, a null geometry in release builds).
- C57, `C57_abort_false`: `GeoFeatureWriter::property` answers `Ok(true)`, which tells the source to stop. The readers of this
  repository ignore the answer, but a source that honours it (as documented for `property`, as FlatGeobuf and shapefile records do)
  delivers only its first property. `C57_bare_geometry_false`: WKT, GPX and GeoJSON geometries convert to no features at all,
  without an error.
- C58, `C58_lines_false`: newline-delimited GeoJSON with a geometry line before a feature line trips
  `debug_assert!(self.geometry_writer.is_empty())`; without debug assertions the geometry is merged into the next feature.
- C48, `C48_gpx_empty_segment_false`, `C48_mvt_null_false`: an empty first segment of a GPX track and a null value in front of
  another value of a tile feature are left out, but the comma that separates them from the next is written: the GeoJSON is invalid.
- C59, `C59_point_false`, `C59_multi_line_false`: a point (or multi point, multi line string, triangle, curve) leaves its path in
  the tessellator's builder. The next polygon is filled together with it; after a point, lyon's assertions panic. (Also, every
  line string is closed before it is stroked; its stroke is only printed.)
- C60, `C60_obj_false`: indices restart at 0 for each polygon while OBJ counts vertices through the whole document, so all
  polygons but the first are drawn with the vertices of the first. `C60_overflow_false`: `idx + 1` overflows `u16` for the
  65536th vertex.
- C61, `C61_gpkg_macro_false`, `C61_gpkg_macro_round_trip_false`: the decoder generated by `impl_sqlx_gpkg_decode!` asks for the EWKB
  dialect, so it rejects every GeoPackage blob, including everything `impl_sqlx_gpkg_encode!` writes.
  `C61_empty_point_panics_false`: the sqlx encoders `.expect` the WKB writer to succeed; an empty point read from PostGIS and
  written back panics (rust-postgres gets an error).
- C07, `C07_to_gpkg_wkb_envelope_false`: `to_gpkg_wkb` takes an envelope of any length but always announces one of four numbers;
  with six or eight the blob cannot be read.
- C62, `C62_same_file_false`, `C62_missing_input_false`, `C62_unknown_extension_false`: the destination is created (truncated) before the
  input is opened and before the extensions are checked. `C62_extent_false`: `parse_extent` panics on malformed input instead of
  returning its error. `C62_extent_ignored_false`: `--extent` only matters for FlatGeobuf and GeoParquet input and for the SVG view box.
  `C62_wkt_features_false`: several features are written to a `.wkt` file without a separator.
- C63, `C63_to_wkt_ndim_false`: `to_wkt_ndim` with one of z and m prints the other one as well when the source has it; the
  requested dimensions only decide between two numbers and all of them.
- C05, `C05_spatialite_second_ring_lost`, `C05_spatialite_second_part_rejected`: no outermost SpatiaLite polygon with a hole, compound
  curve with two segments or surface with two patches survives; `C05_spatialite_single_part_partial`: those with a single part do, although
  their blob has superfluous end marks.
- C64, `C64_geos_false`, `C64_gdal_false`: the last coordinate of a compressed SpatiaLite line string of n vertices is announced with index n
  instead of n - 1. GEOS conversion fails on every such blob, GDAL conversion silently inserts a vertex at (0, 0).
- C05: the SpatiaLite reader turns an SRID of 0 into `None` and the writer writes `None` as 0, so `Some(0)` is not preserved. The writer
  does not check the length of the envelope it is given.
- C15: sizes handed to the WKB and GEOS writers are cast with `size as u32`, which keeps only the low 32 bits. The theorems carry the
  hypothesis that sizes are below 2^32.
- C08: a member point of a WKB multi point whose ordinates are all NaN is delivered as `xy(NaN, NaN)`, while a top-level one is delivered
  as `empty_point`.
- C10: `GeoWriter` rejects lines and polygons delivered untagged without a container that takes them (an error, not a panic).
- C51: after an error `ShapeRecordIterator::next` can be called again; it repeats `feature_begin` for the same index.
- C65, `C65_geojson_null_shape_false`: a null shape is delivered as an empty geometry section; the GeoJSON writer leaves the key
  `"geometry": ` without a value, the whole document is invalid.
- C65, `C65_csv_null_field_false`, `C65_csv_null_field_panics_false`: a null field is skipped and shifts the indices of the fields after it. The CSV
  writer then panics, or fails to write the record; the reader drops this error, so the record is missing without notice
  and the next feature panics (debug build).
- C65, `C65_csv_order_false`: rows are hash maps, so the fields of two rows may come in different orders, for which the CSV writer panics.
- C65, `C65_geo_types_null_false`, `C65_geo_types_null_panics_false`, `C65_geo_types_fields_false`: `to_geo_features`-style iteration loses features with null
  shapes without an error (or panics in a debug build), and keeps only the first field of each row.
- C51, `C51_cut_off_false`: on a file shorter than its header says, `ShapeIterator::next` returns the same error forever and never `None`.
- C66, `C66_csv_no_features_false`: `to_csv` of a dataset without features writes nothing, not even the header, and the reader
  rejects the empty text because there is no geometry column.
- C67, `C67_rfc7946_iff`: a feature without properties or without geometry section is written as an object without that member
  (RFC 7946 demands `null`), and an empty point as `"coordinates": []`; neither is GeoJSON.
- C67, `C67_embedded_null_false`: a property whose value is the JSON null is lost on the way back.
- C67, `C67_float_type_false`: a float property with an integral value (1.0) is printed without a decimal point and comes back
  as an integer property (`Long`) of the same value.
* **Lost write errors (C69)** - three places report success although the output refused to take the result. `ShapeRecordIterator`/the feature reader of shapefiles drops the errors of `dataset_begin`, `feature_begin` etc. with `.ok()` (`C69_shapefile_false`). `CsvWriter` never calls `flush` on its `csv::Writer`, whose destructor ignores errors: up to a buffer of text may be lost silently, and any result up to 8192 bytes is reported as written whatever happens (`C69_csv_false`, `C69_csv_small`). `geozero-cli` never flushes the `BufWriter` around the output file, with the same effect for every format (`C69_cli_false`, `C69_buffered_small`).
* **C72**: `ShapeIterator::next` leaves its position where it was after an error. On a truncated `.shp` file every further call returns an I/O error, so `for _ in reader.iter_geometries(..) {}` (as in tests/shp-reader.rs) and `iter_features(..)?.count()` (as in the documentation of the module) do not end: `C72_ends_false`, `C72_truncated_never_ends`, `C72_truncated_records_never_end`.
C75: in release builds the part table of a polyline record is not checked to be increasing (shp_reader.rs:318-319): the size announced wraps and the range is empty, so a table that alternates between 0 and the number of points delivers all points again for each pair of entries. A record of 52 + 24k bytes makes more than k^2 calls (a file of 24 MB about 10^12). With overflow checks the same record panics (C42).
C76: the WKB readers take more than WKB. The byte order mark may be any byte (nonzero is little endian); the header of a member of a multi point, multi line string, multi polygon, polyhedral surface or TIN may say any type, also an unknown one (wkb_reader.rs:400 and the like read it and drop it); a member may have other dimensions than its parent; thousands of the type word above 3 and bits 8-28 of an EWKB word are ignored; the end mark of a SpatiaLite BLOB is never read (C76_only_standard_encodings_false).
C77: the 16 MiB cap on reservations is per call, not per geometry. 129 nested collections of 9 bytes each reserve over 2 GiB before the reader notices the end of input (C77_input_alone_false). The GEOS writer reserves what the input announces without any cap (C77_geos_from_wkb_false: 9 bytes, 2^32-1 positions). A 12-byte multipatch record and a 100-byte .shx header allocate nearly 2 GiB each (C77_shapefile_record_false, C77_index_file_false), the former zeroed with `vec![0; n]`.
C78: a .shx file is read on opening although nothing uses it. One that is cut short makes the shapefile unreadable, one whose header announces less than 47 words panics because a negative number of entries becomes a capacity (C78_damaged_index_false). With `A.SHP` the companions are looked for as `A.shx` and `A.dbf`, so on a case-sensitive file system `A.DBF` is silently ignored on opening (C78_capital_letters_false).
C79: converting a three-dimensional point with NaN x and y and a number as z to two-dimensional WKB succeeds, and gives an empty point, which every further conversion to WKB refuses (C79_again_false). A compressed SpatiaLite line string that announces one vertex is converted to WKB that announces one vertex and has two (C79_dishonest_spatialite_false).
C80: the upper right corner of the bounds of a tile need not become the upper right corner of the tile: the multiplier is rounded, and so is the product (C80_right_edge_false, with bounds 0, 0, 49, 49 and extent 4096: column 4095, row 1). Extents from 2^31 are accepted and wrap around (C80_extent_false).
* **C82** A `GeoWriter` that was used for a source that failed inside a geometry collection puts the next geometry into that collection: `take_geometry` returns `None` for it and for everything after it (`C82_geo_types_false`). An `MvtWriter` likewise loses the features of the next data set without an error (`C82_mvt_false`). A `GeosWriter` keeps the SRID of an earlier source (`C82_geos_srid_false`). `WktWriter` (EWKT) and `WkbWriter` (EWKB, GeoPackage, SpatiaLite, MySQL) write the SRID or header only before the first geometry, so that the second geometry written with the same writer, for instance the second feature of a data set, is without (`C82_ewkt_false`, `C82_wkb_dialects_false`). A `GeosWriter` or `GdalWriter` used again for an empty collection gives the geometry of the earlier source (`C82_geos_stale_false`, `C82_gdal_stale_false`); arcs and curves that a new writer refuses can be taken (`C82_geos_arc_false`, `C82_gdal_curve_false`).
* **C83** The SpatiaLite reader does not read the end marker 0xFE of a BLOB, so that the next read from the same stream always fails (`C83_spatialite_false`). Geometries written one after the other with one `WkbWriter`: the second is read back without SRID (EWKB, `C83_one_ewkb_writer_false`) or not at all (GeoPackage, MySQL, `C83_one_header_writer_false`).
* **C84** Two features of a tile layer or collection with the same attributes, the first of them null in both, make the CSV writer panic: null values are counted but not passed on, so the index does not match the header (`C84_null_panics_false`).
* The shapefile reader tells holes from outer rings by the orientation of the positions in the file. Behind `pre_process_xy` the grouping is that of the original positions, which is what one wants; but a file written with mirrored positions is grouped differently (C86_shape_false).
* GDAL reports an empty OGR point as a point at a position of GDAL's making. Behind `pre_process_xy` this position is transformed, although transforming an empty point leaves it empty (C86_gdal_false).
- C89, `C89_bare_feature_false`: a feature without geometry and properties is delivered (and refused by geo-types) as a member of a
  collection, but skipped without an error when features are read one by one.
- C90, `C90_size_false`: the geo-types writer refuses a geometry collection that announces more members than its budget for
  reservations (16 MiB) allows; the line and table readers announce 1 whatever follows, so the check does not apply to them.
- C90, `C90_feature_collection_to_geo`: a FeatureCollection with one geometry is converted to this geometry, one with two to a
  collection, one with none is an error; for line-delimited files it is a collection in all three cases.
