# Formal model of copc-lib (Lean 4)

Subject: `/repo` (RockRobotic/copc-lib, pinned commit), C++ sources under `cpp/` and the pure
scheduling code of `python/copclib/mp`. The code is read as text, never run.

## Layout

* `lean/Verif/Base/*`   – results, bytes, little-endian codecs, IEEE-754 binary formats.
* `lean/Verif/Model/*`  – the model, one definition per C++ function, each with `file:lines`.
* `lean/Verif/Spec/*`   – small specifications that do not mention the model's helpers.
* `lean/Verif/Lemmas/*` – helper lemmas.
* `lean/Verif/Props/*`  – the property theorems, each followed by an `example` showing that a
  concrete, non-trivial case meets the hypotheses.
* `tools/props.py` – generates `properties.jsonl`; `tools/manifest.py` – generates `MANIFEST.json`.
* `seeded/LOG.jsonl` – the mutation log (wrong programs tried against the theorems).

## Trusted base

* Lean 4.33.0's kernel. Theorems may depend on `propext`, `Classical.choice`, `Quot.sound` only.
  No axiom of our own, no `native_decide`, no `bv_decide`. Concrete witnesses use `decide +kernel`
  or `rfl`, i.e. kernel evaluation.
* The reading of the C++ code (the model). Every definition cites the lines it models.
* **Outcomes.** A call yields `ok`, `throw e` (one constructor per throw site, so that "rejects"
  means *this* check) or `ub` (undefined behaviour: signed overflow, out-of-range float to integer
  conversion, null dereference, buffer overrun, indeterminate read). Stateful calls return the state
  reached even when they throw.
* **Integers.** `int32_t`/`int` are `Int` with overflow checked and turned into `ub`; unsigned types
  are `Nat` reduced modulo 2^k where the C++ wraps.
* **Floating point.** `double` and `float` are a concrete IEEE-754 model (sign and magnitude word),
  round-to-nearest-even, with infinities, NaN and signed zeros; NaN payloads are bits like any other
  when copied, and every arithmetic NaN result is one canonical NaN. The model assumes the
  compiler does not use excess precision or contraction (x86-64/AArch64 defaults without FMA).
* **Streams.** In-memory byte array + position (+ fail flag). The OS is not modelled, except by a
  capacity after which writes fail (C44).
* **External library lazperf** (not in `/repo`): record compression, the chunk-table entropy coder
  are parameters with stated *laws* (lossless on what they wrote, all compressed bytes used, lengths; the
  written LASzip VLR has chunk size 2^32−1, varying chunks). Its POD layouts (LAS 1.4 header,
  VLR/EVLR headers, COPC info, extra-byte descriptors) are transcribed from the LAS 1.4 R15/COPC 1.0
  layouts.
* **Iteration order** of `unordered_map` and `set<shared_ptr>` (address order) is a parameter: the
  theorems hold for every order.
* Not modelled: threads inside lazperf (none), memory allocation failure, file system errors other
  than short writes/reads, Python bindings (except the multiprocess helpers), `ToString`/`operator<<`
  and other human-readable output, big-endian hosts.

## Per-property plan

| id | modelled | proof method |
|----|----------|--------------|
| C01–C05 | `VoxelKey` (key.cpp/.hpp) over checked int32 | arithmetic (`omega`), induction on depth |
| C06, C07 | `Entry` pack/unpack, `ReadPage` over an input stream | byte codec round trip; induction over the page |
| C08, C10 | `Box`, key/box predicates over IEEE doubles | order key of a double is an integer |
| C09 | `Box(VoxelKey, header)` over an abstract scalar, instance ℚ and IEEE | exact arithmetic; monotonicity of rounding |
| C11, C12 | `ApplyScale`, `RemoveScale`, point (un)pack in IEEE | relative error bound of rounding |
| C13 | `ApplyScale`, `ApplyInverseScale` over ℚ | false in general: negation + partial for offset 0 |
| C14–C16 | `Point` | codec round trip; bit arithmetic over the complete byte table |
| C17, C18 | `Points` | invariant over operation sequences; list induction |
| C19–C21 | `LasHeader`, `FromLazPerf`, `ToLazPerf`, `CheckAndUpdateBounds` | codec; fold lattice argument |
| C22–C24 | `CopcExtents` and its VLR | codec, index arithmetic |
| C25, C26 | `EbVlr`, configuration, header/VLR emission | induction over items, lengths |
| C27–C32, C46, C48 | writer state machine over an output stream | invariant over histories |
| C33–C35 | writer composed with reader on the produced bytes | refinement: file ↦ finite map of nodes |
| C36–C38 | reader page cache | refinement to the page tree |
| C39–C42 | reader queries | list reasoning over nodes, IEEE comparison |
| C43–C45, C47 | failure flags, VLR table, record buffers | state machine, witnesses |
| C49, C54 | Python chunking/completion schedule, the multiprocess transform and readers | permutation invariance over all completion orders |
| C50 | `InitWriter` | case analysis over overrides |
| C51, C52 | scan angle in degrees, array attributes of `Points` | IEEE arithmetic, list induction, witnesses |
| C53 | `Close` called again after it threw | frame of all calls of `Close` on the bytes behind the header; what a failed `Close` keeps; witnesses |
| C55 | `LazReader` on files of `LazWriter` | refinement on the produced bytes |
| C56 | `CompressBytes`, `DecompressBytes` | lazperf laws, list induction |
| C57, C58 | sequence protocol and pickling in `bindings.cpp` | model of Python indices and slices; codec round trip |
| C59, C60 | `ToString`, hash and `==` of keys and other values | injectivity of decimal digits; witnesses |
| C61 | writer on a stream that ends at any byte, then readers of what is left and of the finished file | simulation of the healthy run up to the failing byte; the two files agree from the point data on, so the hierarchy invariants transfer; a concrete file whose descriptors are lost |
| C62 | the copying loop of the examples over the reader and the writer | every added node meets the preconditions of the addition; then C33/C34 on both files |
| C63–C65 | constructors and destructors of the writers, the writers on files; exceptions leaving a destructor end the program | the `open_` flag as an invariant of histories; relational argument: two runs of `Close` that agree in what a failed `Close` keeps have the same outcome |
| C66 | the conversion loop over the COPC reader and the LAZ writer; `LazConfig(CopcConfig)` | loop invariant; C55 for the file, C34 for the nodes |
| C67 | the copying loop with `GetPointData` and `CompressBytes` | each step has the outcome and effect of C62's step (C56) |
| C68, C69 | loops that add some of the points of each node; `BoundsTrimFileExample` | adding points that were read is adding their compressed records (C14, C11, C56); then the file is one of compressed additions; boxes by C08/C40 |
| C70 | `FileWriter`, `LazFileWriter` as writers on a new stream | induction over the calls; destruction by C63 |
| C71 | `FileReader`, `LazFileReader`: constructor, `Close`, destructor; the stream behind a pointer that dangles after `Close` | a call has a use for the stream if its effect depends on the stream or it changes it; queries of a loaded hierarchy have none (by induction over the pages) |
| C72 | `Reader` on a prefix of a written file (hypothesis `Lazperf.Streams`: the decompressor takes its input as a stream, so more bytes after the end change nothing; met by `Lazperf.plain`) | the constructor leaves the stream good, because a record that is cut leaves the stream failed and then the extents are not found; every read that succeeds reads the same bytes of the longer file (simulation `Lasts`) |
| C73 | the same simulation with arbitrary bytes after any file that opens | `Lasts` for every call; for a written file with C33 |
| C74 | `doAddNode`, `addNode`, `addNodeCompressed`, `findNode` of the writer after any unclosed history, on a stream without limit | the additions step by step (`accept_any`), the invariant that the stream holds what was written; backwards by cases on the first check that throws; `lastAdded` from the history by induction |
| C75 | the writer's pages and nodes when keys are added again, `Close`, and the reader on the file | invariant over histories: each page lists, for the keys added to it, the node added last (`RWInv`); `closed_listing` gives the file's hierarchy, then as C33. Only when a key is always added with the same page (`OnePage`) |
| C76 | the `shared_ptr` graph of headers, COPC information, extents, configurations and writers (`Model/Shared.lean`): a store of cells, objects that point into it, and a step for every construction, copy, edit and call | refinement: in every reachable world each action does to the values what it does in a specification in which objects are plain values (`Spec/Shared.lean`); the invariant is that COPC objects own their cells alone. For LAZ objects: the exact set of objects an edit of a header changes. Pointer setters that share an extent of another object (Python `a.x = b.x`), and `CopcExtents(other, fmt, n, ext)` called by the program itself, which shares the extents of `other` (`extents.cpp:71-103`), are not among the actions |
| C77 | the writers of `Model/Writer.lean` on a stream with any old content | simulation: up to `Close` the state is that on a new stream with the rest of the old content after it (`Mirror`), so that the states are equal once the old content is overwritten |
| C78 | `copyNodes` (C62) after `GetDepthAtResolution`, as in `example-writer.cpp:136-184` | C62 gives the history of the copy, C39 the depth each file answers; uniqueness of the depth for a resolution |
| C79 | `Writer.make`, the additions, `close`, `Reader.init` and its calls; `LazWriter` and `LazReader` likewise; `Spec/GoodUse.lean` says which inputs are good | C74 for each addition, the checks of `Close` from the number of calls (C26), C33 for the reader; C46 and C55 for LAZ |
| C80 | constructors of configurations, points and collections (`Model/FromHeader.lean`), writer, reader; `Spec/Program.lean` says which programs are good | `C80_pack` from C12 gives the bytes of each node, hence a good plan; C79, C33, C34; for LAZ C79 and C55 |
| C81 | `GetPointData` as call number `k` of one reader (`Model/LazAgain.lean`): the lazperf reader goes on where the last call left it | the records of `k+1` calls need more chunks than the table has; C55 supplies the table of a written file |
| C82 | `Spec/Format.lean`, `Spec/FormatHeader.lean`: fields, hierarchy pages and (extended) VLRs read from raw bytes by the positions in the published formats, nothing of the library's Reader | the bytes of a closed file (`CloseOk.closed`, `GoodHierarchy`, `RecFile`) against the positions; pages by induction both ways |
| C83 | the six legacy fields in the bytes of a written file | proved what they hold; the number of points is not 0 (finding) |
| C84 | as C82, for a LAZ file | `LazDone` (bytes of a closed LAZ file) against the positions |
| C85 | programs on copies of a writer (`Model/Copies`) | a program on copies is a history of one writer with a `Close` per destruction |
| C86 | C82's records of a written file | the file agrees with itself iff the program made extents and bounds agree; witness where it did not |
| C87 | schedules of readers on one stream (`Model/Sharing`) | simulation: no call and no constructor depends on the position of the stream; then induction over the schedule |
| C88 | `Format.Conforms` (Spec/Conforming): the formats by positions; `Format.Suits`: what Reader needs beyond; induction over the records of the file, `Format.ReadAs` for every value of the configuration; chunk given as `compress recs` (lazperf external) |
| C89 | `Format.Las`, `Format.SuitsLas`, `Format.ReadAsLas` (Spec/Conforming; every COPC file is a `Las` file), `Format.Chunks`: chunks, chunk table and number of points by positions, compressed contents through `Lazperf`, `Format.Varying` and `Format.Fixed`: chunks of varying sizes (table with counts) or of one size (in the LASzip VLR); the lemmas of C88, then `readRecords_fit` and `C14_any` |
| C90 | what C88 says of the opened file gives a configuration the writer can store (`make_storable`); the copy loop of the examples is then a good history (`copy_any` from `copy_run`, `C79_closes`), and C35, C33, C14 for the new file |
| C91 | the conversion loop of C66 for the opened file of C88: `parts_read` (the configuration fits a LAZ file), `toLaz_run` (no chunk is refused), C46 (`Close`), C55 for the new file, `points_are` for the points |
| C92 | the filter and trim loops of C69 for the opened file of C88, with the original's records instead of a written history (`thin_file_any`); that no call throws: `thin_returns` by induction over the nodes, each step by `filter_returns` (the points pack since C13's `GoodScale` gives the stored integers back, the addition is good by C74) or `copy_returns`; `Close` by C79 |
| C93 | the loop `mapNode` (Spec/Map.lean: `GetPoints`, any function, `las::Points(vector)`, `AddNode`) with any writer configuration: `holds_reads` (the points of a node, also of one without points, are those at the positions of the formats), `map_runs` by induction over the nodes (each addition accepted by C74 as for C80), the file by `plan_file` / `program_file` (C79, C80); conversion by C16 and C50 (`overridden_make`), rescaling by C12 and C50 |
| C94 | the program of `placed` (Spec/Place.lean: points of `LazReader::GetPoints` filtered by place, `AddNode` per key with points): C89 gives the reader, its configuration and points; `laz_args` (what it gives are good arguments in the sense of C79), `laz_as_read`; the writer and file by `program_stored` (C79/C80 with the metadata of C35), coordinates by C11/C13 (`pointIs_exact`), the number of points by induction over points and keys (`placed_count`). |
| C95 | `CopcIsLaz` (Spec): the additions of a `Written` history that give records (`addedCalls`), which records each gives (`Op.Gives`). The log of the history (the chunks the writer wrote, by induction over it) against the additions; the file by the same record-file and chunk-table lemmas as C33 and C55; `LazReader` runs over the chunk table in file order, which is the order of the additions, and does not use the hierarchy. Points by C10 (`ReadBack`). |
| C96 | the converse of C33/C55/C88: from a `Reader.init` (`LazReader.init`) that returned, for arbitrary bytes, back to what was at the positions of the formats (`Format.LasHeaded`, `Format.RecordAt`, independent of the model's decoding). Every entry of the VLR table was decoded from its place or from zeros (loops by induction, also after the stream failed); the ids of an entry found are those at its place. Refusal of LAZ files from the list of records that C55 shows in the file. |
| C97 | refused additions: induction over the history with C28 (and the same atomicity lemmas for `LazWriter`). Orders: `Order` is the parameter of the model for the iteration of the containers; the written pages are a permutation of the pages with the root page last (`visit_perm`), so the length of the page area and the place of the root page, and with them header and VLRs, do not depend on it (`close_any`: a `Close` that returns also returns with any other order). |
| C98 | `LazWritten.doneAt` gives for both runs the parts of the file (head, body, WKT) as functions of the configuration, the chunks and the count; the configuration of the reader is the old one with the fields filled in at the end (`restored`), on which the head does not depend (`lazHeader14_restored`: the WKT bit is set by an `or`, idempotent). Points: by C18 the points of `GetPoints` pack to the records read; a split of them in groups of the chunk sizes packs to the records of each chunk (`packPoints_split`, `gives_groups`). |
| C99 | The additions and moves use of a configuration only format, record length, scale and offset (`CoreEq`, `history_withCfg`): with the reader's configuration (by C35's `CloseOk.init` the old one with the fields filled in by `Close`) the same calls have the same outcomes and lead to the same nodes, pages and stream. `close_eq` gives the new file as a function of these; the head block does not depend on the filled-in fields (`head_again`), and setting the root page again gives the same info (`setRoot_again`). Chunks: an addition that returned a node and the `AddNodeCompressed` of the chunk it wrote do the same (`op_copy`); the file has this chunk at the place of the node (C27), so the copying program is itself one that writes this file (`Written.copied`). Records and points: any additions of the same data (`SameAddition`: same key, page, stored bytes and count) do the same as the chunk's (`op_swap`, from C74's `accept_any`); points read from records of a good scale pack to the records (`pack_unpacked`, from C11). |
| C100 | The records of a written file (`Written.recorded`, from C20/C82) with their places (`placed_drop`): bounds, padding of user ids (`RecFile.follow`), which kinds there are (`mem_copcRecs`); the header by C82's `HeaderSays`; the extents by `Storable`. Then each field of `Format.Conforms` and `Format.Suits` (`Spec/Conforming.lean`, written for C88) is shown, and of `Format.Las`/`SuitsLas` for `LazWriter`; C88 gives the reader. `C100_chunks`: `Format.Chunks` and `Format.Varying` (written for C89) for what `LazWriter` writes, `C100_copcChunks` for what `Writer` writes. The specification is the one that foreign files are judged by, so a mistake in it that excluded the library's own files would be seen here. |

Properties found false of the code are kept in full in `properties.jsonl`; the proved part is named
`…_partial` and the negation is proved on a concrete witness (`…_violated`). Findings are listed below.

## What of the code is modelled

| /repo | model |
|-------|-------|
| `hierarchy/key`, `entry`, `node`, `page`, `internal/hierarchy` | `Model/Key`, `Entry`, `Writer`, `Reader` |
| `geometry/vector3`, `box` | `Model/Geometry`, `Scale` |
| `las/header`, `point`, `points`, `utils`, `vlr`, `laz_config` | `Model/Header`, `Point`, `Points`, `Vlr`, `Config` |
| `copc/copc_config`, `info`, `extents` | `Model/Config`, `Extents` |
| `io/laz_base_writer`, `laz_writer`, `copc_writer_public`, `copc_writer_internal` | `Model/Writer` |
| `io/copc_base_io`, `copc_base_reader`, `copc_reader`, `laz_base_reader`, `laz_reader` | `Model/Reader*`, `LazReader` |
| constructors and destructors of the writers, `FileWriter`, `LazFileWriter` | `Model/Lifetime` |
| `FileReader`, `LazFileReader` (lifetime) | `Model/FileReader` |
| copies of `Writer`, `LazWriter` | `Model/Copies` |
| several `Reader`s on one stream (readers cannot be copied: `unique_ptr` member) | `Model/Sharing` |
| `laz/compressor`, `decompressor` | `Model/Lazperf`, `Compress`, `Reader` |
| `python/copclib/mp/*.py` | `Model/Mp` |
| `python/bindings.cpp`: sequence protocol, pickling, `__hash__` | `Model/PyPoints`, `Pickle`, `KeyText` |

Not modelled: human-readable output (`ToString` other than of keys, `operator<<`),
the rest of the bindings (attribute
forwarding), progress bars and process management of the multiprocess helpers (the transform function is pure; a
worker that crashes, return values and outside effects of callbacks are left out; the file does not change during
a run). lazperf's own checks when a file is opened (magic, version, presence of the LASZIP VLR) are not
modelled, so "the reader accepts" means: as far as copc-lib's own code is concerned.

Hypotheses that stand for the machine: files shorter than 2^63 bytes where stream positions are involved; a
header's `points_by_return` is an array of 15; counts of objects below 2^31 or 2^32 where C++ keeps them in such
fields (always stated in the theorem).

## Findings

Behaviours of the code that contradict the stated property, each proved on a concrete witness:

| property | theorem | what happens |
|----------|---------|--------------|
| C09 | `C09_ieee_high_corner_violated`, `C09_ieee_tiny_violated` | rounding can put a child's box outside its parent's |
| C13 | `C13_violated` | `ApplyInverseScale` adds the offset instead of subtracting it |
| C17 | `C17_shared_violated`, `C17_wrap_violated` | a point shared by two collections, or a record length that wraps, breaks homogeneity |
| C17 | `C17_setitem_violated`, `C17_setitem_corrupts_violated` | Python item assignment skips the format check; a file written from such a collection has wrong points |
| C19 | `C19_full_field_violated` | a text field of full length is read past its end |
| C24, C35 | `C24_vector_variance_violated`, `C35_variance_violated` | a negative variance is accepted, the file written with it cannot be opened |
| C26, C46 | `C26_undescribed_violated`, `C46_undescribed_violated` | extra bytes in the record length without descriptors: the reserved header area and what is written disagree |
| C29 | `C29_violated`, `_twice`, `_ub` | `ChangeNodePage` does not update the node's page; a second move loses or duplicates the node or dereferences null |
| C32, C46 | `C32_add_violated`, `C46_write_after_close_violated` | additions after `Close` are accepted and overwrite the file |
| C37 | `C37_self_page_diverges` | a page that lists itself makes `FindNode` recurse for ever |
| C38 | `C38_violated` | `GetAllChildrenOfPage` misses nodes, and its answer depends on earlier queries |
| C42 | `C42_verbose_violated` | `int` counters of the verbose spatial check overflow |
| C43 | `C43_violated`, `C43_poisoned` | a read past the end returns normally and leaves the stream failed: later reads return zeros |
| C44 | `C44_failed_violated` | additions on a stream that has already failed are accepted |
| C45 | `C45_violated` | a WKT string stored as a VLR is returned shifted by six bytes |
| C47 | `C47_violated` | records longer than 255 bytes overrun a stack buffer |
| C48 | `C48_count_violated` | `AddNodeCompressed` accepts a count of -1, which reads back as a page |
| C51 | `C51_violated` | setting the scan angle to its own value in degrees changes it |
| C52 | `C52_pointSourceId_violated`, `C52_alias_violated` | the array accessors of `PointSourceId` are 8 bits wide; aliased points are written twice |
| C53 | `C53_retry_violated` | a `Close` that threw cannot be repeated: chunk table and EVLR count become wrong |
| C53 | `C53_unreadable_violated` | the file such a repeated `Close` leaves makes the reader go past the end and take extents from uninitialised variables |
| C53 | `C53_add_violated` | a node added after a failed `Close` is stored in the header area and overwritten by the next `Close` |
| C58 | `C58_guid_violated` | a header whose GUID is not UTF-8 cannot be pickled |
| C60 | `C60_descriptor_violated`, `C60_node_violated` | `==` of extra-byte descriptors compares three bytes of each double triple; `==` of nodes ignores the page |
| C61 | `C61_descriptor_violated` | a run that dies within the last 192 bytes of output of `Close` (the payload of the extra-byte VLR is written last) leaves a file that is accepted, with nodes and points in place (C61_points) but with descriptors of type 0 |
| C64 | `C64_terminates_violated`, `C64_file_violated`, `C64_laz_violated` | after an exception of `Close` (for instance a full disk) the destructor throws again and `std::terminate` is called, whatever the program (also Python) does with the exception |
| C65 | `C65_refused_violated`, `C65_format_violated`, `C65_header_violated` | `FileWriter` empties an existing file before it looks at its arguments; a hand-made header of another format makes the constructor call `std::terminate` |
| C69 | `C69_example_violated` | `BoundsTrimFileExample` as written throws ("Can't add empty vector of points") on a node whose box meets the trim box but that has no point in it. It also gives compressed bytes of the old format to a writer it made for format 8 (`example-writer.cpp:98,103`), which `AddNodeCompressed` does not notice (C27 accepts any bytes); C62, C67–C69 need the same format |
| C71 | `C71_data_violated`, `C71_find_violated`, `C71_leak_violated`, `C71_laz_violated` | `FileReader::Close` deletes the stream but keeps the pointer (`copc_reader.hpp:104-106`): reading any node afterwards, or looking for a node in a page not yet read, uses a deleted object (undefined, from Python, too) instead of throwing. A constructor that throws after the file was opened leaks the stream with the open file (`copc_reader.hpp:89-97`) |
| C72 | `C72_open_violated` | The constructor of `Reader` does not check that the extents were read: if the file ends between the header area and the list of extended VLRs so that the stream has failed when the extents are read, `CopcExtents` takes uninitialised doubles (`base_reader.cpp`, `copc_reader.cpp`): undefined instead of an exception. In the sample file of 2 KB this is so for a cut at 1800 bytes. No cut file is ever misread once it opens (`C72_value`, `C72_points`, `C72_compressed`) |
| C75 | `C75_violated`, `C75_count_violated` | `DoAddNode` puts the new node into the list of the page it is given and into the map of nodes; when the key was added before with another page, the old entry stays in that page's list. The file lists the key twice: `GetAllNodes` returns both nodes, and `FindNode` the old or the new one depending on which pages were loaded before. The points of the replaced node stay counted in the header. |
| C76 | `C76_violated` | `LazConfigWriter` declares no copy constructor, so a copy, and the configuration inside a `LazWriter`, has the same header object as the original (`laz_config.hpp:50-72`, `laz_writer.cpp:8-14`; `CopcConfigWriter` copies everything, `copc_config.hpp:53-57`). Of two `LazWriter`s made of one configuration, an edit of the header of the first changes the header that the second writes at `Close` |
| C77 | `C77_violated`, `C77_position_violated` | `Close` seeks to the end of the stream for the chunk table, the hierarchy and the WKT (`laz_base_writer.cpp:66-98`, `copc_writer_internal.cpp:45-61`): if the stream held more than is written, the old data stay in the file between the points and the hierarchy. On a stream that is not at its start the reserved space is written at its position but the header at byte 0, and a LAZ file read back gives other points |
| C78 | `C78_violated` | Nodes at a depth can be missing although deeper ones exist. If the old file has no node at the depth for the resolution, the trimmed file is coarser than asked for, although the old file is not (the last assertion of `ResolutionTrimFileExample` fails) |
| C81 | `C81_later_violated`, `C81_written_violated` | `LazReader::GetPointData` seeks the stream but not the lazperf reader, whose place in the chunk table only moves forward. On any LAZ file with points every call after the first goes past the end of lazperf's chunk table (for a file with one point the second call decodes the bytes after the chunk, from the third on the table is read past its end; the model calls both undefined) |
| C83 | `C83_legacy_violated` | `LasHeader::ToLazPerf` puts the number of points into the legacy field too (0 only from 2^32 points on); LAS 1.4 R15 requires 0 for point formats 6 and above. The legacy numbers by return are 0 |
| C85 | `C85_violated` | `Writer` is copyable and its destructor closes the file that all copies share: after a copy is destroyed (e.g. passed by value) additions through the others are accepted and written over the start of the point data |
| C85 | `C85_laz_violated` | copies of a `LazWriter` share the stream but each has its own counts and chunk list: two points written, all calls return, and the header says one |
| C86 | `C86_violated` | `CopcExtents::ToLazPerf(x, y, z)` is given the header's bounds by the writer and ignores them: the X, Y, Z extents in the file are whatever the program set in the extents (0 by default) |
| C87 | `C87_violated` | the failure state of the stream is shared and never cleared: a compressed read past the end through one reader returns normally, and the other reader's `GetPoints` throws afterwards |
| C88 | `C88_violated`: a file with a GUID of 16 non-zero bytes follows LAS 1.4, opening it reads past the field (undefined). Also outside `Suits`: 32-character system identifier or software without a zero (undefined), WKT stored as a VLR (misread, C45), extra bytes or extents as extended VLRs (misread), WKT of 2^31 bytes and more. |
| C89 | `C89_violated`: the same GUID for a LAZ file. Also outside `SuitsLas`: a WKT string in a VLR (where LAS 1.4 usually has it) is read 6 bytes too late (C45). |
| C90 | `C90_empty_violated`: a node without points (allowed by COPC) makes the copy loop throw from AddNodeCompressed, for every such file. `C90_extents_violated`: a file with extra bytes and without the optional extents VLR gets default extents that ignore the extra bytes (`CopcExtents(point_format_id)`), all calls return and the copy cannot be opened. |
| C91 | `C91_empty_violated`: a node without points makes the conversion throw from WritePointsCompressed, for every such file. |
| C92 | the example itself, without the emptiness check, throws when a box cuts a node but holds none of its points (`C69_example_violated`); records above 255 bytes and scales outside `GoodScale` are excluded as in C13, C65. |
| C93 | records above 255 bytes are excluded (C47), and points whose coordinates do not fit the new scale (`AddNode` throws, C12). |
| C94 | what C89 and C93 exclude (text fields of the header without a zero byte, records above 255 bytes, 2^31 points or more), and extra-byte descriptors that do not add up to the record length: `CopcConfigWriter` computes the record length from the descriptors, so records of such a file do not fit the new one. |

Other observations, documented in the comments of the model: `Bisect` and `GetParentAtDepth` overflow at depths
near 31; a default header has bounds 0, so tracked bounds always contain the origin; `DoAddNode` does not check
for an existing key; "too large" is thrown after the chunk has been recorded; an extra-byte VLR with more than 341
items wraps its length; with no overrides the record length is copied, not recomputed; extents and extra-byte VLRs
stored as EVLRs are read at the wrong offset; `LazReader::GetPointData` works only once per reader;
`NumBytesFromExtraBytes` indexes a table of 31 with any data type; negative chunk sizes of the multiprocess
transform process nothing.

