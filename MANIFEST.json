{
 "claims": [
  {
   "property": "C01",
   "status": "proved",
   "theorems": [
    "Copc.C01_children",
    "Copc.C01_bisect_never_wrong"
   ],
   "note": "All valid keys; overflow is reported as ub by the model and shown never to give a wrong key."
  },
  {
   "property": "C02",
   "status": "proved",
   "theorems": [
    "Copc.C02_parents",
    "Copc.C02_parents_invalid",
    "Copc.C02_parents_last"
   ],
   "note": "All keys."
  },
  {
   "property": "C03",
   "status": "proved",
   "theorems": [
    "Copc.C03_childOf",
    "Copc.C03_childOf_refl",
    "Copc.C03_childOf_trans",
    "Copc.C03_childOf_antisymm",
    "Copc.C03_childOf_root"
   ],
   "note": "All pairs of keys."
  },
  {
   "property": "C04",
   "status": "proved",
   "theorems": [
    "Copc.C04_parentAtDepth",
    "Copc.C04_parentAtDepth_reject",
    "Copc.C04_parentAtDepth_invalid",
    "Copc.C04_parentAtDepth_ub"
   ],
   "note": "All keys and depths, including the undefined-behaviour range."
  },
  {
   "property": "C05",
   "status": "proved",
   "theorems": [
    "Copc.C05_children_in",
    "Copc.C05_parents_in"
   ],
   "note": "All octree keys of depth at most 30."
  },
  {
   "property": "C06",
   "status": "proved",
   "theorems": [
    "Copc.C06_layout",
    "Copc.C06_roundtrip",
    "Copc.C06_injective",
    "Copc.C06_surjective"
   ],
   "note": "All entries with int32/uint64 fields."
  },
  {
   "property": "C07",
   "status": "proved",
   "theorems": [
    "Copc.C07_complete_page",
    "Copc.C07_truncated_page",
    "Copc.C07_unseekable_page"
   ],
   "note": "All files and cut points."
  },
  {
   "property": "C08",
   "status": "proved",
   "theorems": [
    "Copc.C08_contains_point",
    "Copc.C08_contains_box",
    "Copc.C08_within",
    "Copc.C08_intersects",
    "Copc.C08_intersects_symm",
    "Copc.C08_nan_corner",
    "Copc.C08_nan_point",
    "Copc.C08_constructor",
    "Copc.C08_flat"
   ],
   "note": "All boxes and node keys, over exact rationals carried by the IEEE model."
  },
  {
   "property": "C09",
   "status": "proved",
   "theorems": [
    "Copc.C09_box",
    "Copc.C09_root",
    "Copc.C09_child_inside",
    "Copc.C09_children_cover",
    "Copc.C09_ancestor_inside",
    "Copc.C09_ieee_low_corner",
    "Copc.C09_ieee_tiny_violated",
    "Copc.C09_ieee_high_corner_violated",
    "Copc.C09_ieee_high_corner"
   ],
   "note": "Exact arithmetic: the boxes (C09_box, C09_root), nesting, covering, ancestors. IEEE: low corners exact (C09_ieee_low_corner), high corners within rounding (C09_ieee_high_corner); that rounding does matter and that tiny spans break even the low corner is shown by the two _violated witnesses."
  },
  {
   "property": "C10",
   "status": "proved",
   "theorems": [
    "Copc.C10_within_intersects",
    "Copc.C10_crosses"
   ],
   "note": "All boxes."
  },
  {
   "property": "C11",
   "status": "proved",
   "theorems": [
    "Copc.C11_record",
    "Copc.C11_coordinate"
   ],
   "note": "All int32 coordinates, scales and offsets within stated magnitude."
  },
  {
   "property": "C12",
   "status": "proved",
   "theorems": [
    "Copc.C12_removeScale",
    "Copc.C12_accuracy"
   ],
   "note": "All coordinates; accuracy half a step plus stated rounding."
  },
  {
   "property": "C13",
   "status": "partial",
   "theorems": [
    "Copc.C13_violated",
    "Copc.C13_inverse_scale_partial",
    "Copc.C13_removeScale_axis",
    "Copc.C13_removeScale_axis_unchecked"
   ],
   "note": "The inverse-scale function is refuted by a witness (it adds the offset instead of subtracting it); what it does compute is characterised and the removal of a scale is proved."
  },
  {
   "property": "C14",
   "status": "proved",
   "theorems": [
    "Copc.C14_any",
    "Copc.C14_layout",
    "Copc.C14_roundtrip"
   ],
   "note": "All points of formats 6-8 and all extra bytes."
  },
  {
   "property": "C15",
   "status": "proved",
   "theorems": [
    "Copc.C15_positions",
    "Copc.C15_returnNumber",
    "Copc.C15_numberOfReturns",
    "Copc.C15_scannerChannel",
    "Copc.C15_flags"
   ],
   "note": "All flag values."
  },
  {
   "property": "C16",
   "status": "proved",
   "theorems": [
    "Copc.C16_gates",
    "Copc.C16_toPointFormat",
    "Copc.C16_toPointFormat_back",
    "Copc.C16_copy",
    "Copc.C16_copy_drops_hidden_colour"
   ],
   "note": "All points and formats."
  },
  {
   "property": "C17",
   "status": "partial",
   "theorems": [
    "Copc.C17_homogeneous_partial",
    "Copc.C17_all_or_nothing",
    "Copc.C17_shared_violated",
    "Copc.C17_wrap_violated",
    "Copc.C17_setitem_violated",
    "Copc.C17_setitem_corrupts_violated"
   ],
   "note": "Proved for unshared points; aliasing, record length wrap-around and Python item assignment (C17_setitem_violated, C17_setitem_corrupts_violated) are refuted by witnesses."
  },
  {
   "property": "C18",
   "status": "proved",
   "theorems": [
    "Copc.C18_unpack",
    "Copc.C18_bad_format",
    "Copc.C18_zero_length_ub",
    "Copc.C18_pack_length",
    "Copc.C18_roundtrip"
   ],
   "note": "All byte vectors and collections; zero-length records shown to be undefined behaviour."
  },
  {
   "property": "C19",
   "status": "partial",
   "theorems": [
    "Copc.C19_roundtrip_partial",
    "Copc.C19_full_field_violated",
    "Copc.C19_setters"
   ],
   "note": "Round trip of every header field proved for all headers whose text fields leave room for a NUL; full-length text fields are refuted (over-read, undefined behaviour)."
  },
  {
   "property": "C20",
   "status": "proved",
   "theorems": [
    "Copc.C20_copc_records",
    "Copc.C20_laz_records",
    "Copc.C20_legacy_counts",
    "Copc.C20_ext_stats_rejected"
   ],
   "note": "Legacy counts and extended-stats rejection (C20_legacy_counts, C20_ext_stats_rejected); the records announced by the header of a closed COPC or LAZ file, found by walking the bytes, are exactly those of the configuration (C20_copc_records, C20_laz_records)."
  },
  {
   "property": "C21",
   "status": "proved",
   "theorems": [
    "Copc.C21_exact",
    "Copc.C21_order",
    "Copc.C21_nan_ignored"
   ],
   "note": "All sequences of points in any order, including NaN coordinates."
  },
  {
   "property": "C22",
   "status": "proved",
   "theorems": [
    "Copc.C22_roundtrip",
    "Copc.C22_wrong_size"
   ],
   "note": "All extents with the format's dimensions."
  },
  {
   "property": "C23",
   "status": "proved",
   "theorems": [
    "Copc.C23_dimensions"
   ],
   "note": "All formats and all dimensions."
  },
  {
   "property": "C24",
   "status": "partial",
   "theorems": [
    "Copc.C24_constructor",
    "Copc.C24_copy",
    "Copc.C24_vector",
    "Copc.C24_vector_variance_violated",
    "Copc.C24_number",
    "Copc.C24_byteSize"
   ],
   "note": "Constructor, copy and numeric claims proved; the vector constructor accepts a negative variance (witness)."
  },
  {
   "property": "C25",
   "status": "proved",
   "theorems": [
    "Copc.C25_sum",
    "Copc.C25_undefined",
    "Copc.C25_config",
    "Copc.C25_copc_config",
    "Copc.C25_format"
   ],
   "note": "Sizes of the extra byte type table, sums, and the record length of a new configuration; types above 30 are undefined behaviour in the model."
  },
  {
   "property": "C26",
   "status": "proved",
   "theorems": [
    "Copc.C26_area",
    "Copc.C26_outcome",
    "Copc.C26_made",
    "Copc.C26_undescribed_violated"
   ],
   "note": "Header area of a closed file is laid out exactly as its header declares, for consistent configurations with at most 341 extra-byte items / 4095 extents (VLR length field is uint16). C26_undescribed_violated: a configuration whose record length leaves room for extra bytes but has no descriptions makes Close throw after overwriting the chunk table pointer and first node."
  },
  {
   "property": "C27",
   "status": "proved",
   "theorems": [
    "Copc.C27_stored",
    "Copc.C27_disjoint",
    "Copc.C27_append_only",
    "Copc.C27_closed"
   ],
   "note": "All histories of AddNode/AddNodeCompressed/ChangeNodePage calls, all streams, then Close."
  },
  {
   "property": "C28",
   "status": "proved",
   "theorems": [
    "Copc.C28_unchanged",
    "Copc.C28_rejected"
   ],
   "note": "All writer states and arguments."
  },
  {
   "property": "C29",
   "status": "partial",
   "theorems": [
    "Copc.C29_rejects",
    "Copc.C29_frame",
    "Copc.C29_moved_partial",
    "Copc.C29_violated",
    "Copc.C29_violated_twice",
    "Copc.C29_violated_ub"
   ],
   "note": "Proved for every history: rejections, what else is unchanged, and the move itself for nodes moved at most once. Moving a node twice is wrong in the code (the node's page_key is never updated): C29_violated, C29_violated_twice and C29_violated_ub are the witnesses."
  },
  {
   "property": "C30",
   "status": "proved",
   "theorems": [
    "Copc.C30_tree",
    "Copc.C30_throws"
   ],
   "note": "All page sets reachable by any history and all traversal orders of the unordered maps."
  },
  {
   "property": "C31",
   "status": "proved",
   "theorems": [
    "Copc.C31_counts",
    "Copc.C31_closed",
    "Copc.C31_too_large"
   ],
   "note": "All histories; the mutation on an over-long chunk is stated separately (C31_too_large)."
  },
  {
   "property": "C32",
   "status": "partial",
   "theorems": [
    "Copc.C32_idempotent",
    "Copc.C32_final_partial",
    "Copc.C32_add_violated"
   ],
   "note": "Closing again is a no-op on every state; additions after Close are refuted by a witness (they overwrite the file). Proved part: any later Close leaves all bytes unchanged."
  },
  {
   "property": "C33",
   "status": "proved",
   "theorems": [
    "Copc.C33_opens",
    "Copc.C33_findNode",
    "Copc.C33_findNode_other",
    "Copc.C33_allNodes",
    "Copc.C33_pageList",
    "Copc.C33_compressed"
   ],
   "note": "All histories with distinct keys and positive counts, every node moved at most once, all stored configurations, all iteration orders; opening, FindNode of added and other keys, GetAllNodes, GetPageList, GetPointDataCompressed, after any earlier queries."
  },
  {
   "property": "C34",
   "status": "proved",
   "theorems": [
    "Copc.C34_data",
    "Copc.C34_points",
    "Copc.C34_count"
   ],
   "note": "All lossless codecs (law of the Lazperf structure), all histories of AddNode, all points."
  },
  {
   "property": "C35",
   "status": "partial",
   "theorems": [
    "Copc.C35_metadata_partial",
    "Copc.C35_variance_violated"
   ],
   "note": "Proved for every storable configuration (fields in range, text that fits, at most 341 items, non-negative variances); a configuration with a negative variance is accepted by the interface and the file written can then not be opened (C35_variance_violated)."
  },
  {
   "property": "C36",
   "status": "proved",
   "theorems": [
    "Copc.C36_findNode",
    "Copc.C36_history",
    "Copc.C36_allNodes",
    "Copc.C36_pageList"
   ],
   "note": "All files with a good hierarchy, all earlier queries that leave the stream usable, all iteration orders."
  },
  {
   "property": "C37",
   "status": "proved",
   "theorems": [
    "Copc.C37_ends",
    "Copc.C37_terminates",
    "Copc.C37_again",
    "Copc.C37_cached",
    "Copc.C37_self_page_diverges"
   ],
   "note": "Termination for all files whose page references have no cycle and all histories of queries; a witness file with a page that refers to its own key makes FindNode diverge; repeated queries do not touch the reader."
  },
  {
   "property": "C38",
   "status": "partial",
   "theorems": [
    "Copc.C38_children_partial",
    "Copc.C38_violated"
   ],
   "note": "Proved for all good files, keys and histories provided a node with the key of a page lies in that page or the page that refers to it; otherwise refuted by a file written by the library (C38_violated): the answer is wrong and depends on earlier queries."
  },
  {
   "property": "C39",
   "status": "proved",
   "theorems": [
    "Copc.C39_depth",
    "Copc.C39_maxDepth",
    "Copc.C39_antitone",
    "Copc.C39_nodesAt",
    "Copc.C39_nodesWithin",
    "Copc.C39_halving",
    "Copc.C39_key_resolution",
    "Copc.C39_exact"
   ],
   "note": "All good files, histories, resolutions and spacings in double arithmetic; C39_exact gives the reading over the rationals when halving is exact (spacing at least 2^-900)."
  },
  {
   "property": "C40",
   "status": "proved",
   "theorems": [
    "Copc.C40_allPoints",
    "Copc.C40_exact",
    "Copc.C40_never_misses"
   ],
   "note": "C40_exact: on files whose points lie in their nodes' boxes the answer is, node by node, exactly the points in the box of the nodes down to the requested depth (order within a node and multiplicity kept); C40_never_misses drops the premise; C40_allPoints for GetAllPoints. boxFile_ok: the hypotheses hold for a two-page file written by the library."
  },
  {
   "property": "C41",
   "status": "proved",
   "theorems": [
    "Copc.C41_within",
    "Copc.C41_intersect",
    "Copc.C41_within_grows",
    "Copc.C41_intersect_grows",
    "Copc.C41_maxBox"
   ],
   "note": "All good files, histories, boxes (NaN included) and resolutions."
  },
  {
   "property": "C42",
   "status": "partial",
   "theorems": [
    "Copc.C42_valid",
    "Copc.C42_verbose_partial",
    "Copc.C42_verbose_violated"
   ],
   "note": "C42_valid: the non-verbose check is exact. The verbose flag: same verdict when the nodes have fewer than 2^31 points in all (C42_verbose_partial); otherwise the int counters can overflow (C42_verbose_violated: a file written by the library)."
  },
  {
   "property": "C43",
   "status": "partial",
   "theorems": [
    "Copc.C43_compressed_partial",
    "Copc.C43_points_partial",
    "Copc.C43_short",
    "Copc.C43_poisoned",
    "Copc.C43_poisoned_points",
    "Copc.C43_violated"
   ],
   "note": "False in general: C43_violated (file written by the library; a read past the end returns normally, after it an intact node reads as zeros), C43_poisoned (every later compressed read of every node is zeros). Proved: while no read has run past the end, intact nodes read correctly after any calls (C43_compressed_partial, C43_points_partial)."
  },
  {
   "property": "C44",
   "status": "partial",
   "theorems": [
    "Copc.C44_add_partial",
    "Copc.C44_close_partial",
    "Copc.C44_failed_violated"
   ],
   "note": "Additions and Close on a stream that starts healthy throw whenever the stream cannot take the bytes; a second addition on an already failed stream is accepted (witness). Buffering between ostream and disk is not modelled."
  },
  {
   "property": "C45",
   "status": "partial",
   "theorems": [
    "Copc.C45_fetch",
    "Copc.C45_fetch_vlr",
    "Copc.C45_fetch_evlr",
    "Copc.C45_fetch_none",
    "Copc.C45_wkt_partial",
    "Copc.C45_wkt_none",
    "Copc.C45_wkt_vlr",
    "Copc.C45_violated"
   ],
   "note": "FetchVlr is proved for every VLR table; the WKT string is returned exactly when stored as an EVLR (C45_wkt_partial) or absent; stored as a VLR it is returned shifted by six bytes, because ReadWktVlr always assumes a 60-byte header (C45_violated)."
  },
  {
   "property": "C46",
   "status": "proved",
   "theorems": [
    "Copc.C46_empty",
    "Copc.C46_mismatch",
    "Copc.C46_zero",
    "Copc.C46_append",
    "Copc.C46_closed",
    "Copc.C46_outcome",
    "Copc.C46_again",
    "Copc.C46_too_large",
    "Copc.C46_write_after_close_violated",
    "Copc.C46_undescribed_violated"
   ],
   "note": "All histories of WritePoints/WritePointsCompressed with header edits in between; C46_too_large shows why the clause on chunks over 2^31-1 bytes is needed; C46_outcome: Close returns for every consistent configuration. Findings: a write after Close is accepted and overwrites the chunk table pointer; undescribed extra bytes make Close throw."
  },
  {
   "property": "C47",
   "status": "partial",
   "theorems": [
    "Copc.C47_exact",
    "Copc.C47_partial",
    "Copc.C47_reader_partial",
    "Copc.C47_violated"
   ],
   "note": "Exact condition proved (C47_exact): the read overruns iff the record is longer than 255 bytes; C47_violated exhibits a library-written file whose records are 256 bytes; holds whenever a record fits in 255 bytes."
  },
  {
   "property": "C48",
   "status": "partial",
   "theorems": [
    "Copc.C48_node_partial",
    "Copc.C48_page",
    "Copc.C48_count_violated"
   ],
   "note": "Every addition whose count is not -1 is read back as a node, every page entry as a page; AddNodeCompressed with count -1 is refuted by a witness."
  },
  {
   "property": "C49",
   "status": "proved",
   "theorems": [
    "Copc.C49_written",
    "Copc.C49_file",
    "Copc.C49_laz",
    "Copc.C49_runs",
    "Copc.C49_chunk_size"
   ],
   "note": "All schedules, worker assignments and chunk sizes: C49_written (what is done with the writer), C49_file (the closed file read back), C49_laz (LAZ output), C49_runs (runs exist), C49_chunk_size (size 0 raises, a negative size silently processes nothing). The transform function is a function of the node and its points; a worker crash, the completion callback and return values are not modelled."
  },
  {
   "property": "C50",
   "status": "proved",
   "theorems": [
    "Copc.C50_overrides",
    "Copc.C50_format",
    "Copc.C50_length_kept"
   ],
   "note": "All 2^6 override combinations from any consistent configuration. Without overrides the record length is taken over rather than recomputed (C50_length_kept), so for an inconsistent source it need not match."
  },
  {
   "property": "C51",
   "status": "partial",
   "theorems": [
    "Copc.C51_violated",
    "Copc.C51_near_partial"
   ],
   "note": "Refuted by a witness; proved that the angle moves by at most one step toward zero."
  },
  {
   "property": "C52",
   "status": "partial",
   "theorems": [
    "Copc.C52_array_set_partial",
    "Copc.C52_array_set_rgb_partial",
    "Copc.C52_array_reject",
    "Copc.C52_alias_violated",
    "Copc.C52_pointSourceId_violated",
    "Copc.C52_pointSourceId_partial",
    "Copc.C52_within"
   ],
   "note": "Proved for distinct objects; PointSourceId and aliased objects are refuted by witnesses."
  },
  {
   "property": "C53",
   "status": "partial",
   "theorems": [
    "Copc.C53_data_partial",
    "Copc.C53_kept_partial",
    "Copc.C53_add_violated",
    "Copc.C53_unreadable_violated",
    "Copc.C53_retry_violated"
   ],
   "note": "Proved: no sequence of Close attempts, configuration edits and page moves changes the stored data of any node (C53_data_partial); a failed Close leaves the writer open with its nodes, pages and configuration (C53_kept_partial). The full property is false of the code: a repeated Close returns but writes a wrong chunk table and EVLR count (C53_retry_violated), the file cannot be opened (C53_unreadable_violated), and nodes added after a failed Close are overwritten (C53_add_violated)."
  },
  {
   "property": "C54",
   "status": "proved",
   "theorems": [
    "Copc.C54_concat",
    "Copc.C54_map",
    "Copc.C54_runs"
   ],
   "note": "All schedules: C54_concat, C54_map; C54_runs: runs exist. Keys stand for their strings in the dictionary."
  },
  {
   "property": "C55",
   "status": "proved",
   "theorems": [
    "Copc.C55_metadata",
    "Copc.C55_data",
    "Copc.C55_points"
   ],
   "note": "For every storable configuration with records of at most 255 bytes (C47), any history of WritePoints and WritePointsCompressed calls (no chunk over 2^31-1 bytes) and the first GetPointData/GetPoints on a newly opened reader; lazperf's chunk-wise file reader is part of the external model. Later calls on the same reader are not modelled."
  },
  {
   "property": "C56",
   "status": "proved",
   "theorems": [
    "Copc.C56_roundtrip",
    "Copc.C56_refused",
    "Copc.C56_header",
    "Copc.C56_same_as_add"
   ],
   "note": "Vectors and header overloads, refusal, and equality with AddNode; lazperf's codec is the external model (lossless law)."
  },
  {
   "property": "C57",
   "status": "proved",
   "theorems": [
    "Copc.C57_get",
    "Copc.C57_set",
    "Copc.C57_slice",
    "Copc.C57_set_slice",
    "Copc.C57_selected_unique"
   ],
   "note": "Get, set, slices and slice assignment, all integers, sizes below 2^63; the CPython slice arithmetic is modelled. That assignments do not check the format of points is C17_setitem_violated."
  },
  {
   "property": "C58",
   "status": "partial",
   "theorems": [
    "Copc.C58_bytes",
    "Copc.C58_key",
    "Copc.C58_node",
    "Copc.C58_vector",
    "Copc.C58_header_partial",
    "Copc.C58_guid_violated"
   ],
   "note": "Byte vectors, keys, nodes and vectors always; headers when GUID, system identifier and software are UTF-8. Missing: other strings (binary GUIDs): the header then cannot be pickled at all (C58_guid_violated)."
  },
  {
   "property": "C59",
   "status": "proved",
   "theorems": [
    "Copc.C59_text",
    "Copc.C59_eq",
    "Copc.C59_hash"
   ],
   "note": "Text injectivity by decimal digits, equality, hash; used by C54_map."
  },
  {
   "property": "C60",
   "status": "partial",
   "theorems": [
    "Copc.C60_entry",
    "Copc.C60_vector",
    "Copc.C60_extent",
    "Copc.C60_descriptor_partial",
    "Copc.C60_descriptor_violated",
    "Copc.C60_node_violated"
   ],
   "note": "Entries, vectors, extents exactly. Missing: the numbers of extra-byte descriptors are compared by three bytes only (C60_descriptor_violated) and nodes are compared without their page key (C60_node_violated)."
  },
  {
   "property": "C61",
   "status": "partial",
   "theorems": [
    "Copc.C61_unclosed",
    "Copc.C61_unclosed_whole",
    "Copc.C61_closing_partial",
    "Copc.C61_descriptor_violated",
    "Copc.C61_header",
    "Copc.C61_findNode",
    "Copc.C61_allNodes",
    "Copc.C61_compressed",
    "Copc.C61_data",
    "Copc.C61_points"
   ],
   "note": "C61_unclosed(_whole): before Close is called the file is always refused, wherever the output ends. C61_closing_partial: during Close, a file that is accepted is the finished file but for zeros from some byte j >= 394 to the end of the header area. C61_header, C61_findNode, C61_allNodes, C61_compressed, C61_data, C61_points: if the first 589 bytes (header and COPC info) are in place and the stream is good after opening, header, info, nodes and points are read as from the finished file, for every key and after any calls. The rest of the claim is false of the code: C61_descriptor_violated (accepted, the extra-byte descriptor has type 0 instead of 1). Not covered: gaps that begin inside the info VLR; whether lazperf's own reader refuses those (its LASZIP VLR is then missing) is outside the model."
  },
  {
   "property": "C62",
   "status": "proved",
   "theorems": [
    "Copc.C62_copies",
    "Copc.C62_same_nodes",
    "Copc.C62_own_config",
    "Copc.C62_same_points",
    "Copc.C62_listing"
   ],
   "note": "The copying loop of the examples (Spec/Copy.lean) over the models of the reader and the writer. C62_copies: no call is refused; C62_same_nodes: exactly the selected nodes, same bytes, counts and pages, nothing else; C62_same_points: same points (records of at most 255 bytes, see C47; nodes whose bytes really are compressed records); C62_own_config: the writer given the reader's configuration meets its hypotheses. The file copied from is one written by the library (Written); pages of the writer below 2^31 - 1 and files below 2^63 bytes."
  },
  {
   "property": "C63",
   "status": "proved",
   "theorems": [
    "Copc.C63_destroy",
    "Copc.C63_destroy_closed",
    "Copc.C63_destroy_laz",
    "Copc.C63_file_close",
    "Copc.C63_file_final",
    "Copc.C63_file_destroy",
    "Copc.C63_laz_file"
   ],
   "note": "C63_destroy(_closed/_laz), C63_file_close/final/destroy, C63_laz_file: for all writers and histories; a closed fstream is modelled as a failed stream (takes nothing, position -1)"
  },
  {
   "property": "C64",
   "status": "partial",
   "theorems": [
    "Copc.C64_again",
    "Copc.C64_again_laz",
    "Copc.C64_destroy_partial",
    "Copc.C64_terminates_violated",
    "Copc.C64_file_violated",
    "Copc.C64_laz_violated"
   ],
   "note": "C64_again(_laz): the same exception again, for every writer and stream; C64_destroy_partial: the destructor returns exactly when Close would. The second half of the claim is false, for every writer: C64_terminates_violated, C64_file_violated, C64_laz_violated (destructors are noexcept and call Close again)"
  },
  {
   "property": "C65",
   "status": "partial",
   "theorems": [
    "Copc.C65_laz",
    "Copc.C65_unopened_partial",
    "Copc.C65_refused_violated",
    "Copc.C65_format_violated",
    "Copc.C65_header_violated"
   ],
   "note": "holds for LazFileWriter (C65_laz) and for paths that cannot be opened (C65_unopened_partial); false for every refused FileWriter (C65_refused_violated, C65_format_violated: the file is emptied first) and for hand-made headers of another format (C65_header_violated: std::terminate)"
  },
  {
   "property": "C66",
   "status": "proved",
   "theorems": [
    "Copc.C66_converts",
    "Copc.C66_points",
    "Copc.C66_records"
   ],
   "note": "The conversion loop (Spec/ToLaz.lean) over the models of reader and LazWriter. C66_converts: no call is refused and the file has the metadata; C66_points: GetPoints of the LAZ file is the concatenation of GetPoints of the nodes (records of at most 255 bytes, C47; nodes whose bytes are compressed records); C66_records: nodes of files to which nothing was added with AddNodeCompressed are such."
  },
  {
   "property": "C67",
   "status": "proved",
   "theorems": [
    "Copc.C67_same"
   ],
   "note": "C67_same: same state of the writer as the loop of C62, whose theorems then say what the file is. Records of at most 255 bytes (C47), at most 2^31-1 bytes a node (C56), same format and record length."
  },
  {
   "property": "C68",
   "status": "proved",
   "theorems": [
    "Copc.C68_filter"
   ],
   "note": "C68_filter, for any test. Hypotheses: nodes hold compressed records of at most 255 bytes, the writer has the reader's format, record length, scale and offset, the scale is good (C13), the loop and Close return (an addition of more than 2^31-1 bytes throws)."
  },
  {
   "property": "C69",
   "status": "partial",
   "theorems": [
    "Copc.C69_trim_partial",
    "Copc.C69_example_violated"
   ],
   "note": "C69_trim_partial for the loop with a check that a point is left; C69_example_violated: the loop of the example as it is throws on a node that meets the box without having a point in it. Missing: nothing else; hypotheses as C68, and the points of each node lie in its box."
  },
  {
   "property": "C70",
   "status": "proved",
   "theorems": [
    "Copc.C70_make",
    "Copc.C70_make_laz",
    "Copc.C70_calls",
    "Copc.C70_calls_laz",
    "Copc.C70_close",
    "Copc.C70_close_laz",
    "Copc.C70_file",
    "Copc.C70_file_laz",
    "Copc.C70_same",
    "Copc.C70_same_laz"
   ],
   "note": "C70_make, C70_calls, C70_close, C70_file and the same for LAZ: FileWritten gives Written (the hypothesis of C26-C35, C40-C43, C62, C66-C69); C70_same: conversely"
  },
  {
   "property": "C71",
   "status": "partial",
   "theorems": [
    "Copc.C71_make",
    "Copc.C71_round_trip",
    "Copc.C71_close",
    "Copc.C71_closed_partial",
    "Copc.C71_data_violated",
    "Copc.C71_find_violated",
    "Copc.C71_leak_violated",
    "Copc.C71_laz",
    "Copc.C71_laz_violated"
   ],
   "note": "Proved: C71_make, C71_round_trip, C71_close, C71_laz, and C71_closed_partial (hierarchy queries after GetAllNodes and Close, on files with an intact hierarchy). Violated: data of any node or an unread page after Close is undefined (C71_data_violated, C71_find_violated); a throwing constructor leaves the file open (C71_leak_violated)."
  },
  {
   "property": "C72",
   "status": "partial",
   "theorems": [
    "Copc.C72_opens_partial",
    "Copc.C72_value",
    "Copc.C72_points",
    "Copc.C72_compressed",
    "Copc.C72_open_violated"
   ],
   "note": "C72_opens_partial, C72_value, C72_points, C72_compressed: for every written file, every cut and every history of successful calls (after each of which the stream is good) what the cut file returns is what the whole file returns. Not true: that the constructor throws when it does not succeed; C72_open_violated gives a cut for which it reads uninitialised memory. A history that contains calls that threw is not covered."
  },
  {
   "property": "C73",
   "status": "proved",
   "theorems": [
    "Copc.C73_opens",
    "Copc.C73_value",
    "Copc.C73_nodes"
   ],
   "note": "For every file that opens leaving the stream good (every written file does: C33_opens). Histories consist of successful calls."
  },
  {
   "property": "C74",
   "status": "proved",
   "theorems": [
    "Copc.C74_accepted",
    "Copc.C74_only",
    "Copc.C74_find"
   ],
   "note": "C74_accepted (if), C74_only (only if; hypothesis: file shorter than 2^63 bytes), C74_find; configurations whose header is consistent with its extra bytes (every one a constructor makes)"
  },
  {
   "property": "C75",
   "status": "partial",
   "theorems": [
    "Copc.C75_opens_partial",
    "Copc.C75_findNode_partial",
    "Copc.C75_allNodes_partial",
    "Copc.C75_compressed_partial",
    "Copc.C75_violated",
    "Copc.C75_count_violated"
   ],
   "note": "C75_opens/findNode/allNodes/compressed_partial for histories in which every key is always added with the same page and no node is moved. Violated: with another page the file has both nodes (C75_violated); replaced points stay counted in the header (C75_count_violated)."
  },
  {
   "property": "C76",
   "status": "partial",
   "theorems": [
    "Copc.C76_means",
    "Copc.C76_step",
    "Copc.C76_frame",
    "Copc.C76_laz_partial",
    "Copc.C76_program_partial",
    "Copc.C76_family",
    "Copc.C76_violated"
   ],
   "note": "C76_step, C76_frame: true of all COPC objects in all programs, and of every action but edits of LAZ headers. C76_laz_partial, C76_family say exactly which LAZ objects an edit changes; C76_program_partial covers whole programs. C76_violated: two LazWriters made of one LazConfigWriter share their header."
  },
  {
   "property": "C77",
   "status": "partial",
   "theorems": [
    "Copc.C77_before_close",
    "Copc.C77_same_partial",
    "Copc.C77_laz_same_partial",
    "Copc.C77_violated",
    "Copc.C77_position_violated"
   ],
   "note": "C77_before_close: same outcomes, same bytes followed by the rest of the old data, for every old content and history. C77_same_partial, C77_laz_same_partial: the same writer state, hence the same file, once as much has been written as the stream held. Not true otherwise: C77_violated (longer old data stay in the file), C77_position_violated (a stream not at its start)."
  },
  {
   "property": "C78",
   "status": "partial",
   "theorems": [
    "Copc.C78_depth",
    "Copc.C78_again_partial",
    "Copc.C78_reached_partial",
    "Copc.C78_violated"
   ],
   "note": "C78_depth: the nodes and the depth of the trimmed file, for every resolution. That the new file reaches the resolution and answers with the same depth (C78_again_partial, C78_reached_partial) needs a node at that depth; C78_violated: without one it is false."
  },
  {
   "property": "C79",
   "status": "proved",
   "theorems": [
    "Copc.C79_closes",
    "Copc.C79_good_use",
    "Copc.C79_constructors",
    "Copc.C79_from_scratch",
    "Copc.C79_laz"
   ],
   "note": "From the inputs only: no outcome of a call is a hypothesis. C79_from_scratch starts from the arguments of CopcConfigWriter (good argument and edit conditions in Spec/GoodUse.lean), C79_good_use from a writer. C79_closes: Close returns after any history of fewer than 2^25 calls with pages of the octree and ordered bounds. The bound 2^25 keeps every hierarchy page below 2^31 bytes; file below 2^63 bytes. C79_laz is the same for LazWriter/LazReader, first GetPoints of the reader, fewer than 2^31 points."
  },
  {
   "property": "C80",
   "status": "proved",
   "theorems": [
    "Copc.C80_pack",
    "Copc.C80_from_header",
    "Copc.C80_program",
    "Copc.C80_laz"
   ],
   "note": "No outcome of a call is assumed; records of at most 255 bytes (C47), fewer than 2^25 nodes, file below 2^63 bytes, chunks of at most 2^31-1 bytes before and after compression. C80_laz: first GetPoints of the LAZ reader."
  },
  {
   "property": "C81",
   "status": "partial",
   "theorems": [
    "Copc.C81_first",
    "Copc.C81_empty_partial",
    "Copc.C81_later_violated",
    "Copc.C81_written_violated"
   ],
   "note": "The property is false for every LAZ file with points (C81_later_violated, C81_written_violated); it holds for files without points (C81_empty_partial). Rests on the bookkeeping of lazperf's readPoint (external): a reader goes forward through its chunk table and is not rewound by a seek of the stream."
  },
  {
   "property": "C82",
   "status": "proved",
   "theorems": [
    "Copc.C82_header",
    "Copc.C82_nodes",
    "Copc.C82_points",
    "Copc.C82_evlrs",
    "Copc.C82_vlrs"
   ],
   "note": "Header and info VLR by position (C82_header), hierarchy (C82_nodes), extended VLRs (C82_evlrs), VLR payloads (C82_vlrs; which VLRs there are: C20), number of points, point data offset and chunks (C82_points). C82_points assumes that no addition was refused for size (NoneTooLarge: a refused one leaves bytes behind, see C28/C31) and fewer than 2^64 points. The LASzip VLR and the chunk table's own encoding are lazperf's (external)."
  },
  {
   "property": "C83",
   "status": "partial",
   "theorems": [
    "Copc.C83_legacy_partial",
    "Copc.C83_legacy_violated"
   ],
   "note": "What the legacy fields hold is proved (C83_legacy_partial); the property itself is false: C83_legacy_violated."
  },
  {
   "property": "C84",
   "status": "proved",
   "theorems": [
    "Copc.C84_header",
    "Copc.C84_points",
    "Copc.C84_records"
   ],
   "note": "Header (C84_header), number of points, chunk table position and chunks (C84_points), VLRs and extended VLRs (C84_records). Compression inside a chunk and inside the chunk table is lazperf's (external)."
  },
  {
   "property": "C85",
   "status": "partial",
   "theorems": [
    "Copc.C85_calls_partial",
    "Copc.C85_file_partial",
    "Copc.C85_violated",
    "Copc.C85_laz_violated"
   ],
   "note": "Copies share one file. Proved: while a copy is left, a program on copies is a history of one writer with a Close per destroyed copy, and when copies are destroyed only after the last call the file is the one Close of a single writer leaves. False in general (C85_violated): destroying any copy closes the file for the others. False for LazWriter copies (C85_laz_violated)."
  },
  {
   "property": "C86",
   "status": "partial",
   "theorems": [
    "Copc.C86_partial",
    "Copc.C86_violated"
   ],
   "note": "Proved: the file's extents agree with its header exactly if the program made them agree. False in general (C86_violated): ToLazPerf ignores the bounds it is given."
  },
  {
   "property": "C87",
   "status": "partial",
   "theorems": [
    "Copc.C87_alone_partial",
    "Copc.C87_findNode_partial",
    "Copc.C87_points_partial",
    "Copc.C87_violated"
   ],
   "note": "Proved for all schedules in which no call leaves the stream failed, for all files; with corollaries for nodes and points of written files. Calls at the same time (threads) are not modelled. False in general (C87_violated): the failure state is shared."
  },
  {
   "property": "C88",
   "status": "partial",
   "theorems": [
    "Copc.C88_open_partial",
    "Copc.C88_opened_partial",
    "Copc.C88_points_partial",
    "Copc.C88_violated"
   ],
   "note": "C88_open_partial, C88_opened_partial, C88_points_partial: for conforming files that also meet Format.Suits (text fields of the header have a terminating zero, WKT is an extended VLR, the other records looked for are VLRs). Missing: conforming files outside Suits, for which the claim is false (C88_violated: GUID without a zero byte). Foreign.bytes1 is a file the library does not write."
  },
  {
   "property": "C89",
   "status": "partial",
   "theorems": [
    "Copc.C89_read_partial",
    "Copc.C89_violated"
   ],
   "note": "Proved for every file that meets Format.SuitsLas (text fields with a terminating zero, WKT in an extended VLR, extra-byte descriptors in a VLR, int-sized counts) and has records of at most 255 bytes, with chunks of varying sizes or of one size. Without SuitsLas the claim is false: C89_violated (GUID of 16 non-zero bytes)."
  },
  {
   "property": "C90",
   "status": "partial",
   "theorems": [
    "Copc.C90_copy_partial",
    "Copc.C90_empty_violated",
    "Copc.C90_extents_violated"
   ],
   "note": "C90_copy_partial: for conforming files that meet Format.Suits, with an extents VLR or no extra bytes, extra-byte items that fit a VLR, bounds in order, selected nodes with at least one point and chunks inside the file, fewer than 2^25 of them; records of at most 255 bytes for points. Without these the claim is false: C90_empty_violated (every file with a node of 0 points), C90_extents_violated (extra bytes, no extents VLR)."
  },
  {
   "property": "C91",
   "status": "partial",
   "theorems": [
    "Copc.C91_convert_partial",
    "Copc.C91_empty_violated"
   ],
   "note": "C91_convert_partial: for conforming files that meet Format.Suits (no extents VLR needed), with extra-byte items that fit the records, selected nodes that hold at least one record, chunks inside the file, records of at most 255 bytes, fewer than 2^31 in all. Without points in a selected node the claim is false: C91_empty_violated (every file with a node of 0 points)."
  },
  {
   "property": "C92",
   "status": "partial",
   "theorems": [
    "Copc.C92_filter_partial",
    "Copc.C92_trim_partial"
   ],
   "note": "C92_filter_partial, C92_trim_partial: for conforming files that meet Format.Suits, with an extents VLR or without extra bytes (otherwise C90_extents_violated), items that fit, bounds in order, fewer than 2^25 nodes that are Selectable (at least one record, chunk inside the file, raw size and compressed selection within 2^31-1 bytes), records of at most 255 bytes and a scale that gives the stored integers back (GoodScale, C13); the trim also needs the points of a node in its box. The example without the check for empty selections throws: C69_example_violated."
  },
  {
   "property": "C93",
   "status": "partial",
   "theorems": [
    "Copc.C93_map_partial",
    "Copc.C93_format_partial",
    "Copc.C93_rescale_partial"
   ],
   "note": "C93_map_partial (any function and writer configuration), C93_format_partial (ToPointFormat to format 6, 7 or 8), C93_rescale_partial (another scale and offset): for conforming files; nodes may be empty, all others have their chunk inside the file; records of at most 255 bytes in both files (C47), fewer than 2^25 nodes, the made points can be written (GoodPoints: same format and record length as the writer, coordinates fit its scale, at most 2^31-1 bytes per node). Format and rescale also ask what C90 asks of the configuration (Format.Suits, items that fit, bounds in order, extents VLR or no extra bytes); format also a scale that gives the stored integers back (C13)."
  },
  {
   "property": "C94",
   "status": "partial",
   "theorems": [
    "Copc.C94_place_partial"
   ],
   "note": "C94_place_partial: for LAZ files that C89 reads (terminated text fields, WKT as extended VLR, chunks of varying or of one size), records of at most 255 bytes (C47), fewer than 2^31 points, extra-byte descriptors that add up to the record length (LazItemsFit), a scale that gives the stored integers back (C13); keys distinct, valid, at or below their page, fewer than 2^25, at most 2^31-1 bytes per key before and after compression; edits within PublicEdit/GoodEdits; file below 2^63 bytes. Missing: files outside these conditions (C89_violated, C47_violated are the witnesses for two of them)."
  },
  {
   "property": "C95",
   "status": "proved",
   "theorems": [
    "Copc.C95_records",
    "Copc.C95_points"
   ],
   "note": "C95_records: GetPointData; C95_points: GetPoints. Restrictions as stated (records of at most 255 bytes, cf. C47; no addition failed as too large); first read of the reader; lazperf through its structure laws."
  },
  {
   "property": "C96",
   "status": "proved",
   "theorems": [
    "Copc.C96_copc",
    "Copc.C96_laz",
    "Copc.C96_laz_refused"
   ],
   "note": "C96_copc, C96_laz (all bytes), C96_laz_refused. The statement is about streams opened from their start; lazperf's own checks (signature) are not modelled and can only refuse more. Restricted to user ids that fit the field."
  },
  {
   "property": "C97",
   "status": "proved",
   "theorems": [
    "Copc.C97_order",
    "Copc.C97_refused",
    "Copc.C97_laz_refused"
   ],
   "note": "C97_refused, C97_laz_refused (histories, any outcome), C97_order (files that were written). The two exceptions after the chunk is written are the finding of C28. Entries inside a page and pages do change places with the order: shown in Props/SameFileSample."
  },
  {
   "property": "C98",
   "status": "proved",
   "theorems": [
    "Copc.C98_records",
    "Copc.C98_points"
   ],
   "note": "C98_records (same records in the same chunks, packed or compressed), C98_points (points of GetPoints in groups of the chunk sizes). Hypotheses: both runs are files that were written (LazWritten), the second without edits of its configuration (hcfg; edits change the file on purpose). Non-vacuity: Props/LazRewriteSample rewrites the sample file, one chunk of which was given as compressed data."
  },
  {
   "property": "C99",
   "status": "proved",
   "theorems": [
    "Copc.C99_again",
    "Copc.C99_chunks",
    "Copc.C99_additions",
    "Copc.C99_points",
    "Copc.C99_data"
   ],
   "note": "C99_again (the same calls with the reader's configuration: same outcomes, same file), C99_chunks (every addition replaced by AddNodeCompressed of the chunk of the file), C99_data (by AddNode of the bytes of GetPointData), C99_points (by AddNode of the points of GetPoints), C99_additions (by any additions of the same data, node by node): same file. Hypotheses: the file is Written (C33: no key used twice, no node moved more than once, fields fit); data and points: records of at most 255 bytes (C47), nodes that hold compressed records (always so for AddNode; for AddNodeCompressed a condition on the data given), at most 2^31-1 bytes per node; points: a scale and offset with which coordinates come back exactly (C11). Same iteration order of the hash containers in both runs; for different orders see C97. With C97_refused the rejected calls can be left out. Witnesses: the sample program with three additions and a move; a program reading and writing points."
  },
  {
   "property": "C100",
   "status": "proved",
   "theorems": [
    "Copc.C100_copcChunks",
    "Copc.C100_copc",
    "Copc.C100_open",
    "Copc.C100_laz",
    "Copc.C100_chunks"
   ],
   "note": "All files of both writers, from storable configurations (C20, C35). The formats' rules that the files do not keep (legacy point count, C83; extents, findings) are not in this description, which has what readers need."
  }
 ]
}