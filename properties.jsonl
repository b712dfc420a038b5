{"id": "C01", "title": "Children and parents are inverse", "statement": "For every valid VoxelKey whose children fit in int32, GetChildren returns exactly eight pairwise distinct keys, each one has the key as GetParent, and every valid key whose GetParent is the key is one of those eight. If a child index does not fit in int32 the call is undefined behaviour, never a wrong key.", "quantifier": "all int32 quadruples (d,x,y,z) and all eight directions", "why_tests_cant": "2^128 keys; the failure would be at a particular coordinate or overflow boundary", "anchors": ["cpp/src/hierarchy/key.cpp:Bisect,GetChildren,GetParent"]}
{"id": "C02", "title": "Ancestor list is complete, ordered and terminates", "statement": "GetParents(include_self) of a valid key of depth d returns exactly the d ancestors (plus the key itself when asked) from nearest to depth 0, the i-th one being the coordinates shifted right by i; for an invalid key it is empty; the loop always terminates.", "quantifier": "all int32 keys, both values of include_self", "why_tests_cant": "termination and completeness for every depth cannot be sampled", "anchors": ["cpp/src/hierarchy/key.cpp:GetParents,GetParent"]}
{"id": "C03", "title": "ChildOf is the octree ancestor order", "statement": "a.ChildOf(b) is true exactly when a is valid, 0<=b.d<=a.d and b's coordinates are a's coordinates shifted right by a.d-b.d. Hence it is reflexive on valid keys, transitive and antisymmetric, and on keys inside the octree everything is a child of the root.", "quantifier": "all pairs (triples) of int32 keys", "why_tests_cant": "relation over 2^256 pairs", "anchors": ["cpp/src/hierarchy/key.cpp:ChildOf"]}
{"id": "C04", "title": "GetParentAtDepth agrees with walking up", "statement": "For a valid key and 0<=depth<=d, GetParentAtDepth(depth) is the element of GetParents(true) at that depth whenever d-depth<=30; for depth<0 or depth>d it throws; for an invalid key it returns the invalid key. (For d-depth>=31 the float to int conversion is undefined behaviour.)", "quantifier": "all keys and depths", "why_tests_cant": "the disagreement lives at a 2^31 boundary no test reaches", "anchors": ["cpp/src/hierarchy/key.cpp:GetParentAtDepth"]}
{"id": "C05", "title": "Keys inside the octree stay inside", "statement": "If a key lies in the octree (0<=x,y,z<2^d) with d<=30 then all its children and all its ancestors do too and no arithmetic overflow happens while computing them.", "quantifier": "all keys with d<=30", "why_tests_cant": "unbounded set of keys", "anchors": ["cpp/src/hierarchy/key.cpp:Bisect,GetParent"]}
{"id": "C06", "title": "Hierarchy entry byte round trip", "statement": "Entry.Pack emits exactly 32 bytes and Entry.Unpack of those bytes (with anything after them) returns an entry equal in key, offset, byte size and point count and leaves the stream just after them; distinct entries have distinct encodings.", "quantifier": "all keys, offsets (uint64), sizes and counts (int32), all trailing bytes", "why_tests_cant": "2^256 entries", "anchors": ["cpp/include/copc-lib/hierarchy/entry.hpp:Pack,Unpack"]}
{"id": "C07", "title": "A truncated hierarchy page is never silently accepted", "statement": "If the file ends inside a hierarchy page, reading that page never returns a list of entries as if nothing happened: it throws, or (when the cut falls in the last 16 bytes of an entry) it reads indeterminate values, which the model reports as undefined behaviour.", "quantifier": "all page contents and every truncation point (crash point)", "why_tests_cant": "crash points x contents", "anchors": ["cpp/src/io/copc_reader.cpp:ReadPage", "cpp/include/copc-lib/hierarchy/entry.hpp:Unpack"]}
{"id": "C08", "title": "Box predicates mean what they say", "statement": "For boxes accepted by the constructor with non-NaN corners: Contains(point) iff every coordinate is between min and max inclusive; Contains(box) iff every point of the other box is in this one; Within is the converse; Intersects iff some point lies in both boxes; Intersects is symmetric; any NaN coordinate makes containment false. Constructors reject min>max.", "quantifier": "all boxes and all points over IEEE doubles including infinities and NaN", "why_tests_cant": "2^768 box pairs", "anchors": ["cpp/src/geometry/box.cpp:Intersects,Contains,Within,Box"]}
{"id": "C09", "title": "Node boxes nest along the octree", "statement": "In exact arithmetic the box of a child key is inside the box of its parent and the eight child boxes cover the parent's box; hence a node's points, if inside its box, are inside the box of every ancestor. In IEEE arithmetic, for keys of the octree and a span that stays a normal number after the halvings, the low corner of a child is never below that of its parent, and its high corner exceeds that of its parent by at most 2^-50 times the size of the coordinates (rounding).", "quantifier": "all keys and all header bounds", "why_tests_cant": "unbounded", "anchors": ["cpp/src/geometry/box.cpp:Box(VoxelKey,LasHeader)", "cpp/include/copc-lib/las/header.hpp:Span"]}
{"id": "C10", "title": "Within a box implies intersecting it", "statement": "For every key and header with finite min<=max bounds and non-negative span, if the node box is within a query box then it also intersects it; hence GetNodesWithinBox is a sublist of GetNodesIntersectBox for the same resolution, and Crosses is Intersects minus Within.", "quantifier": "all keys, headers, boxes over IEEE doubles", "why_tests_cant": "rounding corner cases", "anchors": ["cpp/src/hierarchy/key.cpp:Intersects,Within,Crosses", "cpp/src/io/copc_reader.cpp:GetNodesWithinBox,GetNodesIntersectBox"]}
{"id": "C11", "title": "Rewriting points is lossless", "statement": "For every point record, unpacking it with a scale and offset and packing it again with the same scale and offset gives the identical bytes, in IEEE double arithmetic, whenever 2^-1000<=|scale|<=2^900 and |offset|<=2^51*|scale|.", "quantifier": "all records of formats 6-8 with any number of extra bytes, all scales and offsets in that range", "why_tests_cant": "2^32 integers x 2^128 scale/offset pairs, rounding", "anchors": ["cpp/include/copc-lib/las/utils.hpp:ApplyScale,RemoveScale", "cpp/src/las/point.cpp:Pack,Unpack"]}
{"id": "C12", "title": "Out of range coordinates are rejected, not wrapped", "statement": "Packing a coordinate either stores the integer nearest to (value-offset)/scale as computed in IEEE arithmetic, or throws when it does not fit an int32; it never stores a wrapped integer. (NaN passes the range check: undefined behaviour.) The stored value differs from the exact quotient by at most a half plus the accumulated rounding error.", "quantifier": "all doubles value, scale, offset", "why_tests_cant": "2^192 inputs", "anchors": ["cpp/include/copc-lib/las/utils.hpp:RemoveScale"]}
{"id": "C13", "title": "Header inverse scaling inverts header scaling", "statement": "LasHeader.ApplyInverseScale(ApplyScale(v)) gives back v (in exact arithmetic, for non-zero scale).", "quantifier": "all vectors, scales and offsets", "why_tests_cant": "universal over reals", "anchors": ["cpp/include/copc-lib/las/header.hpp:ApplyScale,ApplyInverseScale"]}
{"id": "C14", "title": "Packed point record layout", "statement": "Point.Pack writes exactly PointRecordLength bytes, in the LAS 1.4 field order for the point's format, and Point.Unpack consumes exactly that many bytes and recovers every field.", "quantifier": "all points, formats 6-8, any extra byte count", "why_tests_cant": "all field values", "anchors": ["cpp/src/las/point.cpp:Pack,Unpack", "cpp/src/las/utils.cpp:PointBaseByteSize"]}
{"id": "C15", "title": "Bit-field setters touch only their own bits", "statement": "Each of ReturnNumber, NumberOfReturns, Synthetic, KeyPoint, Withheld, Overlap, ScannerChannel, ScanDirectionFlag, EdgeOfFlightLineFlag reads back the value just set, leaves every other of these attributes unchanged, and rejects out-of-range values without any change.", "quantifier": "all initial bytes and all arguments", "why_tests_cant": "interaction of every pair of setters on all 2^16 states", "anchors": ["cpp/include/copc-lib/las/point.hpp"]}
{"id": "C16", "title": "Format-gated attributes and format conversion", "statement": "RGB access throws exactly on format 6 and NIR access exactly on formats 6 and 7; ToPointFormat changes only the format, record length and these gates, preserves every attribute and the extra bytes, and rejects formats outside 6-8 without change. A copy of a point equals the original for non-NaN finite coordinates.", "quantifier": "all points, all format ids", "why_tests_cant": "all states", "anchors": ["cpp/src/las/point.cpp:ToPointFormat,Point(const Point&)", "cpp/include/copc-lib/las/point.hpp:Red,Nir"]}
{"id": "C17", "title": "Point collections stay homogeneous", "statement": "After any sequence of collection operations (AddPoint, AddPoints, CreatePoint, ToPointFormat, array setters) all points of a Points object have its format and record length; a rejected AddPoint/AddPoints leaves the collection unchanged (all or nothing).", "quantifier": "all operation histories on a collection whose points are not mutated elsewhere", "why_tests_cant": "unbounded histories", "anchors": ["cpp/src/las/points.cpp:AddPoint,AddPoints,ToPointFormat"]}
{"id": "C18", "title": "Point array byte round trip", "statement": "Points.Unpack rejects every byte array whose size is not a multiple of the record length and otherwise yields size/length points in order; Points.Pack of the result gives back the same bytes; Pack length is Size*PointRecordLength.", "quantifier": "all byte arrays, formats, extra byte sizes", "why_tests_cant": "unbounded inputs", "anchors": ["cpp/src/las/points.cpp:Unpack,Pack"]}
{"id": "C19", "title": "LAS header round trip", "statement": "FromLazPerf(ToLazPerf(h)) succeeds for every header of format 6-8 and returns the same attributes (bounds, scale, offset, points by return, dates, source id, strings shorter than their field, format, record length), with the WKT bit set and the point count, point offset, EVLR offset and count given at writing.", "quantifier": "all headers", "why_tests_cant": "huge state space", "anchors": ["cpp/src/las/header.cpp:FromLazPerf,ToLazPerf"]}
{"id": "C20", "title": "Declared VLR count and legacy counts are right", "statement": "The VLR count put in the header equals the number of VLRs actually written for every configuration (extra bytes or not, extended stats or not, COPC or LAZ); the legacy point count is the point count when it fits 32 bits and 0 otherwise; extended stats on a non-COPC header are rejected.", "quantifier": "all configurations and counts", "why_tests_cant": "all combinations and 64-bit counts", "anchors": ["cpp/src/las/header.cpp:ToLazPerf", "cpp/src/io/laz_base_writer.cpp:WriteLazAndEbVlrs", "cpp/src/io/copc_writer_internal.cpp:WriteHeader"]}
{"id": "C21", "title": "Bounds tracking is exact", "statement": "After CheckAndUpdateBounds over any sequence of points without NaN coordinates the header bounds contain every point and the previous bounds, are the smallest such bounds, and do not depend on the order or repetition of the points.", "quantifier": "all sequences of points", "why_tests_cant": "unbounded sequences", "anchors": ["cpp/src/las/header.cpp:CheckAndUpdateBounds"]}
{"id": "C22", "title": "Extents VLR round trip", "statement": "Writing the extents (and, if enabled, extended stats) and reading them back with the same format and extra byte count restores every dimension's minimum and maximum (and mean and variance); a VLR with the wrong number of items is rejected.", "quantifier": "all extents of any number of dimensions", "why_tests_cant": "all doubles, all counts", "anchors": ["cpp/src/copc/extents.cpp:ToLazPerf,ToLazPerfExtended,SetExtendedStats,CopcExtents(vlr)", "cpp/src/las/vlr.cpp:CopcExtentsVlr::read,write"]}
{"id": "C23", "title": "Extents survive a format change", "statement": "Building extents for another point format keeps every dimension present in both formats under the same accessor, gives defaults to new dimensions, and copies the extra-byte extents exactly when their number is unchanged.", "quantifier": "all source/target formats and extra byte counts", "why_tests_cant": "index shifting errors on any combination", "anchors": ["cpp/src/copc/extents.cpp:CopcExtents(other,format,eb,stats)"]}
{"id": "C24", "title": "Extents constructors enforce order", "statement": "CopcExtent built from values has minimum<=maximum and variance>=0 or construction throws; the number of extents is 14/17/18 plus the number of extra byte items; ByteSize equals the number of bytes the VLR writes.", "quantifier": "all doubles and counts", "why_tests_cant": "all doubles", "anchors": ["cpp/src/copc/extents.cpp:CopcExtent,NumberOfExtents,ByteSize"]}
{"id": "C25", "title": "Extra-byte sizes follow the type table", "statement": "The extra byte count of a configuration is the sum over the extra-byte items of the LAS size of their data type (the option byte for type 0); the record length of a new configuration is the base size plus that sum (mod 2^16), and EbByteSize inverts it; data types above 30 are undefined behaviour.", "quantifier": "all item lists", "why_tests_cant": "unbounded lists", "anchors": ["cpp/src/las/vlr.cpp:NumBytesFromExtraBytes", "cpp/src/las/laz_config.cpp", "cpp/src/las/utils.cpp:EbByteSize,PointByteSize"]}
{"id": "C26", "title": "The reserved header area exactly fits", "statement": "For every configuration whose extra-byte items and record length agree, the header and VLRs written at Close occupy exactly the bytes reserved at construction, so they never overlap the chunk table pointer or point data; otherwise Close throws or leaves only zero padding.", "quantifier": "all configurations", "why_tests_cant": "all item counts, flags, formats", "anchors": ["cpp/src/io/copc_writer_internal.cpp:OffsetToPointData,WriteHeader", "cpp/src/io/laz_base_writer.cpp:OffsetToPointData"]}
{"id": "C27", "title": "Chunk data is never overwritten", "statement": "In any history of AddNode calls followed by Close, the bytes of each node are stored contiguously at the offset and size in the returned Node, node byte ranges are disjoint, and no later AddNode nor Close changes them.", "quantifier": "all histories of add operations then Close", "why_tests_cant": "unbounded histories", "anchors": ["cpp/src/io/laz_base_writer.cpp:WriteChunk,WriteChunkTable", "cpp/src/io/copc_writer_public.cpp:DoAddNode"]}
{"id": "C28", "title": "Rejected additions have no effect", "statement": "If AddNode/AddNodeCompressed throws because of invalid keys, a key outside the target page, an empty or misaligned array, a format mismatch or a zero count, then the writer's observable state and the output stream are unchanged.", "quantifier": "all writer states and arguments", "why_tests_cant": "all states", "anchors": ["cpp/src/io/copc_writer_public.cpp:AddNode,AddNodeCompressed,DoAddNode"]}
{"id": "C29", "title": "Moving a node between pages", "statement": "ChangeNodePage moves a node to the new page: afterwards the node is in exactly one page, the new one, the data and all other nodes are unchanged, empty non-root pages disappear; it throws on invalid or unknown keys and pages that are not ancestors.", "quantifier": "all writer states and all sequences of moves", "why_tests_cant": "history dependent state", "anchors": ["cpp/src/io/copc_writer_public.cpp:ChangeNodePage"]}
{"id": "C30", "title": "The page tree written at Close is a tree rooted at the root page", "statement": "At Close each existing page other than the root is attached to its nearest existing ancestor page, exactly once, and every page is reachable from the root, so each page is written exactly once and children before parents; Close throws exactly when some page key lies outside the octree.", "quantifier": "all sets of pages", "why_tests_cant": "unbounded page sets", "anchors": ["cpp/src/io/copc_writer_internal.cpp:ComputePageHierarchy,WritePageTree,WritePage"]}
{"id": "C31", "title": "Counts and chunk table are consistent", "statement": "At every moment the writer's point count is the sum of the point counts of the chunks (mod 2^64) and the chunk count is the number of successful writes; the chunk table written at Close has relative sizes whose running sums locate every chunk and whose total is the distance from the first chunk to the chunk table.", "quantifier": "all histories", "why_tests_cant": "unbounded histories", "anchors": ["cpp/src/io/laz_base_writer.cpp:WriteChunk,WriteChunkTable", "cpp/include/copc-lib/io/laz_writer.hpp:PointCount,ChunkCount"]}
{"id": "C32", "title": "A closed file is final", "statement": "Close is idempotent: closing again (including from the destructor) changes nothing; and no call after Close changes the file.", "quantifier": "all histories after Close", "why_tests_cant": "history", "anchors": ["cpp/src/io/copc_writer_internal.cpp:Close", "cpp/src/io/laz_base_writer.cpp:Close,WriteChunk", "cpp/src/io/copc_writer_public.cpp:DoAddNode"]}
{"id": "C33", "title": "COPC write/read round trip of the hierarchy", "statement": "For any history of successful AddNode/AddNodeCompressed calls with distinct keys and positive counts followed by Close, a Reader on the resulting bytes finds for every key exactly the node that was added (offset, size, count, page) and an invalid node for all other keys; GetAllNodes is a permutation of the nodes added; GetPageList is a permutation of the pages; GetPointDataCompressed returns the very bytes stored.", "quantifier": "all histories, all configurations, all container iteration orders", "why_tests_cant": "unbounded histories and orders", "anchors": ["cpp/src/io/copc_reader.cpp", "cpp/src/io/copc_base_io.cpp", "cpp/src/io/copc_writer_internal.cpp"]}
{"id": "C34", "title": "COPC write/read round trip of the points", "statement": "Under a lossless LAZ codec, GetPointData/GetPoints of a node read back from a closed file returns the records/points added (coordinates within half a scale step), and header PointCount is the total number of points.", "quantifier": "all points, all histories", "why_tests_cant": "unbounded", "anchors": ["cpp/src/io/copc_reader.cpp:GetPointData,GetPoints", "cpp/include/copc-lib/laz/compressor.hpp", "cpp/include/copc-lib/laz/decompressor.hpp"]}
{"id": "C35", "title": "COPC write/read round trip of the metadata", "statement": "Opening a file written by the Writer restores the LAS header attributes, COPC info, extents, WKT string and extra-byte definitions of the configuration.", "quantifier": "all configurations with at most 341 extra byte items and text that fits its fields", "why_tests_cant": "all configurations", "anchors": ["cpp/src/io/base_reader.cpp", "cpp/src/io/copc_reader.cpp:InitCopcReader"]}
{"id": "C36", "title": "Node lookup does not depend on history", "statement": "On a well-formed file FindNode(key) returns the same node whatever lookups, page listings or node listings were made before, and caching never changes an answer.", "quantifier": "all files, all histories of queries", "why_tests_cant": "all histories", "anchors": ["cpp/src/io/copc_base_io.cpp:FindNode,LoadPageHierarchy,ReadAndParsePage"]}
{"id": "C37", "title": "Hierarchy traversal terminates", "statement": "Every query of a Reader terminates on every file (damaged, truncated or not) none of whose pages refers to itself directly or indirectly; on a well-formed file a page once read is not read again: a repeated lookup, or any lookup or listing after GetAllNodes, does not touch the file. (On a file whose page refers to its own key FindNode never terminates.)", "quantifier": "all page graphs", "why_tests_cant": "termination", "anchors": ["cpp/src/io/copc_base_io.cpp:FindNode,LoadPageHierarchy"]}
{"id": "C38", "title": "Listing the children of a page", "statement": "GetAllChildrenOfPage(key) returns exactly the nodes of the page with that key and of its sub-pages, each once; the single node if only a node has that key; nothing for invalid or unknown keys; independent of earlier queries.", "quantifier": "all files, keys and histories", "why_tests_cant": "all histories", "anchors": ["cpp/src/io/copc_reader.cpp:GetAllChildrenOfPage"]}
{"id": "C39", "title": "Depth for a resolution", "statement": "GetDepthAtResolution(r) is the maximum depth when r<=0 (or NaN), otherwise the smallest depth whose resolution (spacing halved that many times) is <=r, capped at the maximum depth; it is antitone in r; GetNodesAtResolution/GetNodesWithinResolution return exactly the nodes at/up to that depth.", "quantifier": "all hierarchies, spacings and resolutions over IEEE doubles", "why_tests_cant": "all doubles", "anchors": ["cpp/src/io/copc_reader.cpp:GetDepthAtResolution,GetNodesAtResolution,GetNodesWithinResolution"]}
{"id": "C40", "title": "Points within a box are exactly the points in the box", "statement": "On a file whose points lie in the boxes of their nodes, GetPointsWithinBox(box, r) returns exactly (order and multiplicity) the points of nodes up to the requested depth that lie in the box; without that premise it never misses a point in a node that intersects.", "quantifier": "all files, boxes, resolutions", "why_tests_cant": "unbounded", "anchors": ["cpp/src/io/copc_reader.cpp:GetPointsWithinBox", "cpp/include/copc-lib/las/points.hpp:GetWithin"]}
{"id": "C41", "title": "Box node queries are filters", "statement": "GetNodesWithinBox/GetNodesIntersectBox return exactly the nodes of GetAllNodes that satisfy the predicate and depth bound, so a larger box or finer resolution never loses nodes; MaxBox returns all finite nodes.", "quantifier": "all files, boxes, resolutions", "why_tests_cant": "unbounded", "anchors": ["cpp/src/io/copc_reader.cpp:GetNodesWithinBox,GetNodesIntersectBox"]}
{"id": "C42", "title": "ValidateSpatialBounds is sound and complete", "statement": "It returns true exactly when every node box intersects the header bounds and every point lies within the header bounds and within its node box; the verbose flag never changes the result.", "quantifier": "all files", "why_tests_cant": "unbounded", "anchors": ["cpp/src/io/copc_reader.cpp:ValidateSpatialBounds"]}
{"id": "C43", "title": "A failed read does not corrupt later reads", "statement": "After a read that runs past the end of the file, later reads of intact nodes still return their correct data.", "quantifier": "all files and read histories", "why_tests_cant": "error histories", "anchors": ["cpp/src/io/copc_reader.cpp:GetPointDataCompressed"]}
{"id": "C44", "title": "Output failures are reported", "statement": "If the output stream fails while a node is written (disk full), AddNode throws instead of returning a node.", "quantifier": "all failure points", "why_tests_cant": "fault injection points", "anchors": ["cpp/src/io/laz_base_writer.cpp:WriteChunk"]}
{"id": "C45", "title": "VLR lookup", "statement": "FetchVlr returns the lowest file offset of a VLR/EVLR with the given user and record id and 0 when there is none; the WKT string of a file is returned exactly whether it is stored as a VLR or an EVLR.", "quantifier": "all VLR tables", "why_tests_cant": "all tables", "anchors": ["cpp/src/io/base_reader.cpp:FetchVlr,ReadWktVlr,ReadVlrHeaders"]}
{"id": "C46", "title": "LAZ writer", "statement": "LazWriter.WritePoints ignores empty collections, rejects mismatching formats without effect, and otherwise appends one chunk; a closed LAZ file has the declared point count, chunk table offset and EVLR count, and no chunk is overwritten by Close.", "quantifier": "all histories", "why_tests_cant": "unbounded histories", "anchors": ["cpp/src/io/laz_writer.cpp", "cpp/src/io/laz_base_writer.cpp"]}
{"id": "C47", "title": "Fixed-size record buffers are never overrun", "statement": "Decompression never writes outside its 255-byte record buffer.", "quantifier": "all formats and extra byte counts", "why_tests_cant": "memory safety over all configurations", "anchors": ["cpp/include/copc-lib/laz/decompressor.hpp:DecompressBytes", "cpp/src/io/laz_reader.cpp:GetPointData"]}
{"id": "C48", "title": "A node is never mistaken for a page", "statement": "Every entry written for a node is read back as a node and every entry written for a page as a page.", "quantifier": "all histories of AddNodeCompressed", "why_tests_cant": "depends on the sign of a count", "anchors": ["cpp/src/io/copc_writer_public.cpp:AddNodeCompressed", "cpp/include/copc-lib/hierarchy/entry.hpp:IsPage"]}
{"id": "C49", "title": "Multiprocess transforms do not depend on scheduling", "statement": "transform_multithreaded writes, for every completion order of its worker tasks and every chunk size, the same set of nodes with the same data, and the same header bounds; every selected node with points is written exactly once.", "quantifier": "all task completion orders, chunk sizes", "why_tests_cant": "all schedules", "anchors": ["python/copclib/mp/transform.py:transform_multithreaded", "python/copclib/mp/utils.py:chunks"]}
{"id": "C50", "title": "Writer overrides", "statement": "Constructing a Writer from a configuration with optional overrides changes exactly the overridden parameters: format, scale, offset, WKT, extra bytes, extended stats; every other attribute is that of the source configuration and the record length matches the new format and extra bytes.", "quantifier": "all configurations and override combinations", "why_tests_cant": "2^6 combinations x all values", "anchors": ["cpp/src/io/copc_writer_public.cpp:InitWriter"]}
{"id": "C51", "title": "Scan angle in degrees round trips", "statement": "Setting a point's scan angle in degrees to the value the degree getter just returned leaves the stored scan angle unchanged.", "quantifier": "all 65536 scan angles", "why_tests_cant": "all stored angles, and float rounding", "anchors": ["cpp/include/copc-lib/las/point.hpp:ScanAngleDegrees"]}
{"id": "C52", "title": "Array accessors agree with point accessors", "statement": "On a collection of distinct points, an array setter given an array of the collection's size makes the matching array getter return that array and changes nothing else; an array of another size is rejected without effect; Within and GetWithin select exactly the points whose coordinates lie in the box.", "quantifier": "all collections and arrays", "why_tests_cant": "unbounded collections", "anchors": ["cpp/include/copc-lib/las/points.hpp:X,Y,Z,Classification,PointSourceId,Within,GetWithin"]}
{"id": "C53", "title": "A failed Close can be retried", "statement": "If Close throws for a reason the caller can repair (for example header bounds in the wrong order), then after repairing it a second Close writes a file whose chunk table, extended VLR count and hierarchy describe exactly what was added.", "quantifier": "all histories and all repairable causes of failure", "why_tests_cant": "all failure points of Close", "anchors": ["cpp/src/io/base_writer.cpp:WriteChunkTable", "cpp/src/io/copc_writer_internal.cpp:Close"]}
{"id": "C54", "title": "Multiprocess reads do not depend on scheduling", "statement": "For every completion order of the worker tasks and every positive chunk size, read_concat_xyz_class_limit returns the coordinates of exactly the points of the selected nodes whose classification is allowed (all points if no limits are given), node by node in some order, and read_map_xyz_class_limit returns a dictionary with exactly one item for each selected node that has such points: their coordinates in file order.", "quantifier": "all task completion orders, assignments to workers, chunk sizes, files", "why_tests_cant": "all schedules", "anchors": ["python/copclib/mp/read.py:read_multithreaded,_do_read_xyz,read_concat_xyz_class_limit,read_map_xyz_class_limit", "python/copclib/mp/utils.py:chunks"]}
{"id": "C55", "title": "A LAZ file reads back as written", "statement": "For every history of WritePoints calls on a LazWriter that ends with a Close that returns, a newly opened LazReader on the file returns from its first GetPoints exactly the points given to the calls that returned, in order, each what it becomes when stored; GetPointData returns the same records as bytes.", "quantifier": "all histories of calls, configurations and points", "why_tests_cant": "unbounded histories and points", "anchors": ["cpp/src/io/laz_reader.cpp:GetPointData,GetPoints", "cpp/src/io/laz_writer.cpp:WritePoints,Close", "cpp/src/io/laz_base_writer.cpp:WriteChunkTable"]}
{"id": "C56", "title": "Compressing and decompressing byte vectors", "statement": "For point formats 6 to 8 and records of at most 255 bytes, CompressBytes of whole records (at most 2^31-1 bytes) returns, and DecompressBytes of the result with the number of records gives the bytes back; CompressBytes is refused exactly for bytes that are not whole records or too many; giving the result of CompressBytes to AddNodeCompressed has the same outcome and effect as giving the bytes to AddNode.", "quantifier": "all byte vectors, formats, extra byte counts and writer states", "why_tests_cant": "all byte vectors", "anchors": ["cpp/include/copc-lib/laz/compressor.hpp:CompressBytes", "cpp/include/copc-lib/laz/decompressor.hpp:DecompressBytes", "cpp/src/io/copc_writer_public.cpp:AddNodeCompressed,AddNode"]}
{"id": "C57", "title": "Points is a Python sequence", "statement": "For every collection and every Python int, points[i] and points[i]=v address the item Python lists would (negative indices from the end) and raise for others; assignment replaces exactly that item. For every slice, points[a:b:c] has exactly the points a Python list would give, in order, in a collection of the same format (raising when nothing is selected or the step is 0), and slice assignment with as many points as are selected replaces exactly these, raising otherwise.", "quantifier": "all collections, integers, slices", "why_tests_cant": "unbounded integers and steps", "anchors": ["python/bindings.cpp:wrap_i,__getitem__,__setitem__"]}
{"id": "C58", "title": "Pickling preserves values", "statement": "Unpickling the pickle of a VectorChar, VoxelKey, Node, Vector3 or LasHeader gives an equal object with every attribute.", "quantifier": "all objects", "why_tests_cant": "all values", "anchors": ["python/bindings.cpp:py::pickle"]}
{"id": "C59", "title": "Keys identify nodes in dictionaries", "statement": "VoxelKey == holds exactly for the same four numbers; equal keys have equal hashes; the texts str(key) of different keys are different, so the dictionary of read_map_xyz_class_limit never merges two nodes.", "quantifier": "all pairs of keys", "why_tests_cant": "all pairs", "anchors": ["cpp/src/hierarchy/key.cpp:ToString", "cpp/include/copc-lib/hierarchy/key.hpp:operator==,hash", "python/copclib/mp/read.py:read_map_xyz_class_limit"]}
{"id": "C60", "title": "Equality operators compare all attributes", "statement": "== on nodes, entries, vectors, extents and extra-byte descriptors is true exactly when all attributes are the same (numbers as IEEE numbers).", "quantifier": "all pairs of objects", "why_tests_cant": "all pairs", "anchors": ["cpp/include/copc-lib/las/vlr.hpp:operator==", "cpp/include/copc-lib/hierarchy/entry.hpp:IsEqual", "cpp/include/copc-lib/hierarchy/node.hpp:operator==", "cpp/include/copc-lib/geometry/vector3.hpp:operator==", "cpp/include/copc-lib/copc/extents.hpp:operator=="]}
{"id": "C61", "title": "An unfinished file is not mistaken for a finished one", "statement": "If the program dies at any byte of its output before Close has returned, a reader refuses the file that is left, or finds in it all that the finished file has.", "quantifier": "all histories of calls and all crash points", "why_tests_cant": "every byte is a crash point of every history", "anchors": ["cpp/src/io/copc_writer_internal.cpp:WriterInternal,Close,WriteHeader", "cpp/src/io/laz_base_writer.cpp:WriteChunkTable,WriteChunk", "cpp/src/io/copc_base_reader.cpp:InitCopcReader"]}
{"id": "C62", "title": "Copying nodes preserves them", "statement": "Giving any selection of the nodes of a written file to AddNodeCompressed of a new writer (key, GetPointDataCompressed, point count and page key, as in the trimming example) is never refused; once the new writer is closed, its file has exactly the selected nodes, with the same compressed bytes, point counts and pages; with the reader's point format, record length, scale and offset GetPoints returns the very same points from both files.", "quantifier": "all written files, selections, iteration orders and queries in between", "why_tests_cant": "all files and all selections", "anchors": ["example/example-writer.cpp:TrimFileExample", "cpp/src/io/copc_writer_public.cpp:AddNodeCompressed", "cpp/src/io/copc_reader.cpp:GetPointDataCompressed,GetAllNodes,GetPoints"]}
{"id": "C63", "title": "Destroying a writer is closing it", "statement": "A Writer, LazWriter, FileWriter or LazFileWriter that is destroyed without Close leaves exactly the file that Close would have written; destroying it after Close changes nothing; and once Close of a FileWriter or LazFileWriter (the classes Python has) has returned, no further call of any kind changes the bytes of the file.", "quantifier": "all writers, histories of calls before and after Close, stream failures", "why_tests_cant": "all histories; destructors run three nested Close calls", "anchors": ["cpp/include/copc-lib/io/copc_writer.hpp:~Writer,~FileWriter", "cpp/include/copc-lib/io/internal/copc_writer_internal.hpp:~WriterInternal", "cpp/include/copc-lib/io/laz_base_writer.hpp:~BaseWriter", "cpp/include/copc-lib/io/laz_writer.hpp:LazFileWriter", "cpp/src/io/copc_writer_public.cpp:FileWriter::Close"]}
{"id": "C64", "title": "Exceptions of Close can be handled", "statement": "An exception thrown by Close (full disk, bounds in the wrong order, a page outside the octree) has the same cause every time Close is called, and a program that catches it can dispose of the writer and go on.", "quantifier": "all writers, streams and causes", "why_tests_cant": "every failure of every history", "anchors": ["cpp/include/copc-lib/io/copc_writer.hpp:~Writer", "cpp/src/io/copc_writer_internal.cpp:Close", "cpp/src/io/laz_base_writer.cpp:Close"]}
{"id": "C65", "title": "A refused construction has no effect", "statement": "When the constructor of a FileWriter or LazFileWriter throws, the file that was at the path still has its contents, and the program goes on.", "quantifier": "all configurations, overrides and files", "why_tests_cant": "all arguments", "anchors": ["cpp/include/copc-lib/io/copc_writer.hpp:FileWriter", "cpp/include/copc-lib/io/laz_writer.hpp:LazFileWriter", "cpp/src/io/laz_base_writer.cpp:BaseFileWriter", "cpp/src/io/copc_writer_public.cpp:InitWriter"]}
{"id": "C66", "title": "Converting a COPC file to LAZ keeps points and metadata", "statement": "Giving GetPointDataCompressed of every node of a written COPC file to WritePointsCompressed of a LazWriter made from the reader's configuration is never refused; once closed, the LAZ file has the LAS header values, WKT and extra-byte descriptors of the original, and GetPoints returns the points of the nodes one after the other in the order of GetAllNodes, as many as the header says.", "quantifier": "all written files, iteration orders and queries before", "why_tests_cant": "all files and orders", "anchors": ["cpp/src/io/laz_writer.cpp:WritePointsCompressed", "cpp/src/las/laz_config.cpp:LazConfig", "cpp/src/io/copc_reader.cpp:GetPointDataCompressed,GetAllNodes", "cpp/src/io/laz_reader.cpp:GetPoints"]}
{"id": "C67", "title": "Copying with decompression is copying", "statement": "Reading the points of the nodes as bytes, compressing them with Compressor::CompressBytes and the writer's header and giving them to AddNodeCompressed leaves the new writer in the very state that copying the compressed bytes does.", "quantifier": "all written files, selections of nodes, orders", "why_tests_cant": "all files and selections", "anchors": ["example/example-writer.cpp:TrimFileExample", "cpp/include/copc-lib/laz/compressor.hpp:CompressBytes", "cpp/src/io/copc_reader.cpp:GetPointData"]}
{"id": "C68", "title": "Filtering points keeps exactly the chosen ones", "statement": "For every test of a point: a program that adds to a new writer, for every node of a written file, the points of GetPoints for which the test is true (if there are any) gets a file in which GetPoints of every node returns exactly these points, in their order, with every attribute and coordinate unchanged, and in which no other node exists.", "quantifier": "all tests, files, orders", "why_tests_cant": "all predicates on points and all files", "anchors": ["cpp/src/io/copc_reader.cpp:GetPoints", "cpp/src/las/points.cpp:Pack,Unpack", "cpp/src/io/copc_writer_public.cpp:AddNode"]}
{"id": "C69", "title": "Trimming a file to a box", "statement": "The program of BoundsTrimFileExample (nodes within the box copied as they are, nodes that meet it filtered, others left out) runs for every file and box, and GetPoints of every node of the new file returns exactly the points of the original that lie in the box; nodes without such a point are not in the file.", "quantifier": "all written files whose points lie in the boxes of their nodes, all boxes", "why_tests_cant": "all files and boxes; floating-point boxes of nodes", "anchors": ["example/example-writer.cpp:BoundsTrimFileExample", "cpp/src/hierarchy/key.cpp:Within,Intersects", "cpp/include/copc-lib/las/points.hpp:GetWithin", "cpp/src/las/points.cpp:Points"]}
{"id": "C70", "title": "Writing to a file is writing to a stream", "statement": "A FileWriter (LazFileWriter) on a path that can be opened is constructed exactly when a Writer (LazWriter) on a new empty stream is, whatever the file held before; every call on it until Close has the outcome it has on the stream writer, and after Close, or destruction without Close, the file has exactly the bytes the stream would have. So all that holds for files written through streams holds for files.", "quantifier": "all configurations, overrides, old file contents, histories of calls", "why_tests_cant": "all histories", "anchors": ["cpp/include/copc-lib/io/copc_writer.hpp:FileWriter", "cpp/include/copc-lib/io/laz_writer.hpp:LazFileWriter", "cpp/src/io/laz_base_writer.cpp:BaseFileWriter", "cpp/src/io/copc_writer_public.cpp:FileWriter::Close"]}
{"id": "C71", "title": "Reading a file", "statement": "A FileReader (LazFileReader) is a reader on the bytes of the file; the file is closed exactly once, by Close, which may be repeated, or by destruction, and not left open by a constructor that throws; after Close a call either gives the answer it would have given before or throws.", "quantifier": "all files, sequences of queries and Close calls", "why_tests_cant": "all files and call sequences", "anchors": ["cpp/include/copc-lib/io/copc_reader.hpp:FileReader", "cpp/include/copc-lib/io/laz_reader.hpp:LazFileReader", "python/bindings.cpp:FileReader"]}
{"id": "C72", "title": "A file that was cut is not misread", "statement": "For every file a Writer wrote and every number of bytes lost at its end: the constructor of Reader throws, or the reader has the header, COPC information, extents, WKT and extra bytes of the whole file, and every value any of its calls returns (nodes, pages, points, point data, compressed data of a key, verdicts) is the value the whole file gives for the same calls.", "quantifier": "all written files, all lengths they are cut to, all histories of successful calls", "why_tests_cant": "all files, cuts and call sequences", "anchors": ["cpp/src/io/base_reader.cpp:InitReader,ReadVlrHeaders", "cpp/src/io/copc_reader.cpp:InitCopcReader,GetPointDataCompressed", "cpp/include/copc-lib/hierarchy/entry.hpp:Unpack", "cpp/src/hierarchy/page.cpp", "cpp/src/io/copc_base_io.cpp:FindNode", "cpp/src/copc/extents.cpp"]}
{"id": "C73", "title": "Bytes after the end of a file do not matter", "statement": "A COPC file that opens without exhausting the stream also opens with any bytes after its end, with the same configuration, and returns the same values for the same calls; of a file a Writer wrote, the same nodes are found.", "quantifier": "all files that open, all bytes after them, all histories of successful calls", "why_tests_cant": "all files and trailing bytes", "anchors": ["cpp/src/io/base_reader.cpp:InitReader", "cpp/src/io/copc_reader.cpp:InitCopcReader", "cpp/src/io/copc_base_io.cpp:FindNode"]}
{"id": "C74", "title": "A writer accepts exactly the good additions", "statement": "On a stream that takes every byte, an AddNode or AddNodeCompressed on a Writer that was not closed returns exactly when the keys are valid, the node's key is at or below the page's, and the data are not empty, are whole records of the file's format (AddNode) and at most 2^31-1 bytes, whatever was done before; the node returned has the key, the page, the end of the file so far and the size given, and FindNode of the writer always returns the node added last with a key.", "quantifier": "all configurations, histories of calls before, keys, pages and data", "why_tests_cant": "all histories and arguments", "anchors": ["cpp/src/io/copc_writer_public.cpp:DoAddNode,AddNode,AddNodeCompressed", "cpp/src/io/laz_base_writer.cpp:WriteChunk", "cpp/src/io/copc_base_io.cpp:FindNode"]}
{"id": "C75", "title": "Adding a key again replaces the node", "statement": "When a key is added again, the writer and the file read back have exactly the new node under the key: FindNode returns it whatever was asked before, GetAllNodes returns it and not the old one, its data are those of the last addition, and the header counts its points only.", "quantifier": "all histories of additions, orders and queries", "why_tests_cant": "all histories", "anchors": ["cpp/src/io/copc_writer_public.cpp:DoAddNode", "cpp/src/io/copc_base_io.cpp:FindNode", "cpp/src/io/copc_writer_internal.cpp:Close"]}
{"id": "C76", "title": "Configurations and writers are independent objects", "statement": "A program can make any number of configurations and writers from each other and edit their headers, COPC information and extents through the pointers it gets: an edit of, or a call on, one object changes no other object, copying or giving a configuration to a writer takes its value at that moment, and what a writer writes depends on its own calls and edits only.", "quantifier": "all programs: sequences of constructions, copies, edits and calls on any number of objects", "why_tests_cant": "all interleavings of calls on all objects", "anchors": ["cpp/include/copc-lib/las/laz_config.hpp:LazConfigWriter", "cpp/include/copc-lib/copc/copc_config.hpp:CopcConfigWriter", "cpp/src/io/laz_writer.cpp:LazWriter", "cpp/src/io/copc_writer_public.cpp:InitWriter", "cpp/src/copc/extents.cpp:CopcExtents"]}
{"id": "C77", "title": "Writing to a stream that holds something", "statement": "A Writer or LazWriter on a stream that already holds data (a file opened for updating, a string stream used before) writes the same file as on a new stream: every call has the same outcome and after Close the stream holds the same bytes.", "quantifier": "all configurations, all old contents of the stream, all histories of calls", "why_tests_cant": "all old contents and histories", "anchors": ["cpp/src/io/laz_writer.cpp:LazWriter", "cpp/src/io/copc_writer_internal.cpp:WriterInternal", "cpp/src/io/laz_base_writer.cpp:WriteChunk,WriteChunkTable,Close"]}
{"id": "C78", "title": "Trimming a file to a resolution", "statement": "Asking a file written by the library for the depth of a resolution and copying, compressed, the nodes down to that depth into a new file (the resolution example) gives a file with exactly those nodes. Its GetMaxDepth is the depth of the deepest of them; when the old file reaches the resolution so does the new one, and asked about the same resolution it gives the same depth.", "quantifier": "all written files, resolutions, earlier queries, iteration orders, writer configurations with the same spacing", "why_tests_cant": "all files and resolutions (all doubles)", "anchors": ["example/example-writer.cpp:ResolutionTrimFileExample", "cpp/src/io/copc_reader.cpp:GetDepthAtResolution", "cpp/src/io/copc_writer_public.cpp:AddNodeCompressed"]}
{"id": "C79", "title": "Good use always gives a file that reads back", "statement": "A program that makes a Writer with a storable configuration whose bounds are in order, makes fewer than 2^25 good additions under distinct keys with pages of the octree, and closes it: every addition returns, Close returns, the file opens, and a Reader finds every addition (node, page, count, bytes) and nothing else, whatever it was asked before. Likewise a LazWriter given collections of points of its format: every call and Close return, and LazReader::GetPoints gives the points back in order. No outcome of a library call is assumed.", "quantifier": "all configurations, plans of additions, collections of points, iteration orders and later queries", "why_tests_cant": "all configurations and plans", "anchors": ["cpp/src/io/copc_writer_public.cpp:DoAddNode", "cpp/src/io/copc_writer_internal.cpp:Close", "cpp/src/io/laz_writer.cpp:WritePoints", "cpp/src/io/laz_base_writer.cpp:Close", "cpp/src/io/copc_reader.cpp:FindNode", "cpp/src/io/laz_reader.cpp:GetPoints"]}
{"id": "C80", "title": "A program that writes points gets its points back", "statement": "From the arguments of the configuration to the points read: with a format 6-8, extra-byte items and WKT that a file can hold, any edits of the header within its field sizes and bounds in order, and nodes with distinct valid keys whose points are of the file's format (as points and collections made from its header always are) and whose coordinates the scale and offset can store, no call of the whole program fails, and a Reader of the file, whatever it was asked before, has the number of points, lists exactly the keys with their pages and counts, and gives for each key the points that were added. Points can be packed exactly when all coordinates fit. Likewise for LazConfigWriter, LazWriter and LazReader.", "quantifier": "all arguments, edits, keys, pages, points, iteration orders and queries", "why_tests_cant": "all programs of this shape", "anchors": ["cpp/src/copc/copc_config.cpp:CopcConfigWriter", "cpp/src/las/laz_config.cpp:LazConfigWriter", "cpp/src/las/point.cpp:Point", "cpp/src/las/points.cpp:Points,Pack", "cpp/src/io/copc_writer_public.cpp:AddNode", "cpp/src/io/laz_writer.cpp:WritePoints", "cpp/src/io/copc_reader.cpp:GetPoints,GetAllNodes", "cpp/src/io/laz_reader.cpp:GetPoints"]}
{"id": "C81", "title": "A LAZ reader can be read more than once", "statement": "Every GetPointData or GetPoints of a LazReader returns what the first one returned.", "quantifier": "all LAZ files, all numbers of calls", "why_tests_cant": "all files and call sequences", "anchors": ["cpp/src/io/laz_reader.cpp:GetPointData,GetPoints", "cpp/include/copc-lib/io/base_reader.hpp:reader_"]}
{"id": "C82", "title": "Any reader of the published formats finds what was written", "statement": "A file of the library's Writer, read as raw bytes by the positions of the LAS 1.4 and COPC 1.0 documents and without the library: the header has the values the program set; the first VLR is the COPC info with centre, half size, spacing and GPS time range; from the root page it gives, following page entries, exactly the nodes added are found, each in one place, with key, place, size and count; every page is the payload of an extended VLR (\"copc\", 1000); WKT, extents, statistics and extra-byte descriptors are the payloads of their records; the number of points and the offsets to point data and chunk table are right and the chunk of every node lies between them and holds what was added.", "quantifier": "all configurations, histories and iteration orders", "why_tests_cant": "all written files", "anchors": ["cpp/src/las/header.cpp:ToLazPerf", "cpp/src/copc/info.cpp:ToLazPerf", "cpp/include/copc-lib/hierarchy/entry.hpp:Pack", "cpp/src/io/copc_writer_internal.cpp:Close,WritePage,WriteHeader", "cpp/src/io/laz_base_writer.cpp:WriteChunk,WriteChunkTable,WriteLazAndEbVlrs"]}
{"id": "C83", "title": "Legacy fields of the header", "statement": "In a file the library writes (point formats 6 to 8) the legacy number of points and the five legacy numbers of points by return are 0, as LAS 1.4 requires for these formats.", "quantifier": "all configurations and histories", "why_tests_cant": "all written files", "anchors": ["cpp/src/las/header.cpp:ToLazPerf", "cpp/src/io/copc_writer_internal.cpp:WriteHeader"]}
{"id": "C84", "title": "Any LAZ reader finds what LazWriter wrote", "statement": "A file of LazWriter, read as raw bytes by the positions of the LAS 1.4 document and LASzip's chunk layout and without the library: the header has the values the program set and the number of points; the offset to point data leads to the offset of the chunk table; between them are the chunks of the calls that wrote one, in order and without gaps; the chunk table starts with version 0 and their number; the VLRs are exactly the extra-byte descriptors (when points have extra bytes) and the LASzip VLR, and the WKT string is the only extended VLR.", "quantifier": "all configurations and histories", "why_tests_cant": "all written files", "anchors": ["cpp/src/las/header.cpp:ToLazPerf", "cpp/src/io/laz_base_writer.cpp:Close,WriteChunk,WriteChunkTable,WriteLazAndEbVlrs,WriteHeader,WriteWKT"]}
{"id": "C85", "title": "Copies of a writer", "statement": "Writers can be copied (passed by value, kept in containers): a call through any copy is a call on the one file, destroying a copy changes nothing as long as another is left, and when all are gone the file holds everything that was added through any of them.", "quantifier": "all programs that copy, call and destroy copies in any order", "why_tests_cant": "all sequences of copies, calls and destructions", "anchors": ["cpp/include/copc-lib/io/copc_writer.hpp:Writer,~Writer", "cpp/include/copc-lib/io/laz_writer.hpp:LazWriter", "cpp/include/copc-lib/io/laz_base_writer.hpp:BaseWriter"]}
{"id": "C86", "title": "Extents and bounds of a file agree", "statement": "In a file the library writes, the X, Y and Z extents of the extents VLR (for which the writer passes the bounds of the header) are the bounds of the header, whatever was set in the configuration's extents.", "quantifier": "all configurations, edits and histories", "why_tests_cant": "all written files", "anchors": ["cpp/src/copc/extents.cpp:ToLazPerf", "cpp/src/io/copc_writer_internal.cpp:WriteHeader"]}
{"id": "C87", "title": "Readers on one stream", "statement": "Any number of Readers can be made on one std::istream, at any time and wherever the stream is positioned, and used in any order: every call on one of them gives what it would give had only the calls on that reader been made on a stream of its own.", "quantifier": "all files, numbers of readers, schedules of constructions, calls and seeks", "why_tests_cant": "all interleavings", "anchors": ["cpp/include/copc-lib/io/base_reader.hpp:BaseReader,in_stream_", "cpp/src/io/base_reader.cpp:InitReader,ReadVlrHeaders", "cpp/src/io/copc_reader.cpp:ReadPage,GetPointData,GetPointDataCompressed", "cpp/src/io/copc_base_io.cpp:FindNode,LoadPageHierarchy"]}
{"id": "C88", "title": "Files of other programs", "statement": "A file of any program that follows LAS 1.4 and COPC 1.0 (header, records in any order and of any kinds, info VLR first, WKT, extra-byte descriptors, extents and statistics where the formats have them) is opened by Reader, and every value of its configuration is the one the file has at the positions of the formats: all header fields, the COPC info, the WKT, every extra-byte descriptor, every extent. Nodes found in its pages give the bytes of their chunk, the records in it and, as points, every attribute from its position in the record.", "quantifier": "all files, all queries made before", "why_tests_cant": "all files of any producer", "anchors": ["cpp/src/io/base_reader.cpp:InitReader,ReadVlrHeaders,ReadWktVlr,ReadExtraBytesVlr", "cpp/src/io/copc_reader.cpp:InitCopcReader,ReadCopcInfoVlr,ReadCopcExtentsVlr,GetPoints", "cpp/src/las/header.cpp:FromLazPerf", "cpp/src/las/point.cpp:Unpack", "cpp/src/copc/extents.cpp:CopcExtents,SetExtendedStats"]}
{"id": "C89", "title": "LAZ files of other programs", "statement": "A LAZ file of any program that follows LAS 1.4 (point format 6 to 8, chunks of varying sizes or of one size) is opened by LazReader; its configuration has the header fields, the WKT and the extra-byte descriptors that the file has at the positions of the format; GetPointData gives the records of the chunks in order and GetPoints the points they are, every attribute from its position in the record.", "quantifier": "all files, chunkings and records", "why_tests_cant": "all files of any producer", "anchors": ["cpp/src/io/laz_reader.cpp:GetPointData,GetPoints", "cpp/include/copc-lib/io/laz_reader.hpp:LazReader", "cpp/src/io/base_reader.cpp:InitReader,ReadVlrHeaders,ReadWktVlr,ReadExtraBytesVlr", "cpp/src/las/header.cpp:FromLazPerf", "cpp/src/las/point.cpp:Unpack"]}
{"id": "C90", "title": "Copying files of other programs", "statement": "A program that opens any file following LAS 1.4 and COPC 1.0, makes a Writer with the reader's configuration, adds the compressed chunk of every node of any selection of GetAllNodes and closes it (the examples do this): every call returns, the new file opens with the same header fields, COPC info, WKT, extra-byte descriptors and extents, and a Reader of it, whatever it was asked before, finds exactly the selected nodes with their page, count, size and compressed bytes and, for records of the chunk, the same points.", "quantifier": "all files of any producer, selections, earlier queries, iteration orders", "why_tests_cant": "all files and selections", "anchors": ["example/example-writer.cpp:TrimFileExample,BoundsTrimFileExample", "cpp/src/io/copc_reader.cpp:ReadCopcExtentsVlr,GetAllNodes,GetPointDataCompressed", "cpp/src/io/copc_writer_public.cpp:AddNodeCompressed", "cpp/src/io/copc_writer_internal.cpp:InitWriter,Close", "cpp/src/copc/copc_config.cpp:CopcConfigWriter"]}
{"id": "C91", "title": "Converting COPC files of other programs to LAZ", "statement": "A program that opens any file following LAS 1.4 and COPC 1.0, makes a LazWriter with LazConfigWriter(reader.CopcConfig()), writes the compressed chunk of every node of any selection of GetAllNodes and closes it: every call returns, and a LazReader of the new file has the LAS header fields, the WKT and the extra-byte descriptors of the original, the number of the points, and GetPoints gives the points of the selected nodes in their order, every attribute as it is in the record of the original file.", "quantifier": "all files of any producer, selections, earlier queries, iteration orders", "why_tests_cant": "all files and selections", "anchors": ["cpp/src/las/laz_config.cpp:LazConfig", "cpp/src/io/laz_writer.cpp:LazWriter,WritePointsCompressed", "cpp/src/io/laz_base_writer.cpp:Close,WriteChunk", "cpp/src/io/copc_reader.cpp:GetAllNodes,GetPointDataCompressed", "cpp/src/io/laz_reader.cpp:GetPoints"]}
{"id": "C92", "title": "Selecting points of files of other programs", "statement": "A program that opens any file following LAS 1.4 and COPC 1.0, makes a Writer with the reader's configuration, adds for every node the points for which a test is true (any test; or being in a box, taking nodes whose box is inside as they are, as the example does, with a check that a point is left) and closes it: every call returns, the new file has the same metadata, and a Reader of it, whatever it was asked before, gives for every node exactly the points of the original for which the test is true, in order and with every attribute as in the record of the original; nodes without such points, and other nodes, are not there.", "quantifier": "all files of any producer, tests and boxes, earlier queries, iteration orders", "why_tests_cant": "all files and tests", "anchors": ["example/example-writer.cpp:BoundsTrimFileExample", "cpp/src/io/copc_reader.cpp:GetPoints,GetAllNodes,GetPointDataCompressed", "cpp/src/io/copc_writer_public.cpp:AddNode,AddNodeCompressed", "cpp/src/las/points.cpp:Points,Pack,GetWithin", "cpp/src/las/point.cpp:Pack,Unpack", "cpp/src/hierarchy/key.cpp:Within,Intersects"]}
{"id": "C93", "title": "Computing new points from files of other programs", "statement": "A program that opens any file following LAS 1.4 and COPC 1.0, makes a Writer with any configuration, and for every node adds the points that any function makes of the points of that node (a conversion to another format with ToPointFormat, another scale and offset, changed attributes, points left out), none if it makes none, and closes it: every call returns, the new file has the writer's metadata and the number of points made, and a Reader of it, whatever it was asked before, gives for every node the points that the function made of the original's, with every attribute, and coordinates as the new scale stores them; converting keeps coordinates, attributes and extra bytes, keeps the colours both formats have and gives zero for new ones; other nodes are not there.", "quantifier": "all files of any producer, functions, writer configurations, formats, scales, earlier queries, iteration orders", "why_tests_cant": "all files and functions", "anchors": ["cpp/src/io/copc_reader.cpp:GetPoints,GetAllNodes", "cpp/src/io/copc_writer_public.cpp:AddNode", "cpp/src/io/copc_writer_internal.cpp:InitWriter", "cpp/src/las/points.cpp:Points,ToPointFormat,Pack", "cpp/src/las/point.cpp:ToPointFormat,Pack,Unpack", "cpp/src/copc/copc_config.cpp:CopcConfigWriter"]}
{"id": "C94", "title": "Converting LAZ files of other programs to COPC", "statement": "A program that opens any LAZ file following LAS 1.4 with LazReader, makes a CopcConfigWriter from the point format, scale, offset, WKT and extra bytes that the reader gives (then sets bounds, identifiers, info), makes a Writer, adds the points of GetPoints distributed over distinct keys by any function of a point, with any pages of the octree, and closes it: every call returns; a Reader of the new file, whatever it was asked before, has the metadata that was set with the scale, offset, WKT and extra-byte descriptors of the LAZ file and its number of points; its nodes are exactly the keys with points; the points of a key are those of the LAZ file with this place, in their order, with every attribute and coordinate as in the record of the original. No point is lost or there twice.", "quantifier": "all files of any producer, functions, keys and pages, edits of the configuration, earlier queries, iteration orders", "why_tests_cant": "all files and distributions", "anchors": ["cpp/src/io/laz_reader.cpp:GetPoints", "cpp/src/copc/copc_config.cpp:CopcConfigWriter", "cpp/src/io/copc_writer_public.cpp:AddNode", "cpp/src/io/copc_writer_internal.cpp:InitWriter,Close", "cpp/src/las/points.cpp:AddPoint,Pack", "cpp/src/las/point.cpp:Pack,Unpack", "cpp/src/io/copc_reader.cpp:GetAllNodes,GetPoints"]}
{"id": "C95", "title": "A COPC file is a LAZ file", "statement": "A file written with Writer, opened with LazReader: it opens and gives the header fields, WKT and extra-byte descriptors of the writer's configuration and the number of points; GetPointData gives the records of all points given to the additions that returned, and GetPoints the points, chunk after chunk in the order of the additions, every attribute kept, coordinates as the scale stores them, whatever the octree and the pages are. (Records of at most 255 bytes; no addition failed because its chunk was too large.)", "quantifier": "all configurations, histories of additions and edits, octrees and pages", "why_tests_cant": "all histories", "anchors": ["cpp/include/copc-lib/io/laz_reader.hpp:LazReader", "cpp/src/io/laz_reader.cpp:GetPointData,GetPoints", "cpp/src/io/copc_writer_internal.cpp:Close,WriteHeader", "cpp/src/io/copc_writer_public.cpp:AddNode,AddNodeCompressed", "cpp/src/io/laz_base_writer.cpp:WriteChunk,WriteChunkTable", "cpp/src/io/base_reader.cpp:InitReader,ReadVlrHeaders"]}
{"id": "C96", "title": "Files that are not what they should be are refused", "statement": "Whatever the bytes of a stream are: if Reader opens it, it has a full header of LAS 1.4 with the WKT bit, a header size of 375 and point format 6, 7 or 8, a record with the ids of the COPC info right after the header and a record with the ids of the COPC hierarchy; if LazReader opens it, it has such a header and a record with the ids of LASzip. No other stream is opened. In particular Reader refuses every LAZ file written with LazWriter with the exception for a missing VLR.", "quantifier": "all byte strings; all files written with LazWriter", "why_tests_cant": "all byte strings", "anchors": ["cpp/src/io/base_reader.cpp:InitReader,ReadVlrHeaders,FetchVlr", "cpp/src/io/copc_reader.cpp:InitCopcReader,ReadCopcInfoVlr", "cpp/include/copc-lib/io/laz_reader.hpp:LazReader", "cpp/src/las/header.cpp:FromLazPerf", "cpp/src/las/vlr.cpp:VlrHeader"]}
{"id": "C97", "title": "The same calls give the same file", "statement": "Additions that Writer refuses (all exceptions but the two that come after the chunk has been written) leave no trace: without them, the calls lead to the same writer and so to the same bytes; likewise for LazWriter. Two runs of one program whose containers are iterated in different orders (hash table of the nodes of a page, set of pointers to sub-pages) both give a file, of the same length and with the same bytes except between the place where the header says the extended VLRs begin and the record of the WKT, that is in the hierarchy pages.", "quantifier": "all configurations, histories of additions, moves, edits and rejected calls; all iteration orders", "why_tests_cant": "all histories and orders", "anchors": ["cpp/src/io/copc_writer_internal.cpp:Close,ComputePageHierarchy,WritePageTree,WritePage,WriteHeader", "cpp/src/io/copc_writer_public.cpp:AddNode,AddNodeCompressed", "cpp/src/io/laz_writer.cpp:WritePoints,WritePointsCompressed", "cpp/include/copc-lib/hierarchy/internal/hierarchy.hpp:Hierarchy"]}
{"id": "C98", "title": "Rewriting a LAZ file gives the same file", "statement": "A program that opens a file written with LazWriter (records of at most 255 bytes, no chunk too large), makes a LazWriter with the configuration of the LazReader and writes the same records in chunks of the same sizes, as compressed data or as points, gives the same file, byte by byte, whatever calls were refused in either run. In particular the points of GetPoints, written in groups of the sizes of the chunks, give the file again, for a scale and an offset with which stored coordinates come back exactly (see C11): reading loses nothing that the file has.", "quantifier": "all configurations, histories of calls and edits, records, groupings", "why_tests_cant": "all files written", "anchors": ["cpp/src/io/laz_reader.cpp:GetPoints", "cpp/src/io/laz_writer.cpp:LazWriter,WritePoints,WritePointsCompressed", "cpp/src/io/laz_base_writer.cpp:WriteHeader,WriteChunk,WriteChunkTable,WriteWKT,Close", "cpp/src/io/base_reader.cpp:InitReader", "cpp/src/las/header.cpp:FromLazPerf,ToLazPerf", "cpp/src/las/points.cpp:Pack,Unpack"]}
{"id": "C99", "title": "Rewriting a COPC file gives the same file", "statement": "A program that opens a file written with Writer, makes a Writer with the configuration of the Reader and makes the same additions and moves again (without any edit of the configuration that the first program made), or adds for every node, in the order of the additions, the compressed chunk that the file has for it, the records of GetPointData or the points of GetPoints (for a scale and an offset with which stored coordinates come back exactly, see C11), gives the same file, byte by byte: header, COPC info, extents, WKT, chunk table and hierarchy. Reading the configuration and the chunks loses nothing that the file has, and the fields of the header and of the COPC info that Close fills in are not taken from the old file into the new one wrongly.", "quantifier": "all configurations, histories of additions, moves, rejected calls and edits", "why_tests_cant": "all files written", "anchors": ["cpp/src/io/copc_writer_internal.cpp:InitWriter,Close,WriteHeader", "cpp/src/io/copc_writer_public.cpp:AddNode,AddNodeCompressed,ChangeNodePage", "cpp/src/io/laz_base_writer.cpp:WriteChunk,WriteChunkTable,WriteHeader", "cpp/src/io/copc_reader.cpp:InitReader,GetPointDataCompressed", "cpp/src/io/base_reader.cpp:InitReader", "cpp/src/las/header.cpp:FromLazPerf,ToLazPerf", "cpp/src/copc/info.cpp:Pack", "cpp/src/copc/extents.cpp:ToLazPerf"]}
{"id": "C100", "title": "What the writers write follows the formats", "statement": "Every file that Writer wrote (any configuration that can be stored, any history) follows LAS 1.4 and COPC 1.0, as a description by positions of files of any producer says, in every respect of the description: signature, version, WKT bit, header size, compressed point format, header, VLRs, points and extended VLRs follow each other, every record lies within its part of the file, user ids are filled up with zeros, the info VLR is first with 160 bytes, there is a hierarchy, extents and statistics have one pair per dimension with the lower bound first and variances that are not negative; text fields have a terminating zero, each record is of the kind that readers look for it in, the sizes fit an int. So Reader opens it and gives what it has. Likewise every file that LazWriter wrote follows LAS 1.4 (same fields). In both cases the chunks and the chunk table are laid out as the format says for chunks of varying sizes, with the records that the calls gave. So what is proved of files of other producers is true of the library's own.", "quantifier": "all configurations, histories of additions, moves, rejected calls and edits; both writers", "why_tests_cant": "all files written", "anchors": ["cpp/src/io/copc_writer_internal.cpp:Close,WriteHeader,WritePage", "cpp/src/io/laz_base_writer.cpp:WriteHeader,WriteWKT,Close", "cpp/src/las/header.cpp:ToLazPerf", "cpp/src/copc/extents.cpp:ToLazPerf", "cpp/src/las/vlr.cpp:VlrHeader", "cpp/src/io/base_reader.cpp:InitReader", "cpp/src/io/copc_reader.cpp:InitCopcReader"]}
