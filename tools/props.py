#!/usr/bin/env python3
"""Regenerates properties.jsonl (kept as a script so that the list stays consistent)."""
import json
P=[]
def p(title, statement, quantifier, why, anchors):
    P.append(dict(id="C%02d"%(len(P)+1), title=title, statement=statement, quantifier=quantifier,
                  why_tests_cant=why, anchors=anchors))
K="cpp/src/hierarchy/key.cpp"; KH="cpp/include/copc-lib/hierarchy/key.hpp"
# ---- keys
p("Children and parents are inverse",
  "For every valid VoxelKey whose children fit in int32, GetChildren returns exactly eight pairwise distinct keys, each one has the key as GetParent, and every valid key whose GetParent is the key is one of those eight. If a child index does not fit in int32 the call is undefined behaviour, never a wrong key.",
  "all int32 quadruples (d,x,y,z) and all eight directions", "2^128 keys; the failure would be at a particular coordinate or overflow boundary", [K+":Bisect,GetChildren,GetParent"])
p("Ancestor list is complete, ordered and terminates",
  "GetParents(include_self) of a valid key of depth d returns exactly the d ancestors (plus the key itself when asked) from nearest to depth 0, the i-th one being the coordinates shifted right by i; for an invalid key it is empty; the loop always terminates.",
  "all int32 keys, both values of include_self", "termination and completeness for every depth cannot be sampled", [K+":GetParents,GetParent"])
p("ChildOf is the octree ancestor order",
  "a.ChildOf(b) is true exactly when a is valid, 0<=b.d<=a.d and b's coordinates are a's coordinates shifted right by a.d-b.d. Hence it is reflexive on valid keys, transitive and antisymmetric, and on keys inside the octree everything is a child of the root.",
  "all pairs (triples) of int32 keys", "relation over 2^256 pairs", [K+":ChildOf"])
p("GetParentAtDepth agrees with walking up",
  "For a valid key and 0<=depth<=d, GetParentAtDepth(depth) is the element of GetParents(true) at that depth whenever d-depth<=30; for depth<0 or depth>d it throws; for an invalid key it returns the invalid key. (For d-depth>=31 the float to int conversion is undefined behaviour.)",
  "all keys and depths", "the disagreement lives at a 2^31 boundary no test reaches", [K+":GetParentAtDepth"])
p("Keys inside the octree stay inside",
  "If a key lies in the octree (0<=x,y,z<2^d) with d<=30 then all its children and all its ancestors do too and no arithmetic overflow happens while computing them.",
  "all keys with d<=30", "unbounded set of keys", [K+":Bisect,GetParent"])
# ---- entries
p("Hierarchy entry byte round trip",
  "Entry.Pack emits exactly 32 bytes and Entry.Unpack of those bytes (with anything after them) returns an entry equal in key, offset, byte size and point count and leaves the stream just after them; distinct entries have distinct encodings.",
  "all keys, offsets (uint64), sizes and counts (int32), all trailing bytes", "2^256 entries", ["cpp/include/copc-lib/hierarchy/entry.hpp:Pack,Unpack"])
p("A truncated hierarchy page is never silently accepted",
  "If the file ends inside a hierarchy page, reading that page never returns a list of entries as if nothing happened: it throws, or (when the cut falls in the last 16 bytes of an entry) it reads indeterminate values, which the model reports as undefined behaviour.",
  "all page contents and every truncation point (crash point)", "crash points x contents", ["cpp/src/io/copc_reader.cpp:ReadPage","cpp/include/copc-lib/hierarchy/entry.hpp:Unpack"])
# ---- geometry
p("Box predicates mean what they say",
  "For boxes accepted by the constructor with non-NaN corners: Contains(point) iff every coordinate is between min and max inclusive; Contains(box) iff every point of the other box is in this one; Within is the converse; Intersects iff some point lies in both boxes; Intersects is symmetric; any NaN coordinate makes containment false. Constructors reject min>max.",
  "all boxes and all points over IEEE doubles including infinities and NaN", "2^768 box pairs", ["cpp/src/geometry/box.cpp:Intersects,Contains,Within,Box"])
p("Node boxes nest along the octree",
  "In exact arithmetic the box of a child key is inside the box of its parent and the eight child boxes cover the parent's box; hence a node's points, if inside its box, are inside the box of every ancestor. In IEEE arithmetic, for keys of the octree and a span that stays a normal number after the halvings, the low corner of a child is never below that of its parent, and its high corner exceeds that of its parent by at most 2^-50 times the size of the coordinates (rounding).",
  "all keys and all header bounds", "unbounded", ["cpp/src/geometry/box.cpp:Box(VoxelKey,LasHeader)","cpp/include/copc-lib/las/header.hpp:Span"])
p("Within a box implies intersecting it",
  "For every key and header with finite min<=max bounds and non-negative span, if the node box is within a query box then it also intersects it; hence GetNodesWithinBox is a sublist of GetNodesIntersectBox for the same resolution, and Crosses is Intersects minus Within.",
  "all keys, headers, boxes over IEEE doubles", "rounding corner cases", [K+":Intersects,Within,Crosses","cpp/src/io/copc_reader.cpp:GetNodesWithinBox,GetNodesIntersectBox"])
# ---- scaling
p("Rewriting points is lossless",
  "For every point record, unpacking it with a scale and offset and packing it again with the same scale and offset gives the identical bytes, in IEEE double arithmetic, whenever 2^-1000<=|scale|<=2^900 and |offset|<=2^51*|scale|.",
  "all records of formats 6-8 with any number of extra bytes, all scales and offsets in that range", "2^32 integers x 2^128 scale/offset pairs, rounding", ["cpp/include/copc-lib/las/utils.hpp:ApplyScale,RemoveScale","cpp/src/las/point.cpp:Pack,Unpack"])
p("Out of range coordinates are rejected, not wrapped",
  "Packing a coordinate either stores the integer nearest to (value-offset)/scale as computed in IEEE arithmetic, or throws when it does not fit an int32; it never stores a wrapped integer. (NaN passes the range check: undefined behaviour.) The stored value differs from the exact quotient by at most a half plus the accumulated rounding error.",
  "all doubles value, scale, offset", "2^192 inputs", ["cpp/include/copc-lib/las/utils.hpp:RemoveScale"])
p("Header inverse scaling inverts header scaling",
  "LasHeader.ApplyInverseScale(ApplyScale(v)) gives back v (in exact arithmetic, for non-zero scale).",
  "all vectors, scales and offsets", "universal over reals", ["cpp/include/copc-lib/las/header.hpp:ApplyScale,ApplyInverseScale"])
# ---- points
p("Packed point record layout",
  "Point.Pack writes exactly PointRecordLength bytes, in the LAS 1.4 field order for the point's format, and Point.Unpack consumes exactly that many bytes and recovers every field.",
  "all points, formats 6-8, any extra byte count", "all field values", ["cpp/src/las/point.cpp:Pack,Unpack","cpp/src/las/utils.cpp:PointBaseByteSize"])
p("Bit-field setters touch only their own bits",
  "Each of ReturnNumber, NumberOfReturns, Synthetic, KeyPoint, Withheld, Overlap, ScannerChannel, ScanDirectionFlag, EdgeOfFlightLineFlag reads back the value just set, leaves every other of these attributes unchanged, and rejects out-of-range values without any change.",
  "all initial bytes and all arguments", "interaction of every pair of setters on all 2^16 states", ["cpp/include/copc-lib/las/point.hpp"])
p("Format-gated attributes and format conversion",
  "RGB access throws exactly on format 6 and NIR access exactly on formats 6 and 7; ToPointFormat changes only the format, record length and these gates, preserves every attribute and the extra bytes, and rejects formats outside 6-8 without change. A copy of a point equals the original for non-NaN finite coordinates.",
  "all points, all format ids", "all states", ["cpp/src/las/point.cpp:ToPointFormat,Point(const Point&)","cpp/include/copc-lib/las/point.hpp:Red,Nir"])
p("Point collections stay homogeneous",
  "After any sequence of collection operations (AddPoint, AddPoints, CreatePoint, ToPointFormat, array setters) all points of a Points object have its format and record length; a rejected AddPoint/AddPoints leaves the collection unchanged (all or nothing).",
  "all operation histories on a collection whose points are not mutated elsewhere", "unbounded histories", ["cpp/src/las/points.cpp:AddPoint,AddPoints,ToPointFormat"])
p("Point array byte round trip",
  "Points.Unpack rejects every byte array whose size is not a multiple of the record length and otherwise yields size/length points in order; Points.Pack of the result gives back the same bytes; Pack length is Size*PointRecordLength.",
  "all byte arrays, formats, extra byte sizes", "unbounded inputs", ["cpp/src/las/points.cpp:Unpack,Pack"])
# ---- header
p("LAS header round trip",
  "FromLazPerf(ToLazPerf(h)) succeeds for every header of format 6-8 and returns the same attributes (bounds, scale, offset, points by return, dates, source id, strings shorter than their field, format, record length), with the WKT bit set and the point count, point offset, EVLR offset and count given at writing.",
  "all headers", "huge state space", ["cpp/src/las/header.cpp:FromLazPerf,ToLazPerf"])
p("Declared VLR count and legacy counts are right",
  "The VLR count put in the header equals the number of VLRs actually written for every configuration (extra bytes or not, extended stats or not, COPC or LAZ); the legacy point count is the point count when it fits 32 bits and 0 otherwise; extended stats on a non-COPC header are rejected.",
  "all configurations and counts", "all combinations and 64-bit counts", ["cpp/src/las/header.cpp:ToLazPerf","cpp/src/io/laz_base_writer.cpp:WriteLazAndEbVlrs","cpp/src/io/copc_writer_internal.cpp:WriteHeader"])
p("Bounds tracking is exact",
  "After CheckAndUpdateBounds over any sequence of points without NaN coordinates the header bounds contain every point and the previous bounds, are the smallest such bounds, and do not depend on the order or repetition of the points.",
  "all sequences of points", "unbounded sequences", ["cpp/src/las/header.cpp:CheckAndUpdateBounds"])
# ---- extents
p("Extents VLR round trip",
  "Writing the extents (and, if enabled, extended stats) and reading them back with the same format and extra byte count restores every dimension's minimum and maximum (and mean and variance); a VLR with the wrong number of items is rejected.",
  "all extents of any number of dimensions", "all doubles, all counts", ["cpp/src/copc/extents.cpp:ToLazPerf,ToLazPerfExtended,SetExtendedStats,CopcExtents(vlr)","cpp/src/las/vlr.cpp:CopcExtentsVlr::read,write"])
p("Extents survive a format change",
  "Building extents for another point format keeps every dimension present in both formats under the same accessor, gives defaults to new dimensions, and copies the extra-byte extents exactly when their number is unchanged.",
  "all source/target formats and extra byte counts", "index shifting errors on any combination", ["cpp/src/copc/extents.cpp:CopcExtents(other,format,eb,stats)"])
p("Extents constructors enforce order",
  "CopcExtent built from values has minimum<=maximum and variance>=0 or construction throws; the number of extents is 14/17/18 plus the number of extra byte items; ByteSize equals the number of bytes the VLR writes.",
  "all doubles and counts", "all doubles", ["cpp/src/copc/extents.cpp:CopcExtent,NumberOfExtents,ByteSize"])
# ---- config
p("Extra-byte sizes follow the type table",
  "The extra byte count of a configuration is the sum over the extra-byte items of the LAS size of their data type (the option byte for type 0); the record length of a new configuration is the base size plus that sum (mod 2^16), and EbByteSize inverts it; data types above 30 are undefined behaviour.",
  "all item lists", "unbounded lists", ["cpp/src/las/vlr.cpp:NumBytesFromExtraBytes","cpp/src/las/laz_config.cpp","cpp/src/las/utils.cpp:EbByteSize,PointByteSize"])
p("The reserved header area exactly fits",
  "For every configuration whose extra-byte items and record length agree, the header and VLRs written at Close occupy exactly the bytes reserved at construction, so they never overlap the chunk table pointer or point data; otherwise Close throws or leaves only zero padding.",
  "all configurations", "all item counts, flags, formats", ["cpp/src/io/copc_writer_internal.cpp:OffsetToPointData,WriteHeader","cpp/src/io/laz_base_writer.cpp:OffsetToPointData"])
# ---- writer
p("Chunk data is never overwritten",
  "In any history of AddNode calls followed by Close, the bytes of each node are stored contiguously at the offset and size in the returned Node, node byte ranges are disjoint, and no later AddNode nor Close changes them.",
  "all histories of add operations then Close", "unbounded histories", ["cpp/src/io/laz_base_writer.cpp:WriteChunk,WriteChunkTable","cpp/src/io/copc_writer_public.cpp:DoAddNode"])
p("Rejected additions have no effect",
  "If AddNode/AddNodeCompressed throws because of invalid keys, a key outside the target page, an empty or misaligned array, a format mismatch or a zero count, then the writer's observable state and the output stream are unchanged.",
  "all writer states and arguments", "all states", ["cpp/src/io/copc_writer_public.cpp:AddNode,AddNodeCompressed,DoAddNode"])
p("Moving a node between pages",
  "ChangeNodePage moves a node to the new page: afterwards the node is in exactly one page, the new one, the data and all other nodes are unchanged, empty non-root pages disappear; it throws on invalid or unknown keys and pages that are not ancestors.",
  "all writer states and all sequences of moves", "history dependent state", ["cpp/src/io/copc_writer_public.cpp:ChangeNodePage"])
p("The page tree written at Close is a tree rooted at the root page",
  "At Close each existing page other than the root is attached to its nearest existing ancestor page, exactly once, and every page is reachable from the root, so each page is written exactly once and children before parents; Close throws exactly when some page key lies outside the octree.",
  "all sets of pages", "unbounded page sets", ["cpp/src/io/copc_writer_internal.cpp:ComputePageHierarchy,WritePageTree,WritePage"])
p("Counts and chunk table are consistent",
  "At every moment the writer's point count is the sum of the point counts of the chunks (mod 2^64) and the chunk count is the number of successful writes; the chunk table written at Close has relative sizes whose running sums locate every chunk and whose total is the distance from the first chunk to the chunk table.",
  "all histories", "unbounded histories", ["cpp/src/io/laz_base_writer.cpp:WriteChunk,WriteChunkTable","cpp/include/copc-lib/io/laz_writer.hpp:PointCount,ChunkCount"])
p("A closed file is final",
  "Close is idempotent: closing again (including from the destructor) changes nothing; and no call after Close changes the file.",
  "all histories after Close", "history", ["cpp/src/io/copc_writer_internal.cpp:Close","cpp/src/io/laz_base_writer.cpp:Close,WriteChunk","cpp/src/io/copc_writer_public.cpp:DoAddNode"])
p("COPC write/read round trip of the hierarchy",
  "For any history of successful AddNode/AddNodeCompressed calls with distinct keys and positive counts followed by Close, a Reader on the resulting bytes finds for every key exactly the node that was added (offset, size, count, page) and an invalid node for all other keys; GetAllNodes is a permutation of the nodes added; GetPageList is a permutation of the pages; GetPointDataCompressed returns the very bytes stored.",
  "all histories, all configurations, all container iteration orders", "unbounded histories and orders", ["cpp/src/io/copc_reader.cpp","cpp/src/io/copc_base_io.cpp","cpp/src/io/copc_writer_internal.cpp"])
p("COPC write/read round trip of the points",
  "Under a lossless LAZ codec, GetPointData/GetPoints of a node read back from a closed file returns the records/points added (coordinates within half a scale step), and header PointCount is the total number of points.",
  "all points, all histories", "unbounded", ["cpp/src/io/copc_reader.cpp:GetPointData,GetPoints","cpp/include/copc-lib/laz/compressor.hpp","cpp/include/copc-lib/laz/decompressor.hpp"])
p("COPC write/read round trip of the metadata",
  "Opening a file written by the Writer restores the LAS header attributes, COPC info, extents, WKT string and extra-byte definitions of the configuration.",
  "all configurations with at most 341 extra byte items and text that fits its fields", "all configurations", ["cpp/src/io/base_reader.cpp","cpp/src/io/copc_reader.cpp:InitCopcReader"])
# ---- reader
p("Node lookup does not depend on history",
  "On a well-formed file FindNode(key) returns the same node whatever lookups, page listings or node listings were made before, and caching never changes an answer.",
  "all files, all histories of queries", "all histories", ["cpp/src/io/copc_base_io.cpp:FindNode,LoadPageHierarchy,ReadAndParsePage"])
p("Hierarchy traversal terminates",
  "Every query of a Reader terminates on every file (damaged, truncated or not) none of whose pages refers to itself directly or indirectly; on a well-formed file a page once read is not read again: a repeated lookup, or any lookup or listing after GetAllNodes, does not touch the file. (On a file whose page refers to its own key FindNode never terminates.)",
  "all page graphs", "termination", ["cpp/src/io/copc_base_io.cpp:FindNode,LoadPageHierarchy"])
p("Listing the children of a page",
  "GetAllChildrenOfPage(key) returns exactly the nodes of the page with that key and of its sub-pages, each once; the single node if only a node has that key; nothing for invalid or unknown keys; independent of earlier queries.",
  "all files, keys and histories", "all histories", ["cpp/src/io/copc_reader.cpp:GetAllChildrenOfPage"])
p("Depth for a resolution",
  "GetDepthAtResolution(r) is the maximum depth when r<=0 (or NaN), otherwise the smallest depth whose resolution (spacing halved that many times) is <=r, capped at the maximum depth; it is antitone in r; GetNodesAtResolution/GetNodesWithinResolution return exactly the nodes at/up to that depth.",
  "all hierarchies, spacings and resolutions over IEEE doubles", "all doubles", ["cpp/src/io/copc_reader.cpp:GetDepthAtResolution,GetNodesAtResolution,GetNodesWithinResolution"])
p("Points within a box are exactly the points in the box",
  "On a file whose points lie in the boxes of their nodes, GetPointsWithinBox(box, r) returns exactly (order and multiplicity) the points of nodes up to the requested depth that lie in the box; without that premise it never misses a point in a node that intersects.",
  "all files, boxes, resolutions", "unbounded", ["cpp/src/io/copc_reader.cpp:GetPointsWithinBox","cpp/include/copc-lib/las/points.hpp:GetWithin"])
p("Box node queries are filters",
  "GetNodesWithinBox/GetNodesIntersectBox return exactly the nodes of GetAllNodes that satisfy the predicate and depth bound, so a larger box or finer resolution never loses nodes; MaxBox returns all finite nodes.",
  "all files, boxes, resolutions", "unbounded", ["cpp/src/io/copc_reader.cpp:GetNodesWithinBox,GetNodesIntersectBox"])
p("ValidateSpatialBounds is sound and complete",
  "It returns true exactly when every node box intersects the header bounds and every point lies within the header bounds and within its node box; the verbose flag never changes the result.",
  "all files", "unbounded", ["cpp/src/io/copc_reader.cpp:ValidateSpatialBounds"])
p("A failed read does not corrupt later reads",
  "After a read that runs past the end of the file, later reads of intact nodes still return their correct data.",
  "all files and read histories", "error histories", ["cpp/src/io/copc_reader.cpp:GetPointDataCompressed"])
p("Output failures are reported",
  "If the output stream fails while a node is written (disk full), AddNode throws instead of returning a node.",
  "all failure points", "fault injection points", ["cpp/src/io/laz_base_writer.cpp:WriteChunk"])
p("VLR lookup",
  "FetchVlr returns the lowest file offset of a VLR/EVLR with the given user and record id and 0 when there is none; the WKT string of a file is returned exactly whether it is stored as a VLR or an EVLR.",
  "all VLR tables", "all tables", ["cpp/src/io/base_reader.cpp:FetchVlr,ReadWktVlr,ReadVlrHeaders"])
# ---- laz
p("LAZ writer",
  "LazWriter.WritePoints ignores empty collections, rejects mismatching formats without effect, and otherwise appends one chunk; a closed LAZ file has the declared point count, chunk table offset and EVLR count, and no chunk is overwritten by Close.",
  "all histories", "unbounded histories", ["cpp/src/io/laz_writer.cpp","cpp/src/io/laz_base_writer.cpp"])
p("Fixed-size record buffers are never overrun",
  "Decompression never writes outside its 255-byte record buffer.",
  "all formats and extra byte counts", "memory safety over all configurations", ["cpp/include/copc-lib/laz/decompressor.hpp:DecompressBytes","cpp/src/io/laz_reader.cpp:GetPointData"])
p("A node is never mistaken for a page",
  "Every entry written for a node is read back as a node and every entry written for a page as a page.",
  "all histories of AddNodeCompressed", "depends on the sign of a count", ["cpp/src/io/copc_writer_public.cpp:AddNodeCompressed","cpp/include/copc-lib/hierarchy/entry.hpp:IsPage"])
p("Multiprocess transforms do not depend on scheduling",
  "transform_multithreaded writes, for every completion order of its worker tasks and every chunk size, the same set of nodes with the same data, and the same header bounds; every selected node with points is written exactly once.",
  "all task completion orders, chunk sizes", "all schedules", ["python/copclib/mp/transform.py:transform_multithreaded","python/copclib/mp/utils.py:chunks"])
p("Writer overrides",
  "Constructing a Writer from a configuration with optional overrides changes exactly the overridden parameters: format, scale, offset, WKT, extra bytes, extended stats; every other attribute is that of the source configuration and the record length matches the new format and extra bytes.",
  "all configurations and override combinations", "2^6 combinations x all values", ["cpp/src/io/copc_writer_public.cpp:InitWriter"])
# ---- added as the model grew
p("Scan angle in degrees round trips",
  "Setting a point's scan angle in degrees to the value the degree getter just returned leaves the stored scan angle unchanged.",
  "all 65536 scan angles", "all stored angles, and float rounding", ["cpp/include/copc-lib/las/point.hpp:ScanAngleDegrees"])
p("Array accessors agree with point accessors",
  "On a collection of distinct points, an array setter given an array of the collection's size makes the matching array getter return that array and changes nothing else; an array of another size is rejected without effect; Within and GetWithin select exactly the points whose coordinates lie in the box.",
  "all collections and arrays", "unbounded collections", ["cpp/include/copc-lib/las/points.hpp:X,Y,Z,Classification,PointSourceId,Within,GetWithin"])
p("A failed Close can be retried",
  "If Close throws for a reason the caller can repair (for example header bounds in the wrong order), then after repairing it a second Close writes a file whose chunk table, extended VLR count and hierarchy describe exactly what was added.",
  "all histories and all repairable causes of failure", "all failure points of Close", ["cpp/src/io/base_writer.cpp:WriteChunkTable","cpp/src/io/copc_writer_internal.cpp:Close"])
p("Multiprocess reads do not depend on scheduling",
  "For every completion order of the worker tasks and every positive chunk size, read_concat_xyz_class_limit returns the coordinates of exactly the points of the selected nodes whose classification is allowed (all points if no limits are given), node by node in some order, and read_map_xyz_class_limit returns a dictionary with exactly one item for each selected node that has such points: their coordinates in file order.",
  "all task completion orders, assignments to workers, chunk sizes, files", "all schedules", ["python/copclib/mp/read.py:read_multithreaded,_do_read_xyz,read_concat_xyz_class_limit,read_map_xyz_class_limit","python/copclib/mp/utils.py:chunks"])
p("A LAZ file reads back as written",
  "For every history of WritePoints calls on a LazWriter that ends with a Close that returns, a newly opened LazReader on the file returns from its first GetPoints exactly the points given to the calls that returned, in order, each what it becomes when stored; GetPointData returns the same records as bytes.",
  "all histories of calls, configurations and points", "unbounded histories and points", ["cpp/src/io/laz_reader.cpp:GetPointData,GetPoints","cpp/src/io/laz_writer.cpp:WritePoints,Close","cpp/src/io/laz_base_writer.cpp:WriteChunkTable"])
p("Compressing and decompressing byte vectors",
  "For point formats 6 to 8 and records of at most 255 bytes, CompressBytes of whole records (at most 2^31-1 bytes) returns, and DecompressBytes of the result with the number of records gives the bytes back; CompressBytes is refused exactly for bytes that are not whole records or too many; giving the result of CompressBytes to AddNodeCompressed has the same outcome and effect as giving the bytes to AddNode.",
  "all byte vectors, formats, extra byte counts and writer states", "all byte vectors", ["cpp/include/copc-lib/laz/compressor.hpp:CompressBytes","cpp/include/copc-lib/laz/decompressor.hpp:DecompressBytes","cpp/src/io/copc_writer_public.cpp:AddNodeCompressed,AddNode"])
p("Points is a Python sequence",
  "For every collection and every Python int, points[i] and points[i]=v address the item Python lists would (negative indices from the end) and raise for others; assignment replaces exactly that item. For every slice, points[a:b:c] has exactly the points a Python list would give, in order, in a collection of the same format (raising when nothing is selected or the step is 0), and slice assignment with as many points as are selected replaces exactly these, raising otherwise.",
  "all collections, integers, slices", "unbounded integers and steps", ["python/bindings.cpp:wrap_i,__getitem__,__setitem__"])
p("Pickling preserves values",
  "Unpickling the pickle of a VectorChar, VoxelKey, Node, Vector3 or LasHeader gives an equal object with every attribute.",
  "all objects", "all values", ["python/bindings.cpp:py::pickle"])
p("Keys identify nodes in dictionaries",
  "VoxelKey == holds exactly for the same four numbers; equal keys have equal hashes; the texts str(key) of different keys are different, so the dictionary of read_map_xyz_class_limit never merges two nodes.",
  "all pairs of keys", "all pairs", ["cpp/src/hierarchy/key.cpp:ToString","cpp/include/copc-lib/hierarchy/key.hpp:operator==,hash","python/copclib/mp/read.py:read_map_xyz_class_limit"])
p("Equality operators compare all attributes",
  "== on nodes, entries, vectors, extents and extra-byte descriptors is true exactly when all attributes are the same (numbers as IEEE numbers).",
  "all pairs of objects", "all pairs", ["cpp/include/copc-lib/las/vlr.hpp:operator==","cpp/include/copc-lib/hierarchy/entry.hpp:IsEqual","cpp/include/copc-lib/hierarchy/node.hpp:operator==","cpp/include/copc-lib/geometry/vector3.hpp:operator==","cpp/include/copc-lib/copc/extents.hpp:operator=="])
p("An unfinished file is not mistaken for a finished one",
  "If the program dies at any byte of its output before Close has returned, a reader refuses the file that is left, or finds in it all that the finished file has.",
  "all histories of calls and all crash points", "every byte is a crash point of every history", ["cpp/src/io/copc_writer_internal.cpp:WriterInternal,Close,WriteHeader","cpp/src/io/laz_base_writer.cpp:WriteChunkTable,WriteChunk","cpp/src/io/copc_base_reader.cpp:InitCopcReader"])
p("Copying nodes preserves them",
  "Giving any selection of the nodes of a written file to AddNodeCompressed of a new writer (key, GetPointDataCompressed, point count and page key, as in the trimming example) is never refused; once the new writer is closed, its file has exactly the selected nodes, with the same compressed bytes, point counts and pages; with the reader's point format, record length, scale and offset GetPoints returns the very same points from both files.",
  "all written files, selections, iteration orders and queries in between", "all files and all selections", ["example/example-writer.cpp:TrimFileExample","cpp/src/io/copc_writer_public.cpp:AddNodeCompressed","cpp/src/io/copc_reader.cpp:GetPointDataCompressed,GetAllNodes,GetPoints"])
p("Destroying a writer is closing it",
  "A Writer, LazWriter, FileWriter or LazFileWriter that is destroyed without Close leaves exactly the file that Close would have written; destroying it after Close changes nothing; and once Close of a FileWriter or LazFileWriter (the classes Python has) has returned, no further call of any kind changes the bytes of the file.",
  "all writers, histories of calls before and after Close, stream failures", "all histories; destructors run three nested Close calls", ["cpp/include/copc-lib/io/copc_writer.hpp:~Writer,~FileWriter","cpp/include/copc-lib/io/internal/copc_writer_internal.hpp:~WriterInternal","cpp/include/copc-lib/io/laz_base_writer.hpp:~BaseWriter","cpp/include/copc-lib/io/laz_writer.hpp:LazFileWriter","cpp/src/io/copc_writer_public.cpp:FileWriter::Close"])
p("Exceptions of Close can be handled",
  "An exception thrown by Close (full disk, bounds in the wrong order, a page outside the octree) has the same cause every time Close is called, and a program that catches it can dispose of the writer and go on.",
  "all writers, streams and causes", "every failure of every history", ["cpp/include/copc-lib/io/copc_writer.hpp:~Writer","cpp/src/io/copc_writer_internal.cpp:Close","cpp/src/io/laz_base_writer.cpp:Close"])
p("A refused construction has no effect",
  "When the constructor of a FileWriter or LazFileWriter throws, the file that was at the path still has its contents, and the program goes on.",
  "all configurations, overrides and files", "all arguments", ["cpp/include/copc-lib/io/copc_writer.hpp:FileWriter","cpp/include/copc-lib/io/laz_writer.hpp:LazFileWriter","cpp/src/io/laz_base_writer.cpp:BaseFileWriter","cpp/src/io/copc_writer_public.cpp:InitWriter"])
p("Converting a COPC file to LAZ keeps points and metadata",
  "Giving GetPointDataCompressed of every node of a written COPC file to WritePointsCompressed of a LazWriter made from the reader's configuration is never refused; once closed, the LAZ file has the LAS header values, WKT and extra-byte descriptors of the original, and GetPoints returns the points of the nodes one after the other in the order of GetAllNodes, as many as the header says.",
  "all written files, iteration orders and queries before", "all files and orders", ["cpp/src/io/laz_writer.cpp:WritePointsCompressed","cpp/src/las/laz_config.cpp:LazConfig","cpp/src/io/copc_reader.cpp:GetPointDataCompressed,GetAllNodes","cpp/src/io/laz_reader.cpp:GetPoints"])
p("Copying with decompression is copying",
  "Reading the points of the nodes as bytes, compressing them with Compressor::CompressBytes and the writer's header and giving them to AddNodeCompressed leaves the new writer in the very state that copying the compressed bytes does.",
  "all written files, selections of nodes, orders", "all files and selections", ["example/example-writer.cpp:TrimFileExample","cpp/include/copc-lib/laz/compressor.hpp:CompressBytes","cpp/src/io/copc_reader.cpp:GetPointData"])
p("Filtering points keeps exactly the chosen ones",
  "For every test of a point: a program that adds to a new writer, for every node of a written file, the points of GetPoints for which the test is true (if there are any) gets a file in which GetPoints of every node returns exactly these points, in their order, with every attribute and coordinate unchanged, and in which no other node exists.",
  "all tests, files, orders", "all predicates on points and all files", ["cpp/src/io/copc_reader.cpp:GetPoints","cpp/src/las/points.cpp:Pack,Unpack","cpp/src/io/copc_writer_public.cpp:AddNode"])
p("Trimming a file to a box",
  "The program of BoundsTrimFileExample (nodes within the box copied as they are, nodes that meet it filtered, others left out) runs for every file and box, and GetPoints of every node of the new file returns exactly the points of the original that lie in the box; nodes without such a point are not in the file.",
  "all written files whose points lie in the boxes of their nodes, all boxes", "all files and boxes; floating-point boxes of nodes", ["example/example-writer.cpp:BoundsTrimFileExample","cpp/src/hierarchy/key.cpp:Within,Intersects","cpp/include/copc-lib/las/points.hpp:GetWithin","cpp/src/las/points.cpp:Points"])
p("Writing to a file is writing to a stream",
  "A FileWriter (LazFileWriter) on a path that can be opened is constructed exactly when a Writer (LazWriter) on a new empty stream is, whatever the file held before; every call on it until Close has the outcome it has on the stream writer, and after Close, or destruction without Close, the file has exactly the bytes the stream would have. So all that holds for files written through streams holds for files.",
  "all configurations, overrides, old file contents, histories of calls", "all histories", ["cpp/include/copc-lib/io/copc_writer.hpp:FileWriter","cpp/include/copc-lib/io/laz_writer.hpp:LazFileWriter","cpp/src/io/laz_base_writer.cpp:BaseFileWriter","cpp/src/io/copc_writer_public.cpp:FileWriter::Close"])
p("Reading a file",
  "A FileReader (LazFileReader) is a reader on the bytes of the file; the file is closed exactly once, by Close, which may be repeated, or by destruction, and not left open by a constructor that throws; after Close a call either gives the answer it would have given before or throws.",
  "all files, sequences of queries and Close calls", "all files and call sequences", ["cpp/include/copc-lib/io/copc_reader.hpp:FileReader","cpp/include/copc-lib/io/laz_reader.hpp:LazFileReader","python/bindings.cpp:FileReader"])
p("A file that was cut is not misread",
  "For every file a Writer wrote and every number of bytes lost at its end: the constructor of Reader throws, or the reader has the header, COPC information, extents, WKT and extra bytes of the whole file, and every value any of its calls returns (nodes, pages, points, point data, compressed data of a key, verdicts) is the value the whole file gives for the same calls.",
  "all written files, all lengths they are cut to, all histories of successful calls", "all files, cuts and call sequences", ["cpp/src/io/base_reader.cpp:InitReader,ReadVlrHeaders","cpp/src/io/copc_reader.cpp:InitCopcReader,GetPointDataCompressed","cpp/include/copc-lib/hierarchy/entry.hpp:Unpack","cpp/src/hierarchy/page.cpp","cpp/src/io/copc_base_io.cpp:FindNode","cpp/src/copc/extents.cpp"])
p("Bytes after the end of a file do not matter",
  "A COPC file that opens without exhausting the stream also opens with any bytes after its end, with the same configuration, and returns the same values for the same calls; of a file a Writer wrote, the same nodes are found.",
  "all files that open, all bytes after them, all histories of successful calls", "all files and trailing bytes", ["cpp/src/io/base_reader.cpp:InitReader","cpp/src/io/copc_reader.cpp:InitCopcReader","cpp/src/io/copc_base_io.cpp:FindNode"])
p("A writer accepts exactly the good additions",
  "On a stream that takes every byte, an AddNode or AddNodeCompressed on a Writer that was not closed returns exactly when the keys are valid, the node's key is at or below the page's, and the data are not empty, are whole records of the file's format (AddNode) and at most 2^31-1 bytes, whatever was done before; the node returned has the key, the page, the end of the file so far and the size given, and FindNode of the writer always returns the node added last with a key.",
  "all configurations, histories of calls before, keys, pages and data", "all histories and arguments", ["cpp/src/io/copc_writer_public.cpp:DoAddNode,AddNode,AddNodeCompressed","cpp/src/io/laz_base_writer.cpp:WriteChunk","cpp/src/io/copc_base_io.cpp:FindNode"])
p("Adding a key again replaces the node",
  "When a key is added again, the writer and the file read back have exactly the new node under the key: FindNode returns it whatever was asked before, GetAllNodes returns it and not the old one, its data are those of the last addition, and the header counts its points only.",
  "all histories of additions, orders and queries", "all histories", ["cpp/src/io/copc_writer_public.cpp:DoAddNode","cpp/src/io/copc_base_io.cpp:FindNode","cpp/src/io/copc_writer_internal.cpp:Close"])
p("Configurations and writers are independent objects",
  "A program can make any number of configurations and writers from each other and edit their headers, COPC information and extents through the pointers it gets: an edit of, or a call on, one object changes no other object, copying or giving a configuration to a writer takes its value at that moment, and what a writer writes depends on its own calls and edits only.",
  "all programs: sequences of constructions, copies, edits and calls on any number of objects", "all interleavings of calls on all objects", ["cpp/include/copc-lib/las/laz_config.hpp:LazConfigWriter","cpp/include/copc-lib/copc/copc_config.hpp:CopcConfigWriter","cpp/src/io/laz_writer.cpp:LazWriter","cpp/src/io/copc_writer_public.cpp:InitWriter","cpp/src/copc/extents.cpp:CopcExtents"])
p("Writing to a stream that holds something",
  "A Writer or LazWriter on a stream that already holds data (a file opened for updating, a string stream used before) writes the same file as on a new stream: every call has the same outcome and after Close the stream holds the same bytes.",
  "all configurations, all old contents of the stream, all histories of calls", "all old contents and histories", ["cpp/src/io/laz_writer.cpp:LazWriter","cpp/src/io/copc_writer_internal.cpp:WriterInternal","cpp/src/io/laz_base_writer.cpp:WriteChunk,WriteChunkTable,Close"])
p("Trimming a file to a resolution",
  "Asking a file written by the library for the depth of a resolution and copying, compressed, the nodes down to that depth into a new file (the resolution example) gives a file with exactly those nodes. Its GetMaxDepth is the depth of the deepest of them; when the old file reaches the resolution so does the new one, and asked about the same resolution it gives the same depth.",
  "all written files, resolutions, earlier queries, iteration orders, writer configurations with the same spacing", "all files and resolutions (all doubles)", ["example/example-writer.cpp:ResolutionTrimFileExample","cpp/src/io/copc_reader.cpp:GetDepthAtResolution","cpp/src/io/copc_writer_public.cpp:AddNodeCompressed"])
p("Good use always gives a file that reads back",
  "A program that makes a Writer with a storable configuration whose bounds are in order, makes fewer than 2^25 good additions under distinct keys with pages of the octree, and closes it: every addition returns, Close returns, the file opens, and a Reader finds every addition (node, page, count, bytes) and nothing else, whatever it was asked before. Likewise a LazWriter given collections of points of its format: every call and Close return, and LazReader::GetPoints gives the points back in order. No outcome of a library call is assumed.",
  "all configurations, plans of additions, collections of points, iteration orders and later queries", "all configurations and plans", ["cpp/src/io/copc_writer_public.cpp:DoAddNode","cpp/src/io/copc_writer_internal.cpp:Close","cpp/src/io/laz_writer.cpp:WritePoints","cpp/src/io/laz_base_writer.cpp:Close","cpp/src/io/copc_reader.cpp:FindNode","cpp/src/io/laz_reader.cpp:GetPoints"])
p("A program that writes points gets its points back",
  "From the arguments of the configuration to the points read: with a format 6-8, extra-byte items and WKT that a file can hold, any edits of the header within its field sizes and bounds in order, and nodes with distinct valid keys whose points are of the file's format (as points and collections made from its header always are) and whose coordinates the scale and offset can store, no call of the whole program fails, and a Reader of the file, whatever it was asked before, has the number of points, lists exactly the keys with their pages and counts, and gives for each key the points that were added. Points can be packed exactly when all coordinates fit. Likewise for LazConfigWriter, LazWriter and LazReader.",
  "all arguments, edits, keys, pages, points, iteration orders and queries", "all programs of this shape", ["cpp/src/copc/copc_config.cpp:CopcConfigWriter","cpp/src/las/laz_config.cpp:LazConfigWriter","cpp/src/las/point.cpp:Point","cpp/src/las/points.cpp:Points,Pack","cpp/src/io/copc_writer_public.cpp:AddNode","cpp/src/io/laz_writer.cpp:WritePoints","cpp/src/io/copc_reader.cpp:GetPoints,GetAllNodes","cpp/src/io/laz_reader.cpp:GetPoints"])
p("A LAZ reader can be read more than once",
  "Every GetPointData or GetPoints of a LazReader returns what the first one returned.",
  "all LAZ files, all numbers of calls", "all files and call sequences", ["cpp/src/io/laz_reader.cpp:GetPointData,GetPoints","cpp/include/copc-lib/io/base_reader.hpp:reader_"])
p("Any reader of the published formats finds what was written",
  "A file of the library's Writer, read as raw bytes by the positions of the LAS 1.4 and COPC 1.0 documents and without the library: the header has the values the program set; the first VLR is the COPC info with centre, half size, spacing and GPS time range; from the root page it gives, following page entries, exactly the nodes added are found, each in one place, with key, place, size and count; every page is the payload of an extended VLR (\"copc\", 1000); WKT, extents, statistics and extra-byte descriptors are the payloads of their records; the number of points and the offsets to point data and chunk table are right and the chunk of every node lies between them and holds what was added.",
  "all configurations, histories and iteration orders", "all written files", ["cpp/src/las/header.cpp:ToLazPerf","cpp/src/copc/info.cpp:ToLazPerf","cpp/include/copc-lib/hierarchy/entry.hpp:Pack","cpp/src/io/copc_writer_internal.cpp:Close,WritePage,WriteHeader","cpp/src/io/laz_base_writer.cpp:WriteChunk,WriteChunkTable,WriteLazAndEbVlrs"])
p("Legacy fields of the header",
  "In a file the library writes (point formats 6 to 8) the legacy number of points and the five legacy numbers of points by return are 0, as LAS 1.4 requires for these formats.",
  "all configurations and histories", "all written files", ["cpp/src/las/header.cpp:ToLazPerf","cpp/src/io/copc_writer_internal.cpp:WriteHeader"])
p("Any LAZ reader finds what LazWriter wrote",
  "A file of LazWriter, read as raw bytes by the positions of the LAS 1.4 document and LASzip's chunk layout and without the library: the header has the values the program set and the number of points; the offset to point data leads to the offset of the chunk table; between them are the chunks of the calls that wrote one, in order and without gaps; the chunk table starts with version 0 and their number; the VLRs are exactly the extra-byte descriptors (when points have extra bytes) and the LASzip VLR, and the WKT string is the only extended VLR.",
  "all configurations and histories", "all written files", ["cpp/src/las/header.cpp:ToLazPerf","cpp/src/io/laz_base_writer.cpp:Close,WriteChunk,WriteChunkTable,WriteLazAndEbVlrs,WriteHeader,WriteWKT"])
p("Copies of a writer",
  "Writers can be copied (passed by value, kept in containers): a call through any copy is a call on the one file, destroying a copy changes nothing as long as another is left, and when all are gone the file holds everything that was added through any of them.",
  "all programs that copy, call and destroy copies in any order", "all sequences of copies, calls and destructions", ["cpp/include/copc-lib/io/copc_writer.hpp:Writer,~Writer","cpp/include/copc-lib/io/laz_writer.hpp:LazWriter","cpp/include/copc-lib/io/laz_base_writer.hpp:BaseWriter"])
p("Extents and bounds of a file agree",
  "In a file the library writes, the X, Y and Z extents of the extents VLR (for which the writer passes the bounds of the header) are the bounds of the header, whatever was set in the configuration's extents.",
  "all configurations, edits and histories", "all written files", ["cpp/src/copc/extents.cpp:ToLazPerf","cpp/src/io/copc_writer_internal.cpp:WriteHeader"])
p("Readers on one stream",
  "Any number of Readers can be made on one std::istream, at any time and wherever the stream is positioned, and used in any order: every call on one of them gives what it would give had only the calls on that reader been made on a stream of its own.",
  "all files, numbers of readers, schedules of constructions, calls and seeks", "all interleavings", ["cpp/include/copc-lib/io/base_reader.hpp:BaseReader,in_stream_","cpp/src/io/base_reader.cpp:InitReader,ReadVlrHeaders","cpp/src/io/copc_reader.cpp:ReadPage,GetPointData,GetPointDataCompressed","cpp/src/io/copc_base_io.cpp:FindNode,LoadPageHierarchy"])
p("Files of other programs",
  "A file of any program that follows LAS 1.4 and COPC 1.0 (header, records in any order and of any kinds, info VLR first, WKT, extra-byte descriptors, extents and statistics where the formats have them) is opened by Reader, and every value of its configuration is the one the file has at the positions of the formats: all header fields, the COPC info, the WKT, every extra-byte descriptor, every extent. Nodes found in its pages give the bytes of their chunk, the records in it and, as points, every attribute from its position in the record.",
  "all files, all queries made before", "all files of any producer", ["cpp/src/io/base_reader.cpp:InitReader,ReadVlrHeaders,ReadWktVlr,ReadExtraBytesVlr","cpp/src/io/copc_reader.cpp:InitCopcReader,ReadCopcInfoVlr,ReadCopcExtentsVlr,GetPoints","cpp/src/las/header.cpp:FromLazPerf","cpp/src/las/point.cpp:Unpack","cpp/src/copc/extents.cpp:CopcExtents,SetExtendedStats"])
p("LAZ files of other programs",
  "A LAZ file of any program that follows LAS 1.4 (point format 6 to 8, chunks of varying sizes or of one size) is opened by LazReader; its configuration has the header fields, the WKT and the extra-byte descriptors that the file has at the positions of the format; GetPointData gives the records of the chunks in order and GetPoints the points they are, every attribute from its position in the record.",
  "all files, chunkings and records", "all files of any producer", ["cpp/src/io/laz_reader.cpp:GetPointData,GetPoints","cpp/include/copc-lib/io/laz_reader.hpp:LazReader","cpp/src/io/base_reader.cpp:InitReader,ReadVlrHeaders,ReadWktVlr,ReadExtraBytesVlr","cpp/src/las/header.cpp:FromLazPerf","cpp/src/las/point.cpp:Unpack"])
p("Copying files of other programs",
  "A program that opens any file following LAS 1.4 and COPC 1.0, makes a Writer with the reader's configuration, adds the compressed chunk of every node of any selection of GetAllNodes and closes it (the examples do this): every call returns, the new file opens with the same header fields, COPC info, WKT, extra-byte descriptors and extents, and a Reader of it, whatever it was asked before, finds exactly the selected nodes with their page, count, size and compressed bytes and, for records of the chunk, the same points.",
  "all files of any producer, selections, earlier queries, iteration orders", "all files and selections", ["example/example-writer.cpp:TrimFileExample,BoundsTrimFileExample","cpp/src/io/copc_reader.cpp:ReadCopcExtentsVlr,GetAllNodes,GetPointDataCompressed","cpp/src/io/copc_writer_public.cpp:AddNodeCompressed","cpp/src/io/copc_writer_internal.cpp:InitWriter,Close","cpp/src/copc/copc_config.cpp:CopcConfigWriter"])
p("Converting COPC files of other programs to LAZ",
  "A program that opens any file following LAS 1.4 and COPC 1.0, makes a LazWriter with LazConfigWriter(reader.CopcConfig()), writes the compressed chunk of every node of any selection of GetAllNodes and closes it: every call returns, and a LazReader of the new file has the LAS header fields, the WKT and the extra-byte descriptors of the original, the number of the points, and GetPoints gives the points of the selected nodes in their order, every attribute as it is in the record of the original file.",
  "all files of any producer, selections, earlier queries, iteration orders", "all files and selections", ["cpp/src/las/laz_config.cpp:LazConfig","cpp/src/io/laz_writer.cpp:LazWriter,WritePointsCompressed","cpp/src/io/laz_base_writer.cpp:Close,WriteChunk","cpp/src/io/copc_reader.cpp:GetAllNodes,GetPointDataCompressed","cpp/src/io/laz_reader.cpp:GetPoints"])
p("Selecting points of files of other programs",
  "A program that opens any file following LAS 1.4 and COPC 1.0, makes a Writer with the reader's configuration, adds for every node the points for which a test is true (any test; or being in a box, taking nodes whose box is inside as they are, as the example does, with a check that a point is left) and closes it: every call returns, the new file has the same metadata, and a Reader of it, whatever it was asked before, gives for every node exactly the points of the original for which the test is true, in order and with every attribute as in the record of the original; nodes without such points, and other nodes, are not there.",
  "all files of any producer, tests and boxes, earlier queries, iteration orders", "all files and tests", ["example/example-writer.cpp:BoundsTrimFileExample","cpp/src/io/copc_reader.cpp:GetPoints,GetAllNodes,GetPointDataCompressed","cpp/src/io/copc_writer_public.cpp:AddNode,AddNodeCompressed","cpp/src/las/points.cpp:Points,Pack,GetWithin","cpp/src/las/point.cpp:Pack,Unpack","cpp/src/hierarchy/key.cpp:Within,Intersects"])
p("Computing new points from files of other programs",
  "A program that opens any file following LAS 1.4 and COPC 1.0, makes a Writer with any configuration, and for every node adds the points that any function makes of the points of that node (a conversion to another format with ToPointFormat, another scale and offset, changed attributes, points left out), none if it makes none, and closes it: every call returns, the new file has the writer's metadata and the number of points made, and a Reader of it, whatever it was asked before, gives for every node the points that the function made of the original's, with every attribute, and coordinates as the new scale stores them; converting keeps coordinates, attributes and extra bytes, keeps the colours both formats have and gives zero for new ones; other nodes are not there.",
  "all files of any producer, functions, writer configurations, formats, scales, earlier queries, iteration orders", "all files and functions", ["cpp/src/io/copc_reader.cpp:GetPoints,GetAllNodes","cpp/src/io/copc_writer_public.cpp:AddNode","cpp/src/io/copc_writer_internal.cpp:InitWriter","cpp/src/las/points.cpp:Points,ToPointFormat,Pack","cpp/src/las/point.cpp:ToPointFormat,Pack,Unpack","cpp/src/copc/copc_config.cpp:CopcConfigWriter"])
p("Converting LAZ files of other programs to COPC",
  "A program that opens any LAZ file following LAS 1.4 with LazReader, makes a CopcConfigWriter from the point format, scale, offset, WKT and extra bytes that the reader gives (then sets bounds, identifiers, info), makes a Writer, adds the points of GetPoints distributed over distinct keys by any function of a point, with any pages of the octree, and closes it: every call returns; a Reader of the new file, whatever it was asked before, has the metadata that was set with the scale, offset, WKT and extra-byte descriptors of the LAZ file and its number of points; its nodes are exactly the keys with points; the points of a key are those of the LAZ file with this place, in their order, with every attribute and coordinate as in the record of the original. No point is lost or there twice.",
  "all files of any producer, functions, keys and pages, edits of the configuration, earlier queries, iteration orders", "all files and distributions", ["cpp/src/io/laz_reader.cpp:GetPoints","cpp/src/copc/copc_config.cpp:CopcConfigWriter","cpp/src/io/copc_writer_public.cpp:AddNode","cpp/src/io/copc_writer_internal.cpp:InitWriter,Close","cpp/src/las/points.cpp:AddPoint,Pack","cpp/src/las/point.cpp:Pack,Unpack","cpp/src/io/copc_reader.cpp:GetAllNodes,GetPoints"])
p("A COPC file is a LAZ file",
  "A file written with Writer, opened with LazReader: it opens and gives the header fields, WKT and extra-byte descriptors of the writer's configuration and the number of points; GetPointData gives the records of all points given to the additions that returned, and GetPoints the points, chunk after chunk in the order of the additions, every attribute kept, coordinates as the scale stores them, whatever the octree and the pages are. (Records of at most 255 bytes; no addition failed because its chunk was too large.)",
  "all configurations, histories of additions and edits, octrees and pages", "all histories", ["cpp/include/copc-lib/io/laz_reader.hpp:LazReader","cpp/src/io/laz_reader.cpp:GetPointData,GetPoints","cpp/src/io/copc_writer_internal.cpp:Close,WriteHeader","cpp/src/io/copc_writer_public.cpp:AddNode,AddNodeCompressed","cpp/src/io/laz_base_writer.cpp:WriteChunk,WriteChunkTable","cpp/src/io/base_reader.cpp:InitReader,ReadVlrHeaders"])
p("Files that are not what they should be are refused",
  "Whatever the bytes of a stream are: if Reader opens it, it has a full header of LAS 1.4 with the WKT bit, a header size of 375 and point format 6, 7 or 8, a record with the ids of the COPC info right after the header and a record with the ids of the COPC hierarchy; if LazReader opens it, it has such a header and a record with the ids of LASzip. No other stream is opened. In particular Reader refuses every LAZ file written with LazWriter with the exception for a missing VLR.",
  "all byte strings; all files written with LazWriter", "all byte strings", ["cpp/src/io/base_reader.cpp:InitReader,ReadVlrHeaders,FetchVlr","cpp/src/io/copc_reader.cpp:InitCopcReader,ReadCopcInfoVlr","cpp/include/copc-lib/io/laz_reader.hpp:LazReader","cpp/src/las/header.cpp:FromLazPerf","cpp/src/las/vlr.cpp:VlrHeader"])
p("The same calls give the same file",
  "Additions that Writer refuses (all exceptions but the two that come after the chunk has been written) leave no trace: without them, the calls lead to the same writer and so to the same bytes; likewise for LazWriter. Two runs of one program whose containers are iterated in different orders (hash table of the nodes of a page, set of pointers to sub-pages) both give a file, of the same length and with the same bytes except between the place where the header says the extended VLRs begin and the record of the WKT, that is in the hierarchy pages.",
  "all configurations, histories of additions, moves, edits and rejected calls; all iteration orders", "all histories and orders", ["cpp/src/io/copc_writer_internal.cpp:Close,ComputePageHierarchy,WritePageTree,WritePage,WriteHeader","cpp/src/io/copc_writer_public.cpp:AddNode,AddNodeCompressed","cpp/src/io/laz_writer.cpp:WritePoints,WritePointsCompressed","cpp/include/copc-lib/hierarchy/internal/hierarchy.hpp:Hierarchy"])
p("Rewriting a LAZ file gives the same file",
  "A program that opens a file written with LazWriter (records of at most 255 bytes, no chunk too large), makes a LazWriter with the configuration of the LazReader and writes the same records in chunks of the same sizes, as compressed data or as points, gives the same file, byte by byte, whatever calls were refused in either run. In particular the points of GetPoints, written in groups of the sizes of the chunks, give the file again, for a scale and an offset with which stored coordinates come back exactly (see C11): reading loses nothing that the file has.",
  "all configurations, histories of calls and edits, records, groupings", "all files written", ["cpp/src/io/laz_reader.cpp:GetPoints","cpp/src/io/laz_writer.cpp:LazWriter,WritePoints,WritePointsCompressed","cpp/src/io/laz_base_writer.cpp:WriteHeader,WriteChunk,WriteChunkTable,WriteWKT,Close","cpp/src/io/base_reader.cpp:InitReader","cpp/src/las/header.cpp:FromLazPerf,ToLazPerf","cpp/src/las/points.cpp:Pack,Unpack"])

p("Rewriting a COPC file gives the same file",
  "A program that opens a file written with Writer, makes a Writer with the configuration of the Reader and makes the same additions and moves again (without any edit of the configuration that the first program made), or adds for every node, in the order of the additions, the compressed chunk that the file has for it, the records of GetPointData or the points of GetPoints (for a scale and an offset with which stored coordinates come back exactly, see C11), gives the same file, byte by byte: header, COPC info, extents, WKT, chunk table and hierarchy. Reading the configuration and the chunks loses nothing that the file has, and the fields of the header and of the COPC info that Close fills in are not taken from the old file into the new one wrongly.",
  "all configurations, histories of additions, moves, rejected calls and edits", "all files written", ["cpp/src/io/copc_writer_internal.cpp:InitWriter,Close,WriteHeader","cpp/src/io/copc_writer_public.cpp:AddNode,AddNodeCompressed,ChangeNodePage","cpp/src/io/laz_base_writer.cpp:WriteChunk,WriteChunkTable,WriteHeader","cpp/src/io/copc_reader.cpp:InitReader,GetPointDataCompressed","cpp/src/io/base_reader.cpp:InitReader","cpp/src/las/header.cpp:FromLazPerf,ToLazPerf","cpp/src/copc/info.cpp:Pack","cpp/src/copc/extents.cpp:ToLazPerf"])

p("What the writers write follows the formats",
  "Every file that Writer wrote (any configuration that can be stored, any history) follows LAS 1.4 and COPC 1.0, as a description by positions of files of any producer says, in every respect of the description: signature, version, WKT bit, header size, compressed point format, header, VLRs, points and extended VLRs follow each other, every record lies within its part of the file, user ids are filled up with zeros, the info VLR is first with 160 bytes, there is a hierarchy, extents and statistics have one pair per dimension with the lower bound first and variances that are not negative; text fields have a terminating zero, each record is of the kind that readers look for it in, the sizes fit an int. So Reader opens it and gives what it has. Likewise every file that LazWriter wrote follows LAS 1.4 (same fields). In both cases the chunks and the chunk table are laid out as the format says for chunks of varying sizes, with the records that the calls gave. So what is proved of files of other producers is true of the library's own.",
  "all configurations, histories of additions, moves, rejected calls and edits; both writers", "all files written", ["cpp/src/io/copc_writer_internal.cpp:Close,WriteHeader,WritePage","cpp/src/io/laz_base_writer.cpp:WriteHeader,WriteWKT,Close","cpp/src/las/header.cpp:ToLazPerf","cpp/src/copc/extents.cpp:ToLazPerf","cpp/src/las/vlr.cpp:VlrHeader","cpp/src/io/base_reader.cpp:InitReader","cpp/src/io/copc_reader.cpp:InitCopcReader"])

with open("/verif/properties.jsonl","w") as f:
    for x in P: f.write(json.dumps(x, ensure_ascii=False)+"\n")
print(len(P))
