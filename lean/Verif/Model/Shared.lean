import Verif.Spec.Writer
import Verif.Spec.LazWriter
/-!
# Objects shared through `std::shared_ptr`

`laz_config.hpp`, `copc_config.hpp`, `extents.hpp`: configurations hold header, COPC info and extents by
`shared_ptr`, and give these pointers away (`copc_config.hpp:73-80`, `laz_config.hpp:61`). Elsewhere in the model
a configuration is a value; here it is what it points to. Simplification: the extra-byte descriptors, which nobody can
change through a pointer (`laz_config.hpp:33`), are held by value, and objects are never freed.
-/
namespace Copc

/-- An object owned by `shared_ptr`s. `CopcExtents` has a vector of pointers (`extents.hpp:225`). -/
inductive Cell where
  | header (h : LasHeader)
  | info (i : CopcInfo)
  | extent (e : Extent)
  | extents (fmt : Int) (extStats : Bool) (items : List Nat)
  deriving DecidableEq

/-- All these objects; a pointer is an index. -/
abbrev Store := List Cell

namespace Store

/-- `*header_`, `laz_config.hpp:44`; `none`: the pointer is not to a header. -/
def header (s : Store) (a : Nat) : Option LasHeader := match s[a]? with
  | some (.header h) => some h
  | _ => none

/-- `*copc_info_`, `copc_config.hpp:41-42`. -/
def info (s : Store) (a : Nat) : Option CopcInfo := match s[a]? with
  | some (.info i) => some i
  | _ => none

/-- `*extents_[i]`, `extents.hpp:225`. -/
def extent (s : Store) (a : Nat) : Option Extent := match s[a]? with
  | some (.extent e) => some e
  | _ => none

/-- The extents behind the pointers of `extents_`, `extents.hpp:225`. -/
def items (s : Store) : List Nat → Option (List Extent)
  | [] => some []
  | a :: l => match s.extent a, items s l with
    | some e, some es => some (e :: es)
    | _, _ => none

/-- The value of a `CopcExtents` object, `extents.hpp:223-225`. -/
def extents (s : Store) (a : Nat) : Option Extents := match s[a]? with
  | some (.extents f b l) => match s.items l with
    | some es => some ⟨f, b, es⟩
    | none => none
  | _ => none

/-- The pointers in a `CopcExtents` object, `extents.hpp:225`. -/
def pointers (s : Store) (a : Nat) : List Nat := match s[a]? with
  | some (.extents _ _ l) => l
  | _ => []

/-- `std::make_shared`, as in `laz_config.cpp:16-19`. -/
def alloc (s : Store) (c : Cell) : Nat × Store := (s.length, s ++ [c])

/-- `make_shared<CopcExtents>` with a new `CopcExtent` for each item, `extents.cpp:51-69`, `106-120`. -/
def allocExtents (s : Store) (e : Extents) : Nat × Store :=
  (s ++ e.extents.map Cell.extent).alloc (.extents e.fmt e.extStats (List.range' s.length e.extents.length))

end Store

/-- A `LazConfig` or `LazConfigWriter`, `laz_config.hpp:44-46`. -/
structure LazObj where
  header : Nat
  wkt : Bytes
  eb : List EbField
  deriving DecidableEq

/-- A `CopcConfig` or `CopcConfigWriter`, `copc_config.hpp:41-42`. -/
structure CopcObj extends LazObj where
  info : Nat
  extents : Nat
  deriving DecidableEq

/-- What the constructors of `LazConfig` leave, `laz_config.hpp:23-27`, `laz_config.cpp:10-36`: a new header. -/
def Store.newLaz (s : Store) (c : LazConfig) : LazObj × Store :=
  let (a, s) := s.alloc (.header c.header)
  (⟨a, c.wkt, c.eb⟩, s)

/-- What the constructors of `CopcConfig` leave, `copc_config.hpp:22-31`, `copc_config.cpp:7-14`: everything new. -/
def Store.newCopc (s : Store) (c : CopcConfig) : CopcObj × Store :=
  let (l, s) := s.newLaz c.toLazConfig
  let (i, s) := s.alloc (.info c.info)
  let (x, s) := s.allocExtents c.extents
  (⟨l, i, x⟩, s)

/-- What the getters of a configuration return, `laz_config.hpp:29-33`. -/
def LazObj.value (o : LazObj) (s : Store) : Option LazConfig := match s.header o.header with
  | some h => some ⟨h, o.wkt, o.eb⟩
  | none => none

/-- What the getters of a COPC configuration return, `copc_config.hpp:33-36`. -/
def CopcObj.value (o : CopcObj) (s : Store) : Option CopcConfig :=
  match o.toLazObj.value s, s.info o.info, s.extents o.extents with
  | some l, some i, some x => some { l with info := i, extents := x }
  | _, _, _ => none

/-- The pointers a caller can get from a `CopcConfigWriter`, `copc_config.hpp:73-80`, `extents.hpp:141-196`. -/
def CopcObj.foot (o : CopcObj) (s : Store) : List Nat := o.header :: o.info :: o.extents :: s.pointers o.extents

/-- An object of a program. The parts of a writer are those of `Writer` and `LazWriter`; its configuration is a
pointer that the program can get (`copc_writer.hpp:50`, `laz_writer.hpp:32-35`). -/
inductive Thing where
  | copcConfig (c : CopcObj)
  | lazConfig (c : LazObj)
  | writer (base : BaseW) (nodes : List (VoxelKey × Node)) (pages : List (VoxelKey × WPage)) (c : CopcObj)
  | lazWriter (base : BaseW) (c : LazObj)

/-- What an object is worth to the program: its value in the model of `Model/Config.lean` and `Model/Writer.lean`
(`copc_config.hpp:17`, `laz_config.hpp:19`, `copc_writer.hpp`, `laz_writer.hpp`). -/
inductive Worth where
  | copcConfig (c : CopcConfig)
  | lazConfig (c : LazConfig)
  | writer (w : Writer)
  | lazWriter (w : LazWriter)

namespace Thing

/-- The value, with the objects behind the pointers (`laz_config.hpp:44`, `copc_config.hpp:41-42`). -/
def worth (s : Store) : Thing → Option Worth
  | copcConfig c => (c.value s).map Worth.copcConfig
  | lazConfig c => (c.value s).map Worth.lazConfig
  | writer b ns ps c => (c.value s).map fun v => Worth.writer ⟨b, v, ns, ps⟩
  | lazWriter b c => (c.value s).map fun v => Worth.lazWriter ⟨b, v⟩

/-- The header that the object gives away, `laz_config.hpp:61`, `laz_writer.hpp:32-35`. -/
def header : Thing → Nat
  | copcConfig c => c.header
  | lazConfig c => c.header
  | writer _ _ _ c => c.header
  | lazWriter _ c => c.header

/-- The COPC configuration that the object gives away, `copc_config.hpp:73-80`, `copc_writer.hpp:50`. -/
def copc : Thing → Option CopcObj
  | copcConfig c => some c
  | writer _ _ _ c => some c
  | _ => none

end Thing

/-- A program that uses the library: its objects, and what they point to. No code of the library. -/
structure World where
  store : Store
  things : List Thing

namespace World

/-- The value of an object of the program. -/
def worth (W : World) (o : Nat) : Option Worth := match W.things[o]? with
  | some t => t.worth W.store
  | none => none

/-- A new object of the program. -/
def add (W : World) (t : Thing) (s : Store) : World := ⟨s, W.things ++ [t]⟩

end World

/-- What a program can do. Objects are numbered in the order in which they are made. -/
inductive Action where
  /-- `CopcConfigWriter(fmt, scale, offset, wkt, eb, ext)` -/
  | newCopc (fmt : Int) (scale offset : Vec3 Dbl) (wkt : Bytes) (eb : List EbField) (ext : Bool)
  /-- `CopcConfigWriter(config)` of the configuration of a reader -/
  | copcOf (c : CopcConfig)
  /-- `CopcConfigWriter(config)` of a `CopcConfigWriter` -/
  | copyCopc (o : Nat)
  /-- `LazConfigWriter(fmt, scale, offset, wkt, eb)` -/
  | newLaz (fmt : Int) (scale offset : Vec3 Dbl) (wkt : Bytes) (eb : List EbField)
  /-- `LazConfigWriter(config)` of the configuration of a reader -/
  | lazOf (c : LazConfig)
  /-- `LazConfigWriter(config)` of a `CopcConfigWriter` -/
  | lazOfCopc (o : Nat)
  /-- `LazConfigWriter(config)` of a `LazConfigWriter` -/
  | copyLaz (o : Nat)
  /-- `Writer(out, config, overrides)` -/
  | newWriter (out : OStream) (o : Nat) (ov : Writer.Overrides)
  /-- `LazWriter(out, config)` -/
  | newLazWriter (out : OStream) (o : Nat)
  /-- edit of the header of a configuration, or of that of a writer -/
  | setHeader (o : Nat) (h : LasHeader)
  /-- edit of the COPC info -/
  | setInfo (o : Nat) (i : CopcInfo)
  /-- edit of the members of an extent -/
  | setExtent (o k : Nat) (e : Extent)
  /-- setting of an extent, with a new object -/
  | putExtent (o k : Nat) (e : Extent)
  /-- a call on a `Writer` -/
  | call (o : Nat) (op : Op)
  /-- a call on a `LazWriter` -/
  | lazCall (o : Nat) (op : LazOp)

/-- What a program can change of a header through a pointer to it (`header.hpp:64-133`): as in `PublicEdit`. -/
def HeaderEdit (h h' : LasHeader) : Prop :=
  h'.fmt = h.fmt ∧ h'.recLen = h.recLen ∧ h'.scale = h.scale ∧ h'.offset = h.offset ∧ h'.copcFlag = h.copcFlag ∧
    h'.pointsByReturn.length = h.pointsByReturn.length

instance (h h' : LasHeader) : Decidable (HeaderEdit h h') := by unfold HeaderEdit; infer_instance

namespace World

/-- A constructor that can throw (`copc_config.cpp:16-22`, `laz_writer.cpp:8-14`): then there is no new object. -/
def made {α : Type} (W : World) (x : Res α) (f : α → World) : Option World := match x with
  | .ok a => some (f a)
  | .throw _ => some W
  | .ub => none

/-- A new `CopcConfigWriter`, `copc_config.hpp:51-71`. -/
def addCopc (W : World) (c : CopcConfig) : World :=
  W.add (.copcConfig (W.store.newCopc c).1) (W.store.newCopc c).2

/-- A new `LazConfigWriter`, `laz_config.hpp:49-59`. -/
def addLaz (W : World) (c : LazConfig) : World :=
  W.add (.lazConfig (W.store.newLaz c).1) (W.store.newLaz c).2

/-- A new `Writer`, whose configuration is new: `make_shared<CopcConfigWriter>(config)`,
`copc_writer_public.cpp:51-59`, with the constructor of `copc_config.hpp:53-57`. -/
def addWriter (W : World) (w : Writer) : World :=
  W.add (.writer w.base w.nodes w.pages (W.store.newCopc w.cfg).1) (W.store.newCopc w.cfg).2

/-- The actions. `none`: undefined behaviour, or an action that is not possible. -/
def step (L : Lazperf) (ord : Order) (W : World) : Action → Option World
  -- `copc_config.cpp:16-22`
  | .newCopc fmt sc off wkt eb ext => W.made (CopcConfig.make fmt sc off wkt eb ext) W.addCopc
  -- `copc_config.hpp:60-64`
  | .copcOf c => W.made c.copy W.addCopc
  -- `copc_config.hpp:53-57`
  | .copyCopc o => match W.worth o with
    | some (.copcConfig c) => W.made c.copy W.addCopc
    | _ => none
  -- `laz_config.cpp:38-44`
  | .newLaz fmt sc off wkt eb => W.made (LazConfig.make fmt sc off wkt eb false) W.addLaz
  -- `laz_config.hpp:56-59`
  | .lazOf c => some (W.addLaz c.forWriter)
  | .lazOfCopc o => match W.worth o with
    | some (.copcConfig c) => some (W.addLaz (LazConfig.ofCopc c).forWriter)
    | _ => none
  -- the implicit copy constructor: `laz_config.hpp:49-63` declares none, so the pointers are copied
  | .copyLaz o => match W.things[o]? with
    | some (.lazConfig c) => some (W.add (.lazConfig c) W.store)
    | _ => none
  | .newWriter out o ov => match W.worth o with
    | some (.copcConfig c) => W.made (Writer.make out c ov) W.addWriter
    | _ => none
  -- `laz_writer.cpp:8-14`: `make_shared<LazConfigWriter>(config)` is the implicit copy constructor
  | .newLazWriter out o => match W.things[o]?, W.worth o with
    | some (.lazConfig c), some (.lazConfig v) =>
      W.made (BaseW.offsetToPointData v) fun n => W.add (.lazWriter (BaseW.init out (n + 8)) c) W.store
    | _, _ => none
  | .setHeader o h => match W.things[o]? with
    | some t => match W.store.header t.header with
      | some h0 => if HeaderEdit h0 h then some { W with store := W.store.set t.header (.header h) } else none
      | none => none
    | none => none
  | .setInfo o i => match (W.things[o]?).bind Thing.copc with
    | some c => some { W with store := W.store.set c.info (.info i) }
    | none => none
  -- `extents.hpp:87-138`, `extents.hpp:24-27`
  | .setExtent o k e => match (W.things[o]?).bind Thing.copc with
    | some c => match (W.store.pointers c.extents)[k]? with
      | some a => some { W with store := W.store.set a (.extent e) }
      | none => none
    | none => none
  -- `extents.hpp:141-196`
  | .putExtent o k e => match (W.things[o]?).bind Thing.copc with
    | some c => match W.store[c.extents]? with
      | some (.extents f b l) => if k < l.length then
          some { W with store := (W.store.set c.extents (.extents f b (l.set k W.store.length))) ++ [.extent e] } else none
      | _ => none
    | none => none
  -- of the configuration, calls change only the COPC info, `copc_writer_internal.cpp:136-141`
  | .call o op => match W.things[o]?, W.worth o with
    | some (.writer _ _ _ c), some (.writer w) => match op.run L ord w with
      | (.ub, _) => none
      | (_, w') => some ⟨W.store.set c.info (.info w'.cfg.info), W.things.set o (.writer w'.base w'.nodes w'.pages c)⟩
    | _, _ => none
  | .lazCall o op => match W.things[o]?, W.worth o with
    | some (.lazWriter _ c), some (.lazWriter w) => match op.run L w with
      | (.ub, _) => none
      | (_, w') => some { W with things := W.things.set o (.lazWriter w'.base c) }
    | _, _ => none

/-- The worlds a program can reach. -/
inductive Reached (L : Lazperf) (ord : Order) : World → Prop
  | start : Reached L ord ⟨[], []⟩
  | step {W W' a} : Reached L ord W → W.step L ord a = some W' → Reached L ord W'

end World

/-- The object that is changed. -/
def Action.target : Action → Option Nat
  | .setHeader o _ => some o
  | .setInfo o _ => some o
  | .setExtent o _ _ => some o
  | .putExtent o _ _ => some o
  | .call o _ => some o
  | .lazCall o _ => some o
  | _ => none

end Copc
