/-!
# Outcomes of C++ calls

A call of the library ends normally (`ok`), by a C++ exception (`throw`, with one constructor of
`Exc` per `throw` site of the modelled code, so that a theorem saying "rejects" names the check
which rejects) or has undefined behaviour (`ub`).
-/
namespace Copc

/-- One constructor per `throw` site of the modelled code. -/
inductive Exc where
  /-- `cpp/src/hierarchy/key.cpp:56` -/
  | parentDepth
  /-- `cpp/include/copc-lib/hierarchy/key.hpp:33` and other "Vector size must be" -/
  | vectorSize
  /-- `cpp/src/io/copc_reader.cpp:74` -/
  | invalidPage
  /-- `cpp/src/io/copc_reader.cpp:85` -/
  | invalidEntry
  /-- `cpp/src/geometry/box.cpp` constructors -/
  | boxOrder
  /-- `cpp/include/copc-lib/las/utils.hpp` `RemoveScale` -/
  | scaleRange
  /-- `cpp/include/copc-lib/las/point.hpp` attribute setters -/
  | attrRange
  /-- RGB access on a format without RGB -/
  | noRgb
  /-- NIR access on a format without NIR -/
  | noNir
  /-- point format outside 6-8 -/
  | badFormat
  /-- `Points::AddPoint`/`AddPoints` -/
  | pointsMismatch
  /-- `Points` array setters -/
  | arraySize
  /-- `Points::Unpack`: not a multiple of the record size -/
  | unpackSize
  /-- `LasHeader::FromLazPerf` checks -/
  | headerCheck
  /-- `LasHeader::ToLazPerf`: extended stats on a non COPC header -/
  | extStatsNotCopc
  /-- `CopcExtent` constructor order / variance -/
  | extentOrder
  /-- wrong number of extents -/
  | extentsSize
  /-- extents of an extra byte item / attribute out of range -/
  | extentsAttr
  /-- `DoAddNode`: invalid keys -/
  | invalidKey
  /-- `DoAddNode`: key not child of page -/
  | notChild
  /-- `AddNode`: empty points or data -/
  | emptyData
  /-- `AddNode`: size not multiple of record length -/
  | misaligned
  /-- `AddNode`: other point format or record length -/
  | wrongFormat
  /-- `AddNodeCompressed`: zero count -/
  | zeroCount
  /-- `ChangeNodePage`: unknown node -/
  | unknownNode
  /-- `WriteChunk`: stream position -/
  | chunkError
  /-- `WriteChunk`: size over int32 -/
  | chunkTooLarge
  /-- `WriteChunkTable`: too many chunks -/
  | tooManyChunks
  /-- `WriteHeader`: header bigger than reserved -/
  | headerTooBig
  /-- `ComputePageHierarchy`: no parent page -/
  | noParentPage
  /-- `WritePage`: over int32 -/
  | pageTooLarge
  /-- `CompressBytes` size checks -/
  | compressSize
  /-- invalid node passed to the reader -/
  | invalidNode
  /-- reader: missing info or hierarchy VLR -/
  | missingVlr
  /-- reader: info VLR not at 375 -/
  | infoPosition
  /-- reader: bad input stream -/
  | badStream
  /-- EbVlr / CopcExtentsVlr size checks -/
  | vlrSize
  /-- std::out_of_range and similar -/
  | outOfRange
  /-- exceptions raised by lazperf -/
  | lazperf
  deriving DecidableEq, Repr

/-- Outcome of a call. -/
inductive Res (α : Type u) where
  | ok (a : α)
  | throw (e : Exc)
  | ub
  deriving DecidableEq, Repr

namespace Res

/-- Sequencing: exceptions and undefined behaviour propagate. -/
@[inline] def bind {α : Type u} {β : Type v} : Res α → (α → Res β) → Res β
  | ok a, f => f a
  | throw e, _ => throw e
  | ub, _ => ub

instance : Monad Res where
  pure := ok
  bind := bind

/-- The call returns normally. -/
def isOk {α : Type u} : Res α → Bool
  | ok _ => true
  | _ => false

@[simp] theorem bind_ok {α β : Type u} (a : α) (f : α → Res β) : (Res.ok a >>= f) = f a := rfl
@[simp] theorem bind_throw {α β : Type u} (e : Exc) (f : α → Res β) :
    ((Res.throw e : Res α) >>= f) = Res.throw e := rfl
@[simp] theorem bind_ub {α β : Type u} (f : α → Res β) :
    ((Res.ub : Res α) >>= f) = Res.ub := rfl
@[simp] theorem pure_eq {α : Type u} (a : α) : (pure a : Res α) = Res.ok a := rfl

theorem okBind {α : Type u} {β : Type v} (a : α) (f : α → Res β) : (Res.ok a).bind f = f a := rfl
theorem throwBind {α : Type u} {β : Type v} (e : Exc) (f : α → Res β) :
    (Res.throw e : Res α).bind f = .throw e := rfl
theorem ubBind {α : Type u} {β : Type v} (f : α → Res β) : (Res.ub : Res α).bind f = .ub := rfl

theorem bind_eq_ok {α β : Type u} {x : Res α} {f : α → Res β} {b : β} :
    (x >>= f) = Res.ok b ↔ ∃ a, x = Res.ok a ∧ f a = Res.ok b := by
  cases x <;> simp

@[simp] theorem map_ok {α β : Type u} (a : α) (f : α → β) : f <$> (Res.ok a) = Res.ok (f a) := rfl
@[simp] theorem map_throw {α β : Type u} (e : Exc) (f : α → β) :
    f <$> (Res.throw e : Res α) = Res.throw e := rfl
@[simp] theorem map_ub {α β : Type u} (f : α → β) : f <$> (Res.ub : Res α) = Res.ub := rfl

/-- `mapM` for outcomes, evaluated left to right (a C++ loop which pushes results). -/
def mapL {α : Type u} {β : Type v} (f : α → Res β) : List α → Res (List β)
  | [] => ok []
  | a :: as => (f a).bind fun b => (mapL f as).bind fun bs => ok (b :: bs)

/-- A C++ loop over a container whose body may throw. -/
def foldL {α : Type u} {σ : Type v} (f : σ → α → Res σ) (s : σ) : List α → Res σ
  | [] => ok s
  | a :: as => (f s a).bind fun s' => foldL f s' as

theorem mapL_cons_ok {α : Type u} {β : Type v} {f : α → Res β} {a : α} {l : List α}
    {cs : List β} : mapL f (a :: l) = ok cs ↔
      ∃ b bs, f a = ok b ∧ mapL f l = ok bs ∧ cs = b :: bs := by
  simp only [mapL]
  cases f a <;> simp [bind]
  cases mapL f l <;> simp [eq_comm]

theorem mapL_eq_ok_map {α : Type u} {β : Type v} {f : α → Res β} {g : α → β} {l : List α}
    (h : ∀ a ∈ l, f a = ok (g a)) : mapL f l = ok (l.map g) := by
  induction l with
  | nil => rfl
  | cons a as ih =>
    have h1 := h a (by simp)
    have h2 := ih (fun x hx => h x (by simp [hx]))
    simp [mapL, h1, h2, bind]

theorem mapL_length {α : Type u} {β : Type v} {f : α → Res β} {l : List α} {bs : List β}
    (h : mapL f l = ok bs) : bs.length = l.length := by
  induction l generalizing bs with
  | nil => simp [mapL] at h; simp [← h]
  | cons a as ih =>
    obtain ⟨b, bs', _, h2, rfl⟩ := mapL_cons_ok.1 h
    simp [ih h2]

end Res

/-- `v` fits in an `int32_t`. -/
def InI32 (v : Int) : Prop := -2147483648 ≤ v ∧ v ≤ 2147483647

instance (v : Int) : Decidable (InI32 v) := by unfold InI32; infer_instance

/-- Result of an `int32_t` operation: overflow of signed arithmetic is undefined behaviour. -/
def chk32 (v : Int) : Res Int := if InI32 v then .ok v else .ub

end Copc
