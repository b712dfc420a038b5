import Verif.Spec.Writer
/-!
# Histories of a LAZ writer

What a program can do with a `LazWriter`: public calls, whose exceptions it may catch and go on, and edits of
the header it shares with the writer.
-/
namespace Copc

/-- Public calls on a `LazWriter`. -/
inductive LazOp where
  /-- `WritePoints` of a collection with format `fmt` and record length `recLen` -/
  | points (fmt : Int) (recLen : Nat) (ps : List Point)
  /-- `WritePointsCompressed(data, count)` -/
  | compressed (bs : Bytes) (count : Int)
  /-- `Close()` -/
  | close

def LazOp.run (L : Lazperf) : LazOp → Act LazWriter Unit
  | points fmt len ps => LazWriter.writePoints L fmt len ps
  | compressed bs c => LazWriter.writePointsCompressed L bs c
  | close => LazWriter.close L

/-- Edits of the header shared with the caller (`LazWriter::LazConfig()`, `laz_config.hpp:61`): what has no
setter stays (`header.hpp:64-73`). -/
structure LazEdit (c c' : LazConfig) : Prop where
  fmt : c'.header.fmt = c.header.fmt
  recLen : c'.header.recLen = c.header.recLen
  scale : c'.header.scale = c.header.scale
  offset : c'.header.offset = c.header.offset
  copcFlag : c'.header.copcFlag = c.header.copcFlag
  wkt : c'.wkt = c.wkt
  eb : c'.eb = c.eb
  returns : c'.header.pointsByReturn.length = c.header.pointsByReturn.length

/-- A history: the calls with their outcomes, in order, leading from `w0` to `w`. -/
inductive LazHistory (L : Lazperf) (w0 : LazWriter) : List (LazOp × Res Unit) → LazWriter → Prop
  | start : LazHistory L w0 [] w0
  | call {h w} (op : LazOp) : LazHistory L w0 h w → (op.run L w).1 ≠ .ub →
      LazHistory L w0 (h ++ [(op, (op.run L w).1)]) (op.run L w).2
  | edit {h w c} : LazHistory L w0 h w → LazEdit w.cfg c → LazHistory L w0 h { w with cfg := c }

/-- No `Close` in the history. -/
def LazUnclosed (h : List (LazOp × Res Unit)) : Prop := ∀ x ∈ h, x.1 ≠ .close

/-- The bytes and the number of points a call is to store as a chunk, when the header is `hd`: compressed data
as given, else the LAZ compression of the records of the points. -/
def LazOp.Stores (L : Lazperf) (hd : LasHeader) : LazOp → Int × Bytes → Prop
  | compressed bs c, (n, blob) => blob = bs ∧ n = c
  | points _ _ ps, (n, blob) => ∃ bs eb recs, packPoints ps hd.scale hd.offset = .ok bs ∧
      hd.ebSize = .ok eb ∧ recs.flatten = bs ∧ (∀ r ∈ recs, r.length = hd.recLen.toNat) ∧
      blob = L.compress hd.fmt eb recs ∧ n = ((recs.length : Nat) : Int)
  | close, _ => False

/-- The calls of a history that are to write a chunk: those that returned, except for `WritePoints` of an empty
collection. -/
def chunkCalls (h : List (LazOp × Res Unit)) : List LazOp :=
  h.filterMap fun x => match x with
    | (.points _ _ [], _) => none
    | (op, .ok _) => some op
    | _ => none

/-- No call failed because a chunk was larger than 2^31 - 1 bytes. -/
def LazNoneTooLarge (h : List (LazOp × Res Unit)) : Prop := ∀ x ∈ h, x.2 ≠ .throw .chunkTooLarge

end Copc

namespace Copc.Spec

/-- A LAZ configuration whose record length is that of its format and extra-byte items, none of which is
empty. -/
structure LazConsistent (c : LazConfig) : Prop where
  fmt : c.header.fmt = 6 ∨ c.header.fmt = 7 ∨ c.header.fmt = 8
  len : c.header.recLen.toNat = lasBaseSize c.header.fmt + (c.eb.map lasItemSize).sum
  items : ∀ f ∈ c.eb, 0 < lasItemSize f

end Copc.Spec
