import Verif.Props.Crash
/-! # C61: a file whose last writes are missing is accepted, with wrong descriptors of the extra bytes -/
namespace Copc

/-- Whether a file is accepted, and the types of the extra bytes that its configuration then reports. -/
def ebTypes (d : Bytes) : Option (List UInt8) := match Reader.init ⟨d, 0, false⟩ with
  | .ok r => some (r.cfg.eb.map fun (f : EbField) => f.dataType)
  | _ => none

theorem torn_types : ebTypes (Writer.close Sample.L Sample.ord (Sample.w.dying 1590)).2.base.out.data = some [0] := by
  decide +kernel

theorem finished_types : ebTypes (Writer.close Sample.L Sample.ord Sample.w).2.base.out.data = some [1] := by
  decide +kernel

theorem ebTypes_some {d : Bytes} {l : List UInt8} (h : ebTypes d = some l) :
    ∃ r, Reader.init ⟨d, 0, false⟩ = .ok r ∧ (r.cfg.eb.map fun (f : EbField) => f.dataType) = l := by
  unfold ebTypes at h
  cases e : Reader.init ⟨d, 0, false⟩ with
  | ok r => rw [e] at h; exact ⟨r, rfl, Option.some.inj h⟩
  | throw _ => rw [e] at h; cases h
  | ub => rw [e] at h; cases h

/-- A run that dies near the end of `Close` leaves a file that is accepted although it is not finished: the
descriptor of the extra byte is one of type 0 where the finished file has type 1. -/
theorem C61_descriptor_violated : ∃ (L : Lazperf) (ord : Order) (c : CopcConfig) (w0 w : Writer)
    (h : List (Op × Res (Option Node))) (k : Nat) (r r' : Reader),
    Writer.make OStream.fresh c {} = .ok w0 ∧ History L ord w0 h w ∧ Unclosed h ∧
    (Writer.close L ord w).1 = .ok () ∧
    Reader.init ⟨(Writer.close L ord (w.dying k)).2.base.out.data, 0, false⟩ = .ok r ∧
    Reader.init ⟨(Writer.close L ord w).2.base.out.data, 0, false⟩ = .ok r' ∧
    (r.cfg.eb.map fun (f : EbField) => f.dataType) = [0] ∧ (r'.cfg.eb.map fun (f : EbField) => f.dataType) = [1] := by
  obtain ⟨r, h1, h2⟩ := ebTypes_some torn_types
  obtain ⟨r', h3, h4⟩ := ebTypes_some finished_types
  exact ⟨_, _, _, _, _, _, 1590, r, r', Sample.made, Sample.history, Sample.unclosed, Sample.closes, h1, h3, h2, h4⟩

end Copc
