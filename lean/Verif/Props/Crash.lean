import Verif.Spec.Crash
import Verif.Lemmas.CrashClose
import Verif.Lemmas.WriterHist
import Verif.Lemmas.SampleFile
/-! # C61: a run that dies before `Close` is complete -/
namespace Copc
open Refuse

theorem blank_refused {m : Nat} {o : OStream} (hm : 394 ≤ m) (h : Blank m o) : ¬ Opens o.data := by
  rintro ⟨r, e⟩
  have := opens_id e
  rw [h.zero 393 (by omega)] at this
  cases this

theorem offset_large {c : CopcConfig} {otpd : Nat} (h : Writer.offsetToPointData c = .ok otpd) : 394 ≤ otpd := by
  have hf := fmt_of_offset h
  have he : ∃ eb, c.header.ebSize = .ok eb := by
    unfold Writer.offsetToPointData BaseW.offsetToPointData at h
    cases he : c.header.ebSize with
    | ok eb => exact ⟨eb, rfl⟩
    | throw e => rw [he] at h; cases h
    | ub => rw [he] at h; cases h
  obtain ⟨eb, he⟩ := he
  rw [offset_eq hf he] at h
  injection h with h
  rw [← h]
  omega

theorem blank_call (L : Lazperf) (ord : Order) {m : Nat} (op : Op) (w : Writer) (hc : op ≠ .close)
    (hb : Blank m w.base.out) : Blank m (op.run L ord w).2.base.out := by
  cases ht : op.target with
  | some t =>
    obtain ⟨key, page⟩ := t
    rcases add_any L ord ht w with ⟨h1, _⟩ | ⟨blob, c, _, ⟨_, h⟩ | ⟨_, h⟩⟩
    · rw [h1]; exact hb
    · rw [h]; exact hb.write blob
    · rw [h]; exact hb.write blob
  | none =>
    cases op with
    | move k p =>
      have hr : ((Op.move k p).run L ord w).2 = (Writer.changeNodePage k p w).2 := by
        show ((do Writer.changeNodePage k p; pure none : Act Writer (Option Node)) w).2 = _
        rw [Act.bind_apply]
        generalize Writer.changeNodePage k p w = q
        obtain ⟨r, s⟩ := q
        cases r <;> rfl
      rw [hr, (changeNodePage_frame k p w).1]
      exact hb
    | close => exact absurd rfl hc
    | add => cases ht
    | addPoints => cases ht
    | addCompressed => cases ht

theorem blank_history {L : Lazperf} {ord : Order} {w0 w : Writer} {h : List (Op × Res (Option Node))} {m : Nat}
    (hb : Blank m w0.base.out) (hh : History L ord w0 h w) (hu : Unclosed h) : Blank m w.base.out := by
  induction hh with
  | start => exact hb
  | call op hh _ ih =>
    exact blank_call L ord op _ (hu _ (List.mem_append_right _ (List.mem_singleton.2 rfl)))
      (ih fun x hx => hu x (by simp [hx]))
  | edit hh _ ih => exact ih hu

theorem blank_make {out : OStream} {c : CopcConfig} {o : Writer.Overrides} {w : Writer}
    (hd : out.data = []) (hp : out.pos = 0) (h : Writer.make out c o = .ok w) :
    ∃ otpd, Writer.offsetToPointData w.cfg = .ok otpd ∧ Blank otpd w.base.out := by
  unfold Writer.make at h
  obtain ⟨c', hc', h⟩ := Res.bind_ok_iff.1 h
  obtain ⟨n, hn, h⟩ := Res.bind_ok_iff.1 h
  injection h with h
  subst h
  refine ⟨n, hn, ?_⟩
  show Blank n (out.write (List.replicate (n + 8) 0))
  have hz : ∀ k i, byteAt (OStream.patch [] 0 ((List.replicate (n + 8) (0 : UInt8)).take k)) i = 0 := by
    intro k i
    unfold OStream.patch byteAt
    simp only [List.take_nil, List.length_nil, Nat.sub_self, List.replicate_zero, List.append_nil, List.nil_append,
      List.drop_nil, List.take_replicate, List.getElem?_replicate]
    split <;> rfl
  rcases write_cases out (List.replicate (n + 8) 0) with ⟨hf, e⟩ | ⟨hf, j, e, h2⟩
  · rw [e]
    refine ⟨fun i _ => ?_, .inl hf⟩
    rw [hd]; rfl
  · rw [hd, hp] at e
    refine ⟨fun i _ => ?_, ?_⟩
    · rw [e]; exact hz j i
    · rcases h2 with h2 | ⟨h2, hj⟩
      · exact .inl h2
      · right
        rw [h2, e, hp]
        have := (patch_length [] 0 ((List.replicate (n + 8) (0 : UInt8)).take j)).1
        simp only [List.length_take, List.length_replicate] at this hj ⊢
        omega

theorem good_of_holds {o : OStream} {d : Bytes} (h : o.Holds d) : o.Good := by
  rw [holds_eq h]; exact ⟨rfl, rfl⟩

/-- Before `Close` is called: whatever the calls were and wherever their output ends, the file is refused. -/
theorem C61_unclosed (L : Lazperf) (ord : Order) (k : Nat) {c : CopcConfig} {o : Writer.Overrides} {w0 w : Writer}
    {h : List (Op × Res (Option Node))} (hm : Writer.make (OStream.dying k) c o = .ok w0)
    (hh : History L ord w0 h w) (hu : Unclosed h) : ¬ Opens w.base.out.data := by
  obtain ⟨otpd, ho, hb⟩ := blank_make rfl rfl hm
  exact blank_refused (offset_large ho) (blank_history hb hh hu)

/-- The same without an end: a file whose writer has not been closed is refused. -/
theorem C61_unclosed_whole (L : Lazperf) (ord : Order) {c : CopcConfig} {o : Writer.Overrides} {w0 w : Writer}
    {h : List (Op × Res (Option Node))} (hm : Writer.make OStream.fresh c o = .ok w0)
    (hh : History L ord w0 h w) (hu : Unclosed h) : ¬ Opens w.base.out.data := by
  obtain ⟨otpd, ho, hb⟩ := blank_make rfl rfl hm
  exact blank_refused (offset_large ho) (blank_history hb hh hu)

theorem tornAt_gap {F d : Bytes} {n j : Nat} (hn : n ≤ F.length) (h : TornAt F n j d) : ZeroGap F j n d := by
  obtain ⟨hj, rfl⟩ := h
  refine ⟨hj, hn, by simp; omega, fun i => ?_⟩
  by_cases h1 : i < j
  · rw [List.getElem?_append_left (by simp; omega), List.getElem?_take, if_pos h1, if_neg (by omega)]
  · rw [List.getElem?_append_right (by simp; omega)]
    have e : (F.take j).length = j := by simp; omega
    rw [e]
    by_cases h2 : i < n
    · rw [List.getElem?_append_left (by simp; omega), List.getElem?_replicate, if_pos (by omega), if_pos (by omega)]
    · rw [List.getElem?_append_right (by simp; omega), if_neg (by omega), List.getElem?_drop]
      congr 1
      simp; omega

/-- During `Close`, wherever its output ends: the file is refused, or it is the finished file but for a gap of
zeros in the header area, which starts after the first 394 bytes; all point data, the chunk table, the
hierarchy and the WKT record are in place. -/
theorem C61_closing_partial (L : Lazperf) (ord : Order) {c : CopcConfig} {o : Writer.Overrides} {w0 w w' : Writer}
    {h : List (Op × Res (Option Node))} (hm : Writer.make OStream.fresh c o = .ok w0)
    (hh : History L ord w0 h w) (hu : Unclosed h) (hc : Writer.close L ord w = (.ok (), w')) (k : Nat)
    (hop : Opens (Writer.close L ord (w.dying k)).2.base.out.data) :
    ∃ j, 394 ≤ j ∧ ZeroGap w'.base.out.data j (w0.base.out.data.length - 8)
      (Writer.close L ord (w.dying k)).2.base.out.data := by
  obtain ⟨otpd, ho, hb⟩ := bInv_of_make hm
  obtain ⟨log, hi⟩ := wInv_history ho hb hh hu
  obtain ⟨otpd', ho', hb'⟩ := blank_make rfl rfl hm
  rw [ho] at ho'
  cases ho'
  have hbl := blank_history hb' hh hu
  have hlen : w0.base.out.data.length - 8 = otpd := by
    obtain ⟨n, h1, _, h3⟩ := make_ok hm
    rw [ho] at h1
    cases h1
    rw [h3]
    simp [BaseW.init, OStream.fresh, OStream.write, OStream.patch]
  have hlt := offset_large ho
  have e : (w.dying k) = doomed k w := rfl
  rw [hlen]
  rcases close_ends L ord hi.offset (good_of_holds hi.base.out) hbl hi.base.isOpen hc k with ⟨o, h1, h2⟩ | ⟨j, h1⟩
  · rw [e] at hop
    rw [← h2] at hop
    exact absurd hop (blank_refused hlt h1)
  · have hlong : otpd ≤ w'.base.out.data.length := by
      obtain ⟨hier, eb, h14, gps, hok⟩ := close_ok hi.offset hi.base hc
      rw [hok.result]
      have hfit := hok.fits
      simp only [midStream_data, List.length_append, List.length_drop]
      have : otpd ≤ (preHeader L ord otpd log hier w).base.out.data.length := by
        simp only [preHeader, endStream, List.length_append, List.length_replicate]
        omega
      omega
    have hz := tornAt_gap hlong h1
    refine ⟨j, ?_, hz⟩
    by_contra hj
    obtain ⟨r, er⟩ := hop
    have h9 := opens_id er
    unfold byteAt at h9
    rw [e, hz.2.2.2 393, if_pos (by omega)] at h9
    cases h9

/-! The hypotheses are met by the sample history: made on a stream that ends at byte 1560, within the first
node; and closed with 900 bytes of output, which leaves a file with a gap that is accepted. -/

def dyingW : Writer := match Writer.make (OStream.dying 1560) Sample.cfg {} with
  | .ok w => w
  | _ => Sample.w0

theorem dying_makes : Writer.make (OStream.dying 1560) Sample.cfg {} = .ok dyingW := by
  have h : (match Writer.make (OStream.dying 1560) Sample.cfg {} with
    | .ok _ => true
    | _ => false) = true := by decide +kernel
  unfold dyingW
  cases e : Writer.make (OStream.dying 1560) Sample.cfg {} with
  | ok w => rfl
  | throw _ => rw [e] at h; cases h
  | ub => rw [e] at h; cases h

theorem dying_outcomes : ((Sample.run Sample.L Sample.ord Sample.ops dyingW []).1.map (·.2)) =
    [.throw .chunkTooLarge, .ok (some ⟨⟨Sample.kA, 18446744073709551615, 0, 5⟩, Sample.kA⟩),
     .ok (some ⟨⟨Sample.kB, 18446744073709551615, 0, 1⟩, VoxelKey.root⟩), .throw .zeroCount, .ok none] := by decide +kernel

example : History Sample.L Sample.ord dyingW (Sample.run Sample.L Sample.ord Sample.ops dyingW []).1
      (Sample.run Sample.L Sample.ord Sample.ops dyingW []).2 :=
  Sample.run_history Sample.ops dyingW [] .start fun x hx => by
    have hm : x.2 ∈ (Sample.run Sample.L Sample.ord Sample.ops dyingW []).1.map (·.2) := List.mem_map_of_mem hx
    rw [dying_outcomes] at hm
    intro he
    rw [he] at hm
    simp at hm

example : (match Reader.init ⟨(Writer.close Sample.L Sample.ord (Sample.w.dying 900)).2.base.out.data, 0, false⟩ with
    | .ok _ => true
    | _ => false) = true := by decide +kernel

end Copc
