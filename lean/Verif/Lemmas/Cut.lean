import Verif.Lemmas.Longer
import Verif.Lemmas.TornRead
import Verif.Lemmas.RecFile
/-!
# Opening a file that was cut

The beginning of a file made of a header, VLRs and extended VLRs either is refused by the constructor of `Reader`,
or opens with a good stream.
-/
namespace Copc

/-- User id and record id are in the first 20 bytes. -/
theorem decode_ids {a b : Bytes} (h : a.take 20 = b.take 20) :
    (VlrHeader.decode a).userId = (VlrHeader.decode b).userId ∧
    (VlrHeader.decode a).recordId = (VlrHeader.decode b).recordId := by
  have h1 : ((a.drop 2).take 16) = ((b.drop 2).take 16) := by
    have : ∀ x : Bytes, (x.drop 2).take 16 = ((x.take 20).drop 2).take 16 := by
      intro x; rw [List.drop_take, List.take_take, show min 16 (20 - 2) = 16 from rfl]
    rw [this a, this b, h]
  have h2 : ((a.drop 18).take 2) = ((b.drop 18).take 2) := by
    have : ∀ x : Bytes, (x.drop 18).take 2 = ((x.take 20).drop 18).take 2 := by
      intro x; rw [List.drop_take, List.take_take, show min 2 (20 - 18) = 2 from rfl]
    rw [this a, this b, h]
  constructor
  · show trimNul (padTo 16 ((a.drop 2).take 16)) = trimNul (padTo 16 ((b.drop 2).take 16))
    rw [h1]
  · show UInt16.ofNat (unLe (((a.drop 2).drop 16).take 2)) = UInt16.ofNat (unLe (((b.drop 2).drop 16).take 2))
    rw [List.drop_drop, List.drop_drop, h2]

/-- A record id of which the second byte is missing is below 256. -/
theorem decode_short {a : Bytes} (h : a.length < 20) : (VlrHeader.decode (padTo 54 a)).recordId ≠ 1000 := by
  have e : (VlrHeader.decode (padTo 54 a)).recordId = UInt16.ofNat (unLe ((((padTo 54 a).drop 2).drop 16).take 2)) := rfl
  rw [e, List.drop_drop]
  have : ∃ x, (((padTo 54 a).drop (2 + 16)).take 2) = [x, 0] := by
    have hp : padTo 54 a = a ++ List.replicate (54 - a.length) 0 := by
      unfold padTo; rw [List.take_of_length_le (by omega)]
    rw [hp]
    by_cases h18 : a.length ≤ 18
    · refine ⟨0, ?_⟩
      rw [List.drop_append, List.drop_of_length_le (by omega), List.nil_append, List.drop_replicate, List.take_replicate,
        show min 2 (54 - a.length - (2 + 16 - a.length)) = 2 by omega]
      rfl
    · have h19 : a.length = 19 := by omega
      refine ⟨a[18], ?_⟩
      have hd : a.drop (2 + 16) = [a[18]] := by
        rw [show 2 + 16 = 18 from rfl, List.drop_eq_getElem_cons (by omega : 18 < a.length), List.drop_of_length_le (by omega)]
      rw [List.drop_append_of_le_length (by omega), hd, show 54 - a.length = 34 + 1 by omega]
      rfl
  obtain ⟨x, hx⟩ := this
  rw [hx]
  intro hc
  have := congrArg UInt16.toNat hc
  have hb := x.toNat_lt
  simp [unLe] at this
  omega

theorem zero_id : ¬(VlrHeader.decodeE (padTo 60 [])).recordId = 1000 := by decide

/-- Not the record of a page. -/
def NoPage (v : Nat × VlrHeader) : Prop := ¬(v.2.userId = idCopc ∧ v.2.recordId = 1000)

theorem insertVlr_mem {p : Nat} {g : VlrHeader} : ∀ {l : List (Nat × VlrHeader)} {x : Nat × VlrHeader},
    x ∈ BaseReader.insertVlr p g l → x = (p, g) ∨ x ∈ l
  | [], x, h => .inl (List.mem_singleton.1 h)
  | (q, g') :: l, x, h => by
    rw [BaseReader.insertVlr] at h
    split at h
    · rcases List.mem_cons.1 h with h | h
      · exact .inl h
      · exact .inr h
    · split at h
      · exact .inr h
      · rcases List.mem_cons.1 h with h | h
        · exact .inr (by rw [h]; simp)
        · rcases insertVlr_mem h with h | h
          · exact .inl h
          · exact .inr (by simp [h])

theorem insertVlr_keep {p : Nat} {g : VlrHeader} : ∀ {l : List (Nat × VlrHeader)} {x : Nat × VlrHeader},
    x ∈ l → x ∈ BaseReader.insertVlr p g l
  | (q, g') :: l, x, h => by
    rw [BaseReader.insertVlr]
    split
    · exact List.mem_cons_of_mem _ h
    · split
      · exact h
      · rcases List.mem_cons.1 h with h | h
        · rw [h]; simp
        · exact List.mem_cons_of_mem _ (insertVlr_keep h)

theorem insertVlr_noPage {p : Nat} {g : VlrHeader} {l : List (Nat × VlrHeader)} (hl : ∀ x ∈ l, NoPage x)
    (hg : NoPage (p, g)) : ∀ x ∈ BaseReader.insertVlr p g l, NoPage x := by
  intro x hx
  rcases insertVlr_mem hx with rfl | hx
  · exact hg
  · exact hl x hx

theorem readFilled_failed {s : IStream} (h : s.fail = true) (n : Nat) : s.readFilled n = (padTo n [], s) := by
  unfold IStream.readFilled IStream.read
  rw [if_pos h]

theorem skip64_failed {s : IStream} (h : s.fail = true) (n : UInt64) : (s.skip64 n).fail = true := by
  cases e : (s.skip64 n).fail with
  | true => rfl
  | false => exact absurd h (by rw [skip64_good e]; simp)

/-- A failed stream gives no page record. -/
theorem vlrLoop_failed : ∀ (n : Nat) {s : IStream} {out : List (Nat × VlrHeader)}, s.fail = true →
    (∀ x ∈ out, NoPage x) →
    (∀ x ∈ (BaseReader.vlrLoop n s out).1, NoPage x) ∧ (BaseReader.vlrLoop n s out).2.fail = true
  | 0, s, out, hf, ho => ⟨ho, hf⟩
  | n + 1, s, out, hf, ho => by
    rw [BaseReader.vlrLoop, readFilled_failed hf]
    exact vlrLoop_failed n (skip64_failed hf _) (insertVlr_noPage ho fun hc => decode_short (a := []) (by simp) hc.2)

theorem evlrLoop_failed : ∀ (n : Nat) {s : IStream} {out : List (Nat × VlrHeader)}, s.fail = true →
    (∀ x ∈ out, NoPage x) → ∀ x ∈ (BaseReader.evlrLoop n s out).1, NoPage x
  | 0, s, out, hf, ho => ho
  | n + 1, s, out, hf, ho => by
    rw [BaseReader.evlrLoop, readFilled_failed hf]
    exact evlrLoop_failed n (skip64_failed hf _) (insertVlr_noPage ho fun hc => zero_id hc.2)

/-- The extended VLRs of a file that ends before them. -/
theorem evlrLoop_beyond {s : IStream} {out : List (Nat × VlrHeader)} {n : Nat} (ho : ∀ x ∈ out, NoPage x)
    (hb : s.data.length ≤ s.pos) : ∀ x ∈ (BaseReader.evlrLoop n s out).1, NoPage x := by
  cases hf : s.fail with
  | true => exact evlrLoop_failed n hf ho
  | false =>
    cases n with
    | zero => exact ho
    | succ n =>
      have hr : s.readFilled 60 = (padTo 60 [], { s with pos := s.data.length, fail := true }) := by
        unfold IStream.readFilled IStream.read
        rw [if_neg (by rw [hf]; simp), if_neg (by omega), List.drop_of_length_le hb]
      rw [BaseReader.evlrLoop, hr]
      exact evlrLoop_failed n (skip64_failed rfl _) (insertVlr_noPage ho fun hc => zero_id hc.2)

theorem evlrLoop_places_failed : ∀ (n : Nat) {s : IStream} {out : List (Nat × VlrHeader)}, s.fail = true →
    (∀ x ∈ out, x.1 ≠ 0) → ∀ x ∈ (BaseReader.evlrLoop n s out).1, x.1 ≠ 0
  | 0, s, out, hf, ho => ho
  | n + 1, s, out, hf, ho => by
    rw [BaseReader.evlrLoop, readFilled_failed hf]
    refine evlrLoop_places_failed n (skip64_failed hf _) ?_
    intro x hx
    rcases insertVlr_mem hx with rfl | hx
    · unfold IStream.tellg; rw [if_pos hf]; simp
    · exact ho x hx

/-- The positions of the extended VLRs of the beginning of a file. -/
theorem evlrLoop_cut : ∀ (l : List VRec) (pre rest data d t : Bytes) (out : List (Nat × VlrHeader)),
    data = pre ++ (l.flatMap VRec.bytes ++ rest) → data = d ++ t → data.length < 2 ^ 63 → 0 < pre.length →
    (∀ v ∈ l, v.evlr = true ∧ v.Fit) → (∀ x ∈ out, x.1 ≠ 0) →
    ∀ x ∈ (BaseReader.evlrLoop l.length ⟨d, pre.length, false⟩ out).1, x.1 ≠ 0
  | [], pre, rest, data, d, t, out, _, _, _, _, _, ho => ho
  | v :: l, pre, rest, data, d, t, out, hd, ht, hlen, hpos, hv, ho => by
    obtain ⟨he, hfit⟩ := hv v (by simp)
    obtain ⟨hu, hri, hdl, _⟩ := VRec.head_facts hfit
    have hsz : v.hsize = 60 := by unfold VRec.hsize; rw [he]; rfl
    have hhb : v.hbytes.length = 60 := by rw [VRec.length_hbytes, hsz]
    have hd' : data = pre ++ (v.hbytes ++ (v.payload ++ (l.flatMap VRec.bytes ++ rest))) := by
      rw [hd]; simp [VRec.bytes]
    have hhead : VlrHeader.decodeE v.hbytes = v.head := by unfold VRec.head; rw [he]; rfl
    have hle : pre.length + 60 + v.payload.length ≤ data.length := by
      rw [hd']; simp [hhb]; omega
    have hdle : d.length ≤ data.length := by rw [ht]; simp
    have hslice : (data.drop pre.length).take 60 = v.hbytes := by
      rw [hd', List.drop_left, List.take_left' hhb]
    have hout : ∀ g, ∀ x ∈ BaseReader.insertVlr (IStream.tellg ⟨d, pre.length, false⟩) g out, x.1 ≠ 0 := by
      intro g x hx
      rcases insertVlr_mem hx with rfl | hx
      · show pre.length ≠ 0; omega
      · exact ho x hx
    rw [List.length_cons, BaseReader.evlrLoop]
    by_cases hfull : pre.length + 60 ≤ d.length
    · have hr : (IStream.mk d pre.length false).readFilled 60 = (v.hbytes, ⟨d, pre.length + 60, false⟩) := by
        unfold IStream.readFilled IStream.read
        dsimp only
        rw [if_neg (by simp), if_pos hfull]
        have : (d.drop pre.length).take 60 = v.hbytes := by
          rw [← hslice, ht, List.drop_append_of_le_length (by omega),
            List.take_append_of_le_length (by rw [List.length_drop]; omega)]
        dsimp only
        rw [this, padTo_of_length hhb]
      rw [hr]
      dsimp only
      rw [hhead]
      have hskip : IStream.skip64 ⟨d, pre.length + 60, false⟩ v.head.dataLength =
          ⟨d, (pre ++ v.bytes).length, false⟩ := by
        unfold IStream.skip64
        rw [hdl, if_pos (by omega)]
        unfold IStream.seekg
        rw [if_neg (by simp), if_pos (by simp only; omega)]
        simp only [List.length_append, VRec.length_bytes, hsz]
        congr 1
        omega
      rw [hskip]
      exact evlrLoop_cut l (pre ++ v.bytes) rest data d t _ (by rw [hd]; simp) ht hlen
        (by rw [List.length_append]; omega) (fun w hw => hv w (by simp [hw])) (hout _)
    · have hr : (IStream.mk d pre.length false).readFilled 60 =
          (padTo 60 (d.drop pre.length), ⟨d, d.length, true⟩) := by
        unfold IStream.readFilled IStream.read
        dsimp only
        rw [if_neg (by simp), if_neg hfull]
      rw [hr]
      exact evlrLoop_places_failed l.length (skip64_failed rfl _) (hout _)

theorem places_mem : ∀ (l : List VRec) (p : Nat) {v : VRec}, v ∈ l → ∃ q, (q, v.head) ∈ places p l
  | w :: l, p, v, h => by
    rw [places]
    rcases List.mem_cons.1 h with rfl | h
    · exact ⟨p, by simp⟩
    · obtain ⟨q, hq⟩ := places_mem l (p + (w.hsize + w.payload.length)) h
      exact ⟨q, by simp [hq]⟩

/-- The VLRs of the beginning of a file that has no page record among its VLRs. -/
theorem vlrLoop_cut : ∀ (l : List VRec) (pre rest data d t : Bytes) (out : List (Nat × VlrHeader)),
    data = pre ++ (l.flatMap VRec.bytes ++ rest) → data = d ++ t → data.length < 2 ^ 63 →
    (∀ v ∈ l, v.evlr = false ∧ v.Fit) → (∀ v ∈ l, ¬v.Is idCopc 1000) → (∀ x ∈ out, NoPage x) →
    ∀ x ∈ (BaseReader.vlrLoop l.length ⟨d, pre.length, false⟩ out).1, NoPage x
  | [], pre, rest, data, d, t, out, _, _, _, _, _, ho => ho
  | v :: l, pre, rest, data, d, t, out, hd, ht, hlen, hv, hno, ho => by
    obtain ⟨he, hfit⟩ := hv v (by simp)
    obtain ⟨hu, hri, hdl, _⟩ := VRec.head_facts hfit
    have hsz : v.hsize = 54 := by unfold VRec.hsize; rw [he]; rfl
    have hhb : v.hbytes.length = 54 := by rw [VRec.length_hbytes, hsz]
    have hd' : data = pre ++ (v.hbytes ++ (v.payload ++ (l.flatMap VRec.bytes ++ rest))) := by
      rw [hd]; simp [VRec.bytes]
    have hhead : VlrHeader.decode v.hbytes = v.head := by unfold VRec.head; rw [he]; rfl
    have hps := hfit.small
    rw [he] at hps
    simp only [Bool.false_eq_true, if_false] at hps
    have hle : pre.length + 54 + v.payload.length ≤ data.length := by
      rw [hd']; simp [hhb]; omega
    have hdle : d.length ≤ data.length := by rw [ht]; simp
    have hslice : (data.drop pre.length).take 54 = v.hbytes := by
      rw [hd', List.drop_left, List.take_left' hhb]
    have hnoh : ¬(v.head.userId = idCopc ∧ v.head.recordId = 1000) := by
      rw [hu, hri]; exact hno v (by simp)
    rw [List.length_cons, BaseReader.vlrLoop]
    by_cases hfull : pre.length + 54 ≤ d.length
    · have hr : (IStream.mk d pre.length false).readFilled 54 = (v.hbytes, ⟨d, pre.length + 54, false⟩) := by
        unfold IStream.readFilled IStream.read
        dsimp only
        rw [if_neg (by simp), if_pos hfull]
        have : (d.drop pre.length).take 54 = v.hbytes := by
          rw [← hslice, ht, List.drop_append_of_le_length (by omega),
            List.take_append_of_le_length (by rw [List.length_drop]; omega)]
        dsimp only
        rw [this, padTo_of_length hhb]
      rw [hr]
      dsimp only
      rw [hhead]
      have hskip : IStream.skip64 ⟨d, pre.length + 54, false⟩ v.head.dataLength =
          ⟨d, (pre ++ v.bytes).length, false⟩ := by
        unfold IStream.skip64
        rw [hdl, if_pos (by omega)]
        unfold IStream.seekg
        rw [if_neg (by simp), if_pos (by simp only; omega)]
        simp only [List.length_append, VRec.length_bytes, hsz]
        congr 1
        omega
      rw [hskip]
      exact vlrLoop_cut l (pre ++ v.bytes) rest data d t _ (by rw [hd]; simp) ht hlen
        (fun w hw => hv w (by simp [hw])) (fun w hw => hno w (by simp [hw])) (insertVlr_noPage ho hnoh)
    · have hr : (IStream.mk d pre.length false).readFilled 54 =
          (padTo 54 (d.drop pre.length), ⟨d, d.length, true⟩) := by
        unfold IStream.readFilled IStream.read
        dsimp only
        rw [if_neg (by simp), if_neg hfull]
      rw [hr]
      dsimp only
      refine (vlrLoop_failed l.length (skip64_failed rfl _) (insertVlr_noPage ho ?_)).1
      rintro ⟨h1, h2⟩
      dsimp only at h1 h2
      by_cases h20 : (d.drop pre.length).length < 20
      · exact decode_short h20 h2
      · have heq : (padTo 54 (d.drop pre.length)).take 20 = v.hbytes.take 20 := by
          unfold padTo
          rw [List.take_append_of_le_length (by rw [List.length_take]; omega), List.take_take,
            show min 20 54 = 20 by omega, ← hslice, List.take_take, show min 20 54 = 20 by omega, ht,
            List.drop_append_of_le_length (by rw [List.length_drop] at h20; omega),
            List.take_append_of_le_length (by omega)]
        obtain ⟨i1, i2⟩ := decode_ids heq
        rw [i1, hhead] at h1
        rw [i2, hhead] at h2
        exact hnoh ⟨h1, h2⟩

theorem fetch_noPage {l : List (Nat × VlrHeader)} (h : ∀ x ∈ l, NoPage x) : BaseReader.fetchVlr l idCopc 1000 = 0 := by
  apply fetch_none
  rw [List.find?_eq_none]
  intro x hx
  have := h x hx
  unfold NoPage at this
  simpa using this

/-- Extents items come from a good stream, or there are none. -/
theorem items_good {v : List (Nat × VlrHeader)} {o : Nat} {s : IStream} {i : List (Dbl × Dbl)}
    (h : (Reader.readExtentItems v o s).1 = .ok i) : i = [] ∨ (Reader.readExtentItems v o s).2.fail = false := by
  unfold Reader.readExtentItems at h ⊢
  dsimp only at h ⊢
  generalize (BaseReader.lengthAt v o).toNat = n at h ⊢
  generalize s.seekg (o + 54) = s' at h ⊢
  by_cases hn : n / 16 = 0
  · left
    unfold Extents.getItems at h
    dsimp only at h
    rw [hn] at h
    rw [if_neg (by omega)] at h
    injection h with h
    rw [← h]; rfl
  · right
    unfold IStream.read at h ⊢
    by_cases hf : s'.fail = true
    · rw [if_pos hf] at h
      unfold Extents.getItems at h
      dsimp only at h
      rw [if_pos (by simp only [List.length_nil]; omega)] at h
      cases h
    · rw [if_neg hf] at h ⊢
      by_cases hl : s'.pos + 16 * (n / 16) ≤ s'.data.length
      · rw [if_pos hl]
        simpa using hf
      · rw [if_neg hl] at h
        unfold Extents.getItems at h
        dsimp only at h
        rw [if_pos (by rw [List.length_drop]; omega)] at h
        cases h

theorem number_pos {fmt : Int} {n k : Nat} (h : Extents.number fmt n = .ok k) : 0 < k := by
  unfold Extents.number at h
  obtain ⟨b, hb, h⟩ := Res.bind_ok_iff.1 h
  injection h with h
  have : 0 < b := by
    unfold pointBaseNumberDimensions at hb
    (repeat' split at hb) <;> cases hb <;> simp
  omega

/-- With an extents VLR, the constructor returns only if the stream is good. -/
theorem extents_good {fmt : Int} {v : List (Nat × VlrHeader)} {eb : List EbField} {s : IStream} {e : Extents}
    (ho : BaseReader.fetchVlr v idCopc 10000 ≠ 0) (h : (Reader.readExtents fmt v eb s).1 = .ok e) :
    (Reader.readExtents fmt v eb s).2.fail = false := by
  unfold Reader.readExtents at h ⊢
  dsimp only at h ⊢
  rw [if_pos ho] at h ⊢
  cases hi : (Reader.readExtentItems v (BaseReader.fetchVlr v idCopc 10000) s).1 with
  | throw x => rw [hi] at h; cases h
  | ub => rw [hi] at h; cases h
  | ok i =>
    rw [hi] at h
    rw [Res.okBind] at h ⊢
    cases hv : Extents.ofVlr i fmt (eb.length % 65536) (decide (BaseReader.fetchVlr v idRock 10001 ≠ 0)) with
    | throw x => rw [hv] at h; cases h
    | ub => rw [hv] at h; cases h
    | ok e0 =>
      rw [hv] at h
      dsimp only at h ⊢
      unfold Extents.ofVlr at hv
      split at hv
      · cases hv
      obtain ⟨k, hk, hv⟩ := Res.bind_ok_iff.1 hv
      have hpos := number_pos hk
      split at hv
      · cases hv
      rename_i hlen
      have hlen' : i.length = k := by simpa using hlen
      obtain ⟨l, hl, hv⟩ := Res.bind_ok_iff.1 hv
      injection hv with hv
      have hll : l.length = i.length := by
        have : ∀ (i : List (Dbl × Dbl)) (l : List Extent),
            Res.mapL (fun i : Dbl × Dbl => Extent.make2 i.1 i.2) i = .ok l → l.length = i.length := by
          intro i
          induction i with
          | nil => intro l h; cases h; rfl
          | cons a i ih =>
            intro l h
            unfold Res.mapL at h
            obtain ⟨b, _, h⟩ := Res.bind_ok_iff.1 h
            obtain ⟨l', h', h⟩ := Res.bind_ok_iff.1 h
            injection h with h
            rw [← h, List.length_cons, List.length_cons, ih _ h']
        exact this _ _ hl
      rcases items_good hi with hn | hg
      · rw [hn] at hlen'; simp at hlen'; omega
      · split at h
        · rename_i hx
          rw [if_pos hx]
          obtain ⟨i2, hi2, h⟩ := Res.bind_ok_iff.1 h
          rcases items_good hi2 with hn | hg2
          · unfold Extents.setExtendedStats at h
            split at h
            · cases h
            · rw [hn] at h
              rw [if_pos (by rw [← hv]; simp only [List.length_nil]; omega)] at h
              cases h
          · exact hg2
        · rename_i hx
          rw [if_neg hx]
          exact hg

theorem seekg_data (s : IStream) (p : Nat) : (s.seekg p).data = s.data := by
  unfold IStream.seekg
  split
  · rfl
  · split <;> rfl

/-- The beginning of a file with an extents VLR and pages among the extended VLRs opens only with a good stream. -/
theorem RecFile.cut_good {data d t : Bytes} {h14 : Header14} {vs es : List VRec} (hr : RecFile data h14 vs es)
    (ht : data = d ++ t) (hno : ∀ v ∈ vs, ¬v.Is idCopc 1000) (hex : ∃ v ∈ vs, v.Is idCopc 10000) {r : Reader}
    (h : Reader.init ⟨d, 0, false⟩ = .ok r) :
    r.h.str.fail = false ∧ 375 + vsize vs ≤ d.length := by
  have hlen := hr.len
  have h375 := Header14.length_encode hr.sized
  unfold Reader.init at h
  obtain ⟨b, hb, h⟩ := Res.bind_ok_iff.1 h
  unfold BaseReader.init at hb
  simp only [Bool.false_eq_true, if_false] at hb
  obtain ⟨g14, e14, hb⟩ := Res.bind_ok_iff.1 hb
  obtain ⟨hd, ehd, hb⟩ := Res.bind_ok_iff.1 hb
  obtain ⟨tb, htb, hb⟩ := Res.bind_ok_iff.1 hb
  obtain ⟨wkt, hw, hb⟩ := Res.bind_ok_iff.1 hb
  obtain ⟨eb, heb, hb⟩ := Res.bind_ok_iff.1 hb
  injection hb with hb
  have hg14 : g14 = stripFormat h14 := by
    have e2 := hr.readHeader 0 false
    unfold BaseReader.readHeader at e14 e2
    dsimp only at e14 e2
    split at e14
    · cases e14
    rename_i hl
    rw [if_neg (by have := congrArg List.length ht; rw [List.length_append] at this; omega), ht,
      List.take_append_of_le_length (by omega), e14] at e2
    exact Res.ok.inj e2
  have hbv : b.vlrs = tb := by rw [← hb]
  unfold Reader.initCopc at h
  dsimp only at h
  split at h
  · cases h
  rename_i hmiss
  rw [hbv] at hmiss
  obtain ⟨info, hi, h⟩ := Res.bind_ok_iff.1 h
  obtain ⟨ex, he, h⟩ := Res.bind_ok_iff.1 h
  obtain ⟨cfg, hcfg, h⟩ := Res.bind_ok_iff.1 h
  injection h with h
  have htb' := htb
  unfold BaseReader.readVlrHeaders at htb'
  have hs : (375 : UInt16).toNat = 375 := rfl
  have hgs : g14.headerSize.toNat = 375 ∧ g14.vlrCount.toNat = vs.length ∧ g14.evlrOffset = h14.evlrOffset := by
    rw [hg14]
    exact ⟨by show h14.headerSize.toNat = 375; rw [hr.size375]; rfl, hr.vcount, rfl⟩
  dsimp only at htb'
  rw [hgs.1, hgs.2.1, hgs.2.2, RecFile.seekg_good (by omega)] at htb'
  split at htb'
  · cases htb'
  injection htb' with htb'
  obtain ⟨rest, hhd⟩ := hr.head
  have hle : 375 + vsize vs ≤ d.length := by
    by_contra hshort
    have hpre : ∀ x ∈ (BaseReader.vlrLoop vs.length ⟨d, 375, false⟩ []).1, NoPage x := by
      have := vlrLoop_cut vs h14.encode rest data d t [] hhd ht hlen hr.vfit hno (by simp)
      rwa [h375] at this
    have hdata : (BaseReader.vlrLoop vs.length ⟨d, 375, false⟩ []).2.data = d := by rw [vlrLoop_data]
    refine hmiss (.inr (fetch_noPage ?_))
    rw [← htb']
    generalize BaseReader.vlrLoop vs.length ⟨d, 375, false⟩ [] = q at hpre hdata ⊢
    obtain ⟨out, s⟩ := q
    dsimp only at hpre hdata ⊢
    cases hf : s.fail with
    | true => exact evlrLoop_failed _ (seekg_failed hf _) hpre
    | false =>
      refine evlrLoop_beyond hpre ?_
      have hap := hr.apart
      have hol := hr.offset_le
      unfold IStream.seekg
      rw [if_neg (by rw [hf]; simp), if_pos (by omega)]
      dsimp only
      rw [hdata]
      omega
  refine ⟨?_, hle⟩
  rw [← h]
  dsimp only
  refine extents_good ?_ he
  have hrest : d = h14.encode ++ (vs.flatMap VRec.bytes ++ (d.drop (375 + vsize vs))) := by
    have hv : (h14.encode ++ vs.flatMap VRec.bytes).length = 375 + vsize vs := by
      rw [List.length_append, h375]; rfl
    have h1 : d.take (375 + vsize vs) = h14.encode ++ vs.flatMap VRec.bytes := by
      have : data.take (375 + vsize vs) = h14.encode ++ vs.flatMap VRec.bytes := by
        rw [hhd, ← List.append_assoc, List.take_left' hv]
      rw [← this, ht, List.take_append_of_le_length hle]
    rw [← List.append_assoc, ← h1, List.take_append_drop]
  have hloop := vlrLoop_places vs h14.encode (d.drop (375 + vsize vs)) d [] hrest
    (by have := congrArg List.length ht; rw [List.length_append] at this; omega) hr.vfit (by simp)
  rw [h375] at hloop
  have hkeep : ∀ (n : Nat) (s : IStream) (out : List (Nat × VlrHeader)) (x : Nat × VlrHeader), x ∈ out →
      x ∈ (BaseReader.evlrLoop n s out).1 := by
    intro n
    induction n with
    | zero => intro s out x hx; exact hx
    | succ n ih =>
      intro s out x hx
      rw [BaseReader.evlrLoop]
      exact ih _ _ _ (insertVlr_keep hx)
  obtain ⟨v, hv, hvi⟩ := hex
  have hx := places_mem vs h14.encode.length hv
  obtain ⟨p, hx⟩ := hx
  rw [h375] at hx
  have hp0 : p ≠ 0 := by have := places_range vs 375 _ hx; dsimp only at this; omega
  obtain ⟨pre, rest', hhe, hpl⟩ := hr.tail
  have hap := hr.apart
  have hol := hr.offset_le
  have hec : g14.evlrCount.toNat = es.length := by rw [hg14]; exact hr.ecount
  rw [hloop, hec, ← hpl, RecFile.seekg_good (by omega), List.nil_append] at htb'
  have hall : ∀ x ∈ tb, x.1 ≠ 0 := by
    rw [← htb']
    refine evlrLoop_cut es pre rest' data d t _ hhe ht hlen (by omega) hr.efit ?_
    intro x hx
    have := places_range vs 375 x hx
    omega
  have hin : (p, v.head) ∈ tb := by rw [← htb']; exact hkeep _ _ _ _ hx
  rw [hbv]
  unfold BaseReader.fetchVlr
  cases hf : tb.find? (fun v => decide (v.2.userId = idCopc) && decide (v.2.recordId = 10000)) with
  | some x => exact hall x (List.mem_of_find?_eq_some hf)
  | none =>
    exfalso
    have := (List.find?_eq_none.1 hf) _ hin
    obtain ⟨f1, f2, _⟩ := VRec.head_facts (hr.vfit v hv).2
    apply this
    dsimp only
    rw [f1, f2, hvi.1, hvi.2]
    decide

/-- A file that opens with a good stream reaches beyond the header of its first extended VLR. -/
theorem cut_reach {d : Bytes} {r : Reader} (h : Reader.init ⟨d, 0, false⟩ = .ok r) (hg : r.h.str.fail = false)
    (h1 : (Header14.decode (d.take 375)).evlrCount ≠ 0) :
    (Header14.decode (d.take 375)).evlrOffset.toNat + 60 ≤ d.length := by
  unfold Reader.init at h
  obtain ⟨b, hb, h⟩ := Res.bind_ok_iff.1 h
  unfold Reader.initCopc at h
  dsimp only at h
  split at h
  · cases h
  obtain ⟨info, hi, h⟩ := Res.bind_ok_iff.1 h
  obtain ⟨ex, he, h⟩ := Res.bind_ok_iff.1 h
  obtain ⟨cfg, hcfg, h⟩ := Res.bind_ok_iff.1 h
  injection h with h
  rw [← h] at hg
  dsimp only at hg
  obtain ⟨g1, _⟩ := firm_extents (t := []) _ _ _ _ hg
  obtain ⟨g2, _⟩ := firm_info (t := []) _ _ g1
  unfold BaseReader.init at hb
  simp only [Bool.false_eq_true, if_false] at hb
  obtain ⟨h14, e14, hb⟩ := Res.bind_ok_iff.1 hb
  obtain ⟨hd, ehd, hb⟩ := Res.bind_ok_iff.1 hb
  obtain ⟨tb, htb, hb⟩ := Res.bind_ok_iff.1 hb
  obtain ⟨wkt, hw, hb⟩ := Res.bind_ok_iff.1 hb
  obtain ⟨eb, heb, hb⟩ := Res.bind_ok_iff.1 hb
  injection hb with hb
  rw [← hb] at g2
  dsimp only at g2
  obtain ⟨g3, _⟩ := firm_eb (t := []) _ _ g2
  obtain ⟨g4, _⟩ := firm_wkt (t := []) _ _ g3
  have hh : h14.evlrCount = (Header14.decode (d.take 375)).evlrCount ∧
      h14.evlrOffset = (Header14.decode (d.take 375)).evlrOffset := by
    unfold BaseReader.readHeader at e14
    dsimp only at e14
    split at e14
    · cases e14
    injection e14 with e14
    rw [← e14]
    exact ⟨rfl, rfl⟩
  rw [← hh.1] at h1
  rw [← hh.2]
  unfold BaseReader.readVlrHeaders at g4 htb
  dsimp only at g4 htb
  split at htb
  · cases htb
  rename_i hfew
  rw [if_neg hfew] at g4
  dsimp only at g4
  have hdata : (BaseReader.vlrLoop h14.vlrCount.toNat ((IStream.mk d 0 false).seekg h14.headerSize.toNat) []).2.data = d := by
    rw [vlrLoop_data, seekg_data]
  generalize BaseReader.vlrLoop h14.vlrCount.toNat ((IStream.mk d 0 false).seekg h14.headerSize.toNat) [] = q at g4 hdata
  obtain ⟨n, hn⟩ : ∃ n, h14.evlrCount.toNat = n + 1 := by
    refine ⟨h14.evlrCount.toNat - 1, ?_⟩
    have : h14.evlrCount.toNat ≠ 0 := fun hc => h1 (UInt32.toNat.inj hc)
    omega
  rw [hn, BaseReader.evlrLoop] at g4
  obtain ⟨g5, _⟩ := firm_evlrLoop (t := []) _ _ _ g4
  have g6 := skip64_good g5
  change ((q.2.seekg h14.evlrOffset.toNat).read 60).2.fail = false at g6
  have g7 := read_good g6
  have g8 := seekg_good' g7
  unfold IStream.read at g6
  rw [if_neg (by rw [g7]; simp)] at g6
  split at g6
  · rename_i hle
    rw [seekg_data, hdata] at hle
    unfold IStream.seekg at hle g7
    rw [if_neg (by rw [g8]; simp)] at hle g7
    split at hle
    · exact hle
    · rename_i hno; rw [if_neg hno] at g7; cases g7
  · cases g6

end Copc
