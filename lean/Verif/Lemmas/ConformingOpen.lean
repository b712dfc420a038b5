import Verif.Lemmas.Conforming
/-! # Opening a file of another program: the parts -/
namespace Copc
open Spec

section
variable {data : Bytes}

/-- The table that the reader makes. -/
def fileTable (data : Bytes) : List (Nat × VlrHeader) :=
  tableOf data false (Format.num data 4 100) 375 ++ tableOf data true (Format.num data 4 243) (Format.num data 8 235)

theorem vlrs_eq (hc : Format.Las data) : Format.vlrs data = Format.records data (hsz false) (lsz false) (Format.num data 4 100) 375 := by
  unfold Format.vlrs; rw [hc.header]; rfl

theorem evlrs_eq : Format.evlrs data = Format.records data (hsz true) (lsz true) (Format.num data 4 243) (Format.num data 8 235) := rfl

theorem evlr_from {head len : Nat} : ∀ (n p : Nat), ∀ r ∈ Format.records data head len n p, p + head ≤ r.offset
  | 0, _, r, h => by cases h
  | n + 1, p, r, h => by
    rcases List.mem_cons.1 h with rfl | h
    · exact Nat.le_refl _
    · have := evlr_from n _ r h
      omega

theorem Format.Conforms.small (hc : Format.Conforms data) : Format.num data 8 235 ≤ data.length := by
  obtain ⟨r, hr, _⟩ := hc.hierarchy
  have h1 := hc.evlrsEnd r hr
  have h2 := evlr_from (data := data) _ _ r hr
  omega

/-- A COPC file is a LAS file. -/
theorem Format.Conforms.las (hc : Format.Conforms data) : Format.Las data := by
  have h1 := hc.points
  have h2 := hc.vlrsEnd ⟨Format.uCopc, 1, 429, 160⟩ (List.mem_of_mem_head? hc.info)
  have h3 := hc.small
  simp only at h2
  exact ⟨hc.fits, hc.full, hc.signature, hc.version, hc.wktBit, hc.header, hc.format, hc.vlrsEnd, ⟨by omega, by omega⟩, ⟨h3, fun _ => h1⟩,
    hc.evlrsEnd, hc.vlrUser, hc.evlrUser⟩

theorem Format.Suits.las (hs : Format.Suits data) : Format.SuitsLas data :=
  ⟨hs.guid, hs.system, hs.software, hs.wkt, fun r hr => (hs.others r hr).1, hs.wktSize, hs.few⟩

theorem belongs_vlrs (hc : Format.Las data) :
    List.Forall₂ (Belongs false) (tableOf data false (Format.num data 4 100) 375) (Format.vlrs data) := by
  have hp := hc.pointsFrom
  rw [vlrs_eq hc]
  refine tableOf_belongs false _ _ ?_ ?_
  · rw [← vlrs_eq hc]
    intro r hr
    have := hc.vlrsEnd r hr
    omega
  · rw [← vlrs_eq hc]
    exact hc.vlrUser

theorem belongs_evlrs (hc : Format.Las data) :
    List.Forall₂ (Belongs true) (tableOf data true (Format.num data 4 243) (Format.num data 8 235)) (Format.evlrs data) :=
  tableOf_belongs true _ _ hc.evlrsEnd hc.evlrUser

theorem forall₂_left {α β : Type} {R : α → β → Prop} {l : List α} {m : List β} (h : List.Forall₂ R l m) {x : α} (hx : x ∈ l) :
    ∃ r ∈ m, R x r := by
  induction h with
  | nil => cases hx
  | cons hR _ ih =>
    rcases List.mem_cons.1 hx with rfl | hx
    · exact ⟨_, List.mem_cons_self, hR⟩
    · obtain ⟨r, h1, h2⟩ := ih hx
      exact ⟨r, List.mem_cons_of_mem _ h1, h2⟩

theorem vlr_pos (hc : Format.Las data) {x : Nat × VlrHeader} (hx : x ∈ tableOf data false (Format.num data 4 100) 375) :
    Format.num data 4 243 ≠ 0 → x.1 < Format.num data 8 235 := by
  intro h0
  obtain ⟨r, hr, hb, _⟩ := forall₂_left (belongs_vlrs hc) hx
  have h1 := hc.vlrsEnd r hr
  have h2 := hc.evlrsFrom.2 h0
  have : hsz false = 54 := rfl
  omega

theorem fileTable_nodup (hc : Format.Las data) : (AList.keys (fileTable data)).Nodup := by
  unfold fileTable AList.keys
  rw [List.map_append, List.nodup_append]
  refine ⟨(tableOf_range false _ _).2, (tableOf_range true _ _).2, ?_⟩
  rintro a ha b hb rfl
  obtain ⟨x, hx, rfl⟩ := List.mem_map.1 ha
  obtain ⟨y, hy, he⟩ := List.mem_map.1 hb
  have h0 : Format.num data 4 243 ≠ 0 := by
    intro h0
    rw [h0] at hy
    cases hy
  have h1 := vlr_pos hc hx h0
  have h2 := (tableOf_range true _ _).1 y hy
  omega

theorem readHeaders_table (hc : Format.Las data) (hf : Format.num data 4 243 < 2 ^ 31) {h14 : Header14}
    (h1 : h14.headerSize.toNat = 375) (h2 : h14.vlrCount.toNat = Format.num data 4 100)
    (h3 : h14.evlrCount.toNat = Format.num data 4 243) (h4 : h14.evlrOffset.toNat = Format.num data 8 235) (p : Nat) :
    ∃ q, BaseReader.readVlrHeaders h14 ⟨data, p, false⟩ = (.ok (fileTable data), ⟨data, q, false⟩) := by
  have hl := hc.fits
  have hs := hc.evlrsFrom.1
  have hp := hc.pointsFrom
  unfold BaseReader.readVlrHeaders
  rw [h1, h2, h3, h4, RecFile.seekg_good (by omega)]
  obtain ⟨q1, e1⟩ := vlrLoop_table hl (Format.num data 4 100) 375 [] (by
    intro r hr
    have := hc.vlrsEnd r (by rw [vlrs_eq hc]; exact hr)
    omega) (by simp)
  rw [e1]
  simp only
  rw [if_neg (by omega), RecFile.seekg_good (by omega)]
  by_cases h0 : Format.num data 4 243 = 0
  · unfold fileTable
    rw [h0]
    exact ⟨_, by rw [tableOf, List.append_nil]; rfl⟩
  obtain ⟨q2, e2⟩ := evlrLoop_table hl (Format.num data 4 243) (Format.num data 8 235)
    ([] ++ tableOf data false (Format.num data 4 100) 375) hc.evlrsEnd (by
      intro x hx
      exact vlr_pos hc (by simpa using hx) h0)
  rw [e2]
  exact ⟨q2, rfl⟩

/-- What `FetchVlr` finds. -/
inductive Fetched (data : Bytes) (user : Bytes) (id : Nat) (o : Nat) : Prop
  | none : Format.found data user id = none → o = 0 → Fetched data user id o
  | vlr (r : Format.Record) : Format.found data user id = some r → r ∈ Format.vlrs data → o + 54 = r.offset → o ≠ 0 →
    (r.size < 2 ^ 31 → BaseReader.lengthAt (fileTable data) o = r.size) → Fetched data user id o
  | evlr (r : Format.Record) : Format.found data user id = some r → r ∈ Format.evlrs data → o + 60 = r.offset → o ≠ 0 →
    (r.size < 2 ^ 31 → BaseReader.lengthAt (fileTable data) o = r.size) → Fetched data user id o

theorem lengthAt_table (hc : Format.Las data) {x : Nat × VlrHeader} (hx : x ∈ fileTable data) {n : Nat}
    (hn : x.2.dataLength.toNat = n) (hs : n < 2 ^ 31) : BaseReader.lengthAt (fileTable data) x.1 = n := by
  unfold BaseReader.lengthAt
  rw [AList.get_of_mem (fileTable_nodup hc) hx]
  simp only [Option.map_some, Option.getD_some]
  rw [hn, Nat.mod_eq_of_lt (by omega)]
  unfold signed
  rw [if_pos (by omega)]

theorem is_found (b : Bool) (user : Bytes) (id : UInt16) {x : Nat × VlrHeader} {r : Format.Record} (h : Belongs b x r) :
    (decide (x.2.userId = user) && decide (x.2.recordId = id)) = (decide (r.user = user) && decide (r.id = id.toNat)) := by
  obtain ⟨_, h2, h3, _⟩ := h
  rw [h2, ← h3]
  congr 1
  exact decide_eq_decide.2 ⟨fun h => by rw [h], fun h => UInt16.toNat.inj h⟩

theorem fetched (hc : Format.Las data) (user : Bytes) (id : UInt16) :
    Fetched data user id.toNat (BaseReader.fetchVlr (fileTable data) user id) := by
  unfold BaseReader.fetchVlr
  have hpos : Format.num data 4 243 ≠ 0 → 375 ≤ Format.num data 8 235 := by
    intro h0
    have h1 := hc.pointsFrom.1
    have h2 := hc.evlrsFrom.2 h0
    omega
  have hv := find_belongs (belongs_vlrs hc) (fun x r h => is_found false user id h)
  have he := find_belongs (belongs_evlrs hc) (fun x r h => is_found true user id h)
  have hf : Format.found data user id.toNat = ((Format.vlrs data).find? fun r => decide (r.user = user) && decide (r.id = id.toNat)).or
      ((Format.evlrs data).find? fun r => decide (r.user = user) && decide (r.id = id.toNat)) := by
    unfold Format.found; exact List.find?_append
  have ht : (fileTable data).find? (fun v => decide (v.2.userId = user) && decide (v.2.recordId = id)) =
      ((tableOf data false (Format.num data 4 100) 375).find? (fun v => decide (v.2.userId = user) && decide (v.2.recordId = id))).or
      ((tableOf data true (Format.num data 4 243) (Format.num data 8 235)).find? (fun v => decide (v.2.userId = user) && decide (v.2.recordId = id))) := by
    unfold fileTable; exact List.find?_append
  rcases hv with ⟨v1, v2⟩ | ⟨x, r, v1, v2, ⟨b1, b2, b3, b4⟩, v4, v5⟩
  · rcases he with ⟨e1, e2⟩ | ⟨x, r, e1, e2, ⟨b1, b2, b3, b4⟩, e4, e5⟩
    · rw [v2, e2] at hf
      rw [ht, v1, e1]
      exact .none hf rfl
    · rw [v2, e2] at hf
      rw [ht, v1, e1]
      have := (tableOf_range true _ _).1 x e4
      have h0 : Format.num data 4 243 ≠ 0 := by
        intro h0
        rw [h0] at e4
        cases e4
      have := hpos h0
      refine .evlr r hf e5 b1 ?_ (lengthAt_table hc (List.mem_append_right _ e4) b4)
      show x.1 ≠ 0
      omega
  · rw [v2] at hf
    rw [ht, v1]
    have := (tableOf_range false _ _).1 x v4
    refine .vlr r hf v5 b1 ?_ (lengthAt_table hc (List.mem_append_left _ v4) b4)
    show x.1 ≠ 0
    omega

/-! ### Lists of items -/

theorem getMany_range {α : Type} {f : Bytes → α × Bytes} {w : Nat} (hf : ∀ bs, (f bs).2 = bs.drop w) :
    ∀ (n : Nat) (bs : Bytes), (getMany f n bs).1 = (List.range n).map fun i => (f (bs.drop (w * i))).1
  | 0, _ => rfl
  | n + 1, bs => by
    rw [getMany, List.range_succ_eq_map, List.map_cons, List.map_map]
    simp only
    rw [getMany_range hf n, Nat.mul_zero, List.drop_zero, hf]
    congr 1
    apply List.map_congr_left
    intro i _
    simp only [Function.comp, List.drop_drop]
    congr 3
    rw [Nat.mul_succ, Nat.add_comm]

theorem dbl_drop {bs : Bytes} (p q : Nat) : Format.dbl (bs.drop p) q = Format.dbl bs (p + q) := by
  unfold Format.dbl Format.num
  rw [List.drop_drop]

theorem items_at {o n : Nat} (h : o + 16 * (n / 16) ≤ data.length) :
    Extents.getItems n (Format.text data (16 * (n / 16)) o) =
      .ok ((List.range (n / 16)).map fun i => (Format.dbl data (o + 16 * i), Format.dbl data (o + 16 * i + 8))) := by
  unfold Extents.getItems
  simp only
  rw [length_text h, if_neg (by omega), getMany_range (w := 16) (by
    intro bs
    simp only [getD, getU, List.drop_drop])]
  congr 1
  apply List.map_congr_left
  intro i hi
  have hi := List.mem_range.1 hi
  have e : ∀ bs : Bytes, ((getD bs).1, (getD (getD bs).2).1) = (Format.dbl bs 0, Format.dbl bs 8) := by
    intro bs
    simp only [getD, getU, List.drop_drop, num_eq, Format.dbl]
    rfl
  refine (e _).trans ?_
  rw [dbl_drop, dbl_drop, dbl_text (by omega), dbl_text (by omega)]
  rfl

theorem ebDecode_rest (bs : Bytes) : (EbField.decode bs).2 = bs.drop 192 := by
  simp only [EbField.decode, getRaw, getU8, getV, getD, getU, List.drop_drop]

theorem ebDecode_is {bs : Bytes} (h : 192 ≤ bs.length) : Format.EbIs bs 0 (EbField.decode bs).1 := by
  have hd (p : Nat) : Flt.ofBits (Format.num bs 8 p) = Format.dbl bs p := rfl
  have ht (k p : Nat) (hp : p + k ≤ 192) : Format.Holds bs k p (trimNul (Format.text bs k p)) := by
    unfold Format.Holds
    have := trimNul_holds (Format.text bs k p)
    rwa [length_text (by omega)] at this
  constructor <;>
    simp only [EbField.decode, getRaw, getU8, getV, getD, getU, List.drop_drop, num_eq, toNat8, hd, Nat.zero_add]
  · exact raw_eq (p := 0) (by omega)
  · rw [raw_eq (p := 2 + 1 + 1) (by omega)]
    exact ht 32 4 (by omega)
  · exact raw_eq (by omega)
  · rw [raw_eq (by omega)]
    exact ht 32 160 (by omega)

theorem holds_text {k m p q : Nat} {s : Bytes} (h : Format.Holds (Format.text data m p) k q s) (hk : q + k ≤ m) :
    Format.Holds data k (p + q) s := by
  unfold Format.Holds at h ⊢
  rwa [text_text hk] at h

theorem eb_at {m p : Nat} {f : EbField} (hm : 192 ≤ m) (h : Format.EbIs (Format.text data m p) 0 f) : Format.EbIs data p f := by
  obtain ⟨h1, h2, h3, h4, h5, h6, h7, h8, h9, h10, h11⟩ := h
  simp only [Nat.zero_add] at *
  have hd (q : Nat) (hq : q + 8 ≤ 192) : Format.dbl (Format.text data m p) q = Format.dbl data (p + q) := dbl_text (by omega)
  have hn (q : Nat) (hq : q + 1 ≤ 192) : Format.num (Format.text data m p) 1 q = Format.num data 1 (p + q) := num_text (by omega)
  refine ⟨?_, ?_, ?_, holds_text h4 (by omega), ?_, ?_, ?_, ?_, ?_, ?_, holds_text h11 (by omega)⟩
  · rw [h1, text_text (by omega), Nat.add_zero]
  · rw [h2, hn _ (by omega)]
  · rw [h3, hn _ (by omega)]
  · rw [h5, text_text (by omega)]
  · rw [h6, hd _ (by omega), hd _ (by omega), hd _ (by omega)]
  · rw [h7, hd _ (by omega), hd _ (by omega), hd _ (by omega)]
  · rw [h8, hd _ (by omega), hd _ (by omega), hd _ (by omega)]
  · rw [h9, hd _ (by omega), hd _ (by omega), hd _ (by omega)]
  · rw [h10, hd _ (by omega), hd _ (by omega), hd _ (by omega)]

theorem getEb_is {n o : Nat} (h : o + n ≤ data.length) :
    (getEb n (Format.text data n o)).length = n / 192 ∧
    ∀ i f, (getEb n (Format.text data n o))[i]? = some f → Format.EbIs data (o + 192 * i) f := by
  unfold getEb
  rw [List.take_of_length_le (by rw [length_text h]), getMany_range ebDecode_rest]
  refine ⟨by simp, ?_⟩
  intro i f hf
  rw [List.getElem?_map] at hf
  obtain ⟨j, hj, hf⟩ := Option.map_eq_some_iff.1 hf
  obtain ⟨hi, rfl⟩ := List.getElem?_eq_some_iff.1 hj
  rw [List.length_range] at hi
  rw [List.getElem_range, drop_text] at hf
  subst hf
  have hm : 192 ≤ n - 192 * i := by omega
  exact eb_at hm (ebDecode_is (by rw [length_text (by omega)]; omega))

/-! ### The steps of opening -/

theorem seek_filled {o k p : Nat} (h : o + k ≤ data.length) (hl : data.length < 2 ^ 63) :
    ((IStream.mk data p false).seekg o).readFilled k = (Format.text data k o, ⟨data, o + k, false⟩) := by
  rw [RecFile.seekg_good (by omega), readFilled_text h]

theorem seek_read {o k p : Nat} (h : o + k ≤ data.length) (hl : data.length < 2 ^ 63) :
    ((IStream.mk data p false).seekg o).read k = (Format.text data k o, ⟨data, o + k, false⟩) := by
  rw [RecFile.seekg_good (by omega)]
  unfold IStream.read
  rw [if_neg (by simp), if_pos h]
  rfl

theorem vlr_inside (hc : Format.Las data) {r : Format.Record} (h : r ∈ Format.vlrs data) : r.offset + r.size ≤ data.length := by
  have h1 := hc.vlrsEnd r h
  have h2 := hc.pointsFrom.2
  omega

theorem vlr_size : ∀ {r : Format.Record}, r ∈ Format.vlrs data → r.size < 65536 := by
  have key : ∀ (n p : Nat) (r : Format.Record), r ∈ Format.records data 54 2 n p → r.size < 65536 := by
    intro n
    induction n with
    | zero => intro p r h; cases h
    | succ n ih =>
      intro p r h
      rcases List.mem_cons.1 h with rfl | h
      · exact num_lt data 2 (p + 20)
      · exact ih _ r h
  intro r h
  exact key _ _ r h

theorem wkt_read (hc : Format.Las data) (hs : Format.SuitsLas data) (p : Nat) :
    ∃ q, BaseReader.readWkt (fileTable data) ⟨data, p, false⟩ =
      (.ok (((Format.found data Format.uProj 2112).map fun r => Format.text data r.size r.offset).getD []), ⟨data, q, false⟩) := by
  have hf : Fetched data Format.uProj 2112 (BaseReader.fetchVlr (fileTable data) idProj 2112) := fetched hc idProj 2112
  unfold BaseReader.readWkt
  generalize BaseReader.fetchVlr (fileTable data) idProj 2112 = o at hf
  dsimp only
  cases hf with
  | none h1 h2 =>
    rw [if_neg (by simp [h2]), h1]
    exact ⟨p, rfl⟩
  | vlr r h1 h2 h3 h4 h5 =>
    exfalso
    refine hs.wkt r h2 ?_
    have := List.find?_some h1
    simpa using this
  | evlr r h1 h2 h3 h4 h5 =>
    have hsz := hs.wktSize r h1
    have hin := hc.evlrsEnd r h2
    rw [if_pos h4, h5 hsz, h3, h1]
    unfold BaseReader.readPayload
    rw [if_neg (by omega), Int.toNat_natCast, seek_filled hin hc.fits]
    exact ⟨_, rfl⟩

theorem eb_read (hc : Format.Las data) (hs : Format.SuitsLas data) (p : Nat) :
    ∃ l q, BaseReader.readEb (fileTable data) ⟨data, p, false⟩ = (.ok l, ⟨data, q, false⟩) ∧
      l.length = Format.ebCount data ∧ l.length < 65536 ∧
      ∀ r, Format.found data Format.uSpec 4 = some r → ∀ i f, l[i]? = some f → Format.EbIs data (r.offset + 192 * i) f := by
  have hf : Fetched data Format.uSpec 4 (BaseReader.fetchVlr (fileTable data) idSpec 4) := fetched hc idSpec 4
  unfold BaseReader.readEb Format.ebCount
  generalize BaseReader.fetchVlr (fileTable data) idSpec 4 = o at hf
  dsimp only
  cases hf with
  | none h1 h2 =>
    rw [if_neg (by simp [h2]), h1]
    exact ⟨[], p, rfl, rfl, by simp, fun r hr => by cases hr⟩
  | vlr r h1 h2 h3 h4 h5 =>
    have hsz := vlr_size h2
    have hin := vlr_inside hc h2
    rw [if_pos h4, h5 (by omega), h3, h1]
    unfold BaseReader.readPayload
    rw [if_neg (by omega), Int.toNat_natCast, seek_filled hin hc.fits]
    obtain ⟨g1, g2⟩ := getEb_is hin
    refine ⟨_, _, rfl, g1, by rw [g1]; omega, ?_⟩
    rintro r' hr'
    obtain rfl := Option.some.inj hr'
    exact g2
  | evlr r h1 h2 h3 h4 h5 =>
    exfalso
    refine hs.ebs r h2 ?_
    have := List.find?_some h1
    simpa using this

theorem info_first (hc : Format.Conforms data) : BaseReader.fetchVlr (fileTable data) idCopc 1 = 375 := by
  have h := fetched hc.las idCopc 1
  have h0 : Format.found data idCopc (1 : UInt16).toNat = some ⟨Format.uCopc, 1, 429, 160⟩ := by
    have hi := hc.info
    unfold Format.found
    generalize Format.vlrs data = l at hi
    cases l with
    | nil => cases hi
    | cons a l =>
      obtain rfl := Option.some.inj hi
      rfl
  generalize BaseReader.fetchVlr (fileTable data) idCopc 1 = o at h
  cases h with
  | none h1 => rw [h0] at h1; cases h1
  | vlr r h1 h2 h3 =>
    rw [h0] at h1
    obtain rfl := Option.some.inj h1
    simp only at h3
    omega
  | evlr r h1 h2 h3 =>
    rw [h0] at h1
    obtain rfl := Option.some.inj h1
    simp only at h3
    have h4 := evlr_from (data := data) _ _ _ h2
    have h5 := hc.points
    have h6 := hc.vlrsEnd ⟨Format.uCopc, 1, 429, 160⟩ (List.mem_of_mem_head? hc.info)
    simp only at h4 h6
    omega

theorem hierarchy_found (hc : Format.Conforms data) : BaseReader.fetchVlr (fileTable data) idCopc 1000 ≠ 0 := by
  have h := fetched hc.las idCopc 1000
  intro h0
  rw [h0] at h
  cases h with
  | none h1 h2 =>
    obtain ⟨r, hr, hu, hi⟩ := hc.hierarchy
    have := List.find?_eq_none.1 h1 r (List.mem_append_right _ hr)
    rw [hu, hi] at this
    exact this rfl
  | vlr r h1 h2 h3 h4 => exact h4 rfl
  | evlr r h1 h2 h3 h4 => exact h4 rfl

theorem info_read (hc : Format.Conforms data) (p : Nat) :
    ∃ i q, Reader.readInfo (fileTable data) ⟨data, p, false⟩ = (.ok i, ⟨data, q, false⟩) ∧ Format.InfoIs data i := by
  unfold Reader.readInfo
  rw [info_first hc]
  have hin := vlr_inside hc.las (List.mem_of_mem_head? hc.info)
  simp only at hin
  dsimp only
  rw [if_neg (by omega), if_neg (by omega), seek_filled (by omega) hc.fits]
  refine ⟨_, _, rfl, ?_⟩
  have hd (q : Nat) (hq : q + 8 ≤ 160) : Format.dbl (Format.text data 160 429) q = Format.dbl data (429 + q) := dbl_text hq
  have hn (q : Nat) (hq : q + 8 ≤ 160) : Format.num (Format.text data 160 429) 8 q = Format.num data 8 (429 + q) := num_text hq
  have e1 := hd 0 (by omega)
  have e2 := hd 8 (by omega)
  have e3 := hd 16 (by omega)
  have e4 := hd 24 (by omega)
  have e5 := hd 32 (by omega)
  have e6 := hn 40 (by omega)
  have e7 := hn 48 (by omega)
  simp only [Nat.reduceAdd] at e1 e2 e3 e4 e5 e6 e7
  show Format.InfoIs data (CopcInfo.decode (Format.text data 160 429))
  generalize Format.text data 160 429 = B at *
  have hdb (p : Nat) : Flt.ofBits (Format.num B 8 p) = Format.dbl B p := rfl
  constructor <;> simp only [CopcInfo.decode, getD, getU64, getU, List.drop_drop, num_eq, toNat64, hdb, Nat.reduceAdd]
  · exact ⟨e1, e2, e3⟩
  · exact e4
  · exact e5
  · exact e6
  · exact e7

end
end Copc
