import Verif.Lemmas.RecFile
/-!
# C45: VLR lookup

`FetchVlr` on the table of any file; and the WKT string of a file, which is right when it is stored as an
extended VLR and wrong when it is stored as a VLR.
-/
namespace Copc
open Spec

/-! ### The table is ordered by file offset -/

def Ascending (t : List (Nat × VlrHeader)) : Prop := t.Pairwise fun a b => a.1 < b.1

theorem mem_insertVlr {p : Nat} {h : VlrHeader} {x : Nat × VlrHeader} : ∀ {t : List (Nat × VlrHeader)},
    x ∈ BaseReader.insertVlr p h t → x = (p, h) ∨ x ∈ t
  | [], hx => by simpa [BaseReader.insertVlr] using hx
  | (q, g) :: l, hx => by
    unfold BaseReader.insertVlr at hx
    split at hx
    · rcases List.mem_cons.1 hx with h | h
      · exact .inl h
      · exact .inr h
    · split at hx
      · exact .inr hx
      · rcases List.mem_cons.1 hx with h | h
        · exact .inr (by simp [h])
        · rcases mem_insertVlr h with h | h
          · exact .inl h
          · exact .inr (by simp [h])

theorem ascending_insert {p : Nat} {h : VlrHeader} : ∀ {t : List (Nat × VlrHeader)}, Ascending t →
    Ascending (BaseReader.insertVlr p h t)
  | [], _ => by simp [Ascending, BaseReader.insertVlr]
  | (q, g) :: l, ht => by
    obtain ⟨h1, h2⟩ := List.pairwise_cons.1 ht
    unfold BaseReader.insertVlr
    split
    · rename_i hlt
      refine List.pairwise_cons.2 ⟨fun x hx => ?_, ht⟩
      rcases List.mem_cons.1 hx with rfl | hx
      · exact hlt
      · have := h1 x hx; simp only at *; omega
    · split
      · exact ht
      · refine List.pairwise_cons.2 ⟨fun x hx => ?_, ascending_insert h2⟩
        rcases mem_insertVlr hx with rfl | hx
        · simp only; omega
        · exact h1 x hx

theorem ascending_vlrLoop : ∀ (n : Nat) (s : IStream) (t : List (Nat × VlrHeader)), Ascending t →
    Ascending (BaseReader.vlrLoop n s t).1
  | 0, _, _, h => h
  | n + 1, _, _, h => ascending_vlrLoop n _ _ (ascending_insert h)

theorem ascending_evlrLoop : ∀ (n : Nat) (s : IStream) (t : List (Nat × VlrHeader)), Ascending t →
    Ascending (BaseReader.evlrLoop n s t).1
  | 0, _, _, h => h
  | n + 1, _, _, h => ascending_evlrLoop n _ _ (ascending_insert h)

theorem ascending_read {h : Header14} {s s' : IStream} {t : List (Nat × VlrHeader)}
    (hr : BaseReader.readVlrHeaders h s = (.ok t, s')) : Ascending t := by
  unfold BaseReader.readVlrHeaders at hr
  have h1 := ascending_vlrLoop h.vlrCount.toNat (s.seekg h.headerSize.toNat) [] List.Pairwise.nil
  generalize BaseReader.vlrLoop _ _ _ = p at hr h1
  obtain ⟨out, s1⟩ := p
  simp only at hr h1
  split at hr
  · cases hr
  · have h2 := ascending_evlrLoop h.evlrCount.toNat (s1.seekg h.evlrOffset.toNat) out h1
    generalize BaseReader.evlrLoop _ _ _ = p at hr h2
    obtain ⟨out', s2⟩ := p
    cases hr
    exact h2

/-- What opening a file gives. -/
theorem baseInit_facts {s : IStream} {b : BaseReader} (h : BaseReader.init s = .ok b) :
    s.fail = false ∧ BaseReader.readHeader s = .ok b.h14 ∧ ∃ s1, BaseReader.readVlrHeaders b.h14 s = (.ok b.vlrs, s1) ∧
      (BaseReader.readWkt b.vlrs s1).1 = .ok b.las.wkt ∧
      (BaseReader.readEb b.vlrs (BaseReader.readWkt b.vlrs s1).2).1 = .ok b.las.eb := by
  unfold BaseReader.init at h
  split at h
  · cases h
  · rename_i hf
    refine ⟨by simpa using hf, ?_⟩
    obtain ⟨h14, e1, h1⟩ := Res.bind_ok_iff.1 ((Res.bind_eq _ _).symm.trans h)
    obtain ⟨hd, e2, h2⟩ := Res.bind_ok_iff.1 ((Res.bind_eq _ _).symm.trans h1)
    clear h h1
    generalize hp : BaseReader.readVlrHeaders h14 s = p at h2
    obtain ⟨r, s1⟩ := p
    obtain ⟨t, ht, h3⟩ := Res.bind_ok_iff.1 ((Res.bind_eq _ _).symm.trans h2)
    clear h2
    subst ht
    generalize hq : BaseReader.readWkt t s1 = q at h3
    obtain ⟨w, s2⟩ := q
    obtain ⟨wkt, hw, h4⟩ := Res.bind_ok_iff.1 ((Res.bind_eq _ _).symm.trans h3)
    clear h3
    subst hw
    generalize hq' : BaseReader.readEb t s2 = q' at h4
    obtain ⟨eb, s3⟩ := q'
    obtain ⟨eb, he, h5⟩ := Res.bind_ok_iff.1 ((Res.bind_eq _ _).symm.trans h4)
    clear h4
    subst he
    cases h5
    exact ⟨e1, s1, hp, by simp only [hq], by simp only [hq, hq']⟩

/-- In any opened file — well formed or not — the lookup gives the lowest offset of the records with the ids
asked for, and zero if there is none. -/
theorem C45_fetch {s : IStream} {b : BaseReader} (h : BaseReader.init s = .ok b) (user : Bytes) (id : UInt16) :
    ((∀ o v, (o, v) ∈ b.vlrs → ¬(v.userId = user ∧ v.recordId = id)) ∧ BaseReader.fetchVlr b.vlrs user id = 0) ∨
    ∃ v, (BaseReader.fetchVlr b.vlrs user id, v) ∈ b.vlrs ∧ v.userId = user ∧ v.recordId = id ∧
      ∀ o w, (o, w) ∈ b.vlrs → w.userId = user → w.recordId = id → BaseReader.fetchVlr b.vlrs user id ≤ o := by
  obtain ⟨_, _, s1, hr, _⟩ := baseInit_facts h
  have hs := ascending_read hr
  generalize b.vlrs = t at hs
  unfold BaseReader.fetchVlr
  cases hf : t.find? fun v => decide (v.2.userId = user) && decide (v.2.recordId = id) with
  | none =>
    refine .inl ⟨fun o v hm he => ?_, rfl⟩
    have := List.find?_eq_none.1 hf (o, v) hm
    simp [he] at this
  | some p =>
    obtain ⟨o, v⟩ := p
    obtain ⟨hp, l, m, rfl, hl⟩ := List.find?_eq_some_iff_append.1 hf
    simp only [Bool.and_eq_true, decide_eq_true_eq] at hp
    refine .inr ⟨v, by simp, hp.1, hp.2, fun o' w hm h1 h2 => ?_⟩
    rcases List.mem_append.1 hm with hm | hm
    · have := hl _ hm
      simp [h1, h2] at this
    · rcases List.mem_cons.1 hm with hm | hm
      · cases hm; exact Nat.le_refl _
      · have := (List.pairwise_append.1 hs).2.1
        exact Nat.le_of_lt ((List.pairwise_cons.1 this).1 _ hm)

/-! ### Files made of records -/

theorem RecFile.vlrs {data : Bytes} {h14 : Header14} {vs es : List VRec} (h : RecFile data h14 vs es)
    {b : BaseReader} (hb : BaseReader.init ⟨data, 0, false⟩ = .ok b) :
    b.vlrs = RecFile.table h14 vs es ∧
    ∃ p, (BaseReader.readWkt b.vlrs ⟨data, p, false⟩).1 = .ok b.las.wkt := by
  obtain ⟨_, e1, s1, hr, hw, _⟩ := baseInit_facts hb
  rw [h.readHeader] at e1
  rw [← Res.ok.inj e1] at hr
  obtain ⟨q, e⟩ := h.readHeaders 0
  rw [e] at hr
  simp only [Prod.mk.injEq, Res.ok.injEq] at hr
  obtain ⟨ht, rfl⟩ := hr
  exact ⟨ht.symm, q, hw⟩

/-- The first VLR with the ids is found at its offset, even if extended VLRs have them too. -/
theorem C45_fetch_vlr {data : Bytes} {h14 : Header14} {l m es : List VRec} {v : VRec} {user : Bytes} {id : UInt16}
    (h : RecFile data h14 (l ++ v :: m) es) (hl : ∀ w ∈ l, ¬w.Is user id) (hv : v.Is user id)
    {b : BaseReader} (hb : BaseReader.init ⟨data, 0, false⟩ = .ok b) :
    BaseReader.fetchVlr b.vlrs user id = 375 + (l.flatMap VRec.bytes).length := by
  rw [(h.vlrs hb).1, h.fetch_vlr hl hv]; rfl

/-- If only extended VLRs have the ids the first of them is found at its offset. -/
theorem C45_fetch_evlr {data : Bytes} {h14 : Header14} {l m vs : List VRec} {v : VRec} {user : Bytes} {id : UInt16}
    (h : RecFile data h14 vs (l ++ v :: m)) (hvs : ∀ w ∈ vs, ¬w.Is user id) (hl : ∀ w ∈ l, ¬w.Is user id)
    (hv : v.Is user id) {b : BaseReader} (hb : BaseReader.init ⟨data, 0, false⟩ = .ok b) :
    BaseReader.fetchVlr b.vlrs user id = h14.evlrOffset.toNat + (l.flatMap VRec.bytes).length := by
  rw [(h.vlrs hb).1, h.fetch_evlr hvs hl hv]; rfl

/-- No record, no offset. -/
theorem C45_fetch_none {data : Bytes} {h14 : Header14} {vs es : List VRec} {user : Bytes} {id : UInt16}
    (h : RecFile data h14 vs es) (hvs : ∀ w ∈ vs, ¬w.Is user id) (hes : ∀ w ∈ es, ¬w.Is user id)
    {b : BaseReader} (hb : BaseReader.init ⟨data, 0, false⟩ = .ok b) : BaseReader.fetchVlr b.vlrs user id = 0 := by
  rw [(h.vlrs hb).1, h.fetch_none hvs hes]

/-- A WKT string stored as an extended VLR is returned exactly (part of the property; a WKT string stored as a
VLR is not: `C45_wkt_vlr`, `C45_violated`). -/
theorem C45_wkt_partial {data : Bytes} {h14 : Header14} {l m vs : List VRec} {v : VRec}
    (h : RecFile data h14 vs (l ++ v :: m)) (hvs : ∀ w ∈ vs, ¬w.Is idProj 2112) (hl : ∀ w ∈ l, ¬w.Is idProj 2112)
    (hv : v.Is idProj 2112) (hs : v.payload.length < 2 ^ 31)
    {b : BaseReader} (hb : BaseReader.init ⟨data, 0, false⟩ = .ok b) : b.las.wkt = v.payload := by
  obtain ⟨e, p, hw⟩ := h.vlrs hb
  rw [e] at hw
  obtain ⟨pre, rest, hd, hpre⟩ := h.split_evlr
  have hap := h.apart
  unfold BaseReader.readWkt at hw
  rw [h.fetch_evlr hvs hl hv] at hw
  simp only at hw
  rw [h.length_evlr hs, if_pos (by omega), BaseReader.readPayload, if_neg (by omega), Int.toNat_natCast,
    readFilled_at hd h.len hpre.symm p rfl] at hw
  exact (Res.ok.inj hw).symm

/-- Without a WKT record the string is empty. -/
theorem C45_wkt_none {data : Bytes} {h14 : Header14} {vs es : List VRec}
    (h : RecFile data h14 vs es) (hvs : ∀ w ∈ vs, ¬w.Is idProj 2112) (hes : ∀ w ∈ es, ¬w.Is idProj 2112)
    {b : BaseReader} (hb : BaseReader.init ⟨data, 0, false⟩ = .ok b) : b.las.wkt = [] := by
  obtain ⟨e, p, hw⟩ := h.vlrs hb
  rw [e] at hw
  unfold BaseReader.readWkt at hw
  rw [h.fetch_none hvs hes] at hw
  exact (Res.ok.inj hw).symm

/-- A WKT string stored as a VLR: what is returned lacks its first six bytes and ends with the six bytes that
follow it in the file. -/
theorem C45_wkt_vlr {data : Bytes} {h14 : Header14} {l m es : List VRec} {v : VRec}
    (h : RecFile data h14 (l ++ v :: m) es) (hl : ∀ w ∈ l, ¬w.Is idProj 2112) (hv : v.Is idProj 2112)
    {cut mid next rest : Bytes} (hcut : cut.length = 6) (hnext : next.length = 6) (hp : v.payload = cut ++ mid)
    (hf : ∃ pre, data = pre ++ (v.payload ++ (next ++ rest)) ∧ pre.length = 375 + (l.flatMap VRec.bytes).length + 54)
    {b : BaseReader} (hb : BaseReader.init ⟨data, 0, false⟩ = .ok b) : b.las.wkt = mid ++ next := by
  obtain ⟨e, p, hw⟩ := h.vlrs hb
  rw [e] at hw
  obtain ⟨pre, hd, hpre⟩ := hf
  have hlen : (mid ++ next).length = v.payload.length := by rw [hp]; simp; omega
  unfold BaseReader.readWkt at hw
  rw [h.fetch_vlr hl hv] at hw
  simp only at hw
  have hpre' : 375 + vsize l + 60 = (pre ++ cut).length := by
    rw [List.length_append, hpre, hcut, vsize]
  have hd' : data = (pre ++ cut) ++ ((mid ++ next) ++ rest) := by
    rw [hd, hp]; simp
  rw [h.length_vlr, if_pos (by omega), BaseReader.readPayload, if_neg (by omega), Int.toNat_natCast,
    readFilled_at hd' h.len hpre' p hlen.symm] at hw
  exact (Res.ok.inj hw).symm

/-! ### A file with a WKT string stored as a VLR -/
namespace WktFile

def wkt : Bytes := [71, 69, 79, 71, 67, 83, 91, 34, 87, 34, 93]
def vrec : VRec := ⟨false, idProj, 2112, [], wkt⟩
def erec : VRec := ⟨true, idProj, 2112, [], wkt⟩

def head (nv ne : UInt32) (eo : UInt64) : Header14 :=
  { magic := [76, 65, 83, 70], fileSourceId := 0, globalEncoding := 16, guid := List.replicate 16 0,
    versionMajor := 1, versionMinor := 4, systemIdentifier := List.replicate 32 0,
    generatingSoftware := List.replicate 32 0, creationDay := 1, creationYear := 2022, headerSize := 375,
    pointOffset := 440, vlrCount := nv, pointFormatId := 6, pointRecordLength := 30, pointCount := 0,
    pointsByReturn := List.replicate 5 0, scale := Vec3.zero, offset := Vec3.zero,
    maxx := Flt.zero, minx := Flt.zero, maxy := Flt.zero, miny := Flt.zero, maxz := Flt.zero, minz := Flt.zero,
    waveOffset := 0, evlrOffset := eo, evlrCount := ne, pointCount14 := 0, pointsByReturn14 := List.replicate 15 0 }

/-- The string is a VLR, right after the header. -/
def asVlr : Bytes := (head 1 0 440).encode ++ (vrec.bytes ++ List.replicate 8 0)
/-- The string is an extended VLR. -/
def asEvlr : Bytes := (head 0 1 383).encode ++ (List.replicate 8 0 ++ erec.bytes)

theorem sized (nv ne : UInt32) (eo : UInt64) : (head nv ne eo).Sized := ⟨rfl, rfl, rfl, rfl, rfl, rfl⟩

theorem fit (e : Bool) : (VRec.mk e idProj 2112 [] wkt).Fit := ⟨by show NoNul idProj; decide, by show idProj.length ≤ 16; decide, by cases e <;> decide⟩

theorem asVlr_file : RecFile asVlr (head 1 0 440) [vrec] [] where
  sized := sized _ _ _
  size375 := rfl
  head := ⟨List.replicate 8 0, by simp [asVlr]⟩
  tail := ⟨asVlr.take 440, asVlr.drop 440, by simp, by decide +kernel⟩
  apart := by decide +kernel
  vcount := rfl
  ecount := rfl
  few := by decide
  vfit := by
    intro v hv
    obtain rfl := List.mem_singleton.1 hv
    exact ⟨rfl, fit false⟩
  efit := by simp
  len := by decide +kernel

theorem asEvlr_file : RecFile asEvlr (head 0 1 383) [] [erec] where
  sized := sized _ _ _
  size375 := rfl
  head := ⟨List.replicate 8 0 ++ erec.bytes, by simp [asEvlr]⟩
  tail := ⟨(head 0 1 383).encode ++ List.replicate 8 0, [], by simp [asEvlr], by decide +kernel⟩
  apart := by decide +kernel
  vcount := rfl
  ecount := rfl
  few := by decide
  vfit := by simp
  efit := by
    intro v hv
    obtain rfl := List.mem_singleton.1 hv
    exact ⟨rfl, fit true⟩
  len := by decide +kernel

def read (data : Bytes) : Option Bytes := match BaseReader.init ⟨data, 0, false⟩ with
  | .ok b => some b.las.wkt
  | _ => none

theorem read_evlr : read asEvlr = some wkt := by decide +kernel
theorem read_vlr : read asVlr = some (wkt.drop 6 ++ List.replicate 6 0) := by decide +kernel

theorem opens {data w : Bytes} (h : read data = some w) : ∃ b, BaseReader.init ⟨data, 0, false⟩ = .ok b ∧ b.las.wkt = w := by
  unfold read at h
  cases hb : BaseReader.init ⟨data, 0, false⟩ with
  | ok b => rw [hb] at h; exact ⟨b, rfl, Option.some.inj h⟩
  | throw e => rw [hb] at h; cases h
  | ub => rw [hb] at h; cases h

end WktFile

/-- A file with a WKT string stored as a VLR that opens without an error and gives another string. -/
theorem C45_violated : ∃ data h14 v b, RecFile data h14 [v] [] ∧ v.Is idProj 2112 ∧
    BaseReader.init ⟨data, 0, false⟩ = .ok b ∧ b.las.wkt ≠ v.payload := by
  obtain ⟨b, hb, hw⟩ := WktFile.opens WktFile.read_vlr
  exact ⟨_, _, _, b, WktFile.asVlr_file, ⟨rfl, rfl⟩, hb, by rw [hw]; decide⟩

/-- The hypotheses of `C45_fetch_evlr` and `C45_wkt_partial` are met. -/
example : ∃ b, BaseReader.init ⟨WktFile.asEvlr, 0, false⟩ = .ok b ∧ b.las.wkt = WktFile.wkt ∧
    BaseReader.fetchVlr b.vlrs idProj 2112 = 383 ∧ BaseReader.fetchVlr b.vlrs idProj 2111 = 0 := by
  obtain ⟨b, hb, _⟩ := WktFile.opens WktFile.read_evlr
  have h := WktFile.asEvlr_file
  exact ⟨b, hb, C45_wkt_partial (l := []) (m := []) h (by simp) (by simp) ⟨rfl, rfl⟩ (by decide) hb,
    C45_fetch_evlr (l := []) (m := []) h (by simp) (by simp) ⟨rfl, rfl⟩ hb,
    C45_fetch_none h (by simp) (by decide) hb⟩

/-- The hypotheses of `C45_wkt_vlr` are met. -/
example : ∃ b, BaseReader.init ⟨WktFile.asVlr, 0, false⟩ = .ok b ∧
    b.las.wkt = [67, 83, 91, 34, 87, 34, 93].drop 2 ++ List.replicate 6 0 := by
  obtain ⟨b, hb, _⟩ := WktFile.opens WktFile.read_vlr
  exact ⟨b, hb, C45_wkt_vlr (l := []) (m := []) (cut := WktFile.wkt.take 6) (rest := [0, 0]) WktFile.asVlr_file (by simp) ⟨rfl, rfl⟩ (by decide)
    (by decide) (by decide) ⟨(WktFile.head 1 0 440).encode ++ WktFile.vrec.hbytes,
      by simp [WktFile.asVlr, VRec.bytes, WktFile.vrec, List.replicate], by decide +kernel⟩ hb⟩

end Copc
