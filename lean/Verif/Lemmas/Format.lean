import Verif.Spec.FormatHeader
import Verif.Lemmas.ClosedHier
import Verif.Lemmas.PageGraph
import Verif.Lemmas.Directory
/-! # Fields of a file by position -/
namespace Copc
open Spec VoxelKey

theorem num_lt (data : Bytes) (k p : Nat) : Format.num data k p < 256 ^ k := by
  unfold Format.num getN
  exact lt_of_lt_of_le (unLe_lt _) (Nat.pow_le_pow_right (by omega) (by simp))

theorem num_slice {data : Bytes} {k p n : Nat} (h : slice data p k = leN k n) : Format.num data k p = n % 256 ^ k := by
  unfold Format.num getN
  rw [← unLe_leN, ← h]
  rfl

theorem format_int {data : Bytes} {p : Nat} {v : Int} (h : slice data p 4 = leI 4 v) (hv : InI32 v) :
    Format.int data p = v := by
  have : Format.num data 4 p = unLe (leI 4 v) := by
    unfold Format.num getN; rw [← h]; rfl
  have e := signed4_unLe_leI hv
  unfold Format.int
  rw [this]
  unfold signed at e
  generalize unLe (leI 4 v) = n at *
  split at e <;> split <;> omega

theorem format_entry {data : Bytes} {p : Nat} {e : Entry} (h : slice data p 32 = e.pack) (hr : e.InRange) :
    Format.entryAt data p = e.raw := by
  obtain ⟨⟨k1, k2, k3, k4⟩, ho, hs, hc⟩ := hr
  have sl (a b c : Bytes) (q n : Nat) (he : e.pack = a ++ (b ++ c)) (hq : q = a.length) (hn : n = b.length) (hl : q + n ≤ 32) :
      slice data (p + q) n = b := by
    rw [← slice_add hl, h]; exact slice_at he hq hn
  unfold Entry.pack at sl
  simp only [List.append_assoc] at sl
  unfold Format.entryAt Entry.raw
  have a1 := sl ([]) (leI 4 e.key.d) (leI 4 e.key.x ++ (leI 4 e.key.y ++ (leI 4 e.key.z ++ (leN 8 e.offset ++ (leI 4 e.byteSize ++ (leI 4 e.pointCount)))))) 0 4 (by simp) (by simp) (by simp) (by omega)
  have a2 := sl (leI 4 e.key.d) (leI 4 e.key.x) (leI 4 e.key.y ++ (leI 4 e.key.z ++ (leN 8 e.offset ++ (leI 4 e.byteSize ++ (leI 4 e.pointCount))))) 4 4 (by simp) (by simp) (by simp) (by omega)
  have a3 := sl (leI 4 e.key.d ++ (leI 4 e.key.x)) (leI 4 e.key.y) (leI 4 e.key.z ++ (leN 8 e.offset ++ (leI 4 e.byteSize ++ (leI 4 e.pointCount)))) 8 4 (by simp) (by simp) (by simp) (by omega)
  have a4 := sl (leI 4 e.key.d ++ (leI 4 e.key.x ++ (leI 4 e.key.y))) (leI 4 e.key.z) (leN 8 e.offset ++ (leI 4 e.byteSize ++ (leI 4 e.pointCount))) 12 4 (by simp) (by simp) (by simp) (by omega)
  have a5 := sl (leI 4 e.key.d ++ (leI 4 e.key.x ++ (leI 4 e.key.y ++ (leI 4 e.key.z)))) (leN 8 e.offset) (leI 4 e.byteSize ++ (leI 4 e.pointCount)) 16 8 (by simp) (by simp) (by simp) (by omega)
  have a6 := sl (leI 4 e.key.d ++ (leI 4 e.key.x ++ (leI 4 e.key.y ++ (leI 4 e.key.z ++ (leN 8 e.offset))))) (leI 4 e.byteSize) (leI 4 e.pointCount) 24 4 (by simp) (by simp) (by simp) (by omega)
  have a7 := sl (leI 4 e.key.d ++ (leI 4 e.key.x ++ (leI 4 e.key.y ++ (leI 4 e.key.z ++ (leN 8 e.offset ++ (leI 4 e.byteSize)))))) (leI 4 e.pointCount) ([]) 28 4 (by simp) (by simp) (by simp) (by omega)
  rw [Nat.add_zero] at a1
  rw [format_int a1 k1, format_int a2 k2, format_int a3 k3, format_int a4 k4, num_slice a5, format_int a6 hs, format_int a7 hc,
    Nat.mod_eq_of_lt (by omega)]

/-! ### The header -/

section
variable {data : Bytes}

theorem toNat8 (p : Nat) : (UInt8.ofNat (Format.num data 1 p)).toNat = Format.num data 1 p :=
  UInt8.toNat_ofNat_of_lt' (num_lt data 1 p)
theorem toNat16 (p : Nat) : (UInt16.ofNat (Format.num data 2 p)).toNat = Format.num data 2 p :=
  UInt16.toNat_ofNat_of_lt' (num_lt data 2 p)
theorem toNat32 (p : Nat) : (UInt32.ofNat (Format.num data 4 p)).toNat = Format.num data 4 p :=
  UInt32.toNat_ofNat_of_lt' (num_lt data 4 p)
theorem toNat64 (p : Nat) : (UInt64.ofNat (Format.num data 8 p)).toNat = Format.num data 8 p :=
  UInt64.toNat_ofNat_of_lt' (num_lt data 8 p)

theorem num_eq (k p : Nat) : unLe (List.take k (List.drop p data)) = Format.num data k p := rfl

theorem raw_eq {k p : Nat} (h : p + k ≤ data.length) :
    padTo k (List.take k (List.drop p data)) = Format.text data k p := padTo_of_length (by simp; omega)

theorem header_raw (hl : 375 ≤ data.length) {h : Header14} (hd : Header14.decode data = h) :
    h.magic = Format.text data 4 0 ∧ h.fileSourceId.toNat = Format.num data 2 4 ∧
    h.globalEncoding.toNat = Format.num data 2 6 ∧ h.guid = Format.text data 16 8 ∧
    h.versionMajor.toNat = Format.num data 1 24 ∧
    h.versionMinor.toNat = Format.num data 1 25 ∧ h.systemIdentifier = Format.text data 32 26 ∧
    h.generatingSoftware = Format.text data 32 58 ∧ h.creationDay.toNat = Format.num data 2 90 ∧
    h.creationYear.toNat = Format.num data 2 92 ∧ h.headerSize.toNat = Format.num data 2 94 ∧
    h.pointOffset.toNat = Format.num data 4 96 ∧ h.vlrCount.toNat = Format.num data 4 100 ∧
    h.pointFormatId.toNat = Format.num data 1 104 ∧ h.pointRecordLength.toNat = Format.num data 2 105 ∧
    h.pointCount.toNat = Format.num data 4 107 := by
  subst hd
  simp only [Header14.decode, getRaw, getU16, getU8, getU32, getU64, getD, getV, getU, List.drop_drop, getMany, num_eq,
    toNat8, toNat16, toNat32]
  repeat' apply And.intro
  all_goals first | trivial | exact raw_eq (p := 0) (by omega) | exact raw_eq (by omega)

theorem header_raw2 {h : Header14} (hd : Header14.decode data = h) :
    h.scale = ⟨Format.dbl data 131, Format.dbl data 139, Format.dbl data 147⟩ ∧
    h.offset = ⟨Format.dbl data 155, Format.dbl data 163, Format.dbl data 171⟩ ∧
    h.maxx = Format.dbl data 179 ∧ h.minx = Format.dbl data 187 ∧ h.maxy = Format.dbl data 195 ∧
    h.miny = Format.dbl data 203 ∧ h.maxz = Format.dbl data 211 ∧ h.minz = Format.dbl data 219 ∧
    h.waveOffset.toNat = Format.num data 8 227 ∧ h.evlrOffset.toNat = Format.num data 8 235 ∧
    h.evlrCount.toNat = Format.num data 4 243 ∧ h.pointCount14.toNat = Format.num data 8 247 ∧
    h.pointsByReturn.map (·.toNat) = ((List.range 5).map fun i => Format.num data 4 (111 + 4 * i)) ∧
    h.pointsByReturn14.map (·.toNat) = (List.range 15).map fun i => Format.num data 8 (255 + 8 * i) := by
  subst hd
  simp only [Header14.decode, getRaw, getU16, getU8, getU32, getU64, getD, getV, getU, List.drop_drop, getMany, num_eq,
    toNat32, toNat64, List.map_cons, List.map_nil]
  repeat' apply And.intro
  all_goals trivial

end

/-! ### The info VLR -/

theorem num_skip {a r : Bytes} {k p : Nat} (h : a.length ≤ p) : Format.num (a ++ r) k p = Format.num r k (p - a.length) := by
  unfold Format.num
  rw [List.drop_append, List.drop_of_length_le h, List.nil_append]

theorem text_skip {a r : Bytes} {k p : Nat} (h : a.length ≤ p) : Format.text (a ++ r) k p = Format.text r k (p - a.length) := by
  unfold Format.text
  rw [List.drop_append, List.drop_of_length_le h, List.nil_append]

theorem num_here (r : Bytes) (k n : Nat) : Format.num (leN k n ++ r) k 0 = n % 256 ^ k := getN_leN k n r

theorem text_here {a r : Bytes} {k : Nat} (h : a.length = k) : Format.text (a ++ r) k 0 = a := by
  subst h; exact List.take_left' rfl

theorem dbl_skip {a r : Bytes} {p : Nat} (h : a.length ≤ p) : Format.dbl (a ++ r) p = Format.dbl r (p - a.length) := by
  unfold Format.dbl; rw [num_skip h]

theorem dbl_here (v : Dbl) (r : Bytes) : Format.dbl (putD v ++ r) 0 = v := by
  have h := getD_put v r
  exact congrArg Prod.fst h

theorem num_u64 (v : UInt64) (r : Bytes) : Format.num (putU64 v ++ r) 8 0 = v.toNat := by
  unfold putU64
  rw [num_here, Nat.mod_eq_of_lt (by have := v.toNat_lt; omega)]

theorem info_encoded (i : CopcInfo) (g : Extent) (r : Bytes) :
    Format.dbl (i.encode g ++ r) 0 = i.centerX ∧ Format.dbl (i.encode g ++ r) 8 = i.centerY ∧
    Format.dbl (i.encode g ++ r) 16 = i.centerZ ∧ Format.dbl (i.encode g ++ r) 24 = i.halfsize ∧
    Format.dbl (i.encode g ++ r) 32 = i.spacing ∧ Format.num (i.encode g ++ r) 8 40 = i.rootHierOffset.toNat ∧
    Format.num (i.encode g ++ r) 8 48 = i.rootHierSize.toNat ∧ Format.dbl (i.encode g ++ r) 56 = g.minimum ∧
    Format.dbl (i.encode g ++ r) 64 = g.maximum ∧ Format.text (i.encode g ++ r) 88 72 = List.replicate 88 0 := by
  unfold CopcInfo.encode
  simp only [List.append_assoc]
  generalize hz : List.replicate 88 (0 : UInt8) = z
  have hzl : z.length = 88 := by rw [← hz, List.length_replicate]
  refine ⟨?_, ?_, ?_, ?_, ?_, ?_, ?_, ?_, ?_, ?_⟩ <;>
    simp only [dbl_skip, num_skip, text_skip, length_putD, length_putU64, Nat.le_refl, Nat.reduceLeDiff, Nat.reduceSub, dbl_here,
      num_u64]
  exact text_here hzl

theorem info_slices {data A rest : Bytes} {i : CopcInfo} {g : Extent}
    (hd : data = A ++ (BaseW.vlrBytes idCopc 1 BaseW.descInfo (i.encode g) ++ rest)) (hA : A.length = 375) :
    Format.InfoSays data i ∧ Format.num data 8 469 = i.rootHierOffset.toNat ∧
      Format.num data 8 477 = i.rootHierSize.toNat ∧ Format.dbl data 485 = g.minimum ∧ Format.dbl data 493 = g.maximum := by
  have hlen : UInt64.ofNat (i.encode g).length = 160 := by rw [length_info]; rfl
  unfold BaseW.vlrBytes at hd
  rw [hlen, List.append_assoc] at hd
  generalize hV : VlrHeader.encode ⟨0, idCopc, 1, 160, BaseW.descInfo, false⟩ = V at hd
  have hVl : V.length = 54 := by rw [← hV]; decide
  obtain ⟨e1, e2, e3, e4, e5, e6, e7, e8, e9, e10⟩ := info_encoded i g rest
  generalize i.encode g ++ rest = T at *
  have hd2 : data = (A ++ V) ++ T := by rw [hd, List.append_assoc]
  have hB : (A ++ V).length = 429 := by rw [List.length_append, hA, hVl]
  generalize A ++ V = B at hd2 hB
  have t1 (k p : Nat) (h : 429 ≤ p) : Format.num data k p = Format.num T k (p - 429) := by
    rw [hd2, num_skip (by omega), hB]
  have t2 (p : Nat) (h : 429 ≤ p) : Format.dbl data p = Format.dbl T (p - 429) := by
    rw [hd2, dbl_skip (by omega), hB]
  have t3 (k p : Nat) (h : 429 ≤ p) : Format.text data k p = Format.text T k (p - 429) := by
    rw [hd2, text_skip (by omega), hB]
  have v1 (k p : Nat) (h : 375 ≤ p) (h' : p - 375 + k ≤ 54) : Format.num data k p = Format.num V k (p - 375) := by
    rw [hd, num_skip (by omega), hA]
    unfold Format.num getN
    rw [List.drop_append_of_le_length (by omega), List.take_append_of_le_length (by simp; omega)]
  have v2 : Format.text data 16 377 = Format.text V 16 2 := by
    rw [hd, text_skip (by omega), hA]
    unfold Format.text
    rw [List.drop_append_of_le_length (by omega), List.take_append_of_le_length (by simp; omega)]
  refine ⟨⟨?_, ?_, ?_, ?_, ?_, ?_, ?_⟩, (t1 _ _ (by omega)).trans e6, (t1 _ _ (by omega)).trans e7, (t2 _ (by omega)).trans e8,
    (t2 _ (by omega)).trans e9⟩
  · unfold Format.Holds
    rw [v2, ← hV]; decide
  · rw [v1 _ _ (by omega) (by omega), ← hV]; decide
  · rw [v1 _ _ (by omega) (by omega), ← hV]; decide
  · rw [t2 429 (by omega), t2 437 (by omega), t2 445 (by omega), e1, e2, e3]
  · exact (t2 _ (by omega)).trans e4
  · exact (t2 _ (by omega)).trans e5
  · exact (t3 _ _ (by omega)).trans e10

/-! ### VLRs and extended VLRs -/

/-- Records with their positions. -/
def placedRecs : Nat → List VRec → List (Nat × VRec)
  | _, [] => []
  | p, v :: vs => (p, v) :: placedRecs (p + v.bytes.length) vs

/-- A record as the format has it. -/
def VRec.raw (v : VRec) (p : Nat) : Format.Record := ⟨v.user, v.id.toNat, p + v.hsize, v.payload.length⟩

theorem payload_at {data rest : Bytes} {p : Nat} {v : VRec} (h : data.drop p = v.bytes ++ rest) :
    Format.text data v.payload.length (p + v.hsize) = v.payload := by
  unfold Format.text
  have hl : v.hbytes.length = v.hsize := by
    have := VRec.length_bytes v
    unfold VRec.bytes at this
    rw [List.length_append] at this
    omega
  rw [← List.drop_drop, h, VRec.bytes, List.append_assoc, List.drop_left' hl, List.take_left' rfl]

theorem records_recs {b : Bool} {head len : Nat} (hh : head = if b then 60 else 54) (hlen : len = if b then 8 else 2) :
    ∀ (vs : List VRec) {data rest : Bytes} {p : Nat}, data.drop p = vs.flatMap VRec.bytes ++ rest →
    (∀ v ∈ vs, v.evlr = b ∧ v.Fit) →
    Format.records data head len vs.length p = (placedRecs p vs).map (fun x => x.2.raw x.1) ∧
      ∀ x ∈ placedRecs p vs, Format.text data x.2.payload.length (x.1 + x.2.hsize) = x.2.payload
  | [], _, _, _, _, _ => ⟨rfl, by simp [placedRecs]⟩
  | v :: vs, data, rest, p, h, hv => by
    rw [List.flatMap_cons, List.append_assoc] at h
    obtain ⟨he, hf⟩ := hv v (by simp)
    have hr := recordAt_rec h hf
    have hnext : data.drop (p + v.bytes.length) = vs.flatMap VRec.bytes ++ rest := by
      rw [← List.drop_drop, h, List.drop_left]
    obtain ⟨i1, i2⟩ := records_recs hh hlen vs hnext (fun w hw => hv w (by simp [hw]))
    have hs : v.hsize = head := by rw [VRec.hsize, he, hh]
    have hl : head + Format.num data len (p + 20) = v.bytes.length := by
      subst hh hlen
      cases b with
      | true => exact evlr_len h hf he
      | false => exact vlr_len h hf he
    have hn : Format.num data len (p + 20) = v.payload.length := by
      rw [VRec.length_bytes] at hl
      omega
    refine ⟨?_, ?_⟩
    · rw [List.length_cons, Format.records, placedRecs, List.map_cons, Nat.add_assoc, hl, i1]
      congr 1
      unfold VRec.raw
      rw [hn, hs]
      have h1 := congrArg Prod.fst hr
      have h2 := congrArg Prod.snd hr
      unfold recordAt at h1 h2
      dsimp only at h1 h2
      unfold Format.text Format.num
      rw [h1, h2]
    · intro x hx
      rw [placedRecs] at hx
      rcases List.mem_cons.1 hx with rfl | hx
      · exact payload_at h
      · exact i2 x hx

theorem placedRecs_append : ∀ (a b : List VRec) (p : Nat),
    placedRecs p (a ++ b) = placedRecs p a ++ placedRecs (p + vsize a) b
  | [], b, p => by simp [placedRecs, vsize]
  | v :: a, b, p => by
    rw [List.cons_append, placedRecs, placedRecs, placedRecs_append a b, vsize_cons, List.cons_append, Nat.add_assoc,
      VRec.length_bytes]

/-! ### Inside a payload -/

theorem num_inside {data P : Bytes} {o j k : Nat} (h : Format.text data P.length o = P) (hj : j + k ≤ P.length) :
    Format.num data k (o + j) = Format.num P k j := by
  unfold Format.num getN
  congr 1
  conv_rhs => rw [← h]
  unfold Format.text
  rw [List.drop_take, List.drop_drop, List.take_take, Nat.min_eq_left (by omega)]

theorem text_inside {data P : Bytes} {o j k : Nat} (h : Format.text data P.length o = P) (hj : j + k ≤ P.length) :
    Format.text data k (o + j) = Format.text P k j := by
  conv_rhs => rw [← h]
  unfold Format.text
  rw [List.drop_take, List.drop_drop, List.take_take, Nat.min_eq_left (by omega)]

theorem text_flatMap {α : Type} {f : α → Bytes} {k : Nat} (hf : ∀ a, (f a).length = k) :
    ∀ (l : List α) {i : Nat} {x : α}, l[i]? = some x → Format.text (l.flatMap f) k (k * i) = f x
  | [], _, _, h => by simp at h
  | a :: l, 0, x, h => by
    obtain rfl : a = x := by simpa using h
    rw [List.flatMap_cons, Nat.mul_zero]
    exact text_here (hf _)
  | a :: l, i + 1, x, h => by
    rw [List.flatMap_cons, text_skip (by rw [hf, Nat.mul_add]; omega), hf,
      show k * (i + 1) - k = k * i by rw [Nat.mul_add]; omega]
    exact text_flatMap hf l (by simpa using h)

/-- The `i`-th item of a payload made of items of `k` bytes. -/
theorem text_item {α : Type} {f : α → Bytes} {k : Nat} (hf : ∀ a, (f a).length = k) {data : Bytes} {o : Nat} {l : List α}
    (h : Format.text data (l.flatMap f).length o = l.flatMap f) {i : Nat} {x : α} (hi : l[i]? = some x) :
    Format.text data (f x).length (o + k * i) = f x := by
  have hlt : i < l.length := (List.getElem?_eq_some_iff.1 hi).1
  have : k * i + k ≤ k * l.length := by rw [← Nat.mul_succ]; exact Nat.mul_le_mul_left _ hlt
  rw [hf, text_inside h (by rw [length_flatMap_const hf]; exact this), text_flatMap hf l hi]

theorem dbls_item {data : Bytes} {o : Nat} {l : List (Dbl × Dbl)}
    (h : Format.text data (Extents.putItems l).length o = Extents.putItems l) {i : Nat} {x : Dbl × Dbl}
    (hi : l[i]? = some x) : Format.dbl data (o + 16 * i) = x.1 ∧ Format.dbl data (o + 16 * i + 8) = x.2 := by
  have e := text_item (f := fun i : Dbl × Dbl => putD i.1 ++ putD i.2) (k := 16) (by simp) h hi
  have hl : (putD x.1 ++ putD x.2).length = 16 := by simp
  have a := num_inside (j := 0) (k := 8) e (by omega)
  have b := num_inside (j := 8) (k := 8) e (by omega)
  unfold Format.dbl
  rw [Nat.add_zero] at a
  rw [a, b]
  refine ⟨dbl_here x.1 _, ?_⟩
  have : Format.dbl (putD x.1 ++ putD x.2) 8 = x.2 := by
    rw [dbl_skip (by simp), length_putD]
    have := dbl_here x.2 []
    rwa [List.append_nil] at this
  exact this

theorem eb_item {data : Bytes} {o : Nat} {l : List EbField}
    (h : Format.text data (putEb l).length o = putEb l) {i : Nat} {x : EbField} (hi : l[i]? = some x) :
    Format.num data 1 (o + 192 * i + 2) = x.dataType.toNat ∧ Format.num data 1 (o + 192 * i + 3) = x.options.toNat ∧
    Format.text data 32 (o + 192 * i + 4) = padTo 32 x.name ∧ Format.text data 32 (o + 192 * i + 160) = padTo 32 x.description := by
  have e := text_item (f := EbField.encode) (k := 192) length_ebField h hi
  have hl := length_ebField x
  have h8 (v : UInt8) (r : Bytes) : Format.num (putU8 v ++ r) 1 0 = v.toNat := by
    unfold putU8
    rw [num_here, Nat.mod_eq_of_lt (by have := v.toNat_lt; omega)]
  rw [num_inside (j := 2) (k := 1) e (by omega), num_inside (j := 3) (k := 1) e (by omega),
    text_inside (j := 4) (k := 32) e (by omega), text_inside (j := 160) (k := 32) e (by omega)]
  unfold EbField.encode
  refine ⟨?_, ?_, ?_, ?_⟩ <;>
    simp only [num_skip, text_skip, length_padTo, length_putU8, length_putV, Nat.le_refl, Nat.reduceLeDiff, Nat.reduceSub, h8]
  · exact text_here (length_padTo _ _)
  · have := text_here (a := padTo 32 x.description) (r := []) (k := 32) (length_padTo _ _)
    rwa [List.append_nil] at this

/-- The extended VLRs of the pages are at the places of the pages. -/
theorem placedRecs_pages (ord : Order) (pages : List (VoxelKey × WPage)) (hier : List (VoxelKey × VoxelKey)) :
    ∀ (ks : List VoxelKey) (pos : Nat) (placed : List (VoxelKey × (Nat × Nat))), ks.Nodup →
    (placedRecs pos (pageRecs ord pages hier pos placed ks)).map (fun x => x.2.raw x.1) = ks.map fun k =>
      let q := (AList.get k (layoutPages ord pages hier pos placed ks).2).getD (0, 0)
      ⟨idCopc, 1000, q.1, q.2⟩
  | [], _, _, _ => rfl
  | k :: ks, pos, placed, hn => by
    obtain ⟨hk, hn'⟩ := List.nodup_cons.1 hn
    rw [pageRecs, layoutPages]
    dsimp only
    have hlh : (Writer.pageHeader k (pageSize pages hier k)).length = 60 := by
      unfold Writer.pageHeader VlrHeader.encodeE; simp
    generalize Writer.pageHeader k (pageSize pages hier k) = hd at *
    generalize hpl : AList.put k (pos + hd.length, pageSize pages hier k) placed = placed'
    have hgk : AList.get k (layoutPages ord pages hier (pos + (hd ++ pageBody ord pages hier placed' k).length) placed' ks).2 =
        some (pos + hd.length, pageSize pages hier k) := by
      rw [layoutPages_get _ _ _ _ _ _ _ hk, ← hpl, AList.get_put, if_pos rfl]
    have ih := placedRecs_pages ord pages hier ks (pos + (hd ++ pageBody ord pages hier placed' k).length) placed' hn'
    rw [placedRecs, List.map_cons, List.map_cons, hgk]
    have hb : VRec.bytes ⟨true, idCopc, 1000, Writer.keyString k, pageBody ord pages hier placed' k⟩ = _ ++ _ := rfl
    have hbl : (VRec.bytes ⟨true, idCopc, 1000, Writer.keyString k, pageBody ord pages hier placed' k⟩).length =
        (hd ++ pageBody ord pages hier placed' k).length := by
      rw [VRec.length_bytes, List.length_append, hlh]; rfl
    rw [hbl, ih]
    congr 1
    unfold VRec.raw VRec.hsize
    rw [length_pageBody]
    simp only [if_true, Option.getD_some, hlh]
    rfl

end Copc
