import Verif.Lemmas.WriterHist
/-! # The bytes of a closed file -/
namespace Copc

/-- The pages as laid out by `Close`. -/
def closeLayout (L : Lazperf) (ord : Order) (otpd : Nat) (log : List (Nat × Bytes))
    (hier : List (VoxelKey × VoxelKey)) (w : Writer) : Bytes × List (VoxelKey × (Nat × Nat)) :=
  layoutPages ord w.pages hier (otpd + (bodyBytes L otpd log).length) []
    (Writer.visit ord hier (Writer.levels w.pages) VoxelKey.root)

/-- The configuration after `Close`: the place of the root page is filled in. -/
def closedCfg (L : Lazperf) (ord : Order) (otpd : Nat) (log : List (Nat × Bytes))
    (hier : List (VoxelKey × VoxelKey)) (w : Writer) : CopcConfig :=
  setRoot (closeLayout L ord otpd log hier w).2 w.cfg

theorem preHeader_eq (L : Lazperf) (ord : Order) (otpd : Nat) (log : List (Nat × Bytes))
    (hier : List (VoxelKey × VoxelKey)) (w : Writer) :
    preHeader L ord otpd log hier w = { w with
      base := { w.base with
        out := endStream (List.replicate otpd 0 ++ bodyBytes L otpd log ++
          (closeLayout L ord otpd log hier w).1 ++ wktBytes w.cfg.wkt)
        chunks := sizes log
        evlrOffset := otpd + (bodyBytes L otpd log).length
        evlrCount := if w.cfg.wkt = [] then w.pages.length % 2 ^ 32
          else (w.pages.length % 2 ^ 32 + 1) % 2 ^ 32 }
      cfg := closedCfg L ord otpd log hier w } := by
  unfold preHeader closedCfg closeLayout
  simp only [List.length_append, List.length_replicate]

/-- The header area of a closed file: header and VLRs, then zeros. -/
def headArea (L : Lazperf) (c : CopcConfig) (eb : Nat) (gps : Extent) (h14 : Header14) (otpd : Nat) :
    Bytes :=
  headBlock L c eb gps h14 ++ List.replicate (otpd - (headBlock L c eb gps h14).length) 0

/-- The bytes of a closed file. -/
def fileBytes (L : Lazperf) (ord : Order) (otpd : Nat) (log : List (Nat × Bytes))
    (hier : List (VoxelKey × VoxelKey)) (w : Writer) (eb : Nat) (gps : Extent) (h14 : Header14) : Bytes :=
  headArea L (closedCfg L ord otpd log hier w) eb gps h14 otpd ++ (bodyBytes L otpd log ++
    ((closeLayout L ord otpd log hier w).1 ++ wktBytes w.cfg.wkt))

theorem CloseOk.closed {L : Lazperf} {ord : Order} {otpd : Nat} {log : List (Nat × Bytes)} {w w' : Writer}
    {hier : List (VoxelKey × VoxelKey)} {eb : Nat} {h14 : Header14} {gps : Extent}
    (h : CloseOk L ord otpd log w w' hier eb h14 gps) :
    (headBlock L (closedCfg L ord otpd log hier w) eb gps h14).length ≤ otpd ∧
    w'.base.out.data = fileBytes L ord otpd log hier w eb gps h14 ∧
    w'.base.out.fail = false ∧ w'.base.out.cap = none ∧
    w'.base.out.pos = (headBlock L (closedCfg L ord otpd log hier w) eb gps h14).length ∧
    w'.base.open_ = false ∧ w'.cfg = closedCfg L ord otpd log hier w ∧ w'.nodes = w.nodes ∧
    w'.pages = w.pages := by
  have hf := h.fits
  have hr := h.result
  rw [preHeader_eq] at hf hr
  subst hr
  refine ⟨hf, ?_, rfl, rfl, rfl, rfl, rfl, rfl, rfl⟩
  simp only [midStream_data, endStream_data, fileBytes, headArea] at hf ⊢
  generalize headBlock L (closedCfg L ord otpd log hier w) eb gps h14 = H at *
  have : List.replicate otpd (0 : UInt8) = List.replicate H.length 0 ++ List.replicate (otpd - H.length) 0 := by
    rw [List.replicate_append_replicate]; congr 1; omega
  rw [this]
  simp only [List.append_assoc]
  rw [List.drop_left' (by simp)]

theorem length_headArea {L : Lazperf} {c : CopcConfig} {eb : Nat} {gps : Extent} {h14 : Header14}
    {otpd : Nat} (h : (headBlock L c eb gps h14).length ≤ otpd) :
    (headArea L c eb gps h14 otpd).length = otpd := by
  simp [headArea]; omega

theorem slice_append (a b c : Bytes) : slice (a ++ (b ++ c)) a.length b.length = b := by
  unfold slice
  rw [List.drop_left' rfl, List.take_left' rfl]

theorem slice_at {d a b c : Bytes} {p n : Nat} (h : d = a ++ (b ++ c)) (hp : p = a.length)
    (hn : n = b.length) : slice d p n = b := by
  subst h hp hn; exact slice_append a b c

theorem chunkData_cons (x : Nat × Bytes) (l : List (Nat × Bytes)) :
    chunkData (x :: l) = x.2 ++ chunkData l := by simp [chunkData]

/-- The chunk of a log entry, in a file whose first `n0` bytes are followed by the chunks. -/
theorem slice_chunk {n0 : Nat} {H rest : Bytes} {l1 l2 : List (Nat × Bytes)} {c : Nat} {blob : Bytes}
    (hH : H.length = n0) :
    slice (H ++ (chunkData (l1 ++ (c, blob) :: l2) ++ rest)) (n0 + (chunkData l1).length) blob.length = blob := by
  refine slice_at (a := H ++ chunkData l1) (c := chunkData l2 ++ rest) ?_ (by simp [hH]) rfl
  rw [chunkData_append, chunkData_cons]
  simp [List.append_assoc]

theorem chunkData_split_le {l1 l2 : List (Nat × Bytes)} {c : Nat} {blob : Bytes} :
    (chunkData l1).length + blob.length ≤ (chunkData (l1 ++ (c, blob) :: l2)).length := by
  rw [chunkData_append, chunkData_cons]
  simp only [List.length_append]
  omega

end Copc
