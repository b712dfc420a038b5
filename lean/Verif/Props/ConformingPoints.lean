import Verif.Props.ConformingSample
import Verif.Props.ToLaz
/-! # C88: the points of files of other programs -/
namespace Copc
open Spec VoxelKey

/-- Any bytes of the length of a record are read as the point that LAS 1.4 says they are: every attribute from its position,
the coordinates scaled from the stored integers. -/
theorem C14_any (bs rest : Bytes) (fmt : Int) (hf : fmt = 6 ∨ fmt = 7 ∨ fmt = 8) (eb : Nat) (he : eb < 65536)
    (hl : bs.length = baseSize fmt + eb) (scale offset : Vec3 Dbl) :
    ∃ p X Y Z, Point.unpack fmt scale offset eb (bs ++ rest) = .ok (p, rest) ∧ p.fmt = fmt ∧ LasRecord bs X Y Z p ∧
      p.x = applyScale X scale.x offset.x ∧ p.y = applyScale Y scale.y offset.y ∧ p.z = applyScale Z scale.z offset.z := by
  obtain ⟨p, X, Y, Z, rest', e, hbs, iX, iY, iZ, ex, ey, ez, hfm, hrl, hel, hr, hn⟩ :=
    Point.unpack_ok hf scale offset eb bs (by omega)
  obtain ⟨p', e', h1, h2, _⟩ := unpack_record hf scale offset hl
  have hw := reach_wf (Reach.unpack he e)
  have h0 := e' []
  rw [List.append_nil, e] at h0
  obtain ⟨rfl, rfl⟩ := Prod.mk.inj (Res.ok.inj h0)
  rw [List.append_nil] at hbs
  refine ⟨p, X, Y, Z, e' rest, hfm, ?_, ex, ey, ez⟩
  rw [hbs]
  exact lasRecord hw iX iY iZ

/-- The point that a record is. -/
def Format.PointIs (data : Bytes) (bs : Bytes) (p : Point) : Prop :=
  ∃ X Y Z, LasRecord bs X Y Z p ∧ p.fmt + 128 = (num data 1 104 : Int) ∧
    p.x = applyScale X (dbl data 131) (dbl data 155) ∧ p.y = applyScale Y (dbl data 139) (dbl data 163) ∧
    p.z = applyScale Z (dbl data 147) (dbl data 171)

/-- The records of a node in a file of another program, whose chunk holds `recs` compressed: whatever was asked before,
`GetPointDataCompressed` gives the bytes of the chunk, `GetPointData` the records, `GetPoints` the points the records are. -/
theorem C88_points_partial {data : Bytes} {ps : List FPage} {L : Lazperf} {r r1 : Reader} {l : List Query} (hc : Format.Conforms data)
    (hg : GoodHierarchy data ps) (ho : Opened data ps r) (hr : Format.ReadAs data r.cfg) (ha : Asked L r l r1)
    {n : Node} (hn : NodeOf ps n) (hin : n.entry.offset + n.entry.byteSize.toNat ≤ data.length) {recs : List Bytes}
    (hchunk : Format.text data n.entry.byteSize.toNat n.entry.offset =
      L.compress ((Format.num data 1 104 : Int) - 128) (Format.num data 2 105 - baseSize ((Format.num data 1 104 : Int) - 128)) recs)
    (hrec : ∀ x ∈ recs, x.length = Format.num data 2 105) (hcount : n.entry.pointCount = recs.length)
    (hlen : baseSize ((Format.num data 1 104 : Int) - 128) ≤ Format.num data 2 105 ∧ Format.num data 2 105 ≤ 255) :
    (Reader.getPointDataCompressed n r1).1 = .ok (Format.text data n.entry.byteSize.toNat n.entry.offset) ∧
    (Reader.getPointData L n r1).1 = .ok recs.flatten ∧
    ∃ pts, (Reader.getPoints L n r1).1 = .ok pts ∧ List.Forall₂ (Format.PointIs data) recs pts := by
  obtain ⟨hi, hcfg⟩ := ha.rInv hg (ho.rInv hg)
  have hv : n.isValid = true := by
    obtain ⟨p, hp, hnp⟩ := hn
    obtain ⟨e, he, rfl⟩ := List.mem_map.1 hnp
    have := (hg.entries p hp e he).2
    exact Bool.and_eq_true_iff.2 ⟨decide_eq_true this.2.1, decide_eq_true this.1⟩
  have hd : r1.cfg.header = r.cfg.header := by rw [hcfg.2]
  have hh := hr.header
  have hfm := hh.format
  have hrl := hh.record
  have hf : r.cfg.header.fmt = 6 ∨ r.cfg.header.fmt = 7 ∨ r.cfg.header.fmt = 8 := by
    rcases hc.format with h | h | h <;> omega
  have e1 : (Format.num data 1 104 : Int) - 128 = r.cfg.header.fmt := by omega
  rw [e1, ← hrl] at hchunk hlen
  rw [← hrl] at hrec
  have hb : baseSize r.cfg.header.fmt = lasBaseSize r.cfg.header.fmt := rfl
  rw [hb] at hchunk hlen
  obtain ⟨c1, c2, c3⟩ := ebSize_consistent hf hlen.1
  have hpd := pointData_reads (L := L) (n := n) (recs := recs) hi.data hi.good hc.fits hv hin (by rw [hd]; exact c1) (by rw [hd]; exact c2)
    (by rw [hd]; omega) (by rw [hd]; exact hf) (by rw [hd]; exact hchunk) (by rw [hd, c3]; exact hrec) hcount
  refine ⟨?_, by rw [hpd], ?_⟩
  · rw [compressed_reads hi.data hi.good hc.fits hv hin]
    rfl
  · have hmax : recs.length < 2147483648 := by
      obtain ⟨p, hp, hnp⟩ := hn
      obtain ⟨e, he, rfl⟩ := List.mem_map.1 hnp
      have := (hg.entries p hp e he).1.2.2.2
      simp only at hcount
      unfold InI32 at this
      omega
    obtain ⟨pts, u1, u2⟩ := unpack_records hf hlen.1 hrec hmax
    refine ⟨pts, ?_, ?_⟩
    · show ((do
        let data ← Reader.getPointData L n
        let hd ← Act.gets fun r => r.cfg.header
        Act.lift (Reader.unpackWith hd data) : Act Reader (List Point)) r1).1 = _
      rw [Act.bind_ok hpd]
      show Reader.unpackWith r1.cfg.header recs.flatten = _
      rw [hd]
      exact u1
    · have hx : ∀ x ∈ recs, ∀ p, Point.unpack r.cfg.header.fmt r.cfg.header.scale r.cfg.header.offset
          (r.cfg.header.recLen.toNat - lasBaseSize r.cfg.header.fmt) x = .ok (p, []) → Format.PointIs data x p := by
        intro x hx p hp
        have hxl : x.length = baseSize r.cfg.header.fmt + (r.cfg.header.recLen.toNat - lasBaseSize r.cfg.header.fmt) := by
          rw [hrec x hx, hb]; omega
        obtain ⟨q, X, Y, Z, k1, k2, k3, k4, k5, k6⟩ := C14_any x [] _ hf _ (by omega) hxl r.cfg.header.scale r.cfg.header.offset
        rw [List.append_nil, hp] at k1
        obtain ⟨rfl, _⟩ := Prod.mk.inj (Res.ok.inj k1)
        rw [hh.scale, hh.offset] at k4 k5 k6
        exact ⟨X, Y, Z, k3, by rw [k2]; omega, k4, k5, k6⟩
      clear hchunk hcount hpd u1 hmax
      induction u2 with
      | nil => exact .nil
      | cons h1 _ ih =>
        exact .cons (hx _ List.mem_cons_self _ h1) (ih (fun x h => hrec x (List.mem_cons_of_mem _ h))
          (fun x h => hx x (List.mem_cons_of_mem _ h)))

/-- The two records of the node of `Foreign.bytes1`. -/
def Foreign.rec1 : Bytes := [156, 255, 255, 255, 250, 0, 0, 0, 7, 0, 0, 0, 244, 1, 33, 1, 6, 9, 226, 255, 77, 0, 0, 0, 0, 0, 0, 0, 41, 64, 132, 3]
def Foreign.rec2 : Bytes := [100, 0, 0, 0, 6, 255, 255, 255, 70, 0, 0, 0, 245, 1, 17, 0, 2, 8, 30, 0, 78, 0, 0, 0, 0, 0, 0, 0, 43, 64, 133, 3]

theorem extra_fmt {bs : Bytes} {p : Point} (h : bs.drop (baseSize p.fmt) = p.extra) (hf : p.fmt = 6) : p.extra = bs.drop 30 := by
  rw [← h, hf]; rfl

/-- The two records of the node of `Foreign.bytes1` are read as the points they are. -/
example (r r1 : Reader) (l : List Query) (ho : Opened Foreign.bytes1 [Foreign.page] r) (hr : Format.ReadAs Foreign.bytes1 r.cfg)
    (ha : Asked Lazperf.plain r l r1) : ∃ p q, (Reader.getPoints Lazperf.plain ⟨⟨VoxelKey.root, 1258, 64, 2⟩, VoxelKey.root⟩ r1).1 = .ok [p, q] ∧
    p.intensity = 500 ∧ q.intensity = 501 ∧ p.scanAngle = -30 ∧ q.extra = [133, 3] := by
  have hchunk : Format.text Foreign.bytes1 64 1258 = List.flatten [Foreign.rec1, Foreign.rec2] := by
    decide +kernel
  have hk : Format.num Foreign.bytes1 1 104 = 134 ∧ Format.num Foreign.bytes1 2 105 = 32 := by decide +kernel
  obtain ⟨_, _, pts, h1, h2⟩ := C88_points_partial (L := Lazperf.plain) (recs := [Foreign.rec1, Foreign.rec2]) Foreign.conforms1 Foreign.good1 ho hr ha
    (n := ⟨⟨VoxelKey.root, 1258, 64, 2⟩, VoxelKey.root⟩) ⟨Foreign.page, List.mem_singleton.2 rfl, List.mem_singleton.2 rfl⟩ (by decide +kernel) hchunk
    (by rw [hk.2]; decide) rfl (by rw [hk.1, hk.2]; decide)
  cases h2 with
  | cons a1 h2 => cases h2 with
    | cons a2 h2 => cases h2 with
      | nil =>
        obtain ⟨_, _, _, k1, k2, _⟩ := a1
        obtain ⟨_, _, _, m1, m2, _⟩ := a2
        refine ⟨_, _, h1, UInt16.toNat.inj k1.intensity.symm, UInt16.toNat.inj m1.intensity.symm, ?_, ?_⟩
        · exact Int16.toInt_inj.1 k1.scanAngle.symm
        · rw [hk.1] at m2
          exact extra_fmt m1.extra (by omega)

end Copc
