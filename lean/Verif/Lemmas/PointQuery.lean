import Verif.Spec.BoxQuery
import Verif.Lemmas.ReaderData
/-! # Reading the points of several nodes -/
namespace Copc
open Spec

/-- `r'` reads the same file as `r`, with a good stream. -/
structure Fresh (r r' : Reader) : Prop where
  data : r'.h.str.data = r.h.str.data
  good : r'.h.str.fail = false
  cfg : SameCfg r r'

theorem Fresh.trans {a b c : Reader} (h1 : Fresh a b) (h2 : Fresh b c) : Fresh a c :=
  ⟨h2.data.trans h1.data, h2.good, h1.cfg.trans h2.cfg⟩

theorem Fresh.refl {r : Reader} (h : r.h.str.fail = false) : Fresh r r := ⟨rfl, h, rfl, rfl⟩

theorem decompress_same (L : Lazperf) (hd : LasHeader) (n : Int) {s s' : IStream} (h1 : s'.data = s.data)
    (h2 : s'.fail = s.fail) (h3 : s.fail = false → s'.pos = s.pos) :
    (Reader.decompressBytes L hd n s').1 = (Reader.decompressBytes L hd n s).1 := by
  unfold Reader.decompressBytes Reader.decompressStream
  have : (if s'.fail then [] else s'.data.drop s'.pos) = (if s.fail then [] else s.data.drop s.pos) := by
    rw [h1, h2]
    split
    · rfl
    · rename_i h; rw [h3 (by simpa using h)]
  rw [this]
  repeat' split
  all_goals first | rfl | simp_all

theorem decompress_good {L : Lazperf} {hd : LasHeader} {n : Int} {s : IStream} {bs : Bytes}
    (h : (Reader.decompressBytes L hd n s).1 = .ok bs) : (Reader.decompressBytes L hd n s).2.fail = false := by
  revert h
  unfold Reader.decompressBytes Reader.decompressStream
  repeat' split
  all_goals first | exact fun _ => rfl | (intro h; cases h)

/-- The three steps of `GetPoints` on a valid node. -/
theorem getPoints_eq {L : Lazperf} {n : Node} (hv : n.isValid = true) (r : Reader) :
    Reader.getPoints L n r = ((Reader.decompressBytes L r.cfg.header n.entry.pointCount (r.h.str.seekg n.entry.offset)).1.bind
        (Reader.unpackWith r.cfg.header),
      r.withStr (Reader.decompressBytes L r.cfg.header n.entry.pointCount (r.h.str.seekg n.entry.offset)).2) := by
  have h : Reader.getPointData L n r =
      ((Reader.decompressBytes L r.cfg.header n.entry.pointCount (r.h.str.seekg n.entry.offset)).1,
      r.withStr (Reader.decompressBytes L r.cfg.header n.entry.pointCount (r.h.str.seekg n.entry.offset)).2) := by
    unfold Reader.getPointData
    rw [Act.bind_apply, Act.throwIf_apply, if_neg (by simp [hv])]
    rfl
  unfold Reader.getPoints
  rw [Act.bind_apply, h]
  generalize Reader.decompressBytes L r.cfg.header n.entry.pointCount (r.h.str.seekg n.entry.offset) = p
  obtain ⟨res, s⟩ := p
  cases res <;> rfl

theorem getPoints_invalid {L : Lazperf} {n : Node} (hv : n.isValid = false) (r : Reader) :
    Reader.getPoints L n r = (.throw .invalidNode, r) := by
  unfold Reader.getPoints Reader.getPointData
  rw [Act.bind_apply, Act.bind_apply, Act.throwIf_apply, if_pos hv]

/-- The points of a node do not depend on what was read before, as long as the stream is good; and reading
them leaves the stream good. -/
theorem Spec.PointsOf.again {L : Lazperf} {r r' : Reader} (hr : r.h.str.fail = false) (hf : Fresh r r') {n : Node}
    {ps : List Point} (h : PointsOf L r n ps) :
    ∃ r'', Reader.getPoints L n r' = (.ok ps, r'') ∧ Fresh r r'' := by
  obtain ⟨r1, h⟩ := h
  by_cases hv : n.isValid = false
  · rw [getPoints_invalid hv] at h; cases h
  · have hv : n.isValid = true := by simpa using hv
    rw [getPoints_eq hv] at h
    rw [getPoints_eq hv]
    have h := congrArg Prod.fst h
    obtain ⟨bs, e1, e2⟩ := Res.bind_ok_iff.1 h
    have e1' : (Reader.decompressBytes L r'.cfg.header n.entry.pointCount (r'.h.str.seekg n.entry.offset)).1 = .ok bs := by
      rw [hf.cfg.2, ← e1]
      refine decompress_same _ _ _ ?_ ?_ ?_
      · rw [IStream.seekg_data, IStream.seekg_data, hf.data]
      · unfold IStream.seekg
        rw [hf.good, hr]
        simp only [Bool.false_eq_true, if_false]
        split <;> rfl
      · unfold IStream.seekg
        rw [hf.good, hr]
        simp only [Bool.false_eq_true, if_false]
        split <;> simp
    refine ⟨_, Prod.ext (by rw [e1', hf.cfg.2]; exact e2) rfl, ?_, decompress_good e1', hf.cfg⟩
    exact (decompressBytes_data ..).trans ((IStream.seekg_data ..).trans hf.data)

theorem Spec.PointsOf.unique {L : Lazperf} {r : Reader} {n : Node} {a b : List Point} (h1 : PointsOf L r n a)
    (h2 : PointsOf L r n b) : a = b := by
  obtain ⟨_, h1⟩ := h1
  obtain ⟨_, h2⟩ := h2
  rw [h1] at h2
  cases h2
  rfl

theorem unpackLoop_length {fmt : Int} {scale offset : Vec3 Dbl} {eb len : Nat} : ∀ (n : Nat) (bs : Bytes)
    (ps : List Point), unpackLoop fmt scale offset eb len n bs = .ok ps → ps.length = n
  | 0, _, ps, h => by cases h; rfl
  | n + 1, bs, ps, h => by
    rw [unpackLoop] at h
    obtain ⟨⟨p, rest⟩, _, h⟩ := Res.bind_ok_iff.1 h
    simp only at h
    split at h
    · obtain ⟨qs, hq, h⟩ := Res.bind_ok_iff.1 h
      cases h
      rw [List.length_cons, unpackLoop_length n rest qs hq]
    · cases h

theorem unpackPoints_length {bs : Bytes} {fmt : Int} {eb size : Nat} {scale offset : Vec3 Dbl} {ps : List Point}
    (hs : pointByteSize fmt eb = .ok size) (h : unpackPoints bs fmt eb scale offset = .ok ps) :
    ps.length = bs.length / size := by
  unfold unpackPoints at h
  rw [hs, Res.okBind] at h
  split at h
  · cases h
  · split at h
    · cases h
    · split at h
      · cases h
      · exact unpackLoop_length _ _ _ h

theorem length_flatten_const {k : Nat} : ∀ {l : List Bytes}, (∀ x ∈ l, x.length = k) → l.flatten.length = l.length * k
  | [], _ => by simp
  | a :: l, h => by
    rw [List.flatten_cons, List.length_append, length_flatten_const fun x hx => h x (by simp [hx]), h a (by simp),
      List.length_cons, Nat.add_mul]
    omega

/-- A node has as many points as its entry says (none if that is negative). -/
theorem Spec.PointsOf.length {L : Lazperf} {r : Reader} {n : Node} {ps : List Point} (h : PointsOf L r n ps) :
    ps.length = n.entry.pointCount.toNat := by
  obtain ⟨r1, h⟩ := h
  by_cases hv : n.isValid = false
  · rw [getPoints_invalid hv] at h; cases h
  · have hv : n.isValid = true := by simpa using hv
    rw [getPoints_eq hv] at h
    obtain ⟨bs, e1, e2⟩ := Res.bind_ok_iff.1 (congrArg Prod.fst h)
    obtain ⟨eb, he, e2⟩ := Res.bind_ok_iff.1 e2
    unfold Reader.decompressBytes at e1
    rw [he] at e1
    simp only at e1
    unfold Reader.decompressStream at e1
    cases hs : pointByteSize r.cfg.header.fmt eb with
    | throw e => rw [hs] at e1; cases e1
    | ub => rw [hs] at e1; cases e1
    | ok size =>
      rw [hs] at e1
      simp only at e1
      rw [unpackPoints_length hs e2]
      split at e1
      · cases e1
        rename_i hn
        simp only [List.length_nil, Nat.zero_div]
        omega
      · split at e1
        · cases e1
        · split at e1
          · rename_i hsz recs hd
            cases e1
            obtain ⟨l1, l2⟩ := L.decompress_length _ _ _ _ _ hd
            have hsize := (size_eq hs).2
            have hpos : 0 < lazBase r.cfg.header.fmt := by unfold lazBase; split <;> [decide; split <;> decide]
            have hall : ∀ x ∈ recs, x.length = size := fun x hx => by rw [l2 x hx, hsize]; omega
            rw [take_all hall, length_flatten_const hall, l1]
            rw [Nat.mul_div_cancel]
            omega
          · cases e1

/-- Appending over a list of nodes. -/
theorem collect_fresh {β : Type} {r : Reader} {f : Node → Run Reader (List β)} {g : Node → List β} :
    ∀ (l : List Node), (∀ n ∈ l, ∀ r', Fresh r r' → ∃ r'', f n r' = some (.ok (g n), r'') ∧ Fresh r r'') →
    ∀ r', Fresh r r' → ∃ r'', Run.collect f l r' = some (.ok (l.flatMap g), r'') ∧ Fresh r r''
  | [], _, r', hr' => ⟨r', rfl, hr'⟩
  | n :: l, hf, r', hr' => by
    obtain ⟨r1, e1, h1⟩ := hf n (by simp) r' hr'
    obtain ⟨r2, e2, h2⟩ := collect_fresh l (fun m hm => hf m (by simp [hm])) r1 h1
    refine ⟨r2, ?_, h2⟩
    rw [Run.collect_cons, Run.bind_ok e1, Run.bind_ok e2]
    rfl

end Copc
