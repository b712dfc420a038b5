import Verif.Spec.Program
import Verif.Model.FromHeader
import Verif.Props.Closes
/-! # C80: a program that writes points gets its points back -/
namespace Copc
open Spec VoxelKey

theorem removeScale_fits (v scale offset : Dbl) : (∃ n, removeScale v scale offset = .ok n) ↔ CoordFits v scale offset := by
  obtain ⟨h1, h2, h3⟩ := C12_removeScale v scale offset
  unfold CoordFits
  dsimp only at *
  generalize Flt.div (Flt.sub v offset) scale = q at *
  constructor
  · rintro ⟨n, hn⟩
    obtain ⟨_, hf, _⟩ := h1 n hn
    have hno : ¬ ∃ ex, removeScale v scale offset = .throw ex := by
      rintro ⟨ex, he⟩
      rw [hn] at he
      cases he
    rw [h2] at hno
    refine ⟨hf, ?_, ?_⟩
    · by_contra hc
      exact hno (.inr ⟨hf, .inl (not_lt.1 hc)⟩)
    · by_contra hc
      exact hno (.inr ⟨hf, .inr (not_lt.1 hc)⟩)
  · rintro ⟨hf, hl, hu⟩
    cases hr : removeScale v scale offset with
    | ok n => exact ⟨n, rfl⟩
    | throw ex =>
      exfalso
      rcases h2.1 ⟨ex, hr⟩ with h | ⟨_, h | h⟩
      · simp only [Flt.isInf, Flt.isFinite, decide_eq_true_eq] at *
        omega
      · linarith
      · linarith
    | ub =>
      exfalso
      have h := h3.1 hr
      simp only [Flt.isNaN, Flt.isFinite, decide_eq_true_eq] at *
      omega

theorem pack_fits (p : Point) (scale offset : Vec3 Dbl) : (∃ bs, p.pack scale offset = .ok bs) ↔
    CoordFits p.x scale.x offset.x ∧ CoordFits p.y scale.y offset.y ∧ CoordFits p.z scale.z offset.z := by
  rw [← removeScale_fits, ← removeScale_fits, ← removeScale_fits]
  constructor
  · rintro ⟨bs, h⟩
    obtain ⟨X, hX, h⟩ := Res.bind_ok_iff.1 h
    obtain ⟨Y, hY, h⟩ := Res.bind_ok_iff.1 h
    obtain ⟨Z, hZ, h⟩ := Res.bind_ok_iff.1 h
    exact ⟨⟨X, hX⟩, ⟨Y, hY⟩, ⟨Z, hZ⟩⟩
  · rintro ⟨⟨X, hX⟩, ⟨Y, hY⟩, ⟨Z, hZ⟩⟩
    exact ⟨_, by unfold Point.pack; rw [hX, Res.okBind, hY, Res.okBind, hZ, Res.okBind]⟩

theorem mapL_fits {α β : Type} {f : α → Res β} : ∀ l : List α, (∃ r, Res.mapL f l = .ok r) ↔ ∀ a ∈ l, ∃ b, f a = .ok b
  | [] => ⟨fun _ a ha => (by cases ha), fun _ => ⟨[], rfl⟩⟩
  | a :: l => by
    have ih := mapL_fits (f := f) l
    constructor
    · rintro ⟨r, h⟩ b hb
      rw [Res.mapL] at h
      obtain ⟨c, hc, h⟩ := Res.bind_ok_iff.1 h
      obtain ⟨cs, hcs, h⟩ := Res.bind_ok_iff.1 h
      rcases List.mem_cons.1 hb with rfl | hb
      · exact ⟨c, hc⟩
      · exact ih.1 ⟨cs, hcs⟩ b hb
    · intro h
      obtain ⟨c, hc⟩ := h a (by simp)
      obtain ⟨cs, hcs⟩ := ih.2 fun b hb => h b (by simp [hb])
      exact ⟨c :: cs, by rw [Res.mapL, hc, Res.okBind, hcs, Res.okBind]⟩

/-- C80: packing. A collection can be packed exactly when every coordinate of every point fits. -/
theorem C80_pack (ps : List Point) (hd : LasHeader) : (∃ bs, packPointsH ps hd = .ok bs) ↔
    ∀ p ∈ ps, CoordFits p.x hd.scale.x hd.offset.x ∧ CoordFits p.y hd.scale.y hd.offset.y ∧
      CoordFits p.z hd.scale.z hd.offset.z := by
  unfold packPointsH packPoints
  constructor
  · rintro ⟨bs, h⟩ p hp
    obtain ⟨l, hl, _⟩ := Res.bind_ok_iff.1 h
    exact (pack_fits p _ _).1 ((mapL_fits ps).1 ⟨l, hl⟩ p hp)
  · intro h
    obtain ⟨l, hl⟩ := (mapL_fits (f := fun p : Point => p.pack hd.scale hd.offset) ps).2 fun p hp => (pack_fits p _ _).2 (h p hp)
    exact ⟨_, by rw [hl, Res.okBind]⟩

/-- C80: points and collections made from the header of a file are of the format and record length of the file, for any
header whose record length covers its format. -/
theorem C80_from_header (hd : LasHeader) (hf : hd.fmt = 6 ∨ hd.fmt = 7 ∨ hd.fmt = 8)
    (hb : lasBaseSize hd.fmt ≤ hd.recLen.toNat) :
    (∃ p, Point.ofHeader hd = .ok p ∧ Reach p ∧ p.fmt = hd.fmt ∧ p.recLen = hd.recLen.toNat) ∧
    ∃ c, Coll.ofHeader hd = .ok c ∧ c.pts = [] ∧ c.fmt = hd.fmt ∧ c.recLen = hd.recLen.toNat := by
  obtain ⟨e1, e2, e3⟩ := ebSize_consistent hf hb
  have hlt := hd.recLen.toNat_lt
  have hmake : Point.make hd.fmt (hd.recLen.toNat - lasBaseSize hd.fmt) =
      .ok (Point.fresh hd.fmt (hd.recLen.toNat - lasBaseSize hd.fmt)) := by
    rw [Point.make_eq, if_pos hf]
  constructor
  · unfold Point.ofHeader
    rw [e1, Res.okBind]
    refine ⟨_, hmake, Reach.make (by omega) hmake, rfl, ?_⟩
    show baseSize hd.fmt + _ = _
    have : baseSize hd.fmt = lasBaseSize hd.fmt := rfl
    omega
  · unfold Coll.ofHeader Coll.make
    rw [e1, Res.okBind, if_neg (by omega), e2, Res.okBind]
    exact ⟨_, rfl, rfl, rfl, rfl⟩

/-- The addition by which the program adds a node. -/
def NodePoints.IsDone (L : Lazperf) (hd : LasHeader) (n : NodePoints) (a : Addition) : Prop :=
  a.op = .addPoints n.key hd.fmt hd.recLen.toNat n.points n.page ∧ a.key = n.key ∧ a.page = n.page ∧
    a.count = (n.points.length : Nat) ∧ GoodAdd L hd a.op a.key a.page a.blob a.count

/-- Good points make a good addition. -/
theorem node_done {L : Lazperf} {hd : LasHeader} (hf : hd.fmt = 6 ∨ hd.fmt = 7 ∨ hd.fmt = 8)
    (hb : lasBaseSize hd.fmt ≤ hd.recLen.toNat) {n : NodePoints} (hn : GoodNode L hd n) :
    ∃ a, n.IsDone L hd a := by
  obtain ⟨e1, e2, e3⟩ := ebSize_consistent hf hb
  obtain ⟨bs, hbs⟩ := (C80_pack n.points hd).2 hn.coords
  have hlen := C18_pack_length n.points hd.recLen.toNat (fun p hp => ⟨(hn.same p hp).1, (hn.same p hp).2.2⟩) _ _ bs hbs
  obtain ⟨c1, c2, c3⟩ := cut_flatten hd.recLen.toNat n.points.length bs hlen
  have hpos := List.length_pos_iff.2 hn.some
  refine ⟨⟨.addPoints n.key hd.fmt hd.recLen.toNat n.points n.page, n.key, n.page,
    L.compress hd.fmt (hd.recLen.toNat - lasBaseSize hd.fmt) (BaseW.cut hd.recLen.toNat n.points.length bs),
    (n.points.length : Nat)⟩, rfl, rfl, rfl, rfl, ?_⟩
  refine ⟨rfl, hn.validKey, hn.validPage, hn.below, ⟨bs, _, _, hbs, e1, c1, c2, rfl, by rw [c3]⟩, by dsimp only; omega,
    ⟨rfl, rfl, ?_⟩, hn.compressed _ _ e1 (by rw [c1]; exact hbs) c2⟩
  dsimp only
  exact_mod_cast hn.raw

theorem forall₂_of_mem {α β : Type} {R : α → β → Prop} : ∀ l : List α, (∀ a ∈ l, ∃ b, R a b) → ∃ m, List.Forall₂ R l m
  | [], _ => ⟨[], .nil⟩
  | a :: l, h => by
    obtain ⟨b, hb⟩ := h a (by simp)
    obtain ⟨m, hm⟩ := forall₂_of_mem l fun x hx => h x (by simp [hx])
    exact ⟨b :: m, .cons hb hm⟩

theorem forall₂_map_eq {α β γ : Type} {R : α → β → Prop} {f : α → γ} {g : β → γ} (hR : ∀ a b, R a b → g b = f a)
    {l : List α} {m : List β} (h : List.Forall₂ R l m) : m.map g = l.map f := by
  induction h with
  | nil => rfl
  | cons hx _ ih => rw [List.map_cons, List.map_cons, hR _ _ hx, ih]

theorem sum_le_mul {α : Type} (f : α → Nat) (b : Nat) : ∀ l : List α, (∀ a ∈ l, f a ≤ b) → (l.map f).sum ≤ l.length * b
  | [], _ => by simp
  | a :: l, h => by
    have h1 := h a (by simp)
    have h2 := sum_le_mul f b l fun x hx => h x (by simp [hx])
    rw [List.map_cons, List.sum_cons, List.length_cons, Nat.add_mul]
    omega

theorem cast_sum {α : Type} (f : α → Nat) : ∀ l : List α, (l.map fun a => ((f a : Nat) : Int)).sum = ((l.map f).sum : Nat)
  | [] => rfl
  | a :: l => by
    rw [List.map_cons, List.sum_cons, List.map_cons, List.sum_cons, cast_sum f l]
    push_cast
    rfl

/-- The plan of a good program is good. -/
theorem program_plan {L : Lazperf} {hd : LasHeader} (hb : lasBaseSize hd.fmt ≤ hd.recLen.toNat) {ns : List NodePoints}
    (hp : GoodProgram L hd ns) {plan : List Addition} (hplan : List.Forall₂ (NodePoints.IsDone L hd) ns plan) :
    GoodPlan L hd plan := by
  have hback : ∀ a ∈ plan, ∃ n ∈ ns, n.IsDone L hd a := by
    intro a ha
    obtain ⟨n, hn, h⟩ := forall₂_mem_right hplan ha
    exact ⟨n, hn, h⟩
  have hpl : plan.length = ns.length := hplan.length_eq.symm
  have hcount : ∀ n ∈ ns, 0 < n.points.length ∧ n.points.length < 2 ^ 31 := by
    intro n hn
    have h1 := List.length_pos_iff.2 (hp.good n hn).some
    have h2 := (hp.good n hn).raw
    have h3 : 0 < lasBaseSize hd.fmt := by unfold lasBaseSize; split <;> [decide; split <;> decide]
    have h4 : n.points.length * 1 ≤ n.points.length * hd.recLen.toNat := Nat.mul_le_mul_left _ (by omega)
    exact ⟨h1, by omega⟩
  refine ⟨fun a ha => ?_, fun a ha => ?_, fun a ha => ?_, fun a ha => ?_, ?_, by rw [hpl]; exact hp.few⟩
  · obtain ⟨n, hn, h⟩ := hback a ha; exact h.2.2.2.2
  · obtain ⟨n, hn, h⟩ := hback a ha; rw [h.2.2.1]; exact (hp.good n hn).octree
  · obtain ⟨n, hn, h⟩ := hback a ha; rw [h.2.1]; exact (hp.good n hn).range
  · obtain ⟨n, hn, h⟩ := hback a ha
    rw [h.2.2.2.1]
    have := hcount n hn
    omega
  · rw [forall₂_map_eq (f := fun n : NodePoints => n.key) (g := fun a : Addition => a.key) (fun n a h => h.2.1) hplan]
    exact hp.distinct

/-- What the file of a good program gives back. -/
theorem program_file {L : Lazperf} {ord : Order} {w0 w : Writer} {data : Bytes} (h255 : w0.cfg.header.recLen.toNat ≤ 255)
    {ns : List NodePoints} (hp : GoodProgram L w0.cfg.header ns) {plan : List Addition}
    (hplan : List.Forall₂ (NodePoints.IsDone L w0.cfg.header) ns plan) {h : List (Op × Res (Option Node))}
    (g2 : List.Forall₂ (fun (a : Addition) (x : Op × Res (Option Node)) => x.1 = a.op ∧
        ∃ off, x.2 = .ok (some ⟨⟨a.key, off, a.blob.length, a.count⟩, a.page⟩)) plan h)
    (hw : Written L ord w0 w h data) {r : Reader} (hr : Reader.init ⟨data, 0, false⟩ = .ok r) :
    r.cfg.header.pointCount.toNat = (ns.map (·.points.length)).sum ∧
      ∀ (q : List Query) (r1 : Reader), Asked L r q r1 →
        (∀ rord, ∃ all r2, Run.Ends (fun k => Reader.getAllNodes rord k) r1 (.ok all, r2) ∧
          (all.map fun n => (n.entry.key, n.pageKey, n.entry.pointCount)).Perm
            (ns.map fun n => (n.key, n.page, ((n.points.length : Nat) : Int)))) ∧
        ∀ n ∈ ns, ∃ qs r2, Run.Ends (fun k => Reader.getPointsAt L k n.key) r1 (.ok qs, r2) ∧
          List.Forall₂ (ReadBack w0.cfg.header.scale w0.cfg.header.offset) n.points qs := by
  have hback : ∀ a ∈ plan, ∃ n ∈ ns, n.IsDone L w0.cfg.header a := by
    intro a ha
    obtain ⟨n, hn, h⟩ := forall₂_mem_right hplan ha
    exact ⟨n, hn, h⟩
  have hpl : plan.length = ns.length := hplan.length_eq.symm
  have hcount : ∀ n ∈ ns, 0 < n.points.length ∧ n.points.length < 2 ^ 31 := by
    intro n hn
    have h1 := List.length_pos_iff.2 (hp.good n hn).some
    have h2 := (hp.good n hn).raw
    have h3 := hw.recLen_pos
    have h4 : n.points.length * 1 ≤ n.points.length * w0.cfg.header.recLen.toNat := Nat.mul_le_mul_left _ (by omega)
    exact ⟨h1, by omega⟩
  have hnodes := plan_nodes g2
  have hmoved := movedTo_nil (h := h) (by
    intro x hx
    obtain ⟨a, ha, he, _⟩ := forall₂_mem_right g2 hx
    obtain ⟨n, _, hd, _⟩ := hback a ha
    rw [he, hd]
    simp [Op.target])
  have hcounts : (addedNodes h).map (·.entry.pointCount) = ns.map fun n => ((n.points.length : Nat) : Int) := by
    rw [forall₂_map_eq (f := fun a : Addition => a.count) (g := fun n : Node => n.entry.pointCount)
      (by rintro a n ⟨off, rfl⟩; rfl) hnodes,
      forall₂_map_eq (f := fun n : NodePoints => ((n.points.length : Nat) : Int)) (g := fun a : Addition => a.count)
      (fun n a h => h.2.2.2.1) hplan]
  have hsum : (ns.map (·.points.length)).sum < 2 ^ 56 := by
    have := sum_le_mul (fun n : NodePoints => n.points.length) (2 ^ 31 - 1) ns fun n hn => by have := hcount n hn; omega
    have := hp.few
    omega
  refine ⟨?_, fun q r1 hq => ⟨fun rord => ?_, fun n hn => ?_⟩⟩
  · have h1 := C34_count hw (by
      intro x hx
      obtain ⟨a, _, _, off, he⟩ := forall₂_mem_right g2 hx
      rw [he]; simp) hr (by
      rw [hcounts, cast_sum]
      omega)
    rw [hcounts, cast_sum] at h1
    exact_mod_cast h1
  · obtain ⟨all, r2, f1, f2⟩ := C33_allNodes hw hr hq rord
    refine ⟨all, r2, f1, (f2.map _).trans ?_⟩
    rw [List.map_map]
    have : ((addedNodes h).map fun n => (n.entry.key, n.pageKey, n.entry.pointCount)) =
        ns.map fun n => (n.key, n.page, ((n.points.length : Nat) : Int)) := by
      rw [forall₂_map_eq (f := fun a : Addition => (a.key, a.page, a.count))
        (g := fun n : Node => (n.entry.key, n.pageKey, n.entry.pointCount)) (by rintro a n ⟨off, rfl⟩; rfl) hnodes,
        forall₂_map_eq (f := fun n : NodePoints => (n.key, n.page, ((n.points.length : Nat) : Int)))
        (g := fun a : Addition => (a.key, a.page, a.count)) (fun n a h => by rw [h.2.1, h.2.2.1, h.2.2.2.1]) hplan]
    rw [← this]
    refine List.Perm.of_eq (List.map_congr_left fun n _ => ?_)
    simp only [Function.comp, finalPage, hmoved]
    rfl
  · obtain ⟨a, ha, hd⟩ := forall₂_mem_left hplan hn
    obtain ⟨⟨op, res⟩, hx, ho, off, hres⟩ := forall₂_mem_left g2 ha
    dsimp only at ho hres
    rw [ho, hd.1, hres] at hx
    have hrl := h255
    obtain ⟨qs, r2, f1, _, f3⟩ := C34_points hw hrl hr hq hx (hp.good n hn).same
    exact ⟨qs, r2, f1, f3⟩

/-- C80. A program that makes a configuration from good arguments, edits it, makes a writer, adds good points under
distinct keys and closes: nothing fails, and a reader of the file, whatever it was asked before, lists exactly the keys,
has the number of points, and gives for each key the points that were added, as the file stores them (`ReadBack`). No
outcome of a call is assumed. Records of at most 255 bytes (C47). -/
theorem C80_program (L : Lazperf) (ord : Order) {fmt : Int} {scale offset : Vec3 Dbl} {wkt : Bytes}
    {eb : List EbField} (ext : Bool) (ha : GoodArgs fmt wkt eb)
    (h255 : lasBaseSize fmt + (eb.map lasItemSize).sum ≤ 255) :
    ∃ c, CopcConfig.make fmt scale offset wkt eb ext = .ok c ∧ ∀ c', PublicEdit c c' → GoodEdits c' →
      ∀ ns, GoodProgram L c'.header ns → ∃ w0 h w w', Writer.make OStream.fresh c' {} = .ok w0 ∧
        History L ord w0 h w ∧ (∀ x ∈ h, x.2.isOk = true) ∧
        h.map (·.1) = ns.map (fun n => .addPoints n.key fmt c'.header.recLen.toNat n.points n.page) ∧
        Writer.close L ord w = (.ok (), w') ∧
        (w'.base.out.data.length < 2 ^ 63 →
          ∃ r, Reader.init ⟨w'.base.out.data, 0, false⟩ = .ok r ∧
            r.cfg.header.pointCount.toNat = (ns.map (·.points.length)).sum ∧
            ∀ (q : List Query) (r1 : Reader), Asked L r q r1 →
              (∀ rord, ∃ all r2, Run.Ends (fun k => Reader.getAllNodes rord k) r1 (.ok all, r2) ∧
                (all.map fun n => (n.entry.key, n.pageKey, n.entry.pointCount)).Perm
                  (ns.map fun n => (n.key, n.page, ((n.points.length : Nat) : Int)))) ∧
              ∀ n ∈ ns, ∃ qs r2, Run.Ends (fun k => Reader.getPointsAt L k n.key) r1 (.ok qs, r2) ∧
                List.Forall₂ (ReadBack scale offset) n.points qs) := by
  obtain ⟨c, hc, _, hrest⟩ := C79_constructors (scale := scale) (offset := offset) ext ha
  refine ⟨c, hc, fun c' he hg ns hp => ?_⟩
  obtain ⟨w0, hm, hcfg, k1, k2, k3, _, k5, hst, hbo⟩ := hrest c' he hg
  have hcons := hst.toConsistent
  rw [hcfg] at hcons
  have hb : lasBaseSize c'.header.fmt ≤ c'.header.recLen.toNat := by have := hcons.len; omega
  obtain ⟨plan, hplan⟩ := forall₂_of_mem ns fun n hn => node_done hcons.fmt hb (hp.good n hn)
  have hrl : w0.cfg.header.recLen.toNat ≤ 255 := by
    rw [hcfg, hcons.len, k1, k5]
    exact h255
  rw [← hcfg] at hp hplan
  obtain ⟨h, w, w', g1, g2, g3, g4⟩ := C79_good_use hm hst hbo (program_plan (by rw [hcfg]; exact hb) hp hplan) ord
  refine ⟨w0, h, w, w', hm, g1, ?_, ?_, g3, fun hsize => ?_⟩
  · intro x hx
    obtain ⟨a, _, _, off, he⟩ := forall₂_mem_right g2 hx
    rw [he]; rfl
  · rw [forall₂_map_eq (f := fun a : Addition => a.op) (g := fun x : Op × Res (Option Node) => x.1) (fun a x h => h.1) g2,
      forall₂_map_eq (f := fun n : NodePoints => Op.addPoints n.key w0.cfg.header.fmt w0.cfg.header.recLen.toNat n.points n.page)
        (g := fun a : Addition => a.op) (fun n a h => h.1) hplan, hcfg, k1]
  · obtain ⟨hw, r, hr, _⟩ := g4 hsize
    obtain ⟨f1, f2⟩ := program_file hrl hp hplan g2 hw hr
    rw [hcfg, k2, k3] at f2
    exact ⟨r, hr, f1, f2⟩

/-- Good points make a good collection. -/
theorem points_done {L : Lazperf} {hd : LasHeader} (hf : hd.fmt = 6 ∨ hd.fmt = 7 ∨ hd.fmt = 8)
    (hb : lasBaseSize hd.fmt ≤ hd.recLen.toNat) {ps : List Point} (hn : GoodPoints L hd ps) : GoodBatch L hd ps := by
  obtain ⟨e1, e2, e3⟩ := ebSize_consistent hf hb
  obtain ⟨bs, hbs⟩ := (C80_pack ps hd).2 hn.coords
  have hlen := C18_pack_length ps hd.recLen.toNat (fun p hp => ⟨(hn.same p hp).1, (hn.same p hp).2.2⟩) _ _ bs hbs
  obtain ⟨c1, c2, c3⟩ := cut_flatten hd.recLen.toNat ps.length bs hlen
  refine ⟨hn.same, _, _, ⟨bs, _, _, hbs, e1, c1, c2, rfl, rfl⟩, hn.compressed _ _ e1 (by rw [c1]; exact hbs) c2, ?_⟩
  rw [c3]
  exact_mod_cast hn.raw

/-- C80, LAZ: from the arguments of `LazConfigWriter` on. The header may be edited within `LazEdit` as long as its strings
fit. -/
theorem C80_laz (L : Lazperf) {fmt : Int} {scale offset : Vec3 Dbl} {wkt : Bytes} {eb : List EbField}
    (ha : GoodArgs fmt wkt eb) (h255 : lasBaseSize fmt + (eb.map lasItemSize).sum ≤ 255) :
    ∃ c, LazConfig.make fmt scale offset wkt eb false = .ok c ∧ ∀ c', LazEdit c c' → Fits c'.header.guid 16 →
      Fits c'.header.systemIdentifier 32 → Fits c'.header.generatingSoftware 32 →
      ∀ batches : List (List Point), (∀ ps ∈ batches, GoodPoints L c'.header ps) → batches.flatten.length < 2 ^ 31 →
        ∃ w0 w w', LazWriter.make OStream.fresh c' = .ok w0 ∧
          LazHistory L w0 (batches.map fun ps => (.points fmt c'.header.recLen.toNat ps, .ok ())) w ∧
          LazWriter.close L w = (.ok (), w') ∧
          (w'.base.out.data.length < 2 ^ 63 →
            ∃ r qs, LazReader.init L ⟨w'.base.out.data, 0, false⟩ = .ok r ∧ LazReader.getPoints L r = .ok qs ∧
              r.base.las.header.pointCount.toNat = batches.flatten.length ∧
              List.Forall₂ (ReadBack scale offset) batches.flatten qs) := by
  have hb : pointBaseByteSize fmt = .ok (lasBaseSize fmt) := by rcases ha.fmt with rfl | rfl | rfl <;> rfl
  have hl : recordLength fmt eb = .ok (UInt16.ofNat (lasBaseSize fmt + (eb.map lasItemSize).sum)) := by
    unfold recordLength
    rw [hb, Res.okBind, C25_sum eb fun f hx => (ha.types f hx).1, Res.okBind]
  refine ⟨⟨LasHeader.make fmt (UInt16.ofNat (lasBaseSize fmt + (eb.map lasItemSize).sum)) scale offset false, wkt, eb⟩, ?_, ?_⟩
  · unfold LazConfig.make
    rw [if_neg (by have := ha.fmt; omega), hl, Res.okBind]
  intro c' he hguid hsys hgen batches hg hn
  have e1 : c'.header.fmt = fmt := he.fmt
  have e2 : c'.eb = eb := he.eb
  have e3 : c'.header.recLen.toNat = lasBaseSize c'.header.fmt + (c'.eb.map lasItemSize).sum := by
    rw [he.recLen, e1, e2]
    show (UInt16.ofNat _).toNat = _
    rw [UInt16.toNat_ofNat']
    exact Nat.mod_eq_of_lt ha.len
  have hst : LazStorable c' :=
    { fmt := by rw [e1]; exact ha.fmt
      len := e3
      items := by rw [e2]; exact fun f hf => (ha.types f hf).2.1
      header := ⟨by rw [e1]; exact ha.fmt, by rw [he.returns]; rfl, hguid, hsys, hgen⟩
      few := by rw [e2]; exact ha.few
      descriptors := by rw [e2]; exact fun f hf => (ha.types f hf).2.2
      wktLen := by rw [he.wkt]; exact ha.wkt }
  have hfor : c'.forWriter = c' := by
    have hflag : c'.header.copcFlag = false := he.copcFlag
    unfold LazConfig.forWriter LasHeader.withCopc
    rw [← hflag]
  have hbase : lasBaseSize c'.header.fmt ≤ c'.header.recLen.toNat := by omega
  obtain ⟨s1, _, _⟩ := ebSize_consistent hst.fmt hbase
  have hmk : ∃ w0, LazWriter.make OStream.fresh c' = .ok w0 ∧ w0.cfg = c' := by
    unfold LazWriter.make BaseW.offsetToPointData
    rw [hfor, s1, Res.okBind, Res.okBind]
    exact ⟨_, rfl, rfl⟩
  obtain ⟨w0, hm, hcfg⟩ := hmk
  obtain ⟨w, w', g1, g2, g3⟩ := C79_laz (L := L) hm (by rw [hcfg]; exact hst)
    (by rw [hcfg, e3, e1, e2]; exact h255) (batches := batches)
    (by rw [hcfg]; exact fun ps hp => points_done hst.fmt hbase (hg ps hp)) hn
  rw [hcfg] at g1 g3
  rw [e1] at g1
  refine ⟨w0, w, w', hm, g1, g2, fun hs => ?_⟩
  obtain ⟨r, qs, f1, f2, f3, f4⟩ := g3 hs
  rw [he.scale, he.offset] at f4
  exact ⟨r, qs, f1, f2, f3, f4⟩

/-! ### The hypotheses can be met -/

def sampleArgs : List EbField := [EbField.simple 1 0 [97]]

/-- Two nodes of points of format 6 with an extra byte, coordinates (1, 2, -3), (5, 2, -3), (-8, 2, -3). -/
def sampleProgram : List NodePoints :=
  [⟨VoxelKey.root, VoxelKey.root, [LazSample.pt 1, LazSample.pt 5]⟩, ⟨⟨2, 3, 1, 2⟩, Sample.kA, [LazSample.pt (-8)]⟩]

def sampleConfig : CopcConfig := Sample.getOk (CopcConfig.make 6 Sample.scale Sample.zero [87] sampleArgs false)

theorem sampleProgram_good : GoodProgram Sample.L sampleConfig.header sampleProgram := by
  have h1 : sampleConfig.header.fmt = 6 := by decide +kernel
  have h2 : sampleConfig.header.recLen.toNat = 31 := by decide +kernel
  have hp : ∀ x : Int, Reach (LazSample.pt x) ∧ (LazSample.pt x).fmt = sampleConfig.header.fmt ∧
      (LazSample.pt x).recLen = sampleConfig.header.recLen.toNat := by
    rw [h1, h2]; exact LazSample.pt_reach
  have hx : ∀ x : Int, ((LazSample.pt x).pack sampleConfig.header.scale sampleConfig.header.offset).isOk = true →
      CoordFits (LazSample.pt x).x sampleConfig.header.scale.x sampleConfig.header.offset.x ∧
      CoordFits (LazSample.pt x).y sampleConfig.header.scale.y sampleConfig.header.offset.y ∧
      CoordFits (LazSample.pt x).z sampleConfig.header.scale.z sampleConfig.header.offset.z := by
    intro x h
    refine (pack_fits _ _ _).1 ?_
    cases hr : (LazSample.pt x).pack sampleConfig.header.scale sampleConfig.header.offset with
    | ok bs => exact ⟨bs, rfl⟩
    | throw e => rw [hr] at h; cases h
    | ub => rw [hr] at h; cases h
  have hcomp : ∀ (n : NodePoints) eb recs, sampleConfig.header.ebSize = .ok eb →
      packPoints n.points sampleConfig.header.scale sampleConfig.header.offset = .ok recs.flatten →
      (∀ r ∈ recs, r.length = sampleConfig.header.recLen.toNat) → n.points.length < 3 →
      (∀ p ∈ n.points, Reach p ∧ p.recLen = sampleConfig.header.recLen.toNat) →
      (Sample.L.compress sampleConfig.header.fmt eb recs).length ≤ 2147483647 := by
    intro n eb recs _ hpk hr hl hq
    have := C18_pack_length n.points _ hq _ _ _ hpk
    show (Lazperf.plain.compress _ eb recs).length ≤ _
    have he : Lazperf.plain.compress sampleConfig.header.fmt eb recs = recs.flatten := rfl
    rw [he, this, h2]
    omega
  refine ⟨?_, by decide, by decide⟩
  intro n hn
  simp only [sampleProgram, List.mem_cons, List.not_mem_nil, or_false] at hn
  rcases hn with rfl | rfl
  · have hs : ∀ p ∈ [LazSample.pt 1, LazSample.pt 5], ∃ x : Int, p = LazSample.pt x ∧
        ((LazSample.pt x).pack sampleConfig.header.scale sampleConfig.header.offset).isOk = true := by
      intro p hp'
      simp only [List.mem_cons, List.not_mem_nil, or_false] at hp'
      rcases hp' with rfl | rfl
      · exact ⟨1, rfl, by decide +kernel⟩
      · exact ⟨5, rfl, by decide +kernel⟩
    refine ⟨by decide, by decide, (childOf_iff _ _).1 (by decide +kernel) |>.2, by decide +kernel, by decide +kernel, by simp,
      fun p hp' => ?_, fun p hp' => ?_, by rw [h2]; decide, fun eb recs a1 a2 a3 => hcomp _ eb recs a1 a2 a3 (by decide) fun p hp' => ?_⟩
    · obtain ⟨x, rfl, _⟩ := hs p hp'; exact hp x
    · obtain ⟨x, rfl, h⟩ := hs p hp'; exact hx x h
    · obtain ⟨x, rfl, _⟩ := hs p hp'; exact ⟨(hp x).1, (hp x).2.2⟩
  · have hs : ∀ p ∈ [LazSample.pt (-8)], ∃ x : Int, p = LazSample.pt x ∧
        ((LazSample.pt x).pack sampleConfig.header.scale sampleConfig.header.offset).isOk = true := by
      intro p hp'
      obtain rfl := List.mem_singleton.1 hp'
      exact ⟨-8, rfl, by decide +kernel⟩
    refine ⟨by decide, by decide, (childOf_iff _ _).1 (by decide +kernel) |>.2, by decide +kernel, by decide +kernel, by simp,
      fun p hp' => ?_, fun p hp' => ?_, by rw [h2]; decide, fun eb recs a1 a2 a3 => hcomp _ eb recs a1 a2 a3 (by decide) fun p hp' => ?_⟩
    · obtain ⟨x, rfl, _⟩ := hs p hp'; exact hp x
    · obtain ⟨x, rfl, h⟩ := hs p hp'; exact hx x h
    · obtain ⟨x, rfl, _⟩ := hs p hp'; exact ⟨(hp x).1, (hp x).2.2⟩

/-- Non-vacuity: the arguments, the unedited configuration and the program are good. -/
example : ∃ c, CopcConfig.make 6 Sample.scale Sample.zero [87] sampleArgs false = .ok c ∧ GoodArgs 6 [87] sampleArgs ∧
    lasBaseSize 6 + (sampleArgs.map lasItemSize).sum ≤ 255 ∧ PublicEdit c c ∧ GoodEdits c ∧
    GoodProgram Sample.L c.header sampleProgram := by
  have ha : GoodArgs 6 [87] sampleArgs := by
    refine ⟨by decide, ?_, by decide, by decide, by decide⟩
    intro f hf
    obtain rfl := List.mem_singleton.1 hf
    refine ⟨by decide, by decide, ⟨by decide, by decide, ?_, ?_⟩⟩ <;> (unfold NoNul; decide)
  obtain ⟨c, hc, hg, _⟩ := C79_constructors (scale := Sample.scale) (offset := Sample.zero) false ha
  have e : sampleConfig = c := by unfold sampleConfig; rw [hc]; rfl
  exact ⟨c, hc, ha, by decide, ⟨rfl, rfl, rfl, rfl, rfl, rfl, rfl, rfl, rfl, rfl, rfl⟩, hg, e ▸ sampleProgram_good⟩

/-- Non-vacuity: the nodes of the sample are collections for a LAZ file with the same arguments, and so is an empty one. -/
example : ∃ c, LazConfig.make 6 Sample.scale Sample.zero [87] sampleArgs false = .ok c ∧ LazEdit c c ∧
    GoodPoints Sample.L c.header [LazSample.pt 1, LazSample.pt 5] ∧ GoodPoints Sample.L c.header [] := by
  have hd : ∃ c, LazConfig.make 6 Sample.scale Sample.zero [87] sampleArgs false = .ok c ∧
      c.header = sampleConfig.header.withCopc false := ⟨Sample.getOk (LazConfig.make 6 Sample.scale Sample.zero [87] sampleArgs false),
    by decide +kernel, by decide +kernel⟩
  obtain ⟨c, hc, hh⟩ := hd
  have hg := sampleProgram_good.good _ (List.mem_cons_self ..)
  refine ⟨c, hc, ⟨rfl, rfl, rfl, rfl, rfl, rfl, rfl, rfl⟩, ?_, ?_⟩
  · rw [hh]
    exact ⟨hg.same, hg.coords, hg.raw, hg.compressed⟩
  · rw [hh]
    refine ⟨fun p hp => (by cases hp), fun p hp => (by cases hp), Nat.zero_le _ |>.trans' (by simp), fun eb recs _ h2 _ => ?_⟩
    obtain ⟨l, h3, h4⟩ := Res.bind_ok_iff.1 h2
    obtain rfl := Res.ok.inj h3
    have he : Lazperf.plain.compress (sampleConfig.header.withCopc false).fmt eb recs = recs.flatten := rfl
    show (Lazperf.plain.compress _ eb recs).length ≤ _
    rw [he, ← Res.ok.inj h4]
    simp

end Copc
