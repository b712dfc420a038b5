import Verif.Lemmas.ReaderCalls
import Verif.Lemmas.ClosedHier
import Verif.Lemmas.ReaderFuel
import Verif.Props.RoundTrip
/-!
# C36, C37, C38: node lookup and listing on a good file

`Opened data ps r`: a reader opened on the file `data` with the good hierarchy `ps`. `Asked L r l r'`: the
state after any list of earlier calls.
-/
namespace Copc
open Spec VoxelKey

section
variable {data : Bytes} {ps : List FPage} {r r1 r2 : Reader} {L : Lazperf} {l l1 l2 : List Query}

/-- `FindNode` returns the right node, whatever was asked before. -/
theorem C36_findNode (hg : GoodHierarchy data ps) (ho : Opened data ps r) (ha : Asked L r l r1) (key : VoxelKey) :
    ∃ n r2, Run.Ends (fun k => Reader.findNode k key) r1 (.ok n, r2) ∧ Answer ps key n := by
  obtain ⟨n, r2, h1, _, _, h2⟩ := (findNode_gives hg (ha.rInv hg (ho.rInv hg)).1 key).ends
  exact ⟨n, r2, h1, h2⟩

/-- After any two histories of queries `FindNode` returns the same node. -/
theorem C36_history (hg : GoodHierarchy data ps) (ho : Opened data ps r) (h1 : Asked L r l1 r1)
    (h2 : Asked L r l2 r2) (key : VoxelKey) :
    ∃ n r1' r2', Run.Ends (fun k => Reader.findNode k key) r1 (.ok n, r1') ∧
      Run.Ends (fun k => Reader.findNode k key) r2 (.ok n, r2') := by
  obtain ⟨n, s1, e1, a1⟩ := C36_findNode hg ho h1 key
  obtain ⟨m, s2, e2, a2⟩ := C36_findNode hg ho h2 key
  obtain rfl := Answer.unique hg a1 a2
  exact ⟨_, s1, s2, e1, e2⟩

/-- `GetAllNodes` lists the nodes of the file, each once, whatever was asked before: after any two histories
(and in any two iteration orders) the lists are the same up to order. -/
theorem C36_allNodes (hg : GoodHierarchy data ps) (ho : Opened data ps r) (h1 : Asked L r l1 r1)
    (h2 : Asked L r l2 r2) (o1 o2 : ROrder) :
    ∃ a b r1' r2', Run.Ends (fun k => Reader.getAllNodes o1 k) r1 (.ok a, r1') ∧
      Run.Ends (fun k => Reader.getAllNodes o2 k) r2 (.ok b, r2') ∧ ListsAll ps a ∧ a.Perm b := by
  obtain ⟨a, s1, e1, _, _, a1⟩ := (allNodes_gives hg (h1.rInv hg (ho.rInv hg)).1 o1).ends
  obtain ⟨b, s2, e2, _, _, a2⟩ := (allNodes_gives hg (h2.rInv hg (ho.rInv hg)).1 o2).ends
  exact ⟨a, b, s1, s2, e1, e2, a1, (List.perm_ext_iff_of_nodup a1.1 a2.1).2 fun m => by rw [a1.2, a2.2]⟩

/-- `GetPageList` lists the pages of the file, each once, whatever was asked before. -/
theorem C36_pageList (hg : GoodHierarchy data ps) (ho : Opened data ps r) (h1 : Asked L r l r1) (ord : ROrder) :
    ∃ ks r2, Run.Ends (fun k => Reader.getPageList ord k) r1 (.ok ks, r2) ∧ ks.Perm (ps.map (·.key)) := by
  obtain ⟨a, s1, e1, _, _, a1⟩ := (pageList_gives hg (h1.rInv hg (ho.rInv hg)).1 ord).ends
  exact ⟨a, s1, e1, a1⟩

/-- Every call of the interface ends. -/
theorem C37_terminates (hg : GoodHierarchy data ps) (ho : Opened data ps r) (h1 : Asked L r l r1) (q : Query) :
    ∃ res, Run.Ends (fun k => q.run L k) r1 res := by
  obtain ⟨n, res, r', h, _⟩ := query_halts hg (h1.rInv hg (ho.rInv hg)).1 L q
  exact ⟨(res, r'), n, h⟩

theorem after_all {s : HReader} (hall : ∀ k ∈ ps.map (·.key), LoadedKey s k)
    {key : VoxelKey} {n : Node} (hA : Answer ps key n) : After ps key n s := by
  rcases hA with ⟨hn, _⟩ | ⟨_, he⟩
  · refine .inl ⟨hn, ?_⟩
    obtain ⟨q, hq, hm⟩ := hn
    obtain ⟨e, he, rfl⟩ := List.mem_map.1 hm
    exact hall _ (List.mem_map_of_mem hq)
  · exact .inr ⟨he, fun k hk _ => hall k hk⟩

theorem onHier_still {α : Type} {x : Nat → Run HReader α} {r : Reader} {res : Res α}
    (h : Run.Ends x r.h (res, r.h)) : Run.Ends (fun n => Reader.onHier (x n)) r (res, r) := by
  obtain ⟨n, h⟩ := h
  refine ⟨n, fun m hm => ?_⟩
  show (x m r.h).map _ = _
  rw [h m hm]
  rfl

/-- Looking a key up a second time does not touch the reader (so not the file either). -/
theorem C37_again (hg : GoodHierarchy data ps) (ho : Opened data ps r) (h1 : Asked L r l r1) {key : VoxelKey}
    {n : Node} (he : Run.Ends (fun k => Reader.findNode k key) r1 (.ok n, r2)) :
    Run.Ends (fun k => Reader.findNode k key) r2 (.ok n, r2) := by
  obtain ⟨m, s', e1, hi', _, hA, haf⟩ := findNode_good hg (h1.rInv hg (ho.rInv hg)).1 key
  have he' : Run.Ends (fun k => Reader.findNode k key) r1 (.ok m, { r1 with h := s' }) := by
    refine ⟨key.d.toNat + 2, fun k hk => ?_⟩
    show (HReader.findNode k key r1.h).map _ = _
    rw [e1 k hk]
    rfl
  cases he.unique he'
  refine onHier_still ⟨1, fun k hk => ?_⟩
  obtain ⟨k', rfl⟩ : ∃ k', k = k' + 1 := ⟨k - 1, by omega⟩
  exact find_still hg hi' hA haf k'

/-- After `GetAllNodes` every page has been read, and no lookup or listing touches the reader (so neither the
file) any more. -/
theorem C37_cached (hg : GoodHierarchy data ps) (ho : Opened data ps r) (h1 : Asked L r l r1) {ord : ROrder}
    {ns : List Node} (he : Run.Ends (fun k => Reader.getAllNodes ord k) r1 (.ok ns, r2)) :
    (∀ key, ∃ n, Run.Ends (fun k => Reader.findNode k key) r2 (.ok n, r2)) ∧
    (∀ ord' key, ∃ ms, Run.Ends (fun k => Reader.getAllChildrenOfPage ord' k key) r2 (.ok ms, r2)) ∧
    (∀ ord', ∃ ms, Run.Ends (fun k => Reader.getAllNodes ord' k) r2 (.ok ms, r2)) ∧
    (∀ ord', ∃ ks, Run.Ends (fun k => Reader.getPageList ord' k) r2 (.ok ks, r2)) := by
  obtain ⟨n0, ms, s', e1, hi', _, _, hall⟩ := allNodes_good hg (h1.rInv hg (ho.rInv hg)).1 ord
  have he' : Run.Ends (fun k => Reader.getAllNodes ord k) r1 (.ok ms, { r1 with h := s' }) := by
    refine ⟨n0, fun k hk => ?_⟩
    show (HReader.getAllNodes ord k r1.h).map _ = _
    rw [e1 k hk]
    rfl
  cases he.unique he'
  have hfind : ∀ key, ∃ n, Answer ps key n ∧ ∀ k, HReader.findNode (k + 1) key s' = some (.ok n, s') := by
    intro key
    obtain ⟨n, _, _, _, _, hA, _⟩ := findNode_good hg hi' key
    exact ⟨n, hA, fun k => find_still hg hi' hA (after_all hall hA) k⟩
  have hch : ∀ (ord' : ROrder) (key : VoxelKey), ∃ ms, ∃ n0, ∀ k, n0 ≤ k →
      HReader.getAllChildrenOfPage ord' k key s' = some (.ok ms, s') := by
    intro ord' key
    obtain ⟨n1, ms', s2, e2, _⟩ := children_good hg hi' ord' key
    refine ⟨ms', n1, fun k hk => ?_⟩
    have h3 := e2 k hk
    have : s2 = s' := by
      unfold HReader.getAllChildrenOfPage at h3
      split at h3
      · cases h3; rfl
      · obtain ⟨n, hA, hf⟩ := hfind key
        cases k with
        | zero => rw [Run.bind_apply, HReader.findNode] at h3; cases h3
        | succ k =>
          rw [Run.bind_ok (hf k)] at h3
          unfold HReader.childrenFrom at h3
          cases hs : AList.get key s'.hier.seen with
          | none => rw [hs] at h3; cases h3; rfl
          | some id =>
            rw [hs] at h3
            obtain ⟨p, hp, _⟩ := hi'.get_seen.1 hs
            exact load_still hg ord' hi' _ _ p _ _ hp (fun k hk _ => hall k hk) h3
    rw [h3, this]
  refine ⟨fun key => ?_, fun ord' key => ?_, fun ord' => ?_, fun ord' => ?_⟩
  · obtain ⟨n, _, hf⟩ := hfind key
    refine ⟨n, onHier_still ⟨1, fun k hk => ?_⟩⟩
    obtain ⟨k', rfl⟩ : ∃ k', k = k' + 1 := ⟨k - 1, by omega⟩
    exact hf k'
  · obtain ⟨ms, n0, h⟩ := hch ord' key
    exact ⟨ms, onHier_still ⟨n0, h⟩⟩
  · obtain ⟨ms, n0, h⟩ := hch ord' VoxelKey.root
    exact ⟨ms, onHier_still ⟨n0, h⟩⟩
  · obtain ⟨ms, n0, h⟩ := hch ord' VoxelKey.root
    refine ⟨(ord'.seen s'.hier.seen).filterMap fun e => (s'.hier.heap[e.2]?).map (·.key),
      onHier_still ⟨n0, fun k hk => ?_⟩⟩
    unfold HReader.getPageList
    exact (Run.bind_ok (h k hk)).trans rfl

/-- `GetAllChildrenOfPage`, whatever was asked before: nothing for an invalid key; for the key of a page the
nodes of that page and of the pages below it, each once, provided that a node with that key, if any, lies in
that page or in the page that refers to it; for any other key the node with that key, if any. -/
theorem C38_children_partial (hg : GoodHierarchy data ps) (ho : Opened data ps r) (h1 : Asked L r l r1)
    (ord : ROrder) (key : VoxelKey)
    (hc : ∀ m, NodeOf ps m → m.key = key → key ∈ ps.map (·.key) →
      m.pageKey = key ∨ IsParentPage (ps.map (·.key)) key m.pageKey) :
    ∃ ns r2, Run.Ends (fun k => Reader.getAllChildrenOfPage ord k key) r1 (.ok ns, r2) ∧
      (¬Valid key → ns = []) ∧
      (Valid key → key ∈ ps.map (·.key) → ListsPage ps key ns) ∧
      (Valid key → key ∉ ps.map (·.key) → ListsNode ps key ns) := by
  obtain ⟨n, ns, s', e1, _, _, g1, g2⟩ := children_good hg (h1.rInv hg (ho.rInv hg)).1 ord key
  refine ⟨ns, { r1 with h := s' }, ⟨n, fun k hk => ?_⟩, g1, fun hv hk => ?_, fun hv hk => ?_⟩
  · show (HReader.getAllChildrenOfPage ord k key r1.h).map _ = _
    rw [e1 k hk]
    rfl
  · rcases g2 hv with ⟨_, h, _⟩ | ⟨_, h⟩
    · exact h
    · obtain ⟨m, hm, hmk, hne, hnp⟩ := h hk
      rcases hc m hm hmk hk with h | h
      · exact absurd h hne
      · exact absurd h hnp
  · rcases g2 hv with ⟨h, _⟩ | ⟨h, _⟩
    · exact absurd h hk
    · exact h

end

/-! ### A page that refers to its own key -/

/-- The page entry of a root page that refers to itself. -/
def selfEntry (off : Nat) : Entry := ⟨VoxelKey.root, off, 32, -1⟩

theorem self_diverges {data : Bytes} {off : Nat} (hl : data.length < 2 ^ 63)
    (h : HasEntries data off 32 [selfEntry off]) : ∀ (fuel : Nat) (s : HReader), s.str.data = data →
    s.str.fail = false → s.hier.nodes = [] → AList.get VoxelKey.root s.hier.seen = some (s.hier.heap.length - 1) →
    s.hier.heap[s.hier.heap.length - 1]? = some ⟨VoxelKey.root, off, 32, false, [], []⟩ →
    HReader.findNode fuel VoxelKey.root s = none := by
  have hlen : off + 32 ≤ data.length := by
    have := congrArg List.length h.2
    simp only [List.flatMap_cons, List.flatMap_nil, List.append_nil, Entry.length_pack] at this
    unfold slice at this
    rw [List.length_take, List.length_drop] at this
    omega
  have hr : Entry.InRange (selfEntry off) := by
    refine ⟨show VoxelKey.root.InRange by decide, show off < 2 ^ 64 by omega, show InI32 32 by decide,
      show InI32 (-1) by decide⟩
  intro fuel
  induction fuel with
  | zero => intros; rfl
  | succ n ih =>
    intro s h1 h2 h3 h4 h5
    rw [HReader.findNode]
    have hn : s.hier.nearest (VoxelKey.root.getParents true) = some (s.hier.heap.length - 1) := by
      unfold RHier.nearest
      rw [show VoxelKey.root.getParents true = [VoxelKey.root] by decide +kernel, List.findSome?_cons, h4]
    simp only [h3, AList.get, hn, h5]
    rw [if_neg (by simp), Run.bind_apply]
    obtain ⟨str', hread, hd', hf'⟩ := readPage_good (q := ⟨VoxelKey.root, off, 32, []⟩) h1 h2
      (show off < 2 ^ 63 by omega) (es := [selfEntry off])
      (by simp only [List.mem_singleton]; rintro e rfl; exact ⟨hr, by rfl⟩) h
    have hparse : HReader.readAndParsePage (s.hier.heap.length - 1) s =
        (.ok (), { str := str'
                   hier := RHier.addEntry (s.hier.heap.length - 1)
                    { s.hier with heap := s.hier.heap.modify (s.hier.heap.length - 1) fun p => { p with loaded := true } }
                    (selfEntry off) }) := by
      unfold HReader.readAndParsePage
      rw [h5]
      have hv : RPage.isValid ⟨VoxelKey.root, off, 32, false, [], []⟩ = true := by rfl
      have hread' : readPage s.str true off 32 = _ := hread
      simp only [hv, hread']
      rfl
    rw [Run.ofAct_apply, hparse]
    refine ih _ hd' hf' ?_ ?_ ?_
    · unfold RHier.addEntry
      rw [if_pos (by rfl)]
      exact h3
    · unfold RHier.addEntry
      rw [if_pos (by rfl)]
      simp only [List.length_append, List.length_modify, List.length_singleton, Nat.add_sub_cancel]
      rw [AList.get_put, if_pos (by rfl)]
    · unfold RHier.addEntry
      rw [if_pos (by rfl)]
      simp only [List.length_append, List.length_modify, List.length_singleton, Nat.add_sub_cancel]
      rw [List.getElem?_append_right (by simp)]
      simp
      rfl

/-- A file with one node, whose root page is then made to refer to itself. -/
def selfFile : Bytes :=
  let data := (Writer.close Sample.L Sample.ord
    (Op.run Sample.L Sample.ord (.addCompressed VoxelKey.root [1, 2, 3] 5 VoxelKey.root) Sample.w0).2).2.base.out.data
  data.take 1618 ++ ((selfEntry 1618).pack ++ data.drop 1650)

/-- What decides about lookups on an opened file: place and size of the root page. -/
def rootOf (x : Res Reader) : Option (UInt64 × UInt64 × Bool) := match x with
  | .ok r => some (r.cfg.info.rootHierOffset, r.cfg.info.rootHierSize, r.h.str.fail)
  | _ => none

theorem selfFile_facts : rootOf (Reader.init ⟨selfFile, 0, false⟩) = some (1618, 32, false) ∧
    selfFile.length < 2 ^ 63 ∧ slice selfFile 1618 32 = (selfEntry 1618).pack :=
  ⟨by decide +kernel, by decide +kernel, by decide +kernel⟩

/-- On a file whose root page has an entry for a page with its own key, `FindNode` does not return: the page
is read again and again. -/
theorem C37_self_page_diverges : ∃ r, Reader.init ⟨selfFile, 0, false⟩ = .ok r ∧ r.h.str.fail = false ∧
    Run.Diverges (fun k => Reader.findNode k VoxelKey.root) r := by
  obtain ⟨h1, h2, h3⟩ := selfFile_facts
  cases hr : Reader.init ⟨selfFile, 0, false⟩ with
  | throw e => rw [hr] at h1; cases h1
  | ub => rw [hr] at h1; cases h1
  | ok r =>
    rw [hr] at h1
    have h1' := Option.some.inj h1
    simp only [Prod.mk.injEq] at h1'
    obtain ⟨a, b, c⟩ := h1'
    obtain ⟨f1, f2⟩ := init_facts hr
    refine ⟨r, rfl, c, fun n => ?_⟩
    show (HReader.findNode n VoxelKey.root r.h).map _ = none
    rw [self_diverges (off := 1618) h2 ⟨rfl, by rw [h3]; simp⟩ n r.h f1 c]
    · rfl
    · rw [f2]; rfl
    · rw [f2]; rfl
    · rw [f2, a, b]; rfl

/-! ### The sample file -/

/-- `C36`, `C37` and `C38` apply to the file of the sample. -/
example : ∃ ps r, GoodHierarchy (Writer.close Sample.L Sample.ord Sample.w).2.base.out.data ps ∧
    Opened (Writer.close Sample.L Sample.ord Sample.w).2.base.out.data ps r ∧
    (∀ m, NodeOf ps m ↔ ∃ n ∈ addedNodes Sample.hist, m = reported Sample.hist n) := by
  obtain ⟨ps, r, h1, h2, _, h4, _⟩ := sample_written.facts
  exact ⟨ps, r, h1, h4, h2⟩

/-! ### C38 fails in general -/

/-- A child of `Sample.kB`. -/
def kC : VoxelKey := ⟨3, 4, 2, 6⟩

/-- Node `kB` in the root page, page `kB` below page `kA`. -/
def skipOps : List Op := [.addCompressed Sample.kA [1] 1 Sample.kA,
  .addCompressed Sample.kB [2, 3] 1 VoxelKey.root, .addCompressed kC [4, 5, 6] 1 Sample.kB]

def skipRun : List (Op × Res (Option Node)) × Writer := Sample.run Sample.L Sample.ord skipOps Sample.w0 []
def skipClosed : Res Unit × Writer := Writer.close Sample.L Sample.ord skipRun.2

theorem skip_outcomes : skipRun.1.map (·.2) =
    [.ok (some ⟨⟨Sample.kA, 1531, 1, 1⟩, Sample.kA⟩), .ok (some ⟨⟨Sample.kB, 1532, 2, 1⟩, VoxelKey.root⟩),
     .ok (some ⟨⟨kC, 1534, 3, 1⟩, Sample.kB⟩)] := by decide +kernel
theorem skip_closes : skipClosed.1 = .ok () := by decide +kernel

theorem skip_added : addedNodes skipRun.1 = [⟨⟨Sample.kA, 1531, 1, 1⟩, Sample.kA⟩,
    ⟨⟨Sample.kB, 1532, 2, 1⟩, VoxelKey.root⟩, ⟨⟨kC, 1534, 3, 1⟩, Sample.kB⟩] := by
  have : addedNodes skipRun.1 = (skipRun.1.map (·.2)).filterMap (fun x => match x with
      | .ok r => r
      | _ => none) := by
    rw [List.filterMap_map]; rfl
  rw [this, skip_outcomes]
  rfl

theorem skip_unmoved (k : VoxelKey) : movedTo skipRun.1 k = [] := by
  have e : ∀ l : List (Op × Res (Option Node)), l = (l.map (·.1)).zip (l.map (·.2)) := by
    intro l
    induction l with
    | nil => rfl
    | cons a l ih => rw [List.map_cons, List.map_cons, List.zip_cons_cons, ← ih]
  have e3 : skipRun.1.map (·.1) = skipOps := by rfl
  rw [e skipRun.1, e3, skip_outcomes]
  simp [skipOps, movedTo]

theorem skip_history : History Sample.L Sample.ord Sample.w0 skipRun.1 skipRun.2 :=
  Sample.run_history skipOps Sample.w0 [] .start (by
    intro x hx
    have hm : x.2 ∈ skipRun.1.map (·.2) := List.mem_map_of_mem hx
    rw [skip_outcomes] at hm
    intro he
    rw [he] at hm
    simp at hm)

theorem skip_unclosed : Unclosed skipRun.1 := by
  have h : skipRun.1.map (·.1) = skipOps := by rfl
  intro x hx
  have hm : x.1 ∈ skipRun.1.map (·.1) := List.mem_map_of_mem hx
  rw [h] at hm
  intro he
  rw [he] at hm
  simp [skipOps] at hm

theorem skip_storable : Storable skipRun.2.cfg := by
  have h1 : (skipRun.2.cfg.header, skipRun.2.cfg.wkt, skipRun.2.cfg.eb) =
      (Sample.w.cfg.header, Sample.w.cfg.wkt, Sample.w.cfg.eb) := by decide +kernel
  have h2 : (skipRun.2.cfg.info, skipRun.2.cfg.extents) = (Sample.w.cfg.info, Sample.w.cfg.extents) := by
    decide +kernel
  have : skipRun.2.cfg = Sample.w.cfg := by
    generalize skipRun.2.cfg = a at *
    generalize Sample.w.cfg = b at *
    obtain ⟨⟨_, _, _⟩, _, _⟩ := a
    obtain ⟨⟨_, _, _⟩, _, _⟩ := b
    cases h1
    cases h2
    rfl
  rw [this]
  exact sample_storable

theorem skip_written : Written Sample.L Sample.ord Sample.w0 skipRun.2 skipRun.1 skipClosed.2.base.out.data where
  made := ⟨_, _, Sample.made⟩
  history := skip_history
  unclosed := skip_unclosed
  closed := ⟨skipClosed.2, by rw [← skip_closes]; rfl, rfl⟩
  distinct := by unfold DistinctKeys; rw [skip_added]; decide
  once := by intro k; rw [skip_unmoved]; simp
  counted := by unfold Counted; rw [skip_added]; decide
  storable := skip_storable
  size := by decide +kernel
  few := by decide +kernel

/-- The list a call returns, `none` if it does not. -/
def listed {σ : Type} (x : Option (Res (List Node) × σ)) : Option (List Node) := match x with
  | some (.ok l, _) => some l
  | _ => none

def skipReader : Option Reader := match Reader.init ⟨skipClosed.2.base.out.data, 0, false⟩ with
  | .ok r => some r
  | _ => none

/-- The answers for `kB` before and after listing all nodes. -/
theorem skip_answers :
    skipReader.map (fun r => listed (Reader.getAllChildrenOfPage ROrder.plain 10 Sample.kB r)) =
      some (some [⟨⟨Sample.kB, 1532, 2, 1⟩, VoxelKey.root⟩]) ∧
    skipReader.map (fun r => listed ((Reader.getAllNodes ROrder.plain 10 >>= fun _ =>
      Reader.getAllChildrenOfPage ROrder.plain 10 Sample.kB) r)) =
      some (some [⟨⟨kC, 1534, 3, 1⟩, Sample.kB⟩]) :=
  ⟨by decide +kernel, by decide +kernel⟩

theorem listed_some {σ : Type} {x : Option (Res (List Node) × σ)} {l : List Node} (h : listed x = some l) :
    ∃ s, x = some (.ok l, s) := by
  unfold listed at h
  split at h
  · next l' s => cases h; exact ⟨s, rfl⟩
  · cases h

/-- There is a file written by the library, with a good hierarchy, and a page of it, for which
`GetAllChildrenOfPage` on a fresh reader does not list the nodes of the page and the pages below it, and
gives another answer once `GetAllNodes` has been called. -/
theorem C38_violated : ∃ data ps r key, Written Sample.L Sample.ord Sample.w0 skipRun.2 skipRun.1 data ∧
    GoodHierarchy data ps ∧ Opened data ps r ∧ Valid key ∧ key ∈ ps.map (·.key) ∧
    ∃ l1 r1 a rA l2 r2,
      Run.Ends (fun k => Reader.getAllChildrenOfPage ROrder.plain k key) r (.ok l1, r1) ∧
      Run.Ends (fun k => Reader.getAllNodes ROrder.plain k) r (.ok a, rA) ∧
      Run.Ends (fun k => Reader.getAllChildrenOfPage ROrder.plain k key) rA (.ok l2, r2) ∧
      ¬ListsPage ps key l1 ∧ ¬l1.Perm l2 := by
  obtain ⟨ps, r, g1, g2, g3, g4, _⟩ := skip_written.facts
  have hC : NodeOf ps ⟨⟨kC, 1534, 3, 1⟩, Sample.kB⟩ := by
    refine (g2 _).2 ⟨⟨⟨kC, 1534, 3, 1⟩, Sample.kB⟩, by rw [skip_added]; simp, ?_⟩
    unfold reported finalPage
    rw [skip_unmoved]
    rfl
  obtain ⟨q, hq, hqn⟩ := hC
  have hqk : q.key = Sample.kB := by
    obtain ⟨e, _, he⟩ := List.mem_map.1 hqn
    exact congrArg Node.pageKey he
  obtain ⟨a1, a2⟩ := skip_answers
  have hr : skipReader = some r := by
    unfold skipReader
    rw [g4.init]
  rw [hr] at a1 a2
  obtain ⟨r1, e1⟩ := listed_some (Option.some.inj a1)
  obtain ⟨r2, e2⟩ := listed_some (Option.some.inj a2)
  rw [Run.bind_apply] at e2
  cases hA : Reader.getAllNodes ROrder.plain 10 r with
  | none => rw [hA] at e2; cases e2
  | some p =>
    obtain ⟨res, rA⟩ := p
    rw [hA] at e2
    cases res with
    | throw e => cases e2
    | ub => cases e2
    | ok a =>
      refine ⟨_, ps, r, Sample.kB, skip_written, g1, g4, by decide, List.mem_map.2 ⟨q, hq, hqk⟩,
        _, r1, a, rA, _, r2, Reader.children_ends e1, Reader.children_ends hA, Reader.children_ends e2, ?_, ?_⟩
      · intro hl
        have := (hl.2 _).2 ⟨q, hq, by rw [hqk]; exact below_refl (by decide), hqn⟩
        simp [kC, Sample.kB] at this
      · intro hp
        have := hp.mem_iff (a := ⟨⟨kC, 1534, 3, 1⟩, Sample.kB⟩)
        simp [kC, Sample.kB] at this

end Copc
