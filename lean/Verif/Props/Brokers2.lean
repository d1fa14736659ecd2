import Verif.Props.Brokers

/-!
# C33-C35, C92-C95: cases, and where brokers.go falls short
-/

namespace Healer

open Brokers

variable {W : Type}

/-! ## A cluster to try things on

The state counts the operations done so far; a new broker object gets that number. -/

/-- A network given by what happens at each step. -/
def demoNet (refuse : Bytes → Bool) (answer : Nat → Nat → MetadataResponse × Option Err)
    (groups : Nat → List ListedGroup) : Net Nat where
  connect a _ w := (if refuse a then .error .timeout else .ok w, w + 1)
  metadata h _ w := (answer h w, w + 1)
  offsets h _ ps w := ((⟨0, 0, [([116], ps.map fun p => ⟨p, 0, [], 0, Int64.ofNat h⟩)]⟩, none), w + 1)
  coordinator _ _ w := ((⟨0, 0, 1, [97], 1⟩, none), w + 1)
  listGroups h w := ((some ⟨⟨16, 0, 0, 0, none⟩, 0, 0, groups h, none⟩, none), w + 1)
  shuffle l w := (l.reverse, w)
  shuffle_perm l _ := l.reverse_perm

/-- node `n` at host `h`, port 1 -/
def demoInfo (n : Int32) (h : UInt8) : BrokerInfo := ⟨n, [h], 1, []⟩

/-- partition `p` led by `l` -/
def demoPart (p l : Int32) : PartitionMetadataInfo := ⟨0, p, l, 0, [], [], []⟩

/-- nodes 1 at a:1 and 2 at b:1; topic "t" with three partitions -/
def demoMeta : MetadataResponse :=
  ⟨0, 0, [demoInfo 1 97, demoInfo 2 98], [], 1, [⟨0, [116], false, [demoPart 0 2, demoPart 1 1, demoPart 2 2]⟩]⟩

/-- node 1 has moved to c:1 -/
def demoMoved : MetadataResponse := ⟨0, 0, [demoInfo 1 99, demoInfo 2 98], [], 1, []⟩

/-- everything answers -/
def goodNet : Net Nat := demoNet (fun _ => false) (fun _ _ => (demoMeta, none)) (fun _ => [⟨[103], [], [], [], none⟩])

/-- b:1 cannot be reached -/
def halfNet : Net Nat := demoNet (fun a => a = [98, 58, 49]) (fun _ _ => (demoMeta, none)) (fun _ => [])

/-- after the first answer nothing can be asked any more -/
def deadNet : Net Nat :=
  demoNet (fun a => a = [98, 58, 49]) (fun _ w => if w = 0 then (demoMeta, none) else (demoMeta, some .eof)) (fun _ => [])

/-- node 1 moves after the first answer -/
def movingNet : Net Nat :=
  demoNet (fun _ => false) (fun _ w => if w = 0 then (demoMeta, none) else (demoMoved, none)) (fun _ => [])

/-- metadata without topics -/
def emptyNet : Net Nat :=
  demoNet (fun _ => false) (fun _ _ => (⟨0, 0, [demoInfo 1 97], [], 1, []⟩, none)) (fun _ => [])

/-- brokers made from a:1, object 0 -/
def demoBrokers (net : Net Nat) : Brokers Nat :=
  match fromOne net [[97, 58, 49]] [97, 58, 49] 0 0 with
  | .ok b => b
  | .error _ => ⟨[], [], [], 0, 0, []⟩

example : (demoBrokers goodNet).infos.keys = [1, 2] := by decide +kernel
example : (demoBrokers goodNet).cache = [(1, (0, -1))] := by decide +kernel

/-! ## Cases of C33-C35 -/

/-- what was done, without answers -/
def Done.brief : Done → String × Nat × Int32 × Bytes
  | .connected a n h => ("connected", h, n, a)
  | .connectFailed a n _ => ("refused", 0, n, a)
  | .closed h => ("closed", h, 0, [])
  | .metadata h _ _ => ("metadata", h, 0, [])
  | .offsets h _ ps _ => ("offsets", h, Int32.ofNat ps.length, [])
  | .coordinator h _ => ("coordinator", h, 0, [])
  | .listGroups h _ => ("listGroups", h, 0, [])

/-- C33: node 2 is connected to once, although it is looked up three times. -/
example : ((runOps goodNet [.get 2, .offsets [116] (-1), .get 2] (demoBrokers goodNet)).log.map Done.brief) =
    [("metadata", 0, 0, []), ("connected", 1, 2, [98, 58, 49]), ("metadata", 1, 0, []), ("offsets", 0, 1, []),
      ("offsets", 1, 2, [])] := by decide +kernel

example : (getBroker goodNet 2 (demoBrokers goodNet)).1.toOption = some (1, 2) := by decide +kernel
example : (getBroker goodNet 2 (runOps goodNet [.get 2, .refresh, .listGroups] (demoBrokers goodNet))).1.toOption =
    some (1, 2) := by decide +kernel

/-- C34: node 2 cannot be reached, so node 1 is asked. -/
example : (requestMetaData halfNet [[116]] (demoBrokers halfNet)).1 = (demoMeta, none) ∧
    (requestMetaData halfNet [[116]] (demoBrokers halfNet)).2.log.map Done.brief =
      [("metadata", 0, 0, []), ("refused", 0, 2, [98, 58, 49]), ("metadata", 0, 0, [])] := by decide +kernel

/-- C34: both fail. -/
example : (requestMetaData deadNet [[116]] (demoBrokers deadNet)).1.2 = some .noAvailableBrokers ∧
    (requestMetaData deadNet [[116]] (demoBrokers deadNet)).2.log.map Done.brief =
      [("metadata", 0, 0, []), ("refused", 0, 2, [98, 58, 49]), ("metadata", 0, 0, [])] := by decide +kernel

/-- C35: two requests, partitions 0 and 2 at node 2, partition 1 at node 1. -/
example : (requestOffsets goodNet [116] (-1) (demoBrokers goodNet)).2.asked.map (fun q => (q.1, q.2.2.1)) =
    [(0, [1]), (1, [0, 2])] := by decide +kernel

/-- C35: partition 1 alone: its leader is asked. -/
example : (requestOffsets goodNet [116] 1 (demoBrokers goodNet)).2.asked.map (fun q => (q.1, q.2.2.1)) = [(0, [1])] ∧
    (requestOffsets goodNet [116] 7 (demoBrokers goodNet)).2.asked.length = 0 := by decide +kernel

/-! ## C92: a node that moved -/

/-- C92: a node without a cached connection is connected to at the address now known for it.
Missing: cached connections (`C92_violated_cached`). -/
theorem C92_new_connection_partial (net : Net W) (n : Int32) (b : Brokers W) (i : BrokerInfo)
    (hi : b.infos.get n = some i) (hc : b.cache.get n = none) :
    ∃ d, (getBroker net n b).2.log = b.log ++ [d] ∧
      ((∃ h, d = .connected i.netAddress i.nodeID h ∧ (getBroker net n b).1 = .ok (h, i.nodeID)) ∨
        ∃ e, d = .connectFailed i.netAddress i.nodeID e) := by
  unfold getBroker
  rw [hc]
  simp only
  rw [ensureKnown, hi]
  simp only
  unfold createBroker
  rw [hi]
  simp only
  obtain ⟨d, h1, h2, h3, h4⟩ := connect_quiet net i.netAddress i.nodeID b
  revert h1 h2 h3 h4
  rcases Brokers.connect net i.netAddress i.nodeID b with ⟨_ | h, b1⟩ <;> intro h1 h2 h3 h4
  · rcases h4 with ⟨h, h4, h5⟩ | ⟨e, h4, h5⟩
    · cases h4
    · exact ⟨d, h1, .inr ⟨e, h5⟩⟩
  · rcases h4 with ⟨h', h4, h5⟩ | ⟨e, h4, h5⟩
    · cases h4
      exact ⟨d, h1, .inl ⟨h, h5, rfl⟩⟩
    · cases h4

example : (getBroker movingNet 2 (demoBrokers movingNet)).2.log.map Done.brief =
    [("metadata", 0, 0, []), ("connected", 1, 2, [98, 58, 49])] := by decide +kernel

/-- C92 does not hold for nodes already connected to: node 1 is known to have moved from a:1 to c:1, and still the
object connected to a:1 is handed out. -/
theorem C92_violated_cached : ∃ (net : Net Nat) (b b' : Brokers Nat), fromOne net [[97, 58, 49]] [97, 58, 49] 0 0 = .ok b ∧
    b' = runOps net [.refresh] b ∧ (b'.infos.get 1).map BrokerInfo.netAddress = some [99, 58, 49] ∧
    (getBroker net 1 b').1.toOption = some (0, -1) ∧ (getBroker net 1 b').2.log.length = b'.log.length := by
  refine ⟨movingNet, demoBrokers movingNet, _, rfl, rfl, ?_⟩
  decide +kernel

/-! ## C93: no crash -/

/-- C93: `RequestOffsets` crashes exactly if the cluster answers a metadata request without error and without
topics.
Missing: that this does not happen (`C93_violated`). -/
theorem C93_offsets_partial (net : Net W) (t : Bytes) (p : Int32) (b : Brokers W) :
    (requestOffsets net t p b).1 = .panic ↔
      (requestMetaData net [t] b).1.2 = none ∧ (requestMetaData net [t] b).1.1.topics = [] := by
  have hof : ∀ {α} (x : Except Err α), Out.ofExcept x ≠ .panic := by intro α x; cases x <;> simp [Out.ofExcept]
  unfold requestOffsets
  rcases requestMetaData net [t] b with ⟨⟨r, _ | e⟩, b1⟩
  · simp only [true_and]
    cases r.topics with
    | nil => simp
    | cons t' _ =>
      simp only [reduceCtorEq, iff_false]
      split
      · exact hof _
      · exact hof _
  · simp

/-- C93 does not hold. -/
theorem C93_violated : ∃ (net : Net Nat) (b : Brokers Nat), fromOne net [[97, 58, 49]] [97, 58, 49] 0 0 = .ok b ∧
    (requestOffsets net [116] 0 b).1 = .panic ∧ (findLeader net [116] 0 b).1 = .panic :=
  ⟨emptyNet, demoBrokers emptyNet, rfl, by decide +kernel, by decide +kernel⟩

example : (requestOffsets goodNet [116] 2 (demoBrokers goodNet)).2.asked.map (fun q => (q.1, q.2.2.1)) = [(1, [2])] := by
  decide +kernel

/-! ## C94: groups under the node that listed them -/

/-- the objects know the node they are kept for -/
def CacheOk (b : Brokers W) : Prop := ∀ n h, b.cache.get n = some h → h.2 = n

theorem Looks.cacheOk {b b' : Brokers W} (h : Looks b b') (hc : CacheOk b) : CacheOk b' := by
  intro n x hx
  rw [h.cache] at hx
  exact hc n x hx

theorem getBroker_cacheOk (net : Net W) (n : Int32) (b : Brokers W) (hi : InfosOk b.infos) (h : CacheOk b) :
    CacheOk (getBroker net n b).2 := by
  unfold getBroker
  cases hc : b.cache.get n with
  | some x => exact h
  | none =>
    simp only
    have h1 := (ensureKnown_looks net n b).infos hi
    have h2 := (ensureKnown_looks net n b).cacheOk h
    generalize ensureKnown net n b = b1 at h1 h2
    unfold createBroker
    cases hg : b1.infos.get n with
    | none => exact h2
    | some i =>
      have hn : i.nodeID = n := h1.key (n, i) (AMap.mem_of_get_eq_some _ _ _ hg)
      simp only
      have h3 := (connect_looks net i.netAddress i.nodeID b1).cacheOk h2
      revert h3
      rcases Brokers.connect net i.netAddress i.nodeID b1 with ⟨_ | x, b2⟩ <;> intro h3
      · exact h3
      · intro m y hy
        change (b2.cache.set n (x, i.nodeID)).get m = some y at hy
        rw [AMap.get_set] at hy
        split at hy
        · cases hy
          rename_i hm
          exact hn.trans hm.symm
        · exact h3 m y hy

/-- Every entry of the listing holds what the broker kept for that node answered. -/
def ListedBy (b : Brokers W) (m : AMap Int32 (List ListedGroup)) : Prop :=
  ∀ n gs, m.get n = some gs → ∃ h r, (.listGroups h (some r, none)) ∈ b.log ∧ r.groups = gs ∧ b.object n = some h

theorem ListedBy.grows {b b' : Brokers W} {m : AMap Int32 (List ListedGroup)} (h : ListedBy b m) (hg : Grows b b') :
    ListedBy b' m := by
  intro n gs hn
  obtain ⟨x, r, h1, h2, h3⟩ := h n gs hn
  obtain ⟨ext, hl⟩ := hg.log
  refine ⟨x, r, by rw [hl]; exact List.mem_append.2 (.inl h1), h2, ?_⟩
  unfold Brokers.object at h3 ⊢
  cases hc : b.cache.get n with
  | none => rw [hc] at h3; cases h3
  | some y => rw [hc] at h3; rw [hg.cache n y hc]; exact h3

theorem listGroupsLoop_listed (net : Net W) (is : List BrokerInfo) (acc : AMap Int32 (List ListedGroup)) (b : Brokers W)
    (hi : InfosOk b.infos) (hc : CacheOk b) (ha : ListedBy b acc) :
    ListedBy (listGroupsLoop net is acc b).2 (listGroupsLoop net is acc b).1.1 := by
  induction is generalizing b acc with
  | nil => exact ha
  | cons i is ih =>
    have h1 := getBroker_grows net i.nodeID b
    have h0 := (getBroker_spec net i.nodeID b).2
    have hc1 := getBroker_cacheOk net i.nodeID b hi hc
    unfold listGroupsLoop
    revert h1 h0 hc1
    rcases getBroker net i.nodeID b with ⟨_ | h, b1⟩ <;> intro h1 h0 hc1
    · exact ha.grows h1
    · have hl := askListGroups_looks net h.1 b1
      have h2 := ha.grows (h1.trans hl.grows)
      have hlog : (.listGroups h.1 (askListGroups net h.1 b1).1) ∈ (askListGroups net h.1 b1).2.log := by
        simp [askListGroups]
      have hi2 := hl.infos (h1.infos hi)
      have hc2 := hl.cacheOk hc1
      have hob : (askListGroups net h.1 b1).2.object i.nodeID = some h.1 := by
        have := h0 h rfl
        rw [Brokers.object, hl.cache, this]
        rfl
      have hid : h.2 = i.nodeID := hc1 _ _ (h0 h rfl)
      simp only
      revert h2 hlog hi2 hc2 hob
      rcases askListGroups net h.1 b1 with ⟨⟨_ | r, _ | e⟩, b2⟩ <;> intro h2 hlog hi2 hc2 hob
      · exact h2
      · exact h2
      · refine ih _ b2 hi2 hc2 ?_
        split
        · exact h2
        · intro n gs hn
          rw [AMap.get_set] at hn
          split at hn
          · rename_i he
            cases hn
            exact ⟨h.1, r, hlog, rfl, by rw [he, hid]; exact hob⟩
          · exact h2 n gs hn
      · exact h2

/-- C94: if the broker objects know their node ids, every entry of the result of `ListGroups` holds what the broker
of that node answered.
Missing: bootstrap objects, which do not (`C94_violated_bootstrap`). -/
theorem C94_own_node_partial (net : Net W) (b : Brokers W) (hi : InfosOk b.infos) (hc : CacheOk b) :
    ListedBy (listGroups net b).2 (listGroups net b).1.1 :=
  listGroupsLoop_listed net _ [] _ hi hc (fun _ _ h => by cases h)

/-- a state as in `C94_own_node_partial`: no bootstrap address equals that of a node -/
def otherBrokers (net : Net Nat) : Brokers Nat :=
  match fromOne net [[122, 58, 49]] [122, 58, 49] 0 0 with
  | .ok b => b
  | .error _ => ⟨[], [], [], 0, 0, []⟩

example : CacheOk (otherBrokers goodNet) := fun n h hh => by
  have : (otherBrokers goodNet).cache = [] := by decide +kernel
  rw [this] at hh
  cases hh

example : (listGroups goodNet (otherBrokers goodNet)).1.1.map (fun e => (e.1, e.2.length)) = [(2, 1), (1, 1)] := by
  decide +kernel

/-- C94 does not hold when a node was reached under its bootstrap address: its groups are listed under node -1,
which is no node of the cluster. -/
theorem C94_violated_bootstrap : ∃ (net : Net Nat) (b : Brokers Nat), fromOne net [[97, 58, 49]] [97, 58, 49] 0 0 = .ok b ∧
    b.infos.keys = [1, 2] ∧ (listGroups net b).1.1.keys = [2, -1] ∧ (listGroups net b).1.2 = none :=
  ⟨goodNet, demoBrokers goodNet, rfl, by decide +kernel, by decide +kernel, by decide +kernel⟩

/-! ## C95: connections made to refresh the metadata -/

/-- the broker object made -/
def Done.opens : Done → Option Nat
  | .connected _ _ h => some h
  | _ => none

/-- the broker object `h` was closed -/
def Done.closes (h : Nat) : Done → Bool
  | .closed h' => h' = h
  | _ => false

/-- Broker objects made and not closed. -/
def Brokers.open (b : Brokers W) : List Nat := (b.log.filterMap Done.opens).filter fun h => ¬ b.log.any (Done.closes h)

/-- C95 does not hold: a refresh with one bootstrap server leaves two connections open that nothing refers to. -/
theorem C95_violated : ∃ (net : Net Nat) (b : Brokers Nat), fromOne net [[97, 58, 49]] [97, 58, 49] 0 0 = .ok b ∧
    b.open = [] ∧ (runOps net [.refresh] b).open = [1, 3] ∧ (runOps net [.refresh] b).cache = b.cache :=
  ⟨goodNet, demoBrokers goodNet, rfl, by decide +kernel, by decide +kernel, by decide +kernel⟩

end Healer
