import Verif.Model.Client
import Verif.Props.Brokers2
import Verif.Props.Builders

/-!
# C79, C80, C113-C116: the admin client
-/

namespace Healer

open Brokers

variable {W : Type} (net : Net W)

/-! ## C79: deleting groups -/

/-- a broker has answered that the node coordinates something -/
def Brokers.coordinatorNamed (b : Brokers W) (node : Int32) : Prop :=
  ∃ k r, Done.coordinator k (r, none) ∈ b.log ∧ r.nodeID = node

theorem coordinatorLoop_named (g : Bytes) (is : List BrokerInfo) (b : Brokers W) (r : FindCoordinatorResponse)
    (h : (coordinatorLoop net g is b).1 = .ok r) : (coordinatorLoop net g is b).2.coordinatorNamed r.nodeID := by
  induction is generalizing b with
  | nil => cases h
  | cons i is ih =>
    unfold coordinatorLoop at h ⊢
    rcases hg : getBroker net i.nodeID b with ⟨_ | k, b1⟩
    · simp only [hg] at h ⊢
      exact ih b1 h
    · simp only [hg] at h ⊢
      rcases ha : askCoordinator net k.1 g b1 with ⟨⟨r1, _ | e⟩, b2⟩
      · simp only [ha] at h ⊢
        cases h
        refine ⟨k.1, r, ?_, rfl⟩
        have : b2.log = b1.log ++ [.coordinator k.1 (net.coordinator k.1 g b1.world).1] := by
          have := congrArg (fun x => x.2.log) ha
          exact this.symm
        have h2 : (net.coordinator k.1 g b1.world).1 = (r, none) := congrArg Prod.fst ha
        rw [this, h2]
        simp
      · simp only [ha] at h ⊢
        exact ih b2 h

theorem findCoordinator_named (g : Bytes) (b : Brokers W) (r : FindCoordinatorResponse)
    (h : (findCoordinator net g b).1 = .ok r) : (findCoordinator net g b).2.coordinatorNamed r.nodeID :=
  coordinatorLoop_named net g _ _ r h

theorem Brokers.coordinatorNamed.grows {b b' : Brokers W} {n : Int32} (h : b.coordinatorNamed n) (hg : Grows b b') : b'.coordinatorNamed n := by
  obtain ⟨k, r, hm, hr⟩ := h
  obtain ⟨ext, he⟩ := hg.log
  exact ⟨k, r, by rw [he]; exact List.mem_append_left _ hm, hr⟩

/-- What happened for a group: the node named as its coordinator, the broker object for it and the response. -/
structure GroupDeletion where
  group : Bytes
  node : Int32
  broker : Nat
  answer : DeleteGroupsResponse

/-- as it is logged -/
def GroupDeletion.log (d : GroupDeletion) : List Client.GroupDone := [.found d.group d.node, .asked d.node d.broker d.group (.ok d.answer)]

theorem world_grows (b : Brokers W) (w : W) : Grows b { b with world := w } :=
  ⟨fun _ _ h => h, ⟨[], by simp⟩, id, id, rfl⟩

theorem deleteGroupsLoop_ok (ask : Nat → Bytes → W → Except Err DeleteGroupsResponse × W) :
    ∀ (gs : List Bytes) (results : List (Bytes × Int16)) (log : List Client.GroupDone) (b : Brokers W) (rs : List (Bytes × Int16))
      (log' : List Client.GroupDone) (b' : Brokers W),
    Client.deleteGroupsLoop net ask gs results log b = ((.ok rs, log'), b') →
    Grows b b' ∧ ∃ ds : List GroupDeletion, ds.map GroupDeletion.group = gs ∧ log' = log ++ ds.flatMap GroupDeletion.log ∧
      rs = results ++ ds.flatMap (·.answer.results) ∧
      ∀ d ∈ ds, b'.coordinatorNamed d.node ∧ (∃ id, b'.cache.get d.node = some (d.broker, id)) ∧ d.answer.error = none ∧
        ∃ w, (ask d.broker d.group w).1 = .ok d.answer
  | [], results, log, b, rs, log', b', h => by
    cases h
    exact ⟨.refl _, [], rfl, by simp, by simp, by simp⟩
  | g :: gs, results, log, b, rs, log', b', h => by
    unfold Client.deleteGroupsLoop at h
    have hc1 := findCoordinator_named net g b
    have hc2 := findCoordinator_grows net g b
    rcases hc : findCoordinator net g b with ⟨_ | c, b1⟩
    · rw [hc] at h; cases h
    · rw [hc] at h hc1 hc2
      simp only at h
      have hg := getBroker_spec net c.nodeID b1
      rcases hgb : getBroker net c.nodeID b1 with ⟨_ | k, b2⟩
      · rw [hgb] at h; cases h
      · rw [hgb] at h hg
        simp only at h
        rcases ha : (ask k.1 g b2.world).1 with e | r
        · rw [ha] at h; cases h
        · rw [ha] at h
          simp only [answerOf] at h
          rcases he : r.error with _ | e
          · rw [he] at h
            simp only at h
            obtain ⟨hgr, ds, h1, h2, h3, h4⟩ := deleteGroupsLoop_ok ask gs _ _ _ _ _ _ h
            have hgr2 : Grows b2 b' := (world_grows b2 _).trans hgr
            refine ⟨(hc2.trans hg.1).trans hgr2, ⟨g, c.nodeID, k.1, r⟩ :: ds, by simp [h1], ?_, ?_, ?_⟩
            · rw [h2]; simp [GroupDeletion.log]
            · rw [h3]; simp
            · intro d hd
              rcases List.mem_cons.1 hd with rfl | hd
              · exact ⟨(hc1 c rfl).grows (hg.1.trans hgr2), ⟨k.2, hgr2.cache _ _ (hg.2 k rfl)⟩, he, b2.world, ha⟩
              · exact h4 d hd
          · rw [he] at h; cases h

/-- C79: if `DeleteGroups` succeeds, then for each group, in order, one request to delete that group alone was sent to a
broker object kept for the node a broker had named as coordinator; no response had an error; and the results are
those of the responses.  If brokers answer with one result for the group they are asked to delete, there is one result
for each group.
Missing for the full statement: results when a group cannot be deleted (`C79_violated`). -/
theorem C79_every_group_partial (ask : Nat → Bytes → W → Except Err DeleteGroupsResponse × W) (groups : List Bytes) (b b' : Brokers W)
    (rs : List (Bytes × Int16)) (log : List Client.GroupDone) (h : Client.deleteGroups net ask groups b = ((.ok rs, log), b')) :
    (∃ ds : List GroupDeletion, ds.map GroupDeletion.group = groups ∧ log = ds.flatMap GroupDeletion.log ∧ rs = ds.flatMap (·.answer.results) ∧
      ∀ d ∈ ds, b'.coordinatorNamed d.node ∧ (∃ id, b'.cache.get d.node = some (d.broker, id)) ∧ d.answer.error = none) ∧
    ((∀ k g w r, (ask k g w).1 = .ok r → r.results.map Prod.fst = [g]) → rs.map Prod.fst = groups) := by
  obtain ⟨_, ds, h1, h2, h3, h4⟩ := deleteGroupsLoop_ok net ask groups [] [] b rs log b' h
  simp only [List.nil_append] at h2 h3
  refine ⟨⟨ds, h1, h2, h3, fun d hd => ⟨(h4 d hd).1, (h4 d hd).2.1, (h4 d hd).2.2.1⟩⟩, fun hask => ?_⟩
  rw [h3, ← h1]
  clear h1 h2 h3 h
  induction ds with
  | nil => rfl
  | cons d ds ih =>
    obtain ⟨w, hw⟩ := (h4 d (.head _)).2.2.2
    simp only [List.flatMap_cons, List.map_append, List.map_cons, hask _ _ _ _ hw]
    rw [ih fun x hx => h4 x (.tail _ hx)]
    rfl

/-- a broker which deletes groups, except "2", which is not empty -/
def demoDelete (_ : Nat) (g : Bytes) (w : Nat) : Except Err DeleteGroupsResponse × Nat :=
  (.ok ⟨0, 0, [(g, if g = [50] then 68 else 0)]⟩, w + 1)

/-- the groups whose deletion was answered, with the error codes -/
def Client.GroupDone.code : Client.GroupDone → Option (Bytes × List Int16)
  | .asked _ _ g (.ok r) => some (g, r.results.map Prod.snd)
  | _ => none

example : (Client.deleteGroups goodNet demoDelete [[49], [51]] (demoBrokers goodNet)).1.1.toOption = some [([49], 0), ([51], 0)] := by
  decide +kernel

/-- C79 does not hold: of three groups the second cannot be deleted.  The first is deleted, but no result is returned
for it; and the third is not tried. -/
theorem C79_violated :
    (Client.deleteGroups goodNet demoDelete [[49], [50], [51]] (demoBrokers goodNet)).1.1.toOption = none ∧
    (Client.deleteGroups goodNet demoDelete [[49], [50], [51]] (demoBrokers goodNet)).1.2.filterMap Client.GroupDone.code =
      [([49], [0]), ([50], [68])] := by decide +kernel

/-! ## C80: log dirs -/

theorem logDirsLoop_inv (ask : Nat → List TopicPids → W → Except Err DescribeLogDirsResponse × W) (topics : List Bytes)
    (P : Int32 → DescribeLogDirsResponse → Prop) :
    ∀ (l : List (Int32 × List (Bytes × Int32))) (acc : AMap Int32 DescribeLogDirsResponse) (b : Brokers W) (m : AMap Int32 DescribeLogDirsResponse),
    (∀ n r, acc.get n = some r → P n r) →
    (∀ n tps, (n, tps) ∈ l → ∀ k w r, (ask k (Client.logDirsRequest tps) w).1 = .ok r → r.error = none → P n (Client.keepTopics topics r)) →
    (Client.logDirsLoop net ask topics l acc b).1 = .ok m → ∀ n r, m.get n = some r → P n r
  | [], acc, b, m, hacc, _, h => by cases h; exact hacc
  | (n, tps) :: rest, acc, b, m, hacc, hP, h => by
    unfold Client.logDirsLoop at h
    rcases hg : getBroker net n b with ⟨_ | k, b1⟩
    · rw [hg] at h; cases h
    · rw [hg] at h
      simp only at h
      split at h
      · rename_i r hr
        refine logDirsLoop_inv ask topics P rest _ _ m ?_ (fun n' tps' hm => hP n' tps' (.tail _ hm)) h
        rcases ha : (ask k.1 (Client.logDirsRequest tps) b1.world).1 with e | r'
        · rw [ha] at hr; cases hr
        · rw [ha] at hr
          simp only [answerOf, Prod.mk.injEq, Option.some.injEq] at hr
          obtain ⟨rfl, herr⟩ := hr
          intro n' r'' hget
          rw [AMap.get_set] at hget
          split at hget
          · rename_i hn
            cases hget
            subst hn
            exact hP _ tps (.head _) _ _ _ ha herr
          · exact hacc n' r'' hget
      · exact logDirsLoop_inv ask topics P rest _ _ m hacc (fun n' tps' hm => hP n' tps' (.tail _ hm)) h

/-- C80: the log dirs returned have entries of the requested topics only, and all of them that the broker sent. -/
theorem C80_requested_topics (ask : Nat → List TopicPids → W → Except Err DescribeLogDirsResponse × W) (topics : List Bytes) (b : Brokers W)
    (m : AMap Int32 DescribeLogDirsResponse) (h : (Client.describeLogDirs net ask topics b).1 = .ok m) (n : Int32) (r : DescribeLogDirsResponse)
    (hr : m.get n = some r) :
    (∀ res ∈ r.results, ∀ t ∈ res.topics, t.1 ∈ topics) ∧
    ∃ k q w sent, (ask k q w).1 = .ok sent ∧ r.results.length = sent.results.length ∧
      ∀ (i : Nat) (res : LogDirResult), sent.results[i]? = some res →
        ∃ res', r.results[i]? = some res' ∧ res'.logDir = res.logDir ∧ ∀ t ∈ res.topics, t.1 ∈ topics → t ∈ res'.topics := by
  unfold Client.describeLogDirs at h
  rcases hm : requestMetaData net topics b with ⟨⟨meta_, _ | e⟩, b1⟩
  · rw [hm] at h
    simp only at h
    refine logDirsLoop_inv net ask topics (fun _ r => (∀ res ∈ r.results, ∀ t ∈ res.topics, t.1 ∈ topics) ∧
      ∃ k q w sent, (ask k q w).1 = .ok sent ∧ r.results.length = sent.results.length ∧
      ∀ (i : Nat) (res : LogDirResult), sent.results[i]? = some res →
        ∃ res', r.results[i]? = some res' ∧ res'.logDir = res.logDir ∧ ∀ t ∈ res.topics, t.1 ∈ topics → t ∈ res'.topics) _ [] _ m
      (by intro n r hn; cases hn) ?_ h n r hr
    intro n tps _ k w r ha _
    refine ⟨?_, k, _, w, r, ha, by simp [Client.keepTopics], ?_⟩
    · intro res hres t ht
      simp only [Client.keepTopics, List.mem_map] at hres
      obtain ⟨res0, _, rfl⟩ := hres
      simpa using (List.mem_filter.1 ht).2
    · intro i res hres
      refine ⟨{ res with topics := res.topics.filter fun t => t.1 ∈ topics }, ?_, rfl, ?_⟩
      · simp [Client.keepTopics, hres]
      · intro t ht htt
        exact List.mem_filter.2 ⟨ht, by simpa using htt⟩
  · rw [hm] at h; cases h

/-! ## C116: what each broker is asked -/

/-- the partitions of which a node has a replica, from the metadata -/
def replicasAt (n : Int32) (ts : List TopicMetadata) : List (Bytes × Int32) :=
  ts.flatMap fun t => t.partitions.flatMap fun p => (p.replicas.filter (· = n)).map fun _ => (t.name, p.partitionID)

theorem brokerPartitions_replicas (x : Bytes × Int32) (n : Int32) : ∀ (rs : List Int32) (m : AMap Int32 (List (Bytes × Int32))),
    (AMap.get (rs.foldl (fun m k => AMap.set m k ((AMap.get m k).getD [] ++ [x])) m) n).getD [] =
      (AMap.get m n).getD [] ++ (rs.filter (· = n)).map fun _ => x
  | [], m => by simp
  | k :: rs, m => by
    rw [List.foldl_cons, brokerPartitions_replicas x n rs, AMap.get_set]
    by_cases h : n = k
    · subst h; simp
    · have h' : k ≠ n := fun e => h e.symm
      simp [h, h']

theorem brokerPartitions_partitions (t : Bytes) (n : Int32) : ∀ (ps : List PartitionMetadataInfo) (m : AMap Int32 (List (Bytes × Int32))),
    (AMap.get (ps.foldl (fun m p => p.replicas.foldl (fun m k => AMap.set m k ((AMap.get m k).getD [] ++ [(t, p.partitionID)])) m) m) n).getD [] =
      (AMap.get m n).getD [] ++ ps.flatMap fun p => (p.replicas.filter (· = n)).map fun _ => (t, p.partitionID)
  | [], m => by simp
  | p :: ps, m => by
    rw [List.foldl_cons, brokerPartitions_partitions t n ps, brokerPartitions_replicas, List.flatMap_cons, List.append_assoc]

theorem brokerPartitions_topics (n : Int32) : ∀ (ts : List TopicMetadata) (m : AMap Int32 (List (Bytes × Int32))),
    (AMap.get (ts.foldl (fun m t => t.partitions.foldl (fun m p => p.replicas.foldl (fun m k =>
      AMap.set m k ((AMap.get m k).getD [] ++ [(t.name, p.partitionID)])) m) m) m) n).getD [] = (AMap.get m n).getD [] ++ replicasAt n ts
  | [], m => by simp [replicasAt]
  | t :: ts, m => by
    rw [List.foldl_cons, brokerPartitions_topics n ts, brokerPartitions_partitions]
    simp [replicasAt]

theorem brokerPartitions_get (n : Int32) (ts : List TopicMetadata) : ((Client.brokerPartitions ts).get n).getD [] = replicasAt n ts := by
  have := brokerPartitions_topics n ts []
  simp only [AMap.get_nil, Option.getD_none, List.nil_append] at this
  exact this

theorem foldl_inv {α β : Type} (P : β → Prop) (f : β → α → β) (hf : ∀ b a, P b → P (f b a)) : ∀ (l : List α) (b : β), P b → P (l.foldl f b)
  | [], _, h => h
  | a :: l, b, h => foldl_inv P f hf l (f b a) (hf b a h)

theorem brokerPartitions_nodup (ts : List TopicMetadata) : (AMap.keys (Client.brokerPartitions ts)).Nodup := by
  unfold Client.brokerPartitions
  refine foldl_inv (fun m => (AMap.keys m).Nodup) _ (fun m t hm => ?_) ts [] (by simp [AMap.keys])
  refine foldl_inv (fun m => (AMap.keys m).Nodup) _ (fun m p hm => ?_) t.partitions m hm
  exact foldl_inv (fun m => (AMap.keys m).Nodup) _ (fun m n hm => AMap.nodup_keys_set _ _ _ hm) p.replicas m hm

/-- the values of the map are not empty -/
theorem brokerPartitions_nonempty (ts : List TopicMetadata) (n : Int32) (tps : List (Bytes × Int32))
    (h : (Client.brokerPartitions ts).get n = some tps) : tps ≠ [] := by
  have key : ∀ m : AMap Int32 (List (Bytes × Int32)), (∀ n tps, m.get n = some tps → tps ≠ []) → ∀ k x n tps,
      (AMap.set m k ((AMap.get m k).getD [] ++ [x])).get n = some tps → tps ≠ [] := by
    intro m hm k x n tps h
    rw [AMap.get_set] at h
    split at h
    · cases h; simp
    · exact hm n tps h
  have := foldl_inv (fun m : AMap Int32 (List (Bytes × Int32)) => ∀ n tps, m.get n = some tps → tps ≠ [])
    (fun m (t : TopicMetadata) => t.partitions.foldl (fun m p => p.replicas.foldl (fun m k =>
      AMap.set m k ((AMap.get m k).getD [] ++ [(t.name, p.partitionID)])) m) m) (fun m t hm => by
        refine foldl_inv (fun m : AMap Int32 (List (Bytes × Int32)) => ∀ n tps, m.get n = some tps → tps ≠ []) _ (fun m p hm => ?_) t.partitions m hm
        exact foldl_inv (fun m : AMap Int32 (List (Bytes × Int32)) => ∀ n tps, m.get n = some tps → tps ≠ []) _
          (fun m n hm => key m hm n _) p.replicas m hm) ts [] (by intro n tps h; cases h)
  exact this n tps h

/-- C116: the request made for a node lists every partition of which the node has a replica, once, and no others; and
requests are made exactly for the nodes which have a replica, once for each. -/
theorem C116_asked (ts : List TopicMetadata) :
    (AMap.keys (Client.brokerPartitions ts)).Nodup ∧
    (∀ n, n ∈ AMap.keys (Client.brokerPartitions ts) ↔ ∃ t ∈ ts, ∃ p ∈ t.partitions, n ∈ p.replicas) ∧
    ∀ n tps, (n, tps) ∈ Client.brokerPartitions ts → ∀ topic pid,
      ((∃ q ∈ Client.logDirsRequest tps, q.topic = topic ∧ pid ∈ q.partitions) ↔
        ∃ t ∈ ts, t.name = topic ∧ ∃ p ∈ t.partitions, p.partitionID = pid ∧ n ∈ p.replicas) ∧
      ((Client.logDirsRequest tps).map TopicPids.topic).Nodup ∧ ∀ q ∈ Client.logDirsRequest tps, q.partitions.Nodup := by
  have mem : ∀ n topic pid, (topic, pid) ∈ replicasAt n ts ↔ ∃ t ∈ ts, t.name = topic ∧ ∃ p ∈ t.partitions, p.partitionID = pid ∧ n ∈ p.replicas := by
    intro n topic pid
    simp only [replicasAt, List.mem_flatMap, List.mem_map, List.mem_filter, decide_eq_true_eq, Prod.mk.injEq]
    constructor
    · rintro ⟨t, ht, p, hp, k, ⟨hk, rfl⟩, h1, h2⟩
      exact ⟨t, ht, h1, p, hp, h2, hk⟩
    · rintro ⟨t, ht, h1, p, hp, h2, hk⟩
      exact ⟨t, ht, p, hp, n, ⟨hk, rfl⟩, h1, h2⟩
  refine ⟨brokerPartitions_nodup ts, fun n => ?_, ?_⟩
  · constructor
    · intro hn
      cases hg : (Client.brokerPartitions ts).get n with
      | none => exact absurd hn ((AMap.get_eq_none_iff _ _).1 hg)
      | some tps =>
        have hne := brokerPartitions_nonempty ts n tps hg
        have he := brokerPartitions_get n ts
        rw [hg] at he
        simp only [Option.getD_some] at he
        obtain ⟨x, hx⟩ := List.exists_mem_of_ne_nil tps hne
        rw [he] at hx
        obtain ⟨t, ht, _, p, hp, _, hk⟩ := (mem n x.1 x.2).1 hx
        exact ⟨t, ht, p, hp, hk⟩
    · rintro ⟨t, ht, p, hp, hk⟩
      apply Classical.byContradiction
      intro hn
      have he := brokerPartitions_get n ts
      rw [(AMap.get_eq_none_iff _ _).2 hn] at he
      have := (mem n t.name p.partitionID).2 ⟨t, ht, rfl, p, hp, rfl, hk⟩
      rw [← he] at this
      simp at this
  · intro n tps hm topic pid
    have hg := AMap.get_eq_some_of_mem _ (brokerPartitions_nodup ts) n tps hm
    have he := brokerPartitions_get n ts
    rw [hg] at he
    simp only [Option.getD_some] at he
    have hl := C75_log_dirs_partial tps
    exact ⟨(hl.exact topic pid).trans (by rw [he]; exact mem n topic pid), hl.topicsOnce, hl.pidsOnce⟩

/-- C116: each response returned under a node answers a request which lists exactly the partitions of which, by the metadata
just got, the node has a replica. -/
theorem C116_reported (ask : Nat → List TopicPids → W → Except Err DescribeLogDirsResponse × W) (topics : List Bytes) (b : Brokers W)
    (m : AMap Int32 DescribeLogDirsResponse) (h : (Client.describeLogDirs net ask topics b).1 = .ok m) :
    ∃ meta_, (requestMetaData net topics b).1 = (meta_, none) ∧ ∀ n r, m.get n = some r →
      ∃ k q w sent, (ask k q w).1 = .ok sent ∧ sent.error = none ∧ r.results.map LogDirResult.logDir = sent.results.map LogDirResult.logDir ∧
        ∀ topic pid, (∃ x ∈ q, x.topic = topic ∧ pid ∈ x.partitions) ↔
          ∃ t ∈ meta_.topics, t.name = topic ∧ ∃ p ∈ t.partitions, p.partitionID = pid ∧ n ∈ p.replicas := by
  unfold Client.describeLogDirs at h
  rcases hm : requestMetaData net topics b with ⟨⟨meta_, _ | e⟩, b1⟩
  · rw [hm] at h
    simp only at h
    refine ⟨meta_, rfl, ?_⟩
    refine logDirsLoop_inv net ask topics _ _ [] _ m (by intro n r hn; cases hn) ?_ h
    intro n tps hmem k w r ha he
    have hmem' := (net.shuffle_perm _ _).mem_iff.1 hmem
    refine ⟨k, _, w, r, ha, he, ?_, fun topic pid => ((C116_asked meta_.topics).2.2 n tps hmem' topic pid).1⟩
    simp [Client.keepTopics]
  · rw [hm] at h; cases h

/-! ## C115: which brokers are reported -/

/-- C115: if the metadata can be got and every broker answers without error, then either an error is returned, or every node
with a replica is reported.
Missing for the full statement: brokers which fail to answer (`C115_violated`). -/
theorem C115_every_node_partial (ask : Nat → List TopicPids → W → Except Err DescribeLogDirsResponse × W)
    (hask : ∀ k q w, ∃ r, (ask k q w).1 = .ok r ∧ r.error = none) (topics : List Bytes) (b : Brokers W)
    (m : AMap Int32 DescribeLogDirsResponse) (h : (Client.describeLogDirs net ask topics b).1 = .ok m) :
    ∃ meta_, (requestMetaData net topics b).1 = (meta_, none) ∧
      ∀ t ∈ meta_.topics, ∀ p ∈ t.partitions, ∀ n ∈ p.replicas, ∃ r, m.get n = some r := by
  unfold Client.describeLogDirs at h
  rcases hm : requestMetaData net topics b with ⟨⟨meta_, _ | e⟩, b1⟩
  · rw [hm] at h
    simp only at h
    refine ⟨meta_, rfl, ?_⟩
    have loop : ∀ (l : List (Int32 × List (Bytes × Int32))) (acc : AMap Int32 DescribeLogDirsResponse) (b : Brokers W),
        (Client.logDirsLoop net ask topics l acc b).1 = .ok m →
        (∀ n r, acc.get n = some r → ∃ r, m.get n = some r) ∧ ∀ x ∈ l, ∃ r, m.get x.1 = some r := by
      intro l
      induction l with
      | nil =>
        intro acc b h
        cases h
        exact ⟨fun n r hr => ⟨r, hr⟩, by simp⟩
      | cons x rest ih =>
        obtain ⟨n, tps⟩ := x
        intro acc b h
        unfold Client.logDirsLoop at h
        rcases hg : getBroker net n b with ⟨_ | k, b1⟩
        · rw [hg] at h; cases h
        · rw [hg] at h
          simp only at h
          obtain ⟨r, hr, he⟩ := hask k.1 (Client.logDirsRequest tps) b1.world
          rw [hr] at h
          simp only [answerOf, he] at h
          obtain ⟨h1, h2⟩ := ih _ _ h
          refine ⟨fun n' r' hn' => ?_, ?_⟩
          · by_cases hnn : n' = n
            · exact h1 n' _ (by rw [AMap.get_set, if_pos hnn])
            · exact h1 n' r' (by rw [AMap.get_set, if_neg hnn]; exact hn')
          · intro y hy
            rcases List.mem_cons.1 hy with rfl | hy
            · exact h1 n _ (by rw [AMap.get_set, if_pos rfl])
            · exact h2 y hy
    obtain ⟨_, h2⟩ := loop _ _ _ h
    intro t ht p hp n hn
    have hk : n ∈ AMap.keys (Client.brokerPartitions meta_.topics) := ((C116_asked meta_.topics).2.1 n).2 ⟨t, ht, p, hp, hn⟩
    simp only [AMap.keys, List.mem_map] at hk
    obtain ⟨x, hx, rfl⟩ := hk
    exact h2 x ((net.shuffle_perm _ _).mem_iff.2 hx)
  · rw [hm] at h; cases h

/-- topic "t" with a partition which has replicas on nodes 1 and 2 -/
def replicaNet : Net Nat :=
  demoNet (fun _ => false) (fun _ _ => (⟨0, 0, [demoInfo 1 97, demoInfo 2 98], [], 1, [⟨0, [116], false, [⟨0, 0, 1, 0, [1, 2], [], []⟩]⟩]⟩, none)) (fun _ => [])

/-- every broker has the topics "t" and "u" in one log dir, and another one with "u" only -/
def demoLogDirs (_ : Nat) (_ : List TopicPids) (w : Nat) : Except Err DescribeLogDirsResponse × Nat :=
  (.ok ⟨0, 0, [⟨0, [1], [([116], []), ([117], [])]⟩, ⟨0, [2], [([117], [])]⟩]⟩, w + 1)

/-- on node 2 one of the log dirs is broken (56 is KAFKA_STORAGE_ERROR) -/
def brokenLogDirs (k : Nat) (_ : List TopicPids) (w : Nat) : Except Err DescribeLogDirsResponse × Nat :=
  (.ok ⟨0, 0, [⟨0, [1], [([116], [])]⟩, ⟨if k = 0 then 0 else 56, [2], []⟩]⟩, w + 1)

deriving instance DecidableEq for DescribeLogDirsResponse

example : (Client.describeLogDirs replicaNet demoLogDirs [[116]] (demoBrokers replicaNet)).1.toOption.map
    (List.map fun x => (x.1, x.2.results.map fun res => res.topics.map Prod.fst)) = some [(2, [[[116]], []]), (1, [[[116]], []])] := by decide +kernel

/-- C115 does not hold: node 2 has a replica and answers, but one of its log dirs has an error: the node is left out and
no error is returned. -/
theorem C115_violated : (Client.describeLogDirs replicaNet brokenLogDirs [[116]] (demoBrokers replicaNet)).1.toOption.map (List.map Prod.fst) = some [1] := by
  decide +kernel

/-! ## C113: the controller -/

/-- C113: admin requests go to the node which was the controller when the client was made, whatever is done in between.
Missing: a controller elected since (`C113_violated`). -/
theorem C113_first_controller_partial (bootstrap : List Bytes) (a : Bytes) (h : Nat) (w : W) (b : Brokers W)
    (hb : fromOne net bootstrap a h w = .ok b) (ops : List BOp) :
    ∃ r w', (net.metadata h [] w) = ((r, none), w') ∧ (runOps net ops b).controllerID = r.controllerID ∧
      Client.getController net (runOps net ops b) = getBroker net r.controllerID (runOps net ops b) := by
  have hc := (runOps_grows net ops b).controller
  unfold fromOne at hb
  simp only [askMetadata] at hb
  rcases hm : net.metadata h [] w with ⟨⟨r, _ | e⟩, w'⟩
  · simp only [hm] at hb
    split at hb
    · cases hb
    · simp only [Except.ok.injEq] at hb
      have hbc : b.controllerID = r.controllerID := by
        rw [← hb]
        refine foldl_inv (fun b : Brokers W => b.controllerID = r.controllerID) _ (fun b i hi => ?_) r.brokers _ ?_
        · exact hi
        · rfl
      refine ⟨r, w', rfl, hc.trans hbc, ?_⟩
      unfold Client.getController
      rw [hc, hbc]
  · simp only [hm] at hb
    cases hb

/-- the controller moves from node 1 to node 2 after the first answer -/
def newControllerNet : Net Nat :=
  demoNet (fun _ => false) (fun _ w => if w = 0 then (demoMeta, none) else ({ demoMeta with controllerID := 2 }, none)) (fun _ => [])

/-- C113 does not hold: node 2 has become the controller, and a refresh of the metadata has told so; yet node 1 is
asked (whose broker object is 0). -/
theorem C113_violated :
    ((requestMetaData newControllerNet [] (runOps newControllerNet [.refresh] (demoBrokers newControllerNet))).1.1.controllerID = 2) ∧
    (Client.getController newControllerNet (runOps newControllerNet [.refresh, .metadata []] (demoBrokers newControllerNet))).1.toOption = some (0, -1) := by
  decide +kernel

/-! ## C114: errors -/

/-- C114: an admin request other than deleting topics never panics, and returns an error if the controller cannot be
reached, if the request fails, or if the response has an error.
Missing for the full statement: deleting topics (`C114_violated`). -/
theorem C114_controller_partial {R : Type} (error : R → Option Err) (ask : Nat → W → Except Err R × W) (b : Brokers W) :
    ∃ r e, (Client.viaController net error ask b).1 = .ok (r, e) ∧
      (e = none → ∃ h x, (Client.getController net b).1 = .ok h ∧ (ask h.1 (Client.getController net b).2.world).1 = .ok x ∧ error x = none ∧ r = some x) ∧
      (∀ x, e = some x → r = none) := by
  unfold Client.viaController
  rcases hg : Client.getController net b with ⟨e | h, b1⟩
  · exact ⟨none, some e, rfl, (by intro h; cases h), fun _ _ => rfl⟩
  · simp only
    rcases ha : (ask h.1 b1.world).1 with e | x
    · exact ⟨none, some e, rfl, (by intro h; cases h), fun _ _ => rfl⟩
    · rcases he : error x with _ | e
      · simp only [answerOf, he]
        exact ⟨some x, none, rfl, fun _ => ⟨h, x, rfl, ha, he, rfl⟩, (by intro _ h; cases h)⟩
      · simp only [answerOf, he]
        exact ⟨none, some e, rfl, (by intro h; cases h), fun _ _ => rfl⟩

example : (Client.viaController goodNet (fun _ : Unit => none) (fun _ w => (.error .eof, w)) (demoBrokers goodNet)).1 = .ok (none, some .eof) := by
  rfl

/-- C114 for deleting topics, if the controller answers: its answer is returned, with the error of the first topic that has one.
Missing: a connection that fails meanwhile (`C114_violated`). -/
theorem C114_delete_topics_partial (ask : Nat → W → Except Err TopicErrorsResponse × W) (b : Brokers W) (h : Nat × Int32)
    (hg : (Client.getController net b).1 = .ok h) (x : TopicErrorsResponse)
    (ha : (ask h.1 (Client.getController net b).2.world).1 = .ok x) :
    ∃ e, (Client.deleteTopics net ask b).1 = .ok (some x, e) ∧ (e = none ↔ ∀ t ∈ x.topicErrors, t.2 = 0) ∧
      ∀ k, e = some k → ∃ before t after, x.topicErrors = before ++ t :: after ∧ (∀ y ∈ before, y.2 = 0) ∧ t.2 ≠ 0 ∧ k = .kafka t.2 := by
  have key : ∀ l : List (Bytes × Int16), (firstKafkaErr (l.map Prod.snd) = none ↔ ∀ t ∈ l, t.2 = 0) ∧
      ∀ k, firstKafkaErr (l.map Prod.snd) = some k → ∃ before t after, l = before ++ t :: after ∧ (∀ y ∈ before, y.2 = 0) ∧ t.2 ≠ 0 ∧ k = .kafka t.2 := by
    intro l
    induction l with
    | nil => exact ⟨by simp [firstKafkaErr], by simp [firstKafkaErr]⟩
    | cons t l ih =>
      by_cases ht : t.2 = 0
      · simp only [List.map_cons, firstKafkaErr, ht, if_true, List.mem_cons, forall_eq_or_imp, true_and]
        refine ⟨ih.1, fun k hk => ?_⟩
        obtain ⟨before, u, after, rfl, h1, h2⟩ := ih.2 k hk
        exact ⟨t :: before, u, after, rfl, by simpa [ht] using h1, h2⟩
      · simp only [List.map_cons, firstKafkaErr, ht, if_false, List.mem_cons, forall_eq_or_imp, false_and, reduceCtorEq, Option.some.injEq]
        exact ⟨by simp, fun k hk => ⟨[], t, l, rfl, by simp, ht, hk.symm⟩⟩
  unfold Client.deleteTopics
  rcases hg' : Client.getController net b with ⟨e | h', b1⟩
  · rw [hg'] at hg; cases hg
  · rw [hg'] at hg ha
    cases hg
    simp only at ha ⊢
    rw [ha]
    simp only [answerOf]
    exact ⟨_, rfl, key x.topicErrors⟩

example : (Client.deleteTopics goodNet (fun _ w => (.ok ⟨7, [([116], 0), ([117], 3)]⟩, w)) (demoBrokers goodNet)).1 =
    .ok (some ⟨7, [([116], 0), ([117], 3)]⟩, some (.kafka 3)) := by rfl

/-- C114 does not hold: if the connection fails while topics are deleted, `DeleteTopics` panics. -/
theorem C114_violated : (Client.deleteTopics goodNet (fun _ w => (.error .eof, w)) (demoBrokers goodNet)).1 = .panic := rfl

end Healer
