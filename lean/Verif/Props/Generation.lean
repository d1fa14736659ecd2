import Verif.Model.Generation
import Verif.Spec.Coordinator
import Verif.Props.Group
import Verif.Props.GroupConsumer
import Verif.Props.Request
import Verif.Props.Response

/-!
# C161: a generation of a group
-/

namespace Healer

/-- A member as the others see it: its id, and what it says when it joins: a subscription in the layout of the protocol, which
clients of later versions let further fields follow. -/
structure Comer where
  id : Bytes
  version : UInt16
  topics : List Bytes
  userData : Bytes
  further : Bytes

/-- the bytes it joins with -/
def Comer.says (m : Comer) : Bytes := Kafka.subscription m.version.toNat m.topics m.userData ++ m.further

/-- The members of a generation: distinct ids, sizes within the format. -/
structure Gathering (ms : List Comer) : Prop where
  distinct : (ms.map Comer.id).Nodup
  ids : ∀ m ∈ ms, Kafka.IsString m.id
  count : ∀ m ∈ ms, m.topics.length < 2 ^ 31
  names : ∀ m ∈ ms, ∀ t ∈ m.topics, Kafka.IsString t
  user : ∀ m ∈ ms, m.userData.length < 2 ^ 31

/-- what the coordinator tells the leader of a member -/
def Comer.member (m : Comer) : Member := ⟨m.id, m.says⟩

/-- **C161, joining.**  The request by which a healer consumer joins names its one topic in the layout of the protocol. -/
theorem C161_join (group : Bytes) (timeout : Int32) (member topic : Bytes) (ht : topic.length < 2 ^ 16) (corr : UInt32) (client : Bytes) :
    ∃ q, joinAsk group timeout member topic = .ok q ∧
      q.encode (reqHeader API_JoinGroup 0 corr (some client)) = .ok (Kafka.request .joinGroup 0 corr.toNat (some client)
        (Kafka.joinGroupRequest 0 group timeout.toInt 60000 member [99, 111, 110, 115, 117, 109, 101, 114]
          [([114, 97, 110, 103, 101], (Comer.mk member 0 [topic] [] []).says)])) := by
  obtain ⟨b, h1, h2, _⟩ := C25_subscription ⟨0, [topic], none⟩ (by simp) (by simpa using ht) (by simp)
  refine ⟨⟨group, timeout, 60000, member, consumerProtocol, [(rangeProtocol, b)]⟩, by simp only [joinAsk, h1]; rfl, ?_⟩
  rw [C58_joinGroup _ 0 (Or.inr (by decide)) corr (some client)]
  subst h2
  simp [Comer.says, consumerProtocol, rangeProtocol]

theorem comer_reads {ms : List Comer} (hg : Gathering ms) {m : Comer} (hm : m ∈ ms) :
    newProtocolMetadata m.says = .ok ⟨m.version, m.topics, some m.userData⟩ := by
  have h1 := hg.count m hm
  refine newProtocolMetadata_grammar m.version m.topics m.userData m.further (by omega) (hg.user m hm) fun t ht => ?_
  have := hg.names m hm t ht
  unfold Kafka.IsString at this
  omega

theorem comer_unique : ∀ {ms : List Comer}, (ms.map Comer.id).Nodup → ∀ {a b : Comer}, a ∈ ms → b ∈ ms → a.id = b.id → a = b := by
  intro ms h a b ha hb hab
  exact List.inj_on_of_nodup_map h ha hb hab

/-- what was subscribed to by the member with this id -/
def topicsOf (ms : List Comer) (m : Member) : List Bytes :=
  match ms.find? (fun x => x.id = m.memberID) with
  | some x => x.topics
  | none => []

theorem topicsOf_member {ms : List Comer} (h : (ms.map Comer.id).Nodup) {m : Comer} (hm : m ∈ ms) : topicsOf ms m.member = m.topics := by
  unfold topicsOf
  cases hf : ms.find? (fun x => x.id = m.member.memberID) with
  | none =>
    have := List.find?_eq_none.1 hf m hm
    simp [Comer.member] at this
  | some x =>
    have h1 := List.mem_of_find?_eq_some hf
    have h2 := List.find?_some hf
    simp only [Comer.member] at h2
    rw [comer_unique h h1 hm (of_decide_eq_true h2)]

theorem handed_mem {as : List (Bytes × Bytes)} (h : (as.map Prod.fst).Nodup) {k v : Bytes} (hm : (k, v) ∈ as) : Kafka.handed as k = v := by
  induction as with
  | nil => cases hm
  | cons a as ih =>
    obtain ⟨k', v'⟩ := a
    simp only [List.map_cons, List.nodup_cons] at h
    simp only [Kafka.handed]
    rcases List.mem_cons.1 hm with he | hm
    · cases he; simp
    · rw [if_neg (fun hk => h.1 (by subst hk; exact List.mem_map.2 ⟨_, hm, rfl⟩))]
      exact ih h.2 hm

theorem count_consumers (topic : Bytes) (p : Int32) (pas : List PartitionAssignment) :
    (assignedConsumers pas).count (topic, p) = (partitionsIn topic pas).count p := by
  induction pas with
  | nil => rfl
  | cons a as ih =>
    have e1 : assignedConsumers (a :: as) = (a.partitions.map fun p => (a.topic, p)) ++ assignedConsumers as := rfl
    have e2 : partitionsIn topic (a :: as) = (if a.topic = topic then a.partitions else []) ++ partitionsIn topic as := rfl
    rw [e1, e2, List.count_append, List.count_append, ih]
    congr 1
    split
    · rename_i h
      subst h
      induction a.partitions with
      | nil => rfl
      | cons x xs ih2 => simp only [List.map_cons, List.count_cons, ih2]; simp
    · rename_i h
      rw [List.count_nil, List.count_eq_zero]
      intro hc
      obtain ⟨x, _, hx⟩ := List.mem_map.1 hc
      cases hx
      exact h rfl

theorem count_flatMap_congr {α β γ : Type} [BEq β] [BEq γ] (l : List α) (f : α → List β) (g : α → List γ) (b : β) (c : γ)
    (h : ∀ a ∈ l, (f a).count b = (g a).count c) : (l.flatMap f).count b = (l.flatMap g).count c := by
  induction l with
  | nil => rfl
  | cons a l ih =>
    rw [List.flatMap_cons, List.flatMap_cons, List.count_append, List.count_append, h a (List.mem_cons_self ..),
      ih fun x hx => h x (List.mem_cons_of_mem _ hx)]

/-- the entry of a member -/
def entryOf (g : List (Bytes × Option Bytes)) (k : Bytes) : Bytes × Option Bytes :=
  match g with
  | [] => (k, none)
  | e :: g => if e.1 = k then e else entryOf g k

theorem entryOf_mem {g : List (Bytes × Option Bytes)} (h : (g.map Prod.fst).Nodup) {e : Bytes × Option Bytes} (he : e ∈ g) :
    entryOf g e.1 = e := by
  induction g with
  | nil => cases he
  | cons a g ih =>
    simp only [List.map_cons, List.nodup_cons] at h
    simp only [entryOf]
    rcases List.mem_cons.1 he with rfl | he
    · simp
    · rw [if_neg (fun hk : a.1 = e.1 => h.1 (by rw [hk]; exact List.mem_map.2 ⟨e, he, rfl⟩))]
      exact ih h.2 he

theorem flatMap_congr_mem {α β : Type} {l : List α} {f g : α → List β} (h : ∀ a ∈ l, f a = g a) : l.flatMap f = l.flatMap g := by
  induction l with
  | nil => rfl
  | cons a l ih => rw [List.flatMap_cons, List.flatMap_cons, h a (List.mem_cons_self ..), ih fun x hx => h x (List.mem_cons_of_mem _ hx)]

theorem syncAsk_leader {ord : MapOrders} {ms : List Member} {tm : List TopicMetadata} {g : List (Bytes × Option Bytes)}
    (h : assign ord ms (tm.map TopicMetadata.forAssign) = .ok g) {group : Bytes} {gen : Int32} {member : Bytes} :
    syncAsk ord group gen member (some (ms, tm)) = .ok ⟨group, gen, member, g.map fun e => (e.1, e.2.getD [])⟩ := by
  simp only [syncAsk, h]
  rfl

/-- all partitions of the topics -/
def allPartitions (tm : List TopicMetadata) : List (Bytes × Int32) := tm.flatMap fun t => t.partitions.map fun p => (t.name, p.partitionID)

theorem count_allPartitions_none (tm : List TopicMetadata) (k : Bytes) (p : Int32) (h : k ∉ tm.map TopicMetadata.name) :
    (allPartitions tm).count (k, p) = 0 := by
  rw [List.count_eq_zero]
  intro hc
  obtain ⟨t, ht, hx⟩ := List.mem_flatMap.1 hc
  obtain ⟨x, _, hx⟩ := List.mem_map.1 hx
  cases hx
  exact h (List.mem_map.2 ⟨t, ht, rfl⟩)

theorem count_allPartitions (tm : List TopicMetadata) (hn : (tm.map TopicMetadata.name).Nodup) (t : TopicMetadata) (ht : t ∈ tm) (p : Int32) :
    (allPartitions tm).count (t.name, p) = (t.partitions.map PartitionMetadataInfo.partitionID).count p := by
  have own : ∀ u : TopicMetadata, (u.partitions.map fun p => (u.name, p.partitionID)).count (u.name, p)
      = (u.partitions.map PartitionMetadataInfo.partitionID).count p := by
    intro u
    induction u.partitions with
    | nil => rfl
    | cons x xs ih => simp only [List.map_cons, List.count_cons, ih]; simp
  induction tm with
  | nil => cases ht
  | cons u us ih =>
    simp only [List.map_cons, List.nodup_cons] at hn
    have e : allPartitions (u :: us) = (u.partitions.map fun p => (u.name, p.partitionID)) ++ allPartitions us := rfl
    rw [e, List.count_append]
    rcases List.mem_cons.1 ht with rfl | ht
    · rw [own, count_allPartitions_none _ _ _ hn.1]; omega
    · rw [ih hn.2 ht, List.count_eq_zero.2, Nat.zero_add]
      intro hc
      obtain ⟨x, _, hx⟩ := List.mem_map.1 hc
      have : u.name = t.name := (Prod.mk.inj hx).1
      exact hn.1 (this ▸ List.mem_map.2 ⟨t, ht, rfl⟩)

/-- **C161.**  Members join a group; the coordinator tells the leader, a healer consumer, who they are and what they said.  The leader asks
for the topics they named, each once and no others; the cluster answers with their partitions, and the leader sends the coordinator
its assignments, from which every member is handed its own.  Whatever the order of the members, of the topics and of Go's maps:
every healer member of the group can read what it is handed and makes partition consumers for topics it subscribed to only, and the partition consumers of all
members together are the partitions of all topics, each as often as the cluster names it. -/
theorem C161_generation (ord : MapOrders) (ms : List Comer) (hg : Gathering ms) (r : JoinGroupResponse)
    (hr : r.members = ms.map Comer.member) (h1 : Kafka.IsString r.groupProtocol) (h2 : Kafka.IsString r.leaderID)
    (h3 : Kafka.IsString r.memberID) (hok : r.errorCode = 0)
    (hl : (Kafka.response .joinGroup 0 r.correlationID.toNat [] (Kafka.joinGroupResponse 0 r.generationID.toInt r.groupProtocol r.leaderID
      r.memberID (ms.map fun m => (m.id, m.says)))).length < 2 ^ 31) :
    newJoinGroupResponse (Kafka.response .joinGroup 0 r.correlationID.toNat [] (Kafka.joinGroupResponse 0 r.generationID.toInt r.groupProtocol
      r.leaderID r.memberID (ms.map fun m => (m.id, m.says)))) = .ok (r, none) ∧
    ∃ ts, subscribedTopics r.members = .ok ts ∧ ts.Nodup ∧ (∀ t, t ∈ ts ↔ ∃ m ∈ ms, t ∈ m.topics) ∧
      ∀ tm : List TopicMetadata, (tm.map TopicMetadata.name).Perm ts → tm.length < 2 ^ 31 → (∀ t ∈ tm, t.partitions.length < 2 ^ 32) →
      ∀ (group client : Bytes) (corr : UInt32), ∃ q as, syncAsk ord group r.generationID r.memberID (some (r.members, tm)) = .ok q ∧
        q.encode (reqHeader API_SyncGroup 0 corr (some client)) = .ok (Kafka.request .syncGroup 0 corr.toNat (some client)
          (Kafka.syncGroupRequest group r.generationID.toInt r.memberID as)) ∧
        ∃ consumers : Comer → List (Bytes × Int32),
          (∀ m ∈ ms, parseGroupAssignments (Kafka.handed as m.id) = .ok (consumers m) ∧ ∀ c ∈ consumers m, c.1 ∈ m.topics) ∧
          (ms.flatMap consumers).Perm (allPartitions tm) := by
  have hmem : ∀ m ∈ r.members, ∃ x ∈ ms, m = x.member := by
    intro m hm
    rw [hr] at hm
    obtain ⟨x, hx, rfl⟩ := List.mem_map.1 hm
    exact ⟨x, hx, rfl⟩
  refine ⟨?_, ?_⟩
  · have e : (r.members.map fun m => (m.memberID, m.memberMetadata)) = ms.map fun m => (m.id, m.says) := by
      rw [hr, List.map_map]; rfl
    have := C66_joinGroup r h1 h2 h3 (fun m hm => by obtain ⟨x, hx, rfl⟩ := hmem m hm; exact hg.ids x hx)
      (by rw [e, hok]; exact hl)
    rw [e, hok] at this
    exact this
  · obtain ⟨ts, t1, t2, t3⟩ := C103_subscribed_topics r.members
      (fun m => match newProtocolMetadata m.memberMetadata with | .ok p => p | _ => ⟨0, [], none⟩) (fun m hm => by
        obtain ⟨x, hx, rfl⟩ := hmem m hm
        simp only [Comer.member, comer_reads hg hx])
    have t4 : ∀ t, t ∈ ts ↔ ∃ m ∈ ms, t ∈ m.topics := by
      intro t
      rw [t3]
      constructor
      · rintro ⟨m, hm, ht⟩
        obtain ⟨x, hx, rfl⟩ := hmem m hm
        simp only [Comer.member, comer_reads hg hx] at ht
        exact ⟨x, hx, ht⟩
      · rintro ⟨x, hx, ht⟩
        refine ⟨x.member, by rw [hr]; exact List.mem_map.2 ⟨x, hx, rfl⟩, ?_⟩
        simp only [Comer.member, comer_reads hg hx]
        exact ht
    refine ⟨ts, t1, t2, t4, fun tm hp hc hs group client corr => ?_⟩
    have hnames : (tm.map TopicMetadata.forAssign).map TopicPartitions.topicName = tm.map TopicMetadata.name := by
      rw [List.map_map]; rfl
    have hids : r.members.map Member.memberID = ms.map Comer.id := by rw [hr, List.map_map]; rfl
    have hi : GroupInput r.members (tm.map TopicMetadata.forAssign) (topicsOf ms) :=
      { readable := fun m hm => by
          obtain ⟨x, hx, rfl⟩ := hmem m hm
          rw [topicsOf_member hg.distinct hx]
          exact ⟨_, _, comer_reads hg hx⟩
        distinctMembers := by rw [hids]; exact hg.distinct
        distinctTopics := by rw [hnames]; exact hp.nodup_iff.2 t2
        subscribed := fun t ht => by
          have : t.topicName ∈ ts := hp.mem_iff.1 (hnames ▸ List.mem_map.2 ⟨t, ht, rfl⟩)
          obtain ⟨x, hx, hxt⟩ := (t4 _).1 this
          exact ⟨x.member, by rw [hr]; exact List.mem_map.2 ⟨x, hx, rfl⟩, by rw [topicsOf_member hg.distinct hx]; exact hxt⟩
        topicCount := by simpa using hc
        topicSize := fun t ht => by
          obtain ⟨u, hu, rfl⟩ := List.mem_map.1 ht
          refine ⟨?_, by simpa [TopicMetadata.forAssign] using hs u hu⟩
          obtain ⟨x, hx, hxt⟩ := (t4 _).1 (hp.mem_iff.1 (List.mem_map.2 ⟨u, hu, rfl⟩))
          have := hg.names x hx _ hxt
          unfold Kafka.IsString at this
          show u.name.length < 2 ^ 16
          omega }
    obtain ⟨g, tpa, a1, a2, a3, a4⟩ := assign_readable ord _ _ _ hi
    obtain ⟨g', b1, b2⟩ := C20_every_partition_assigned ord _ _ _ hi
    obtain ⟨g'', c1, _, c2⟩ := C22_only_subscribed ord _ _ _ hi
    have : g' = g := by rw [a1] at b1; exact (Out.ok.inj b1).symm
    subst this
    have : g'' = g' := by rw [a1] at c1; exact (Out.ok.inj c1).symm
    subst this
    rw [hids] at a3
    have hkeys : ((g''.map fun e => (e.1, e.2.getD [])).map Prod.fst).Nodup := by
      rw [List.map_map]
      exact a3.nodup_iff.2 hg.distinct
    have hentry : ∀ m ∈ ms, ∃ e ∈ g'', e.1 = m.id := by
      intro m hm
      have := a3.mem_iff.2 (List.mem_map.2 ⟨m, hm, rfl⟩)
      obtain ⟨e, he, hk⟩ := List.mem_map.1 this
      exact ⟨e, he, hk⟩
    have hread : ∀ e ∈ g'', parseGroupAssignments (Kafka.handed (g''.map fun e => (e.1, e.2.getD [])) e.1)
        = .ok (assignedConsumers (learned e)) := by
      intro e he
      obtain ⟨b, a, hb, hba⟩ := (a4 e he).2
      rw [handed_mem hkeys (List.mem_map.2 ⟨e, he, rfl⟩), hb]
      simp only [Option.getD_some, parseGroupAssignments, hba, learned, hb]
      rfl
    have hfound : ∀ e ∈ g'', entryOf g'' e.1 = e := fun e he => entryOf_mem (by rw [List.map_map] at hkeys; exact hkeys) he
    refine ⟨_, _, syncAsk_leader a1, C58_syncGroup _ 0 (by decide) corr (some client),
      fun m => assignedConsumers (learned (entryOf g'' m.id)), ?_, ?_⟩
    · intro m hm
      obtain ⟨e, he, hk⟩ := hentry m hm
      dsimp only
      rw [← hk, hfound e he]
      refine ⟨hread e he, fun c hc' => ?_⟩
      obtain ⟨pa, hpa, hc'⟩ := List.mem_flatMap.1 hc'
      obtain ⟨_, _, rfl⟩ := List.mem_map.1 hc'
      obtain ⟨y, hy, hye, hyt⟩ := c2 e he pa hpa
      obtain ⟨x, hx, rfl⟩ := hmem y hy
      rw [topicsOf_member hg.distinct hx] at hyt
      rw [← comer_unique hg.distinct hx hm (by rw [← hk, ← hye]; rfl)]
      exact hyt
    · have e1 : (ms.flatMap fun m => assignedConsumers (learned (entryOf g'' m.id)))
          = (ms.map Comer.id).flatMap fun k => assignedConsumers (learned (entryOf g'' k)) := by
        rw [List.flatMap_map]
      have e2 : ((g''.map Prod.fst).flatMap fun k => assignedConsumers (learned (entryOf g'' k)))
          = g''.flatMap fun e => assignedConsumers (learned e) := by
        rw [List.flatMap_map]
        exact flatMap_congr_mem fun e he => by rw [hfound e he]
      rw [e1]
      refine (a3.symm.flatMap_right _).trans ?_
      rw [e2, List.perm_iff_count]
      rintro ⟨k, p⟩
      by_cases hk : k ∈ tm.map TopicMetadata.name
      · obtain ⟨t, ht, rfl⟩ := List.mem_map.1 hk
        rw [count_allPartitions tm (hp.nodup_iff.2 t2) t ht,
          count_flatMap_congr g'' _ (fun e => partitionsIn t.name (learned e)) (t.name, p) p fun e _ => count_consumers _ _ _]
        exact (b2 t.forAssign (List.mem_map.2 ⟨t, ht, rfl⟩)).count_eq p
      · rw [count_allPartitions_none tm k p hk, List.count_eq_zero]
        intro hc'
        obtain ⟨e, he, hc'⟩ := List.mem_flatMap.1 hc'
        obtain ⟨pa, hpa, hc'⟩ := List.mem_flatMap.1 hc'
        obtain ⟨_, _, hx⟩ := List.mem_map.1 hc'
        cases hx
        obtain ⟨y, hy, _, hyt⟩ := c2 e he pa hpa
        obtain ⟨x, hx, rfl⟩ := hmem y hy
        rw [topicsOf_member hg.distinct hx] at hyt
        exact hk (hp.mem_iff.2 ((t4 _).2 ⟨x, hx, hyt⟩))

/-- **C161, exactly one.**  When the cluster names no partition of a topic twice, exactly one member makes a consumer for it, and makes one only. -/
theorem C161_exactly_one (ms : List Comer) (hg : Gathering ms) (tm : List TopicMetadata) (consumers : Comer → List (Bytes × Int32))
    (hp : (ms.flatMap consumers).Perm (allPartitions tm)) (hn : (tm.map TopicMetadata.name).Nodup)
    (t : TopicMetadata) (ht : t ∈ tm) (hd : (t.partitions.map PartitionMetadataInfo.partitionID).Nodup) (p : Int32)
    (hpt : p ∈ t.partitions.map PartitionMetadataInfo.partitionID) :
    ∃ m ∈ ms, (consumers m).count (t.name, p) = 1 ∧ ∀ m' ∈ ms, m' ≠ m → (t.name, p) ∉ consumers m' := by
  have h1 : (ms.flatMap consumers).count (t.name, p) = 1 := by
    rw [hp.count_eq, count_allPartitions tm hn t ht]
    exact List.count_eq_one_of_mem hd hpt
  have h2 : ms.Nodup := List.Nodup.of_map _ hg.distinct
  clear hp hg
  induction ms with
  | nil => simp at h1
  | cons a as ih =>
    rw [List.flatMap_cons, List.count_append] at h1
    rw [List.nodup_cons] at h2
    by_cases h3 : (consumers a).count (t.name, p) = 0
    · obtain ⟨m, hm, g1, g2⟩ := ih (by omega) h2.2
      refine ⟨m, List.mem_cons_of_mem _ hm, g1, fun m' hm' hne => ?_⟩
      rcases List.mem_cons.1 hm' with rfl | hm'
      · exact List.count_eq_zero.1 h3
      · exact g2 m' hm' hne
    · refine ⟨a, List.mem_cons_self .., by omega, fun m' hm' hne hc => ?_⟩
      rcases List.mem_cons.1 hm' with rfl | hm'
      · exact hne rfl
      · have h4 : (as.flatMap consumers).count (t.name, p) = 0 := by omega
        exact List.count_eq_zero.1 h4 (List.mem_flatMap.2 ⟨m', hm', hc⟩)

/-- C161: a member which is not the leader sends no assignments. -/
theorem C161_follower (ord : MapOrders) (group member client : Bytes) (gen : Int32) (corr : UInt32) :
    ∃ q, syncAsk ord group gen member none = .ok q ∧
      q.encode (reqHeader API_SyncGroup 0 corr (some client)) = .ok (Kafka.request .syncGroup 0 corr.toNat (some client)
        (Kafka.syncGroupRequest group gen.toInt member [])) :=
  ⟨_, rfl, C58_syncGroup _ 0 (by decide) corr (some client)⟩

/-! ### A concrete group -/

/-- Two healer consumers, of the topics "t" and "t", and a client of another kind, of "u" and "t". -/
def comers : List Comer := [⟨[98], 0, [[116]], [], []⟩, ⟨[97], 0, [[116]], [], []⟩, ⟨[99], 1, [[117], [116]], [7], [0, 0, 0, 0]⟩]

theorem comers_gather : Gathering comers where
  distinct := by decide
  ids := by unfold Kafka.IsString; decide
  count := by decide
  names := by unfold Kafka.IsString; decide
  user := by decide

/-- partitions without trouble -/
def soundPartitions (ids : List Int32) : List PartitionMetadataInfo := ids.map fun p => ⟨0, p, 1, 0, [1], [1], []⟩

/-- the answer of the cluster: "t" has the partitions 2, 0, 1, 3, and "u" the partition 0 -/
def comersTopics : List TopicMetadata := [⟨0, [116], false, soundPartitions [2, 0, 1, 3]⟩, ⟨0, [117], false, soundPartitions [0]⟩]

example : subscribedTopics (comers.map Comer.member) = .ok [[117], [116]] := by decide +kernel

example : (syncAsk plainOrders [103] 5 [97] (some (comers.map Comer.member, comersTopics))).okAnd (fun q =>
    decide (parseGroupAssignments (Kafka.handed q.groupAssignment [97]) = .ok [([116], 0), ([116], 1)]) &&
    decide (parseGroupAssignments (Kafka.handed q.groupAssignment [98]) = .ok [([116], 2)]) &&
    decide (parseGroupAssignments (Kafka.handed q.groupAssignment [99]) = .ok [([116], 3), ([117], 0)])) = true := by
  decide +kernel

end Healer
