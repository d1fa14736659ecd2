import Verif.Props.Error
import Verif.Props.Broker2

/-!
# C55 for whole answers
-/

namespace Healer

/-- The error codes an answer carries, wherever they stand in it. -/
inductive Carries : Response → Int16 → Prop
  | heartbeat (r : ErrorResponse) : Carries (.heartbeat r) r.errorCode
  | leaveGroup (r : ErrorResponse) : Carries (.leaveGroup r) r.errorCode
  | apiVersions (r : APIVersionsResponse) : Carries (.apiVersions r) r.errorCode
  | saslHandshake (r : SaslHandshakeResponse) : Carries (.saslHandshake r) r.errorCode
  | saslAuthenticate (r : SaslAuthenticateResponse) : Carries (.saslAuthenticate r) r.errorCode
  | findCoordinator (r : FindCoordinatorResponse) : Carries (.findCoordinator r) r.errorCode
  | joinGroup (r : JoinGroupResponse) : Carries (.joinGroup r) r.errorCode
  | syncGroup (r : SyncGroupResponse) : Carries (.syncGroup r) r.errorCode
  | listGroups (r : ListGroupsResponse) : Carries (.listGroups r) r.errorCode.toInt16
  | describeAcls (r : DescribeAclsResponse) : Carries (.describeAcls r) r.errorCode
  | listPartitionReassignments (r : ListPartitionReassignmentsResponse) : Carries (.listPartitionReassignments r) r.errorCode
  | produce (r : ProduceResponse) (t : ProducedTopic) (p : ProducedPartition) (ht : t ∈ r.produceResponses) (hp : p ∈ t.partitions) :
      Carries (.produce r) p.errorCode
  | metadataTopic (r : MetadataResponse) (t : TopicMetadata) (ht : t ∈ r.topics) : Carries (.metadata r) t.errorCode
  | metadataPartition (r : MetadataResponse) (t : TopicMetadata) (p : PartitionMetadataInfo) (ht : t ∈ r.topics) (hp : p ∈ t.partitions) :
      Carries (.metadata r) p.errorCode
  | offsets (r : OffsetsResponse) (t) (p : PartitionOffset) (ht : t ∈ r.topicPartitionOffsets) (hp : p ∈ t.2) : Carries (.offsets r) p.errorCode
  | offsetFetch (r : OffsetFetchResponse) (t) (p : FetchedOffset) (ht : t ∈ r.topics) (hp : p ∈ t.2) : Carries (.offsetFetch r) p.errorCode
  | offsetCommit (r : OffsetCommitResponse) (t) (p : UInt32 × Int16) (ht : t ∈ r.topics) (hp : p ∈ t.2) : Carries (.offsetCommit r) p.2
  | describeGroups (r : DescribeGroupsResponse) (g : GroupDetail) (h : g ∈ r.groups) : Carries (.describeGroups r) g.errorCode
  | describeConfigs (r : DescribeConfigsResponse) (x : DescribedResource) (h : x ∈ r.resources) : Carries (.describeConfigs r) x.errorCode
  | reassignments (r : AlterPartitionReassignmentsResponse) : Carries (.alterPartitionReassignments r) r.errorCode
  | reassignment (r : AlterPartitionReassignmentsResponse) (t : ReassignedTopic) (p : ReassignedPartition) (ht : t ∈ r.responses)
      (hp : p ∈ t.partitions) : Carries (.alterPartitionReassignments r) p.errorCode
  | createTopics (r : TopicErrorsResponse) (x) (h : x ∈ r.topicErrors) : Carries (.createTopics r) x.2
  | deleteTopics (r : TopicErrorsResponse) (x) (h : x ∈ r.topicErrors) : Carries (.deleteTopics r) x.2
  | alterConfigs (r : AlterConfigsResponse) (x : AlteredResource) (h : x ∈ r.resources) : Carries (.alterConfigs r) x.errorCode
  | incrementalAlterConfigs (r : AlterConfigsResponse) (x : AlteredResource) (h : x ∈ r.resources) :
      Carries (.incrementalAlterConfigs r) x.errorCode
  | createAcls (r : CreateAclsResponse) (x) (h : x ∈ r.results) : Carries (.createAcls r) x.errorCode.toInt16
  | deleteAclsFilter (r : DeleteAclsResponse) (f : AclFilterResult) (h : f ∈ r.filterResults) : Carries (.deleteAcls r) f.errorCode
  | deleteAclsMatch (r : DeleteAclsResponse) (f : AclFilterResult) (m : MatchingAcl) (h : f ∈ r.filterResults) (hm : m ∈ f.matchingAcls) :
      Carries (.deleteAcls r) m.errorCode
  | deleteGroups (r : DeleteGroupsResponse) (x) (h : x ∈ r.results) : Carries (.deleteGroups r) x.2
  | createPartitions (r : CreatePartitionsResponse) (x : CreatePartitionsResult) (h : x ∈ r.results) : Carries (.createPartitions r) x.errorCode
  | describeLogDirs (r : DescribeLogDirsResponse) (x : LogDirResult) (h : x ∈ r.results) : Carries (.describeLogDirs r) x.errorCode
  | electLeaders (r : ElectLeadersResponse) (t) (p : PartitionResult) (ht : t ∈ r.results) (hp : p ∈ t.2) : Carries (.electLeaders r) p.errorCode

theorem firstDeref_none {codes : List (Int16 × Option Bytes)} (h : firstDeref codes = .ok none) : ∀ x ∈ codes, x.1 = 0 := by
  unfold firstDeref at h
  rcases hf : codes.find? fun x => x.1 ≠ 0 with _ | x
  · intro x hx
    have := List.find?_eq_none.1 hf x hx
    simpa using this
  · rw [hf] at h
    simp only [derefError] at h
    split at h <;> cases h

theorem firstDeref_zero {codes : List (Int16 × Option Bytes)} (h : ∀ x ∈ codes, x.1 = 0) : firstDeref codes = .ok none := by
  unfold firstDeref
  rw [List.find?_eq_none.2 fun x hx => by simp [h x hx]]

/-- C55: an answer that carries an error code other than zero is not taken for a success (it gives an error, or a crash), and one that
carries none is.
Missing for the full statement: the answer to list-groups, whose code is ignored (`C55_violated_listGroups`); the identity of codes 118 and
119; crashes
(`C70_violated_createPartitions_error`, `C72_violated_alter_error`, `C74_violated_deleteAcls_error`). -/
theorem C55_every_answer_partial (r : Response) (hr : ∀ l, r ≠ .listGroups l) : r.error = .ok none ↔ ∀ c, Carries r c → c = 0 := by
  cases r with
  | listGroups l => exact absurd rfl (hr l)
  | heartbeat r =>
    simp only [Response.error, ErrorResponse.error, Out.ok.injEq, (C55_nonzero_is_error _).1]
    exact ⟨fun h c hc => by cases hc; exact h, fun h => h _ (.heartbeat r)⟩
  | leaveGroup r =>
    simp only [Response.error, ErrorResponse.error, Out.ok.injEq, (C55_nonzero_is_error _).1]
    exact ⟨fun h c hc => by cases hc; exact h, fun h => h _ (.leaveGroup r)⟩
  | apiVersions r =>
    simp only [Response.error, APIVersionsResponse.error, Out.ok.injEq, (C55_nonzero_is_error _).2.1]
    exact ⟨fun h c hc => by cases hc; exact h, fun h => h _ (.apiVersions r)⟩
  | saslHandshake r =>
    simp only [Response.error, SaslHandshakeResponse.error, Out.ok.injEq, (C55_nonzero_is_error _).2.1]
    exact ⟨fun h c hc => by cases hc; exact h, fun h => h _ (.saslHandshake r)⟩
  | saslAuthenticate r =>
    simp only [Response.error, SaslAuthenticateResponse.error, Out.ok.injEq, (C55_nonzero_is_error _).1]
    exact ⟨fun h c hc => by cases hc; exact h, fun h => h _ (.saslAuthenticate r)⟩
  | findCoordinator r =>
    simp only [Response.error, FindCoordinatorResponse.error, Out.ok.injEq, (C55_nonzero_is_error _).1]
    exact ⟨fun h c hc => by cases hc; exact h, fun h => h _ (.findCoordinator r)⟩
  | joinGroup r =>
    simp only [Response.error, JoinGroupResponse.error, Out.ok.injEq, (C55_nonzero_is_error _).1]
    exact ⟨fun h c hc => by cases hc; exact h, fun h => h _ (.joinGroup r)⟩
  | syncGroup r =>
    simp only [Response.error, SyncGroupResponse.error, Out.ok.injEq, (C55_nonzero_is_error _).2.1]
    exact ⟨fun h c hc => by cases hc; exact h, fun h => h _ (.syncGroup r)⟩
  | describeAcls r =>
    simp only [Response.error, DescribeAclsResponse.error, Out.ok.injEq, (C55_first_error _).1, List.mem_singleton, forall_eq]
    exact ⟨fun h c hc => by cases hc; exact h, fun h => h _ (.describeAcls r)⟩
  | listPartitionReassignments r =>
    simp only [Response.error, ListPartitionReassignmentsResponse.error, Out.ok.injEq, (C55_nonzero_is_error _).1]
    exact ⟨fun h c hc => by cases hc; exact h, fun h => h _ (.listPartitionReassignments r)⟩
  | produce r =>
    simp only [Response.error, ProduceResponse.error, Out.ok.injEq, (C55_first_error _).1, List.mem_flatMap, List.mem_map]
    exact ⟨fun h c hc => by cases hc with | produce r t p ht hp => exact h _ ⟨t, ht, p, hp, rfl⟩,
      fun h c ⟨t, ht, p, hp, e⟩ => e ▸ h _ (.produce r t p ht hp)⟩
  | metadata r =>
    simp only [Response.error, MetadataResponse.error, Out.ok.injEq, Option.map_eq_none_iff, (C55_first_error _).1, List.mem_flatMap,
      List.mem_cons, List.mem_map]
    exact ⟨fun h c hc => by
        cases hc with
        | metadataTopic r t ht => exact h _ ⟨t, ht, .inl rfl⟩
        | metadataPartition r t p ht hp => exact h _ ⟨t, ht, .inr ⟨p, hp, rfl⟩⟩,
      fun h c ⟨t, ht, hc⟩ => by
        rcases hc with rfl | ⟨p, hp, rfl⟩
        · exact h _ (.metadataTopic r t ht)
        · exact h _ (.metadataPartition r t p ht hp)⟩
  | offsets r =>
    simp only [Response.error, OffsetsResponse.error, Out.ok.injEq, Option.map_eq_none_iff, (C55_first_error _).1, List.mem_flatMap, List.mem_map]
    exact ⟨fun h c hc => by cases hc with | offsets r t p ht hp => exact h _ ⟨t, ht, p, hp, rfl⟩,
      fun h c ⟨t, ht, p, hp, e⟩ => e ▸ h _ (.offsets r t p ht hp)⟩
  | offsetFetch r =>
    simp only [Response.error, OffsetFetchResponse.error, Out.ok.injEq, Option.map_eq_none_iff, (C55_first_error _).1, List.mem_flatMap, List.mem_map]
    exact ⟨fun h c hc => by cases hc with | offsetFetch r t p ht hp => exact h _ ⟨t, ht, p, hp, rfl⟩,
      fun h c ⟨t, ht, p, hp, e⟩ => e ▸ h _ (.offsetFetch r t p ht hp)⟩
  | offsetCommit r =>
    simp only [Response.error, OffsetCommitResponse.error, Out.ok.injEq, (C55_first_error _).1, List.mem_flatMap, List.mem_map]
    exact ⟨fun h c hc => by cases hc with | offsetCommit r t p ht hp => exact h _ ⟨t, ht, p, hp, rfl⟩,
      fun h c ⟨t, ht, p, hp, e⟩ => e ▸ h _ (.offsetCommit r t p ht hp)⟩
  | describeGroups r =>
    simp only [Response.error, DescribeGroupsResponse.error, Out.ok.injEq, (C55_first_error _).1, List.mem_map]
    exact ⟨fun h c hc => by cases hc with | describeGroups r g hg => exact h _ ⟨g, hg, rfl⟩, fun h c ⟨g, hg, e⟩ => e ▸ h _ (.describeGroups r g hg)⟩
  | describeConfigs r =>
    simp only [Response.error, DescribeConfigsResponse.error, Out.ok.injEq, Option.map_eq_none_iff, (C55_first_error _).1, List.mem_map]
    exact ⟨fun h c hc => by cases hc with | describeConfigs r g hg => exact h _ ⟨g, hg, rfl⟩, fun h c ⟨g, hg, e⟩ => e ▸ h _ (.describeConfigs r g hg)⟩
  | alterPartitionReassignments r =>
    simp only [Response.error, AlterPartitionReassignmentsResponse.error]
    refine ⟨fun h c hc => ?_, fun h => firstDeref_zero fun x hx => ?_⟩
    · have h := firstDeref_none h
      cases hc with
      | reassignments r => exact h _ (List.mem_cons_self ..)
      | reassignment r t p ht hp =>
        exact h (p.errorCode, p.errorMsg) (List.mem_cons_of_mem _ (List.mem_flatMap.2 ⟨t, ht, List.mem_map.2 ⟨p, hp, rfl⟩⟩))
    · rcases List.mem_cons.1 hx with rfl | hx
      · exact h _ (.reassignments r)
      · obtain ⟨t, ht, hx⟩ := List.mem_flatMap.1 hx
        obtain ⟨p, hp, rfl⟩ := List.mem_map.1 hx
        exact h _ (.reassignment r t p ht hp)
  | createTopics r =>
    simp only [Response.error, TopicErrorsResponse.createError, Out.ok.injEq, (C55_first_error _).1, List.mem_map]
    exact ⟨fun h c hc => by cases hc with | createTopics r g hg => exact h _ ⟨g, hg, rfl⟩, fun h c ⟨g, hg, e⟩ => e ▸ h _ (.createTopics r g hg)⟩
  | deleteTopics r =>
    simp only [Response.error, TopicErrorsResponse.deleteError, Out.ok.injEq, Option.map_eq_none_iff, (C55_first_error _).1, List.mem_map]
    exact ⟨fun h c hc => by cases hc with | deleteTopics r g hg => exact h _ ⟨g, hg, rfl⟩, fun h c ⟨g, hg, e⟩ => e ▸ h _ (.deleteTopics r g hg)⟩
  | alterConfigs r =>
    simp only [Response.error, AlterConfigsResponse.error, Out.ok.injEq, (C55_first_error _).1, List.mem_map]
    exact ⟨fun h c hc => by cases hc with | alterConfigs r g hg => exact h _ ⟨g, hg, rfl⟩, fun h c ⟨g, hg, e⟩ => e ▸ h _ (.alterConfigs r g hg)⟩
  | incrementalAlterConfigs r =>
    simp only [Response.error, AlterConfigsResponse.error, Out.ok.injEq, (C55_first_error _).1, List.mem_map]
    exact ⟨fun h c hc => by cases hc with | incrementalAlterConfigs r g hg => exact h _ ⟨g, hg, rfl⟩,
      fun h c ⟨g, hg, e⟩ => e ▸ h _ (.incrementalAlterConfigs r g hg)⟩
  | createAcls r =>
    simp only [Response.error, CreateAclsResponse.error, Out.ok.injEq, (C55_first_error _).1, List.mem_map]
    exact ⟨fun h c hc => by cases hc with | createAcls r g hg => exact h _ ⟨g, hg, rfl⟩, fun h c ⟨g, hg, e⟩ => e ▸ h _ (.createAcls r g hg)⟩
  | deleteAcls r =>
    simp only [Response.error, DeleteAclsResponse.error]
    refine ⟨fun h c hc => ?_, fun h => firstDeref_zero fun x hx => ?_⟩
    · have h := firstDeref_none h
      cases hc with
      | deleteAclsFilter r f hf => exact h (f.errorCode, f.errorMessage) (List.mem_flatMap.2 ⟨f, hf, List.mem_cons_self ..⟩)
      | deleteAclsMatch r f m hf hm =>
        exact h (m.errorCode, m.errorMessage) (List.mem_flatMap.2 ⟨f, hf, List.mem_cons_of_mem _ (List.mem_map.2 ⟨m, hm, rfl⟩)⟩)
    · obtain ⟨f, hf, hx⟩ := List.mem_flatMap.1 hx
      rcases List.mem_cons.1 hx with rfl | hx
      · exact h _ (.deleteAclsFilter r f hf)
      · obtain ⟨m, hm, rfl⟩ := List.mem_map.1 hx
        exact h _ (.deleteAclsMatch r f m hf hm)
  | deleteGroups r =>
    simp only [Response.error, DeleteGroupsResponse.error, Out.ok.injEq, Option.map_eq_none_iff, (C55_first_error _).1, List.mem_map]
    exact ⟨fun h c hc => by cases hc with | deleteGroups r g hg => exact h _ ⟨g, hg, rfl⟩, fun h c ⟨g, hg, e⟩ => e ▸ h _ (.deleteGroups r g hg)⟩
  | createPartitions r =>
    simp only [Response.error, CreatePartitionsResponse.error]
    rcases hf : r.results.find? fun x => decide (x.errorCode ≠ 0) with _ | x <;> simp only [hf]
    · refine ⟨fun _ c hc => ?_, fun _ => trivial⟩
      cases hc with
      | createPartitions r x hx => simpa using List.find?_eq_none.1 hf x hx
    · refine ⟨fun h => ?_, fun h => ?_⟩
      · split at h <;> cases h
      · have := h _ (.createPartitions r x (List.mem_of_find?_eq_some hf))
        have h2 := List.find?_some hf
        simp [this] at h2
  | describeLogDirs r =>
    simp only [Response.error, DescribeLogDirsResponse.error, Out.ok.injEq, (C55_first_error _).1, List.mem_map]
    exact ⟨fun h c hc => by cases hc with | describeLogDirs r g hg => exact h _ ⟨g, hg, rfl⟩, fun h c ⟨g, hg, e⟩ => e ▸ h _ (.describeLogDirs r g hg)⟩
  | electLeaders r =>
    simp only [Response.error, ElectLeadersResponse.error, Out.ok.injEq, Option.map_eq_none_iff, (C55_first_error _).1, List.mem_flatMap, List.mem_map]
    exact ⟨fun h c hc => by cases hc with | electLeaders r t p ht hp => exact h _ ⟨t, ht, p, hp, rfl⟩,
      fun h c ⟨t, ht, p, hp, e⟩ => e ▸ h _ (.electLeaders r t p ht hp)⟩

example : (Response.joinGroup ⟨1, 27, 0, [], [], [], []⟩).error = .ok (some (.kafka 27)) ∧ Carries (.joinGroup ⟨1, 27, 0, [], [], [], []⟩) 27 :=
  ⟨by decide +kernel, .joinGroup ⟨1, 27, 0, [], [], [], []⟩⟩

/-- C55, as a user of a broker sees it: a call that succeeds had an answer all of whose error codes are zero.
Missing: as for `C55_every_answer_partial`. -/
theorem C55_call_partial (r : Req) (b b' : Broker) (x : Response) (h : requestAndGet r b = (.ok x, b')) (hx : ∀ l, x ≠ .listGroups l) :
    ∀ c, Carries x c → c = 0 := by
  obtain ⟨b2, h2, rfl⟩ := locked_ok h
  obtain ⟨u, b3, h3, hx'⟩ := B.bind_ok h2
  obtain ⟨c, p, v, evs, -, -, he, -⟩ := exchange_ok hx'
  exact (C55_every_answer_partial x hx).1 he

example : (requestAndGet hbReq (newBroker noSasl [reading [.data (verAnswer 1), .data (hbAnswer 2 27)]]).2).1 = .err (.wrapped (.kafka 27)) := by decide +kernel

/-- C55 does not hold for list-groups: an answer saying COORDINATOR_NOT_AVAILABLE (15) is taken for a success. -/
theorem C55_violated_listGroups : ∃ r, Carries r 15 ∧ r.error = .ok none :=
  ⟨_, .listGroups ⟨⟨16, 0, 0, 1, none⟩, 0, 15, [], none⟩, rfl⟩

end Healer
