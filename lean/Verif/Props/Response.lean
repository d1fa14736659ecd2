import Verif.Lemmas.Response
import Verif.Lemmas.Group
import Verif.Spec.Error
import Verif.Props.Header

/-!
# Responses: group membership and offsets (C66, C67, C81)

Each theorem quantifies over all values a broker may put into the response (strings up to the protocol's
32767 bytes, the whole response below 2 GiB) and compares what the decoder returns with those values.
-/

namespace Healer

open Kafka (IsString)

/-- the first non-zero code, as an error -/
def firstCode (codes : List Int16) : Option Err := (codes.find? (· != 0)).map Err.kafka

theorem firstKafkaErr_eq (cs : List Int16) : firstKafkaErr cs = firstCode cs := by
  induction cs with
  | nil => rfl
  | cons c cs ih =>
    unfold firstKafkaErr
    by_cases h : c = 0
    · rw [if_pos h, ih]; simp [firstCode, h]
    · rw [if_neg h]; simp [firstCode, h]

/-- The error for one code: none for 0, the code itself otherwise. -/
def codeError (code : Int16) : Option Err := if code = 0 then none else some (.kafka code)

/-! ## Group membership -/

/-- C66, join group. -/
theorem C66_joinGroup (r : JoinGroupResponse) (h1 : IsString r.groupProtocol) (h2 : IsString r.leaderID)
    (h3 : IsString r.memberID) (h4 : ∀ m ∈ r.members, IsString m.memberID)
    (hl : (Kafka.response .joinGroup 0 r.correlationID.toNat [] (Kafka.joinGroupResponse r.errorCode.toInt
      r.generationID.toInt r.groupProtocol r.leaderID r.memberID
      (r.members.map fun m => (m.memberID, m.memberMetadata)))).length < 2 ^ 31) :
    newJoinGroupResponse (Kafka.response .joinGroup 0 r.correlationID.toNat [] (Kafka.joinGroupResponse
      r.errorCode.toInt r.generationID.toInt r.groupProtocol r.leaderID r.memberID
      (r.members.map fun m => (m.memberID, m.memberMetadata)))) = .ok (r, codeError r.errorCode) := by
  refine respond_plain rfl ?_ hl
  unfold Kafka.joinGroupResponse
  simp only [List.append_assoc]
  refine .bind (sreads_i16 _) <| .bind (sreads_i32 _) <| .bind (sreads_str16 h1) <| .bind (sreads_str16 h2) <|
    .bind (sreads_str16 h3) <| .bind_pure (g := fun ms => (JoinGroupResponse.mk _ _ _ _ _ _ ms, _)) ?_
  refine sreads_arr32 (fun m : Member => (m.memberID, m.memberMetadata)) _ (by nonempty) fun m hm => ?_
  exact .bind (sreads_str16 (h4 m hm)) (.bind_pure (g := fun x => Member.mk _ x) (sreads_bytes32 _))

example : newJoinGroupResponse (Kafka.response .joinGroup 0 7 [] (Kafka.joinGroupResponse 27 3 [114] [97] [98] [([97],
      [1, 2]), ([98], [])])) =
    .ok (⟨7, 27, 3, [114], [97], [98], [⟨[97], [1, 2]⟩, ⟨[98], []⟩]⟩, some (Err.kafka 27)) := by decide +kernel

/-- C66, sync group. -/
theorem C66_syncGroup (r : SyncGroupResponse)
    (hl : (Kafka.response .syncGroup 0 r.correlationID.toNat []
      (Kafka.syncGroupResponse r.errorCode.toInt r.memberAssignment)).length < 2 ^ 31) :
    newSyncGroupResponse (Kafka.response .syncGroup 0 r.correlationID.toNat []
      (Kafka.syncGroupResponse r.errorCode.toInt r.memberAssignment)) = .ok (r, codeError r.errorCode) := by
  refine respond_plain rfl ?_ hl
  exact .bind (sreads_i16 _) (.bind_pure (g := fun x => (SyncGroupResponse.mk _ _ x, _)) (sreads_bytes32 _))

example : newSyncGroupResponse (Kafka.response .syncGroup 0 7 [] (Kafka.syncGroupResponse 0 [1, 2, 3])) =
    .ok (⟨7, 0, [1, 2, 3]⟩, none) := by decide +kernel

/-- C66, heartbeat. -/
theorem C66_heartbeat (r : ErrorResponse) :
    newHeartbeatResponse (Kafka.response .heartbeat 0 r.correlationID.toNat []
      (Kafka.heartbeatResponse r.errorCode.toInt)) = .ok (r, codeError r.errorCode) := by
  refine respond_plain rfl (.bind_pure (g := fun e => (ErrorResponse.mk _ e, kafkaErr e)) (sreads_i16 _)) ?_
  rw [response_plain _ _ _ _ _ rfl]
  simp [Kafka.frame, Kafka.heartbeatResponse]

example : newHeartbeatResponse (Kafka.response .heartbeat 0 7 [] (Kafka.heartbeatResponse 27)) =
    .ok (⟨7, 27⟩, some (Err.kafka 27)) := by decide +kernel

/-- C66, leave group. -/
theorem C66_leaveGroup (r : ErrorResponse) :
    newLeaveGroupResponse (Kafka.response .leaveGroup 0 r.correlationID.toNat []
      (Kafka.leaveGroupResponse r.errorCode.toInt)) = .ok (r, codeError r.errorCode) := by
  refine respond_plain rfl (.bind_pure (g := fun e => (ErrorResponse.mk _ e, kafkaErr e)) (sreads_i16 _)) ?_
  rw [response_plain _ _ _ _ _ rfl]
  simp [Kafka.frame, Kafka.leaveGroupResponse]

example : newLeaveGroupResponse (Kafka.response .leaveGroup 0 7 [] (Kafka.leaveGroupResponse 25)) =
    .ok (⟨7, 25⟩, some (Err.kafka 25)) := by decide +kernel

/-- C66, find coordinator.  The decoder itself reports no error; see `C66_findCoordinator_error`. -/
theorem C66_findCoordinator (r : FindCoordinatorResponse) (h : IsString r.host) :
    newFindCoordinatorResponse (Kafka.response .findCoordinator 0 r.correlationID.toNat []
      (Kafka.findCoordinatorResponse r.errorCode.toInt r.nodeID.toInt r.host r.port.toInt)) = .ok (r, none) := by
  refine respond_plain rfl ?_ ?_
  · unfold Kafka.findCoordinatorResponse
    simp only [List.append_assoc]
    exact .bind (sreads_i16 _) <| .bind (sreads_i32 _) <| .bind (sreads_str16 h) <|
      .bind_pure (g := fun x => (FindCoordinatorResponse.mk _ _ _ _ x, none)) (sreads_i32 _)
  · rw [response_plain _ _ _ _ _ rfl]
    simp only [Kafka.frame, Kafka.findCoordinatorResponse, List.length_append, int32_length, int16_length, string_length]
    unfold IsString at h
    omega

example : newFindCoordinatorResponse (Kafka.response .findCoordinator 0 7 [] (Kafka.findCoordinatorResponse 0 2 [104]
      9092)) =
    .ok (⟨7, 0, 2, [104], 9092⟩, none) := by decide +kernel

/-- C66: `Error()` of join, sync, heartbeat, leave and find-coordinator responses is nil exactly for code 0. -/
theorem C66_error_methods (code : Int16) :
    ((∀ r : JoinGroupResponse, r.errorCode = code → (r.error = none ↔ code = 0)) ∧
     (∀ r : SyncGroupResponse, r.errorCode = code → (r.error = none ↔ code = 0)) ∧
     (∀ r : ErrorResponse, r.errorCode = code → (r.error = none ↔ code = 0)) ∧
     (∀ r : FindCoordinatorResponse, r.errorCode = code → (r.error = none ↔ code = 0))) := by
  have h : getErrorFromErrorCode code = none ↔ code = 0 := by
    unfold getErrorFromErrorCode
    by_cases h : code = 0
    · simp [h]
    · rw [if_neg h]
      split <;> simp [h]
  have h' : kafkaErr code = none ↔ code = 0 := by
    unfold kafkaErr
    by_cases h : code = 0 <;> simp [h]
  refine ⟨?_, ?_, ?_, ?_⟩ <;> intro r hr <;> subst hr
  · exact h
  · exact h'
  · exact h
  · exact h

example : (⟨7, 27⟩ : ErrorResponse).error =
    some (Err.kafka 27) := by decide +kernel

/-- C66, delete groups. -/
theorem C66_deleteGroups (r : DeleteGroupsResponse) (h : ∀ x ∈ r.results, IsString x.1)
    (hl : (Kafka.response .deleteGroups 0 r.correlationID.toNat [] (Kafka.deleteGroupsResponse r.throttleTimeMs.toInt
      (r.results.map fun x => (x.1, x.2.toInt)))).length < 2 ^ 31) :
    newDeleteGroupsResponse (Kafka.response .deleteGroups 0 r.correlationID.toNat []
      (Kafka.deleteGroupsResponse r.throttleTimeMs.toInt (r.results.map fun x => (x.1, x.2.toInt)))) = .ok (r, none) ∧
    (r.error = none ↔ ∀ x ∈ r.results, x.2 = 0) := by
  constructor
  · refine respond_plain rfl ?_ hl
    refine .bind (sreads_i32 _) <| .bind_pure (g := fun x => (DeleteGroupsResponse.mk _ _ x, none)) ?_
    refine sreads_arr32 (fun x : Bytes × Int16 => (x.1, x.2.toInt)) _ (by nonempty) fun m hm => ?_
    exact .bind (sreads_str16 (h m hm)) (.bind_pure (g := fun x => (_, x)) (sreads_i16 _))
  · simp [DeleteGroupsResponse.error, firstKafkaErr_eq, firstCode]

example : newDeleteGroupsResponse (Kafka.response .deleteGroups 0 7 [] (Kafka.deleteGroupsResponse 5 [([97], 0),
      ([98], 68)])) =
    .ok (⟨7, 5, [([97], 0), ([98], 68)]⟩, none) := by decide +kernel

/-- What a client sees of a group in a given version: fields the version does not carry are empty. -/
def ListedGroup.seen (v : UInt16) (g : ListedGroup) : ListedGroup :=
  { g with groupState := if 4 ≤ v.toNat then g.groupState else [], groupType := if 5 ≤ v.toNat then g.groupType else [],
           taggedFields := if 3 ≤ v.toNat then g.taggedFields.norm else none }

/-- A listed group on the wire. -/
def ListedGroup.wire (g : ListedGroup) : Kafka.ListedGroup :=
  ⟨g.groupID, g.protocolType, g.groupState, g.groupType, g.taggedFields.wire⟩

theorem sreads_group (v : UInt16) (f : Bool) (g : ListedGroup) (hf : f = decide (3 ≤ v.toNat))
    (h1 : IsString g.groupID) (h2 : IsString g.protocolType) (h3 : IsString g.groupState) (h4 : IsString g.groupType)
    (ht : g.taggedFields.Fits) :
    SReads (Cur.call (decodeToGroup v f)) (Kafka.flexString f g.wire.id ++ Kafka.flexString f g.wire.protocolType ++
      (if 4 ≤ v.toNat then Kafka.flexString f g.wire.state else []) ++
      (if 5 ≤ v.toNat then Kafka.flexString f g.wire.type else []) ++ Kafka.flexTags f g.wire.tags) (g.seen v) := by
  have i4 : (v ≥ 4) ↔ (4 ≤ v.toNat) := (decide_eq_decide.1 (UInt16.ge_iff v 4 (by omega)))
  have i5 : (v ≥ 5) ↔ (5 ≤ v.toNat) := (decide_eq_decide.1 (UInt16.ge_iff v 5 (by omega)))
  refine .call_run ?_
  simp only [List.append_assoc]
  refine .bind (sreads_flexString fun _ => h1) <| .bind (sreads_flexString fun _ => h2) <|
    .bind (.cond' i4 fun _ => sreads_flexString fun _ => h3) <|
    .bind (.cond' i5 fun _ => sreads_flexString fun _ => h4) <| ?_
  refine (SReads.bind_pure (g := fun x => ListedGroup.mk _ _ _ _ x) (sreads_flexTags ht)).cast rfl ?_
  subst hf; simp [ListedGroup.seen, ListedGroup.wire]

/-- The decoder on a list-groups response of any version. -/
theorem listGroups_decoded (v : UInt16) (hv : v ∈ clientVersions API_ListGroups) (corr : UInt32)
    (htags : TaggedFields) (hht : htags.Fits) (throttle : Int32) (error : UInt16) (gs : List ListedGroup)
    (tags : TaggedFields) (htg : tags.Fits)
    (hg : ∀ g ∈ gs, IsString g.groupID ∧ IsString g.protocolType ∧ IsString g.groupState ∧ IsString g.groupType ∧
      g.taggedFields.Fits)
    (hl : (Kafka.response .listGroups v.toNat corr.toNat htags.wire (Kafka.listGroupsResponse v.toNat throttle.toInt
      error.toNat (gs.map ListedGroup.wire) tags.wire)).length < 2 ^ 31) :
    ∃ hv' : UInt16, responseHeaderVersion API_ListGroups v = some hv' ∧
      newListGroupsResponse v (Kafka.response .listGroups v.toNat corr.toNat htags.wire
        (Kafka.listGroupsResponse v.toNat throttle.toInt error.toNat (gs.map ListedGroup.wire) tags.wire)) =
        .ok (⟨⟨API_ListGroups, v, hv', corr, if 1 ≤ hv'.toNat then htags.norm else none⟩, if 1 ≤ v.toNat then throttle else 0,
          error, gs.map (ListedGroup.seen v), if decide (hv' ≥ 1) then tags.norm else none⟩, none) := by
  have hv' : v = 5 ∨ v = 4 ∨ v = 3 ∨ v = 2 ∨ v = 1 ∨ v = 0 := by
    simpa [clientVersions, availableVersions, API_ListGroups] using hv
  obtain ⟨hv', hh, ha, hf1, hf2⟩ : ∃ hv' : UInt16, responseHeaderVersion API_ListGroups v = some hv' ∧
      Kafka.Api.responseHeaderVersion .listGroups v.toNat = hv'.toNat ∧
      Kafka.Api.flexible .listGroups v.toNat = decide (hv' ≥ 1) ∧
      decide (hv' ≥ 1) = decide (3 ≤ v.toNat) := by
    rcases hv' with rfl | rfl | rfl | rfl | rfl | rfl
    · exact ⟨1, by decide⟩
    · exact ⟨1, by decide⟩
    · exact ⟨1, by decide⟩
    · exact ⟨0, by decide⟩
    · exact ⟨0, by decide⟩
    · exact ⟨0, by decide⟩
  have i1 : (v ≥ 1) ↔ (1 ≤ v.toNat) := (decide_eq_decide.1 (ge1 v))
  refine ⟨hv', hh, respond_header hh ha hht ?_ hl⟩
  unfold Kafka.listGroupsResponse
  simp only [hf1, List.append_assoc]
  refine .bind (.cond' i1 fun _ => sreads_i32 _) <| .bind (sreads_u16 _) <| ?_
  refine sreads_flexArr (c := Cur.call (decodeToGroup v (decide (hv' ≥ 1)))) (decide (hv' ≥ 1)) ListedGroup.wire (ListedGroup.seen v) gs ?_ ?_ ?_
  · intro x
    simp only [List.length_append]
    have := flexString_pos (decide (hv' ≥ 1)) x.id
    omega
  · intro g hm
    obtain ⟨h1, h2, h3, h4, h5⟩ := hg g hm
    have := sreads_group v (decide (hv' ≥ 1)) g hf2 h1 h2 h3 h4 h5
    simpa only [List.append_assoc] using this
  · intro n hn hr
    exact .bind (sreads_condN hn hr) (.bind_pure (g := fun x => (ListGroupsResponse.mk _ _ _ _ x, none)) (sreads_flexTags htg))

/-- C66, list groups, all versions: every value is read.  (The error code is only stored; see
`C66_violated_listGroups_error`.) -/
theorem C66_listGroups_partial (v : UInt16) (hv : v ∈ clientVersions API_ListGroups) (corr : UInt32)
    (htags : TaggedFields) (hht : htags.Fits) (throttle : Int32) (error : UInt16) (gs : List ListedGroup)
    (tags : TaggedFields) (htg : tags.Fits)
    (hg : ∀ g ∈ gs, IsString g.groupID ∧ IsString g.protocolType ∧ IsString g.groupState ∧ IsString g.groupType ∧
      g.taggedFields.Fits)
    (hl : (Kafka.response .listGroups v.toNat corr.toNat htags.wire (Kafka.listGroupsResponse v.toNat throttle.toInt
      error.toNat (gs.map ListedGroup.wire) tags.wire)).length < 2 ^ 31) :
    ∃ r, newListGroupsResponse v (Kafka.response .listGroups v.toNat corr.toNat htags.wire
        (Kafka.listGroupsResponse v.toNat throttle.toInt error.toNat (gs.map ListedGroup.wire) tags.wire)) = .ok (r, none) ∧
      r.header.correlationID = corr ∧ r.throttleTimeMS = (if 1 ≤ v.toNat then throttle else 0) ∧
      r.errorCode = error ∧ r.groups = gs.map (ListedGroup.seen v) := by
  obtain ⟨_, _, h⟩ := listGroups_decoded v hv corr htags hht throttle error gs tags htg hg hl
  exact ⟨_, h, rfl, rfl, rfl, rfl⟩

example : newListGroupsResponse 3 (Kafka.response .listGroups 3 7 [] (Kafka.listGroupsResponse 3 5 0 [⟨[103], [99],
      [], [], []⟩] [])) =
    .ok (⟨⟨16, 3, 1, 7, none⟩,
      5, 0, [⟨[103], [99], [],
      [], none⟩], none⟩, none) := by decide +kernel

/-- C66 fails for list-groups: a broker that answers with an error code (here 15, coordinator not available) is
reported by neither the decoder nor `Error()`. -/
theorem C66_violated_listGroups_error :
    ∃ r, newListGroupsResponse 0 (Kafka.response .listGroups 0 7 [] (Kafka.listGroupsResponse 0 0 15 [] [])) =
      .ok (r, none) ∧ r.errorCode = 15 ∧ r.error = none :=
  ⟨⟨⟨16, 0, 0, 7, none⟩, 0, 15, [], none⟩, by decide +kernel, rfl, rfl⟩

/-- A described member on the wire. -/
def MemberDetail.wire (m : MemberDetail) : Kafka.DescribedMember :=
  ⟨m.memberID, m.clientID, m.clientHost, m.memberMetadata, m.rawMemberAssignment⟩

/-- A described group on the wire. -/
def GroupDetail.wire (g : GroupDetail) : Kafka.DescribedGroup :=
  ⟨g.errorCode.toInt, g.groupID, g.state, g.protocolType, g.protocol, g.members.map MemberDetail.wire⟩

/-- All texts are protocol strings and the assignment is one in the protocol's encoding. -/
structure MemberDetail.Sent (m : MemberDetail) : Prop where
  memberID : IsString m.memberID
  clientID : IsString m.clientID
  host : IsString m.clientHost
  assignment : ∃ (v : Int16) (pas : List PartitionAssignment) (u : Bytes), pas.length < 2 ^ 31 ∧ u.length < 2 ^ 31 ∧
    (∀ p ∈ pas, p.topic.length < 2 ^ 16 ∧ p.partitions.length < 2 ^ 32) ∧
    m.rawMemberAssignment = Kafka.assignment v.toInt (pas.map fun p => (p.topic, p.partitions.map Int32.toInt)) u ∧
    m.memberAssignment = some ⟨v, pas, some u⟩

structure GroupDetail.Sent (g : GroupDetail) : Prop where
  groupID : IsString g.groupID
  state : IsString g.state
  protocolType : IsString g.protocolType
  protocol : IsString g.protocol
  members : ∀ m ∈ g.members, m.Sent

/-- The member without its subscription metadata. -/
def MemberDetail.dropMetadata (m : MemberDetail) : MemberDetail := { m with memberMetadata := [] }

def GroupDetail.dropMetadata (g : GroupDetail) : GroupDetail :=
  { g with members := g.members.map MemberDetail.dropMetadata }

/-- as read, before the assignment is decoded -/
def MemberDetail.raw (m : MemberDetail) : MemberDetail := { m with memberMetadata := [], memberAssignment := none }
def GroupDetail.raw (g : GroupDetail) : GroupDetail := { g with members := g.members.map MemberDetail.raw }

theorem assignMembers_raw (ms : List MemberDetail) (h : ∀ m ∈ ms, m.Sent) (err : Option Err) :
    assignMembers err (ms.map MemberDetail.raw) =
      .ok (ms.map MemberDetail.dropMetadata, if ms = [] then err else none) := by
  induction ms generalizing err with
  | nil => rfl
  | cons m ms ih =>
    obtain ⟨v, pas, u, h1, h2, h3, h4, h5⟩ := (h m (by simp)).assignment
    have hd := newMemberAssignment_grammar v pas u [] h1 h2 h3
    rw [List.append_nil, ← h4] at hd
    have ha : m.raw.assign = .ok (m.dropMetadata, none) := by
      unfold MemberDetail.assign
      have : m.raw.rawMemberAssignment = m.rawMemberAssignment := rfl
      rw [this, hd]
      simp only [MemberDetail.raw, MemberDetail.dropMetadata, h5]
    simp only [List.map_cons, assignMembers, ha, ih (fun x hx => h x (by simp [hx]))]
    simp

theorem assignGroups_raw (gs : List GroupDetail) (h : ∀ g ∈ gs, g.Sent) (err : Option Err) :
    ∃ e, assignGroups err (gs.map GroupDetail.raw) = .ok (gs.map GroupDetail.dropMetadata, e) ∧
      ((∀ g ∈ gs, g.members = []) → e = (if err = none then firstCode (gs.map GroupDetail.errorCode) else err)) := by
  induction gs generalizing err with
  | nil => exact ⟨err, rfl, fun _ => by cases err <;> rfl⟩
  | cons g gs ih =>
    have hm := assignMembers_raw g.members (h g (by simp)).members
      (if err = none ∧ g.errorCode ≠ 0 then some (.kafka g.errorCode) else err)
    obtain ⟨e, he, he'⟩ := ih (fun x hx => h x (by simp [hx]))
      (if g.members = [] then (if err = none ∧ g.errorCode ≠ 0 then some (.kafka g.errorCode) else err) else none)
    refine ⟨e, ?_, ?_⟩
    · simp only [List.map_cons, assignGroups]
      have e1 : g.raw.errorCode = g.errorCode := rfl
      have e2 : g.raw.members = g.members.map MemberDetail.raw := rfl
      rw [e1, e2, hm]
      simp only
      rw [he]
      rfl
    · intro hall
      rw [he' (fun x hx => hall x (by simp [hx])), if_pos (hall g (by simp))]
      by_cases h0 : err = none
      · by_cases h1 : g.errorCode = 0
        · simp [h0, h1, firstCode]
        · simp [h0, h1, firstCode]
      · simp [h0]

/-- C66, describe groups: everything but the members' subscription metadata is read, `Error()` reports the first
group error, and so does the decoder when no group has members.  Missing: the metadata
(`C66_violated_describeGroups_metadata`) and the decoder's error for groups with members
(`C66_violated_describeGroups_error`). -/
theorem C66_describeGroups_partial (r : DescribeGroupsResponse) (h : ∀ g ∈ r.groups, g.Sent)
    (hl : (Kafka.response .describeGroups 0 r.correlationID.toNat []
      (Kafka.describeGroupsResponse (r.groups.map GroupDetail.wire))).length < 2 ^ 31) :
    ∃ r' e, newDescribeGroupsResponse (Kafka.response .describeGroups 0 r.correlationID.toNat []
        (Kafka.describeGroupsResponse (r.groups.map GroupDetail.wire))) = .ok (r', e) ∧
      r' = { r with groups := r.groups.map GroupDetail.dropMetadata } ∧
      r'.error = firstCode (r.groups.map GroupDetail.errorCode) ∧
      ((∀ g ∈ r.groups, g.members = []) → e = firstCode (r.groups.map GroupDetail.errorCode)) := by
  obtain ⟨e, he, he'⟩ := assignGroups_raw r.groups h none
  refine ⟨_, e, ?_, rfl, ?_, by simpa using he'⟩
  · have : respond (do
        let c ← rdU32
        let gs ← rdArr32 rdGroupDetail
        pure (⟨c, gs⟩ : DescribeGroupsResponse)) (Kafka.response .describeGroups 0 r.correlationID.toNat []
          (Kafka.describeGroupsResponse (r.groups.map GroupDetail.wire)))
        = .ok ⟨r.correlationID, r.groups.map GroupDetail.raw⟩ := by
      refine respond_plain rfl (.bind_pure (g := fun x => DescribeGroupsResponse.mk _ x) ?_) hl
      unfold Kafka.describeGroupsResponse
      have := sreads_arr32' (c := rdGroupDetail) (enc := fun g : GroupDetail => (fun g : Kafka.DescribedGroup =>
        Kafka.int16 g.error ++ Kafka.string g.id ++ Kafka.string g.state ++ Kafka.string g.protocolType ++
        Kafka.string g.protocol ++ Kafka.array (fun m : Kafka.DescribedMember => Kafka.string m.id ++
          Kafka.string m.clientId ++ Kafka.string m.host ++ Kafka.bytes m.metadata ++ Kafka.bytes m.assignment)
          g.members) g.wire) GroupDetail.raw r.groups (by nonempty) ?_
      · refine this.cast ?_ rfl
        simp [Kafka.array, List.flatMap_map]
      · intro g hg
        have hg := h g hg
        simp only [List.append_assoc, GroupDetail.wire]
        refine .bind (sreads_i16 _) <| .bind (sreads_str16 hg.groupID) <| .bind (sreads_str16 hg.state) <|
          .bind (sreads_str16 hg.protocolType) <| .bind (sreads_str16 hg.protocol) <|
          .bind_pure (g := fun x => GroupDetail.mk _ _ _ _ _ x) ?_
        have := sreads_arr32' (c := rdMemberDetail) (enc := fun m : MemberDetail => (fun m : Kafka.DescribedMember =>
          Kafka.string m.id ++ (Kafka.string m.clientId ++ (Kafka.string m.host ++ (Kafka.bytes m.metadata ++
          Kafka.bytes m.assignment)))) m.wire) MemberDetail.raw g.members (by nonempty) ?_
        · refine this.cast ?_ rfl
          simp [Kafka.array, List.flatMap_map]
        · intro m hm
          have hm := hg.members m hm
          exact .bind (sreads_str16 hm.memberID) <| .bind (sreads_str16 hm.clientID) <| .bind (sreads_str16 hm.host) <|
            .bind (sreads_bytes32 _) <| .bind_pure (g := fun x => MemberDetail.mk _ _ _ _ x none) (sreads_bytes32 _)
    unfold newDescribeGroupsResponse
    rw [this]
    simp only [he]
  · rw [DescribeGroupsResponse.error, firstKafkaErr_eq]
    congr 1
    simp [GroupDetail.dropMetadata, Function.comp_def]

example : newDescribeGroupsResponse (Kafka.response .describeGroups 0 7 [] (Kafka.describeGroupsResponse [⟨30, [103],
      [83], [99], [], []⟩, ⟨0, [104], [], [], [], []⟩])) =
    .ok (⟨7, [⟨30, [103], [83], [99],
      [], []⟩, ⟨0, [104], [], [], [], []⟩]⟩, some (Err.kafka 30)) := by decide +kernel

/-- C66 fails: a member's subscription metadata is never returned. -/
theorem C66_violated_describeGroups_metadata :
    ∃ r, newDescribeGroupsResponse (Kafka.response .describeGroups 0 7 [] (Kafka.describeGroupsResponse
        [⟨0, [103], [83], [99], [114], [⟨[109], [99], [104], [1, 2, 3], Kafka.assignment 0 [] []⟩]⟩])) = .ok (r, none) ∧
      r.groups.map (fun g => g.members.map MemberDetail.memberMetadata) = [[[]]] :=
  ⟨⟨7, [⟨0, [103], [83], [99], [114], [⟨[109], [99], [104], [], [0, 0, 0, 0, 0, 0, 0, 0, 0, 0], some ⟨0, [], some []⟩⟩]⟩]⟩,
    by decide +kernel, by decide⟩

/-- C66 fails: the decoder returns no error for a group with error code 30 when another group has a member; and it
returns an error for a healthy group with a member that has no assignment yet. -/
theorem C66_violated_describeGroups_error :
    (∃ r, newDescribeGroupsResponse (Kafka.response .describeGroups 0 7 [] (Kafka.describeGroupsResponse
        [⟨30, [103], [], [], [], []⟩, ⟨0, [104], [], [], [], [⟨[109], [], [], [], Kafka.assignment 0 [] []⟩]⟩])) =
      .ok (r, none) ∧ r.groups.map GroupDetail.errorCode = [30, 0]) ∧
    (∃ r, newDescribeGroupsResponse (Kafka.response .describeGroups 0 7 [] (Kafka.describeGroupsResponse
        [⟨0, [104], [], [], [], [⟨[109], [], [], [], []⟩]⟩])) = .ok (r, some .emptyPayload) ∧
      r.groups.map GroupDetail.errorCode = [0]) :=
  ⟨⟨⟨7, [⟨30, [103], [], [], [], []⟩, ⟨0, [104], [], [], [], [⟨[109], [], [], [], [0, 0, 0, 0, 0, 0, 0, 0, 0, 0],
      some ⟨0, [], some []⟩⟩]⟩]⟩, by decide +kernel, by decide⟩,
    ⟨⟨7, [⟨0, [104], [], [], [], [⟨[109], [], [], [], [], none⟩]⟩]⟩, by decide +kernel, by decide⟩⟩

/-! ## Offsets -/

/-- C67, offset commit: every partition's own code is read and the first non-zero one is returned. -/
theorem C67_offsetCommit (v : UInt16) (hv : v ∈ clientVersions API_OffsetCommitRequest) (r : OffsetCommitResponse)
    (h : ∀ t ∈ r.topics, IsString t.1)
    (hl : (Kafka.response .offsetCommit v.toNat r.correlationID.toNat [] (Kafka.offsetCommitResponse
      (r.topics.map fun t => (t.1, t.2.map fun p => ((p.1.toNat : Int), p.2.toInt))))).length < 2 ^ 31) :
    newOffsetCommitResponse (Kafka.response .offsetCommit v.toNat r.correlationID.toNat [] (Kafka.offsetCommitResponse
      (r.topics.map fun t => (t.1, t.2.map fun p => ((p.1.toNat : Int), p.2.toInt))))) =
      .ok (r, firstCode (r.topics.flatMap fun t => t.2.map Prod.snd)) ∧
    r.error = firstCode (r.topics.flatMap fun t => t.2.map Prod.snd) := by
  constructor
  · refine respond_plain ?_ ?_ hl
    · have : v = 2 ∨ v = 0 := by simpa [clientVersions, availableVersions, API_OffsetCommitRequest] using hv
      rcases this with rfl | rfl <;> rfl
    · rw [← firstKafkaErr_eq]
      refine .bind_pure (g := fun x => (OffsetCommitResponse.mk _ x, firstKafkaErr (x.flatMap fun t => t.2.map Prod.snd))) ?_
      refine sreads_arr32 _ _ (by nonempty) fun t ht => ?_
      refine .bind (sreads_str16 (h t ht)) (.bind_pure (g := fun x => (_, x)) ?_)
      refine sreads_arr32 (fun p : UInt32 × Int16 => ((p.1.toNat : Int), p.2.toInt)) _ (by nonempty) fun p hp => ?_
      exact .bind (sreads_u32 _) (.bind_pure (g := fun x => (_, x)) (sreads_i16 _))
  · exact firstKafkaErr_eq _

example : newOffsetCommitResponse (Kafka.response .offsetCommit 2 7 [] (Kafka.offsetCommitResponse [([116], [(0, 0),
      (1, 27)])])) =
    .ok (⟨7, [([116], [(0, 0), (1, 27)])]⟩, some (Err.kafka 27)) := by decide +kernel

/-- A fetched offset on the wire. -/
def FetchedOffset.wire (p : FetchedOffset) : Kafka.FetchedOffset :=
  ⟨p.partitionID.toInt, p.offset.toInt, some p.metadata, p.errorCode.toInt⟩

/-- C67, offset fetch, for responses without null metadata.  Missing: null metadata
(`C67_violated_null_metadata`). -/
theorem C67_offsetFetch_partial (v : UInt16) (hv : v ∈ clientVersions API_OffsetFetchRequest) (r : OffsetFetchResponse)
    (h : ∀ t ∈ r.topics, IsString t.1 ∧ ∀ p ∈ t.2, IsString p.metadata)
    (hl : (Kafka.response .offsetFetch v.toNat r.correlationID.toNat [] (Kafka.offsetFetchResponse
      (r.topics.map fun t => (t.1, t.2.map FetchedOffset.wire)))).length < 2 ^ 31) :
    newOffsetFetchResponse (Kafka.response .offsetFetch v.toNat r.correlationID.toNat [] (Kafka.offsetFetchResponse
      (r.topics.map fun t => (t.1, t.2.map FetchedOffset.wire)))) =
      .ok (r, firstCode (r.topics.flatMap fun t => t.2.map FetchedOffset.errorCode)) ∧
    r.error = (firstCode (r.topics.flatMap fun t => t.2.map FetchedOffset.errorCode)).map .wrapped := by
  constructor
  · refine respond_plain ?_ ?_ hl
    · have : v = 1 ∨ v = 0 := by simpa [clientVersions, availableVersions, API_OffsetFetchRequest] using hv
      rcases this with rfl | rfl <;> rfl
    · rw [← firstKafkaErr_eq]
      refine .bind_pure (g := fun x => (OffsetFetchResponse.mk _ x,
        firstKafkaErr (x.flatMap fun t => t.2.map FetchedOffset.errorCode))) ?_
      refine sreads_arr32 _ _ (by nonempty) fun t ht => ?_
      refine .bind (sreads_str16 (h t ht).1) (.bind_pure (g := fun x => (_, x)) ?_)
      refine sreads_arr32 FetchedOffset.wire _ (by nonempty) fun p hp => ?_
      simp only [List.append_assoc]
      exact .bind (sreads_i32 _) <| .bind (sreads_i64 _) <| .bind (sreads_str16 ((h t ht).2 p hp)) <|
        .bind_pure (g := fun x => FetchedOffset.mk _ _ _ x) (sreads_i16 _)
  · rw [OffsetFetchResponse.error, firstKafkaErr_eq]

example : newOffsetFetchResponse (Kafka.response .offsetFetch 1 7 [] (Kafka.offsetFetchResponse [([116], [⟨0, 5, some
      [], 0⟩, ⟨1, -1, some [109], 3⟩])])) =
    .ok (⟨7, [([116], [⟨0, 5, [], 0⟩,
      ⟨1, -1, [109], 3⟩])]⟩, some (Err.kafka 3)) := by decide +kernel

/-- C67 fails: a null metadata string, which the protocol allows, crashes the decoder. -/
theorem C67_violated_null_metadata :
    newOffsetFetchResponse (Kafka.response .offsetFetch 1 7 [] (Kafka.offsetFetchResponse
      [([116], [⟨0, 5, none, 0⟩])])) = .panic := by decide +kernel

/-- A listed offset on the wire. -/
def PartitionOffset.wire (p : PartitionOffset) : Kafka.ListedOffset :=
  ⟨p.partition.toInt, p.errorCode.toInt, p.oldStyleOffsets.map Int64.toInt, p.timestamp.toInt, p.offset.toInt⟩

/-- What a client sees in a given version. -/
def PartitionOffset.seen (v : UInt16) (p : PartitionOffset) : PartitionOffset :=
  if v = 0 then { p with timestamp := 0, offset := 0 } else { p with oldStyleOffsets := [] }

theorem set_new {κ υ : Type} [DecidableEq κ] (m : AMap κ υ) (k : κ) (v : υ) (h : k ∉ AMap.keys m) :
    AMap.set m k v = m ++ [(k, v)] := by
  induction m with
  | nil => rfl
  | cons e m ih =>
    obtain ⟨k', v'⟩ := e
    simp only [AMap.keys, List.map_cons, List.mem_cons, not_or] at h
    unfold AMap.set
    rw [if_neg (fun hh => h.1 hh.symm)]
    rw [ih h.2]
    rfl

theorem foldl_set_nodup {κ υ : Type} [DecidableEq κ] (xs m : AMap κ υ) (h : (AMap.keys (m ++ xs)).Nodup) :
    xs.foldl (fun m t => AMap.set m t.1 t.2) m = m ++ xs := by
  induction xs generalizing m with
  | nil => simp
  | cons x xs ih =>
    rw [List.foldl_cons, set_new, ih]
    · simp
    · simpa using h
    · intro hx
      simp only [AMap.keys, List.map_append, List.map_cons, List.nodup_append, List.nodup_cons] at h
      exact h.2.2 _ hx _ (by simp) rfl

theorem sreads_partitionOffset (v : UInt16) (p : PartitionOffset) :
    SReads (rdPartitionOffset v) (Kafka.int32 p.wire.partition ++ Kafka.int16 p.wire.error ++
      (if v.toNat = 0 then Kafka.array Kafka.int64 p.wire.oldOffsets else Kafka.int64 p.wire.time ++
        Kafka.int64 p.wire.offset)) (p.seen v) := by
  have i0 : v = 0 ↔ v.toNat = 0 := by rw [← UInt16.toNat_inj, UInt16.toNat_zero]
  have i1 : v ≠ 0 ↔ ¬ v.toNat = 0 := not_congr i0
  simp only [List.append_assoc]
  refine .bind (sreads_i32 _) <| .bind (sreads_i16 _) <| ?_
  have ha : SReads (rdArr32 rdI64) (Kafka.array Kafka.int64 p.wire.oldOffsets) p.oldStyleOffsets :=
    sreads_arr32 Int64.toInt _ (by intros; simp) fun x _ => sreads_i64 x
  refine .cast (.bind (.cond' i0 fun _ => ha) <| .bind (.cond' i1 fun _ => sreads_i64 p.timestamp) <|
    .bind_pure (g := fun x => PartitionOffset.mk _ _ _ _ x) (.cond' i1 fun _ => sreads_i64 p.offset)) ?_ ?_
  · by_cases h : v.toNat = 0
    · rw [if_pos h, if_pos h, if_neg (fun hn => hn h), if_neg (fun hn => hn h), List.append_nil, List.append_nil]
    · rw [if_neg h, if_neg h, if_pos h, if_pos h, List.nil_append]; rfl
  · unfold PartitionOffset.seen
    by_cases h : v.toNat = 0
    · rw [if_pos (i0.2 h), if_pos h, if_neg (fun hn => hn h), if_neg (fun hn => hn h)]
    · rw [if_neg (i1.2 h), if_neg h, if_pos h, if_pos h]

theorem sreads_peekI32 {β : Type} {f : Int32 → Cur β} {b : β} (n : Nat) (rest : Bytes)
    (h : SReads (f (UInt32.ofNat n).toInt32) (Kafka.int32 n ++ rest) b) :
    SReads (peekI32 >>= f) (Kafka.int32 n ++ rest) b := by
  intro hl pre post
  have hr : rdI32 (Kafka.int32 n ++ (rest ++ post)) 0 = .ok ((UInt32.ofNat n).toInt32, 4) := by
    have := CReads.bind_pure (g := UInt32.toInt32) (creads_len32 n) [] (rest ++ post)
    simp only [List.nil_append, List.length_nil, int32_length] at this
    exact this
  have hp : peekI32 (pre ++ (Kafka.int32 n ++ rest ++ post)) pre.length =
      .ok ((UInt32.ofNat n).toInt32, (pre.length : Int)) := by
    unfold peekI32
    rw [Cur.bind_def]
    unfold Cur.peekRest
    rw [sliceFrom_append, List.append_assoc]
    simp only
    rw [hr]
    rfl
  rw [Cur.bind_def, hp]
  exact h hl pre post

/-- C67, list offsets, for responses that list a topic once.  Missing: in version 1 the client reports a throttle
time that the broker never sent, the number of topics (`C67_violated_every_throttle`). -/
theorem C67_listOffsets_partial (v : UInt16) (hv : v ∈ clientVersions API_OffsetRequest) (c : UInt32)
    (topics : AMap Bytes (List PartitionOffset)) (hd : (AMap.keys topics).Nodup) (h : ∀ t ∈ topics, IsString t.1)
    (hl : (Kafka.response .listOffsets v.toNat c.toNat [] (Kafka.listOffsetsResponse v.toNat
      (topics.map fun t => (t.1, t.2.map PartitionOffset.wire)))).length < 2 ^ 31) :
    ∃ r, newOffsetsResponse v (Kafka.response .listOffsets v.toNat c.toNat [] (Kafka.listOffsetsResponse v.toNat
        (topics.map fun t => (t.1, t.2.map PartitionOffset.wire)))) = .ok (r, none) ∧
      r.correlationID = c ∧
      r.topicPartitionOffsets = topics.map (fun t => (t.1, t.2.map (PartitionOffset.seen v))) ∧
      r.error = (firstCode (topics.flatMap fun t => t.2.map PartitionOffset.errorCode)).map .wrapped ∧
      r.throttleTimeMs = (if v > 0 then (UInt32.ofNat topics.length).toInt32 else 0) := by
  have hseen : ∀ p : PartitionOffset, (p.seen v).errorCode = p.errorCode := by
    intro p; unfold PartitionOffset.seen; split <;> rfl
  have hk : AMap.keys (topics.map (fun t => (t.1, t.2.map (PartitionOffset.seen v)))) = AMap.keys topics := by
    simp [AMap.keys, Function.comp_def]
  have ha : SReads (rdArr32 (rdTopic (rdPartitionOffset v))) (Kafka.listOffsetsResponse v.toNat
      (topics.map fun t => (t.1, t.2.map PartitionOffset.wire)))
      (topics.map fun t => (t.1, t.2.map (PartitionOffset.seen v))) := by
    have := sreads_arr32' (c := rdTopic (rdPartitionOffset v)) (enc := fun t : Bytes × List PartitionOffset =>
      Kafka.string t.1 ++ Kafka.array (fun p : Kafka.ListedOffset => Kafka.int32 p.partition ++ Kafka.int16 p.error ++
        (if v.toNat = 0 then Kafka.array Kafka.int64 p.oldOffsets else Kafka.int64 p.time ++ Kafka.int64 p.offset))
        (t.2.map PartitionOffset.wire)) (fun t => (t.1, t.2.map (PartitionOffset.seen v))) topics (by nonempty) ?_
    · refine this.cast ?_ rfl
      simp [Kafka.listOffsetsResponse, Kafka.array, List.flatMap_map]
    · intro t ht
      refine .bind (sreads_str16 (h t ht)) (.bind_pure (g := fun x => (_, x)) ?_)
      have := sreads_arr32' (c := rdPartitionOffset v) (enc := fun p : PartitionOffset =>
        Kafka.int32 p.wire.partition ++ Kafka.int16 p.wire.error ++
          (if v.toNat = 0 then Kafka.array Kafka.int64 p.wire.oldOffsets else Kafka.int64 p.wire.time ++
            Kafka.int64 p.wire.offset)) (PartitionOffset.seen v) t.2 (by nonempty)
        (fun p _ => sreads_partitionOffset v p)
      refine this.cast ?_ rfl
      simp [Kafka.array, List.flatMap_map]
  refine ⟨⟨c, if v > 0 then (UInt32.ofNat topics.length).toInt32 else 0,
    topics.map (fun t => (t.1, t.2.map (PartitionOffset.seen v)))⟩, ?_, rfl, rfl, ?_, rfl⟩
  · refine respond_plain ?_ ?_ hl
    · have : v = 1 ∨ v = 0 := by simpa [clientVersions, availableVersions, API_OffsetRequest] using hv
      rcases this with rfl | rfl <;> rfl
    · have hf := foldl_set_nodup (topics.map (fun t => (t.1, t.2.map (PartitionOffset.seen v)))) []
        (by rw [List.nil_append, hk]; exact hd)
      rw [List.nil_append] at hf
      have hb : ∀ th, SReads (do
          let ts ← rdArr32 (rdTopic (rdPartitionOffset v))
          pure ((⟨c, th, ts.foldl (fun m t => AMap.set m t.1 t.2) []⟩ : OffsetsResponse), (none : Option Err)))
          (Kafka.listOffsetsResponse v.toNat (topics.map fun t => (t.1, t.2.map PartitionOffset.wire)))
          (⟨c, th, topics.map (fun t => (t.1, t.2.map (PartitionOffset.seen v)))⟩, none) := by
        intro th
        have := SReads.bind_pure (g := fun ts => ((⟨c, th, ts.foldl (fun m t => AMap.set m t.1 t.2) []⟩ :
          OffsetsResponse), (none : Option Err))) ha
        rw [hf] at this
        exact this
      by_cases h0 : v > 0
      · unfold Cur.cond
        rw [if_pos h0, if_pos h0]
        have := hb (UInt32.ofNat topics.length).toInt32
        unfold Kafka.listOffsetsResponse Kafka.array at this ⊢
        refine sreads_peekI32 _ _ ?_
        simpa using this
      · unfold Cur.cond
        rw [if_neg h0, if_neg h0]
        exact .cast (.bind (CReads.pure _).s (hb 0)) (by simp) rfl
  · rw [OffsetsResponse.error, firstKafkaErr_eq]
    congr 2
    simp [List.flatMap_map, Function.comp_def, hseen]

example : newOffsetsResponse 1 (Kafka.response .listOffsets 1 7 [] (Kafka.listOffsetsResponse 1 [([116], [⟨0, 0, [],
      9, 5⟩]), ([117], [⟨0, 6, [], -1, -1⟩])])) =
    .ok (⟨7, 2, [([116], [⟨0, 0, [], 9, 5⟩]), ([117], [⟨0, 6,
      [], -1, -1⟩])]⟩, none) := by decide +kernel

/-- C67 fails: a version-1 list-offsets response carries no throttle time; the client reports the number of topics. -/
theorem C67_violated_listOffsets_throttle :
    ∃ r, newOffsetsResponse 1 (Kafka.response .listOffsets 1 7 [] (Kafka.listOffsetsResponse 1
        [([116], []), ([117], [])])) = .ok (r, none) ∧ r.throttleTimeMs = 2 :=
  ⟨⟨7, 2, [([116], []), ([117], [])]⟩, by decide +kernel, rfl⟩

end Healer
