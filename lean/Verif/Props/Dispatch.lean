import Verif.Model.Parse
import Verif.Props.Frame
import Verif.Props.Metadata
import Verif.Props.Response
import Verif.Props.Response2
import Verif.Props.Response3

/-!
# C119: answers are decoded by the decoder of their API, at the version of their request

What C66-C74 say of the decoders, for the answers as they are handed to `parse` (response.go:89-151) with the API key and the version of the
request.  By C118 these are the ones used for the answers of a broker.
-/

namespace Healer

open Kafka (IsString)

theorem parse_joinGroup (v : UInt16) (d : Bytes) : parse API_JoinGroup v d = asResponse .joinGroup (newJoinGroupResponse d) := rfl

/-- C119, joinGroup -/
theorem C119_joinGroup (r : JoinGroupResponse) (h1 : IsString r.groupProtocol) (h2 : IsString r.leaderID)
    (h3 : IsString r.memberID) (h4 : ∀ m ∈ r.members, IsString m.memberID)
    (hl : (Kafka.response .joinGroup 0 r.correlationID.toNat [] (Kafka.joinGroupResponse r.errorCode.toInt
      r.generationID.toInt r.groupProtocol r.leaderID r.memberID
      (r.members.map fun m => (m.memberID, m.memberMetadata)))).length < 2 ^ 31) :
    parse API_JoinGroup 0 (Kafka.response .joinGroup 0 r.correlationID.toNat [] (Kafka.joinGroupResponse
      r.errorCode.toInt r.generationID.toInt r.groupProtocol r.leaderID r.memberID
      (r.members.map fun m => (m.memberID, m.memberMetadata)))) = .ok (.joinGroup r, codeError r.errorCode) := by
  rw [parse_joinGroup, C66_joinGroup r h1 h2 h3 h4 hl]
  rfl

theorem parse_syncGroup (v : UInt16) (d : Bytes) : parse API_SyncGroup v d = asResponse .syncGroup (newSyncGroupResponse d) := rfl

/-- C119, syncGroup -/
theorem C119_syncGroup (r : SyncGroupResponse)
    (hl : (Kafka.response .syncGroup 0 r.correlationID.toNat []
      (Kafka.syncGroupResponse r.errorCode.toInt r.memberAssignment)).length < 2 ^ 31) :
    parse API_SyncGroup 0 (Kafka.response .syncGroup 0 r.correlationID.toNat []
      (Kafka.syncGroupResponse r.errorCode.toInt r.memberAssignment)) = .ok (.syncGroup r, codeError r.errorCode) := by
  rw [parse_syncGroup, C66_syncGroup r hl]
  rfl

theorem parse_heartbeat (v : UInt16) (d : Bytes) : parse API_Heartbeat v d = asResponse .heartbeat (newHeartbeatResponse d) := rfl

/-- C119, heartbeat -/
theorem C119_heartbeat (r : ErrorResponse) :
    parse API_Heartbeat 0 (Kafka.response .heartbeat 0 r.correlationID.toNat []
      (Kafka.heartbeatResponse r.errorCode.toInt)) = .ok (.heartbeat r, codeError r.errorCode) := by
  rw [parse_heartbeat, C66_heartbeat r]
  rfl

theorem parse_leaveGroup (v : UInt16) (d : Bytes) : parse API_LeaveGroup v d = asResponse .leaveGroup (newLeaveGroupResponse d) := rfl

/-- C119, leaveGroup -/
theorem C119_leaveGroup (r : ErrorResponse) :
    parse API_LeaveGroup 0 (Kafka.response .leaveGroup 0 r.correlationID.toNat []
      (Kafka.leaveGroupResponse r.errorCode.toInt)) = .ok (.leaveGroup r, codeError r.errorCode) := by
  rw [parse_leaveGroup, C66_leaveGroup r]
  rfl

theorem parse_findCoordinator (v : UInt16) (d : Bytes) : parse API_FindCoordinator v d = asResponse .findCoordinator (newFindCoordinatorResponse d) := rfl

/-- C119, findCoordinator -/
theorem C119_findCoordinator (r : FindCoordinatorResponse) (h : IsString r.host) :
    parse API_FindCoordinator 0 (Kafka.response .findCoordinator 0 r.correlationID.toNat []
      (Kafka.findCoordinatorResponse r.errorCode.toInt r.nodeID.toInt r.host r.port.toInt)) = .ok (.findCoordinator r, none) := by
  rw [parse_findCoordinator, C66_findCoordinator r h]
  rfl

theorem parse_deleteGroups (v : UInt16) (d : Bytes) : parse API_Delete_Groups v d = asResponse .deleteGroups (newDeleteGroupsResponse d) := rfl

/-- C119, deleteGroups -/
theorem C119_deleteGroups (r : DeleteGroupsResponse) (h : ∀ x ∈ r.results, IsString x.1)
    (hl : (Kafka.response .deleteGroups 0 r.correlationID.toNat [] (Kafka.deleteGroupsResponse r.throttleTimeMs.toInt
      (r.results.map fun x => (x.1, x.2.toInt)))).length < 2 ^ 31) :
    parse API_Delete_Groups 0 (Kafka.response .deleteGroups 0 r.correlationID.toNat []
      (Kafka.deleteGroupsResponse r.throttleTimeMs.toInt (r.results.map fun x => (x.1, x.2.toInt)))) = .ok (.deleteGroups r, none) ∧
    (r.error = none ↔ ∀ x ∈ r.results, x.2 = 0) := by
  have h := C66_deleteGroups r h hl
  exact ⟨by rw [parse_deleteGroups, h.1]; rfl, h.2⟩

theorem parse_listGroups (v : UInt16) (d : Bytes) : parse API_ListGroups v d = asResponse .listGroups (newListGroupsResponse v d) := rfl

/-- C119, listGroups (missing for the full statement: as for `C66_listGroups_partial`) -/
theorem C119_listGroups_partial (v : UInt16) (hv : v ∈ clientVersions API_ListGroups) (corr : UInt32)
    (htags : TaggedFields) (hht : htags.Fits) (throttle : Int32) (error : UInt16) (gs : List ListedGroup)
    (tags : TaggedFields) (htg : tags.Fits)
    (hg : ∀ g ∈ gs, IsString g.groupID ∧ IsString g.protocolType ∧ IsString g.groupState ∧ IsString g.groupType ∧
      g.taggedFields.Fits)
    (hl : (Kafka.response .listGroups v.toNat corr.toNat htags.wire (Kafka.listGroupsResponse v.toNat throttle.toInt
      error.toNat (gs.map ListedGroup.wire) tags.wire)).length < 2 ^ 31) :
    ∃ r, parse API_ListGroups v (Kafka.response .listGroups v.toNat corr.toNat htags.wire
        (Kafka.listGroupsResponse v.toNat throttle.toInt error.toNat (gs.map ListedGroup.wire) tags.wire)) = .ok (.listGroups r, none) ∧
      r.header.correlationID = corr ∧ r.throttleTimeMS = (if 1 ≤ v.toNat then throttle else 0) ∧
      r.errorCode = error ∧ r.groups = gs.map (ListedGroup.seen v) := by
  obtain ⟨r, h1, h2⟩ := C66_listGroups_partial v hv corr htags hht throttle error gs tags htg hg hl
  exact ⟨r, by rw [parse_listGroups, h1]; rfl, h2⟩

theorem parse_describeGroups (v : UInt16) (d : Bytes) : parse API_DescribeGroups v d = asResponse .describeGroups (newDescribeGroupsResponse d) := rfl

/-- C119, describeGroups (missing for the full statement: as for `C66_describeGroups_partial`) -/
theorem C119_describeGroups_partial (r : DescribeGroupsResponse) (h : ∀ g ∈ r.groups, g.Sent)
    (hl : (Kafka.response .describeGroups 0 r.correlationID.toNat []
      (Kafka.describeGroupsResponse (r.groups.map GroupDetail.wire))).length < 2 ^ 31) :
    ∃ r' e, parse API_DescribeGroups 0 (Kafka.response .describeGroups 0 r.correlationID.toNat []
        (Kafka.describeGroupsResponse (r.groups.map GroupDetail.wire))) = .ok (.describeGroups r', e) ∧
      r' = { r with groups := r.groups.map GroupDetail.dropMetadata } ∧
      r'.error = firstCode (r.groups.map GroupDetail.errorCode) ∧
      ((∀ g ∈ r.groups, g.members = []) → e = firstCode (r.groups.map GroupDetail.errorCode)) := by
  obtain ⟨r', e, h1, h2⟩ := C66_describeGroups_partial r h hl
  exact ⟨r', e, by rw [parse_describeGroups, h1]; rfl, h2⟩

theorem parse_offsetCommit (v : UInt16) (d : Bytes) : parse API_OffsetCommitRequest v d = asResponse .offsetCommit (newOffsetCommitResponse d) := rfl

/-- C119, offsetCommit -/
theorem C119_offsetCommit (v : UInt16) (hv : v ∈ clientVersions API_OffsetCommitRequest) (r : OffsetCommitResponse)
    (h : ∀ t ∈ r.topics, IsString t.1)
    (hl : (Kafka.response .offsetCommit v.toNat r.correlationID.toNat [] (Kafka.offsetCommitResponse
      (r.topics.map fun t => (t.1, t.2.map fun p => ((p.1.toNat : Int), p.2.toInt))))).length < 2 ^ 31) :
    parse API_OffsetCommitRequest v (Kafka.response .offsetCommit v.toNat r.correlationID.toNat [] (Kafka.offsetCommitResponse
      (r.topics.map fun t => (t.1, t.2.map fun p => ((p.1.toNat : Int), p.2.toInt))))) =
      .ok (.offsetCommit r, firstCode (r.topics.flatMap fun t => t.2.map Prod.snd)) ∧
    r.error = firstCode (r.topics.flatMap fun t => t.2.map Prod.snd) := by
  have h := C67_offsetCommit v hv r h hl
  exact ⟨by rw [parse_offsetCommit, h.1]; rfl, h.2⟩

theorem parse_offsetFetch (v : UInt16) (d : Bytes) : parse API_OffsetFetchRequest v d = asResponse .offsetFetch (newOffsetFetchResponse d) := rfl

/-- C119, offsetFetch (missing for the full statement: as for `C67_offsetFetch_partial`) -/
theorem C119_offsetFetch_partial (v : UInt16) (hv : v ∈ clientVersions API_OffsetFetchRequest) (r : OffsetFetchResponse)
    (h : ∀ t ∈ r.topics, IsString t.1 ∧ ∀ p ∈ t.2, IsString p.metadata)
    (hl : (Kafka.response .offsetFetch v.toNat r.correlationID.toNat [] (Kafka.offsetFetchResponse
      (r.topics.map fun t => (t.1, t.2.map FetchedOffset.wire)))).length < 2 ^ 31) :
    parse API_OffsetFetchRequest v (Kafka.response .offsetFetch v.toNat r.correlationID.toNat [] (Kafka.offsetFetchResponse
      (r.topics.map fun t => (t.1, t.2.map FetchedOffset.wire)))) =
      .ok (.offsetFetch r, firstCode (r.topics.flatMap fun t => t.2.map FetchedOffset.errorCode)) ∧
    r.error = (firstCode (r.topics.flatMap fun t => t.2.map FetchedOffset.errorCode)).map .wrapped := by
  have h := C67_offsetFetch_partial v hv r h hl
  exact ⟨by rw [parse_offsetFetch, h.1]; rfl, h.2⟩

theorem parse_offsets (v : UInt16) (d : Bytes) : parse API_OffsetRequest v d = asResponse .offsets (newOffsetsResponse v d) := rfl

/-- C119, offsets (missing for the full statement: as for `C67_listOffsets_partial`) -/
theorem C119_offsets_partial (v : UInt16) (hv : v ∈ clientVersions API_OffsetRequest) (c : UInt32)
    (topics : AMap Bytes (List PartitionOffset)) (hd : (AMap.keys topics).Nodup) (h : ∀ t ∈ topics, IsString t.1)
    (hl : (Kafka.response .listOffsets v.toNat c.toNat [] (Kafka.listOffsetsResponse v.toNat
      (topics.map fun t => (t.1, t.2.map PartitionOffset.wire)))).length < 2 ^ 31) :
    ∃ r, parse API_OffsetRequest v (Kafka.response .listOffsets v.toNat c.toNat [] (Kafka.listOffsetsResponse v.toNat
        (topics.map fun t => (t.1, t.2.map PartitionOffset.wire)))) = .ok (.offsets r, none) ∧
      r.correlationID = c ∧
      r.topicPartitionOffsets = topics.map (fun t => (t.1, t.2.map (PartitionOffset.seen v))) ∧
      r.error = (firstCode (topics.flatMap fun t => t.2.map PartitionOffset.errorCode)).map .wrapped := by
  obtain ⟨r, h1, h2⟩ := C67_listOffsets_partial v hv c topics hd h hl
  exact ⟨r, by rw [parse_offsets, h1]; rfl, h2.1, h2.2.1, h2.2.2.1⟩

theorem parse_apiVersions (v : UInt16) (d : Bytes) : parse API_ApiVersions v d = asResponse .apiVersions (newAPIVersionsResponse d) := rfl

/-- C119, apiVersions -/
theorem C119_apiVersions (r : APIVersionsResponse)
    (hl : (Kafka.response .apiVersions 0 r.correlationID.toNat [] (Kafka.apiVersionsResponse r.errorCode.toInt
      (r.apiVersions.map APIVersion.wire))).length < 2 ^ 31) :
    parse API_ApiVersions 0 (Kafka.response .apiVersions 0 r.correlationID.toNat []
      (Kafka.apiVersionsResponse r.errorCode.toInt (r.apiVersions.map APIVersion.wire))) = .ok (.apiVersions r, none) ∧
    r.error = codeError r.errorCode := by
  have h := C69_apiVersions r hl
  exact ⟨by rw [parse_apiVersions, h.1]; rfl, h.2⟩

theorem parse_saslHandshake (v : UInt16) (d : Bytes) : parse API_SaslHandshake v d = asResponse .saslHandshake (newSaslHandshakeResponse d) := rfl

/-- C119, saslHandshake (missing for the full statement: as for `C69_saslHandshake_partial`) -/
theorem C119_saslHandshake_partial (v : UInt16) (hv : v ∈ clientVersions API_SaslHandshake) (corr : UInt32) (code : UInt16)
    (mechanisms : List Bytes) (h : ∀ m ∈ mechanisms, IsString m) (hn : mechanisms.length < 2 ^ 16)
    (hl : (Kafka.response .saslHandshake v.toNat corr.toNat []
      (Kafka.saslHandshakeResponse code.toNat mechanisms)).length < 2 ^ 31) :
    parse API_SaslHandshake v (Kafka.response .saslHandshake v.toNat corr.toNat []
      (Kafka.saslHandshakeResponse code.toNat mechanisms)) = .ok (.saslHandshake ⟨corr, 0, mechanisms⟩, none) := by
  rw [parse_saslHandshake, C69_saslHandshake_partial v hv corr code mechanisms h hn hl]
  rfl

theorem parse_saslAuthenticate (v : UInt16) (d : Bytes) : parse API_SaslAuthenticate v d = asResponse .saslAuthenticate (newSaslAuthenticateResponse d) := rfl

/-- C119, saslAuthenticate -/
theorem C119_saslAuthenticate (corr : UInt32) (code : Int16) (message : Option Bytes) (auth : Bytes)
    (h : ∀ m, message = some m → IsString m)
    (hl : (Kafka.response .saslAuthenticate 0 corr.toNat []
      (Kafka.saslAuthenticateResponse code.toInt message auth)).length < 2 ^ 31) :
    ∃ r, parse API_SaslAuthenticate 0 (Kafka.response .saslAuthenticate 0 corr.toNat []
        (Kafka.saslAuthenticateResponse code.toInt message auth)) = .ok (.saslAuthenticate r, none) ∧
      r = ⟨corr, code, message.getD [], auth⟩ ∧ (r.error = none ↔ code = 0) := by
  obtain ⟨r, h1, h2⟩ := C69_saslAuthenticate corr code message auth h hl
  exact ⟨r, by rw [parse_saslAuthenticate, h1]; rfl, h2⟩

theorem parse_createTopics (v : UInt16) (d : Bytes) : parse API_CreateTopics v d = asResponse .createTopics (newCreateTopicsResponse d) := rfl

/-- C119, createTopics -/
theorem C119_createTopics (r : TopicErrorsResponse) (h : ∀ t ∈ r.topicErrors, IsString t.1)
    (hl : (Kafka.response .createTopics 0 r.correlationID.toNat [] (Kafka.createTopicsResponse
      (r.topicErrors.map fun t => (t.1, t.2.toInt)))).length < 2 ^ 31) :
    parse API_CreateTopics 0 (Kafka.response .createTopics 0 r.correlationID.toNat [] (Kafka.createTopicsResponse
      (r.topicErrors.map fun t => (t.1, t.2.toInt)))) = .ok (.createTopics r, none) := by
  rw [parse_createTopics, C70_createTopics r h hl]
  rfl

theorem parse_deleteTopics (v : UInt16) (d : Bytes) : parse API_DeleteTopics v d = asResponse .deleteTopics (newDeleteTopicsResponse d) := rfl

/-- C119, deleteTopics -/
theorem C119_deleteTopics (r : TopicErrorsResponse) (h : ∀ t ∈ r.topicErrors, IsString t.1)
    (hl : (Kafka.response .deleteTopics 0 r.correlationID.toNat [] (Kafka.deleteTopicsResponse
      (r.topicErrors.map fun t => (t.1, t.2.toInt)))).length < 2 ^ 31) :
    parse API_DeleteTopics 0 (Kafka.response .deleteTopics 0 r.correlationID.toNat [] (Kafka.deleteTopicsResponse
      (r.topicErrors.map fun t => (t.1, t.2.toInt)))) = .ok (.deleteTopics r, none) := by
  rw [parse_deleteTopics, C70_deleteTopics r h hl]
  rfl

theorem parse_electLeaders (v : UInt16) (d : Bytes) : parse API_ElectLeaders v d = asResponse .electLeaders (newElectLeadersResponse d) := rfl

/-- C119, electLeaders -/
theorem C119_electLeaders (corr : UInt32) (throttle : Int32) (results : List (Bytes × List (Int32 × Int16 × Option Bytes)))
    (h : ∀ t ∈ results, IsString t.1 ∧ ∀ p ∈ t.2, ∀ m, p.2.2 = some m → IsString m)
    (hl : (Kafka.response .electLeaders 0 corr.toNat [] (Kafka.electLeadersResponse throttle.toInt
      (results.map fun t => (t.1, t.2.map PartitionResult.wire)))).length < 2 ^ 31) :
    ∃ r, parse API_ElectLeaders 0 (Kafka.response .electLeaders 0 corr.toNat [] (Kafka.electLeadersResponse throttle.toInt
        (results.map fun t => (t.1, t.2.map PartitionResult.wire)))) = .ok (.electLeaders r, none) ∧
      r = ⟨corr, throttle, results.map fun t => (t.1, t.2.map PartitionResult.seen)⟩ ∧
      r.error = (firstCode (results.flatMap fun t => t.2.map fun p => p.2.1)).map .wrapped := by
  obtain ⟨r, h1, h2⟩ := C70_electLeaders corr throttle results h hl
  exact ⟨r, by rw [parse_electLeaders, h1]; rfl, h2⟩

theorem parse_describeLogDirs (v : UInt16) (d : Bytes) : parse API_DescribeLogDirs v d = asResponse .describeLogDirs (newDescribeLogDirsResponse d) := rfl

/-- C119, describeLogDirs (missing for the full statement: as for `C70_describeLogDirs_partial`) -/
theorem C119_describeLogDirs_partial (corr : UInt32) (throttle : Int32) (results : List LogDirResult)
    (h : ∀ d ∈ results, IsString d.logDir ∧ ∀ t ∈ d.topics, IsString t.1)
    (hl : (Kafka.response .describeLogDirs 0 corr.toNat [] (Kafka.describeLogDirsResponse throttle.toInt
      (results.map LogDirResult.wire))).length < 2 ^ 31) :
    ∃ r, parse API_DescribeLogDirs 0 (Kafka.response .describeLogDirs 0 corr.toNat [] (Kafka.describeLogDirsResponse
        throttle.toInt (results.map LogDirResult.wire))) = .ok (.describeLogDirs r, none) ∧
      r.throttleTimeMS = throttle ∧ r.results = results ∧ r.error = firstCode (results.map LogDirResult.errorCode) := by
  obtain ⟨r, h1, h2⟩ := C70_describeLogDirs_partial corr throttle results h hl
  exact ⟨r, by rw [parse_describeLogDirs, h1]; rfl, h2.1, h2.2.1, h2.2.2.1⟩

theorem parse_describeConfigs (v : UInt16) (d : Bytes) : parse API_DescribeConfigs v d = asResponse .describeConfigs (newDescribeConfigsResponse d) := rfl

/-- C119, describeConfigs (missing for the full statement: as for `C70_describeConfigs_partial`) -/
theorem C119_describeConfigs_partial (corr throttle : UInt32) (resources : List SentResource) (h : ∀ r ∈ resources, r.Fits)
    (hl : (Kafka.response .describeConfigs 0 corr.toNat [] (Kafka.describeConfigsResponse throttle.toNat
      (resources.map SentResource.wire))).length < 2 ^ 31) :
    ∃ r, parse API_DescribeConfigs 0 (Kafka.response .describeConfigs 0 corr.toNat [] (Kafka.describeConfigsResponse
        throttle.toNat (resources.map SentResource.wire))) = .ok (.describeConfigs r, none) ∧
      r = ⟨corr, throttle, resources.map SentResource.seen⟩ ∧
      (r.error = none ↔ ∀ x ∈ resources, x.errorCode = 0) := by
  obtain ⟨r, h1, h2⟩ := C70_describeConfigs_partial corr throttle resources h hl
  exact ⟨r, by rw [parse_describeConfigs, h1]; rfl, h2⟩

theorem parse_createPartitions (v : UInt16) (d : Bytes) : parse API_CreatePartitions v d = asResponse .createPartitions (newCreatePartitionsResponse v d) := rfl

/-- C119, createPartitions, in version 2 (missing for the full statement: version 0, see
`C70_createPartitions_v0_partial`) -/
theorem C119_createPartitions_partial (r : CreatePartitionsResponse)
    (hl : (Kafka.response .createPartitions 2 r.correlationID.toNat [] (Kafka.createPartitionsResponse 2
      r.throttleTimeMS.toInt (r.results.map CreatePartitionsResult.wire))).length < 2 ^ 31) :
    parse API_CreatePartitions 2 (Kafka.response .createPartitions 2 r.correlationID.toNat []
      (Kafka.createPartitionsResponse 2 r.throttleTimeMS.toInt (r.results.map CreatePartitionsResult.wire))) =
      .ok (.createPartitions r, none) := by
  rw [parse_createPartitions, C70_createPartitions_v2 r hl]
  rfl

theorem parse_alterConfigs (v : UInt16) (d : Bytes) : parse API_AlterConfigs v d = asResponse .alterConfigs (newAlterConfigsResponse d) := rfl

/-- C119, alterConfigs (missing for the full statement: as for `C71_alterConfigs_partial`) -/
theorem C119_alterConfigs_partial (corr throttle : UInt32) (r : AlteredResource) (h : r.Fits)
    (hl : (Kafka.response .alterConfigs 0 corr.toNat [] (Kafka.alterConfigsResponse throttle.toNat
      [r.wire false])).length < 2 ^ 31) :
    parse API_AlterConfigs 0 (Kafka.response .alterConfigs 0 corr.toNat [] (Kafka.alterConfigsResponse throttle.toNat
      [r.wire false])) = .ok (.alterConfigs ⟨corr, throttle, [r]⟩, none) ∧
    ((AlterConfigsResponse.mk corr throttle [r]).error = none ↔ r.errorCode = 0) := by
  have h := C71_alterConfigs_partial corr throttle r h hl
  exact ⟨by rw [parse_alterConfigs, h.1]; rfl, h.2⟩

theorem parse_incrementalAlterConfigs (v : UInt16) (d : Bytes) : parse API_IncrementalAlterConfigs v d = asResponse .incrementalAlterConfigs (newIncrementalAlterConfigsResponse d) := rfl

/-- C119, incrementalAlterConfigs (missing for the full statement: as for `C71_incrementalAlterConfigs_partial`) -/
theorem C119_incrementalAlterConfigs_partial (corr throttle : UInt32) (null : Bool) (r : AlteredResource) (h : r.Fits)
    (hnull : null = true → r.errorMessage = [])
    (hl : (Kafka.response .incrementalAlterConfigs 0 corr.toNat [] (Kafka.alterConfigsResponse throttle.toNat
      [r.wire null])).length < 2 ^ 31) :
    parse API_IncrementalAlterConfigs 0 (Kafka.response .incrementalAlterConfigs 0 corr.toNat []
      (Kafka.alterConfigsResponse throttle.toNat [r.wire null])) = .ok (.incrementalAlterConfigs ⟨corr, throttle, [r]⟩, none) ∧
    ((AlterConfigsResponse.mk corr throttle [r]).error = none ↔ r.errorCode = 0) := by
  have h := C71_incrementalAlterConfigs_partial corr throttle null r h hnull hl
  exact ⟨by rw [parse_incrementalAlterConfigs, h.1]; rfl, h.2⟩

theorem parse_alterPartitionReassignments (v : UInt16) (d : Bytes) : parse API_AlterPartitionReassignments v d = asResponse .alterPartitionReassignments (newAlterPartitionReassignmentsResponse v d) := rfl

/-- C119, alterPartitionReassignments -/
theorem C119_alterPartitionReassignments (corr : UInt32) (htags tags : TaggedFields) (hht : htags.Fits) (htg : tags.Fits)
    (throttle : Int32) (error : Int16) (message : Option Bytes) (topics : List ReassignedTopic)
    (ht : ∀ t ∈ topics, t.Fits)
    (hl : (Kafka.response .alterPartitionReassignments 0 corr.toNat htags.wire
      (Kafka.alterPartitionReassignmentsResponse throttle.toInt error.toInt message (topics.map ReassignedTopic.wire)
        tags.wire)).length < 2 ^ 31) :
    ∃ r, parse API_AlterPartitionReassignments 0 (Kafka.response .alterPartitionReassignments 0 corr.toNat htags.wire
      (Kafka.alterPartitionReassignmentsResponse throttle.toInt error.toInt message (topics.map ReassignedTopic.wire)
        tags.wire)) = .ok (.alterPartitionReassignments r, none) ∧
      r.header.correlationID = corr ∧ r.header.taggedFields = htags.norm ∧ r.throttleTimeMs = throttle ∧
      r.errorCode = error ∧ r.errorMsg = message ∧ r.responses = topics.map ReassignedTopic.norm ∧
      r.taggedFields = tags.norm := by
  obtain ⟨r, h1, h2⟩ := C72_alter corr htags tags hht htg throttle error message topics ht hl
  exact ⟨r, by rw [parse_alterPartitionReassignments, h1]; rfl, h2⟩

theorem parse_listPartitionReassignments (v : UInt16) (d : Bytes) : parse API_ListPartitionReassignments v d = asResponse .listPartitionReassignments (newListPartitionReassignmentsResponse d) := rfl

/-- C119, listPartitionReassignments (missing for the full statement: as for `C72_list_partial`) -/
theorem C119_listPartitionReassignments_partial (corr throttle : UInt32) (error : UInt16) (message : Option Bytes) (topics : List OngoingTopic)
    (hl : (Kafka.response .listPartitionReassignments 0 corr.toNat [] (Kafka.listPartitionReassignmentsResponse
      throttle.toNat error.toNat message (topics.map OngoingTopic.wire))).length < 2 ^ 31) :
    ∃ r, parse API_ListPartitionReassignments 0 (Kafka.response .listPartitionReassignments 0 corr.toNat []
        (Kafka.listPartitionReassignmentsResponse throttle.toNat error.toNat message (topics.map OngoingTopic.wire))) =
        .ok (.listPartitionReassignments r, none) ∧
      r.correlationID = corr ∧ r.errorMessage = message ∧ r.topics = topics := by
  obtain ⟨r, h1, h2⟩ := C72_list_partial corr throttle error message topics hl
  exact ⟨r, by rw [parse_listPartitionReassignments, h1]; rfl, h2⟩

theorem parse_produce (v : UInt16) (d : Bytes) : parse API_ProduceRequest v d = asResponse .produce (newProduceResponse v d) := rfl

/-- C119, produce (missing for the full statement: as for `C73_single_partial`) -/
theorem C119_produce_partial (corr : UInt32) (name : Bytes) (p : ProducedPartition) (h : p.Plain)
    (hid : 0 ≤ p.partitionID.toInt ∧ p.partitionID.toInt < 2 ^ 24) (throttle : Int)
    (hl : (Kafka.response .produce 9 corr.toNat [] (Kafka.produceResponse 9 [(name, [p.wire])] throttle)).length < 2 ^ 31) :
    ∃ r, parse API_ProduceRequest 9 (Kafka.response .produce 9 corr.toNat [] (Kafka.produceResponse 9 [(name, [p.wire])]
        throttle)) = .ok (.produce r, none) ∧
      r.header.correlationID = corr ∧ r.produceResponses = [⟨name, [p], none⟩] ∧ r.error = firstCode [p.errorCode] := by
  obtain ⟨r, h1, h2⟩ := C73_single_partial corr name p h hid throttle hl
  exact ⟨r, by rw [parse_produce, h1]; rfl, h2⟩

theorem parse_deleteAcls (v : UInt16) (d : Bytes) : parse API_DeleteAcls v d = asResponse .deleteAcls (decodeDeleteAclsResponse v d) := rfl

/-- C119, deleteAcls, in versions 2 and 3 (missing for the full statement: versions 0 and 1, see
`C74_deleteAcls_old_partial`) -/
theorem C119_deleteAcls_partial (v : UInt16) (hv : v = 2 ∨ v = 3) (corr : UInt32) (htags tags : TaggedFields)
    (hht : htags.Fits) (htg : tags.Fits) (throttle : Int32) (results : List AclFilterResult) (h : ∀ r ∈ results, r.Fits)
    (hl : (Kafka.response .deleteAcls v.toNat corr.toNat htags.wire (Kafka.deleteAclsResponse v.toNat throttle.toInt
      (results.map AclFilterResult.wire) tags.wire)).length < 2 ^ 31) :
    ∃ r, parse API_DeleteAcls v (Kafka.response .deleteAcls v.toNat corr.toNat htags.wire
        (Kafka.deleteAclsResponse v.toNat throttle.toInt (results.map AclFilterResult.wire) tags.wire)) = .ok (.deleteAcls r, none) ∧
      r.header.correlationID = corr ∧ r.header.taggedFields = htags.norm ∧ r.throttleTimeMs = throttle ∧
      r.filterResults = results.map (AclFilterResult.seen v) ∧ r.taggedFields = tags.norm := by
  obtain ⟨r, h1, h2⟩ := C74_deleteAcls_flexible v hv corr htags tags hht htg throttle results h hl
  exact ⟨r, by rw [parse_deleteAcls, h1]; rfl, h2⟩

/-- **C119 is violated** for create-ACLs: an answer without throttling is decoded in every version as one without results, and as success, whatever
the results are. -/
theorem C119_violated_createAcls (v : UInt16) (hv : v ∈ clientVersions API_CreateAcls) (corr : UInt32)
    (htags : TaggedFields) (hht : htags.Fits) (results : List Kafka.AclCreated) (tags : List (Nat × Bytes))
    (hl : (Kafka.response .createAcls v.toNat corr.toNat htags.wire (Kafka.createAclsResponse v.toNat 0 results
      tags)).length < 2 ^ 31) :
    ∃ r, parse API_CreateAcls v (Kafka.response .createAcls v.toNat corr.toNat htags.wire
        (Kafka.createAclsResponse v.toNat 0 results tags)) = .ok (.createAcls r, none) ∧
      r.header.correlationID = corr ∧ r.results = [] ∧ (Response.createAcls r).error = .ok none := by
  obtain ⟨r, h1, h2, h3, h4⟩ := C74_violated_createAcls v hv corr htags hht results tags hl
  refine ⟨r, ?_, h2, h3, congrArg Out.ok h4⟩
  change asResponse .createAcls _ = _
  rw [h1]
  rfl

/-- refused: error 31, CLUSTER_AUTHORIZATION_FAILED -/
example : ∃ r, parse API_CreateAcls 1 (Kafka.response .createAcls 1 7 [] (Kafka.createAclsResponse 1 0 [⟨31, none, []⟩] [])) =
    .ok (.createAcls r, none) ∧ r.header.correlationID = 7 ∧ r.results = [] ∧ (Response.createAcls r).error = .ok none :=
  C119_violated_createAcls 1 (by decide) 7 none taggedFields_fits_none [⟨31, none, []⟩] [] (by decide +kernel)

theorem parse_describeAcls (v : UInt16) (d : Bytes) : parse API_DescribeAcls v d = asResponse .describeAcls (newDescribeAclsResponse v d) := rfl

/-- C119, describeAcls (missing for the full statement: as for `C74_describeAcls_partial`) -/
theorem C119_describeAcls_partial (v : UInt16) (hv : v = 0 ∨ v = 2) (corr : UInt32) (htags tags : TaggedFields)
    (hht : htags.Fits) (htg : tags.Fits) (throttle : Int32) (error : Int16) (message : Option Bytes)
    (hm : ∀ b, message = some b → IsString b) (resources : List AclResource) (h : ∀ r ∈ resources, r.Fits)
    (hl : (Kafka.response .describeAcls v.toNat corr.toNat htags.wire (Kafka.describeAclsResponse v.toNat throttle.toInt
      error.toInt message (resources.map AclResource.wire) tags.wire)).length < 2 ^ 31) :
    ∃ r, parse API_DescribeAcls v (Kafka.response .describeAcls v.toNat corr.toNat htags.wire
        (Kafka.describeAclsResponse v.toNat throttle.toInt error.toInt message (resources.map AclResource.wire)
          tags.wire)) = .ok (.describeAcls r, none) ∧
      r.correlationID = corr ∧ r.throttleTimeMs = throttle ∧ r.errorCode = error ∧ r.errorMessage = message ∧
      r.resources = resources.map (AclResource.seen v) ∧ r.taggedFields = (if decide (v ≥ 2) then tags.norm else none) ∧
      (r.error = none ↔ error = 0) := by
  obtain ⟨r, h1, h2⟩ := C74_describeAcls_partial v hv corr htags tags hht htg throttle error message hm resources h hl
  exact ⟨r, by rw [parse_describeAcls, h1]; rfl, h2⟩

theorem parse_metadata (v : UInt16) (d : Bytes) : parse API_MetadataRequest v d = asResponse .metadata (newMetadataResponse v d) := rfl

/-- C119, metadata (missing for the full statement: as for `C68_metadata_partial`) -/
theorem C119_metadata_partial (v : UInt16) (hv : v ∈ clientVersions API_MetadataRequest) (corr : UInt32)
    (throttle controller : Int32) (brokers : List SentBroker) (cluster : Bytes) (topics : List TopicMetadata)
    (hb : ∀ b ∈ brokers, b.Fits) (hc : IsString cluster) (ht : ∀ t ∈ topics, IsString t.name)
    (hl : (Kafka.response .metadata v.toNat corr.toNat [] (Kafka.metadataResponse v.toNat throttle.toInt
      (brokers.map SentBroker.wire) (some cluster) controller.toInt (topics.map TopicMetadata.wire))).length < 2 ^ 31) :
    ∃ r, parse API_MetadataRequest v (Kafka.response .metadata v.toNat corr.toNat [] (Kafka.metadataResponse v.toNat
        throttle.toInt (brokers.map SentBroker.wire) (some cluster) controller.toInt (topics.map TopicMetadata.wire))) =
        .ok (.metadata r, none) ∧
      r.correlationID = corr ∧ r.throttleTimeMs = (if 3 ≤ v.toNat then throttle else 0) ∧
      r.brokers = brokers.map SentBroker.seen ∧ r.controllerID = controller ∧
      SortedTopics (topics.map (TopicMetadata.seen v)) r.topics ∧
      (r.error = none ↔ ∀ t ∈ topics, t.errorCode = 0 ∧ ∀ p ∈ t.partitions, p.errorCode = 0) ∧
      r.clusterID = (if 2 ≤ v.toNat then (Kafka.string cluster).take cluster.length else []) := by
  obtain ⟨r, h1, h2⟩ := C68_metadata_partial v hv corr throttle controller brokers cluster topics hb hc ht hl
  exact ⟨r, by rw [parse_metadata, h1]; rfl, h2⟩

/-- C119: an answer whose parts arrive in any pieces, with whatever after it, is decoded from its own bytes, and the next answer
starts right after it. -/
theorem C119_stream (a : Kafka.Api) (api v : UInt16) (corr : Nat) (tags : List (Nat × Bytes)) (body : Bytes) (r : Response) (e : Option Err)
    (h : parse api v (Kafka.response a v.toNat corr tags body) = .ok (r, e)) (hl : (Kafka.response a v.toNat corr tags body).length < 2 ^ 32)
    (chunks : List Bytes) (extra : Bytes) (tail : List Ev) (hc : chunks.flatten = Kafka.response a v.toNat corr tags body ++ extra) :
    ∃ left : List Bytes, left.flatten = extra ∧ readAndParse api v (chunks.map .data ++ tail) =
      (match e with
        | none => .ok r
        | some e => .err (.wrapped e), left.map .data ++ tail) := by
  unfold Kafka.response at h hc hl
  obtain ⟨left, h1, h2⟩ := C28_chunking_partial _ extra chunks tail (by simp [Kafka.responseHeader])
    (by simp only [Kafka.frame, List.length_append, int32_length] at hl ⊢; omega) hc
  refine ⟨left, h1, ?_⟩
  unfold readAndParse
  rw [h2]
  simp only [h]
  cases e <;> rfl

example : (readAndParse API_OffsetRequest 1 [.data [0, 0, 0], .data [37, 0, 0, 0, 7, 0, 0, 0, 1, 0, 1, 116, 0, 0, 0, 1, 0, 0, 0, 3, 0, 0,
    255, 255, 255, 255, 255, 255, 255, 255, 0, 0, 0, 0, 0, 0, 0], .data [42, 9]]) =
    (.ok (.offsets ⟨7, 1, [([116], [⟨3, 0, [], -1, 42⟩])]⟩), [.data [9]]) := by decide +kernel

end Healer
