import Verif.Model.Header

/-!
# Request encoders, part 1: idioms, group membership, offsets, metadata, authentication

The Go request structures embed a `*RequestHeader`; here the header is a separate argument of
`encode`.  `Broker.Request` (broker.go:217-228) sets correlation id and version of that header and
passes the same version to `Encode`.
-/

namespace Healer

/-! ## API keys (request.go:11-42); every constructor `NewXxxRequest` stores its own key in the header -/

def API_ProduceRequest : UInt16 := 0
def API_FetchRequest : UInt16 := 1
def API_OffsetRequest : UInt16 := 2
def API_MetadataRequest : UInt16 := 3
def API_OffsetCommitRequest : UInt16 := 8
def API_OffsetFetchRequest : UInt16 := 9
def API_FindCoordinator : UInt16 := 10
def API_JoinGroup : UInt16 := 11
def API_Heartbeat : UInt16 := 12
def API_LeaveGroup : UInt16 := 13
def API_SyncGroup : UInt16 := 14
def API_DescribeGroups : UInt16 := 15
def API_ListGroups : UInt16 := 16
def API_SaslHandshake : UInt16 := 17
def API_ApiVersions : UInt16 := 18
def API_CreateTopics : UInt16 := 19
def API_DeleteTopics : UInt16 := 20
def API_DescribeAcls : UInt16 := 29
def API_CreateAcls : UInt16 := 30
def API_DeleteAcls : UInt16 := 31
def API_DescribeConfigs : UInt16 := 32
def API_AlterConfigs : UInt16 := 33
def API_DescribeLogDirs : UInt16 := 35
def API_SaslAuthenticate : UInt16 := 36
def API_CreatePartitions : UInt16 := 37
def API_Delete_Groups : UInt16 := 42
def API_ElectLeaders : UInt16 := 43
def API_IncrementalAlterConfigs : UInt16 := 44
def API_AlterPartitionReassignments : UInt16 := 45
def API_ListPartitionReassignments : UInt16 := 46

/-! ## Idioms -/

/-- `binary.BigEndian.PutUint32(payload[offset:], uint32(v)); offset += 4` and the like -/
def Enc.i8 (v : Int8) : Enc := .put [v.toUInt8]
def Enc.i16 (v : Int16) : Enc := .put (be16 v.toUInt16)
def Enc.i32 (v : Int32) : Enc := .put (be32 v.toUInt32)
def Enc.i64 (v : Int64) : Enc := .put (be64 v.toUInt64)

/-- `if b { payload[offset] = 1 } else { payload[offset] = 0 }; offset++` -/
def Enc.bool (b : Bool) : Enc := .put [if b then 1 else 0]

/-- `PutUint16(payload[offset:], uint16(len(s))); offset += 2; offset += copy(payload[offset:], s)` -/
def Enc.str16 (s : Bytes) : Enc := .seq (.put (be16 (UInt16.ofNat s.length))) (.cpy s)

/-- the same with a 32-bit length -/
def Enc.bytes32 (s : Bytes) : Enc := .seq (.put (be32 (UInt32.ofNat s.length))) (.cpy s)

/-- `PutUint32(payload[offset:], uint32(len(xs))); offset += 4; for _, x := range xs { ... }` -/
def Enc.arr32 {α : Type} (f : α → Enc) (xs : List α) : Enc :=
  .seq (.put (be32 (UInt32.ofNat xs.length))) (.each f xs)

/-- `Encode` functions that compute the exact length first: `requestLength := header.length() + n`,
`payload := make([]byte, requestLength+4)`, length, header, body, and return the whole buffer. -/
def encodeSized (h : RequestHeader) (n : Nat) (body : Enc) : Out Bytes := do
  let hl ← h.length
  encodeFull (hl + n + 4) (.all [.put (be32 (UInt32.ofNat (hl + n))), h.encodeTo, body])

/-- `Encode` functions that make a buffer of an upper bound, write header and body after four bytes
left free, return `payload[:offset]`, and store `offset-4` in the first four bytes in a deferred
function. -/
def encodePatched (h : RequestHeader) (n : Nat) (body : Enc) : Out Bytes := do
  let hl ← h.length
  let p ← encodeCut (hl + n + 4) (.all [.put [0, 0, 0, 0], h.encodeTo, body])
  patch32 (UInt32.ofNat (p.length - 4)) p

/-- The header `NewXxxRequest` builds, after `SetCorrelationID` and `SetVersion` (request.go:182-192). -/
def reqHeader (key version : UInt16) (corr : UInt32) (cid : Option Bytes) : RequestHeader :=
  { apiKey := key, apiVersion := version, correlationID := corr, clientID := cid }

/-! ## Group membership -/

/-- heartbeat_request.go:21-26 -/
structure HeartbeatRequest where
  groupID : Bytes
  generationID : Int32
  memberID : Bytes

/-- heartbeat_request.go:42-69 `Length`, `Encode` -/
def HeartbeatRequest.encode (h : RequestHeader) (r : HeartbeatRequest) : Out Bytes :=
  encodeSized h (2 + r.groupID.length + 4 + 2 + r.memberID.length)
    (.all [.str16 r.groupID, .i32 r.generationID, .str16 r.memberID])

/-- leave_group_request.go: `LeaveGroupRequest` -/
structure LeaveGroupRequest where
  groupID : Bytes
  memberID : Bytes

/-- leave_group_request.go:36-61 `Length`, `Encode` -/
def LeaveGroupRequest.encode (h : RequestHeader) (r : LeaveGroupRequest) : Out Bytes :=
  encodeSized h (2 + r.groupID.length + 2 + r.memberID.length) (.all [.str16 r.groupID, .str16 r.memberID])

/-- sync_group_request.go:5-11; `groupAssignment`: member id and encoded assignment (a nil slice is empty) -/
structure SyncGroupRequest where
  groupID : Bytes
  generationID : Int32
  memberID : Bytes
  groupAssignment : List (Bytes × Bytes)

/-- sync_group_request.go:29-37 -/
def SyncGroupRequest.length (r : SyncGroupRequest) : Nat :=
  r.groupAssignment.foldl (fun l x => l + (2 + x.1.length) + (4 + x.2.length))
    (2 + r.groupID.length + 4 + 2 + r.memberID.length + 4)

/-- sync_group_request.go:40-74 -/
def SyncGroupRequest.encode (h : RequestHeader) (r : SyncGroupRequest) : Out Bytes :=
  encodeSized h r.length
    (.all [.str16 r.groupID, .i32 r.generationID, .str16 r.memberID,
      .arr32 (fun x => .all [.str16 x.1, .bytes32 x.2]) r.groupAssignment])

/-- joingroup_request.go:11-24 -/
structure JoinGroupRequest where
  groupID : Bytes
  sessionTimeout : Int32
  rebalanceTimeout : Int32
  memberID : Bytes
  protocolType : Bytes
  groupProtocols : List (Bytes × Bytes)

/-- joingroup_request.go:47-58 -/
def JoinGroupRequest.length (h : RequestHeader) (r : JoinGroupRequest) : Nat :=
  r.groupProtocols.foldl (fun l x => l + (2 + x.1.length) + (4 + x.2.length))
    (2 + r.groupID.length + 4 + 2 + r.memberID.length + 2 + r.protocolType.length +
      (if h.apiVersion = 1 ∨ h.apiVersion = 2 then 4 else 0) + 4)

/-- joingroup_request.go:61-105 -/
def JoinGroupRequest.encode (h : RequestHeader) (r : JoinGroupRequest) : Out Bytes :=
  encodeSized h (r.length h)
    (.all [.str16 r.groupID, .i32 r.sessionTimeout,
      .when (decide (h.apiVersion = 1 ∨ h.apiVersion = 2)) (.i32 r.rebalanceTimeout),
      .str16 r.memberID, .str16 r.protocolType,
      .arr32 (fun x => .all [.str16 x.1, .bytes32 x.2]) r.groupProtocols])

/-- findcoordinator_request.go:41-58 -/
def encodeFindCoordinatorRequest (h : RequestHeader) (groupID : Bytes) : Out Bytes :=
  encodeSized h (2 + groupID.length) (.str16 groupID)

/-- describe_groups_request.go:25-55.  `copy(payload[offset:offset+l], group); offset += l`: slicing past
the end panics, so this is a `put`. -/
def encodeDescribeGroupsRequest (h : RequestHeader) (groups : List Bytes) : Out Bytes :=
  encodeSized h (groups.foldl (fun l g => l + 2 + g.length) 4)
    (.arr32 (fun g => .all [.put (be16 (UInt16.ofNat g.length)), .put g]) groups)

/-- delete_groups_request.go:27-57 -/
def encodeDeleteGroupsRequest (h : RequestHeader) (groups : List Bytes) : Out Bytes :=
  encodeSized h (groups.foldl (fun l g => l + 2 + g.length) 4) (.arr32 .str16 groups)

/-- list_groups_request.go:10-15; the filters are slices, `none` is nil -/
structure ListGroupsRequest where
  statesFilter : Option (List Bytes) := some []
  typesFilter : Option (List Bytes) := some []
  taggedFields : TaggedFields := none

/-- list_groups_request.go:39-57 without the header and the four length bytes -/
def ListGroupsRequest.length (r : ListGroupsRequest) : Nat :=
  (r.typesFilter.getD []).foldl (fun l v => l + 2 + v.length)
    ((r.statesFilter.getD []).foldl (fun l v => l + 2 + v.length) 4 + 4) + r.taggedFields.length

/-- list_groups_request.go:83-104, 106-124: one filter -/
def encodeFilter (flexible : Bool) (f : Option (List Bytes)) : Enc :=
  let count : Int64 := match f with
    | none => -1
    | some xs => Int64.ofNat xs.length
  .seq (if flexible then .cpyO (encodeCompactArrayLength count) else .put (be32 count.toUInt64.toUInt32))
    (.each (fun v => if flexible then .cpyO (encodeCompactString v) else .cpyO (encodeString v)) (f.getD []))

/-- list_groups_request.go:69-130 `Encode`; `tags` gives the minimal versions 4 and 5 of the two filters
(struct tags, healer_tags.go:9-25). -/
def ListGroupsRequest.encode (h : RequestHeader) (r : ListGroupsRequest) : Out Bytes :=
  encodePatched h r.length (.withO h.isFlexible fun f => .all [
    .when (decide (h.apiVersion ≥ 4)) (encodeFilter f r.statesFilter),
    .when (decide (h.apiVersion ≥ 5)) (encodeFilter f r.typesFilter),
    .when f r.taggedFields.encodeTo])

/-! ## Offsets -/

/-- offset_commit_request.go:7-15 -/
structure OffsetCommitPartition where
  partitionID : Int32
  offset : Int64
  metadata : Bytes
deriving DecidableEq, Repr

structure OffsetCommitTopic where
  topic : Bytes
  partitions : List OffsetCommitPartition
deriving DecidableEq, Repr

/-- offset_commit_request.go:17-24 -/
structure OffsetCommitRequest where
  groupID : Bytes
  generationID : Int32 := 0
  memberID : Bytes := []
  retentionTime : Int64 := 0
  topics : List OffsetCommitTopic := []
deriving DecidableEq, Repr

/-- offset_commit_request.go:93-110 `Length` without the header -/
def OffsetCommitRequest.length (h : RequestHeader) (r : OffsetCommitRequest) : Nat :=
  r.topics.foldl (fun l t => t.partitions.foldl (fun l p => l + (4 + 8 + 2 + p.metadata.length))
      (l + (2 + t.topic.length) + 4))
    (2 + r.groupID.length + (if h.apiVersion = 2 then 4 + 2 + r.memberID.length + 8 else 0) + 4)

/-- offset_commit_request.go:146-157: loop body -/
def OffsetCommitPartition.enc (p : OffsetCommitPartition) : Enc :=
  .all [.i32 p.partitionID, .i64 p.offset, .str16 p.metadata]

/-- offset_commit_request.go:111-161 `Encode` -/
def OffsetCommitRequest.encode (h : RequestHeader) (r : OffsetCommitRequest) : Out Bytes :=
  encodeSized h (r.length h) (.all [.str16 r.groupID,
    .when (decide (h.apiVersion = 2)) (.all [.i32 r.generationID, .str16 r.memberID, .i64 r.retentionTime]),
    .arr32 (fun t => .all [.str16 t.topic, .arr32 OffsetCommitPartition.enc t.partitions]) r.topics])

/-- offset_fetch_request.go:23-26; also elect_leaders_request.go:13-16, describe_logdirs_request.go:6-9 -/
structure TopicPids where
  topic : Bytes
  partitions : List Int32
deriving DecidableEq, Repr

/-- offset_fetch_request.go:104-123: loop body (the same code in the other requests) -/
def TopicPids.enc (t : TopicPids) : Enc := .all [.str16 t.topic, .arr32 .i32 t.partitions]

/-- offset_fetch_request.go:28-32 -/
structure OffsetFetchRequest where
  groupID : Bytes
  topics : List TopicPids := []
deriving DecidableEq, Repr

/-- offset_fetch_request.go:81-125 `Length`, `Encode` -/
def OffsetFetchRequest.encode (h : RequestHeader) (r : OffsetFetchRequest) : Out Bytes :=
  encodeSized h (r.topics.foldl (fun l t => l + (2 + t.topic.length) + (4 + 4 * t.partitions.length))
      (2 + r.groupID.length + 4))
    (.all [.str16 r.groupID, .arr32 TopicPids.enc r.topics])

/-- offset_request.go:7-10 with the partition it is stored under -/
structure OffsetInfo where
  partitionID : Int32
  time : Int64
  maxNumberOfOffsets : UInt32

/-- offset_request.go:12-16.  `requestInfo` is a map of maps; the list is the order in which `range`
visits it (the length loop does not depend on the order). -/
structure OffsetsRequest where
  replicaId : Int32
  requestInfo : List (Bytes × List OffsetInfo)

/-- offset_request.go:76-86: one partition -/
def OffsetInfo.enc (version : UInt16) (p : OffsetInfo) : Enc :=
  .all [.i32 p.partitionID, .i64 p.time, .when (decide (version = 0)) (.put (be32 p.maxNumberOfOffsets))]

/-- offset_request.go:44-91 `Encode`; line 45 dereferences the client id and counts a header of
version 1. -/
def OffsetsRequest.encode (h : RequestHeader) (version : UInt16) (r : OffsetsRequest) : Out Bytes :=
  match h.clientID with
  | none => .panic
  | some c => do
    let p ← encodeCut (4 + r.requestInfo.foldl (fun l t => l + (2 + t.1.length + 4 + t.2.length * 16))
        (8 + 2 + c.length + 4 + 4))
      (.all [.put [0, 0, 0, 0], h.encodeTo, .i32 r.replicaId,
        .arr32 (fun t => .all [.str16 t.1, .arr32 (OffsetInfo.enc version) t.2]) r.requestInfo])
    patch32 (UInt32.ofNat (p.length - 4)) p

/-! ## Metadata, versions, authentication -/

/-- metadata_request.go:7-11; `topics = none` is nil -/
structure MetadataRequest where
  topics : Option (List Bytes)
  allowAutoTopicCreation : Bool := true

/-- metadata_request.go:13-59 `length`, `Encode` -/
def MetadataRequest.encode (h : RequestHeader) (version : UInt16) (r : MetadataRequest) : Out Bytes :=
  encodeSized h ((r.topics.getD []).foldl (fun l t => l + 2 + t.length) 4 + (if version ≥ 4 then 1 else 0))
    (.all [.i32 (match r.topics with | none => -1 | some ts => (UInt32.ofNat ts.length).toInt32),
      .each .str16 (r.topics.getD []),
      .when (decide (version ≥ 4)) (.bool r.allowAutoTopicCreation)])

/-- apiversions_request.go:21-30 -/
def encodeApiVersionsRequest (h : RequestHeader) : Out Bytes := encodeSized h 0 .nop

/-- sasl_handshake_request.go:40-62 -/
def encodeSaslHandshakeRequest (h : RequestHeader) (mechanism : Bytes) : Out Bytes :=
  encodeSized h (2 + mechanism.length) (.str16 mechanism)

/-- sasl_authenticate_request.go:48-71 -/
def encodeSaslAuthenticateRequest (h : RequestHeader) (token : Bytes) : Out Bytes :=
  encodeSized h (4 + token.length) (.bytes32 token)

end Healer
