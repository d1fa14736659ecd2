import Verif.Model.Request
import Verif.Model.Record

/-!
# Request encoders, part 2: administration, reassignment, fetch, produce, ACLs

`TaggedFields` of bodies are nil in every request the client builds; they are modelled as nil.
-/

namespace Healer

/-- `offset += copy(payload[offset:], x.TaggedFields.Encode())` for nil tagged fields -/
def Enc.noTags : Enc := .cpyO (TaggedFields.encode none)

/-- `offset += binary.PutUvarint(payload[offset:], 1+uint64(len(xs))); for _, x := range xs { ... }` -/
def Enc.carr {α : Type} (f : α → Enc) (xs : List α) : Enc :=
  .seq (.put (putUvarint (lenPlus1 xs.length))) (.each f xs)

/-- `offset += copy(payload[offset:], encodeCompactArrayLength(len(xs))); for _, x := range xs { ... }` -/
def Enc.carr' {α : Type} (f : α → Enc) (xs : List α) : Enc :=
  .seq (.cpyO (encodeCompactArrayLength (Int64.ofNat xs.length))) (.each f xs)

/-! ## Topic administration -/

/-- create_topics_request.go:111-115 -/
structure ReplicaAssignment where
  partition : Int32
  replicas : List Int32
deriving DecidableEq, Repr

/-- create_topics_request.go:51-57, 118-121 -/
structure CreateTopicRequest where
  topic : Bytes
  numPartitions : Int32
  replicationFactor : Int16
  replicaAssignments : List ReplicaAssignment := []
  configEntries : List (Bytes × Bytes) := []
deriving DecidableEq, Repr

/-- create_topics_request.go:8-12 -/
structure CreateTopicsRequest where
  createTopicRequests : List CreateTopicRequest := []
  timeout : UInt32
deriving DecidableEq, Repr

/-- create_topics_request.go:59-75 -/
def CreateTopicRequest.length (r : CreateTopicRequest) : Nat :=
  r.configEntries.foldl (fun l c => l + (2 + c.1.length + 2 + c.2.length))
    (r.replicaAssignments.foldl (fun l ra => l + 4 + 4 + 4 * ra.replicas.length)
      (2 + r.topic.length + (4 + 2) + 4) + 4)

/-- create_topics_request.go:90-99: loop body -/
def ReplicaAssignment.enc (ra : ReplicaAssignment) : Enc := .all [.i32 ra.partition, .arr32 .i32 ra.replicas]

/-- create_topics_request.go:77-115 -/
def CreateTopicRequest.enc (r : CreateTopicRequest) : Enc :=
  .all [.str16 r.topic, .i32 r.numPartitions, .i16 r.replicationFactor,
    .arr32 ReplicaAssignment.enc r.replicaAssignments,
    .arr32 (fun c => .all [.str16 c.1, .str16 c.2]) r.configEntries]

/-- create_topics_request.go:14-48 -/
def CreateTopicsRequest.encode (h : RequestHeader) (r : CreateTopicsRequest) : Out Bytes :=
  encodeSized h (r.createTopicRequests.foldl (fun l t => l + t.length) 4 + 4)
    (.all [.arr32 CreateTopicRequest.enc r.createTopicRequests, .put (be32 r.timeout)])

/-- delete_topics_request.go:28-60 -/
def encodeDeleteTopicsRequest (h : RequestHeader) (topics : List Bytes) (timeoutMS : Int32) : Out Bytes :=
  encodeSized h (topics.foldl (fun l t => l + (2 + t.length)) 4 + 4) (.all [.arr32 .str16 topics, .i32 timeoutMS])

/-- create_partitions_request.go:31-43; `assignments = none` is nil -/
structure CreatePartitionsTopic where
  name : Bytes
  count : Int32
  assignments : Option (List (List Int32))
deriving DecidableEq, Repr

/-- create_partitions_request.go:8-15 -/
structure CreatePartitionsRequest where
  topics : List CreatePartitionsTopic := []
  timeoutMS : Int32
  validateOnly : Bool
deriving DecidableEq, Repr

/-- create_partitions_request.go:96-116 -/
def CreatePartitionsRequest.length (version : UInt16) (r : CreatePartitionsRequest) : Nat :=
  r.topics.foldl (fun l t => (t.assignments.getD []).foldl (fun l a => l + 4 + 4 * a.length + 1)
    (l + (2 + t.name.length) + 4 + 4)) 4 + 4 + 1 + (if version = 2 then 4 else 0)

/-- create_partitions_request.go:45-62 -/
def encodeAssignment (version : UInt16) (ids : List Int32) : Enc :=
  .all [.when (decide (version = 2)) (.put (putUvarint (lenPlus1 ids.length))),
    .when (decide (version = 0)) (.put (be32 (UInt32.ofNat ids.length))),
    .each .i32 ids,
    .when (decide (version = 2)) .noTags]

/-- create_partitions_request.go:64-94 -/
def CreatePartitionsTopic.enc (version : UInt16) (t : CreatePartitionsTopic) : Enc :=
  .all [.when (decide (version = 2)) (.put (putUvarint (lenPlus1 t.name.length))),
    .when (decide (version = 0)) (.put (be16 (UInt16.ofNat t.name.length))),
    .cpy t.name, .i32 t.count,
    .when (decide (version = 2)) (match t.assignments with
      | none => .put (putUvarint 0)
      | some xs => .put (putUvarint (lenPlus1 xs.length))),
    .when (decide (version = 0)) (.put (be32 (UInt32.ofNat (t.assignments.getD []).length))),
    .each (encodeAssignment version) (t.assignments.getD []),
    .when (decide (version = 2)) .noTags]

/-- create_partitions_request.go:140-180 `Encode` (the first four bytes are written twice) -/
def CreatePartitionsRequest.encode (h : RequestHeader) (version : UInt16) (r : CreatePartitionsRequest) : Out Bytes :=
  encodePatched h (r.length version)
    (.all [.when (decide (version = 2)) (.put (putUvarint (lenPlus1 r.topics.length))),
      .when (decide (version = 0)) (.put (be32 (UInt32.ofNat r.topics.length))),
      .each (CreatePartitionsTopic.enc version) r.topics,
      .i32 r.timeoutMS, .bool r.validateOnly, .when (decide (version = 2)) .noTags])

/-- describe_configs_request.go:27-31; `configNames = none` is nil -/
structure DescribeConfigsResource where
  resourceType : UInt8
  resourceName : Bytes
  configNames : Option (List Bytes)
deriving DecidableEq, Repr

/-- describe_configs_request.go:33-56 -/
def DescribeConfigsResource.enc (r : DescribeConfigsResource) : Enc :=
  .all [.put [r.resourceType], .str16 r.resourceName,
    .put (be32 (match r.configNames with | none => 0xffffffff | some xs => UInt32.ofNat xs.length)),
    .each .str16 (r.configNames.getD [])]

/-- describe_configs_request.go:70-104 -/
def encodeDescribeConfigsRequest (h : RequestHeader) (rs : List DescribeConfigsResource) : Out Bytes :=
  encodeSized h (rs.foldl (fun l r => (r.configNames.getD []).foldl (fun l c => l + (2 + c.length))
      (l + 1 + (2 + r.resourceName.length) + 4)) 4)
    (.arr32 DescribeConfigsResource.enc rs)

/-- alter_config_request.go:16-20, 42-45 -/
structure AlterConfigsResource where
  resourceType : UInt8
  resourceName : Bytes
  configEntries : List (Bytes × Bytes)
deriving DecidableEq, Repr

/-- alter_config_request.go:9-13 -/
structure AlterConfigsRequest where
  resources : List AlterConfigsResource := []
  validateOnly : Bool := false
deriving DecidableEq, Repr

/-- alter_config_request.go:22-59 -/
def AlterConfigsResource.enc (r : AlterConfigsResource) : Enc :=
  .all [.put [r.resourceType], .str16 r.resourceName, .arr32 (fun c => .all [.str16 c.1, .str16 c.2]) r.configEntries]

/-- alter_config_request.go:111-156 -/
def AlterConfigsRequest.encode (h : RequestHeader) (r : AlterConfigsRequest) : Out Bytes :=
  encodeSized h (r.resources.foldl (fun l x => x.configEntries.foldl (fun l c => l + (2 + c.1.length) + (2 + c.2.length))
      (l + 1 + (2 + x.resourceName.length) + 4)) 4 + 1)
    (.all [.arr32 AlterConfigsResource.enc r.resources, .bool r.validateOnly])

/-- incremental_alter_config_request.go:42-46 -/
structure IncrementalEntry where
  name : Bytes
  operation : Int8
  value : Bytes
deriving DecidableEq, Repr

/-- incremental_alter_config_request.go:16-20 -/
structure IncrementalResource where
  resourceType : UInt8
  resourceName : Bytes
  entries : List IncrementalEntry
deriving DecidableEq, Repr

/-- incremental_alter_config_request.go:9-13 -/
structure IncrementalAlterConfigsRequest where
  resources : List IncrementalResource := []
  validateOnly : Bool := false
deriving DecidableEq, Repr

/-- incremental_alter_config_request.go:48-63 -/
def IncrementalEntry.enc (c : IncrementalEntry) : Enc := .all [.str16 c.name, .i8 c.operation, .str16 c.value]

/-- incremental_alter_config_request.go:22-40 -/
def IncrementalResource.enc (r : IncrementalResource) : Enc :=
  .all [.put [r.resourceType], .str16 r.resourceName, .arr32 IncrementalEntry.enc r.entries]

/-- incremental_alter_config_request.go:118-164 -/
def IncrementalAlterConfigsRequest.encode (h : RequestHeader) (r : IncrementalAlterConfigsRequest) : Out Bytes :=
  encodeSized h (r.resources.foldl (fun l x => x.entries.foldl (fun l c => l + (2 + c.name.length) + 1 + (2 + c.value.length))
      (l + 1 + (2 + x.resourceName.length) + 4)) 4 + 1)
    (.all [.arr32 IncrementalResource.enc r.resources, .bool r.validateOnly])

/-- describe_logdirs_request.go:52-94.  The request length is stored up front, `payload[:offset]` is returned. -/
def encodeDescribeLogDirsRequest (h : RequestHeader) (topics : List TopicPids) : Out Bytes := do
  let hl ← h.length
  let n := hl + topics.foldl (fun l t => l + (2 + t.topic.length) + 4 + 4 * t.partitions.length) 4
  encodeCut (n + 4) (.all [.put (be32 (UInt32.ofNat n)), h.encodeTo, .arr32 TopicPids.enc topics])

/-- elect_leaders_request.go:57-104 -/
def encodeElectLeadersRequest (h : RequestHeader) (topics : List TopicPids) (timeoutMS : Int32) : Out Bytes :=
  encodePatched h (topics.foldl (fun l t => l + (2 + t.topic.length) + 4 + 4 * t.partitions.length) (4 + 1 + 4))
    (.all [.arr32 TopicPids.enc topics, .i32 timeoutMS])

/-! ## Reassignment -/

/-- alter_partition_reassignments_request.go:118-123; `replicas = none` is nil -/
structure ReassignPartition where
  partitionID : Int32
  replicas : Option (List Int32)
deriving DecidableEq, Repr

/-- alter_partition_reassignments_request.go:85-90 -/
structure ReassignTopic where
  topicName : Bytes
  partitions : List ReassignPartition
deriving DecidableEq, Repr

/-- alter_partition_reassignments_request.go:8-15 -/
structure AlterReassignmentsRequest where
  timeoutMs : Int32
  topics : List ReassignTopic := []
deriving DecidableEq, Repr

/-- `TaggedFields.length()` of nil tagged fields (tagged_fields.go:17-23) -/
def noTagsLength : Nat := TaggedFields.length none

/-- alter_partition_reassignments_request.go:125-131 -/
def ReassignPartition.length (p : ReassignPartition) : Nat := 4 + 4 + 4 * (p.replicas.getD []).length + noTagsLength

/-- alter_partition_reassignments_request.go:133-147 -/
def ReassignPartition.enc (p : ReassignPartition) : Enc :=
  .all [.i32 p.partitionID, .carr' .i32 (p.replicas.getD []), .noTags]

/-- alter_partition_reassignments_request.go:92-101 -/
def ReassignTopic.length (t : ReassignTopic) : Nat :=
  t.partitions.foldl (fun l p => l + p.length) (2 + t.topicName.length + 4) + noTagsLength

/-- alter_partition_reassignments_request.go:103-113 -/
def ReassignTopic.enc (t : ReassignTopic) : Enc :=
  .all [.cpyO (encodeCompactString t.topicName), .carr' ReassignPartition.enc t.partitions, .noTags]

/-- alter_partition_reassignments_request.go:50-82 -/
def AlterReassignmentsRequest.encode (h : RequestHeader) (r : AlterReassignmentsRequest) : Out Bytes :=
  encodePatched h (r.topics.foldl (fun l t => l + t.length) (4 + 4) + noTagsLength)
    (.all [.i32 r.timeoutMs, .carr' ReassignTopic.enc r.topics, .noTags])

/-- list_partition_reassignments_request.go:8-17; `topics = none` is nil -/
structure ListReassignmentsRequest where
  timeoutMS : Int32
  topics : Option (List TopicPids) := none
deriving DecidableEq, Repr

/-- list_partition_reassignments_request.go:94-105: loop body -/
def encodeListReassignmentsTopic (t : TopicPids) : Enc :=
  .all [.put (putUvarint (lenPlus1 t.topic.length)), .cpy t.topic, .carr .i32 t.partitions, .noTags]

/-- list_partition_reassignments_request.go:57-110 -/
def ListReassignmentsRequest.encode (h : RequestHeader) (r : ListReassignmentsRequest) : Out Bytes :=
  encodePatched h
    ((r.topics.getD []).foldl (fun l t => l + (2 + t.topic.length) + 4 + 4 * t.partitions.length + 1) (4 + 4) + 1)
    (.all [.i32 r.timeoutMS,
      .put (putUvarint (match r.topics with | none => 0 | some ts => lenPlus1 ts.length)),
      .each encodeListReassignmentsTopic (r.topics.getD []), .noTags])

/-! ## Fetch -/

/-- fetch_request.go:8-14 -/
structure PartitionBlock where
  partition : Int32
  currentLeaderEpoch : Int32
  fetchOffset : Int64
  logStartOffset : Int64
  maxBytes : Int32
deriving DecidableEq, Repr

/-- fetch_request.go:17-28; the maps are lists in the order `range` visits them -/
structure FetchRequest where
  replicaID : Int32 := -1
  maxWaitTime : Int32
  minBytes : Int32
  maxBytes : Int32 := 0
  isolationLevel : Int8 := 0
  sessionID : Int32 := 0
  sessionEpoch : Int32 := 0
  topics : List (Bytes × List PartitionBlock) := []
  forgotten : List (Bytes × List Int32) := []
deriving DecidableEq, Repr

/-- fetch_request.go:69-80 with the header length as argument -/
def FetchRequest.length (hl : Nat) (r : FetchRequest) : Nat :=
  r.forgotten.foldl (fun l t => l + (2 + t.1.length + 4 + t.2.length * 4))
    (r.topics.foldl (fun l t => l + (2 + t.1.length + 28)) (4 + hl + (25 + 4 + 4))) * 2

/-- fetch_request.go:125-142: one partition -/
def PartitionBlock.enc (version : UInt16) (p : PartitionBlock) : Enc :=
  .all [.i32 p.partition, .when (decide (version ≥ 10)) (.i32 p.currentLeaderEpoch), .i64 p.fetchOffset,
    .when (decide (version ≥ 7)) (.i64 p.logStartOffset), .i32 p.maxBytes]

/-- fetch_request.go:92-162: everything after the header -/
def FetchRequest.body (version : UInt16) (r : FetchRequest) : Enc :=
  .all [.i32 r.replicaID, .i32 r.maxWaitTime, .i32 r.minBytes,
    .when (decide (version ≥ 7)) (.all [.i32 r.maxBytes, .i8 r.isolationLevel]),
    .when (decide (version ≥ 7)) (.i32 r.sessionID),
    .when (decide (version ≥ 7)) (.i32 r.sessionEpoch),
    .arr32 (fun t => .all [.str16 t.1, .arr32 (PartitionBlock.enc version) t.2]) r.topics,
    .when (decide (version ≥ 7)) (.arr32 (fun t => .all [.str16 t.1, .arr32 .i32 t.2]) r.forgotten)]

/-- fetch_request.go:83-166 `Encode`, which also stores the version in the header -/
def FetchRequest.encode (h : RequestHeader) (version : UInt16) (r : FetchRequest) : Out Bytes := do
  let h := { h with apiVersion := version }
  let hl ← h.length
  let p ← encodeCut (r.length hl) (.all [.put [0, 0, 0, 0], h.encodeTo, r.body version])
  patch32 (UInt32.ofNat (p.length - 4)) p

/-! ## Produce -/

/-- produce_request.go:11-16 (`RecordBatchesSize` is not used by the encoder) -/
structure ProduceP where
  partition : Int32
  recordBatches : List RecordBatch

/-- produce_request.go:18-22 -/
structure ProduceT where
  topicName : Bytes
  partitionBlocks : List ProduceP

/-- produce_request.go:24-31 -/
structure ProduceRequest where
  transactionalID : Option Bytes
  requiredAcks : Int16
  timeout : Int32
  topicBlocks : List ProduceT

/-- produce_request.go:51-59: the batches one after the other -/
def encodeBatches (compress : Int8 → Bytes → Out Bytes) : List RecordBatch → Out Bytes
  | [] => .ok []
  | b :: bs => do
    let x ← b.encode compress
    let y ← encodeBatches compress bs
    pure (x ++ y)

/-- produce_request.go:61-66: a length, compact or not -/
def writeCount (flexible : Bool) (n : Nat) : Out Bytes :=
  if flexible then encodeCompactArrayLength (Int64.ofNat n) else .ok (be32 (UInt32.ofNat n))

/-- `if isFlexible { binary.Write(w, binary.BigEndian, x.TaggedFields.Encode()) }` for nil tagged fields -/
def writeTags (flexible : Bool) : Out Bytes := if flexible then TaggedFields.encode none else .ok []

/-- produce_request.go:45-73.  `RecordBatch.Encode` does not return an error: on its error paths the deferred
functions index a nil slice, so it panics (record.go:209-225). -/
def ProduceP.encode (compress : Int8 → Bytes → Out Bytes) (flexible : Bool) (p : ProduceP) : Out Bytes := do
  let payload ← encodeBatches compress p.recordBatches
  let n ← writeCount flexible payload.length
  let t ← writeTags flexible
  pure (be32 p.partition.toUInt32 ++ n ++ payload ++ t)

/-- code that appends the encoding of every element to the buffer -/
def encodeEach {α : Type} (f : α → Out Bytes) : List α → Out Bytes
  | [] => .ok []
  | x :: xs => do
    let a ← f x
    let b ← encodeEach f xs
    pure (a ++ b)

/-- produce_request.go:75-99 -/
def ProduceT.encode (compress : Int8 → Bytes → Out Bytes) (flexible : Bool) (t : ProduceT) : Out Bytes := do
  let name ← if flexible then writeCompactString t.topicName else .ok (writeString t.topicName)
  let n ← writeCount flexible t.partitionBlocks.length
  let ps ← encodeEach (ProduceP.encode compress flexible) t.partitionBlocks
  let tags ← writeTags flexible
  pure (name ++ n ++ ps ++ tags)

/-- produce_request.go:101-151 `Encode`.  Line 122 asks for the tag of a field `StatesFilter`, which does not
exist in this structure, so the minimal version is 0 and the transactional id is always written. -/
def ProduceRequest.encode (compress : Int8 → Bytes → Out Bytes) (h : RequestHeader) (r : ProduceRequest) : Out Bytes := do
  let flexible ← h.isFlexible
  let hd ← h.writeTo
  let tid ← if flexible then writeCompactNullableString r.transactionalID else .ok (writeNullableString r.transactionalID)
  let n ← writeCount flexible r.topicBlocks.length
  let ts ← encodeEach (ProduceT.encode compress flexible) r.topicBlocks
  let tags ← writeTags flexible
  let p := [0, 0, 0, 0] ++ hd.1 ++ tid ++ be16 r.requiredAcks.toUInt16 ++ be32 r.timeout.toUInt32 ++ n ++ ts ++ tags
  patch32 (UInt32.ofNat (p.length - 4)) p

/-! ## ACLs -/

/-- describe_acls_request.go:12-21, delete_acls_request.go:8-17; the enumerations are 8-bit numbers -/
structure AclFilter where
  resourceType : UInt8
  resourceName : Option Bytes
  patternType : UInt8
  principal : Option Bytes
  host : Option Bytes
  operation : UInt8
  permissionType : UInt8
deriving DecidableEq, Repr

/-- describe_acls_request.go:38-61: string written to the buffer -/
def writeAclString (version : UInt16) (s : Option Bytes) : Out Bytes :=
  if version < 2 then .ok (writeNullableString s) else writeCompactNullableString s

/-- describe_acls_request.go:23-64 `Encode` -/
def encodeDescribeAclsRequest (h : RequestHeader) (version : UInt16) (r : AclFilter) : Out Bytes := do
  let hl ← h.length
  let hd ← encodeCut hl h.encodeTo
  let name ← writeAclString version r.resourceName
  let principal ← writeAclString version r.principal
  let host ← writeAclString version r.host
  let tags ← TaggedFields.encode none
  let p := [0, 0, 0, 0] ++ hd ++ [r.resourceType] ++ name ++ (if version ≥ 1 then [r.patternType] else []) ++
    principal ++ host ++ [r.operation] ++ [r.permissionType] ++ tags
  patch32 (UInt32.ofNat (p.length - 4)) p

/-- create_acls_request.go:14-23 -/
structure AclCreation where
  resourceType : UInt8
  resourceName : Bytes
  patternType : UInt8
  principal : Bytes
  host : Bytes
  operation : UInt8
  permissionType : UInt8
deriving DecidableEq, Repr

/-- create_acls_request.go:25-35 -/
def AclCreation.length (a : AclCreation) : Nat :=
  1 + (2 + a.resourceName.length) + 1 + (2 + a.principal.length) + (2 + a.host.length) + 1 + 1 + noTagsLength

/-- create_acls_request.go:41-45: one string -/
def encodeAclString (hv : UInt16) (s : Bytes) : Enc :=
  if hv < 2 then .cpyO (encodeString s) else .cpyO (encodeCompactString s)

/-- create_acls_request.go:37-66 -/
def AclCreation.enc (version hv : UInt16) (a : AclCreation) : Enc :=
  .all [.put [a.resourceType], encodeAclString hv a.resourceName, .when (decide (version ≥ 1)) (.put [a.patternType]),
    encodeAclString hv a.principal, encodeAclString hv a.host, .put [a.operation], .put [a.permissionType], .noTags]

/-- create_acls_request.go:68-109 -/
def encodeCreateAclsRequest (h : RequestHeader) (creations : List AclCreation) : Out Bytes := do
  let hv ← h.headerVersion
  encodePatched h (creations.foldl (fun l c => l + c.length) 4 + noTagsLength)
    (.all [if hv < 2 then .put (be32 (UInt32.ofNat creations.length))
        else .cpyO (encodeCompactArrayLength (Int64.ofNat creations.length)),
      .each (AclCreation.enc h.apiVersion hv) creations, .noTags])

/-- delete_acls_request.go:19-39 -/
def AclFilter.length (f : AclFilter) : Nat :=
  1 + 2 + optLen f.resourceName + 1 + 2 + optLen f.principal + 2 + optLen f.host + 1 + noTagsLength

/-- delete_acls_request.go:44-48: one string -/
def encodeFilterString (flexible : Bool) (s : Option Bytes) : Enc :=
  if flexible then .cpyO (encodeCompactNullableString s) else .cpyO (encodeNullableString s)

/-- delete_acls_request.go:40-72 -/
def AclFilter.enc (version : UInt16) (flexible : Bool) (f : AclFilter) : Enc :=
  .all [.put [f.resourceType], encodeFilterString flexible f.resourceName, .when (decide (version ≥ 1)) (.put [f.patternType]),
    encodeFilterString flexible f.principal, encodeFilterString flexible f.host, .put [f.operation], .put [f.permissionType],
    .when flexible .noTags]

/-- delete_acls_request.go:92-134 -/
def encodeDeleteAclsRequest (h : RequestHeader) (filters : List AclFilter) : Out Bytes := do
  let flexible ← h.isFlexible
  encodePatched h (filters.foldl (fun l f => l + f.length) 4)
    (.all [if flexible then .cpyO (encodeCompactArrayLength (Int64.ofNat filters.length))
        else .put (be32 (UInt32.ofNat filters.length)),
      .each (AclFilter.enc h.apiVersion flexible) filters, .when flexible .noTags])

end Healer
