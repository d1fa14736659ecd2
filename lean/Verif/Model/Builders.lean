import Verif.Model.Request2
import Verif.Go.Map

/-!
# Functions adding to a request

Slices of pointers to structs are modelled as lists of structs: the code changes the struct it found in place.
-/

namespace Healer

/-- The loop all these functions consist of: look for the first element with a property; change it if there is one,
append a new one otherwise. -/
def inFirst {α : Type} (p : α → Bool) (f : α → α) (new : α) : List α → List α
  | [] => [new]
  | a :: as => if p a then f a :: as else a :: inFirst p f new as

/-- offset_fetch_request.go:73-79, describe_logdirs_request.go:35-41, list_partition_reassignments_request.go:38-44 -/
def TopicPids.addOnce (pid : Int32) (t : TopicPids) : TopicPids :=
  if pid ∈ t.partitions then t else { t with partitions := t.partitions ++ [pid] }

/-- offset_fetch_request.go:53-80 `AddPartiton` -/
def OffsetFetchRequest.addPartition (topic : Bytes) (pid : Int32) (r : OffsetFetchRequest) : OffsetFetchRequest :=
  { r with topics := inFirst (·.topic == topic) (TopicPids.addOnce pid) ⟨topic, [pid]⟩ r.topics }

/-- describe_logdirs_request.go:32-50 `AddTopicPartition`, on the request's topics -/
def addLogDirsTopicPartition (topic : Bytes) (pid : Int32) (topics : List TopicPids) : List TopicPids :=
  inFirst (·.topic == topic) (TopicPids.addOnce pid) ⟨topic, [pid]⟩ topics

/-- list_partition_reassignments_request.go:34-56 `AddTP` -/
def ListReassignmentsRequest.addTP (topic : Bytes) (pid : Int32) (r : ListReassignmentsRequest) : ListReassignmentsRequest :=
  { r with topics := some (inFirst (·.topic == topic) (TopicPids.addOnce pid) ⟨topic, [pid]⟩ (r.topics.getD [])) }

/-- offset_commit_request.go:76-90: the part of `AddPartiton` which concerns the topic -/
def OffsetCommitTopic.add (pid : Int32) (offset : Int64) (metadata : Bytes) (t : OffsetCommitTopic) : OffsetCommitTopic :=
  { t with
    partitions := inFirst (·.partitionID == pid) (fun p => { p with offset := offset, metadata := metadata }) ⟨pid, offset, metadata⟩ t.partitions }

/-- offset_commit_request.go:56-91 `AddPartiton` -/
def OffsetCommitRequest.addPartition (topic : Bytes) (pid : Int32) (offset : Int64) (metadata : Bytes) (r : OffsetCommitRequest) :
    OffsetCommitRequest :=
  { r with topics := inFirst (·.topic == topic) (OffsetCommitTopic.add pid offset metadata) (OffsetCommitTopic.add pid offset metadata ⟨topic, []⟩) r.topics }

/-- fetch_request.go:50-65 `addPartition` -/
def FetchRequest.addPartition (topic : Bytes) (pid : Int32) (fetchOffset : Int64) (maxBytes epoch : Int32) (r : FetchRequest) : FetchRequest :=
  let block : PartitionBlock := { partition := pid, currentLeaderEpoch := epoch, fetchOffset := fetchOffset, logStartOffset := 0, maxBytes := maxBytes }
  { r with maxBytes := r.maxBytes + maxBytes
           topics := inFirst (·.1 == topic) (fun e => (e.1, e.2 ++ [block])) (topic, [block]) r.topics }

/-- elect_leaders_request.go:30-42 `Add`, on the request's topics -/
def addElectLeaders (topic : Bytes) (pid : Int32) (topics : List TopicPids) : List TopicPids :=
  inFirst (·.topic == topic) (fun t => { t with partitions := t.partitions ++ [pid] }) ⟨topic, [pid]⟩ topics

/-- alter_partition_reassignments_request.go:28-48 `AddAssignment` -/
def AlterReassignmentsRequest.addAssignment (topic : Bytes) (pid : Int32) (replicas : Option (List Int32)) (r : AlterReassignmentsRequest) :
    AlterReassignmentsRequest :=
  { r with
    topics := inFirst (·.topicName == topic) (fun t => { t with partitions := t.partitions ++ [⟨pid, replicas⟩] }) ⟨topic, [⟨pid, replicas⟩]⟩ r.topics }

/-- create_partitions_request.go:123-140 `AddTopic` -/
def CreatePartitionsRequest.addTopic (topic : Bytes) (count : Int32) (assignments : Option (List (List Int32))) (r : CreatePartitionsRequest) :
    CreatePartitionsRequest :=
  { r with topics := r.topics ++ [⟨topic, count, assignments⟩] }

/-! ## Configs -/

/-- alter_config_request.go:80-94: the settings of the resource -/
def AlterConfigsResource.add (name value : Bytes) (res : AlterConfigsResource) : Except Err AlterConfigsResource :=
  match res.configEntries.find? (·.1 == name) with
  | some c => if c.2 ≠ value then .error (.other "config already exist with different value") else .ok res
  | none => .ok { res with configEntries := res.configEntries ++ [(name, value)] }

/-- alter_config_request.go:78-107: the loop over the resources -/
def addAlterConfig (rt : UInt8) (rn name value : Bytes) : List AlterConfigsResource → Except Err (List AlterConfigsResource)
  | [] => .ok [⟨rt, rn, [(name, value)]⟩]
  | res :: rest =>
    if res.resourceType = rt ∧ res.resourceName = rn then (res.add name value).map (· :: rest)
    else (addAlterConfig rt rn name value rest).map (res :: ·)

/-- alter_config_request.go:77-108 `AddConfig` -/
def AlterConfigsRequest.addConfig (rt : UInt8) (rn name value : Bytes) (r : AlterConfigsRequest) : Except Err AlterConfigsRequest :=
  (addAlterConfig rt rn name value r.resources).map fun l => { r with resources := l }

/-- incremental_alter_config_request.go:85-100: the settings of the resource -/
def IncrementalResource.add (name value : Bytes) (res : IncrementalResource) : Except Err IncrementalResource :=
  match res.entries.find? (·.name == name) with
  | some c => if c.value ≠ value then .error (.other "config already exist with different value") else .ok res
  | none => .ok { res with entries := res.entries ++ [⟨name, 0, value⟩] }

/-- incremental_alter_config_request.go:83-114: the loop over the resources -/
def addIncrementalConfig (rt : UInt8) (rn name value : Bytes) : List IncrementalResource → Except Err (List IncrementalResource)
  | [] => .ok [⟨rt, rn, [⟨name, 0, value⟩]⟩]
  | res :: rest =>
    if res.resourceType = rt ∧ res.resourceName = rn then (res.add name value).map (· :: rest)
    else (addIncrementalConfig rt rn name value rest).map (res :: ·)

/-- incremental_alter_config_request.go:82-115 `AddConfig` -/
def IncrementalAlterConfigsRequest.addConfig (rt : UInt8) (rn name value : Bytes) (r : IncrementalAlterConfigsRequest) :
    Except Err IncrementalAlterConfigsRequest :=
  (addIncrementalConfig rt rn name value r.resources).map fun l => { r with resources := l }

/-! ## Creating topics -/

/-- create_topics_request.go:150-164 `AddTopic` -/
def CreateTopicsRequest.addTopic (topic : Bytes) (partitions : Int32) (factor : Int16) (r : CreateTopicsRequest) : Except Err CreateTopicsRequest :=
  if r.createTopicRequests.any (·.topic == topic) then .error (.other "topic has been added to the create_topics request already")
  else .ok { r with createTopicRequests := r.createTopicRequests ++ [{ topic := topic, numPartitions := partitions, replicationFactor := factor }] }

/-- create_topics_request.go:186-206: the assignments of the topic -/
def addReplicas (pid : Int32) (replicas : List Int32) : List ReplicaAssignment → Except Err (List ReplicaAssignment)
  | [] => .ok [⟨pid, replicas⟩]
  | ra :: ras =>
    if ra.partition ≥ pid then .error (.other "partitionID in replica-assignment is out of range")
    else if ra.partition = pid then .ok ({ ra with replicas := replicas } :: ras)
    else (addReplicas pid replicas ras).map (ra :: ·)

/-- create_topics_request.go:173-184: the loop over the topics -/
def addReplicasTo (topic : Bytes) (pid : Int32) (replicas : List Int32) : List CreateTopicRequest → Except Err (List CreateTopicRequest)
  | [] => .error (.other "topic not found in the CreateTopicRequests")
  | t :: ts =>
    if t.topic = topic then (addReplicas pid replicas t.replicaAssignments).map fun l => { t with replicaAssignments := l } :: ts
    else (addReplicasTo topic pid replicas ts).map (t :: ·)

/-- create_topics_request.go:172-207 `AddReplicaAssignment` -/
def CreateTopicsRequest.addReplicaAssignment (topic : Bytes) (pid : Int32) (replicas : List Int32) (r : CreateTopicsRequest) :
    Except Err CreateTopicsRequest :=
  (addReplicasTo topic pid replicas r.createTopicRequests).map fun l => { r with createTopicRequests := l }

end Healer
