import Verif.Model.Transmit
import Verif.Model.Builders
import Verif.Model.Secure

/-!
# Tools and HTTP handlers for administration

What they ask the controller for, and the settings of the connection they ask it through.  Flags, JSON and query parameters are given as parsed.
The order in which the parts are read, and what is answered when one is malformed, is in Model/Http.
-/

namespace Healer

/-- a request to the controller, and the settings (with the arrays they refer to) of the broker it is sent by -/
structure AdminCall where
  req : AnyRequest
  arrays : IntArrays := []
  config : BrokerConfig := defaultBrokerConfig

/-- `config := DefaultBrokerConfig(); config.Net.TimeoutMSForEachAPI = make([]int, 68); config.Net.TimeoutMSForEachAPI[api] = t` -/
def timeoutOnly (api : Nat) (t : Int64) (req : AnyRequest) : AdminCall :=
  { req := req, arrays := [(List.replicate 68 0).set api t], config := { defaultBrokerConfig with net := { defaultBrokerConfig.net with forEachAPI := some 0 } } }

/-- command/healer/cmd/elect-leaders.go:15-58: `--data` (nothing without it) and `--timeout.ms`; elect_leaders_request.go:19-28 -/
def electLeadersCmd (data : List (Bytes × Int32)) (timeout : Int32) : AdminCall :=
  { req := .electLeaders (data.foldl (fun ts d => addElectLeaders d.1 d.2 ts) []) timeout }

/-- apicontrollers/elect-leader.go:23-65: the body and the parameter `timeout` (an `int`); the timeout is set for API_AlterPartitionReassignments, 45 -/
def electLeadersHttp (data : List (Bytes × Int32)) (timeout : Int64) : AdminCall :=
  timeoutOnly 45 timeout (.electLeaders (data.foldl (fun ts d => addElectLeaders d.1 d.2 ts) []) timeout.toInt32)

/-- the request of the two next: alter_partition_reassignments_request.go:18-24, the loop adding assignments -/
def alterReassignments (data : List (Bytes × ReassignPartition)) (timeout : Int32) : AlterReassignmentsRequest :=
  data.foldl (fun r a => r.addAssignment a.1 a.2.partitionID a.2.replicas) { timeoutMs := timeout }

/-- command/healer/cmd/alter-partition-assignments.go:16-61 -/
def alterReassignmentsCmd (data : List (Bytes × ReassignPartition)) (timeout : Int32) : AdminCall :=
  timeoutOnly 45 timeout.toInt64 (.alterPartitionReassignments (alterReassignments data timeout))

/-- apicontrollers/partition-reassignments.go:84-124 -/
def alterReassignmentsHttp (data : List (Bytes × ReassignPartition)) (timeout : Int64) : AdminCall :=
  timeoutOnly 45 timeout (.alterPartitionReassignments (alterReassignments data timeout.toInt32))

/-- the request of the two next: list_partition_reassignments_request.go:20-31, the loop adding partitions -/
def listReassignments (data : List (Bytes × Int32)) (timeout : Int32) : ListReassignmentsRequest :=
  data.foldl (fun r d => r.addTP d.1 d.2) { timeoutMS := timeout }

/-- command/healer/cmd/list-partition-reassignments.go:15-69; the settings made in lines 34-36 are not passed on -/
def listReassignmentsCmd (data : List (Bytes × Int32)) (timeout : Int32) : AdminCall :=
  { req := .listPartitionReassignments (listReassignments data timeout) }

/-- apicontrollers/partition-reassignments.go:23-72: the parameter `timeout` may be missing; the settings made in lines 31, 43 and 44 are not passed on -/
def listReassignmentsHttp (data : List (Bytes × Int32)) (timeout : Option Int64) : AdminCall :=
  { req := .listPartitionReassignments (listReassignments data (timeout.getD 30000).toInt32) }

/-- command/healer/cmd/create-topic.go:56-75 without replica assignment, client.go:164-184, create_topics_request.go:139-164.  (Adding the first topic does not fail.) -/
def createTopicCmd (topic : Bytes) (partitions : Int32) (factor : Int16) (timeout : UInt32) : Except Err AdminCall :=
  (CreateTopicsRequest.addTopic topic partitions factor { timeout := timeout }).map fun r => { req := .createTopics r }

/-- client.go:187-209 `CreateTopics` -/
def createTopicsClient (topics : List Bytes) (partitions : Int32) (factor : Int16) (timeout : UInt32) : Except Err AdminCall :=
  (topics.foldlM (fun r t => CreateTopicsRequest.addTopic t partitions factor r) { timeout := timeout }).map fun r => { req := .createTopics r }

/-- command/healer/cmd/create-partitions.go:63-111, client.go:212-249, create_partitions_request.go:18-30; `none`: no `--assignments` -/
def createPartitionsCmd (topic : Bytes) (count : Int32) (assignments : Option (List (List Int32))) (timeout : UInt32) (validateOnly : Bool) : AdminCall :=
  { req := .createPartitions (CreatePartitionsRequest.addTopic topic count assignments { timeoutMS := timeout.toInt32, validateOnly := validateOnly }) }

/-- apicontrollers/create-partitions.go:23-57 -/
def createPartitionsHttp (topic : Bytes) (count : Int32) (timeout : Int64) : AdminCall :=
  createPartitionsCmd topic count none timeout.toUInt64.toUInt32 false

/-- command/healer/cmd/delete-topics.go:15-47, client.go:149-153 -/
def deleteTopicsCmd (topics : List Bytes) : AdminCall := { req := .deleteTopics topics 30000 }

end Healer
