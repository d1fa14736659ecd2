import Verif.Model.Request2

/-!
# One request object sent several times (request.go, broker.go:217-236, brokers.go:360-376)

`Brokers.Request` hands the same request object to one broker after the other.  Each transmission sets
correlation id and version in the object's header and encodes it; the header version computed for the first
transmission stays cached in the header.
-/

namespace Healer

/-- The requests that implement the interface `Request` (request.go:195-200). -/
inductive AnyRequest where
  | produce (compress : Int8 → Bytes → Out Bytes) (r : ProduceRequest)
  | fetch (r : FetchRequest)
  | offsets (r : OffsetsRequest)
  | metadata (r : MetadataRequest)
  | offsetCommit (r : OffsetCommitRequest)
  | offsetFetch (r : OffsetFetchRequest)
  | findCoordinator (groupID : Bytes)
  | joinGroup (r : JoinGroupRequest)
  | heartbeat (r : HeartbeatRequest)
  | leaveGroup (r : LeaveGroupRequest)
  | syncGroup (r : SyncGroupRequest)
  | describeGroups (groups : List Bytes)
  | listGroups (r : ListGroupsRequest)
  | saslHandshake (mechanism : Bytes)
  | apiVersions
  | createTopics (r : CreateTopicsRequest)
  | deleteTopics (topics : List Bytes) (timeoutMS : Int32)
  | describeAcls (r : AclFilter)
  | createAcls (creations : List AclCreation)
  | deleteAcls (filters : List AclFilter)
  | describeConfigs (rs : List DescribeConfigsResource)
  | alterConfigs (r : AlterConfigsRequest)
  | describeLogDirs (topics : List TopicPids)
  | saslAuthenticate (token : Bytes)
  | createPartitions (r : CreatePartitionsRequest)
  | deleteGroups (groups : List Bytes)
  | electLeaders (topics : List TopicPids) (timeoutMS : Int32)
  | incrementalAlterConfigs (r : IncrementalAlterConfigsRequest)
  | alterPartitionReassignments (r : AlterReassignmentsRequest)
  | listPartitionReassignments (r : ListReassignmentsRequest)

/-- The API key the constructor of the request puts into the header (request.go:9-58). -/
def AnyRequest.key : AnyRequest → UInt16
  | .produce .. => 0 | .fetch _ => 1 | .offsets _ => 2 | .metadata _ => 3 | .offsetCommit _ => 8
  | .offsetFetch _ => 9 | .findCoordinator _ => 10 | .joinGroup _ => 11 | .heartbeat _ => 12
  | .leaveGroup _ => 13 | .syncGroup _ => 14 | .describeGroups _ => 15 | .listGroups _ => 16
  | .saslHandshake _ => 17 | .apiVersions => 18 | .createTopics _ => 19 | .deleteTopics .. => 20
  | .describeAcls _ => 29 | .createAcls _ => 30 | .deleteAcls _ => 31 | .describeConfigs _ => 32
  | .alterConfigs _ => 33 | .describeLogDirs _ => 35 | .saslAuthenticate _ => 36
  | .createPartitions _ => 37 | .deleteGroups _ => 42 | .electLeaders .. => 43
  | .incrementalAlterConfigs _ => 44 | .alterPartitionReassignments _ => 45
  | .listPartitionReassignments _ => 46

/-- `Request.Encode(version)` (dynamic dispatch) on a request with the given header. -/
def AnyRequest.encode (h : RequestHeader) (version : UInt16) : AnyRequest → Out Bytes
  | .produce compress r => r.encode compress h
  | .fetch r => r.encode h version
  | .offsets r => r.encode h version
  | .metadata r => r.encode h version
  | .offsetCommit r => r.encode h
  | .offsetFetch r => r.encode h
  | .findCoordinator g => encodeFindCoordinatorRequest h g
  | .joinGroup r => r.encode h
  | .heartbeat r => r.encode h
  | .leaveGroup r => r.encode h
  | .syncGroup r => r.encode h
  | .describeGroups gs => encodeDescribeGroupsRequest h gs
  | .listGroups r => r.encode h
  | .saslHandshake m => encodeSaslHandshakeRequest h m
  | .apiVersions => encodeApiVersionsRequest h
  | .createTopics r => r.encode h
  | .deleteTopics ts t => encodeDeleteTopicsRequest h ts t
  | .describeAcls r => encodeDescribeAclsRequest h version r
  | .createAcls cs => encodeCreateAclsRequest h cs
  | .deleteAcls fs => encodeDeleteAclsRequest h fs
  | .describeConfigs rs => encodeDescribeConfigsRequest h rs
  | .alterConfigs r => r.encode h
  | .describeLogDirs ts => encodeDescribeLogDirsRequest h ts
  | .saslAuthenticate t => encodeSaslAuthenticateRequest h t
  | .createPartitions r => r.encode h version
  | .deleteGroups gs => encodeDeleteGroupsRequest h gs
  | .electLeaders ts t => encodeElectLeadersRequest h ts t
  | .incrementalAlterConfigs r => r.encode h
  | .alterPartitionReassignments r => r.encode h
  | .listPartitionReassignments r => r.encode h

/-- broker.go:218-230: one transmission: the bytes, and the header afterwards.  Every `Encode` calls
`headerVersion` (through `length`, `EncodeTo` or `WriteTo`), so the header version is cached then. -/
def AnyRequest.transmit (r : AnyRequest) (h : RequestHeader) (version : UInt16) (corr : UInt32) : Out Bytes × RequestHeader :=
  let h := { h with correlationID := corr, apiVersion := version }
  (r.encode h version, h.remember)

/-- brokers.go:360-376: the same object sent again and again, each time with the version and the correlation id
of the broker whose turn it is. -/
def AnyRequest.transmissions (r : AnyRequest) (h : RequestHeader) : List (UInt16 × UInt32) → List (Out Bytes)
  | [] => []
  | (v, c) :: rest => (r.transmit h v c).1 :: r.transmissions (r.transmit h v c).2 rest

end Healer
