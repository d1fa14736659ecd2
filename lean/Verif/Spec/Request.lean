import Verif.Spec.Header

/-!
# Kafka requests (specification)

Layouts of the request bodies, from https://kafka.apache.org/protocol.  Integers are mathematical
integers, strings are their bytes.
-/

namespace Kafka

/-- A complete request without tagged fields in the header. -/
def request (a : Api) (version correlationId : Nat) (clientId : Option Wire) (body : Wire) : Wire :=
  frame (requestHeader (a.requestHeaderVersion version) a.key version correlationId clientId [] ++ body)

/-! ## Group membership -/

def heartbeatRequest (group : Wire) (generation : Int) (member : Wire) : Wire :=
  string group ++ int32 generation ++ string member

def leaveGroupRequest (group member : Wire) : Wire := string group ++ string member

/-- `assignments`: member id and assignment bytes -/
def syncGroupRequest (group : Wire) (generation : Int) (member : Wire) (assignments : List (Wire × Wire)) : Wire :=
  string group ++ int32 generation ++ string member ++ array (fun a => string a.1 ++ bytes a.2) assignments

/-- Versions 0 to 4; the rebalance timeout exists from version 1 on. -/
def joinGroupRequest (version : Nat) (group : Wire) (sessionTimeout rebalanceTimeout : Int) (member protocolType : Wire)
    (protocols : List (Wire × Wire)) : Wire :=
  string group ++ int32 sessionTimeout ++ (if 1 ≤ version then int32 rebalanceTimeout else []) ++ string member ++
    string protocolType ++ array (fun a => string a.1 ++ bytes a.2) protocols

def findCoordinatorRequest (group : Wire) : Wire := string group

def describeGroupsRequest (groups : List Wire) : Wire := array string groups

def deleteGroupsRequest (groups : List Wire) : Wire := array string groups

/-- Versions 0 to 5: states filter from version 4, types filter from version 5, flexible from version 3. -/
def listGroupsRequest (version : Nat) (states types : List Wire) : Wire :=
  (if 4 ≤ version then compactArray compactString states else []) ++
  (if 5 ≤ version then compactArray compactString types else []) ++
  (if 3 ≤ version then tagBuffer [] else [])

/-! ## Offsets -/

structure CommitPartition where
  partition : Int
  offset : Int
  metadata : Wire

/-- Versions 0 and 2 to 5; retention time in versions 2 to 4.  (Version 1 has a time stamp per partition.) -/
def offsetCommitRequest (version : Nat) (group : Wire) (generation : Int) (member : Wire) (retention : Int)
    (topics : List (Wire × List CommitPartition)) : Wire :=
  string group ++
  (if 1 ≤ version then int32 generation ++ string member else []) ++
  (if 2 ≤ version ∧ version ≤ 4 then int64 retention else []) ++
  array (fun t => string t.1 ++
    array (fun p => int32 p.partition ++ int64 p.offset ++ string p.metadata) t.2) topics

/-- Versions 0 and 1. -/
def offsetFetchRequest (group : Wire) (topics : List (Wire × List Int)) : Wire :=
  string group ++ array (fun t => string t.1 ++ array int32 t.2) topics

structure ListOffsetsPartition where
  partition : Int
  time : Int
  maxOffsets : Int

/-- Versions 0 to 3: the number of offsets wanted exists in version 0 only, the isolation level from version 2 on. -/
def listOffsetsRequest (version : Nat) (replica : Int) (topics : List (Wire × List ListOffsetsPartition)) : Wire :=
  int32 replica ++ (if 2 ≤ version then int8 0 else []) ++ array (fun t => string t.1 ++
    array (fun p => int32 p.partition ++ int64 p.time ++ (if version = 0 then int32 p.maxOffsets else [])) t.2) topics

/-! ## Metadata, versions, authentication -/

/-- Versions 1 to 8: null topics means all topics; auto creation flag from version 4, authorized operations
from version 8 (not asked for). -/
def metadataRequest (version : Nat) (topics : Option (List Wire)) (autoCreate : Bool) : Wire :=
  nullableArray string topics ++ (if 4 ≤ version then boolean autoCreate else []) ++
  (if 8 ≤ version then boolean false ++ boolean false else [])

/-- Version 0. -/
def apiVersionsRequest : Wire := []

/-- Versions 0 and 1. -/
def saslHandshakeRequest (mechanism : Wire) : Wire := string mechanism

/-- Version 0. -/
def saslAuthenticateRequest (token : Wire) : Wire := bytes token

/-! ## Topic administration -/

structure NewTopic where
  name : Wire
  partitions : Int
  replicationFactor : Int
  assignments : List (Int × List Int)
  configs : List (Wire × Wire)

/-- Version 0. -/
def createTopicsRequest (topics : List NewTopic) (timeout : Int) : Wire :=
  array (fun t => string t.name ++ int32 t.partitions ++ int16 t.replicationFactor ++
    array (fun a => int32 a.1 ++ array int32 a.2) t.assignments ++
    array (fun c => string c.1 ++ nullableString (some c.2)) t.configs) topics ++ int32 timeout

/-- Version 0. -/
def deleteTopicsRequest (topics : List Wire) (timeout : Int) : Wire := array string topics ++ int32 timeout

structure MorePartitions where
  name : Wire
  count : Int
  /-- null: the broker chooses -/
  assignments : Option (List (List Int))

/-- Version 0 (classic) and version 2 (flexible). -/
def createPartitionsRequest (version : Nat) (topics : List MorePartitions) (timeout : Int) (validateOnly : Bool) : Wire :=
  if 2 ≤ version then
    compactArray (fun t => compactString t.name ++ int32 t.count ++
      compactNullableArray (fun a => compactArray int32 a ++ tagBuffer []) t.assignments ++ tagBuffer []) topics ++
    int32 timeout ++ boolean validateOnly ++ tagBuffer []
  else
    array (fun t => string t.name ++ int32 t.count ++ nullableArray (fun a => array int32 a) t.assignments) topics ++
    int32 timeout ++ boolean validateOnly

structure ConfigQuery where
  resourceType : Int
  resourceName : Wire
  /-- null: all settings -/
  names : Option (List Wire)

/-- Version 0. -/
def describeConfigsRequest (resources : List ConfigQuery) : Wire :=
  array (fun r => int8 r.resourceType ++ string r.resourceName ++ nullableArray string r.names) resources

structure ConfigChange where
  resourceType : Int
  resourceName : Wire
  /-- name and value -/
  entries : List (Wire × Wire)

/-- Version 0. -/
def alterConfigsRequest (resources : List ConfigChange) (validateOnly : Bool) : Wire :=
  array (fun r => int8 r.resourceType ++ string r.resourceName ++
    array (fun e => string e.1 ++ nullableString (some e.2)) r.entries) resources ++ boolean validateOnly

structure ConfigOp where
  name : Wire
  operation : Int
  value : Wire

structure ConfigOps where
  resourceType : Int
  resourceName : Wire
  entries : List ConfigOp

/-- Version 0. -/
def incrementalAlterConfigsRequest (resources : List ConfigOps) (validateOnly : Bool) : Wire :=
  array (fun r => int8 r.resourceType ++ string r.resourceName ++
    array (fun e => string e.name ++ int8 e.operation ++ nullableString (some e.value)) r.entries) resources ++
  boolean validateOnly

/-- Version 0. -/
def describeLogDirsRequest (topics : List (Wire × List Int)) : Wire :=
  nullableArray (fun t => string t.1 ++ array int32 t.2) (some topics)

/-- Version 0. -/
def electLeadersRequest (topics : List (Wire × List Int)) (timeout : Int) : Wire :=
  nullableArray (fun t => string t.1 ++ array int32 t.2) (some topics) ++ int32 timeout

/-! ## Reassignment (always flexible) -/

structure Reassignment where
  partition : Int
  /-- null: cancel the pending reassignment -/
  replicas : Option (List Int)

def alterPartitionReassignmentsRequest (timeout : Int) (topics : List (Wire × List Reassignment)) : Wire :=
  int32 timeout ++ compactArray (fun t => compactString t.1 ++
    compactArray (fun p => int32 p.partition ++ compactNullableArray int32 p.replicas ++ tagBuffer []) t.2 ++
    tagBuffer []) topics ++ tagBuffer []

/-- null topics: all topics -/
def listPartitionReassignmentsRequest (timeout : Int) (topics : Option (List (Wire × List Int))) : Wire :=
  int32 timeout ++ compactNullableArray (fun t => compactString t.1 ++ compactArray int32 t.2 ++ tagBuffer []) topics ++
    tagBuffer []

/-! ## Fetch -/

structure FetchBlock where
  partition : Int
  leaderEpoch : Int
  offset : Int
  logStart : Int
  maxBytes : Int

structure FetchQuery where
  replica : Int
  maxWait : Int
  minBytes : Int
  maxBytes : Int
  isolation : Int
  session : Int
  epoch : Int

/-- Versions 0 to 11; rack id from version 11 (empty). -/
def fetchRequest (version : Nat) (q : FetchQuery) (topics : List (Wire × List FetchBlock))
    (forgotten : List (Wire × List Int)) : Wire :=
  int32 q.replica ++ int32 q.maxWait ++ int32 q.minBytes ++
  (if 3 ≤ version then int32 q.maxBytes else []) ++
  (if 4 ≤ version then int8 q.isolation else []) ++
  (if 7 ≤ version then int32 q.session ++ int32 q.epoch else []) ++
  array (fun t => string t.1 ++ array (fun p => int32 p.partition ++
      (if 9 ≤ version then int32 p.leaderEpoch else []) ++ int64 p.offset ++
      (if 5 ≤ version then int64 p.logStart else []) ++ int32 p.maxBytes) t.2) topics ++
  (if 7 ≤ version then array (fun t => string t.1 ++ array int32 t.2) forgotten else []) ++
  (if 11 ≤ version then string [] else [])

/-! ## Produce -/

/-- `topics`: for every partition its number and the record batches, already encoded.  Versions 0 to 8
(classic, transactional id from version 3) and 9 (flexible). -/
def produceRequest (version : Nat) (transactionalId : Option Wire) (acks timeout : Int)
    (topics : List (Wire × List (Int × Wire))) : Wire :=
  if 9 ≤ version then
    compactNullableString transactionalId ++ int16 acks ++ int32 timeout ++
    compactArray (fun t => compactString t.1 ++
      compactArray (fun p => int32 p.1 ++ compactNullableBytes (some p.2) ++ tagBuffer []) t.2 ++ tagBuffer []) topics ++
    tagBuffer []
  else
    (if 3 ≤ version then nullableString transactionalId else []) ++ int16 acks ++ int32 timeout ++
    array (fun t => string t.1 ++ array (fun p => int32 p.1 ++ nullableBytes (some p.2)) t.2) topics

/-! ## ACLs -/

structure AclFilter where
  resourceType : Int
  resourceName : Option Wire
  patternType : Int
  principal : Option Wire
  host : Option Wire
  operation : Int
  permission : Int

/-- Pattern type from version 1, flexible from version 2. -/
def aclFilter (version : Nat) (f : AclFilter) : Wire :=
  let str := if 2 ≤ version then compactNullableString else nullableString
  int8 f.resourceType ++ str f.resourceName ++ (if 1 ≤ version then int8 f.patternType else []) ++
    str f.principal ++ str f.host ++ int8 f.operation ++ int8 f.permission

def describeAclsRequest (version : Nat) (f : AclFilter) : Wire :=
  aclFilter version f ++ (if 2 ≤ version then tagBuffer [] else [])

def deleteAclsRequest (version : Nat) (fs : List AclFilter) : Wire :=
  if 2 ≤ version then compactArray (fun f => aclFilter version f ++ tagBuffer []) fs ++ tagBuffer []
  else array (aclFilter version) fs

structure AclCreation where
  resourceType : Int
  resourceName : Wire
  patternType : Int
  principal : Wire
  host : Wire
  operation : Int
  permission : Int

def aclCreation (version : Nat) (c : AclCreation) : Wire :=
  let str := if 2 ≤ version then compactString else string
  int8 c.resourceType ++ str c.resourceName ++ (if 1 ≤ version then int8 c.patternType else []) ++
    str c.principal ++ str c.host ++ int8 c.operation ++ int8 c.permission

def createAclsRequest (version : Nat) (cs : List AclCreation) : Wire :=
  if 2 ≤ version then compactArray (fun c => aclCreation version c ++ tagBuffer []) cs ++ tagBuffer []
  else array (aclCreation version) cs

end Kafka
