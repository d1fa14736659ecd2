import Verif.Spec.Response2

/-!
# Kafka responses (specification): reassignments, produce, ACLs

Layouts from https://kafka.apache.org/protocol.
-/

namespace Kafka

/-! ## Reassignments (always flexible) -/

structure ReassignedPartition where
  index : Int
  error : Int
  message : Option Wire
  tags : List (Nat × Wire)

structure ReassignedTopic where
  name : Wire
  partitions : List ReassignedPartition
  tags : List (Nat × Wire)

/-- Version 0. -/
def alterPartitionReassignmentsResponse (throttle error : Int) (message : Option Wire)
    (topics : List ReassignedTopic) (tags : List (Nat × Wire)) : Wire :=
  int32 throttle ++ int16 error ++ compactNullableString message ++
  compactArray (fun t => compactString t.name ++ compactArray (fun p => int32 p.index ++ int16 p.error ++
    compactNullableString p.message ++ tagBuffer p.tags) t.partitions ++ tagBuffer t.tags) topics ++ tagBuffer tags

structure OngoingPartition where
  index : Int
  replicas : List Int
  adding : List Int
  removing : List Int

structure OngoingTopic where
  name : Wire
  partitions : List OngoingPartition

/-- Version 0, without tagged fields (none are defined). -/
def listPartitionReassignmentsResponse (throttle error : Int) (message : Option Wire) (topics : List OngoingTopic) : Wire :=
  int32 throttle ++ int16 error ++ compactNullableString message ++
  compactArray (fun t => compactString t.name ++ compactArray (fun p => int32 p.index ++ compactArray int32 p.replicas ++
    compactArray int32 p.adding ++ compactArray int32 p.removing ++ tagBuffer []) t.partitions ++ tagBuffer []) topics ++
  tagBuffer []

/-! ## Produce -/

structure ProducedRecordError where
  index : Int
  message : Option Wire

structure ProducedPartition where
  index : Int
  error : Int
  baseOffset : Int
  /-- version 2 -/
  logAppendTime : Int
  /-- version 5 -/
  logStartOffset : Int
  /-- version 8 -/
  recordErrors : List ProducedRecordError
  /-- version 8 -/
  message : Option Wire

/-- Versions 0 to 9, without tagged fields (none are defined); `topics`: name, partitions. -/
def produceResponse (version : Nat) (topics : List (Wire × List ProducedPartition)) (throttle : Int) : Wire :=
  let f := Api.flexible .produce version
  flexArray f (fun t => flexString f t.1 ++ flexArray f (fun p => int32 p.index ++ int16 p.error ++ int64 p.baseOffset ++
    (if 2 ≤ version then int64 p.logAppendTime else []) ++ (if 5 ≤ version then int64 p.logStartOffset else []) ++
    (if 8 ≤ version then flexArray f (fun e => int32 e.index ++ flexNullable f e.message ++ flexTags f []) p.recordErrors
      else []) ++
    (if 8 ≤ version then flexNullable f p.message else []) ++ flexTags f []) t.2 ++ flexTags f []) topics ++
  (if 1 ≤ version then int32 throttle else []) ++ flexTags f []

/-! ## ACLs -/

structure AclCreated where
  error : Int
  message : Option Wire
  tags : List (Nat × Wire)

/-- Versions 0 to 3. -/
def createAclsResponse (version : Nat) (throttle : Int) (results : List AclCreated) (tags : List (Nat × Wire)) : Wire :=
  let f := Api.flexible .createAcls version
  int32 throttle ++ flexArray f (fun r => int16 r.error ++ flexNullable f r.message ++ flexTags f r.tags) results ++
  flexTags f tags

structure AclDeleted where
  error : Int
  message : Option Wire
  resourceType : Int
  resourceName : Wire
  /-- version 1 -/
  patternType : Int
  principal : Wire
  host : Wire
  operation : Int
  permission : Int
  tags : List (Nat × Wire)

def aclDeleted (version : Nat) (a : AclDeleted) : Wire :=
  let f := Api.flexible .deleteAcls version
  int16 a.error ++ flexNullable f a.message ++ int8 a.resourceType ++ flexString f a.resourceName ++
  (if 1 ≤ version then int8 a.patternType else []) ++ flexString f a.principal ++ flexString f a.host ++
  int8 a.operation ++ int8 a.permission ++ flexTags f a.tags

structure AclFilterResult where
  error : Int
  message : Option Wire
  matching : List AclDeleted
  tags : List (Nat × Wire)

/-- Versions 0 to 3. -/
def deleteAclsResponse (version : Nat) (throttle : Int) (results : List AclFilterResult) (tags : List (Nat × Wire)) : Wire :=
  let f := Api.flexible .deleteAcls version
  int32 throttle ++ flexArray f (fun r => int16 r.error ++ flexNullable f r.message ++
    flexArray f (aclDeleted version) r.matching ++ flexTags f r.tags) results ++ flexTags f tags

structure AclEntry where
  principal : Wire
  host : Wire
  operation : Int
  permission : Int
  tags : List (Nat × Wire)

structure AclResource where
  type : Int
  name : Wire
  /-- version 1 -/
  patternType : Int
  acls : List AclEntry
  tags : List (Nat × Wire)

/-- Versions 0 to 2. -/
def describeAclsResponse (version : Nat) (throttle error : Int) (message : Option Wire) (resources : List AclResource)
    (tags : List (Nat × Wire)) : Wire :=
  let f := Api.flexible .describeAcls version
  int32 throttle ++ int16 error ++ flexNullable f message ++
  flexArray f (fun r => int8 r.type ++ flexString f r.name ++ (if 1 ≤ version then int8 r.patternType else []) ++
    flexArray f (fun a => flexString f a.principal ++ flexString f a.host ++ int8 a.operation ++ int8 a.permission ++
      flexTags f a.tags) r.acls ++ flexTags f r.tags) resources ++ flexTags f tags

end Kafka
