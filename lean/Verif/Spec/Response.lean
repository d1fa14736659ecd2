import Verif.Spec.Header
import Verif.Spec.Group

/-!
# Kafka responses (specification)

Layouts of the response bodies, from https://kafka.apache.org/protocol.
-/

namespace Kafka

/-- A complete response. -/
def response (a : Api) (version correlationId : Nat) (tags : List (Nat × Wire)) (body : Wire) : Wire :=
  frame (responseHeader (a.responseHeaderVersion version) correlationId tags ++ body)

/-! ## Group membership -/

/-- Version 0; `members`: member id and metadata. -/
def joinGroupResponse (error generation : Int) (protocol leader member : Wire) (members : List (Wire × Wire)) : Wire :=
  int16 error ++ int32 generation ++ string protocol ++ string leader ++ string member ++
    array (fun m => string m.1 ++ bytes m.2) members

/-- Version 0. -/
def syncGroupResponse (error : Int) (assignment : Wire) : Wire := int16 error ++ bytes assignment

/-- Version 0. -/
def heartbeatResponse (error : Int) : Wire := int16 error

/-- Version 0. -/
def leaveGroupResponse (error : Int) : Wire := int16 error

/-- Version 0. -/
def findCoordinatorResponse (error node : Int) (host : Wire) (port : Int) : Wire :=
  int16 error ++ int32 node ++ string host ++ int32 port

structure ListedGroup where
  id : Wire
  protocolType : Wire
  state : Wire
  type : Wire
  tags : List (Nat × Wire)

/-- Versions 0 to 5: throttle time from version 1, state from version 4, type from version 5. -/
def listGroupsResponse (version : Nat) (throttle error : Int) (groups : List ListedGroup)
    (tags : List (Nat × Wire)) : Wire :=
  let f := Api.flexible .listGroups version
  (if 1 ≤ version then int32 throttle else []) ++ int16 error ++
  flexArray f (fun g => flexString f g.id ++ flexString f g.protocolType ++
    (if 4 ≤ version then flexString f g.state else []) ++
    (if 5 ≤ version then flexString f g.type else []) ++ flexTags f g.tags) groups ++ flexTags f tags

/-- Version 0. -/
def deleteGroupsResponse (throttle : Int) (results : List (Wire × Int)) : Wire :=
  int32 throttle ++ array (fun r => string r.1 ++ int16 r.2) results

structure DescribedMember where
  id : Wire
  clientId : Wire
  host : Wire
  metadata : Wire
  assignment : Wire

structure DescribedGroup where
  error : Int
  id : Wire
  state : Wire
  protocolType : Wire
  protocol : Wire
  members : List DescribedMember

/-- Version 0. -/
def describeGroupsResponse (groups : List DescribedGroup) : Wire :=
  array (fun g => int16 g.error ++ string g.id ++ string g.state ++ string g.protocolType ++ string g.protocol ++
    array (fun m => string m.id ++ string m.clientId ++ string m.host ++ bytes m.metadata ++ bytes m.assignment)
      g.members) groups

/-! ## Offsets -/

/-- Versions 0 to 2; per partition: index, error. -/
def offsetCommitResponse (topics : List (Wire × List (Int × Int))) : Wire :=
  array (fun t => string t.1 ++ array (fun p => int32 p.1 ++ int16 p.2) t.2) topics

structure FetchedOffset where
  partition : Int
  offset : Int
  metadata : Option Wire
  error : Int

/-- Versions 0 and 1. -/
def offsetFetchResponse (topics : List (Wire × List FetchedOffset)) : Wire :=
  array (fun t => string t.1 ++
    array (fun p => int32 p.partition ++ int64 p.offset ++ nullableString p.metadata ++ int16 p.error) t.2) topics

structure ListedOffset where
  partition : Int
  error : Int
  /-- version 0 -/
  oldOffsets : List Int
  /-- version 1 -/
  time : Int
  offset : Int

/-- Versions 0 and 1. -/
def listOffsetsResponse (version : Nat) (topics : List (Wire × List ListedOffset)) : Wire :=
  array (fun t => string t.1 ++ array (fun p => int32 p.partition ++ int16 p.error ++
    (if version = 0 then array int64 p.oldOffsets else int64 p.time ++ int64 p.offset)) t.2) topics

end Kafka
