import Verif.Model.Response3
import Verif.Model.Request2

/-!
# Writing responses

Five response types have an `Encode` method; with it a program can play the broker.  A `bytes.Buffer` never fails: what is
written to it is appended.  In responses a nil list is modelled as an empty one.
-/

namespace Healer

/-- response.go:169-175 `length` -/
def ResponseHeader.length (h : ResponseHeader) : Nat := 4 + (if h.isFlexible then h.taggedFields.length else 0)

/-- a string written with the compact or the fixed encoding (delete_acls_response.go:89-93, list_groups_response.go:158-178) -/
def encodeFlexString (flexible : Bool) (s : Bytes) : Out Bytes := if flexible then encodeCompactString s else encodeString s

/-- a nullable string written with the compact or the fixed encoding (delete_acls_response.go:82-86) -/
def encodeFlexNullable (flexible : Bool) (s : Option Bytes) : Out Bytes :=
  if flexible then encodeCompactNullableString s else encodeNullableString s

/-- `if flexible { buf.Write(ts.Encode()) }` -/
def encodeFlexTags (flexible : Bool) (ts : TaggedFields) : Out Bytes := if flexible then ts.encode else .ok []

/-! ## alter_partition_reassignments_response.go -/

/-- alter_partition_reassignments_response.go:86-93 `encode` -/
def ReassignedPartition.encode (p : ReassignedPartition) : Out Bytes := do
  let m ← writeCompactNullableString p.errorMsg
  let t ← p.taggedFields.encode
  pure (be32 p.partitionID.toUInt32 ++ be16 p.errorCode.toUInt16 ++ m ++ t)

/-- alter_partition_reassignments_response.go:65-76 `encode` -/
def ReassignedTopic.encode (t : ReassignedTopic) : Out Bytes := do
  let name ← writeCompactString t.name
  let n ← encodeCompactArrayLength (Int64.ofNat t.partitions.length)
  let ps ← encodeEach ReassignedPartition.encode t.partitions
  let tags ← t.taggedFields.encode
  pure (name ++ n ++ ps ++ tags)

/-- alter_partition_reassignments_response.go:34-55 `Encode`; the version is not looked at -/
def AlterPartitionReassignmentsResponse.encode (r : AlterPartitionReassignmentsResponse) : Out Bytes := do
  let h ← r.header.encode
  let m ← writeCompactNullableString r.errorMsg
  let n ← encodeCompactArrayLength (Int64.ofNat r.responses.length)
  let ts ← encodeEach ReassignedTopic.encode r.responses
  let tags ← r.taggedFields.encode
  let p := [0, 0, 0, 0] ++ (h ++ be32 r.throttleTimeMs.toUInt32 ++ be16 r.errorCode.toUInt16 ++ m ++ n ++ ts ++ tags)
  patch32 (UInt32.ofNat (p.length - 4)) p

/-! ## delete_acls_response.go -/

/-- delete_acls_response.go:78-110 `encode` -/
def MatchingAcl.encode (version : UInt16) (flexible : Bool) (m : MatchingAcl) : Out Bytes := do
  let msg ← encodeFlexNullable flexible m.errorMessage
  let name ← encodeFlexString flexible m.resourceName
  let principal ← encodeFlexString flexible m.principal
  let host ← encodeFlexString flexible m.host
  let tags ← encodeFlexTags flexible m.taggedFields
  pure (be16 m.errorCode.toUInt16 ++ msg ++ [m.resourceType.toUInt8] ++ name ++
    (if version ≥ 1 then [m.patternType.toUInt8] else []) ++ principal ++ host ++ [m.operation.toUInt8] ++
    [m.permissionType.toUInt8] ++ tags)

/-- delete_acls_response.go:227-247: the loop body; the tagged fields are written in every version -/
def AclFilterResult.encode (version : UInt16) (flexible : Bool) (f : AclFilterResult) : Out Bytes := do
  let msg ← encodeFlexNullable flexible f.errorMessage
  let n ← writeCount flexible f.matchingAcls.length
  let ms ← encodeEach (MatchingAcl.encode version flexible) f.matchingAcls
  let tags ← f.taggedFields.encode
  pure (be16 f.errorCode.toUInt16 ++ msg ++ n ++ ms ++ tags)

/-- delete_acls_response.go:208-251 `Encode`; the tagged fields are written in every version -/
def DeleteAclsResponse.encode (r : DeleteAclsResponse) : Out Bytes := do
  let h ← r.header.encode
  let n ← writeCount r.header.isFlexible r.filterResults.length
  let fs ← encodeEach (AclFilterResult.encode r.header.apiVersion r.header.isFlexible) r.filterResults
  let tags ← r.taggedFields.encode
  let p := [0, 0, 0, 0] ++ (h ++ be32 r.throttleTimeMs.toUInt32 ++ n ++ fs ++ tags)
  patch32 (UInt32.ofNat (p.length - 4)) p

/-! ## desscribe_acls_response.go -/

/-- desscribe_acls_response.go:205-209, 222-228: a string written to the buffer -/
def writeByVersion (version : UInt16) (s : Bytes) : Out Bytes := if version ≤ 1 then .ok (writeString s) else writeCompactString s

/-- desscribe_acls_response.go:190-194: a nullable string written to the buffer -/
def writeNullableByVersion (version : UInt16) (s : Option Bytes) : Out Bytes :=
  if version ≤ 1 then .ok (writeNullableString s) else writeCompactNullableString s

/-- desscribe_acls_response.go:221-237: the loop body -/
def Acl.encode (version : UInt16) (a : Acl) : Out Bytes := do
  let principal ← writeByVersion version a.principal
  let host ← writeByVersion version a.host
  let tags ← encodeFlexTags (decide (version ≥ 2)) a.taggedFields
  pure (principal ++ host ++ [a.operation.toUInt8] ++ [a.permissionType.toUInt8] ++ tags)

/-- desscribe_acls_response.go:202-240: the loop body -/
def AclResource.encode (version : UInt16) (r : AclResource) : Out Bytes := do
  let name ← writeByVersion version r.resourceName
  let n ← writeCount (!decide (version ≤ 1)) r.acls.length
  let as ← encodeEach (Acl.encode version) r.acls
  let tags ← encodeFlexTags (decide (version ≥ 2)) r.taggedFields
  pure ([r.resourceType.toUInt8] ++ name ++ (if version ≥ 1 then [r.patternType.toUInt8] else []) ++ n ++ as ++ tags)

/-- desscribe_acls_response.go:172-248 `Encode`; the tagged fields are written twice, the first time after the
correlation id -/
def DescribeAclsResponse.encode (version : UInt16) (r : DescribeAclsResponse) : Out Bytes := do
  let htags ← encodeFlexTags (decide (version ≥ 1)) r.taggedFields
  let msg ← writeNullableByVersion version r.errorMessage
  let n ← writeCount (!decide (version ≤ 1)) r.resources.length
  let rs ← encodeEach (AclResource.encode version) r.resources
  let tags ← encodeFlexTags (decide (version ≥ 2)) r.taggedFields
  let p := [0, 0, 0, 0] ++ (be32 r.correlationID ++ htags ++ be32 r.throttleTimeMs.toUInt32 ++
    be16 r.errorCode.toUInt16 ++ msg ++ n ++ rs ++ tags)
  patch32 (UInt32.ofNat (p.length - 4)) p

/-! ## list_groups_response.go -/

/-- list_groups_response.go:142-148: what `length` reckons with for a group -/
def ListedGroup.room (g : ListedGroup) : Nat :=
  2 + g.groupID.length + (2 + g.protocolType.length) + (2 + g.groupState.length) + (2 + g.groupType.length) + g.taggedFields.length

/-- list_groups_response.go:137-151 `length` -/
def ListGroupsResponse.length (r : ListGroupsResponse) : Nat :=
  4 + r.header.length + 4 + 2 + 4 + (r.groups.map ListedGroup.room).sum + r.taggedFields.length

/-- list_groups_response.go:153-185 `encodeTo` -/
def ListedGroup.encodeTo (flexible : Bool) (version : UInt16) (g : ListedGroup) : Enc := .all [
  .cpyO (encodeFlexString flexible g.groupID),
  .cpyO (encodeFlexString flexible g.protocolType),
  .when (decide (version ≥ 4)) (.cpyO (encodeFlexString flexible g.groupState)),
  .when (decide (version ≥ 5)) (.cpyO (encodeFlexString flexible g.groupType)),
  .when flexible g.taggedFields.encodeTo]

/-- list_groups_response.go:204-215: the number of groups; a nil list is told apart in flexible versions -/
def listGroupsCount (flexible isNil : Bool) (n : Nat) : Enc :=
  if flexible then .cpyO (encodeCompactArrayLength (if isNil then -1 else Int64.ofNat n)) else .put (be32 (UInt32.ofNat n))

/-- list_groups_response.go:187-227 `Encode`; `isNil`: whether `Groups` is nil (then there are no groups) -/
def ListGroupsResponse.encode (version : UInt16) (isNil : Bool) (r : ListGroupsResponse) : Out Bytes := do
  let p ← encodeCut r.length (.all [
    .put [0, 0, 0, 0],
    r.header.encodeTo,
    .when (decide (version ≥ 1)) (.put (be32 r.throttleTimeMS.toUInt32)),
    .put (be16 r.errorCode),
    listGroupsCount r.header.isFlexible isNil r.groups.length,
    .each (ListedGroup.encodeTo r.header.isFlexible version) r.groups,
    .when r.header.isFlexible r.taggedFields.encodeTo])
  patch32 (UInt32.ofNat (p.length - 4)) p

/-! ## create_acls_response.go -/

/-- create_acls_response.go:89-95: what `length` reckons with for a result -/
def AclCreationResult.room (x : AclCreationResult) : Nat :=
  2 + 2 + (match x.errorMessage with | some m => m.length + 2 | none => 0)

/-- create_acls_response.go:86-98 `length`: the four bytes of the length are not counted -/
def CreateAclsResponse.length (r : CreateAclsResponse) : Nat :=
  r.header.length + 4 + (r.results.map AclCreationResult.room).sum

/-- create_acls_response.go:120-133: the loop body; `tags` are the tagged fields of the response, not of the result -/
def AclCreationResult.encodeTo (flexible : Bool) (tags : TaggedFields) (x : AclCreationResult) : Enc := .all [
  .put (be16 x.errorCode),
  .cpyO (encodeFlexNullable flexible x.errorMessage),
  .when flexible tags.encodeTo]

/-- create_acls_response.go:100-140 `Encode` -/
def CreateAclsResponse.encode (r : CreateAclsResponse) : Out Bytes := do
  let p ← encodeCut r.length (.all [
    .put [0, 0, 0, 0],
    r.header.encodeTo,
    (if r.header.isFlexible then .cpyO (encodeCompactArrayLength (Int64.ofNat r.results.length))
      else .put (be32 (UInt32.ofNat r.results.length))),
    .each (AclCreationResult.encodeTo r.header.isFlexible r.taggedFields) r.results,
    .when r.header.isFlexible (.cpyO r.taggedFields.encode)])
  patch32 (UInt32.ofNat (p.length - 4)) p

end Healer
