import Verif.Model.Request
import Verif.Model.Error
import Verif.Model.Group

/-!
# Response decoders: framing, group membership, offsets

A decoder `func NewXResponse(payload []byte, ...) (r, err)` is modelled as
`Bytes → Out (R × Option Err)`: `.ok (r, none)` is `(r, nil)`, `.ok (r, some e)` is a filled `r` together
with an error, `.err e` is the zero value together with an error.

Huge counts: `make([]T, n)` for a count larger than the payload allocates before the loop panics; the
allocation itself (which may exhaust memory) is not modelled.
-/

namespace Healer

/-- The check opening every decoder, e.g. heartbeat_response.go:19-23:
`if int(binary.BigEndian.Uint32(payload))+4 != len(payload) { return r, fmt.Errorf(...) }` -/
def openFrame : Cur Unit := do
  let n ← rdU32
  let l ← Cur.payloadLen
  if n.toNat + 4 = l then pure () else Cur.fail .lengthMismatch

/-- Body of a response decoder. -/
def respond {α : Type} (c : Cur α) (payload : Bytes) : Out α :=
  match (openFrame >>= fun _ => c) payload 0 with
  | .ok (a, _) => .ok a
  | .err e => .err e
  | .panic => .panic

/-- `l := int(binary.BigEndian.Uint16(payload[offset:])); offset += 2; s := string(payload[offset:offset+l]); offset += l` -/
def rdStr16 : Cur Bytes := do
  let l ← rdU16
  rdBytes l.toNat

/-- as `rdStr16` with `int(int16(..))`: a negative length makes the slice expression panic -/
def rdStrI16 : Cur Bytes := do
  let l ← rdI16
  rdBytes l.toInt

/-- `l := int(int16(..)); if l > 0 { s = string(payload[offset:offset+l]); offset += l }` -/
def rdStrPos : Cur Bytes := do
  let l ← rdI16
  Cur.cond (0 < l.toInt) (rdBytes l.toInt) []

/-- `l := int(binary.BigEndian.Uint32(..)); b := make([]byte, l); copy(b, payload[offset:offset+l]); offset += l` -/
def rdBytes32 : Cur Bytes := do
  let l ← rdU32
  rdBytes l.toNat

/-- `n := binary.BigEndian.Uint32(..); xs := make([]T, n); for i := range xs { .. }` -/
def rdArr32 {α : Type} (c : Cur α) : Cur (List α) := do
  let n ← rdU32
  Cur.forN n.toNat c

/-- `payload[offset] != 0; offset++` -/
def rdBool : Cur Bool := do
  let b ← rdU8
  pure (b != 0)

/-! ## Group membership -/

/-- joingroup_response.go:33-41 `JoinGroupResponse` (`Member` as in assign.go's model) -/
structure JoinGroupResponse where
  correlationID : UInt32
  errorCode : Int16
  generationID : Int32
  groupProtocol : Bytes
  leaderID : Bytes
  memberID : Bytes
  members : List Member
deriving DecidableEq, Repr

/-- joingroup_response.go:88-99: loop body -/
def rdMember : Cur Member := do
  let id ← rdStr16
  let md ← rdBytes32
  pure { memberID := id, memberMetadata := md }

/-- joingroup_response.go:47-102 `NewJoinGroupResponse` -/
def newJoinGroupResponse : Bytes → Out (JoinGroupResponse × Option Err) := respond do
  let c ← rdU32
  let e ← rdI16
  let g ← rdI32
  let p ← rdStr16
  let l ← rdStr16
  let m ← rdStr16
  let ms ← rdArr32 rdMember
  pure (⟨c, e, g, p, l, m, ms⟩, kafkaErr e)

/-- joingroup_response.go:43-45 `Error` -/
def JoinGroupResponse.error (r : JoinGroupResponse) : Option Err := getErrorFromErrorCode r.errorCode

/-- sync_group_response.go:9-13 `SyncGroupResponse` -/
structure SyncGroupResponse where
  correlationID : UInt32
  errorCode : Int16
  memberAssignment : Bytes
deriving DecidableEq, Repr

/-- sync_group_response.go:23-47 `NewSyncGroupResponse` -/
def newSyncGroupResponse : Bytes → Out (SyncGroupResponse × Option Err) := respond do
  let c ← rdU32
  let e ← rdI16
  let a ← rdBytes32
  pure (⟨c, e, a⟩, kafkaErr e)

/-- sync_group_response.go:15-20 `Error` -/
def SyncGroupResponse.error (r : SyncGroupResponse) : Option Err := kafkaErr r.errorCode

/-- heartbeat_response.go:8-11 `HeartbeatResponse`, leave_group_response.go:8-11 `LeaveGroupResponse` -/
structure ErrorResponse where
  correlationID : UInt32
  errorCode : Int16
deriving DecidableEq, Repr

/-- heartbeat_response.go:17-35 `NewHeartbeatResponse` -/
def newHeartbeatResponse : Bytes → Out (ErrorResponse × Option Err) := respond do
  let c ← rdU32
  let e ← rdI16
  pure (⟨c, e⟩, kafkaErr e)

/-- leave_group_response.go:17-35 `NewLeaveGroupResponse` -/
def newLeaveGroupResponse : Bytes → Out (ErrorResponse × Option Err) := respond do
  let c ← rdU32
  let e ← rdI16
  pure (⟨c, e⟩, kafkaErr e)

/-- heartbeat_response.go:13-15, leave_group_response.go:13-15 `Error` -/
def ErrorResponse.error (r : ErrorResponse) : Option Err := getErrorFromErrorCode r.errorCode

/-- findcoordinator_response.go:8-20 `FindCoordinatorResponse` with `Coordinator` flattened -/
structure FindCoordinatorResponse where
  correlationID : UInt32
  errorCode : Int16
  nodeID : Int32
  host : Bytes
  port : Int32
deriving DecidableEq, Repr

/-- findcoordinator_response.go:27-52 `NewFindCoordinatorResponse`; the version is not used -/
def newFindCoordinatorResponse : Bytes → Out (FindCoordinatorResponse × Option Err) := respond do
  let c ← rdU32
  let e ← rdI16
  let n ← rdI32
  let h ← rdStr16
  let p ← rdI32
  pure (⟨c, e, n, h, p⟩, none)

/-- findcoordinator_response.go:22-24 `Error` -/
def FindCoordinatorResponse.error (r : FindCoordinatorResponse) : Option Err := getErrorFromErrorCode r.errorCode

/-- list_groups_response.go:12-18 `Group` -/
structure ListedGroup where
  groupID : Bytes
  protocolType : Bytes
  groupState : Bytes
  groupType : Bytes
  taggedFields : TaggedFields
deriving DecidableEq, Repr

/-- list_groups_response.go:19-25 `ListGroupsResponse`; a nil `Groups` is the empty list -/
structure ListGroupsResponse where
  header : ResponseHeader
  throttleTimeMS : Int32
  errorCode : UInt16
  groups : List ListedGroup
  taggedFields : TaggedFields
deriving DecidableEq, Repr

/-- a string read with the compact or the fixed encoding -/
def rdFlexString (flexible : Bool) : Cur Bytes :=
  if flexible then Cur.call compactString else Cur.call nonnullableString

/-- a nullable string read with the compact or the fixed encoding -/
def rdFlexNullable (flexible : Bool) : Cur (Option Bytes) :=
  if flexible then Cur.call compactNullableString else Cur.call nullableString

/-- an array length read with the compact or the fixed encoding, as int32 -/
def rdFlexCount (flexible : Bool) : Cur Int32 :=
  if flexible then Cur.call compactArrayLength else rdI32

/-- list_groups_response.go:51-89 `decodeToGroup`; the version tags (lines 12-17) are `GroupState` 4,
`GroupType` 5 -/
def decodeToGroup (version : UInt16) (flexible : Bool) : GoDec ListedGroup := Cur.run do
  let id ← rdFlexString flexible
  let pt ← rdFlexString flexible
  let st ← Cur.cond (version ≥ 4) (rdFlexString flexible) []
  let ty ← Cur.cond (version ≥ 5) (rdFlexString flexible) []
  let tf ← Cur.cond (flexible = true) (Cur.call decodeTaggedFields) none
  pure ⟨id, pt, st, ty, tf⟩

/-- response.go:206-208 `IsFlexible` -/
def ResponseHeader.isFlexible (h : ResponseHeader) : Bool := decide (h.headerVersion ≥ 1)

/-- list_groups_response.go:91-135 `NewListGroupsResponse`; `ThrottleTimeMS` has version tag 1 -/
def newListGroupsResponse (version : UInt16) : Bytes → Out (ListGroupsResponse × Option Err) := respond do
  let h ← Cur.call (decodeResponseHeader API_ListGroups version)
  let t ← Cur.cond (version ≥ 1) rdI32 0
  let e ← rdU16
  let n ← rdFlexCount h.isFlexible
  let gs ← Cur.cond (0 ≤ n.toInt) (Cur.forN n.toInt.toNat (Cur.call (decodeToGroup version h.isFlexible))) []
  let tf ← Cur.cond (h.isFlexible = true) (Cur.call decodeTaggedFields) none
  pure (⟨h, t, e, gs, tf⟩, none)

/-- list_groups_response.go:27-29 `Error` -/
def ListGroupsResponse.error (_ : ListGroupsResponse) : Option Err := none

/-- delete_groups_response.go:9-16 `DeleteGroupsResponse`; results are group id and error code -/
structure DeleteGroupsResponse where
  correlationID : UInt32
  throttleTimeMs : Int32
  results : List (Bytes × Int16)
deriving DecidableEq, Repr

/-- a name followed by an error code: delete_groups_response.go:51-58, delete_topics_response.go:53-60 -/
def rdNameError : Cur (Bytes × Int16) := do
  let s ← rdStr16
  let e ← rdI16
  pure (s, e)

/-- delete_groups_response.go:29-62 `NewDeleteGroupsResponse` -/
def newDeleteGroupsResponse : Bytes → Out (DeleteGroupsResponse × Option Err) := respond do
  let c ← rdU32
  let t ← rdI32
  let rs ← rdArr32 rdNameError
  pure (⟨c, t, rs⟩, none)

/-- delete_groups_response.go:19-26 `Error`: the code is put into the text (`%s`), not wrapped, so only the
fact that there is an error remains -/
def DeleteGroupsResponse.error (r : DeleteGroupsResponse) : Option Err :=
  (firstKafkaErr (r.results.map Prod.snd)).map fun _ => .other "delete group failed"

/-- describe_groups_response.go:8-15 `MemberDetail`; `memberAssignment = none` is the nil pointer -/
structure MemberDetail where
  memberID : Bytes
  clientID : Bytes
  clientHost : Bytes
  memberMetadata : Bytes
  rawMemberAssignment : Bytes
  memberAssignment : Option MemberAssignment
deriving DecidableEq, Repr

/-- describe_groups_response.go:17-24 `GroupDetail` -/
structure GroupDetail where
  errorCode : Int16
  groupID : Bytes
  state : Bytes
  protocolType : Bytes
  protocol : Bytes
  members : List MemberDetail
deriving DecidableEq, Repr

/-- describe_groups_response.go:26-29 `DescribeGroupsResponse` -/
structure DescribeGroupsResponse where
  correlationID : UInt32
  groups : List GroupDetail
deriving DecidableEq, Repr

/-- describe_groups_response.go:95-118, without the decoding of the assignment.  Line 112 copies the
metadata into a nil slice: nothing is stored. -/
def rdMemberDetail : Cur MemberDetail := do
  let id ← rdStr16
  let c ← rdStr16
  let h ← rdStr16
  let _ ← rdBytes32
  let a ← rdBytes32
  pure ⟨id, c, h, [], a, none⟩

/-- describe_groups_response.go:60-94 -/
def rdGroupDetail : Cur GroupDetail := do
  let e ← rdI16
  let id ← rdStr16
  let s ← rdStr16
  let pt ← rdStr16
  let p ← rdStr16
  let ms ← rdArr32 rdMemberDetail
  pure ⟨e, id, s, pt, p, ms⟩

/-- describe_groups_response.go:119: decode one member's assignment.  `NewMemberAssignment` returns a nil
pointer with its error. -/
def MemberDetail.assign (m : MemberDetail) : Out (MemberDetail × Option Err) :=
  match newMemberAssignment m.rawMemberAssignment with
  | .ok a => .ok ({ m with memberAssignment := some a }, none)
  | .err e => .ok (m, some e)
  | .panic => .panic

/-- describe_groups_response.go:94-121: the members of a group; the error of the last member replaces
whatever error was noted before -/
def assignMembers (err : Option Err) : List MemberDetail → Out (List MemberDetail × Option Err)
  | [] => .ok ([], err)
  | m :: ms =>
    match m.assign with
    | .ok (m', e) =>
      match assignMembers e ms with
      | .ok (ms', e') => .ok (m' :: ms', e')
      | .err x => .err x
      | .panic => .panic
    | .err x => .err x
    | .panic => .panic

/-- describe_groups_response.go:59-124: the groups -/
def assignGroups (err : Option Err) : List GroupDetail → Out (List GroupDetail × Option Err)
  | [] => .ok ([], err)
  | g :: gs =>
    let err := if err = none ∧ g.errorCode ≠ 0 then some (.kafka g.errorCode) else err
    match assignMembers err g.members with
    | .ok (ms, e) =>
      match assignGroups e gs with
      | .ok (gs', e') => .ok ({ g with members := ms } :: gs', e')
      | .err x => .err x
      | .panic => .panic
    | .err x => .err x
    | .panic => .panic

/-- describe_groups_response.go:40-127 `NewDescribeGroupsResponse`.  The code decodes each member's
assignment as it goes; here all raw fields are read first.  Either way a panic anywhere is a panic. -/
def newDescribeGroupsResponse (payload : Bytes) : Out (DescribeGroupsResponse × Option Err) :=
  match respond (do
    let c ← rdU32
    let gs ← rdArr32 rdGroupDetail
    pure (⟨c, gs⟩ : DescribeGroupsResponse)) payload with
  | .ok r =>
    match assignGroups none r.groups with
    | .ok (gs, e) => .ok ({ r with groups := gs }, e)
    | .err x => .err x
    | .panic => .panic
  | .err x => .err x
  | .panic => .panic

/-- describe_groups_response.go:31-38 `Error` -/
def DescribeGroupsResponse.error (r : DescribeGroupsResponse) : Option Err :=
  firstKafkaErr (r.groups.map GroupDetail.errorCode)

/-! ## Offsets -/

/-- offset_commit_response.go:15-28 `OffsetCommitResponse`: topic, then partition and error code -/
structure OffsetCommitResponse where
  correlationID : UInt32
  topics : List (Bytes × List (UInt32 × Int16))
deriving DecidableEq, Repr

/-- offset_commit_response.go:74-77 -/
def rdCommitted : Cur (UInt32 × Int16) := do
  let p ← rdU32
  let e ← rdI16
  pure (p, e)

/-- a topic name and a list of partition entries: offset_commit_response.go:62-69, offset_fetch_response.go:59-66,
offset_response.go:63-71, describe_logdirs_response.go:36-60, elect_leaders_response.go:34-44 -/
def rdTopic {α : Type} (c : Cur α) : Cur (Bytes × List α) := do
  let t ← rdStr16
  let ps ← rdArr32 c
  pure (t, ps)

/-- offset_commit_response.go:30-39 `Error` -/
def OffsetCommitResponse.error (r : OffsetCommitResponse) : Option Err :=
  firstKafkaErr (r.topics.flatMap fun t => t.2.map Prod.snd)

/-- offset_commit_response.go:41-86 `NewOffsetCommitResponse`.  The error noted in the loop (lines 79-81) is the
first non-zero code in reading order, which is what `error` computes. -/
def newOffsetCommitResponse : Bytes → Out (OffsetCommitResponse × Option Err) := respond do
  let c ← rdU32
  let ts ← rdArr32 (rdTopic rdCommitted)
  let r : OffsetCommitResponse := ⟨c, ts⟩
  pure (r, firstKafkaErr (ts.flatMap fun t => t.2.map Prod.snd))

/-- offset_fetch_response.go:8-13 `OffsetFetchResponsePartition` -/
structure FetchedOffset where
  partitionID : Int32
  offset : Int64
  metadata : Bytes
  errorCode : Int16
deriving DecidableEq, Repr

/-- offset_fetch_response.go:15-23 `OffsetFetchResponse` -/
structure OffsetFetchResponse where
  correlationID : UInt32
  topics : List (Bytes × List FetchedOffset)
deriving DecidableEq, Repr

/-- offset_fetch_response.go:71-80: the metadata length is read as unsigned -/
def rdFetchedOffset : Cur FetchedOffset := do
  let p ← rdI32
  let o ← rdI64
  let m ← rdStr16
  let e ← rdI16
  pure ⟨p, o, m, e⟩

/-- offset_fetch_response.go:37-89 `NewOffsetFetchResponse` -/
def newOffsetFetchResponse : Bytes → Out (OffsetFetchResponse × Option Err) := respond do
  let c ← rdU32
  let ts ← rdArr32 (rdTopic rdFetchedOffset)
  let r : OffsetFetchResponse := ⟨c, ts⟩
  pure (r, firstKafkaErr (ts.flatMap fun t => t.2.map FetchedOffset.errorCode))

/-- offset_fetch_response.go:25-34 `Error` -/
def OffsetFetchResponse.error (r : OffsetFetchResponse) : Option Err :=
  (firstKafkaErr (r.topics.flatMap fun t => t.2.map FetchedOffset.errorCode)).map .wrapped

/-- offset_response.go:8-14 `PartitionOffset` -/
structure PartitionOffset where
  partition : Int32
  errorCode : Int16
  oldStyleOffsets : List Int64
  timestamp : Int64
  offset : Int64
deriving DecidableEq, Repr

/-- offset_response.go:17-25 `GetOffset` -/
def PartitionOffset.getOffset (p : PartitionOffset) : Out Int64 :=
  match p.oldStyleOffsets with
  | [] => .ok p.offset
  | [o] => .ok o
  | _ => .panic

/-- offset_response.go:27-31 `OffsetsResponse` -/
structure OffsetsResponse where
  correlationID : UInt32
  throttleTimeMs : Int32
  topicPartitionOffsets : AMap Bytes (List PartitionOffset)
deriving DecidableEq, Repr

/-- offset_response.go:72-92 -/
def rdPartitionOffset (version : UInt16) : Cur PartitionOffset := do
  let p ← rdI32
  let e ← rdI16
  let old ← Cur.cond (version = 0) (rdArr32 rdI64) []
  let t ← Cur.cond (version ≠ 0) rdI64 0
  let o ← Cur.cond (version ≠ 0) rdI64 0
  pure ⟨p, e, old, t, o⟩

/-- offset_response.go:55-57: the field is read from the bytes of the topic count; `offset` stays -/
def peekI32 : Cur Int32 := do
  let s ← Cur.peekRest
  match rdI32 s 0 with
  | .ok (v, _) => pure v
  | .err e => Cur.fail e
  | .panic => Cur.crash

/-- offset_response.go:44-97 `NewOffsetsResponse`.  Lines 61-95 store each topic's list in a map, so a topic
listed twice keeps its last list (in a map model that lists keys in first-insertion order). -/
def newOffsetsResponse (version : UInt16) : Bytes → Out (OffsetsResponse × Option Err) := respond do
  let c ← rdU32
  let th ← Cur.cond (version > 0) peekI32 0
  let ts ← rdArr32 (rdTopic (rdPartitionOffset version))
  pure (⟨c, th, ts.foldl (fun m t => AMap.set m t.1 t.2) []⟩, none)

/-- offset_response.go:33-42 `Error`; map iteration order decides which error is returned, here the list order -/
def OffsetsResponse.error (r : OffsetsResponse) : Option Err :=
  (firstKafkaErr (r.topicPartitionOffsets.flatMap fun t => t.2.map PartitionOffset.errorCode)).map .wrapped

end Healer
