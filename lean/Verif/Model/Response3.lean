import Verif.Model.Response2

/-!
# Response decoders: reassignments, produce, ACLs

`DecodeTaggedFields` results are `TaggedFields` (`none` = nil map); the reads of the decoders that drop the
tagged fields are kept because they move the offset.
-/

namespace Healer

/-! ## alter_partition_reassignments_response.go -/

/-- alter_partition_reassignments_response.go:117-120: the length is an int32 widened to `int` before the comparison -/
def respondI32 {α : Type} (c : Cur α) (payload : Bytes) : Out α :=
  match (do
    let n ← rdI32
    let l ← Cur.payloadLen
    if n.toInt + 4 = (l : Int) then c else Cur.fail .lengthMismatch : Cur α) payload 0 with
  | .ok (a, _) => .ok a
  | .err e => .err e
  | .panic => .panic

/-- delete_acls_response.go:148-151: the length is an int32, compared with `int32(len(payload))`, both wrapping -/
def respondWrap {α : Type} (c : Cur α) (payload : Bytes) : Out α :=
  match (do
    let n ← rdU32
    let l ← Cur.payloadLen
    if n + 4 = UInt32.ofNat l then c else Cur.fail .lengthMismatch : Cur α) payload 0 with
  | .ok (a, _) => .ok a
  | .err e => .err e
  | .panic => .panic

/-- alter_partition_reassignments_response.go:78-84 `alterPartitionReassignmentsResponseTopicPartition` -/
structure ReassignedPartition where
  partitionID : Int32
  errorCode : Int16
  errorMsg : Option Bytes
  taggedFields : TaggedFields
deriving DecidableEq, Repr

/-- alter_partition_reassignments_response.go:58-63 `alterPartitionReassignmentsResponseTopic`; nil = empty -/
structure ReassignedTopic where
  name : Bytes
  partitions : List ReassignedPartition
  taggedFields : TaggedFields
deriving DecidableEq, Repr

/-- alter_partition_reassignments_response.go:10-18 `AlterPartitionReassignmentsResponse`; nil = empty -/
structure AlterPartitionReassignmentsResponse where
  header : ResponseHeader
  throttleTimeMs : Int32
  errorCode : Int16
  errorMsg : Option Bytes
  responses : List ReassignedTopic
  taggedFields : TaggedFields
deriving DecidableEq, Repr

/-- `fmt.Errorf("%w: %s", KafkaError(code), *msg)`: a nil message is a nil pointer dereference -/
def derefError (code : Int16) (msg : Option Bytes) : Out (Option Err) :=
  match msg with
  | some _ => .ok (some (.wrapped (.kafka code)))
  | none => .panic

/-- `for ... { if code != 0 { return fmt.Errorf("%w: %s", KafkaError(code), *msg) } }; return nil` -/
def firstDeref (codes : List (Int16 × Option Bytes)) : Out (Option Err) :=
  match codes.find? fun x => x.1 ≠ 0 with
  | none => .ok none
  | some x => derefError x.1 x.2

/-- alter_partition_reassignments_response.go:20-32 `Error` -/
def AlterPartitionReassignmentsResponse.error (r : AlterPartitionReassignmentsResponse) : Out (Option Err) :=
  firstDeref ((r.errorCode, r.errorMsg) ::
    r.responses.flatMap fun t => t.partitions.map fun p => (p.errorCode, p.errorMsg))

/-- alter_partition_reassignments_response.go:95-113 `decodeToAlterPartitionReassignmentsResponseTopicPartition` -/
def decodeReassignedPartition : GoDec ReassignedPartition := Cur.run do
  let p ← rdI32
  let e ← rdI16
  let m ← Cur.call compactNullableString
  let t ← Cur.call decodeTaggedFields
  pure ⟨p, e, m, t⟩

/-- alter_partition_reassignments_response.go:146-167: loop body; a negative count reaches `make` and panics -/
def rdReassignedTopic : Cur ReassignedTopic := do
  let n ← Cur.call compactString
  let k ← Cur.call compactArrayLength
  let ps ← Cur.forInt k.toInt (Cur.call decodeReassignedPartition)
  let t ← Cur.call decodeTaggedFields
  pure ⟨n, ps, t⟩

/-- alter_partition_reassignments_response.go:116-174 `NewAlterPartitionReassignmentsResponse` -/
def newAlterPartitionReassignmentsResponse (version : UInt16) :
    Bytes → Out (AlterPartitionReassignmentsResponse × Option Err) := respondI32 do
  let h ← Cur.call (decodeResponseHeader API_AlterPartitionReassignments version)
  let t ← rdI32
  let e ← rdI16
  let m ← Cur.call compactNullableString
  let n ← Cur.call compactArrayLength
  let rs ← Cur.cond (0 ≤ n.toInt) (Cur.forN n.toInt.toNat rdReassignedTopic) []
  let tf ← Cur.call decodeTaggedFields
  pure (⟨h, t, e, m, rs, tf⟩, none)

/-! ## list_partition_reassignments_response.go -/

/-- list_partition_reassignments_response.go:46-52 `listPartitionReassignmentsPartitionBlock`; nil = empty -/
structure OngoingPartition where
  pid : Int32
  replicas : List Int32
  addingReplicas : List Int32
  removingReplicas : List Int32
deriving DecidableEq, Repr

/-- list_partition_reassignments_response.go:19-23 `listPartitionReassignmentsTopicBlock`; nil = empty -/
structure OngoingTopic where
  name : Bytes
  partitions : List OngoingPartition
deriving DecidableEq, Repr

/-- list_partition_reassignments_response.go:9-17 `ListPartitionReassignmentsResponse`; nil = empty -/
structure ListPartitionReassignmentsResponse where
  correlationID : UInt32
  throttleTimeMS : Int32
  errorCode : Int16
  errorMessage : Option Bytes
  topics : List OngoingTopic
deriving DecidableEq, Repr

/-- list_partition_reassignments_response.go:58-67 (and 69-77, 79-87): a compact array; nothing for counts ≤ 0 -/
def rdCompactArr {α : Type} (c : Cur α) : Cur (List α) := do
  let n ← Cur.call compactArrayLength
  Cur.cond (0 < n.toInt) (Cur.forN n.toInt.toNat c) []

/-- `_, o = binary.Uvarint(payload[offset:]); offset += o` -/
def skipTagCount : Cur Unit := do
  let _ ← rdUvarint
  pure ()

/-- list_partition_reassignments_response.go:54-91 `decodeToListPartitionReassignmentsPartitionBlock` -/
def decodeOngoingPartition : GoDec OngoingPartition := Cur.run do
  let p ← rdI32
  let r ← rdCompactArr rdI32
  let a ← rdCompactArr rdI32
  let d ← rdCompactArr rdI32
  skipTagCount
  pure ⟨p, r, a, d⟩

/-- list_partition_reassignments_response.go:25-44 `decodeToListPartitionReassignmentsTopicBlock` -/
def decodeOngoingTopic : GoDec OngoingTopic := Cur.run do
  let n ← Cur.call compactString
  let ps ← rdCompactArr (Cur.call decodeOngoingPartition)
  skipTagCount
  pure ⟨n, ps⟩

/-- list_partition_reassignments_response.go:94-96 `Error` -/
def ListPartitionReassignmentsResponse.error (r : ListPartitionReassignmentsResponse) : Option Err :=
  getErrorFromErrorCode r.errorCode

/-- list_partition_reassignments_response.go:99-139 `NewListPartitionReassignmentsResponse`; the header's tag count
is not read where it is, a byte is skipped after the error code instead (line 118) -/
def newListPartitionReassignmentsResponse : Bytes → Out (ListPartitionReassignmentsResponse × Option Err) := respond do
  let c ← rdU32
  let t ← rdI32
  let e ← rdI16
  Cur.advance 1
  let m ← Cur.call compactNullableString
  let ts ← rdCompactArr (Cur.call decodeOngoingTopic)
  skipTagCount
  pure (⟨c, t, e, m, ts⟩, none)

/-! ## produce_response.go -/

/-- produce_response.go:9-14 `produceResponseRecordErrors` -/
structure ProduceRecordError where
  batchIndex : Int32
  message : Option Bytes
  taggedField : TaggedFields
deriving DecidableEq, Repr

/-- produce_response.go:15-28 `produceResponseP`; its own `TaggedField` is never assigned -/
structure ProducedPartition where
  partitionID : Int32
  errorCode : Int16
  baseOffset : Int64
  logAppendTimeMs : Int64
  logStartOffset : Int64
  recordErrors : List ProduceRecordError
  errorMessage : Option Bytes
deriving DecidableEq, Repr

/-- produce_response.go:104-108 `produceResponseT` -/
structure ProducedTopic where
  topic : Bytes
  partitions : List ProducedPartition
  taggedField : TaggedFields
deriving DecidableEq, Repr

/-- produce_response.go:138-144 `ProduceResponse`; `ThrottleTimeMs` and `TaggedField` are never assigned -/
structure ProduceResponse where
  header : ResponseHeader
  produceResponses : List ProducedTopic
deriving DecidableEq, Repr

/-- produce_response.go:64-85: the count of a `make`, as `int` (int32 in the compact form, uint32 otherwise) -/
def rdMakeCount (flexible : Bool) : Cur Int :=
  if flexible then do
    let n ← Cur.call compactArrayLength
    pure n.toInt
  else do
    let n ← rdU32
    pure n.toNat

/-- produce_response.go:74-89: loop body; the tagged fields are read in every version -/
def rdProduceRecordError (flexible : Bool) : Cur ProduceRecordError := do
  let i ← rdI32
  let m ← rdFlexNullable flexible
  let t ← Cur.call decodeTaggedFields
  pure ⟨i, m, t⟩

/-- produce_response.go:63-90: a `make` and the loop -/
def rdProduceRecordErrors (flexible : Bool) : Cur (List ProduceRecordError) := do
  let n ← rdMakeCount flexible
  Cur.forInt n (rdProduceRecordError flexible)

/-- produce_response.go:41-102 `decode`; the version tags (lines 20-25) are `LogAppendTimeMs` 3, `LogStartOffset` 5,
`RecordErrors` 8, `ErrorMessage` 8, but line 53 looks up `GroupState`, which is missing and so 0 -/
def rdProducedPartition (version : UInt16) (flexible : Bool) : Cur ProducedPartition := do
  let p ← rdI32
  let e ← rdI16
  let b ← rdI64
  let a ← Cur.cond (version ≥ 0) rdI64 0
  let s ← Cur.cond (version ≥ 5) rdI64 0
  let rs ← Cur.cond (version ≥ 8) (rdProduceRecordErrors flexible) []
  let m ← Cur.cond (version ≥ 8) (rdFlexNullable flexible) none
  pure ⟨p, e, b, a, s, rs, m⟩

/-- produce_response.go:41-102 `decode` as a function of the rest of the payload -/
def decodeProducedPartition (version : UInt16) (flexible : Bool) : GoDec ProducedPartition :=
  Cur.run (rdProducedPartition version flexible)

/-- produce_response.go:110-136 `decode`; line 129 drops the length of the partition it has decoded, and the
tagged fields are read in every version -/
def decodeProducedTopic (version : UInt16) (flexible : Bool) : GoDec ProducedTopic := Cur.run do
  let n ← rdFlexString flexible
  let k ← rdMakeCount flexible
  let ps ← Cur.forInt k (Cur.call (keepOffset (decodeProducedPartition version flexible)))
  let t ← Cur.call decodeTaggedFields
  pure ⟨n, ps, t⟩

/-- produce_response.go:146-155 `Error` -/
def ProduceResponse.error (r : ProduceResponse) : Option Err :=
  firstKafkaErr (r.produceResponses.flatMap fun t => t.partitions.map ProducedPartition.errorCode)

/-- produce_response.go:157-188 `NewProduceResponse`; the header is decoded as one of DeleteAcls (line 168) -/
def newProduceResponse (version : UInt16) : Bytes → Out (ProduceResponse × Option Err) := respond do
  let h ← Cur.call (decodeResponseHeader API_DeleteAcls version)
  let n ← rdMakeCount h.isFlexible
  let ts ← Cur.forInt n (Cur.call (decodeProducedTopic version h.isFlexible))
  pure (⟨h, ts⟩, none)

/-! ## create_acls_response.go -/

/-- create_acls_response.go:14-18 `AclCreationResult` -/
structure AclCreationResult where
  errorCode : UInt16
  errorMessage : Option Bytes
  taggedFields : TaggedFields
deriving DecidableEq, Repr

/-- create_acls_response.go:8-12 `CreateAclsResponse`; nil = empty -/
structure CreateAclsResponse where
  header : ResponseHeader
  results : List AclCreationResult
  taggedFields : TaggedFields
deriving DecidableEq, Repr

/-- create_acls_response.go:20-27 `Error` -/
def CreateAclsResponse.error (r : CreateAclsResponse) : Option Err :=
  firstKafkaErr (r.results.map fun x => x.errorCode.toInt16)

/-- create_acls_response.go:58-75: loop body -/
def rdAclCreationResult (flexible : Bool) : Cur AclCreationResult := do
  let e ← rdU16
  let m ← rdFlexNullable flexible
  let t ← Cur.cond (flexible = true) (Cur.call decodeTaggedFields) none
  pure ⟨e, m, t⟩

/-- create_acls_response.go:29-84 `DecodeCreateAclsResponse`: the throttle time is not read -/
def decodeCreateAclsResponse (version : UInt16) : Bytes → Out (CreateAclsResponse × Option Err) := respond do
  let h ← Cur.call (decodeResponseHeader API_CreateAcls version)
  let n ← rdFlexCount h.isFlexible
  let rs ← Cur.cond (0 ≤ n.toInt) (Cur.forN n.toInt.toNat (rdAclCreationResult h.isFlexible)) []
  let t ← Cur.cond (h.isFlexible = true) (Cur.call decodeTaggedFields) none
  pure (⟨h, rs, t⟩, none)

/-! ## delete_acls_response.go -/

/-- delete_acls_response.go:9-20 `DeleteAclsMatchingAcl` -/
structure MatchingAcl where
  errorCode : Int16
  errorMessage : Option Bytes
  resourceType : Int8
  resourceName : Bytes
  patternType : Int8
  principal : Bytes
  host : Bytes
  operation : Int8
  permissionType : Int8
  taggedFields : TaggedFields
deriving DecidableEq, Repr

/-- delete_acls_response.go:112-117 `DeleteAclsFilterResult` -/
structure AclFilterResult where
  errorCode : Int16
  errorMessage : Option Bytes
  matchingAcls : List MatchingAcl
  taggedFields : TaggedFields
deriving DecidableEq, Repr

/-- delete_acls_response.go:119-124 `DeleteAclsResponse` -/
structure DeleteAclsResponse where
  header : ResponseHeader
  throttleTimeMs : Int32
  filterResults : List AclFilterResult
  taggedFields : TaggedFields
deriving DecidableEq, Repr

/-- delete_acls_response.go:126-139 `Error` -/
def DeleteAclsResponse.error (r : DeleteAclsResponse) : Out (Option Err) :=
  firstDeref (r.filterResults.flatMap fun f =>
    (f.errorCode, f.errorMessage) :: f.matchingAcls.map fun m => (m.errorCode, m.errorMessage))

/-- delete_acls_response.go:22-76 `DecodeDeleteAclsMatchingAcl` -/
def decodeMatchingAcl (version : UInt16) (flexible : Bool) : GoDec MatchingAcl := Cur.run do
  let e ← rdI16
  let m ← rdFlexNullable flexible
  let rt ← rdI8
  let rn ← rdFlexString flexible
  let pt ← Cur.cond (version ≥ 1) rdI8 0
  let p ← rdFlexString flexible
  let h ← rdFlexString flexible
  let o ← rdI8
  let pm ← rdI8
  let t ← Cur.cond (flexible = true) (Cur.call decodeTaggedFields) none
  pure ⟨e, m, rt, rn, pt, p, h, o, pm, t⟩

/-- delete_acls_response.go:170-200: loop body; the tagged fields (line 198) are read in every version -/
def rdAclFilterResult (version : UInt16) (flexible : Bool) : Cur AclFilterResult := do
  let e ← rdI16
  let m ← rdFlexNullable flexible
  let n ← rdFlexCount flexible
  let ms ← Cur.forInt n.toInt (Cur.call (decodeMatchingAcl version flexible))
  let t ← Cur.call decodeTaggedFields
  pure ⟨e, m, ms, t⟩

/-- delete_acls_response.go:141-206 `DecodeDeleteAclsResponse`; the tagged fields (line 202) are read in every
version -/
def decodeDeleteAclsResponse (version : UInt16) : Bytes → Out (DeleteAclsResponse × Option Err) := respondWrap do
  let h ← Cur.call (decodeResponseHeader API_DeleteAcls version)
  let t ← rdI32
  let n ← rdFlexCount h.isFlexible
  let rs ← Cur.forInt n.toInt (rdAclFilterResult h.apiVersion h.isFlexible)
  let tf ← Cur.call decodeTaggedFields
  pure (⟨h, t, rs, tf⟩, none)

/-! ## desscribe_acls_response.go -/

/-- desscribe_acls_response.go:26-32 `Acl` -/
structure Acl where
  principal : Bytes
  host : Bytes
  operation : Int8
  permissionType : Int8
  taggedFields : TaggedFields
deriving DecidableEq, Repr

/-- desscribe_acls_response.go:18-24 `AclResource` -/
structure AclResource where
  resourceType : Int8
  resourceName : Bytes
  patternType : Int8
  acls : List Acl
  taggedFields : TaggedFields
deriving DecidableEq, Repr

/-- desscribe_acls_response.go:8-16 `DescribeAclsResponse`; nil = empty -/
structure DescribeAclsResponse where
  correlationID : UInt32
  throttleTimeMs : Int32
  errorCode : Int16
  errorMessage : Option Bytes
  resources : List AclResource
  taggedFields : TaggedFields
deriving DecidableEq, Repr

/-- desscribe_acls_response.go:34-39 `Error` -/
def DescribeAclsResponse.error (r : DescribeAclsResponse) : Option Err := firstKafkaErr [r.errorCode]

/-- desscribe_acls_response.go:127-157: loop body; `version <= 1` is `!flexible` -/
def rdAcl (flexible : Bool) : Cur Acl := do
  let p ← rdFlexString flexible
  let h ← rdFlexString flexible
  let o ← rdI8
  let pm ← rdI8
  let t ← Cur.cond (flexible = true) (Cur.call decodeTaggedFields) none
  pure ⟨p, h, o, pm, t⟩

/-- desscribe_acls_response.go:93-162: loop body; the number of ACLs is taken as a uint32 -/
def rdAclResource (version : UInt16) : Cur AclResource := do
  let rt ← rdI8
  let rn ← rdFlexString (decide (version ≥ 2))
  let pt ← Cur.cond (version ≥ 1) rdI8 0
  let n ← rdFlexCount (decide (version ≥ 2))
  let as ← Cur.forN n.toUInt32.toNat (rdAcl (decide (version ≥ 2)))
  let t ← Cur.cond (decide (version ≥ 2) = true) (Cur.call decodeTaggedFields) none
  pure ⟨rt, rn, pt, as, t⟩

/-- desscribe_acls_response.go:41-170: everything after the message size -/
def rdDescribeAcls (version : UInt16) : Cur DescribeAclsResponse := do
  let c ← rdU32
  let _ ← Cur.cond (version ≥ 1) (Cur.call decodeTaggedFields) none
  let t ← rdI32
  let e ← rdI16
  let m ← rdFlexNullable (decide (version ≥ 2))
  let n ← rdFlexCount (decide (version ≥ 2))
  let rs ← Cur.cond (n.toInt ≠ -1) (Cur.forInt n.toInt (rdAclResource version)) []
  let tf ← Cur.cond (decide (version ≥ 2) = true) (Cur.call decodeTaggedFields) none
  pure ⟨c, t, e, m, rs, tf⟩

/-- desscribe_acls_response.go:41-170 `NewDescribeAclsResponse`: the message size is skipped unchecked -/
def newDescribeAclsResponse (version : UInt16) (payload : Bytes) : Out (DescribeAclsResponse × Option Err) :=
  match (do
    Cur.advance 4
    rdDescribeAcls version : Cur DescribeAclsResponse) payload 0 with
  | .ok (a, _) => .ok (a, none)
  | .err e => .err e
  | .panic => .panic

end Healer
