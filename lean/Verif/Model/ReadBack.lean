import Verif.Model.Request2
import Verif.Model.Response3

/-!
# Request decoders

The exported functions reading a request back.  Each returns the request header and the body.  Simplified: the tagged
fields inside the bodies of ACL, reassignment and produce requests are read but not kept, as the structures in
`Model/Request2.lean` have none.
-/

namespace Healer

deriving instance DecidableEq for MetadataRequest, ListGroupsRequest, ProduceP, ProduceT, ProduceRequest

/-- the outcome of decoding code starting at offset 0 -/
def readBack {α : Type} (c : Cur α) (payload : Bytes) : Out α :=
  match c payload 0 with
  | .ok (a, _) => .ok a
  | .err e => .err e
  | .panic => .panic

/-- code reading `r.IsFlexible()`: the header version was cached by `DecodeRequestHeader` (request.go:155, 218-224) -/
def RequestHeader.flexCached (h : RequestHeader) : Bool :=
  match h.hv with
  | some v => decide (v ≥ 2)
  | none => false

/-- `payload[offset] == 1` (metadata_request.go:99, incremental_alter_config_request.go:198) -/
def rdOne : Cur Bool := do
  let b ← rdU8
  pure (b == 1)

/-- metadata_request.go:75-104 `DecodeMetadataRequest`: the length is not looked at; the number of topics is a uint32 -/
def decodeMetadataRequest : Bytes → Out (RequestHeader × MetadataRequest) := readBack do
  let _ ← rdU32
  let h ← Cur.call decodeRequestHeader
  let ts ← rdArr32 rdStr16
  let a ← Cur.cond (h.apiVersion ≥ 4) rdOne false
  pure (h, ⟨some ts, a⟩)

/-- list_groups_request.go:151-171, 173-193: one filter; a negative count leaves it nil -/
def rdFilter (flexible : Bool) : Cur (Option (List Bytes)) := do
  let n ← rdFlexCount flexible
  Cur.cond (0 ≤ n.toInt) (do let xs ← Cur.forN n.toInt.toNat (rdFlexString flexible); pure (some xs)) none

/-- list_groups_request.go:132-201 `DecodeListGroupsRequest` -/
def decodeListGroupsRequest : Bytes → Out (RequestHeader × ListGroupsRequest) := respond do
  let h ← Cur.call decodeRequestHeader
  let s ← Cur.cond (h.apiVersion ≥ 4) (rdFilter h.flexCached) none
  let t ← Cur.cond (h.apiVersion ≥ 5) (rdFilter h.flexCached) none
  let tf ← Cur.cond (h.flexCached = true) (Cur.call decodeTaggedFields) none
  pure (h, ⟨s, t, tf⟩)

/-- create_acls_request.go:138-177: loop body; the tagged fields are read in every version -/
def rdAclCreation (version : UInt16) (flexible : Bool) : Cur AclCreation := do
  let rt ← rdU8
  let rn ← rdFlexString flexible
  let pt ← Cur.cond (version ≥ 1) rdU8 0
  let p ← rdFlexString flexible
  let host ← rdFlexString flexible
  let o ← rdU8
  let pm ← rdU8
  let _ ← Cur.call decodeTaggedFields
  pure ⟨rt, rn, pt, p, host, o, pm⟩

/-- create_acls_request.go:112-187 `DecodeCreateAclsRequest` -/
def decodeCreateAclsRequest : Bytes → Out (RequestHeader × List AclCreation) := respondWrap do
  let h ← Cur.call decodeRequestHeader
  let n ← rdFlexCount h.flexCached
  let cs ← Cur.forInt n.toInt (rdAclCreation h.apiVersion h.flexCached)
  let _ ← Cur.call decodeTaggedFields
  pure (h, cs)

/-- delete_acls_request.go:164-202: loop body; the tagged fields are read in every version -/
def rdAclFilter (version : UInt16) (flexible : Bool) : Cur AclFilter := do
  let rt ← rdU8
  let rn ← rdFlexNullable flexible
  let pt ← Cur.cond (version ≥ 1) rdU8 0
  let p ← rdFlexNullable flexible
  let host ← rdFlexNullable flexible
  let o ← rdU8
  let pm ← rdU8
  let _ ← Cur.call decodeTaggedFields
  pure ⟨rt, rn, pt, p, host, o, pm⟩

/-- delete_acls_request.go:135-205 `DecodeDeleteAclsRequest`: a negative count gives nil filters; the tagged fields of the
request are not read -/
def decodeDeleteAclsRequest : Bytes → Out (RequestHeader × List AclFilter) := respondWrap do
  let h ← Cur.call decodeRequestHeader
  let n ← rdFlexCount h.flexCached
  let fs ← Cur.cond (0 ≤ n.toInt) (Cur.forN n.toInt.toNat (rdAclFilter h.apiVersion h.flexCached)) []
  pure (h, fs)

/-- describe_acls_request.go:67-121 `DecodeDescribeAclsRequest`: the length is not looked at, the tagged fields are not
read, and the version is an argument -/
def decodeDescribeAclsRequest (version : UInt16) : Bytes → Out (RequestHeader × AclFilter) := readBack do
  let _ ← rdU32
  let h ← Cur.call decodeRequestHeader
  let rt ← rdU8
  let rn ← rdFlexNullable (decide (version ≥ 2))
  let pt ← Cur.cond (version ≥ 1) rdU8 0
  let p ← rdFlexNullable (decide (version ≥ 2))
  let host ← rdFlexNullable (decide (version ≥ 2))
  let o ← rdU8
  let pm ← rdU8
  pure (h, ⟨rt, rn, pt, p, host, o, pm⟩)

/-- incremental_alter_config_request.go:183-196: inner loop body -/
def rdIncrementalEntry : Cur IncrementalEntry := do
  let n ← rdStr16
  let o ← rdI8
  let v ← rdStr16
  pure ⟨n, o, v⟩

/-- incremental_alter_config_request.go:172-197: outer loop body -/
def rdIncrementalResource : Cur IncrementalResource := do
  let t ← rdU8
  let n ← rdStr16
  let es ← rdArr32 rdIncrementalEntry
  pure ⟨t, n, es⟩

/-- incremental_alter_config_request.go:164-200 `DecodeIncrementalAlterConfigsRequest`: the length is not looked at -/
def decodeIncrementalAlterConfigsRequest : Bytes → Out (RequestHeader × IncrementalAlterConfigsRequest) := readBack do
  Cur.advance 4
  let h ← Cur.call decodeRequestHeader
  let rs ← rdArr32 rdIncrementalResource
  let v ← rdOne
  pure (h, ⟨rs, v⟩)

/-- alter_partition_reassignments_request.go:183-204: inner loop body -/
def rdReassignPartition : Cur ReassignPartition := do
  let p ← rdI32
  let n ← Cur.call compactArrayLength
  let rs ← Cur.cond (0 ≤ n.toInt) (do let xs ← Cur.forN n.toInt.toNat rdI32; pure (some xs)) none
  let _ ← Cur.call decodeTaggedFields
  pure ⟨p, rs⟩

/-- alter_partition_reassignments_request.go:170-211: outer loop body; nil = empty -/
def rdReassignTopic : Cur ReassignTopic := do
  let t ← Cur.call compactString
  let n ← Cur.call compactArrayLength
  let ps ← Cur.cond (0 ≤ n.toInt) (Cur.forN n.toInt.toNat rdReassignPartition) []
  let _ ← Cur.call decodeTaggedFields
  pure ⟨t, ps⟩

/-- alter_partition_reassignments_request.go:149-217 `DecodeAlterPartitionReassignmentsRequest`; nil = empty -/
def decodeAlterReassignmentsRequest : Bytes → Out (RequestHeader × AlterReassignmentsRequest) := respondWrap do
  let h ← Cur.call decodeRequestHeader
  let t ← rdI32
  let n ← Cur.call compactArrayLength
  let ts ← Cur.cond (0 ≤ n.toInt) (Cur.forN n.toInt.toNat rdReassignTopic) []
  let _ ← Cur.call decodeTaggedFields
  pure (h, ⟨t, ts⟩)

/-- produce_request.go:233-239: the loop over the record batches of a partition, `left` being the bytes of
`RecordBatchesSize` not yet covered.  On an error `DecodeToRecordBatch` returns a batch and the offset reached all the
same; the model stops there with the error, so it says nothing about such input.  Every turn moves on, so the number of
bytes left bounds the number of turns (`fuel`). -/
def rdBatches : Nat → Int → Cur (List RecordBatch)
  | 0, left => if left ≤ 0 then pure [] else Cur.crash
  | fuel + 1, left => if left ≤ 0 then pure [] else fun p off =>
      match Cur.call decodeToRecordBatch p off with
      | .ok (b, off') => (do let bs ← rdBatches fuel (left - (off' - off)); pure (b :: bs) : Cur (List RecordBatch)) p off'
      | .err e => .err e
      | .panic => .panic

/-- produce_request.go:218-246: one partition -/
def rdProduceP (flexible : Bool) : Cur ProduceP := do
  let p ← rdI32
  let n ← rdFlexCount flexible
  let bs ← rdBatches n.toInt.toNat n.toInt
  let _ ← Cur.cond (flexible = true) (Cur.call decodeTaggedFields) none
  pure ⟨p, bs⟩

/-- produce_request.go:195-253: one topic; a count is an int made from an int32 or a uint32, negative panics in `make` -/
def rdProduceT (flexible : Bool) : Cur ProduceT := do
  let t ← rdFlexString flexible
  let n ← rdMakeCount flexible
  let ps ← Cur.forInt n (rdProduceP flexible)
  let _ ← Cur.cond (flexible = true) (Cur.call decodeTaggedFields) none
  pure ⟨t, ps⟩

/-- produce_request.go:154-262 `Decode`; the transactional id is read in every version, see `ProduceRequest.encode` -/
def decodeProduceRequest : Bytes → Out (RequestHeader × ProduceRequest) := respondWrap do
  let h ← Cur.call decodeRequestHeader
  let tid ← rdFlexNullable h.flexCached
  let acks ← rdI16
  let timeout ← rdI32
  let n ← rdMakeCount h.flexCached
  let ts ← Cur.forInt n (rdProduceT h.flexCached)
  let _ ← Cur.cond (h.flexCached = true) (Cur.call decodeTaggedFields) none
  pure (h, ⟨tid, acks, timeout, ts⟩)

end Healer
