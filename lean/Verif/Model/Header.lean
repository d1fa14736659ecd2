import Verif.Model.Primitive

/-!
# request.go, response.go: headers, header version tables; broker.go: version negotiation
-/

namespace Healer

/-- request.go:226-556: the `switch` of `headerVersion` (`none` = the `panic` of the default case). -/
def requestHeaderVersion (key version : UInt16) : Option UInt16 :=
  match key.toNat with
  | 0 => some (if version ≥ 9 then 2 else 1) -- Produce
  | 1 => some (if version ≥ 12 then 2 else 1) -- Fetch
  | 2 => some (if version ≥ 6 then 2 else 1) -- ListOffsets
  | 3 => some (if version ≥ 9 then 2 else 1) -- Metadata
  | 4 => some (if version ≥ 4 then 2 else 1) -- LeaderAndIsr
  | 5 => some (if version ≥ 2 then 2 else 1) -- StopReplica
  | 6 => some (if version ≥ 6 then 2 else 1) -- UpdateMetadata
  | 7 => some (if version = 0 then 0 else if version ≥ 3 then 2 else 1) -- ControlledShutdown
  | 8 => some (if version ≥ 8 then 2 else 1) -- OffsetCommit
  | 9 => some (if version ≥ 6 then 2 else 1) -- OffsetFetch
  | 10 => some (if version ≥ 3 then 2 else 1) -- FindCoordinator
  | 11 => some (if version ≥ 6 then 2 else 1) -- JoinGroup
  | 12 => some (if version ≥ 4 then 2 else 1) -- Heartbeat
  | 13 => some (if version ≥ 4 then 2 else 1) -- LeaveGroup
  | 14 => some (if version ≥ 4 then 2 else 1) -- SyncGroup
  | 15 => some (if version ≥ 5 then 2 else 1) -- DescribeGroups
  | 16 => some (if version ≥ 3 then 2 else 1) -- ListGroups
  | 17 => some 1 -- SaslHandshake
  | 18 => some (if version ≥ 3 then 2 else 1) -- ApiVersions
  | 19 => some (if version ≥ 5 then 2 else 1) -- CreateTopics
  | 20 => some (if version ≥ 4 then 2 else 1) -- DeleteTopics
  | 21 => some (if version ≥ 2 then 2 else 1) -- DeleteRecords
  | 22 => some (if version ≥ 2 then 2 else 1) -- InitProducerId
  | 23 => some (if version ≥ 4 then 2 else 1) -- OffsetForLeaderEpoch
  | 24 => some (if version ≥ 3 then 2 else 1) -- AddPartitionsToTxn
  | 25 => some (if version ≥ 3 then 2 else 1) -- AddOffsetsToTxn
  | 26 => some (if version ≥ 3 then 2 else 1) -- EndTxn
  | 27 => some (if version ≥ 1 then 2 else 1) -- WriteTxnMarkers
  | 28 => some (if version ≥ 3 then 2 else 1) -- TxnOffsetCommit
  | 29 => some (if version ≥ 2 then 2 else 1) -- DescribeAcls
  | 30 => some (if version ≥ 2 then 2 else 1) -- CreateAcls
  | 31 => some (if version ≥ 2 then 2 else 1) -- DeleteAcls
  | 32 => some (if version ≥ 4 then 2 else 1) -- DescribeConfigs
  | 33 => some (if version ≥ 2 then 2 else 1) -- AlterConfigs
  | 34 => some (if version ≥ 2 then 2 else 1) -- AlterReplicaLogDirs
  | 35 => some (if version ≥ 2 then 2 else 1) -- DescribeLogDirs
  | 36 => some (if version ≥ 2 then 2 else 1) -- SaslAuthenticate
  | 37 => some (if version ≥ 2 then 2 else 1) -- CreatePartitions
  | 38 => some (if version ≥ 2 then 2 else 1) -- CreateDelegationToken
  | 39 => some (if version ≥ 2 then 2 else 1) -- RenewDelegationToken
  | 40 => some (if version ≥ 2 then 2 else 1) -- ExpireDelegationToken
  | 41 => some (if version ≥ 2 then 2 else 1) -- DescribeDelegationToken
  | 42 => some (if version ≥ 2 then 2 else 1) -- DeleteGroups
  | 43 => some (if version ≥ 2 then 2 else 1) -- ElectLeaders
  | 44 => some (if version ≥ 1 then 2 else 1) -- IncrementalAlterConfigs
  | 45 => some 2 -- AlterPartitionReassignments
  | 46 => some 2 -- ListPartitionReassignments
  | 47 => some 1 -- OffsetDelete
  | 48 => some (if version ≥ 1 then 2 else 1) -- DescribeClientQuotas
  | 49 => some (if version ≥ 1 then 2 else 1) -- AlterClientQuotas
  | 50 => some 2 -- DescribeUserScramCredentials
  | 51 => some 2 -- AlterUserScramCredentials
  | 52 => some 2 -- Vote
  | 53 => some 1 -- BeginQuorumEpoch
  | 54 => some 1 -- EndQuorumEpoch
  | 55 => some 2 -- DescribeQuorum
  | 56 => some 2 -- AlterPartition
  | 57 => some 2 -- UpdateFeatures
  | 58 => some 2 -- Envelope
  | 59 => some 2 -- FetchSnapshot
  | 60 => some 2 -- DescribeCluster
  | 61 => some 2 -- DescribeProducers
  | 62 => some 2 -- BrokerRegistration
  | 63 => some 2 -- BrokerHeartbeat
  | 64 => some 2 -- UnregisterBroker
  | 65 => some 2 -- DescribeTransactions
  | 66 => some 2 -- ListTransactions
  | 67 => some 2 -- AllocateProducerIds
  | _ => none

/-- response.go:213-536 `responseHeaderVersion` (`none` = the `panic` of the default case). -/
def responseHeaderVersion (key version : UInt16) : Option UInt16 :=
  match key.toNat with
  | 0 => some (if version ≥ 9 then 1 else 0) -- Produce
  | 1 => some (if version ≥ 12 then 1 else 0) -- Fetch
  | 2 => some (if version ≥ 6 then 1 else 0) -- ListOffsets
  | 3 => some (if version ≥ 9 then 1 else 0) -- Metadata
  | 4 => some (if version ≥ 4 then 1 else 0) -- LeaderAndIsr
  | 5 => some (if version ≥ 2 then 1 else 0) -- StopReplica
  | 6 => some (if version ≥ 6 then 1 else 0) -- UpdateMetadata
  | 7 => some (if version ≥ 3 then 1 else 0) -- ControlledShutdown
  | 8 => some (if version ≥ 8 then 1 else 0) -- OffsetCommit
  | 9 => some (if version ≥ 6 then 1 else 0) -- OffsetFetch
  | 10 => some (if version ≥ 3 then 1 else 0) -- FindCoordinator
  | 11 => some (if version ≥ 6 then 1 else 0) -- JoinGroup
  | 12 => some (if version ≥ 4 then 1 else 0) -- Heartbeat
  | 13 => some (if version ≥ 4 then 1 else 0) -- LeaveGroup
  | 14 => some (if version ≥ 4 then 1 else 0) -- SyncGroup
  | 15 => some (if version ≥ 5 then 1 else 0) -- DescribeGroups
  | 16 => some (if version ≥ 3 then 1 else 0) -- ListGroups
  | 17 => some 0 -- SaslHandshake
  | 18 => some 0 -- ApiVersions
  | 19 => some (if version ≥ 5 then 1 else 0) -- CreateTopics
  | 20 => some (if version ≥ 4 then 1 else 0) -- DeleteTopics
  | 21 => some (if version ≥ 2 then 1 else 0) -- DeleteRecords
  | 22 => some (if version ≥ 2 then 1 else 0) -- InitProducerId
  | 23 => some (if version ≥ 4 then 1 else 0) -- OffsetForLeaderEpoch
  | 24 => some (if version ≥ 3 then 1 else 0) -- AddPartitionsToTxn
  | 25 => some (if version ≥ 3 then 1 else 0) -- AddOffsetsToTxn
  | 26 => some (if version ≥ 3 then 1 else 0) -- EndTxn
  | 27 => some (if version ≥ 1 then 1 else 0) -- WriteTxnMarkers
  | 28 => some (if version ≥ 3 then 1 else 0) -- TxnOffsetCommit
  | 29 => some (if version ≥ 2 then 1 else 0) -- DescribeAcls
  | 30 => some (if version ≥ 2 then 1 else 0) -- CreateAcls
  | 31 => some (if version ≥ 2 then 1 else 0) -- DeleteAcls
  | 32 => some (if version ≥ 4 then 1 else 0) -- DescribeConfigs
  | 33 => some (if version ≥ 2 then 1 else 0) -- AlterConfigs
  | 34 => some (if version ≥ 2 then 1 else 0) -- AlterReplicaLogDirs
  | 35 => some (if version ≥ 2 then 1 else 0) -- DescribeLogDirs
  | 36 => some (if version ≥ 2 then 1 else 0) -- SaslAuthenticate
  | 37 => some (if version ≥ 2 then 1 else 0) -- CreatePartitions
  | 38 => some (if version ≥ 2 then 1 else 0) -- CreateDelegationToken
  | 39 => some (if version ≥ 2 then 1 else 0) -- RenewDelegationToken
  | 40 => some (if version ≥ 2 then 1 else 0) -- ExpireDelegationToken
  | 41 => some (if version ≥ 2 then 1 else 0) -- DescribeDelegationToken
  | 42 => some (if version ≥ 2 then 1 else 0) -- DeleteGroups
  | 43 => some (if version ≥ 2 then 1 else 0) -- ElectLeaders
  | 44 => some (if version ≥ 1 then 1 else 0) -- IncrementalAlterConfigs
  | 45 => some 1 -- AlterPartitionReassignments
  | 46 => some 1 -- ListPartitionReassignments
  | 47 => some 0 -- OffsetDelete
  | 48 => some (if version ≥ 1 then 1 else 0) -- DescribeClientQuotas
  | 49 => some (if version ≥ 1 then 1 else 0) -- AlterClientQuotas
  | 50 => some 1 -- DescribeUserScramCredentials
  | 51 => some 1 -- AlterUserScramCredentials
  | 52 => some 1 -- Vote
  | 53 => some 0 -- BeginQuorumEpoch
  | 54 => some 0 -- EndQuorumEpoch
  | 55 => some 1 -- DescribeQuorum
  | 56 => some 1 -- AlterPartition
  | 57 => some 1 -- UpdateFeatures
  | 58 => some 1 -- Envelope
  | 59 => some 1 -- FetchSnapshot
  | 60 => some 1 -- DescribeCluster
  | 61 => some 1 -- DescribeProducers
  | 62 => some 1 -- BrokerRegistration
  | 63 => some 1 -- BrokerHeartbeat
  | 64 => some 1 -- UnregisterBroker
  | 65 => some 1 -- DescribeTransactions
  | 66 => some 1 -- ListTransactions
  | 67 => some 1 -- AllocateProducerIds
  | _ => none

/-- request.go:62-69 `RequestHeader`; `hv` is the cached header version. -/
structure RequestHeader where
  hv : Option UInt16 := none
  apiKey : UInt16
  apiVersion : UInt16
  correlationID : UInt32
  clientID : Option Bytes
  taggedFields : TaggedFields := none
deriving DecidableEq, Repr

/-- `len(*s)`, 0 for nil -/
def optLen : Option Bytes → Nat
  | some s => s.length
  | none => 0

namespace RequestHeader

/-- request.go:218-557 `headerVersion`, value returned -/
def headerVersion (h : RequestHeader) : Out UInt16 :=
  match h.hv with
  | some v => .ok v
  | none =>
    match requestHeaderVersion h.apiKey h.apiVersion with
    | some v => .ok v
    | none => .panic

/-- request.go:222-224: the state of the header after `headerVersion` returned: the value is cached. -/
def remember (h : RequestHeader) : RequestHeader :=
  match h.headerVersion with
  | .ok v => { h with hv := some v }
  | _ => h

/-- request.go:202-204 `IsFlexible` -/
def isFlexible (h : RequestHeader) : Out Bool := do
  let v ← h.headerVersion
  pure (decide (v ≥ 2))

/-- request.go:72-85 `length` -/
def length (h : RequestHeader) : Out Nat := do
  let f ← h.isFlexible
  let r := 10 + optLen h.clientID
  pure (if f then (match h.taggedFields with | some _ => r + h.taggedFields.length | none => r + 1) else r)

end RequestHeader

/-- `offset += copy(payload[offset:], f())` where `f()` may itself panic -/
def Enc.cpyO (o : Out Bytes) : Enc := fun w =>
  match o with
  | .ok bs => Enc.cpy bs w
  | .err e => .err e
  | .panic => .panic

/-- encoder code depending on a Go value whose computation may panic -/
def Enc.withO {α : Type} (o : Out α) (f : α → Enc) : Enc := fun w =>
  match o with
  | .ok a => f a w
  | .err e => .err e
  | .panic => .panic

/-- request.go:91-113 `EncodeTo` -/
def RequestHeader.encodeTo (h : RequestHeader) : Enc :=
  .all [
    .put (be16 h.apiKey),
    .put (be16 h.apiVersion),
    .put (be32 h.correlationID),
    .withO h.headerVersion fun v => .when (decide (v ≥ 1)) (.cpyO (encodeNullableString h.clientID)),
    .withO h.isFlexible fun f => .when f (.cpyO h.taggedFields.encode)]

/-- request.go:115-144 `WriteTo` to an error-free writer: the bytes written and the count returned -/
def RequestHeader.writeTo (h : RequestHeader) : Out (Bytes × Nat) := do
  let v ← h.headerVersion
  let b := be16 h.apiKey ++ be16 h.apiVersion ++ be32 h.correlationID
  let b := if v ≥ 1 then b ++ writeNullableString h.clientID else b
  let f ← h.isFlexible
  let b ← if f then do
      let t ← h.taggedFields.encode
      pure (b ++ t)
    else pure b
  pure (b, b.length)

/-- request.go:147-169 `DecodeRequestHeader` -/
def decodeRequestHeader : GoDec RequestHeader := Cur.run do
  let k ← rdU16
  let v ← rdU16
  let c ← rdU32
  let h : RequestHeader := { apiKey := k, apiVersion := v, correlationID := c, clientID := none }
  match h.headerVersion with
  | .ok hv => do
    let cid ← Cur.cond (hv ≥ 1) (Cur.call nullableString) none
    let tf ← Cur.cond (hv ≥ 2) (Cur.call decodeTaggedFields) none
    pure { h with hv := some hv, clientID := cid, taggedFields := tf }
  | _ => Cur.crash

/-- response.go:153-167 `ResponseHeader` -/
structure ResponseHeader where
  apiKey : UInt16
  apiVersion : UInt16
  headerVersion : UInt16
  correlationID : UInt32
  taggedFields : TaggedFields := none
deriving DecidableEq, Repr

/-- response.go:195-205 `DecodeResponseHeader` -/
def decodeResponseHeader (key version : UInt16) : GoDec ResponseHeader := Cur.run do
  match responseHeaderVersion key version with
  | none => Cur.crash
  | some hv => do
    let c ← rdU32
    let tf ← Cur.cond (hv ≥ 1) (Cur.call decodeTaggedFields) none
    pure { apiKey := key, apiVersion := version, headerVersion := hv, correlationID := c, taggedFields := tf }

/-- response.go:178-185 `Encode` (bytes.Buffer) -/
def ResponseHeader.encode (h : ResponseHeader) : Out Bytes :=
  if h.headerVersion ≥ 1 then do
    let t ← h.taggedFields.encode
    pure (be32 h.correlationID ++ t)
  else .ok (be32 h.correlationID)

/-- response.go:186-193 `EncodeTo` -/
def ResponseHeader.encodeTo (h : ResponseHeader) : Enc :=
  .seq (.put (be32 h.correlationID)) (.when (decide (h.headerVersion ≥ 1)) (.cpyO h.taggedFields.encode))

/-! ## Version negotiation -/

/-- request.go:46-59 `availableVersions`; `none` = key absent from the map -/
def availableVersions (key : UInt16) : Option (List UInt16) :=
  match key.toNat with
  | 0 => some [9, 0]
  | 1 => some [10, 7, 0]
  | 2 => some [1, 0]
  | 3 => some [7, 4, 1]
  | 8 => some [2, 0]
  | 9 => some [1, 0]
  | 16 => some [5, 4, 3, 2, 1, 0]
  | 17 => some [1, 0]
  | 29 => some [2, 1, 0]
  | 30 => some [3, 2, 1, 0]
  | 31 => some [3, 2, 1, 0]
  | 37 => some [2, 0]
  | _ => none

/-- apiversions_response.go: one entry of a broker's version table -/
structure APIVersion where
  apiKey : UInt16
  minVersion : UInt16
  maxVersion : UInt16
deriving DecidableEq, Repr

/-- broker.go:60-64: inner loop -/
def versionListed (broker : List APIVersion) (key version : UInt16) : Bool :=
  broker.any fun b => b.apiKey == key && decide (b.minVersion ≤ version) && decide (b.maxVersion ≥ version)

/-- broker.go:52-67 `getHighestAvailableAPIVersion` -/
def getHighestAvailableAPIVersion (broker : List APIVersion) (key : UInt16) : UInt16 :=
  match availableVersions key with
  | none => 0
  | some vs =>
    match vs.find? (versionListed broker key) with
    | some v => v
    | none => 0

end Healer
