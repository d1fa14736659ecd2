import Verif.Model.Response

/-!
# Response decoders: versions, authentication, topic administration
-/

namespace Healer

/-! ## apiversions_response.go, sasl_handshake_response.go, sasl_authenticate_response.go -/

/-- apiversions_response.go:143-147 `APIVersionsResponse` -/
structure APIVersionsResponse where
  correlationID : UInt32
  errorCode : Int16
  apiVersions : List APIVersion
deriving DecidableEq, Repr

/-- apiversions_response.go:149-155 `Error` -/
def APIVersionsResponse.error (r : APIVersionsResponse) : Option Err := kafkaErr r.errorCode

/-- apiversions_response.go:174-187: loop body -/
def rdAPIVersion : Cur APIVersion := do
  let k ← rdU16
  let a ← rdU16
  let b ← rdU16
  pure ⟨k, a, b⟩

/-- apiversions_response.go:157-190 `newAPIVersionsResponse` -/
def newAPIVersionsResponse : Bytes → Out (APIVersionsResponse × Option Err) := respond do
  let c ← rdU32
  let e ← rdI16
  let vs ← rdArr32 rdAPIVersion
  pure (⟨c, e, vs⟩, none)

/-- sasl_handshake_response.go:9-13 `SaslHandshakeResponse` -/
structure SaslHandshakeResponse where
  correlationID : UInt32
  errorCode : Int16
  enabledMechanisms : List Bytes
deriving DecidableEq, Repr

/-- sasl_handshake_response.go:15-20 `Error` -/
def SaslHandshakeResponse.error (r : SaslHandshakeResponse) : Option Err := kafkaErr r.errorCode

/-- sasl_handshake_response.go:35-36: `int16(uint16(binary.BigEndian.Uint32(payload[offset:])))`, the low half of
the four bytes at `offset`; then `offset += 2` -/
def rdHandshakeError : Cur Int16 := do
  let s ← Cur.peekRest
  match rdU32 s 0 with
  | .ok (v, _) => do
    Cur.advance 2
    pure v.toUInt16.toInt16
  | .err e => Cur.fail e
  | .panic => Cur.crash

/-- sasl_handshake_response.go:23-54 `NewSaslHandshakeResponse` -/
def newSaslHandshakeResponse : Bytes → Out (SaslHandshakeResponse × Option Err) := respond do
  let c ← rdU32
  let e ← rdHandshakeError
  let ms ← rdArr32 rdStr16
  pure (⟨c, e, ms⟩, kafkaErr e)

/-- sasl_authenticate_response.go:9-14 `SaslAuthenticateResponse` -/
structure SaslAuthenticateResponse where
  correlationID : UInt32
  errorCode : Int16
  errorMessage : Bytes
  saslAuthBytes : Bytes
deriving DecidableEq, Repr

/-- sasl_authenticate_response.go:16-18 `Error` -/
def SaslAuthenticateResponse.error (r : SaslAuthenticateResponse) : Option Err := getErrorFromErrorCode r.errorCode

/-- sasl_authenticate_response.go:43-46: `make([]byte, l)`, then `copy` from the rest of the payload.  The code does
not move `offset` past the bytes; nothing is read after them, so moving it here makes no difference. -/
def rdAuthBytes : Cur Bytes := do
  let l ← rdU32
  let s ← Cur.peekRest
  Cur.advance l.toNat
  pure (s.take l.toNat ++ List.replicate (l.toNat - s.length) 0)

/-- sasl_authenticate_response.go:21-49 `NewSaslAuthenticateResponse` -/
def newSaslAuthenticateResponse : Bytes → Out (SaslAuthenticateResponse × Option Err) := respond do
  let c ← rdU32
  let e ← rdI16
  let m ← rdStrPos
  let b ← rdAuthBytes
  pure (⟨c, e, m, b⟩, none)

/-! ## Topics: create_topics_response.go, delete_topics_response.go, create_partitions_response.go -/

/-- `n := int32(binary.BigEndian.Uint32(..)); xs := make([]T, n); for i := range xs { .. }` -/
def rdArrI32 {α : Type} (c : Cur α) : Cur (List α) := do
  let n ← rdI32
  Cur.forInt n.toInt c

/-- create_topics_response.go:9-12 `CreateTopicsResponse` and delete_topics_response.go:9-15
`DeleteTopicsResponse`; entries are topic and error code -/
structure TopicErrorsResponse where
  correlationID : UInt32
  topicErrors : List (Bytes × Int16)
deriving DecidableEq, Repr

/-- create_topics_response.go:48-58: loop body -/
def rdTopicError : Cur (Bytes × Int16) := do
  let s ← rdStrI16
  let e ← rdI16
  pure (s, e)

/-- create_topics_response.go:30-64 `NewCreateTopicsResponse` -/
def newCreateTopicsResponse : Bytes → Out (TopicErrorsResponse × Option Err) := respond do
  let c ← rdU32
  let ts ← rdArrI32 rdTopicError
  pure (⟨c, ts⟩, none)

/-- create_topics_response.go:20-27 `Error` -/
def TopicErrorsResponse.createError (r : TopicErrorsResponse) : Option Err :=
  firstKafkaErr (r.topicErrors.map Prod.snd)

/-- delete_topics_response.go:34-64 `NewDeleteTopicsResponse` -/
def newDeleteTopicsResponse : Bytes → Out (TopicErrorsResponse × Option Err) := respond do
  let c ← rdU32
  let ts ← rdArr32 rdNameError
  pure (⟨c, ts⟩, none)

/-- delete_topics_response.go:18-31 `Error`: the codes become part of the text (`%s`) and are not wrapped -/
def TopicErrorsResponse.deleteError (r : TopicErrorsResponse) : Option Err :=
  (firstKafkaErr (r.topicErrors.map Prod.snd)).map fun _ => .other "delete topics failed"

/-- create_partitions_response.go:16-21 `createPartitionsResponseResultBlock` -/
structure CreatePartitionsResult where
  topicName : Bytes
  errorCode : Int16
  errorMessage : Option Bytes
deriving DecidableEq, Repr

/-- create_partitions_response.go:9-14 `CreatePartitionsResponse` -/
structure CreatePartitionsResponse where
  correlationID : UInt32
  throttleTimeMS : Int32
  results : List CreatePartitionsResult
deriving DecidableEq, Repr

/-- create_partitions_response.go:24-31 `Error`: dereferences the message of the first failed topic -/
def CreatePartitionsResponse.error (r : CreatePartitionsResponse) : Out (Option Err) :=
  match r.results.find? fun x => x.errorCode ≠ 0 with
  | none => .ok none
  | some x =>
    match x.errorMessage with
    | some _ => .ok (some (.wrapped (.kafka x.errorCode)))
    | none => .panic

/-- a string in the compact form or with `rdStr16` -/
def rdFlexStr16 (flexible : Bool) : Cur Bytes := if flexible then Cur.call compactString else rdStr16

/-- create_partitions_response.go:66-94: loop body; line 93 skips a byte in every version -/
def rdCreatePartitionsResult (version : UInt16) : Cur CreatePartitionsResult := do
  let n ← rdFlexStr16 (decide (version ≥ 2))
  let e ← rdI16
  let m ← rdFlexNullable (decide (version ≥ 2))
  Cur.advance 1
  pure ⟨n, e, m⟩

/-- create_partitions_response.go:55-63: the number of results, as `int` -/
def rdBlockCount (version : UInt16) : Cur Int :=
  if version ≥ 2 then do
    let n ← Cur.call compactArrayLength
    pure n.toInt
  else do
    let n ← rdU32
    pure n.toNat

/-- create_partitions_response.go:34-99 `NewCreatePartitionsResponse` -/
def newCreatePartitionsResponse (version : UInt16) : Bytes → Out (CreatePartitionsResponse × Option Err) := respond do
  let c ← rdU32
  Cur.cond (version = 2) (Cur.advance 1) ()
  let t ← rdI32
  let n ← rdBlockCount version
  let rs ← Cur.forInt n (rdCreatePartitionsResult version)
  Cur.advance 1
  pure (⟨c, t, rs⟩, none)

/-! ## describe_configs_response.go -/

/-- describe_configs_response.go:72-78 `describeConfigsResponseConfigEntry` -/
structure ConfigEntry where
  configName : Bytes
  configValue : Bytes
  readOnly : Bool
  isDefault : Bool
  isSensitive : Bool
deriving DecidableEq, Repr

/-- describe_configs_response.go:24-30 `describeConfigsResponseResource` -/
structure DescribedResource where
  errorCode : Int16
  errorMessage : Bytes
  resourceType : UInt8
  resourceName : Bytes
  configEntries : List ConfigEntry
deriving DecidableEq, Repr

/-- describe_configs_response.go:9-13 `DescribeConfigsResponse` -/
structure DescribeConfigsResponse where
  correlationID : UInt32
  throttleTimeMS : UInt32
  resources : List DescribedResource
deriving DecidableEq, Repr

/-- describe_configs_response.go:15-22 `Error`: the code becomes part of the text (`%s`) -/
def DescribeConfigsResponse.error (r : DescribeConfigsResponse) : Option Err :=
  (firstKafkaErr (r.resources.map DescribedResource.errorCode)).map fun _ => .other "describe configs failed"

/-- describe_configs_response.go:80-103 `decodeToDescribeConfigsResponseConfigEntry` -/
def decodeConfigEntry : GoDec ConfigEntry := Cur.run do
  let n ← rdStrI16
  let v ← rdStrPos
  let a ← rdBool
  let b ← rdBool
  let c ← rdBool
  pure ⟨n, v, a, b, c⟩

/-- describe_configs_response.go:38-47: the message is read only with an error, otherwise two bytes are skipped -/
def rdErrorMessage (e : Int16) : Cur Bytes :=
  if e ≠ 0 then rdStrPos else do
    Cur.advance 2
    pure []

/-- describe_configs_response.go:52-57: `l := int(int16(..)); if l >= 0 { .. }` -/
def rdStrNonneg : Cur Bytes := do
  let l ← rdI16
  Cur.cond (0 ≤ l.toInt) (rdBytes l.toInt) []

/-- describe_configs_response.go:32-70 `decodeToDescribeConfigsResponseResource` -/
def decodeDescribedResource : GoDec DescribedResource := Cur.run do
  let e ← rdI16
  let m ← rdErrorMessage e
  let t ← rdU8
  let n ← rdStrNonneg
  let es ← rdArr32 (Cur.call decodeConfigEntry)
  pure ⟨e, m, t, n, es⟩

/-- describe_configs_response.go:106-133 `NewDescribeConfigsResponse` -/
def newDescribeConfigsResponse : Bytes → Out (DescribeConfigsResponse × Option Err) := respond do
  let c ← rdU32
  let t ← rdU32
  let rs ← rdArr32 (Cur.call decodeDescribedResource)
  pure (⟨c, t, rs⟩, none)

/-! ## describe_logdirs_response.go -/

/-- describe_logdirs_response.go:65-70 `DescribeLogDirsResponsePartition` -/
structure LogDirPartition where
  partitionID : Int32
  size : Int64
  offsetLag : Int64
  isFutureKey : Bool
deriving DecidableEq, Repr

/-- describe_logdirs_response.go:24-33 `DescribeLogDirsResponseResult`; topics are name and partitions.  A nil and an
empty slice are the same list. -/
structure LogDirResult where
  errorCode : Int16
  logDir : Bytes
  topics : List (Bytes × List LogDirPartition)
deriving DecidableEq, Repr

/-- describe_logdirs_response.go:9-13 `DescribeLogDirsResponse` -/
structure DescribeLogDirsResponse where
  coordinatorID : UInt32
  throttleTimeMS : Int32
  results : List LogDirResult
deriving DecidableEq, Repr

/-- describe_logdirs_response.go:15-22 `Error` -/
def DescribeLogDirsResponse.error (r : DescribeLogDirsResponse) : Option Err :=
  firstKafkaErr (r.results.map LogDirResult.errorCode)

/-- describe_logdirs_response.go:72-86 `decodeToDescribeLogDirsResponsePartition` -/
def decodeLogDirPartition : GoDec LogDirPartition := Cur.run do
  let p ← rdI32
  let s ← rdI64
  let l ← rdI64
  let f ← rdBool
  pure ⟨p, s, l, f⟩

/-- describe_logdirs_response.go:35-63 `decodeToDescribeLogDirsResponseTopic`.  The count is `int(uint32)`, so the
branches for negative counts are dead. -/
def decodeLogDirTopic : GoDec (Bytes × List LogDirPartition) := Cur.run do
  let n ← rdStr16
  let ps ← rdArr32 (Cur.call decodeLogDirPartition)
  pure (n, ps)

/-- describe_logdirs_response.go:118-149: loop body -/
def rdLogDirResult : Cur LogDirResult := do
  let e ← rdI16
  let d ← rdStr16
  let ts ← rdArr32 (Cur.call decodeLogDirTopic)
  pure ⟨e, d, ts⟩

/-- describe_logdirs_response.go:98-99: `binary.BigEndian.Uint32(payload)` reads the length prefix again;
`offset += 4` skips the correlation id -/
def rdCoordinatorID : Cur UInt32 := fun p off =>
  match rdU32 p 0 with
  | .ok (v, _) => .ok (v, off + 4)
  | .err e => .err e
  | .panic => .panic

/-- describe_logdirs_response.go:89-151 `NewDescribeLogDirsResponse` -/
def newDescribeLogDirsResponse : Bytes → Out (DescribeLogDirsResponse × Option Err) := respond do
  let c ← rdCoordinatorID
  let t ← rdI32
  let rs ← rdArr32 rdLogDirResult
  pure (⟨c, t, rs⟩, none)

/-! ## elect_leaders_response.go -/

/-- elect_leaders_response.go:49-53 `PartitionResult` -/
structure PartitionResult where
  partitionID : Int32
  errorCode : Int16
  errorMessage : Bytes
deriving DecidableEq, Repr

/-- elect_leaders_response.go:8-13 `ElectLeadersResponse` with `ReplicaElectionResult` as a pair -/
structure ElectLeadersResponse where
  correlationID : UInt32
  throttleTimeMS : Int32
  results : List (Bytes × List PartitionResult)
deriving DecidableEq, Repr

/-- elect_leaders_response.go:15-25 `Error` -/
def ElectLeadersResponse.error (r : ElectLeadersResponse) : Option Err :=
  (firstKafkaErr (r.results.flatMap fun t => t.2.map PartitionResult.errorCode)).map .wrapped

/-- elect_leaders_response.go:55-71 `newPartitionResult` -/
def rdPartitionResult : Cur PartitionResult := do
  let p ← rdI32
  let e ← rdI16
  let m ← rdStrPos
  pure ⟨p, e, m⟩

/-- elect_leaders_response.go:32-47 `newReplicaElectionResult` -/
def rdElectionResult : Cur (Bytes × List PartitionResult) := do
  let t ← rdStr16
  let ps ← rdArr32 rdPartitionResult
  pure (t, ps)

/-- elect_leaders_response.go:74-97 `NewElectLeadersResponse` -/
def newElectLeadersResponse : Bytes → Out (ElectLeadersResponse × Option Err) := respond do
  let c ← rdU32
  let t ← rdI32
  let rs ← rdArr32 rdElectionResult
  pure (⟨c, t, rs⟩, none)

/-! ## alter_config_response.go, incremental_alter_config_response.go -/

/-- alter_config_response.go:23-28 `AlterConfigsResponseResource`, incremental_alter_config_response.go:25-30 -/
structure AlteredResource where
  errorCode : Int16
  errorMessage : Bytes
  resourceType : UInt8
  resourceName : Bytes
deriving DecidableEq, Repr

/-- alter_config_response.go:8-12 `AlterConfigsResponse`, incremental_alter_config_response.go:9-13 -/
structure AlterConfigsResponse where
  correlationID : UInt32
  throttleTimeMS : UInt32
  resources : List AlteredResource
deriving DecidableEq, Repr

/-- alter_config_response.go:14-21 and incremental_alter_config_response.go:15-22 `Error` -/
def AlterConfigsResponse.error (r : AlterConfigsResponse) : Option Err :=
  firstKafkaErr (r.resources.map AlteredResource.errorCode)

/-- A decoding function that returns its value but leaves its result `resourceLength` at 0. -/
def keepOffset {α : Type} (f : GoDec α) : GoDec α := fun p =>
  match f p with
  | .ok (a, _) => .ok (a, 0)
  | .err e => .err e
  | .panic => .panic

/-- alter_config_response.go:30-48 `decode`; the named result is never assigned, so 0 is returned -/
def decodeAlteredResource : GoDec AlteredResource := keepOffset <| Cur.run do
  let e ← rdI16
  let m ← rdStr16
  let t ← rdU8
  let n ← rdStr16
  pure ⟨e, m, t, n⟩

/-- alter_config_response.go:50-76 `NewAlterConfigsResponse` -/
def newAlterConfigsResponse : Bytes → Out (AlterConfigsResponse × Option Err) := respond do
  let c ← rdU32
  let t ← rdU32
  let rs ← rdArr32 (Cur.call decodeAlteredResource)
  pure (⟨c, t, rs⟩, none)

/-- incremental_alter_config_response.go:32-54 `decodeToIncrementalAlterConfigsResponseResource`; the named result
`resourceLength` is never assigned, so 0 is returned -/
def decodeIncrementalResource : GoDec AlteredResource := keepOffset <| Cur.run do
  let e ← rdI16
  let m ← rdStrPos
  let t ← rdU8
  let n ← rdStrPos
  pure ⟨e, m, t, n⟩

/-- incremental_alter_config_response.go:58-85 `NewIncrementalAlterConfigsResponse` -/
def newIncrementalAlterConfigsResponse : Bytes → Out (AlterConfigsResponse × Option Err) := respond do
  let c ← rdU32
  let t ← rdU32
  let rs ← rdArr32 (Cur.call decodeIncrementalResource)
  pure (⟨c, t, rs⟩, none)

end Healer
