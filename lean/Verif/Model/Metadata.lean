import Verif.Model.Response
import Verif.Go.Sort

/-!
# metadata_response.go
-/

namespace Healer

/-- metadata_response.go:47-52 `BrokerInfo` -/
structure BrokerInfo where
  nodeID : Int32
  host : Bytes
  port : Int32
  rack : Bytes
deriving DecidableEq, Repr

/-- metadata_response.go:100-108 `PartitionMetadataInfo` -/
structure PartitionMetadataInfo where
  errorCode : Int16
  partitionID : Int32
  leader : Int32
  leaderEpoch : Int32
  replicas : List Int32
  isr : List Int32
  offlineReplicas : List Int32
deriving DecidableEq, Repr

/-- metadata_response.go:22-27 `TopicMetadata` -/
structure TopicMetadata where
  errorCode : Int16
  name : Bytes
  isInternal : Bool
  partitions : List PartitionMetadataInfo
deriving DecidableEq, Repr

/-- metadata_response.go:12-19 `MetadataResponse` -/
structure MetadataResponse where
  correlationID : UInt32
  throttleTimeMs : Int32
  brokers : List BrokerInfo
  clusterID : Bytes
  controllerID : Int32
  topics : List TopicMetadata
deriving DecidableEq, Repr

/-- metadata_response.go:30-44 `Error`: the first topic error, or the first error of a partition of a topic
without error; wrapped with `%w` -/
def MetadataResponse.error (r : MetadataResponse) : Option Err :=
  (firstKafkaErr (r.topics.flatMap fun t => t.errorCode :: t.partitions.map PartitionMetadataInfo.errorCode)).map .wrapped

/-- metadata_response.go:58-75 `decodeToBrokerInfo`; the version is not used -/
def decodeToBrokerInfo : GoDec BrokerInfo := Cur.run do
  let n ← rdI32
  let h ← rdStrI16
  let p ← rdI32
  let r ← rdStrPos
  pure ⟨n, h, p, r⟩

/-- metadata_response.go:110-146 `decodeToPartitionMetadataInfo` -/
def decodeToPartitionMetadataInfo (version : UInt16) : GoDec PartitionMetadataInfo := Cur.run do
  let e ← rdI16
  let p ← rdI32
  let l ← rdI32
  let le ← Cur.cond (version ≥ 7) rdI32 0
  let rs ← rdArr32 rdI32
  let isr ← rdArr32 rdI32
  let off ← Cur.cond (version ≥ 7) (rdArr32 rdI32) []
  pure ⟨e, p, l, le, rs, isr, off⟩

/-- metadata_response.go:77-97 `decodeToTopicMetadata` -/
def decodeToTopicMetadata (version : UInt16) : GoDec TopicMetadata := Cur.run do
  let e ← rdI16
  let n ← rdStr16
  let i ← rdBool
  let ps ← rdArr32 (Cur.call (decodeToPartitionMetadataInfo version))
  pure ⟨e, n, i, ps⟩

/-- metadata_response.go:179-181: `string(payload[offset:offset+l])` with `offset` still at the length,
then `offset += 2 + l` -/
def rdClusterID : Cur Bytes := do
  let s ← Cur.peekRest
  let l ← rdU16
  match sliceTo s 0 l.toNat with
  | .ok id => do
    Cur.advance l.toNat
    pure id
  | .err e => Cur.fail e
  | .panic => Cur.crash

/-- metadata_response.go:198-207: topics by name, partitions by id.  `sort.Slice` may order equal keys either
way; here insertion sort chooses. -/
def sortTopics (ts : List TopicMetadata) : List TopicMetadata :=
  (goSort (fun a b => decide (a.name ≤ b.name)) ts).map fun t =>
    { t with partitions := goSort (fun a b => decide (a.partitionID ≤ b.partitionID)) t.partitions }

/-- metadata_response.go:149-209 `NewMetadataResponse` -/
def newMetadataResponse (version : UInt16) : Bytes → Out (MetadataResponse × Option Err) := respond do
  let c ← rdU32
  let t ← Cur.cond (version ≥ 4) rdI32 0
  let bs ← rdArr32 (Cur.call decodeToBrokerInfo)
  let id ← Cur.cond (version ≥ 4) rdClusterID []
  let ctl ← rdI32
  let ts ← rdArr32 (Cur.call (decodeToTopicMetadata version))
  pure (⟨c, t, bs, id, ctl, sortTopics ts⟩, none)

end Healer
