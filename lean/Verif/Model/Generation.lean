import Verif.Model.GroupConsumer
import Verif.Model.Rejoin
import Verif.Model.Request

/-!
# A generation of a group (group_consumer.go:95-260)

The bytes by which the members of a group tell the leader what they subscribe to, and the leader tells the members what
each of them consumes.
-/

namespace Healer

/-- "consumer" -/
def consumerProtocol : Bytes := [99, 111, 110, 115, 117, 109, 101, 114]

/-- "range" -/
def rangeProtocol : Bytes := [114, 97, 110, 103, 101]

/-- group_consumer.go:171-185 with broker.go:401-411: the request of `join` -/
def joinAsk (group : Bytes) (sessionTimeout : Int32) (member topic : Bytes) : Out JoinGroupRequest := do
  let b ← ProtocolMetadata.encode ⟨0, [topic], none⟩
  pure ⟨group, sessionTimeout, 60000, member, consumerProtocol, [(rangeProtocol, b)]⟩

/-- assign.go:60-64: what `Assign` uses of the metadata of a topic -/
def TopicMetadata.forAssign (t : TopicMetadata) : TopicPartitions := ⟨t.name, t.partitions.map PartitionMetadataInfo.partitionID⟩

/-- group_consumer.go:226-239 with broker.go:418-420: the request of `sync`; `lead` holds `c.members` and `c.topicMetadatas` of a leader -/
def syncAsk (ord : MapOrders) (group : Bytes) (generation : Int32) (member : Bytes) (lead : Option (List Member × List TopicMetadata)) :
    Out SyncGroupRequest :=
  match lead with
  | none => .ok ⟨group, generation, member, []⟩
  | some (members, topics) => do
    let g ← assign ord members (topics.map TopicMetadata.forAssign)
    pure ⟨group, generation, member, g.map fun e => (e.1, e.2.getD [])⟩

/-- group_consumer.go:157-165: the loops of `parseGroupAssignments`; one partition consumer for every pair -/
def assignedConsumers (pas : List PartitionAssignment) : List (Bytes × Int32) :=
  pas.flatMap fun pa => pa.partitions.map fun p => (pa.topic, p)

/-- group_consumer.go:147-168 `parseGroupAssignments`: topic and partition of the partition consumers it makes -/
def parseGroupAssignments (payload : Bytes) : Out (List (Bytes × Int32)) := do
  let a ← newMemberAssignment payload
  pure (assignedConsumers a.partitionAssignments)

end Healer
