import Verif.Model.Consumer

/-!
# How a partition consumer follows the leader of its partition

Of the partition consumer only the broker it fetches from and the leader epoch it knows; messages and positions are in Model/Consumer.
-/

namespace Healer

/-- what one fetch comes to -/
inductive Fetched where
  /-- simple_consumer.go:415-423: `requestFetchStreamingly` returned an error -/
  | refused (e : Err)
  /-- the messages were delivered -/
  | served
  /-- simple_consumer.go:468: among the messages there was one with an error -/
  | failed (e : Err)

/-- where the consumer is -/
inductive Following where
  /-- fetching: the node of `c.leaderBroker` and the broker object; `c.partition.LeaderEpoch` -/
  | fetching (node : Int32) (broker : Nat) (epoch : Int32)
  /-- simple_consumer.go:356-363, 484-491: looking for the leader -/
  | seeking (epoch : Int32)
  | crashed
deriving DecidableEq

namespace Following

variable {W : Type} (net : Net W)

/-- simple_consumer.go:117-128: the partition in a metadata answer -/
def partitionIn (topic : Bytes) (pid : Int32) (r : MetadataResponse) : Option PartitionMetadataInfo :=
  (r.topics.filter (·.name = topic)).findSome? fun t => t.partitions.find? (·.partitionID = pid)

/-- simple_consumer.go:112-129 `refreshPartiton`; on an error `c.partition` stays -/
def refreshPartition (topic : Bytes) (pid : Int32) (b : Brokers W) : Except Err PartitionMetadataInfo × Brokers W :=
  match Brokers.requestMetaData net [topic] b with
  | ((_, some e), b) => (.error e, b)
  | ((r, none), b) =>
    match partitionIn topic pid r with
    | some p => (.ok p, b)
    | none => (.error (.other "partition not found in metadata response"), b)

/-- the leader epoch after `refreshPartiton`, of which the error is ignored or logged (lines 57, 66, 493) -/
def refreshed (topic : Bytes) (pid : Int32) (epoch : Int32) (b : Brokers W) : Int32 × Brokers W :=
  match refreshPartition net topic pid b with
  | (.ok p, b) => (p.leaderEpoch, b)
  | (.error _, b) => (epoch, b)

/-- simple_consumer.go:468-495: what `consumeMessages` does with an error -/
def onFailed (topic : Bytes) (pid : Int32) (e : Err) (node : Int32) (broker : Nat) (epoch : Int32) (b : Brokers W) : Following × Brokers W :=
  if e.is (.kafka 1) then (.fetching node broker epoch, b)
  else if e.is (.kafka 6) then (.seeking epoch, b)
  else if e.is (.kafka 74) then
    match refreshed net topic pid epoch b with
    | (epoch, b) => (.fetching node broker epoch, b)
  else (.fetching node broker epoch, b)

/-- one turn of the loop in simple_consumer.go:407-453, or one of those in lines 356-363 and 484-491 -/
def step (topic : Bytes) (pid : Int32) (fetch : Int32 → Int32 → Fetched) (s : Following × Brokers W) : Following × Brokers W :=
  match s with
  | (.crashed, b) => (.crashed, b)
  | (.seeking epoch, b) =>
    match getLeaderBroker net topic pid b with
    | (.ok h, b) => (.fetching h.2 h.1 epoch, b)
    | (.err _, b) => (.seeking epoch, b)
    | (.panic, b) => (.crashed, b)
  | (.fetching node broker epoch, b) =>
    match fetch node epoch with
    | .refused _ => (.fetching node broker epoch, b)
    | .served => (.fetching node broker epoch, b)
    | .failed e => onFailed net topic pid e node broker epoch b

/-- simple_consumer.go:61-73: what happens each minute -/
def tick (topic : Bytes) (pid : Int32) (s : Following × Brokers W) : Following × Brokers W :=
  match s with
  | (.crashed, b) => (.crashed, b)
  | (.seeking epoch, b) =>
    match refreshed net topic pid epoch b with
    | (epoch, b) => (.seeking epoch, b)
  | (.fetching node broker epoch, b) =>
    match refreshed net topic pid epoch b with
    | (epoch, b) => (.fetching node broker epoch, b)

/-- simple_consumer.go:47-59, 356: a new consumer; the epoch is 0 if nothing was learnt -/
def start (topic : Bytes) (pid : Int32) (b : Brokers W) : Following × Brokers W :=
  match refreshed net topic pid 0 b with
  | (epoch, b) => (.seeking epoch, b)

/-- turns and ticks, in any order -/
def run (topic : Bytes) (pid : Int32) (fetch : Int32 → Int32 → Fetched) : List Bool → Following × Brokers W → Following × Brokers W
  | [], s => s
  | true :: es, s => run topic pid fetch es (tick net topic pid s)
  | false :: es, s => run topic pid fetch es (step net topic pid fetch s)

end Following

end Healer
