import Verif.Model.MultiConsumer
import Verif.Model.OwnCommit

/-!
# Making the partition consumers of a consumer without a group (consumer.go:104-121, simple_consumer.go:43-89)

The part of `Consume` that Model/MultiConsumer leaves out: the search for a coordinator.
-/

namespace Healer

variable {W : Type} (net : Net W)

/-- simple_consumer.go:74-85: the constructor looks for a coordinator if there is a group; `rounds` as in `attach` -/
def attachIfGroup (group : Bytes) (rounds : Nat) (b : Brokers W) : Bool × Brokers W :=
  if group = [] then (true, b)
  else match attach net group rounds b with
    | (some _, b) => (true, b)
    | (none, b) => (false, b)

/-- consumer.go:105-119, simple_consumer.go:56-58: one partition consumer.  The loop in consumer.go:109-117 has no end but success — `AwaitClose` does not end it either —; here each
search has at most `rounds` rounds, and `false` is for one that is not over by then. -/
def makeOne (group topic : Bytes) (rounds : Nat) (b : Brokers W) : Bool × Brokers W :=
  match attachIfGroup net group rounds (Brokers.requestMetaData net [topic] b).2 with
  | (false, b) => (false, b)
  | (true, b) =>
    match attach net group rounds b with
    | (some _, b) => (true, b)
    | (none, b) => (false, b)

/-- consumer.go:104-121: the partition consumers, one after the other; those made, and whether all were -/
def makeConsumers (group : Bytes) (rounds : Nat) : List (Bytes × Int32) → Brokers W → List (Bytes × Int32) × Bool × Brokers W
  | [], b => ([], true, b)
  | p :: ps, b =>
    match makeOne net group p.1 rounds b with
    | (false, b) => ([], false, b)
    | (true, b) =>
      match makeConsumers group rounds ps b with
      | (made, all, b) => (p :: made, all, b)

/-- consumer.go:92-135 `Consume` once there is metadata: the partition consumers on which `Consume` is called; none before all are made -/
def startedConsumers (group : Bytes) (rounds : Nat) (ps : List (Bytes × Int32)) (b : Brokers W) : List (Bytes × Int32) :=
  match makeConsumers net group rounds ps b with
  | (made, true, _) => made
  | (_, false, _) => []

end Healer
