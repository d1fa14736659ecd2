import Verif.Model.Close
import Verif.Model.Consumer
import Verif.Model.Bootstrap
import Verif.Model.OwnCommit

/-!
# The connections of consumers (simple_consumer.go:43-110, 277-294, 356-363, 480-491, consumer.go:138-170, group_consumer.go:411-436)

Which broker objects consumers make, and which of them they close.  Messages and positions are left out: they are asked for through the objects below.  Several
partition consumers use the same brokers, as those of `Consumer` and `GroupConsumer` do; a `SimpleConsumer` on its own is the case of one.  `Consume` is called once
for each.  That an object is closed after a failure of its connection (simple_consumer.go:470-472) and reopened when used again is in Model/Close.
-/

namespace Healer

variable {W : Type} (net : Net W)

/-- what consumers have connections by: the brokers, and for each partition consumer its `leaderBroker`; `led` lists the objects ever made for leaders -/
structure ConsumerHold (W : Type) where
  own : Brokers W
  leaders : List (Nat × Nat) := []
  led : List Nat := []

/-- what is done in the meantime -/
inductive WatchAct where
  /-- simple_consumer.go:112-129, consumer.go:82-89, group_consumer.go:116, 437-: metadata is asked for -/
  | metadata (topics : List Bytes)
  /-- simple_consumer.go:130-144, group_consumer.go:327-345: the coordinator of the group -/
  | coordinator (group : Bytes)
  /-- simple_consumer.go:356-363, 484-491: the leader of the `i`-th consumer's partition is looked for, unless it has one -/
  | lead (i : Nat) (topic : Bytes) (pid : Int32)
  /-- simple_consumer.go:481-483: the partition of the `i`-th consumer has another leader -/
  | moved (i : Nat)

/-- the loop in simple_consumer.go:356-363 and 484-491, one round -/
def ConsumerHold.lead (i : Nat) (topic : Bytes) (pid : Int32) (c : ConsumerHold W) : Out (ConsumerHold W) :=
  match AMap.get c.leaders i with
  | some _ => .ok c
  | none =>
    match getLeaderBroker net topic pid c.own with
    | (.ok h, b) => .ok { own := b, leaders := AMap.set c.leaders i h.1, led := h.1 :: c.led }
    | (.err _, b) => .ok { c with own := b }
    | (.panic, _) => .panic

/-- simple_consumer.go:481-483, 285-287: the connection to the leader is closed -/
def ConsumerHold.drop (i : Nat) (c : ConsumerHold W) : ConsumerHold W :=
  match AMap.get c.leaders i with
  | none => c
  | some h => { c with own := { c.own with log := c.own.log ++ [.closed h] }, leaders := AMap.del c.leaders i }

/-- One step. -/
def ConsumerHold.step (a : WatchAct) (c : ConsumerHold W) : Out (ConsumerHold W) :=
  match a with
  | .metadata ts => .ok { c with own := (Brokers.requestMetaData net ts c.own).2 }
  | .coordinator g => .ok { c with own := (ownCoordinator net g c.own).2 }
  | .lead i topic pid => c.lead net i topic pid
  | .moved i => .ok (c.drop i)

/-- Several steps. -/
def ConsumerHold.run : List WatchAct → ConsumerHold W → Out (ConsumerHold W)
  | [], c => .ok c
  | a :: as, c =>
    match c.step net a with
    | .ok c => run as c
    | .err e => .err e
    | .panic => .panic

/-- simple_consumer.go:277-294 `Stop` of each partition consumer (consumer.go:138-145, group_consumer.go:400-409) -/
def ConsumerHold.stop (c : ConsumerHold W) : ConsumerHold W :=
  { c with own := { c.own with log := c.own.log ++ c.leaders.map fun e => .closed e.2 }, leaders := [] }

/-- consumer.go:161-169, group_consumer.go:412, 417: `AwaitClose` of a consumer: the partition consumers are stopped, then the brokers are closed -/
def ConsumerHold.await (c : ConsumerHold W) : Out (Closable W) := Closable.close net ⟨c.stop.own, false⟩

/-- simple_consumer.go:91-110 `NewSimpleConsumer`, consumer.go:21-46, group_consumer.go:50-93: the consumer makes brokers of its own -/
def ConsumerHold.new (servers : Bytes) (w : W) : Except Err (ConsumerHold W) :=
  match Brokers.newBrokers net servers w with
  | (.ok b, _) => .ok { own := b }
  | (.error e, _) => .error e

end Healer
