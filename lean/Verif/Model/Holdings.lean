import Verif.Model.Bootstrap
import Verif.Model.Producer

/-!
# The connections of producers (producer.go:48-199, simple_producer.go:37-64, 100-108, 228-248)

Which broker objects producers make, and which of them they close.  Messages are left out: sending them neither makes nor closes broker objects.
Broker objects are numbers, as in Model/Brokers; everything that is done is in the log.
-/

namespace Healer

variable {W : Type} (net : Net W)

namespace Brokers

/-- brokers.go:43-58: the world after the loop of `NewBrokersWithConfig` (`bootstrapLoop` does not give it when no server helps) -/
def bootstrapWorld (bootstrap : List Bytes) : List Bytes → W → W
  | [], w => w
  | a :: as, w =>
    match net.connect a (-1) w with
    | (.error _, w) => bootstrapWorld bootstrap as w
    | (.ok h, w) =>
      match fromOne net bootstrap a h w with
      | .error _ => bootstrapWorld bootstrap as (net.metadata h [] w).2
      | .ok b => b.world

end Brokers

/-- What `createLeader` gives: the broker object, `none` for nil. -/
structure LeaderMade (W : Type) where
  result : Out (Option Nat)
  world : W
  log : List Done

/-- simple_producer.go:48-63: the rest of `createLeader` once there are brokers -/
def leaderOf (topic : Bytes) (pid : Int32) (b : Brokers W) : LeaderMade W :=
  match Brokers.findLeader net topic pid b with
  | (.err e, b) => ⟨.err e, b.world, b.log⟩
  | (.panic, b) => ⟨.panic, b.world, b.log⟩
  | (.ok id, b) =>
    if id = -1 then ⟨.ok none, b.world, b.log⟩
    else match Brokers.newBroker net id b with
      | (.ok h, b) => ⟨.ok (some h.1), b.world, b.log⟩
      | (.error e, b) => ⟨.err e, b.world, b.log⟩

/-- simple_producer.go:37-64 `createLeader` of a producer without brokers: it makes its own, which nobody closes -/
def makeLeader (servers topic : Bytes) (pid : Int32) (w : W) : LeaderMade W :=
  match Brokers.newBrokers net servers w with
  | (.error e, log) => ⟨.err e, Brokers.bootstrapWorld net (splitAt 44 servers) (splitAt 44 servers) w, log⟩
  | (.ok b, _) => leaderOf net topic pid b

/-- simple_producer.go:228-248 `Close` of a producer without parent: only the connection to the leader is closed; a leader which is nil is dereferenced -/
def closeLeader (leader : Option Nat) : Out (List Done) :=
  match leader with
  | some h => .ok [.closed h]
  | none => .panic

/-- producer.go:18-31: what a `Producer` has connections by.  `current` is the leader of the current partition producer (`none` for a nil one), `leaders` is
`leaderBrokersMapping`; `led` lists the objects made to send messages by, those of keyed messages and those of current producers; `produced` counts the partition producers
that became the current one. -/
structure Holdings (W : Type) where
  own : Brokers W
  current : Option (Option Nat) := none
  leaders : List (Int32 × Nat) := []
  world : W
  log : List Done
  led : List Nat := []
  produced : Nat := 0

/-- what is done through `p.brokers` -/
def Holdings.through {α : Type} (op : Brokers W → α × Brokers W) (p : Holdings W) : α × Holdings W :=
  match op { p.own with world := p.world, log := p.log } with
  | (a, b) => (a, { p with own := b, world := b.world, log := b.log })

/-- producer.go:99-116: the new current producer, and the end of the old one -/
def Holdings.replace (m : LeaderMade W) (p : Holdings W) : Out (Holdings W) :=
  let p := { p with world := m.world, log := p.log ++ m.log }
  match m.result with
  | .err _ => .ok p
  | .panic => .panic
  | .ok leader =>
    let q := { p with current := some leader, led := leader.toList ++ p.led, produced := p.produced + 1 }
    match p.current with
    | none => .ok q
    | some old =>
      match closeLeader old with
      | .ok d => .ok { q with log := q.log ++ d }
      | .err e => .err e
      | .panic => .panic

/-- producer.go:82-117 `updateCurrentSimpleProducer`; `pick` is the random number.  An error is only logged by the goroutine of the timer. -/
def Holdings.refresh (servers topic : Bytes) (pick : Nat) (p : Holdings W) : Out (Holdings W) :=
  match p.through (Brokers.requestMetaData net [topic]) with
  | ((_, some _), p) => .ok p
  | ((r, none), p) =>
    match r.error, r.topics with
    | some _, _ => .ok p
    | none, [] => .panic
    | none, t :: _ =>
      match pickPartition pick t.partitions with
      | .ok pid => p.replace (makeLeader net servers topic pid p.world)
      | .err e => .err e
      | .panic => .panic

/-- producer.go:149-157: the broker of a leader for keyed messages, unless there is one -/
def Holdings.keyed (leader : Int32) (p : Holdings W) : Holdings W :=
  match AMap.get p.leaders leader with
  | some _ => p
  | none =>
    match p.through (Brokers.newBroker net leader) with
    | (.error _, p) => p
    | (.ok h, p) => { p with leaders := AMap.set p.leaders leader h.1, led := h.1 :: p.led }

/-- producer.go:188-199 `Close`; `pidToSimpleProducers` have a parent and close nothing; `range` over the leaders in some order -/
def Holdings.close (p : Holdings W) : Out (Holdings W) :=
  let rest : List Done := p.leaders.map fun e => .closed e.2
  match p.current with
  | none => .ok { p with log := p.log ++ rest }
  | some leader =>
    match closeLeader leader with
    | .ok d => .ok { p with log := p.log ++ d ++ rest }
    | .err e => .err e
    | .panic => .panic

/-- What a producer does: the timer, a keyed message for a partition of a leader. -/
inductive HoldAct where
  | refresh (pick : Nat)
  | keyed (leader : Int32)

/-- One step. -/
def Holdings.step (servers topic : Bytes) (a : HoldAct) (p : Holdings W) : Out (Holdings W) :=
  match a with
  | .refresh pick => p.refresh net servers topic pick
  | .keyed leader => .ok (p.keyed net leader)

/-- Several steps. -/
def Holdings.run (servers topic : Bytes) : List HoldAct → Holdings W → Out (Holdings W)
  | [], p => .ok p
  | a :: as, p =>
    match p.step net servers topic a with
    | .ok q => Holdings.run servers topic as q
    | .err e => .err e
    | .panic => .panic

/-- producer.go:48-53: the brokers of a new `Producer` -/
def Holdings.new (servers : Bytes) (w : W) : Except Err (Holdings W) :=
  match Brokers.newBrokers net servers w with
  | (.error e, _) => .error e
  | (.ok b, _) => .ok { own := b, world := b.world, log := b.log }

end Healer
