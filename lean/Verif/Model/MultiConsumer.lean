import Verif.Model.Brokers

/-!
# The consumer of several topics without a group (consumer.go)

Two parts: which partition consumers `Consume` makes, over the brokers of Model/Brokers.lean; and the order of starting and stopping
them, as a state machine in which `Consume` and `AwaitClose` run concurrently.
-/

namespace Healer

/-- consumer.go:34-37, 49-54 `NewConsumer(config, topics...)`, `Subscribe(topics...)`: the map of topics, each with the nil list -/
def subscribeTo (topics : List Bytes) : AMap Bytes (List Int64) := topics.foldl (fun m t => m.set t []) []

/-- consumer.go:96-103: the partitions of a topic to consume: those assigned, or all if none is -/
def partitionsOf (assign : AMap Bytes (List Int64)) (t : TopicMetadata) : List Int64 :=
  match assign.get t.name with
  | none | some [] => t.partitions.map fun p => p.partitionID.toInt64
  | some (p :: ps) => p :: ps

/-- consumer.go:93-122: the partition consumers made, in order; `int32(p)` is line 106.  The search for the coordinator (lines 109-117)
is repeated until it succeeds and decides nothing here. -/
def partitionConsumers (assign : AMap Bytes (List Int64)) (ts : List TopicMetadata) : List (Bytes × Int32) :=
  ts.flatMap fun t => (partitionsOf assign t).map fun p => (t.name, p.toInt32)

namespace Brokers

variable {W : Type} (net : Net W)

/-- consumer.go:79-89: ask for the metadata until it is there or the consumer is closed, which here happens before try number `tries` -/
def awaitMetadata (topics : List Bytes) : Nat → Brokers W → Option MetadataResponse × Brokers W
  | 0, b => (none, b)
  | n + 1, b =>
    match requestMetaData net topics b with
    | ((r, none), b) => (some r, b)
    | ((_, some _), b) => awaitMetadata topics n b

/-- consumer.go:63-122 `Consume` up to starting the partition consumers; `none` if the consumer was closed meanwhile -/
def consumeChoose (assign : AMap Bytes (List Int64)) (tries : Nat) (b : Brokers W) : Option (List (Bytes × Int32)) × Brokers W :=
  match order net assign.keys b with
  | (topics, b) =>
    match awaitMetadata net topics tries b with
    | (none, b) => (none, b)
    | (some r, b) => (some (partitionConsumers assign r.topics), b)

end Brokers

/-- where `Consume` is -/
inductive ConsumeAt where
  /-- not running -/
  | idle
  /-- in the loop asking for metadata, consumer.go:79-86 -/
  | asking
  /-- after the loop, consumer.go:87 -/
  | checking
  /-- making partition consumers, that many still to be made, consumer.go:93-122 -/
  | making (n : Nat)
  /-- starting them, consumer.go:132-135 -/
  | starting (rest : List Nat)
deriving DecidableEq, Repr

/-- where `AwaitClose` is -/
inductive AwaitAt where
  | none
  /-- in `stop`, consumer.go:140-147 -/
  | stopping (rest : List Nat)
  /-- waiting for the counter or the timeout, consumer.go:150-168 -/
  | waiting
  /-- returned after the counter was zero; the brokers are closed -/
  | done
  /-- returned after the timeout -/
  | timedOut
deriving DecidableEq, Repr

/-- consumer.go:9-18 `Consumer`.  A partition consumer is a number.  `made`, `started` and `stopped` record what happened, `returned` what the last
`Consume` to return gave: `true` for a channel (consumer.go:137), `false` for the nil channel (consumer.go:88), in both cases without an error. -/
structure MC where
  closed : Bool := false
  consumers : List Nat := []
  made : Nat := 0
  started : List Nat := []
  stopped : List Nat := []
  counter : Nat := 0
  crashed : Bool := false
  consume : ConsumeAt := .idle
  close : AwaitAt := .none
  returned : Option Bool := none
deriving DecidableEq, Repr

inductive MultiAct where
  /-- `Consume` is called -/
  | consume
  /-- a step of `Consume`; `ok` and `n` are the outcome of the request made in it: success, and the number of partitions to consume -/
  | step (ok : Bool) (n : Nat)
  /-- `AwaitClose` is called -/
  | close
  /-- a step of `AwaitClose`; `timeout` if the timeout is over -/
  | closeStep (timeout : Bool)
deriving DecidableEq, Repr

/-- a step of `Consume`: consumer.go:79-137 -/
def MC.consumeStep (ok : Bool) (n : Nat) (s : MC) : Option MC :=
  match s.consume with
  | .idle => none
  | .asking =>
    if s.closed then some { s with consume := .checking }
    else if ok then some { s with consume := .checking }
    else some s
  | .checking => if s.closed then some { s with consume := .idle, returned := some false } else some { s with consumers := [], consume := .making n }
  | .making (k + 1) =>
    if ok then some { s with consumers := s.consumers ++ [s.made], made := s.made + 1, consume := .making k } else some s
  | .making 0 => some { s with consume := .starting s.consumers }
  | .starting (i :: rest) => some { s with counter := s.counter + 1, started := s.started ++ [i], consume := .starting rest }
  | .starting [] => some { s with consume := .idle, returned := some true }

/-- simple_consumer.go:277-295 `SimpleConsumer.Stop`, as far as the consumer is concerned: `wg.Done()` -/
def MC.stopOne (i : Nat) (s : MC) : MC :=
  { s with stopped := s.stopped ++ [i], counter := s.counter - 1, crashed := s.crashed || decide (s.counter = 0) }

/-- a step of `AwaitClose`: consumer.go:140-172 -/
def MC.closeNext (timeout : Bool) (s : MC) : Option MC :=
  match s.close with
  | .none | .done | .timedOut => none
  | .stopping (i :: rest) => some { s.stopOne i with close := .stopping rest }
  | .stopping [] => some { s with close := .waiting }
  | .waiting =>
    if timeout then some { s with close := .timedOut }
    else if s.counter = 0 then some { s with close := .done }
    else none

/-- One step.  With `calm`, `Consume` is called once, and `AwaitClose` once, when `Consume` is not running. -/
def MC.step (calm : Bool) (a : MultiAct) (s : MC) : Option MC :=
  if s.crashed then none else
  match a with
  | .consume => if s.consume = .idle ∧ (calm → s.consumers = [] ∧ s.close = .none ∨ s.close = .done ∨ s.close = .timedOut) then
      some { s with consume := .asking } else none
  | .step ok n => s.consumeStep ok n
  | .close =>
    if (s.close = .none ∨ s.close = .done ∨ s.close = .timedOut) ∧ (calm → s.consume = .idle ∧ s.close = .none) then
      some { s with closed := true, close := .stopping s.consumers } else none
  | .closeStep timeout => s.closeNext timeout

/-- Several steps. -/
def MC.run (calm : Bool) : List MultiAct → MC → Option MC
  | [], s => some s
  | a :: as, s => (s.step calm a).bind (MC.run calm as)

end Healer
