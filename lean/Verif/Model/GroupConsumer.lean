import Verif.Model.Group
import Verif.Model.Metadata

/-!
# The group consumer's life (group_consumer.go)

`GC` is an interleaving model of the goroutines of a group consumer that start and stop partition consumers:
the one in `consumeWithoutHeartBeat` (called by `Consume`, and by `restart` when a heartbeat fails or the
metadata changed), the goroutine it starts to join the group, and the one calling `Close`.

Simplifications: `Consume` and `restart` are not run at the same time (the code does not prevent it: `Consume` does
not take `restartLocker`); a partition consumer is a number; its goroutines are those of Model/Consumer.lean;
time-outs, which only `AwaitClose` has, are left out; looking for the coordinator is part of joining; a joining
goroutine which `consumeWithoutHeartBeat` left behind because of `Close` has ended when `Consume` is called again.
-/

namespace Healer

/-- Where `consumeWithoutHeartBeat` or `restart` is. -/
inductive WorkAt where
  | idle
  /-- group_consumer.go:378-382 in `stop` called by `restart`: the consumers still to be stopped -/
  | stopping (rest : List Nat)
  /-- group_consumer.go:385: waiting in `stop` -/
  | stopped
  /-- group_consumer.go:501 -/
  | entered
  /-- group_consumer.go:517-521 -/
  | selecting
  /-- group_consumer.go:526-537: the consumers still to be started -/
  | starting (rest : List Nat)
deriving DecidableEq, Repr

/-- Where the joining goroutine is (group_consumer.go:505-515, 262-305). -/
inductive JoinAt where
  | none
  /-- at a test of `c.closed`, before joining -/
  | top
  /-- line 281: joined, before the next test -/
  | checking
  /-- in `sync` -/
  | syncing
  /-- line 514: `joinedChan` filled -/
  | ready
deriving DecidableEq, Repr

/-- Where `AwaitClose` is. -/
inductive CloseAt where
  | none
  /-- line 415 -/
  | sending
  /-- line 417, before the mutex is taken -/
  | locking
  | stopping (rest : List Nat)
  /-- line 385 -/
  | waiting
  /-- line 433 -/
  | leaving
  | done
deriving DecidableEq, Repr

/-- group_consumer.go:18-47 `GroupConsumer` and its goroutines. -/
structure GC where
  closed : Bool := false
  /-- whether `closeChan` (capacity 1) holds a value -/
  token : Bool := false
  /-- `simpleConsumers`; nil is empty -/
  consumers : List Nat := []
  /-- number of partition consumers made so far -/
  made : Nat := 0
  /-- those on which `Consume` was called -/
  started : List Nat := []
  /-- those on which `Stop` was called -/
  stopped : List Nat := []
  /-- the counter of `wg` -/
  counter : Nat := 0
  /-- the counter would have become negative: Go panics -/
  crashed : Bool := false
  joined : Bool := false
  /-- the coordinator regards this consumer as a member -/
  member : Bool := false
  work : WorkAt := .idle
  join : JoinAt := .none
  close : CloseAt := .none
deriving DecidableEq, Repr

/-- A step, with what the coordinator answers. -/
inductive GroupAct where
  /-- the user calls `Consume` -/
  | consume
  /-- `restart` is called -/
  | restart
  /-- the goroutine in `consumeWithoutHeartBeat` or `restart` goes on; `token` chooses between two ready channels -/
  | work (token : Bool)
  /-- the joining goroutine goes on; `ok` is the outcome of the request, `n` the number of partitions assigned -/
  | join (ok : Bool) (n : Nat)
  /-- the user calls `Close` -/
  | close
  /-- the closing goroutine goes on; `ok` is the outcome of the leave request -/
  | closeStep (ok : Bool)
deriving DecidableEq, Repr

/-- simple_consumer.go:277-295 `SimpleConsumer.Stop`, as far as the group is concerned: `wg.Done()` -/
def GC.stopOne (i : Nat) (s : GC) : GC :=
  { s with stopped := s.stopped ++ [i], counter := s.counter - 1, crashed := s.crashed || decide (s.counter = 0) }

/-- the mutex of `stop` is held by `restart` -/
def WorkAt.holds : WorkAt → Bool
  | .stopping _ | .stopped => true
  | _ => false

/-- the mutex of `stop` is held by `AwaitClose` -/
def CloseAt.holds : CloseAt → Bool
  | .stopping _ | .waiting => true
  | _ => false

/-- a step of the goroutine in `restart` or `consumeWithoutHeartBeat`:
group_consumer.go:365-368, 372-386, 497-540 -/
def GC.workStep (token : Bool) (s : GC) : Option GC :=
  match s.work with
  | .idle => none
  | .stopping (i :: rest) => some { s.stopOne i with work := .stopping rest }
  | .stopping [] => some { s with consumers := [], work := .stopped }
  | .stopped => if s.counter = 0 then some { s with joined := false, work := .entered } else none
  | .entered => if s.counter = 0 then some { s with work := .selecting, join := .top } else none
  | .selecting =>
    if s.token ∧ token then some { s with token := false, work := .idle }
    else if s.join = .ready then some { s with joined := true, join := .none, work := .starting s.consumers }
    else none
  | .starting (i :: rest) =>
    some { s with counter := s.counter + 1, started := s.started ++ [i], work := .starting rest }
  | .starting [] => some { s with work := .idle }

/-- a step of the joining goroutine: group_consumer.go:505-515, 262-305, 171-224, 226-260, 148-168 -/
def GC.joinStep (ok : Bool) (n : Nat) (s : GC) : Option GC :=
  match s.join with
  | .none | .ready => none
  | .top =>
    if s.closed then some { s with join := .ready }
    else if ok then some { s with member := true, join := .checking }
    else some s
  | .checking => some { s with join := if s.closed then .ready else .syncing }
  | .syncing =>
    if ok then some { s with consumers := (List.range n).map (s.made + ·), made := s.made + n, join := .ready }
    else some { s with join := .top }

/-- a step of `AwaitClose`: group_consumer.go:411-434, 388-401 -/
def GC.closeNext (ok : Bool) (s : GC) : Option GC :=
  match s.close with
  | .none | .done => none
  | .sending => if s.token then none else some { s with token := true, close := .locking }
  | .locking => if s.work.holds then none else some { s with close := .stopping s.consumers }
  | .stopping (i :: rest) => some { s.stopOne i with close := .stopping rest }
  | .stopping [] => some { s with consumers := [], close := .waiting }
  | .waiting => if s.counter = 0 then some { s with close := .leaving } else none
  | .leaving =>
    if s.joined then
      if ok then some { s with member := false, joined := false, close := .done } else some { s with close := .done }
    else some { s with close := .done }

/-- a goroutine starting or restarting is at work (the one which joins runs only meanwhile, or after it was told of the closing) -/
def GC.busy (s : GC) : Bool := decide (s.work ≠ .idle)

/-- One step.  With `calm`, `Close` is called only while nothing is being started or restarted, and after that
nothing is started. -/
def GC.step (calm : Bool) (a : GroupAct) (s : GC) : Option GC :=
  if s.crashed then none else
  match a with
  | .consume =>
    if s.work = .idle ∧ (s.join = .none ∨ s.join = .ready) ∧ (calm → s.close = .none) then some { s with closed := false, work := .entered } else none
  | .restart =>
    if s.work = .idle ∧ (s.join = .none ∨ s.join = .ready) ∧ ¬ s.close.holds ∧ (calm → s.close = .none) then some { s with work := .stopping s.consumers } else none
  | .work token => s.workStep token
  | .join ok n => s.joinStep ok n
  | .close =>
    if (s.close = .none ∨ s.close = .done) ∧ (calm → s.busy = false) then some { s with closed := true, close := .sending } else none
  | .closeStep ok => s.closeNext ok

/-- Several steps. -/
def GC.run (calm : Bool) : List GroupAct → GC → Option GC
  | [], s => some s
  | a :: as, s => (s.step calm a).bind (GC.run calm as)

/-- group_consumer.go:565-575: the loop over the partitions; the lists have the same length (line 561) -/
def samePartitions : List PartitionMetadataInfo → List PartitionMetadataInfo → Bool
  | x :: xs, y :: ys =>
    if x.partitionID ≠ y.partitionID then false
    else if x.errorCode ≠ y.errorCode then false
    else if x.leader ≠ y.leader then false
    else samePartitions xs ys
  | _, _ => true

/-- group_consumer.go:556-576: the loop over the topics; the lists have the same length (line 552) -/
def sameTopics : List TopicMetadata → List TopicMetadata → Bool
  | x :: xs, y :: ys =>
    if x.name ≠ y.name ∨ x.errorCode ≠ y.errorCode then false
    else if x.partitions.length ≠ y.partitions.length then false
    else if samePartitions x.partitions y.partitions then sameTopics xs ys
    else false
  | _, _ => true

/-- group_consumer.go:543-579 `ifTopicMetadatasSame`; `none` is nil -/
def ifTopicMetadatasSame : Option (List TopicMetadata) → Option (List TopicMetadata) → Bool
  | none, none => true
  | some a, some b => if a.length ≠ b.length then false else sameTopics a b
  | _, _ => false

/-- group_consumer.go:102-114: the topics the leader asks for: those in the members' subscriptions.  The order is that
of a Go map, which is arbitrary; here some order. -/
def subscribedTopics : List Member → Out (List Bytes)
  | [] => .ok []
  | m :: ms => do
    let p ← newProtocolMetadata m.memberMetadata
    let rest ← subscribedTopics ms
    .ok ((p.subscription.reverse.foldl (fun acc t => if acc.contains t then acc else t :: acc) rest))

end Healer
