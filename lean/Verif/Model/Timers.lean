import Verif.Model.Config

/-!
# Periodic work

Every kind of client has goroutines of the form `for range ticker.C { … }`.  Times are nanoseconds.

Modelled of package time: a duration is an int64, and its arithmetic wraps; `NewTicker` panics if the duration is not
positive; a ticker offers a tick at every multiple of its duration, counted from its making, and drops it if the one
before has not been taken yet (its channel holds one).  Left out: the adjustment of a ticker to a slow clock, and a tick
at the very moment the loop asks.
-/

namespace Healer

/-- `time.Millisecond * time.Duration(ms)` -/
def millis (ms : Int64) : Int64 := 1000000 * ms

/-- `time.NewTicker` -/
def newTicker (d : Int64) : Out Int64 := if d ≤ 0 then .panic else .ok d

/-- group_consumer.go:475: the ticker of the heartbeats, made by `Consume` -/
def ConsumerConfig.heartTicker (c : ConsumerConfig) : Out Int64 := newTicker (millis c.sessionTimeoutMS.toInt64 / 10)

/-- group_consumer.go:436-439: the ticker of `refreshMeta`, in a goroutine started by `Consume` (489-492) -/
def ConsumerConfig.metadataTicker (c : ConsumerConfig) : Out Int64 := newTicker (millis c.metadataMaxAgeMS)

/-- simple_consumer.go:379-381: the ticker of the commits, if there are any -/
def ConsumerConfig.commitTicker (c : ConsumerConfig) : Option (Out Int64) :=
  if c.autoCommit ∧ c.groupID ≠ "" then some (newTicker (millis c.autoCommitIntervalMS)) else none

/-- simple_producer.go:117: the ticker of the flushes, in a goroutine started by `NewSimpleProducer` -/
def ProducerConfig.flushTicker (c : ProducerConfig) : Out Int64 := newTicker (millis c.flushIntervalMS)

/-- producer.go:69-70: the ticker of the metadata, in a goroutine started by `NewProducer` -/
def ProducerConfig.metadataTicker (c : ProducerConfig) : Out Int64 := newTicker (millis c.metadataMaxAgeMS)

/-- `range ticker.C`: when the loop gets a tick if it asks at time `now`, having got the one before at time `last`; at
once if one was offered meanwhile. -/
def nextTick (d last now : Nat) : Nat := if last / d < now / d then now else (now / d + 1) * d

/-- `for range ticker.C { … }`, e.g. group_consumer.go:477-486: when each round begins, given how long each takes -/
def tickerRounds (d : Nat) : (last now : Nat) → List Nat → List Nat
  | _, _, [] => []
  | last, now, t :: ts => nextTick d last now :: tickerRounds d (nextTick d last now) (nextTick d last now + t) ts

end Healer
