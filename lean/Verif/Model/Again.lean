import Verif.Model.Consumer

/-!
# `Consume` called more than once on a partition consumer (simple_consumer.go)

Nothing refuses a second call (lines 342-398): it sets the position of the consumer and starts one more loop, which has a channel of
its own and shares everything else with the first.
-/

namespace Healer

/-- What one call of `Consume` started: its loop, its channel, and what can be seen of them. -/
structure Taker where
  loop : LoopAt := .top
  queue : List Message := []
  log : List Seen := []

/-- A partition consumer with all its loops.  `base` holds the fields that they share; its loop, channel and log are not used. -/
structure Loops where
  base : SC
  takers : List Taker := []

/-- The consumer as one of its loops sees it. -/
def Loops.view (s : Loops) (t : Taker) : SC := { s.base with loop := t.loop, queue := t.queue, log := t.log }

/-- The consumer after a step of one of its loops. -/
def Loops.after (s : Loops) (i : Nat) (c : SC) : Loops := { base := c, takers := s.takers.set i { loop := c.loop, queue := c.queue, log := c.log } }

inductive AgainAct where
  /-- simple_consumer.go:342-398: `Consume` with a position that is neither -1 nor -2, and no channel.  Simplified: the leader is found at
  once, and the goroutine that commits (379-393) is left out. -/
  | consume (offset : Int64)
  /-- a step of the loop that the `i`-th call started, or of somebody who uses its channel -/
  | of (i : Nat) (a : ConsumerAct)

/-- One step.  Lines 350-352 set the position even if the consumer was stopped, lines 365-367 start no loop then. -/
def Loops.step (env : ConsumerEnv) (a : AgainAct) (s : Loops) : Option Loops :=
  match a with
  | .consume o => some { base := { s.base with offset := o }, takers := s.takers ++ [{ loop := if s.base.stop then .done else .top }] }
  | .of i a =>
    match s.takers[i]? with
    | none => none
    | some t => ((s.view t).step env a).map (s.after i)

/-- Several steps. -/
def Loops.run (env : ConsumerEnv) : List AgainAct → Loops → Option Loops
  | [], s => some s
  | a :: as, s => (s.step env a).bind (Loops.run env as)

end Healer
