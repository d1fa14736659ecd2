import Verif.Go.Basic

/-!
# How long closing takes (simple_consumer.go, consumer.go, group_consumer.go)

Times are natural numbers, of any unit.  A partition consumer's loop is a sequence of rounds, each of which begins with reading the
stop flag; a round takes as long as the broker takes to answer the fetch, plus what is done with the answer.  The request is not
given the context that `Stop` cancels (simple_consumer.go:415, broker.go:370-389), so nothing ends a round that waits for an answer.
What takes no request is taken to take no time.  Not modelled: the wait for `closeChan` and for the mutex (group_consumer.go:415,
373), which only add to it, and `Stop` before the loop has begun (Model/Starting.lean).
-/

namespace Healer

/-- simple_consumer.go:407-453: the rounds of a loop in time: when the first begins and how long each takes -/
structure Rounds where
  start : Nat
  took : Nat → Nat

/-- when a round begins, and reads the flag (simple_consumer.go:407) -/
def Rounds.begin (r : Rounds) : Nat → Nat
  | 0 => r.start
  | k + 1 => r.begin k + r.took k

/-- simple_consumer.go:277-285: `Stop`, called at `t`, returns at `u`: when the loop reads the flag for the first time after -/
def Rounds.EndsAt (r : Rounds) (t u : Nat) : Prop := ∃ k, r.begin k = u ∧ t ≤ u ∧ ∀ j, j < k → r.begin j < t

/-- group_consumer.go:372-386 `stop`, consumer.go:140-147 `stop`: one after the other -/
def StopAll : List Rounds → Nat → Nat → Prop
  | [], t, u => u = t
  | r :: rs, t, u => ∃ v, r.EndsAt t v ∧ StopAll rs v u

/-- group_consumer.go:419-433: after `stop`.  `rest` is how long it takes until `wg` is zero (none: for ever), `leave` how long the
request to leave takes (0 if not joined).  consumer.go:149-170 is the same without leaving. -/
def afterStop (timeout : Nat) (rest : Option Nat) (leave u : Nat) : Nat :=
  match rest with
  | some d => if d ≤ timeout then u + d + leave else u + timeout
  | none => u + timeout

/-- group_consumer.go:411-434 `AwaitClose`, called at `t`, returns at `r`; the timer is started by line 428, after `stop` -/
def AwaitClose (consumers : List Rounds) (timeout : Nat) (rest : Option Nat) (leave t r : Nat) : Prop :=
  ∃ u, StopAll consumers t u ∧ r = afterStop timeout rest leave u

end Healer
