/-!
# Maps of the library used by several goroutines (brokers.go:27-32, 195-221; producer.go:133-166, 188-199)

Go's runtime watches the use of a map: an access that finds another goroutine in the middle of a write ends the process with a fatal error, which cannot be recovered from
(runtime: `mapaccess2`, `mapiternext`, `mapassign`, `concurrent map read and map write`, `concurrent map iteration and map write`, `concurrent map writes`).  `Brokers.brokers` is
used by `GetBroker`, which has the lock, and by `Close`, which has not; `Producer.pidToSimpleProducers` and `Producer.leaderBrokersMapping` are used by `AddMessage` with a key and by `Close`, without lock.  All
three uses have the same form: look a key up, and put it in if it is not there; or go through the whole map.
-/

namespace Healer

/-- A call that uses the map. -/
inductive MapCall where
  /-- brokers.go:199-221, producer.go:142-164: look a key up, and put it in if it is missing -/
  | get (key : Nat)
  /-- brokers.go:29-31, producer.go:192-198: `range` over the map -/
  | range
deriving DecidableEq, Repr

/-- Where a goroutine stands in its call. -/
inductive MapAt where
  | ready
  /-- the key was not found; a connection is being made -/
  | missing (key : Nat)
  /-- in the middle of `m[key] = …` -/
  | assigning (key : Nat)
  /-- in the loop, with so many entries to go -/
  | ranging (left : Nat)
  | done
deriving DecidableEq, Repr

/-- A map and the goroutines using it, one call for each.  `writing` is the runtime's mark that a write is under way, `fatal` says that the process was ended. -/
structure RaceMap where
  keys : List Nat := []
  writing : Bool := false
  fatal : Bool := false
  holder : Option Nat := none
  pos : Nat → MapAt := fun _ => .ready

namespace RaceMap

/-- goroutine `i` goes to `p` -/
def goto (i : Nat) (p : MapAt) (s : RaceMap) : RaceMap := { s with pos := fun j => if j = i then p else s.pos j }

/-- `Unlock`, for a call that has the lock -/
def release (locks : Bool) (s : RaceMap) : RaceMap := if locks then { s with holder := none } else s

/-- the check made by every access, and what comes after it -/
def access (s next : RaceMap) : RaceMap := if s.writing then { s with fatal := true } else next

/-- the beginning of a call: with the lock, if the call takes it (`locks`), and the first access -/
def begin (locks : Bool) (c : MapCall) (i : Nat) (s : RaceMap) : Option RaceMap :=
  if locks && s.holder.isSome then none
  else
    let s := if locks then { s with holder := some i } else s
    match c with
    | .get k => some (s.access (if k ∈ s.keys then (s.goto i .done).release locks else s.goto i (.missing k)))
    | .range => some (s.access (s.goto i (.ranging s.keys.length)))

/-- One step of goroutine `i`, whose call is `c`; `none` if it cannot happen now. -/
def step (locks : Bool) (c : MapCall) (i : Nat) (s : RaceMap) : Option RaceMap :=
  if s.fatal then none
  else
    match s.pos i with
    | .ready => s.begin locks c i
    | .missing k => some (s.access ({ s with writing := true }.goto i (.assigning k)))
    | .assigning k =>
      if s.writing then some (({ s with writing := false, keys := k :: s.keys }.goto i .done).release locks)
      else some { s with fatal := true }
    | .ranging 0 => some ((s.goto i .done).release locks)
    | .ranging (n + 1) => some (s.access (s.goto i (.ranging n)))
    | .done => none

/-- Steps in the order of an interleaving.  `calls i` is the call of goroutine `i`; `locks` tells which calls take the lock. -/
def run (locks : MapCall → Bool) (calls : Nat → MapCall) : List Nat → RaceMap → Option RaceMap
  | [], s => some s
  | i :: is, s =>
    match s.step (locks (calls i)) (calls i) i with
    | none => none
    | some s' => run locks calls is s'

end RaceMap

/-- `Brokers.brokers`: `GetBroker` takes the lock, `Close` does not -/
def brokersLocks : MapCall → Bool
  | .get _ => true
  | .range => false

/-- the maps of `Producer`: nobody takes a lock -/
def producerLocks : MapCall → Bool := fun _ => false

end Healer
