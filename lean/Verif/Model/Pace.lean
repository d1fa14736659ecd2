import Verif.Model.Consumer
import Verif.Model.Rejoin
import Verif.Model.Config

/-!
# Where the consumer waits before it asks again

The calls of `time.Sleep` in the steps of Model/Consumer.lean.  (Those of a group consumer are in Model/Rejoin.lean.)
-/

namespace Healer

/-- What happens on the way to the next fetch request. -/
inductive Pace where
  /-- a fetch request is made -/
  | ask
  /-- it is answered -/
  | answer
  /-- `time.Sleep` of `retry.backoff.ms` -/
  | pause
deriving DecidableEq, Repr

/-- What a step does.  simple_consumer.go:414-423: a fetch request that failed is followed by a pause; 424-446: one that was
answered is not; 484-492: the search for the leader pauses when it fails.  The other errors of 469-497 have no pause. -/
def SC.pace (a : ConsumerAct) (s : SC) : List Pace :=
  match a, s.loop with
  | .fetchFailed, .top => if s.stop then [] else [.ask, .pause]
  | .fetched _, .top => [.ask, .answer]
  | .leader found, .seeking => if s.stop ∨ found then [] else [.pause]
  | _, _ => []

/-- Several steps. -/
def SC.paces (env : ConsumerEnv) : List ConsumerAct → SC → Option (List Pace × SC)
  | [], s => some ([], s)
  | a :: as, s =>
    match s.step env a with
    | none => none
    | some t =>
      match SC.paces env as t with
      | none => none
      | some r => some (s.pace a ++ r.1, r.2)

end Healer
