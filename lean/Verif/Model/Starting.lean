import Verif.Model.Consumer

/-!
# A partition consumer from `Consume` to the end of `Stop` (simple_consumer.go)

`Model/Consumer.lean` begins when `Consume` has started the loop, and reads the stop flag and sends the fetch in one step.
Here `Consume` is a call that takes several steps, the loop is a goroutine that begins some time after `Consume` started it, the
loop reads the flag and sends the fetch in two steps, and `Stop` is a call of four steps, made by another goroutine.  The
steps within an answer, of commits and of the user are those of `Model/Consumer.lean`.
-/

namespace Healer

/-- Where `Consume` is, or the goroutine of the loop. -/
inductive StartAt where
  /-- simple_consumer.go:356: before the flag is read -/
  | leader
  /-- simple_consumer.go:357: within `getLeaderBroker` -/
  | asking
  /-- simple_consumer.go:365: before the flag is read again -/
  | gate
  /-- simple_consumer.go:369-371, 243-253: within `getCommitedOffet` -/
  | committed
  /-- simple_consumer.go:195: before the flag is read in `initOffset` -/
  | lookup
  /-- simple_consumer.go:196: within `getOffset` -/
  | looking
  /-- simple_consumer.go:379-396: before the goroutines are started -/
  | launch
  /-- simple_consumer.go:366: `Consume` returned and there is no loop -/
  | gaveUp
  /-- simple_consumer.go:396: the loop was started and did not begin yet -/
  | launched
  /-- simple_consumer.go:402: the loop is counted by `consumeLoopWg` -/
  | running
deriving DecidableEq, Repr

/-- Where `Stop` is (simple_consumer.go:277-296). -/
inductive StopAt where
  | uncalled
  /-- line 279 -/
  | cancelled
  /-- line 281 -/
  | flagged
  /-- lines 283-295 -/
  | returned
deriving DecidableEq, Repr

/-- A partition consumer.  `past`: the loop has read the flag and not yet sent the fetch.  `connected`: `leaderBroker` is
set and was not closed.  `asked` counts the requests for the committed position. -/
structure Starting where
  consumer : SC
  phase : StartAt := .leader
  stopper : StopAt := .uncalled
  past : Bool := false
  connected : Bool := false
  asked : Nat := 0

/-- Steps of `Consume`, of the loop, of `Stop`, and of all others. -/
inductive StartAct where
  /-- the flag is read: lines 356, 365, 195, or 408 in the loop -/
  | check
  /-- `getLeaderBroker` returns -/
  | leader (found : Bool)
  /-- the coordinator answers with the committed position, or the request fails -/
  | committed (answer : Except Err Int64)
  /-- `getOffset` returns -/
  | position (answer : Except Err Int64)
  /-- line 396 -/
  | launch
  /-- line 402 -/
  | begin
  /-- a fetch is sent, and answered with `ms` or not at all -/
  | fetch (answer : Option (List FullMessage))
  /-- any other step of the loop, of commits and of the user -/
  | other (a : ConsumerAct)
  /-- line 279 -/
  | cancel
  /-- line 281 -/
  | flag
  /-- lines 283-295 -/
  | wait

/-- Is a position one to be looked up?  (simple_consumer.go:369, 374) -/
def unknownOffset (o : Int64) : Bool := decide (o = -1 ∨ o = -2)

/-- simple_consumer.go:374-396: what comes after the question for the committed position -/
def afterCommitted (o : Int64) : StartAt := if unknownOffset o then .lookup else .launch

/-- simple_consumer.go:365-396: what comes after the leader is found -/
def afterLeader (env : ConsumerEnv) (o : Int64) : StartAt :=
  if env.mode ≠ .none ∧ unknownOffset o then .committed else afterCommitted o

/-- simple_consumer.go:265-267: a negative answer is no position -/
def takeCommitted (answer o : Int64) : Int64 := if answer ≥ 0 then answer else o

/-- simple_consumer.go:189-193 -/
def fromBeginningOf (o : Int64) (old : Bool) : Bool := if o = -1 then false else if o = -2 then true else old

/-- Going on to `phase`; entering `initOffset` sets the side from which positions are looked up. -/
def Starting.arrive (phase : StartAt) (x : Starting) : Starting :=
  let c := x.consumer
  if phase = .lookup then { x with phase, consumer := { c with fromBeginning := fromBeginningOf c.offset c.fromBeginning } }
  else { x with phase }

/-- Reading the flag. -/
def Starting.check (env : ConsumerEnv) (x : Starting) : Option Starting :=
  let c := x.consumer
  match x.phase with
  | .leader => some { x with phase := if c.stop then .gate else .asking }
  | .gate => some (if c.stop then { x with phase := .gaveUp } else x.arrive (afterLeader env c.offset))
  | .lookup => some { x with phase := if c.stop then .launch else .looking }
  | .running =>
    if c.loop = .top ∧ x.past = false then
      if c.stop then some { x with consumer := { c with loop := .done } } else some { x with past := true }
    else none
  | _ => none

/-- One step; `none` if it is not possible. -/
def Starting.step (env : ConsumerEnv) (a : StartAct) (x : Starting) : Option Starting :=
  let c := x.consumer
  match a with
  | .check => x.check env
  | .leader found =>
    if x.phase = .asking then
      some (if found then { x with phase := .gate, connected := true } else { x with phase := .leader })
    else none
  | .committed answer =>
    if x.phase = .committed then
      match answer with
      | .ok o =>
        let o' := takeCommitted o c.offset
        some (Starting.arrive (afterCommitted o') { x with consumer := { c with offset := o' }, asked := x.asked + 1 })
      | .error _ => some { x with asked := x.asked + 1 }
    else none
  | .position answer =>
    if x.phase = .looking then
      -- an error leaves -1 in `offset`
      let c' := { c with offset := offsetOrMinusOne answer
                         log := c.log ++ [.lookup c.fromBeginning answer] }
      some { x with consumer := c', phase := match answer with | .ok _ => .launch | .error _ => .lookup }
    else none
  | .launch => if x.phase = .launch then some { x with phase := .launched } else none
  | .begin => if x.phase = .launched then some { x with phase := .running } else none
  | .fetch answer =>
    if x.past then
      let c' := { c with loop := match answer with | some ms => .inner ms | none => .top
                         log := c.log ++ [.fetch c.offset c.fetchMaxBytes] }
      some { x with past := false, consumer := c' }
    else none
  | .other a =>
    match a with
    | .fetchFailed | .fetched _ | .cancel | .stop => none
    | a => (c.step env a).map fun c' => { x with consumer := c' }
  | .cancel => if x.stopper = .uncalled then some { x with stopper := .cancelled, consumer := { c with cancelled := true } } else none
  | .flag => if x.stopper = .cancelled then some { x with stopper := .flagged, consumer := { c with stop := true } } else none
  | .wait =>
    -- `consumeLoopWg` is above zero from line 402 until the loop ends
    if x.stopper = .flagged ∧ ¬ (x.phase = .running ∧ c.loop ≠ .done) then
      some { x with stopper := .returned, connected := false }
    else none

/-- Several steps. -/
def Starting.run (env : ConsumerEnv) : List StartAct → Starting → Option Starting
  | [], x => some x
  | a :: as, x => (x.step env a).bind (Starting.run env as)

/-- simple_consumer.go:342-352: a call of `Consume` begins. -/
def Starting.new (offset : Int64) (fetchMaxBytes : Int32) : Starting := { consumer := { offset, fetchMaxBytes } }

end Healer
