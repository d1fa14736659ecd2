import Verif.Model.Fetch
import Verif.Model.Brokers

/-!
# The partition consumer (simple_consumer.go)

The consumer runs in several goroutines: the consume loop, calls of `CommitOffset` (one goroutine if
`auto.commit` is set, others if the user calls it) and whoever calls `Stop`.  The model interleaves their
steps: `step` performs one step of one goroutine; the answers of the brokers are part of the action.
Reads and writes of shared fields are single steps (the race detector would object to the Go code; values are
taken not to tear).

`CommitOffset` of a group member reads the fields of the group consumer; other goroutines change these by
joining and leaving the group.

Not modelled here: time, logging, the broker connections (Model/Broker.lean, Model/Brokers.lean).
-/

namespace Healer

/-- How positions are committed: not at all, by the consumer itself (`GroupID` set), or as a member of a group
(`belongTO` set). -/
inductive CommitMode where
  | none | own | member
deriving DecidableEq, Repr

/-- What is fixed while a consumer runs. -/
structure ConsumerEnv where
  mode : CommitMode
  /-- capacity of the channel `messages`; 100 if the user passes none (simple_consumer.go:348) -/
  capacity : Nat := 100
  /-- nobody but the auto-commit goroutine calls `CommitOffset` -/
  autoOnly : Bool := false
deriving DecidableEq, Repr

/-- Where the consume loop is. -/
inductive LoopAt where
  /-- simple_consumer.go:408: before the next fetch -/
  | top
  /-- simple_consumer.go:456-475: `consumeMessages`, with what the decoder still puts into its channel -/
  | inner (ms : List FullMessage)
  /-- simple_consumer.go:501-502: between handing a message over and advancing the position -/
  | sent (m : Message) (ms : List FullMessage)
  /-- simple_consumer.go:484-493: looking for the leader -/
  | seeking
  | done
deriving DecidableEq, Repr

/-- Where a call of `CommitOffset` is (simple_consumer.go:323-338; group_consumer.go:327-358). -/
inductive CommitAt where
  | start
  | differs
  | read (offset : Int64)
  | checked (offset : Int64)
  | acknowledged (offset : Int64)
deriving DecidableEq, Repr

/-- What can be seen from outside. -/
inductive Seen where
  | fetch (offset : Int64) (maxBytes : Int32)
  /-- put into the channel -/
  | put (m : Message)
  /-- taken from the channel by the user -/
  | got (m : Message)
  /-- a position was asked for: from the beginning or the end, with the answer -/
  | lookup (fromBeginning : Bool) (answer : Except Err Int64)
  | commit (member : Bytes) (generation : Int32) (offset : Int64) (ok : Bool)
  /-- the membership in the group changed -/
  | member (member : Bytes) (generation : Int32)
deriving Repr

/-- simple_consumer.go:16-39 `SimpleConsumer`, with its goroutines; `memberID` and `generationID` are those of
the group consumer; `queue` is the contents of the channel `messages`. -/
structure SC where
  stop : Bool := false
  cancelled : Bool := false
  offset : Int64
  offsetCommited : Int64 := 0
  fromBeginning : Bool := false
  fetchMaxBytes : Int32
  loop : LoopAt := .top
  commits : List CommitAt := []
  queue : List Message := []
  memberID : Bytes := []
  generationID : Int32 := 0
  log : List Seen := []

/-- A step of some goroutine, with what the environment answers. -/
inductive ConsumerAct where
  /-- the loop ends, or `requestFetchStreamingly` fails -/
  | fetchFailed
  /-- a response is fetched from which the decoder puts `ms` into the inner channel -/
  | fetched (ms : List FullMessage)
  /-- `consumeMessages` sees the cancelled context -/
  | noticed
  /-- `consumeMessages` takes the next message and, if it is an error, deals with it; `answer` is what
  `getOffset` gives if it is called -/
  | next (answer : Except Err Int64)
  /-- the position is advanced after a message was handed over -/
  | advance
  /-- `getLeaderBroker` is tried -/
  | leader (found : Bool)
  /-- the user takes a message from the channel -/
  | receive
  /-- `CommitOffset` is called -/
  | commit
  /-- the `i`-th running call of `CommitOffset` goes on; `ok` is the outcome of the request if one is sent -/
  | commitStep (i : Nat) (ok : Bool)
  /-- the group consumer joins (new member id and generation) or leaves (empty member id) -/
  | membership (member : Bytes) (generation : Int32)
  /-- simple_consumer.go:279, 281: the two parts of `Stop` -/
  | cancel
  | stop

/-- simple_consumer.go:206-222 `getOffset`: -1 together with an error -/
def offsetOrMinusOne : Except Err Int64 → Int64
  | .ok o => o
  | .error _ => -1

/-- simple_consumer.go:473-475 -/
def growFetch (e : Err) (n : Int32) : Int32 := if e = .maxBytesTooSmall then n * 2 else n

/-- simple_consumer.go:469-497: what `consumeMessages` does with an error before it returns.  Closing the leader's
connection (lines 471-472, 482-483) and refreshing the partition's metadata (line 495) have no effect here. -/
def onError (e : Err) (answer : Except Err Int64) (s : SC) : SC :=
  let s := { s with fetchMaxBytes := growFetch e s.fetchMaxBytes }
  if e.is (.kafka 1) then
    { s with offset := offsetOrMinusOne answer, loop := .top, log := s.log ++ [.lookup s.fromBeginning answer] }
  else if e.is (.kafka 6) then { s with loop := .seeking }
  else { s with loop := .top }

/-- A message of capacity-0 channels is received when it is put. -/
def putSeen (env : ConsumerEnv) (m : Message) : List Seen :=
  if env.capacity = 0 then [.put m, .got m] else [.put m]

/-- simple_consumer.go:456-505 `consumeMessages`: taking the next message.  A message can be handed over if there
is room in the channel. -/
def nextMessage (env : ConsumerEnv) (answer : Except Err Int64) (s : SC) : Option SC :=
  match s.loop with
  | .inner [] => some { s with loop := .top }
  | .inner (x :: ms) =>
    match x.error, x.message with
    | some e, _ => some (onError e answer s)
    | none, none => none
    | none, some m =>
      if env.capacity = 0 then some { s with loop := .sent m ms, log := s.log ++ putSeen env m }
      else if s.queue.length < env.capacity then
        some { s with loop := .sent m ms, queue := s.queue ++ [m], log := s.log ++ putSeen env m }
      else none
  | _ => none

/-- One step of a call of `CommitOffset`: `none` in the list of results means that the call returned.

simple_consumer.go:324 compares, 328 reads the position, group_consumer.go:328-335 checks member id and position,
338-346 builds and sends the request, reading member id and generation once more;
simple_consumer.go:298-318 sends the position read once more, without member id; 331, 335 record success. -/
def commitNext (env : ConsumerEnv) (c : CommitAt) (ok : Bool) (s : SC) : Option CommitAt × SC :=
  match c with
  | .start => if s.offset = s.offsetCommited then (none, s) else (some .differs, s)
  | .differs => (some (.read s.offset), s)
  | .read o =>
    match env.mode with
    | .none => (none, s)
    | .own =>
      let s' := { s with log := s.log ++ [.commit [] (-1) s.offset ok] }
      (if ok then some (.acknowledged o) else none, s')
    | .member => if s.memberID = [] ∨ o < 0 then (none, s) else (some (.checked o), s)
  | .checked o =>
    let s' := { s with log := s.log ++ [.commit s.memberID s.generationID o ok] }
    (if ok then some (.acknowledged o) else none, s')
  | .acknowledged o => (none, { s with offsetCommited := o })

/-- replace or remove the `i`-th call -/
def setCommit (cs : List CommitAt) (i : Nat) : Option CommitAt → List CommitAt
  | some c => cs.set i c
  | none => cs.eraseIdx i

/-- One step; `none` if it is not possible in the state. -/
def SC.step (env : ConsumerEnv) (a : ConsumerAct) (s : SC) : Option SC :=
  match a with
  | .fetchFailed =>
    match s.loop with
    | .top => if s.stop then some { s with loop := .done }
      else some { s with log := s.log ++ [.fetch s.offset s.fetchMaxBytes] }
    | _ => none
  | .fetched ms =>
    match s.loop with
    | .top => if s.stop then none
      else some { s with loop := .inner ms, log := s.log ++ [.fetch s.offset s.fetchMaxBytes] }
    | _ => none
  | .noticed =>
    match s.loop with
    | .inner _ => if s.cancelled then some { s with loop := .top } else none
    | _ => none
  | .next answer => nextMessage env answer s
  | .advance =>
    match s.loop with
    | .sent m ms => some { s with offset := m.offset + 1, loop := .inner ms }
    | _ => none
  | .leader found =>
    match s.loop with
    | .seeking => some (if s.stop ∨ found then { s with loop := .top } else s)
    | _ => none
  | .receive =>
    match s.queue with
    | m :: q => some { s with queue := q, log := s.log ++ [.got m] }
    | [] => none
  | .commit =>
    if env.autoOnly ∧ s.commits ≠ [] then none
    else some { s with commits := s.commits ++ [.start] }
  | .commitStep i ok =>
    match s.commits[i]? with
    | some c => let r := commitNext env c ok s
      some { r.2 with commits := setCommit s.commits i r.1 }
    | none => none
  | .membership m g => some { s with memberID := m, generationID := g, log := s.log ++ [.member m g] }
  | .cancel => some { s with cancelled := true }
  | .stop => some { s with stop := true }

/-- Several steps. -/
def SC.run (env : ConsumerEnv) : List ConsumerAct → SC → Option SC
  | [], s => some s
  | a :: as, s => (s.step env a).bind (SC.run env as)

/-- simple_consumer.go:181-204 `initOffset`; `answers` are those of `getOffset`, up to the first success or until
the consumer is stopped.  The flag tells whether a position was found. -/
def initLookups : List (Except Err Int64) → Int64 → Bool × Int64
  | [], o => (false, o)
  | .ok o :: _, _ => (true, o)
  | .error _ :: as, _ => initLookups as (-1)

/-- simple_consumer.go:342-372: the position `Consume` starts from.  `committed` is what the coordinator has for
the group (negative if nothing). -/
def consumeStart (mode : CommitMode) (offset : Int64) (committed : Int64) (answers : List (Except Err Int64))
    (fetchMaxBytes : Int32) : SC :=
  let offset := if mode ≠ .none ∧ (offset = -1 ∨ offset = -2) ∧ committed ≥ 0 then committed else offset
  if offset = -1 ∨ offset = -2 then
    { offset := (initLookups answers offset).2, fromBeginning := decide (offset = -2), fetchMaxBytes
      stop := !(initLookups answers offset).1, cancelled := !(initLookups answers offset).1 }
  else { offset, fetchMaxBytes }

/-- simple_consumer.go:147-178 `getLeaderBroker`: the broker object for the partition's leader.  When it cannot be
made, line 171 logs the address of the cached object of the leader: a nil pointer if there is none. -/
def getLeaderBroker {W : Type} (net : Net W) (topic : Bytes) (pid : Int32) (b : Brokers W) : Out (Nat × Int32) × Brokers W :=
  match Brokers.findLeader net topic pid b with
  | (.panic, b) => (.panic, b)
  | (.err e, b) => (.err (.wrapped e), b)
  | (.ok leader, b) =>
    if leader = -1 then (.err (.other "not leader found"), b) else
    match Brokers.newBroker net leader b with
    | (.ok h, b) => (.ok h, b)
    | (.error e, b) =>
      match b.cache.get leader with
      | some _ => (.err e, b)
      | none => (.panic, b)

end Healer
