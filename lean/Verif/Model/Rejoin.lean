import Verif.Model.Error
import Verif.Model.Response
import Verif.Model.GroupConsumer

/-!
# Joining a group, and staying in it (group_consumer.go:98-146, 170-318, 327-358, 497-515)

The requests which a group consumer sends to its coordinator, as a state machine driven by the answers.  `join`, `sync`,
`joinAndSync` and the loop around it (505-515) are laid out as positions between requests: each position has one outstanding
request, and the answer leads to the next position.  `heartbeat` and `commitOffset` come in while the consumer stands
still.  The stopping and starting of the partition consumers is in GroupConsumer.lean.  A crash in parsing the members'
metadata or in `Assign` is left out, and `c.coordinator` is a node id.
-/

namespace Healer

/-- `strings.Contains(s, t)` -/
def containsChars (t : List Char) : List Char → Bool
  | [] => t.isPrefixOf []
  | c :: s => t.isPrefixOf (c :: s) || containsChars t s

/-- `strings.Contains(s, t)` -/
def containsText (s t : String) : Bool := containsChars t.toList s.toList

/-- `strings.Contains(err.Error(), t)`, for texts `t` which no Kafka error and no error of this library has in its text;
wrapping keeps the text -/
def Err.says (t : String) : Err → Bool
  | .timeout => containsText "i/o timeout" t
  | .other s => containsText s t
  | .wrapped e => e.says t
  | _ => false

/-- group_consumer.go:194-207: the errors of a join request after which the coordinator is looked up again -/
def joinLoses (e : Err) : Bool :=
  e.is .eof || e.is (.kafka 15) || e.is (.kafka 16) || e.says "connection refused" || e.says "network is unreachable"
    || e.says "i/o timeout"

/-- group_consumer.go:245: the errors of a sync request after which the coordinator is looked up again -/
def syncLoses (e : Err) : Bool := e.is (.kafka 15) || e.is (.kafka 16)

/-- A request sent, with the node it goes to. -/
inductive GroupReq where
  /-- `FindCoordinator` and `GetBroker` (group_consumer.go:133-138) -/
  | find
  | join (node : Int32) (member : Bytes)
  /-- `RequestMetaData` by the leader (group_consumer.go:116) -/
  | metadata
  /-- `what`: the members and topics given to `Assign`, `none` if the assignment is nil -/
  | sync (node : Int32) (generation : Int32) (member : Bytes) (what : Option (List Member × List TopicMetadata))
  | heartbeat (node : Int32) (generation : Int32) (member : Bytes)
  | commit (node : Int32) (generation : Int32) (member : Bytes)
deriving DecidableEq, Repr

/-- What came back. -/
inductive GroupAns where
  | found (node : Int32)
  | joined (r : JoinGroupResponse)
  | topics (ts : List TopicMetadata)
  /-- the assignment in the answer; `good`: `NewMemberAssignment` accepts it -/
  | synced (good : Bool)
  | fine
  | failed (e : Err)
deriving DecidableEq, Repr

/-- What is seen from outside. -/
inductive GroupSeen where
  | exchange (q : GroupReq) (a : GroupAns)
  /-- `time.Sleep` of `retry.backoff.ms`, or of a second between metadata requests -/
  | pause
deriving DecidableEq, Repr

/-- The request a group consumer waits for. -/
inductive RejoinAt where
  | finding
  | joining
  | asking
  | syncing
  /-- joined, or closed -/
  | still
deriving DecidableEq, Repr

/-- group_consumer.go:14-50 `GroupConsumer`: the fields concerned with membership -/
structure Membership where
  pos : RejoinAt := .finding
  closed : Bool := false
  joined : Bool := false
  available : Bool := false
  node : Int32 := 0
  memberID : Bytes := []
  generationID : Int32 := 0
  ifLeader : Bool := false
  members : List Member := []
  topics : List TopicMetadata := []
  log : List GroupSeen := []
deriving DecidableEq, Repr

/-- What happens. -/
inductive RejoinAct where
  /-- the answer to the outstanding request -/
  | answer (a : GroupAns)
  /-- a heartbeat is sent and answered (group_consumer.go:307-318); an error restarts the consumer (482-485) -/
  | heartbeat (a : GroupAns)
  /-- a commit is sent and answered (group_consumer.go:327-358) -/
  | commit (a : GroupAns)
  /-- the metadata has changed and the leader restarts (group_consumer.go:456-460) -/
  | restart (ts : List TopicMetadata)
  /-- `c.closed = true` in `AwaitClose` (group_consumer.go:414) -/
  | close
deriving DecidableEq, Repr

namespace Membership

def note (x : List GroupSeen) (s : Membership) : Membership := { s with log := s.log ++ x }

/-- group_consumer.go:264-277, 506: the top of the loops.  When the consumer is closed, `c.joined` may be set afterwards or not
(517-523); nothing here looks at it any more. -/
def top (s : Membership) : Membership :=
  if s.closed then { s with pos := .still }
  else if s.available then { s with pos := .joining }
  else { s with pos := .finding }

/-- group_consumer.go:293-302, 508-512: after an error, wait unless it is one of three codes, and go round -/
def retry (e : Err) (s : Membership) : Membership :=
  if e.is (.kafka 22) || e.is (.kafka 25) || e.is (.kafka 27) then s.top else (s.note [.pause]).top

/-- group_consumer.go:132-146, 265-273: after `getCoordinator` -/
def afterFind (a : GroupAns) (s : Membership) : Option Membership :=
  match a with
  | .found n => some (({ s with available := true, node := n } : Membership).note [.exchange .find a]).top
  | .failed _ => some (s.note [.exchange .find a, .pause]).top
  | _ => none

/-- group_consumer.go:212-222: a join succeeded -/
def enter (r : JoinGroupResponse) (s : Membership) : Membership :=
  { s with generationID := r.generationID, memberID := r.memberID, ifLeader := decide (r.leaderID = r.memberID)
           members := if r.leaderID = r.memberID then r.members else s.members }

/-- group_consumer.go:281-287: after a join that succeeded; the leader goes on to ask for metadata (229-230) -/
def proceed (s : Membership) : Membership :=
  if s.closed then s.top else if s.ifLeader then { s with pos := .asking } else { s with pos := .syncing }

/-- group_consumer.go:187-210: a join failed -/
def refuse (e : Err) (s : Membership) : Membership :=
  { s with memberID := if e.is (.kafka 25) then [] else s.memberID
           available := if joinLoses e then false else s.available }

/-- group_consumer.go:171-224, 279-287 -/
def afterJoin (a : GroupAns) (s : Membership) : Option Membership :=
  let q := GroupReq.join s.node s.memberID
  match a with
  | .joined r => some ((s.note [.exchange q a]).enter r).proceed
  | .failed e =>
    let s := (s.note [.exchange q a]).refuse e
    some (if s.closed then s.top else s.retry e)
  | _ => none

/-- group_consumer.go:115-127: the leader asks for metadata until it gets an answer or is closed.  When it is closed after a failure, the code goes on with the topics
of the failed answer, if that had any; here with none.  A consumer closed before the first request does not send it; here it does. -/
def afterMetadata (a : GroupAns) (s : Membership) : Option Membership :=
  match a with
  | .topics ts => some { s.note [.exchange .metadata a] with topics := ts, pos := .syncing }
  | .failed _ =>
    let s := s.note [.exchange .metadata a, .pause]
    some (if s.closed then { s with topics := [], pos := .syncing } else s)
  | _ => none

/-- group_consumer.go:243-252: a sync failed -/
def unsynced (e : Err) (s : Membership) : Membership :=
  { s with available := if syncLoses e then false else s.available
           memberID := if e.is (.kafka 25) then [] else s.memberID }

/-- group_consumer.go:226-260, 285-291; an assignment which cannot be read is an error which is no Kafka error -/
def afterSync (a : GroupAns) (s : Membership) : Option Membership :=
  let q := GroupReq.sync s.node s.generationID s.memberID (if s.ifLeader then some (s.members, s.topics) else none)
  match a with
  | .synced true => some { s.note [.exchange q a] with pos := .still, joined := true }
  | .synced false => some ((s.note [.exchange q a]).retry (.wrapped (.other "assignment")))
  | .failed e => some (((s.note [.exchange q a]).unsynced e).retry e)
  | _ => none

/-- group_consumer.go:360-370: everything stops, and the group is joined again -/
def again (s : Membership) : Membership := ({ s with joined := false } : Membership).top

def step (act : RejoinAct) (s : Membership) : Option Membership :=
  match act with
  | .answer a => match s.pos with
    | .finding => s.afterFind a
    | .joining => s.afterJoin a
    | .asking => s.afterMetadata a
    | .syncing => s.afterSync a
    | .still => none
  | .heartbeat a =>
    if s.joined && decide (s.pos = .still) && !s.closed then
      match a with
      | .fine => some (s.note [.exchange (.heartbeat s.node s.generationID s.memberID) a])
      | .failed _ => some (s.note [.exchange (.heartbeat s.node s.generationID s.memberID) a]).again
      | _ => none
    else none
  | .commit a =>
    if s.memberID = [] then some s
    else match a with
      | .fine | .failed _ => some (s.note [.exchange (.commit s.node s.generationID s.memberID) a])
      | _ => none
  | .restart ts =>
    if s.joined && decide (s.pos = .still) && !s.closed && s.ifLeader then some ({ s with topics := ts } : Membership).again else none
  | .close => some { s with closed := true }

def run : List RejoinAct → Membership → Option Membership
  | [], s => some s
  | a :: as, s => match s.step a with
    | some s' => run as s'
    | none => none

end Membership

end Healer
