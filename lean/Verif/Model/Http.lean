import Verif.Go.Basic
import Verif.Model.Error

/-!
The handlers of the HTTP API (command/healer/cmd/apicontrollers).  The calls of the library are modelled elsewhere; here their results are given, and what the handlers make of
them is modelled: the status and the body that reach the caller, and whether Kafka was asked to do what the request names.

gin (v1.10.0), from its documentation and source: the first status that is written with a body or with an abort is the one sent, later ones only give a warning in the log;
bodies written one after the other are sent one after the other; `BindJSON` itself aborts with 400 when it fails; the middleware `Recovery`, part of `gin.Default()` (api.go:95),
turns a panic of a handler into an abort with 500.
-/

namespace Healer

/-- A piece of the body of an answer: the text of an error, or the JSON of a result. -/
inductive Piece (α : Type) where
  | text (e : Err)
  | json (a : α)
deriving DecidableEq, Repr

/-- An answer under construction.  `asked` says that Kafka was asked for what the request names, `left` that connections opened for the request stay open after it. -/
structure Web (α : Type) where
  status : Option Nat := none
  body : List (Piece α) := []
  asked : Bool := false
  left : Bool := false
deriving DecidableEq, Repr

namespace Web

variable {α : Type}

/-- gin: `c.AbortWithStatus`; also what `Recovery` does with 500 -/
def abort (code : Nat) (w : Web α) : Web α := { w with status := some (w.status.getD code) }

/-- gin: `c.String` with the text of an error -/
def string (code : Nat) (e : Err) (w : Web α) : Web α := { w.abort code with body := w.body ++ [.text e] }

/-- gin: `c.JSON` -/
def json (code : Nat) (a : α) (w : Web α) : Web α := { w.abort code with body := w.body ++ [.json a] }

/-- the call that the request is for -/
def ask (w : Web α) : Web α := { w with asked := true }

/-- brokers were opened, to be closed by a `defer` (which runs after a panic, too) or not -/
def opened (closing : Bool) (w : Web α) : Web α := { w with left := !closing }

end Web

/-- What `BindJSON` says: the body is fine, empty (`io.EOF`), or not what was expected.  In the last two cases it has aborted with 400. -/
inductive BodyRead where
  | ok
  | empty
  | bad (e : Err)
deriving DecidableEq, Repr

/-- the error of `BindJSON` -/
def BodyRead.error : BodyRead → Option Err
  | .ok => none
  | .empty => some .eof
  | .bad e => some e

variable {α : Type}

/-- the last lines of most handlers: the error with 500, or the result with 200 -/
def finish (call : Except Err α) (w : Web α) : Web α :=
  match call with
  | .error e => w.ask.string 500 e
  | .ok a => w.ask.json 200 a

/-- apicontrollers/configs.go:38-56 `GetConfigs`, topic.go:155-173 `GetTopicLogDirs`: with a client that is closed in the end -/
def clientHandler (client : Except Err Unit) (call : Except Err α) : Web α :=
  match client with
  | .error e => Web.string 500 e {}
  | .ok _ => finish call (Web.opened true {})

/-- apicontrollers/group.go:20-36 `ListGroups`: the client is not closed -/
def listGroupsHandler (client : Except Err Unit) (call : Except Err α) : Web α :=
  match client with
  | .error e => Web.string 500 e {}
  | .ok _ => finish call (Web.opened false {})

/-- apicontrollers/acl.go:20-42 `DescribeAcls`, 53-75 `DeleteAcls`, 86-108 `CreateAcls` -/
def aclHandler (body : BodyRead) (client : Except Err Unit) (call : Except Err α) : Web α :=
  match body.error with
  | some e => (Web.abort 400 {}).string 400 e
  | none => clientHandler client call

/-- apicontrollers/create-partitions.go:23-57 `CreatePartitions` -/
def createPartitionsHandler (brokers : Except Err Unit) (body : BodyRead) (controller : Except Err Unit) (call : Except Err α) : Web α :=
  match brokers with
  | .error e => Web.string 500 e {}
  | .ok _ =>
    match body.error with
    | some e => ((Web.opened true {}).abort 400).string 400 e
    | none =>
      match controller with
      | .error e => (Web.opened true {}).string 500 e
      | .ok _ => finish call (Web.opened true {})

/-- apicontrollers/elect-leader.go:23-65 `ElectLeaders`; `timeout` is what `strconv.Atoi` says of the parameter -/
def electLeadersHandler (body : BodyRead) (timeout : Except Err Unit) (brokers : Except Err Unit) (call : Except Err α) : Web α :=
  match body.error with
  | some e => (Web.abort 400 {}).string 400 e
  | none =>
    match timeout with
    | .error e => Web.string 400 e {}
    | .ok _ => clientHandler brokers call

/-- apicontrollers/partition-reassignments.go:84-124 `AlterPartitionReassignments` -/
def alterReassignmentsHandler (timeout : Except Err Unit) (brokers : Except Err Unit) (body : BodyRead) (call : Except Err α) : Web α :=
  match timeout with
  | .error e => Web.string 400 e {}
  | .ok _ =>
    match brokers with
    | .error e => Web.string 500 e {}
    | .ok _ =>
      match body.error with
      | some e => ((Web.opened true {}).abort 400).string 400 e
      | none => finish call (Web.opened true {})

/-- apicontrollers/topic.go:108-143 `GetTopicOffsets`; `timestamp` is what `strconv.ParseInt` says of the parameter -/
def topicOffsetsHandler (brokers : Except Err Unit) (timestamp : Except Err Unit) (call : Except Err α) : Web α :=
  match brokers with
  | .error e => Web.string 500 e {}
  | .ok _ =>
    match timestamp with
    | .error e => (Web.opened true {}).string 400 e
    | .ok _ => finish call (Web.opened true {})

/-- apicontrollers/metadata.go:21-41 `GetMetadata`.  The call gives an answer and an error; an error of Kafka's is left to the answer to tell. -/
def metadataHandler (isKafka : Err → Bool) (brokers : Except Err Unit) (call : α × Option Err) : Web α :=
  match brokers with
  | .error e => Web.string 500 e {}
  | .ok _ =>
    match call.2 with
    | none => (Web.opened true {}).ask.json 200 call.1
    | some e => if isKafka e then (Web.opened true {}).ask.json 200 call.1 else (Web.opened true {}).ask.string 500 e

/-- apicontrollers/topic.go:24-55 `GetTopicConfig`, 69-94 `AlterTopicConfig`.  After an error of `GetBroker` the handler goes on with a nil broker and panics. -/
def topicConfigHandler (brokers : Except Err Unit) (controller : Except Err Unit) (call : Except Err α) : Web α :=
  match brokers with
  | .error e => Web.string 500 e {}
  | .ok _ =>
    match controller with
    | .error e => ((Web.opened true {}).string 500 e).abort 500
    | .ok _ => finish call (Web.opened true {})

/-- apicontrollers/describe-logdirs.go:36-42: the call, its error if any, and the result in any case -/
def describeLogdirsRest (call : α × Option Err) (w : Web α) : Web α :=
  match call.2 with
  | none => w.ask.json 200 call.1
  | some e => (w.ask.string 500 e).json 200 call.1

/-- apicontrollers/describe-logdirs.go:21-43 `DescribeLogdirs`.  Without client it goes on: the body is read, and the call panics since the client has no brokers. -/
def describeLogdirsHandler (client : Except Err Unit) (body : BodyRead) (call : α × Option Err) : Web α :=
  match client with
  | .error e =>
    match body.error with
    | some e' => ((Web.string 500 e {}).abort 400).string 400 e'
    | none => (Web.string 500 e {}).abort 500
  | .ok _ =>
    match body.error with
    | some e' => ((Web.opened false {}).abort 400).string 400 e'
    | none => describeLogdirsRest call (Web.opened false {})

/-- apicontrollers/group.go:69-76: the group is described by the broker found.  The result is a response, which is nil after a failed exchange, and an error;
the type assertion on a nil response panics. -/
def describeGroupsRest (r : Option α × Option Err) (w : Web α) : Web α :=
  let w := match r.2 with | none => w.ask | some e => w.ask.string 500 e
  match r.1 with
  | none => w.abort 500
  | some a => w.json 200 a

/-- apicontrollers/group.go:62-67: the broker of the node given; without one the handler goes on with a nil broker and panics -/
def describeGroupsAt (getBroker : Int32 → Except Err Nat) (describe : Nat → Option α × Option Err) (node : Int32) (w : Web α) : Web α :=
  match getBroker node with
  | .error e => (w.string 500 e).abort 500
  | .ok h => describeGroupsRest (describe h) w

/-- apicontrollers/group.go:48-77 `DescribeGroups`.  No error ends it: without brokers it panics; without coordinator it goes on with node 0, the zero value of the answer. -/
def describeGroupsHandler (brokers : Except Err Unit) (find : Except Err Int32) (getBroker : Int32 → Except Err Nat) (describe : Nat → Option α × Option Err) : Web α :=
  match brokers with
  | .error e => (Web.string 500 e {}).abort 500
  | .ok _ =>
    match find with
    | .error e => describeGroupsAt getBroker describe 0 ((Web.opened false {}).string 500 e)
    | .ok node => describeGroupsAt getBroker describe node (Web.opened false {})

/-- apicontrollers/partition-reassignments.go:53-71: the rest of `ListPartitionReassignments`.  An empty body is not an error for it, but `BindJSON` has aborted by then. -/
def listReassignmentsRest (body : BodyRead) (call : Except Err α) (w : Web α) : Web α :=
  match body with
  | .ok => finish call w
  | .empty => finish call (w.abort 400)
  | .bad e => (w.abort 400).string 400 e

/-- apicontrollers/partition-reassignments.go:23-72 `ListPartitionReassignments`.  Without client it goes on: the body is read, and the call panics; `timeout` is the
parameter, which may be missing. -/
def listReassignmentsHandler (timeout : Option (Except Err Unit)) (client : Except Err Unit) (body : BodyRead) (call : Except Err α) : Web α :=
  match timeout with
  | some (.error e) => Web.string 400 e {}
  | _ =>
    match client with
    | .error e =>
      match body with
      | .bad e' => ((Web.string 500 e {}).abort 400).string 400 e'
      | _ => (Web.string 500 e {}).abort 500
    | .ok _ => listReassignmentsRest body call (Web.opened true {})

end Healer
