import Verif.Model.Brokers
import Verif.Model.Response2
import Verif.Model.Builders

/-!
# The admin client (client.go)

Built on the set of brokers of Model/Brokers.lean.  A request to a single broker is a parameter again: what the
broker object returns from `ReadAndParse`, an error or a response.  `Client.ListGroups` is in Model/Brokers.lean.
-/

namespace Healer

/-- broker.go:253-262: what `RequestAndGet` makes of it; the response is nil if there was none -/
def answerOf {R : Type} (error : R → Option Err) : Except Err R → Option R × Option Err
  | .error e => (none, some e)
  | .ok r => (some r, error r)

namespace Client

variable {W : Type} (net : Net W)

/-! ## Requests to the controller -/

/-- brokers.go:109-111 `GetController` -/
def getController (b : Brokers W) : Except Err (Nat × Int32) × Brokers W := Brokers.getBroker net b.controllerID b

/-- client.go:164-249, 299-355, 390-401, brokers.go:334-357: a request to the controller.  An error is returned in any
case (in brokers.go with more text); `none` stands for the zero value or nil. -/
def viaController {R : Type} (error : R → Option Err) (ask : Nat → W → Except Err R × W) (b : Brokers W) :
    Out (Option R × Option Err) × Brokers W :=
  match getController net b with
  | (.error e, b) => (.ok (none, some e), b)
  | (.ok h, b) =>
    match answerOf error (ask h.1 b.world).1 with
    | (_, some e) => (.ok (none, some e), { b with world := (ask h.1 b.world).2 })
    | (r, none) => (.ok (r, none), { b with world := (ask h.1 b.world).2 })

/-- client.go:149-161 `DeleteTopics`: the type assertion of the last line comes before the error is looked at; it panics if
the response is nil -/
def deleteTopics (ask : Nat → W → Except Err TopicErrorsResponse × W) (b : Brokers W) :
    Out (Option TopicErrorsResponse × Option Err) × Brokers W :=
  match getController net b with
  | (.error e, b) => (.ok (none, some e), b)
  | (.ok h, b) =>
    match answerOf (fun r : TopicErrorsResponse => firstKafkaErr (r.topicErrors.map Prod.snd)) (ask h.1 b.world).1 with
    | (none, _) => (.panic, { b with world := (ask h.1 b.world).2 })
    | (some r, e) => (.ok (some r, e), { b with world := (ask h.1 b.world).2 })

/-! ## Deleting groups -/

/-- What `DeleteGroups` did for a group. -/
inductive GroupDone where
  /-- a broker said that the node coordinates the group -/
  | found (group : Bytes) (node : Int32)
  /-- a request to delete this group was sent to the broker object got for the node; and what came back -/
  | asked (node : Int32) (broker : Nat) (group : Bytes) (answer : Except Err DeleteGroupsResponse)

/-- client.go:261-289: the loop of `DeleteGroups` -/
def deleteGroupsLoop (ask : Nat → Bytes → W → Except Err DeleteGroupsResponse × W) :
    List Bytes → List (Bytes × Int16) → List GroupDone → Brokers W → (Except Err (List (Bytes × Int16)) × List GroupDone) × Brokers W
  | [], results, log, b => ((.ok results, log), b)
  | g :: gs, results, log, b =>
    match Brokers.findCoordinator net g b with
    | (.error e, b) => ((.error (.wrapped e), log), b)
    | (.ok c, b) =>
      match Brokers.getBroker net c.nodeID b with
      | (.error e, b) => ((.error (.wrapped e), log ++ [.found g c.nodeID]), b)
      | (.ok h, b) =>
        let answer := (ask h.1 g b.world).1
        let log := log ++ [.found g c.nodeID, .asked c.nodeID h.1 g answer]
        let b := { b with world := (ask h.1 g b.world).2 }
        match answerOf DeleteGroupsResponse.error answer with
        | (some r, none) => deleteGroupsLoop ask gs (results ++ r.results) log b
        | (_, some e) => ((.error (.wrapped e), log), b)
        | (none, none) => ((.error (.other "not reached"), log), b)

/-- client.go:252-297 `DeleteGroups`: the results -/
def deleteGroups (ask : Nat → Bytes → W → Except Err DeleteGroupsResponse × W) (groups : List Bytes) (b : Brokers W) :
    (Except Err (List (Bytes × Int16)) × List GroupDone) × Brokers W :=
  deleteGroupsLoop net ask groups [] [] b

/-! ## Log dirs -/

/-- client.go:77-97: the partitions of which each node has a replica, in the order of the metadata -/
def brokerPartitions (ts : List TopicMetadata) : AMap Int32 (List (Bytes × Int32)) :=
  ts.foldl (fun m t => t.partitions.foldl (fun m p => p.replicas.foldl (fun m n =>
    AMap.set m n ((AMap.get m n).getD [] ++ [(t.name, p.partitionID)])) m) m) []

/-- client.go:104-107: the request for a node -/
def logDirsRequest (tps : List (Bytes × Int32)) : List TopicPids := tps.foldl (fun l tp => addLogDirsTopicPartition tp.1 tp.2 l) []

/-- client.go:123-143: what is kept of a response.  `rs[i].Topics` is replaced in the array `resp` refers to as well;
`r.Results` is replaced only in the copy `r`, and `resp` is what is returned. -/
def keepTopics (topics : List Bytes) (r : DescribeLogDirsResponse) : DescribeLogDirsResponse :=
  { r with results := r.results.map fun res => { res with topics := res.topics.filter fun t => t.1 ∈ topics } }

/-- client.go:102-144: the loop over the nodes -/
def logDirsLoop (ask : Nat → List TopicPids → W → Except Err DescribeLogDirsResponse × W) (topics : List Bytes) :
    List (Int32 × List (Bytes × Int32)) → AMap Int32 DescribeLogDirsResponse → Brokers W →
      Except Err (AMap Int32 DescribeLogDirsResponse) × Brokers W
  | [], acc, b => (.ok acc, b)
  | (n, tps) :: rest, acc, b =>
    match Brokers.getBroker net n b with
    | (.error e, b) => (.error e, b)
    | (.ok h, b) =>
      let answer := ask h.1 (logDirsRequest tps) b.world
      match answerOf DescribeLogDirsResponse.error answer.1 with
      | (some r, none) => logDirsLoop ask topics rest (AMap.set acc n (keepTopics topics r)) { b with world := answer.2 }
      | _ => logDirsLoop ask topics rest acc { b with world := answer.2 }

/-- client.go:65-147 `DescribeLogDirs` -/
def describeLogDirs (ask : Nat → List TopicPids → W → Except Err DescribeLogDirsResponse × W) (topics : List Bytes) (b : Brokers W) :
    Except Err (AMap Int32 DescribeLogDirsResponse) × Brokers W :=
  match Brokers.requestMetaData net topics b with
  | ((_, some e), b) => (.error e, b)
  | ((r, none), b) =>
    match Brokers.order net (brokerPartitions r.topics) b with
    | (bps, b) => logDirsLoop net ask topics bps [] b

end Client

end Healer
