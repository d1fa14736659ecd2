import Verif.Model.Brokers
import Verif.Model.Builders
import Verif.Model.Producer
import Verif.Model.Fetch

/-!
# The command-line tools and the HTTP server (command/healer/cmd)

What the tools compute and send, over the brokers of Model/Brokers.lean.  Flags are arguments; printing is the value returned.
Requests the registry does not know of are parameters, acting on the same state (`fetch`, `commit`).
-/

namespace Healer

/-! ## Text -/

/-- `strings.Split(s, sep)` for a separator of one byte -/
def splitAt (sep : UInt8) : Bytes → List Bytes
  | [] => [[]]
  | c :: cs =>
    if c = sep then [] :: splitAt sep cs
    else match splitAt sep cs with
      | [] => [[c]]
      | w :: ws => (c :: w) :: ws

/-- the value of a string of decimal digits, which must not be empty -/
def digitsOf (s : Bytes) : Option Nat :=
  if s = [] then none
  else if s.all (fun c => 48 ≤ c && c ≤ 57) then some (s.foldl (fun n c => 10 * n + (c.toNat - 48)) 0)
  else none

/-- an optional sign and digits -/
def signedOf : Bytes → Option Int
  | 45 :: s => (digitsOf s).map fun n => -Int.ofNat n
  | 43 :: s => (digitsOf s).map Int.ofNat
  | s => (digitsOf s).map Int.ofNat

/-- `strconv.Atoi`: decimal, optional sign, 64 bits -/
def atoi (s : Bytes) : Option Int64 :=
  (signedOf s).bind fun v => if -2 ^ 63 ≤ v ∧ v < 2 ^ 63 then some (Int64.ofInt v) else none

/-- the node ids of one partition, separated by colons: create-topic.go:96-102, create-partitions.go:18-24 -/
def parseNodes (s : Bytes) : Option (List Int32) := (splitAt 58 s).mapM fun n => (atoi n).map Int64.toInt32

/-- create-partitions.go:12-27 `genPartitionAssignments`: the loop, with the position in the list and what was appended so far.
Writing to a place beyond the end panics. -/
def genAssignmentsLoop : Nat → List Bytes → List (List Int32) → Out (List (List Int32))
  | _, [], acc => .ok acc
  | i, s :: ss, acc =>
    if s = [] then genAssignmentsLoop (i + 1) ss acc
    else match parseNodes s with
      | none => if i ≤ acc.length then .err (.other "failed to convert to int") else
        -- the first number, if there is one, is stored before the bad one is found
        match (splitAt 58 s).head?.bind atoi with
        | none => .err (.other "failed to convert to int")
        | some _ => .panic
      | some ns => if i ≤ acc.length then genAssignmentsLoop (i + 1) ss ((acc ++ [[]]).modify i (· ++ ns)) else .panic

/-- create-partitions.go:12-27 `genPartitionAssignments` -/
def genPartitionAssignments (s : Bytes) : Out (List (List Int32)) := genAssignmentsLoop 0 (splitAt 44 s) []

/-- create-topic.go:93-103: the map from partition to nodes -/
def parseReplicaAssignment (s : Bytes) : Option (List (List Int32)) := (splitAt 44 s).mapM parseNodes

/-- create-topic.go:109-111: add the assignments in the order of the map; what `AddReplicaAssignment` returns is dropped -/
def addAssignments (topic : Bytes) : List (Int32 × List Int32) → CreateTopicsRequest → CreateTopicsRequest
  | [], r => r
  | (pid, nodes) :: rest, r =>
    addAssignments topic rest (match r.addReplicaAssignment topic pid nodes with
      | .ok r => r
      | .error _ => r)

/-- create-topic.go:91-111: the request made for `--replica-assignment s`; partitions and replication factor are -1 (lines 48-54);
`order` is the order in which the map is visited -/
def createTopicRequestOf (topic s : Bytes) (timeout : UInt32) (order : List (Int32 × List Int32) → List (Int32 × List Int32)) :
    Option CreateTopicsRequest :=
  (parseReplicaAssignment s).map fun l =>
    addAssignments topic (order (l.mapIdx fun i nodes => (Int32.ofNat i, nodes)))
      { createTopicRequests := [{ topic := topic, numPartitions := -1, replicationFactor := -1 }], timeout := timeout }

/-! ## simple-producer, console-producer -/

/-- simple-producer.go:54-62: each line is in the scanner's buffer (slice 0 of the caller) when `AddMessage` is called; `Close` at the end.
`answers` says what each call makes of the produce request it may send; flushes by the timer can come at any time (`ticks`). -/
def pipeLines : List (Bytes × List (Option Err) × Option Err) → List ProducerAct
  | [] => []
  | (line, ticks, answer) :: rest => .write 0 line :: ticks.map .flush ++ .add none 0 answer :: pipeLines rest

/-! ## simple-consumer -/

/-- What simple-consumer prints: the messages, or the error it stops with. -/
inductive Printed where
  | message (m : Message)
  | failed (e : Err)
deriving DecidableEq, Repr

/-- simple-consumer.go:80-104: the loop, on the messages the channel delivers; `none` when it waits for a message that does not come.  A message without error and without
`Message` would crash it; the consumer hands over none (Model/Consumer.lean). -/
def printLoop (stop : Int64) : Nat → List FullMessage → List Printed × Option Unit
  | 0, _ => ([], some ())
  | _ + 1, [] => ([], none)
  | n + 1, x :: xs =>
    match x.error, x.message with
    | some e, _ => ([.failed e], some ())
    | none, none => ([], none)
    | none, some m =>
      if stop > 0 ∧ m.offset ≥ stop then ([], some ())
      else
        let r := printLoop stop n xs
        (.message m :: r.1, r.2)

/-! ## get-pending, reset-offset -/

/-- the entries of the answers, with the offset of each: get-pending.go:57-63, reset-offset.go:53-58.  An answer has one topic, so the order of the map
plays no role. -/
def offsetsOf : List PartitionOffset → Out (List (Int32 × Int64))
  | [] => .ok []
  | e :: es => do
    let o ← e.getOffset
    let rest ← offsetsOf es
    .ok ((e.partition, o) :: rest)

/-- `m[k] = v` for each entry -/
def setAll {κ υ : Type} [DecidableEq κ] (l : List (κ × υ)) (m : AMap κ υ) : AMap κ υ := l.foldl (fun m e => m.set e.1 e.2) m

/-- the map from partition to offset -/
def offsetMap (rs : List OffsetsResponse) : Out (AMap Int32 Int64) := do
  let l ← offsetsOf (rs.flatMap fun r => r.topicPartitionOffsets.flatMap Prod.snd)
  .ok (setAll l [])

/-- get-pending.go:92-97: the map from partition to committed offset -/
def committedMap (r : OffsetFetchResponse) : AMap Int32 Int64 :=
  setAll ((r.topics.flatMap Prod.snd).map fun p => (p.partitionID, p.offset)) []

/-- a line of get-pending, or an element of the HTTP answer -/
structure PendingRow where
  partition : Int32
  offset : Int64
  committed : Int64
  lag : Int64
deriving DecidableEq, Repr

/-- get-pending.go:212-222: a missing entry of a map is 0 -/
def pendingRow (offsets committed : AMap Int32 Int64) (p : Int32) : PendingRow :=
  let o := (offsets.get p).getD 0
  let c := (committed.get p).getD 0
  ⟨p, o, c, if o = -1 then 0 else o - c⟩

/-- get-pending.go:216-218: the line of totals -/
def totals (rows : List PendingRow) : Int64 × Int64 × Int64 :=
  rows.foldl (fun t r => (t.1 + r.offset, t.2.1 + r.committed, t.2.2 + r.lag)) (0, 0, 0)

namespace Brokers

variable {W : Type} (net : Net W)

/-- first one call, then another with its result, unless it failed or panicked -/
def andThen {α β : Type} (x : Out α × Brokers W) (f : α → Brokers W → Out β × Brokers W) : Out β × Brokers W :=
  match x with
  | (.ok a, b) => f a b
  | (.err e, b) => (.err e, b)
  | (.panic, b) => (.panic, b)

/-- get-pending.go:28-44 `getPartitions` -/
def getPartitions (topic : Bytes) (b : Brokers W) : Out (List Int32) × Brokers W :=
  match requestMetaData net [topic] b with
  | ((_, some e), b) => (.err e, b)
  | ((r, none), b) => (.ok (goSort (fun a b => decide (a ≤ b)) (r.topics.flatMap fun t => t.partitions.map PartitionMetadataInfo.partitionID)), b)

/-- get-pending.go:46-65 `getOffset` -/
def getOffset (topic : Bytes) (b : Brokers W) : Out (AMap Int32 Int64) × Brokers W :=
  andThen (requestOffsets net topic (-1) b) fun rs b => (offsetMap rs, b)

/-- get-pending.go:69-80: the broker of the group, found or remembered.  The cache of coordinators is global; it is left out, since each group is asked for once per run
except that the subscriptions were asked for before (line 271). -/
def coordinatorBroker (group : Bytes) (b : Brokers W) : Out Nat × Brokers W :=
  match findCoordinator net group b with
  | (.error e, b) => (.err e, b)
  | (.ok r, b) =>
    match getBroker net r.nodeID b with
    | (.error e, b) => (.err e, b)
    | (.ok h, b) => (.ok h.1, b)

/-- get-pending.go:82-87: the request for the committed offsets -/
def committedRequest (group topic : Bytes) (ps : List Int32) : OffsetFetchRequest :=
  ps.foldl (fun r p => r.addPartition topic p) { groupID := group }

/-- get-pending.go:68-99 `getCommittedOffset` -/
def getCommitted (fetch : Nat → OffsetFetchRequest → W → Except Err OffsetFetchResponse × W) (group topic : Bytes) (ps : List Int32) (b : Brokers W) :
    Out (AMap Int32 Int64) × Brokers W :=
  andThen (coordinatorBroker net group b) fun h b =>
    match fetch h (committedRequest group topic ps) b.world with
    | (.error e, w) => (.err e, { b with world := w })
    | (.ok r, w) => (.ok (committedMap r), { b with world := w })

/-- get-pending.go:181-229 `getPending`: the lines printed -/
def getPending (fetch : Nat → OffsetFetchRequest → W → Except Err OffsetFetchResponse × W) (group topic : Bytes) (b : Brokers W) :
    Out (List PendingRow) × Brokers W :=
  andThen (getOffset net topic b) fun offsets b =>
    andThen (getPartitions net topic b) fun ps b =>
      andThen (getCommitted net fetch group topic ps b) fun committed b =>
        (.ok (ps.map (pendingRow offsets committed)), b)

/-- What reset-offset sent to the coordinator: broker object, version and request. -/
abbrev Commit := Nat × UInt16 × OffsetCommitRequest

/-- reset-offset.go:21, 75-82: the version of the commit request.  `flags` are the flags given or declared with a default value;
reading a flag which is not declared gives the empty string and an error, which is dropped. -/
def resetVersion (flags : AMap Bytes Bytes) : UInt16 :=
  -- "offset.storage", "zookeeper"
  if (flags.get [111, 102, 102, 115, 101, 116, 46, 115, 116, 111, 114, 97, 103, 101]).getD [] = [122, 111, 111, 107, 101, 101, 112, 101, 114] then 0 else 2

/-- reset-offset.go:83-95: the commit request; `offsets` in the order in which the map is visited -/
def resetRequest (group topic : Bytes) (chosen : List Int32) (offsets : List (Int32 × Int64)) : OffsetCommitRequest :=
  (offsets.filter fun e => decide (chosen = []) || decide (e.1 ∈ chosen)).foldl (fun r e => r.addPartition topic e.1 e.2 [])
    { groupID := group, generationID := -1, memberID := [], retentionTime := -1 }

/-- reset-offset.go:43-59: the offsets for the timestamp; the error of any answer ends the tool -/
def resetOffsets (topic : Bytes) (b : Brokers W) : Out (AMap Int32 Int64) × Brokers W :=
  andThen (requestOffsets net topic (-1) b) fun rs b =>
    match rs.findSome? OffsetsResponse.error with
    | some e => (.err (.wrapped e), b)
    | none => (offsetMap rs, b)

/-- reset-offset.go:87-100: the commit, and what was sent -/
def resetCommit (commit : Commit → W → Option Err × W) (flags : AMap Bytes Bytes) (group topic : Bytes) (chosen : List Int32)
    (offsets : AMap Int32 Int64) (h : Nat) (b : Brokers W) : Out (List Commit) × Brokers W :=
  match order net offsets b with
  | (l, b) =>
    match commit (h, resetVersion flags, resetRequest group topic chosen l) b.world with
    | (none, w) => (.ok [(h, resetVersion flags, resetRequest group topic chosen l)], { b with world := w })
    | (some e, w) => (.err (.wrapped e), { b with world := w })

/-- reset-offset.go:15-102: the tool after its flags are read and the brokers are known: what was committed.  `net.offsets` answers for the timestamp given. -/
def resetOffset (commit : Commit → W → Option Err × W) (flags : AMap Bytes Bytes) (group topic : Bytes) (chosen : List Int32) (b : Brokers W) :
    Out (List Commit) × Brokers W :=
  match requestMetaData net [topic] b with
  | ((_, some e), b) => (.err (.wrapped e), b)
  | ((r, none), b) =>
    match r.error with
    | some e => (.err (.wrapped e), b)
    | none =>
      andThen (resetOffsets net topic b) fun offsets b =>
        andThen (coordinatorBroker net group b) fun h b => resetCommit net commit flags group topic chosen offsets h b

/-- cmd/apicontrollers/group.go:172-204: the rest of `GetPending`, given the offsets; partitions are not sorted -/
def httpRows (fetch : Nat → OffsetFetchRequest → W → Except Err OffsetFetchResponse × W) (group topic : Bytes) (offsets : AMap Int32 Int64) (b : Brokers W) :
    Out (Nat × List PendingRow) × Brokers W :=
  match requestMetaData net [topic] b with
  | ((_, some _), b) => (.ok (500, []), b)
  | ((r, none), b) =>
    let ps := r.topics.flatMap fun t => t.partitions.map PartitionMetadataInfo.partitionID
    match getCommitted net fetch group topic ps b with
    | (.ok committed, b) => (.ok (200, ps.map fun p =>
        ⟨p, (offsets.get p).getD 0, (committed.get p).getD 0, (offsets.get p).getD 0 - (committed.get p).getD 0⟩), b)
    | (.err _, b) => (.ok (500, []), b)
    | (.panic, b) => (.panic, b)

/-- cmd/apicontrollers/group.go:158-204 `GetPending` after the brokers are known: status and rows.  An error of `getOffset` is only logged, the map is then nil. -/
def httpPending (fetch : Nat → OffsetFetchRequest → W → Except Err OffsetFetchResponse × W) (group topic : Bytes) (b : Brokers W) :
    Out (Nat × List PendingRow) × Brokers W :=
  match getOffset net topic b with
  | (.panic, b) => (.panic, b)
  | (.ok offsets, b) => httpRows net fetch group topic offsets b
  | (.err _, b) => httpRows net fetch group topic [] b

end Brokers

end Healer
