import Verif.Model.Request2
import Verif.Model.Metadata
import Verif.Model.Brokers

/-!
# The producers

`SimpleProducer` (simple_producer.go) buffers the messages for one partition; `Producer` (producer.go) chooses the
partition.  `AddMessage`, `Flush` and `Close` of a `SimpleProducer` hold its mutex from beginning to end, so each
is one step here; so is a tick of the flush timer, which calls `Flush` (simple_producer.go:115-126).  A tick can be
waiting for the mutex while `Close` holds it, so it can also come after `Close`.

A key is kept as the caller's slice, a value is copied.  To be able to see the difference, byte slices of the
caller are addresses into a memory which the caller can write to at any time.
-/

namespace Healer

/-- record.go:30-39, as filled in by simple_producer.go:143-150: the key is the caller's slice (`none`: nil), the value
a copy. -/
structure Buffered where
  key : Option Nat
  value : Bytes
deriving DecidableEq, Repr

/-- A message as it is in the memory at some time. -/
structure KV where
  key : Option Bytes
  value : Bytes
deriving DecidableEq, Repr

/-- What can be seen from outside. -/
inductive Produced where
  /-- a call of `AddMessage` with these contents, and what it returned -/
  | added (m : KV) (result : Option Err)
  /-- a produce request with these messages, and what `flush` returned -/
  | sent (ms : List KV) (result : Option Err)
  /-- a call of `Flush` returned -/
  | flushed (result : Option Err)
  /-- `Close` returned -/
  | closed
deriving DecidableEq, Repr

/-- simple_producer.go:14-35 `SimpleProducer` with the caller's memory; the fields which do not change are left out.
`once` and `closed` are set together. -/
structure SP where
  records : List Buffered := []
  closed : Bool := false
  mem : Nat → Bytes := fun _ => []
  log : List Produced := []

/-- A step: a call by the user or the timer, with what the broker's answer makes of the produce request (if one is
sent), or a write to a slice of the caller. -/
inductive ProducerAct where
  | add (key : Option Nat) (value : Nat) (answer : Option Err)
  | flush (answer : Option Err)
  | close (answer : Option Err)
  | write (slice : Nat) (content : Bytes)
deriving DecidableEq, Repr

/-- the contents of a record when it is encoded (record.go:41-134) -/
def Buffered.kv (mem : Nat → Bytes) (b : Buffered) : KV := ⟨b.key.map mem, b.value⟩

/-- simple_producer.go:132-158 `AddMessage`.  What `flush` returns is dropped (line 155). -/
def SP.addMessage (max : Int) (key : Option Nat) (value : Nat) (answer : Option Err) (p : SP) : SP :=
  let m : KV := ⟨key.map p.mem, p.mem value⟩
  if p.closed then { p with log := p.log ++ [.added m (some .producerClosed)] }
  else
    let records := p.records ++ [⟨key, p.mem value⟩]
    if (records.length : Int) ≥ max then
      { p with records := [], log := p.log ++ [.sent (records.map (Buffered.kv p.mem)) answer, .added m none] }
    else { p with records := records, log := p.log ++ [.added m none] }

/-- simple_producer.go:161-171 `Flush` -/
def SP.flushAll (answer : Option Err) (p : SP) : SP :=
  if p.records.length > 0 then
    { p with records := [], log := p.log ++ [.sent (p.records.map (Buffered.kv p.mem)) answer, .flushed answer] }
  else { p with log := p.log ++ [.flushed none] }

/-- simple_producer.go:228-248 `Close`.  The records sent stay in the buffer. -/
def SP.close (answer : Option Err) (p : SP) : SP :=
  if p.closed then { p with log := p.log ++ [.closed] }
  else if p.records.length > 0 then
    { p with closed := true, log := p.log ++ [.sent (p.records.map (Buffered.kv p.mem)) answer, .closed] }
  else { p with closed := true, log := p.log ++ [.closed] }

/-- One step; `max` is `MessageMaxCount`. -/
def SP.step (max : Int) : ProducerAct → SP → SP
  | .add k v a, p => p.addMessage max k v a
  | .flush a, p => p.flushAll a
  | .close a, p => p.close a
  | .write i c, p => { p with mem := fun j => if j = i then c else p.mem j }

/-- Several steps. -/
def SP.run (max : Int) : List ProducerAct → SP → SP
  | [], p => p
  | a :: as, p => SP.run max as (p.step max a)

/-! ## The request -/

/-- config.go:191-222: what the producers use of `ProducerConfig` -/
structure ProducerCfg where
  clientID : Bytes
  acks : Int16
  requestTimeoutMS : Int32
  /-- the codec's number (simple_producer.go:85-96) -/
  compression : Int8
  magic : Int8

/-- simple_producer.go:143-150: the record of a message -/
def KV.record (m : KV) : Record := { key := m.key, value := some m.value }

/-- simple_producer.go:173-192 `createRecordBatch`; `ts` is the time -/
def createRecordBatch (cfg : ProducerCfg) (ts : Int64) (records : List Record) : RecordBatch :=
  { baseOffset := 0, batchLength := 0, partitionLeaderEpoch := -1, magic := cfg.magic, crc := 0,
    attributes := cfg.compression.toInt16, lastOffsetDelta := Int32.ofNat records.length - 1, baseTimestamp := ts,
    maxTimestamp := ts, producerID := -1, producerEpoch := 0, baseSequence := 0, records := records }

/-- simple_producer.go:197-215: the request `flush` makes -/
def produceRequestOf (cfg : ProducerCfg) (topic : Bytes) (partition : Int32) (ts : Int64) (ms : List KV) : ProduceRequest :=
  { transactionalID := none, requiredAcks := cfg.acks, timeout := cfg.requestTimeoutMS,
    topicBlocks := [⟨topic, [⟨partition, [createRecordBatch cfg ts (ms.map KV.record)]⟩]⟩] }

/-! ## Choosing the partition -/

/-- A `SimpleProducer` made by a `Producer`: its partition, the node it is connected to, and whether it is closed.
What it does with the messages it accepts is `SP`. -/
structure Line where
  partition : Int32
  /-- the node whose broker is `leader`; `none` if `leader` is nil -/
  leader : Option Int32
  closed : Bool := false
deriving DecidableEq, Repr

/-- What can be seen of a `Producer`. -/
inductive Routed where
  /-- the topic's partitions were learned -/
  | metadata (ps : List PartitionMetadataInfo)
  /-- a connection to a node was opened -/
  | connected (node : Int32)
  /-- a partition producer was made for keyed messages, using the connection to a node -/
  | opened (partition : Int32) (node : Int32)
  /-- `AddMessage` returned `result`, after the message was accepted by a producer of a partition connected to a node,
  or by none -/
  | added (key : Option Bytes) (accepted : Option (Int32 × Option Int32)) (result : Option Err)
  | closed
deriving DecidableEq, Repr

/-- producer.go:18-31 `Producer`.  `lines` are all partition producers ever made; `current` and `keyed`
(`pidToSimpleProducers`) point into it.  `leaders` (`leaderBrokersMapping`) gives for a node the node it really is a
connection to. -/
structure Producer where
  partitions : List PartitionMetadataInfo := []
  current : Option Nat := none
  keyed : List (Int32 × Nat) := []
  leaders : List (Int32 × Int32) := []
  lines : List Line := []
  log : List Routed := []

/-- simple_producer.go:37-64 `createLeader`, given the answer of `findLeader` and of `NewBroker`: a leader -1 without
error gives a nil broker without error (lines 49-51). -/
def createLeader (found : Except Err Int32) (connected : Option Err) : Except Err (Option Int32) :=
  match found with
  | .error e => .error e
  | .ok id => if id = -1 then .ok none else
    match connected with
    | none => .ok (some id)
    | some e => .error e

/-- simple_producer.go:228-248 `Close` of `lines[i]` -/
def closeLine (ls : List Line) (i : Nat) : List Line := ls.modify i fun l => { l with closed := true }

/-- producer.go:92-98: the partition of the new current producer -/
def pickPartition (pick : Nat) (ps : List PartitionMetadataInfo) : Out Int32 :=
  let valid := (ps.filter fun x => x.errorCode = 0).map PartitionMetadataInfo.partitionID
  match valid[pick % valid.length]? with
  | none => .panic
  | some pid => .ok pid

/-- producer.go:99-116: the new current producer takes the place of the old one, which is closed -/
def replaceCurrent (pid : Int32) (leader : Except Err (Option Int32)) (p : Producer) : Option Err × Producer :=
  match leader with
  | .error e => (some (.wrapped e), p)
  | .ok leader => (none, { p with
      current := some p.lines.length
      lines := (match p.current with
        | none => p.lines
        | some old => closeLine p.lines old) ++ [⟨pid, leader, false⟩] })

/-- producer.go:82-117 `updateCurrentSimpleProducer`.  `answer` is what `RequestMetaData` returned; `pick` is the random number (`rand.Int31n(0)` panics); `found` and `connected` are
what the new `SimpleProducer` gets from `findLeader` and `NewBroker`. -/
def Producer.update (answer : Except Err MetadataResponse) (pick : Nat) (found : Except Err Int32) (connected : Option Err)
    (p : Producer) : Out (Option Err × Producer) :=
  match answer with
  | .error e => .ok (some (.wrapped e), p)
  | .ok r =>
    match r.error, r.topics with
    | some e, _ => .ok (some (.wrapped e), p)
    | none, [] => .panic
    | none, t :: _ =>
      match pickPartition pick t.partitions with
      | .ok pid => .ok (replaceCurrent pid (createLeader found connected)
          { p with partitions := t.partitions, log := p.log ++ [.metadata t.partitions] })
      | .err e => .err e
      | .panic => .panic

/-- producer.go:120-130 `getLeaderID` -/
def getLeaderID (pid : Int32) : List PartitionMetadataInfo → Except Err Int32
  | [] => .error (.other "partition not found in metadata")
  | x :: xs =>
    if x.partitionID = pid then
      if x.errorCode = 0 then .ok x.leader else .error (.kafka x.errorCode)
    else getLeaderID pid xs

/-- producer.go:140: the partition of a key.  The hash is from an external library; it is a parameter.  The remainder
by 0 panics. -/
def partitionOf (hash : Bytes → UInt32) (key : Bytes) (ps : List PartitionMetadataInfo) : Out Int32 :=
  if UInt32.ofNat ps.length = 0 then .panic else .ok (hash key % UInt32.ofNat ps.length).toInt32

/-- producer.go:160-165: a new partition producer for keyed messages -/
def Producer.openLine (pid node : Int32) (p : Producer) : Except Err Nat × Producer :=
  (.ok p.lines.length, { p with lines := p.lines ++ [⟨pid, some node, false⟩], keyed := AMap.set p.keyed pid p.lines.length,
                                log := p.log ++ [.opened pid node] })

/-- producer.go:146-165: the leader's broker, from the cache or new, and the new partition producer.
`NewSimpleProducer` cannot fail here: the configuration was accepted before and the leader is given. -/
def Producer.newLine (pid : Int32) (connected : Option Err) (p : Producer) : Except Err Nat × Producer :=
  match getLeaderID pid p.partitions with
  | .error e => (.error e, p)
  | .ok leader =>
    match AMap.get p.leaders leader with
    | some node => p.openLine pid node
    | none =>
      match connected with
      | some _ => (.error (.other "create broker error"), p)
      | none => Producer.openLine pid leader { p with leaders := AMap.set p.leaders leader leader, log := p.log ++ [.connected leader] }

/-- producer.go:133-166 `getSimpleProducer`; `connected` is what `NewBroker` returns if it is called. -/
def Producer.getLine (hash : Bytes → UInt32) (key : Option Bytes) (connected : Option Err) (p : Producer) :
    Out (Except Err Nat × Producer) :=
  match key with
  | none =>
    match p.current with
    | some i => .ok (.ok i, p)
    | none => .panic
  | some k =>
    match partitionOf hash k p.partitions with
    | .ok pid =>
      match AMap.get p.keyed pid with
      | some i => .ok (.ok i, p)
      | none => .ok (p.newLine pid connected)
    | .err e => .err e
    | .panic => .panic

/-- producer.go:171-185 `AddMessage`, with `n` tries left. -/
def Producer.addMessage (hash : Bytes → UInt32) (key : Option Bytes) (connected : Option Err) :
    Nat → Producer → Out (Option Err × Producer)
  | 0, p => .ok (none, { p with log := p.log ++ [.added key none none] })
  | n + 1, p =>
    match p.getLine hash key connected with
    | .ok (.error e, p) => .ok (some e, { p with log := p.log ++ [.added key none (some e)] })
    | .ok (.ok i, p) =>
      match p.lines[i]? with
      | none => .panic
      | some l =>
        if l.closed then Producer.addMessage hash key connected n p
        else .ok (none, { p with log := p.log ++ [.added key (some (l.partition, l.leader)) none] })
    | .err e => .err e
    | .panic => .panic

/-- producer.go:188-199 `Close`: the partition producers of `keyed` and the current one are closed. -/
def Producer.close (p : Producer) : Producer :=
  let lines := match p.current with
    | none => p.lines
    | some i => closeLine p.lines i
  { p with lines := (p.keyed.map Prod.snd).foldl closeLine lines, log := p.log ++ [.closed] }

/-- A step of a producer: a refresh by the timer (or by `NewProducer`), or a call by the user.  The calls are taken one
at a time: only the current producer is guarded by the mutex. -/
inductive RouteAct where
  | update (answer : Except Err MetadataResponse) (pick : Nat) (found : Except Err Int32) (connected : Option Err)
  | add (key : Option Bytes) (connected : Option Err)
  | close

/-- One step. -/
def Producer.step (hash : Bytes → UInt32) (a : RouteAct) (p : Producer) : Out Producer :=
  match a with
  | .update answer pick found connected =>
    match p.update answer pick found connected with
    | .ok r => .ok r.2
    | .err e => .err e
    | .panic => .panic
  | .add key connected =>
    match p.addMessage hash key connected 3 with
    | .ok r => .ok r.2
    | .err e => .err e
    | .panic => .panic
  | .close => .ok p.close

/-- Several steps. -/
def Producer.run (hash : Bytes → UInt32) : List RouteAct → Producer → Out Producer
  | [], p => .ok p
  | a :: as, p =>
    match p.step hash a with
    | .ok q => Producer.run hash as q
    | .err e => .err e
    | .panic => .panic

end Healer
