import Verif.Model.Metadata
import Verif.Model.Response
import Verif.Go.Map

/-!
# The set of brokers (brokers.go)

The functions of brokers.go use single brokers through a few operations.  Here these are parameters (`Net`),
acting on an arbitrary state `W`: everything proved holds whatever the brokers and the network do, in particular
for the brokers of Model/Broker.lean.  A broker object is a number.  `log` lists the operations performed, in
order, with their outcomes.

Go maps are association lists; `range` over a map follows an arbitrary permutation chosen by `shuffle`.
The model is sequential; the mutex of `GetBroker` serialises concurrent look-ups.
-/

namespace Healer

/-- The operations on brokers that brokers.go uses, and the order in which `range` visits a map. -/
structure Net (W : Type) where
  /-- broker.go:37-50 `NewBroker(address, nodeID, config)` -/
  connect : Bytes → Int32 → W → Except Err Nat × W
  /-- broker.go:349-357 `requestMetaData(clientID, topics)`: response (zero value if there was none) and error -/
  metadata : Nat → List Bytes → W → (MetadataResponse × Option Err) × W
  /-- broker.go:360-368 `requestOffsets(clientID, topic, partitionIDs, …)` -/
  offsets : Nat → Bytes → List Int32 → W → (OffsetsResponse × Option Err) × W
  /-- broker.go:391-399 `findCoordinator(clientID, groupID)` -/
  coordinator : Nat → Bytes → W → (FindCoordinatorResponse × Option Err) × W
  /-- broker.go:339-347 `RequestListGroups(clientID)` (nil response when there was none) -/
  listGroups : Nat → W → (Option ListGroupsResponse × Option Err) × W
  /-- iteration order of a map -/
  shuffle : {α : Type} → List α → W → List α × W
  shuffle_perm : ∀ {α : Type} (l : List α) (w : W), (shuffle l w).1.Perm l

/-- What was done. -/
inductive Done where
  | connected (address : Bytes) (node : Int32) (broker : Nat)
  | connectFailed (address : Bytes) (node : Int32) (e : Err)
  | closed (broker : Nat)
  | metadata (broker : Nat) (topics : List Bytes) (answer : MetadataResponse × Option Err)
  | offsets (broker : Nat) (topic : Bytes) (partitions : List Int32) (answer : OffsetsResponse × Option Err)
  | coordinator (broker : Nat) (answer : FindCoordinatorResponse × Option Err)
  | listGroups (broker : Nat) (answer : Option ListGroupsResponse × Option Err)

/-- brokers.go:13-24 `Brokers`.  `cache` is the map `brokers`, from node id to broker object together with the
`nodeID` stored in that object (broker.go:37-50). -/
structure Brokers (W : Type) where
  bootstrap : List Bytes
  infos : AMap Int32 BrokerInfo
  cache : AMap Int32 (Nat × Int32)
  controllerID : Int32
  world : W
  log : List Done

/-- decimal digits, `strconv.Itoa` -/
def itoa (n : Int) : Bytes :=
  (if n < 0 then [45] else []) ++ (Nat.toDigits 10 n.natAbs).map fun c => UInt8.ofNat c.toNat

/-- metadata_response.go:54-56 `NetAddress`; `net.JoinHostPort` puts brackets around hosts holding a colon -/
def BrokerInfo.netAddress (b : BrokerInfo) : Bytes :=
  (if b.host.contains 58 then [91] ++ b.host ++ [93] else b.host) ++ [58] ++ itoa b.port.toInt

/-- `errors.As(err, &e)` with `e` a KafkaError -/
def Err.isKafka : Err → Bool
  | .kafka _ => true
  | .wrapped e => e.isKafka
  | _ => false

namespace Brokers

variable {W : Type} (net : Net W)

/-- `NewBroker`, logged -/
def connect (address : Bytes) (node : Int32) (b : Brokers W) : Except Err Nat × Brokers W :=
  match net.connect address node b.world with
  | (.ok h, w) => (.ok h, { b with world := w, log := b.log ++ [.connected address node h] })
  | (.error e, w) => (.error e, { b with world := w, log := b.log ++ [.connectFailed address node e] })

/-- `broker.requestMetaData`, logged -/
def askMetadata (h : Nat) (topics : List Bytes) (b : Brokers W) : (MetadataResponse × Option Err) × Brokers W :=
  ((net.metadata h topics b.world).1, { b with
    world := (net.metadata h topics b.world).2
    log := b.log ++ [.metadata h topics (net.metadata h topics b.world).1] })

/-- `broker.requestOffsets`, logged -/
def askOffsets (h : Nat) (topic : Bytes) (pids : List Int32) (b : Brokers W) : (OffsetsResponse × Option Err) × Brokers W :=
  ((net.offsets h topic pids b.world).1, { b with
    world := (net.offsets h topic pids b.world).2
    log := b.log ++ [.offsets h topic pids (net.offsets h topic pids b.world).1] })

/-- `broker.findCoordinator`, logged -/
def askCoordinator (h : Nat) (group : Bytes) (b : Brokers W) : (FindCoordinatorResponse × Option Err) × Brokers W :=
  ((net.coordinator h group b.world).1, { b with
    world := (net.coordinator h group b.world).2
    log := b.log ++ [.coordinator h (net.coordinator h group b.world).1] })

/-- `broker.RequestListGroups`, logged -/
def askListGroups (h : Nat) (b : Brokers W) : (Option ListGroupsResponse × Option Err) × Brokers W :=
  ((net.listGroups h b.world).1, { b with
    world := (net.listGroups h b.world).2
    log := b.log ++ [.listGroups h (net.listGroups h b.world).1] })

/-- the values of a map in the order of a `range` statement -/
def order {α : Type} (l : List α) (b : Brokers W) : List α × Brokers W :=
  ((net.shuffle l b.world).1, { b with world := (net.shuffle l b.world).2 })

/-- brokers.go:131-134, 161-164: the map made of a metadata answer -/
def infosOf (bs : List BrokerInfo) : AMap Int32 BrokerInfo := bs.foldl (fun m i => m.set i.nodeID i) []

/-- brokers.go:117-139: the first loop of `refreshMetadata`.  The error of `requestMetaData` is ignored. -/
def refreshBootstrap : List Bytes → Brokers W → Brokers W
  | [], b => b
  | a :: as, b =>
    match connect net a (-1) b with
    | (.error _, b) => refreshBootstrap as b
    | (.ok h, b) =>
      match askMetadata net h [] b with
      | (r, b) =>
        if r.1.brokers = [] then refreshBootstrap as { b with log := b.log ++ [.closed h] }
        else refreshBootstrap as { b with infos := infosOf r.1.brokers }

/-- brokers.go:143-169: the second loop -/
def refreshKnown : List BrokerInfo → Brokers W → Bool × Brokers W
  | [], b => (false, b)
  | i :: is, b =>
    match connect net i.netAddress (-1) b with
    | (.error _, b) => refreshKnown is b
    | (.ok h, b) =>
      match askMetadata net h [] b with
      | (r, b) =>
        if r.1.brokers = [] then refreshKnown is b
        else (true, { b with infos := infosOf r.1.brokers })

/-- brokers.go:113-171 `refreshMetadata` -/
def refreshMetadata (b : Brokers W) : Bool × Brokers W :=
  let b := refreshBootstrap net b.bootstrap b
  match order net (b.infos.map Prod.snd) b with
  | (is, b) => refreshKnown net is b

/-- brokers.go:203-208, 175-180: refresh if the node is unknown -/
def ensureKnown (node : Int32) (b : Brokers W) : Brokers W :=
  match b.infos.get node with
  | some _ => b
  | none => (refreshMetadata net b).2

/-- brokers.go:182-191 (without caching), 210-220 -/
def createBroker (node : Int32) (b : Brokers W) : Except Err (Nat × Int32) × Brokers W :=
  match b.infos.get node with
  | none => (.error (.other "could not get broker info"), b)
  | some i =>
    match connect net i.netAddress i.nodeID b with
    | (.ok h, b) => (.ok (h, i.nodeID), b)
    | (.error e, b) => (.error (.wrapped e), b)

/-- brokers.go:174-192 `Brokers.NewBroker` -/
def newBroker (node : Int32) (b : Brokers W) : Except Err (Nat × Int32) × Brokers W :=
  createBroker net node (ensureKnown net node b)

/-- brokers.go:195-221 `GetBroker`: the object and the node id stored in it -/
def getBroker (node : Int32) (b : Brokers W) : Except Err (Nat × Int32) × Brokers W :=
  match b.cache.get node with
  | some h => (.ok h, b)
  | none =>
    match createBroker net node (ensureKnown net node b) with
    | (.ok h, b) => (.ok h, { b with cache := b.cache.set node h })
    | (.error e, b) => (.error e, b)

/-- brokers.go:224-242: the loop of `RequestMetaData` -/
def metadataLoop (topics : List Bytes) : List BrokerInfo → Brokers W → (MetadataResponse × Option Err) × Brokers W
  | [], b => ((⟨0, 0, [], [], 0, []⟩, some .noAvailableBrokers), b)
  | i :: is, b =>
    match getBroker net i.nodeID b with
    | (.error _, b) => metadataLoop topics is b
    | (.ok h, b) =>
      match askMetadata net h.1 topics b with
      | ((r, none), b) => ((r, none), b)
      | ((r, some e), b) => if e.isKafka then ((r, some e), b) else metadataLoop topics is b

/-- brokers.go:223-245 `RequestMetaData`; the response returned with `noAvaliableBrokers` is not modelled (it is
that of the last failed request) -/
def requestMetaData (topics : List Bytes) (b : Brokers W) : (MetadataResponse × Option Err) × Brokers W :=
  match order net (b.infos.map Prod.snd) b with
  | (is, b) => metadataLoop net topics is b

/-- brokers.go:279-282: the partitions of each leader -/
def byLeader (ps : List PartitionMetadataInfo) : AMap Int32 (List Int32) :=
  ps.foldl (fun m x => m.set x.leader ((m.get x.leader).getD [] ++ [x.partitionID])) []

/-- brokers.go:284-296: one request per leader -/
def offsetsLoop (topic : Bytes) : List (Int32 × List Int32) → List OffsetsResponse → Brokers W →
    Except Err (List OffsetsResponse) × Brokers W
  | [], acc, b => (.ok acc, b)
  | (leader, pids) :: rest, acc, b =>
    match getBroker net leader b with
    | (.error e, b) => (.error (.wrapped e), b)
    | (.ok h, b) =>
      match askOffsets net h.1 topic pids b with
      | ((_, some e), b) => (.error e, b)
      | ((r, none), b) => offsetsLoop topic rest (acc ++ [r]) b

/-- brokers.go:260-277: the offsets of one partition -/
def offsetsOfPartition (topic : Bytes) (pid : Int32) (ps : List PartitionMetadataInfo) (b : Brokers W) :
    Except Err (List OffsetsResponse) × Brokers W :=
  match ps.find? (fun x => x.partitionID = pid) with
  | none => (.error (.other "could not find partition"), b)
  | some x =>
    match getBroker net x.leader b with
    | (.error e, b) => (.error (.wrapped e), b)
    | (.ok h, b) =>
      match askOffsets net h.1 topic [pid] b with
      | ((_, some e), b) => (.error e, b)
      | ((r, none), b) => (.ok [r], b)

/-- `Out` from the result of code that cannot panic -/
def _root_.Healer.Out.ofExcept {α : Type} : Except Err α → Out α
  | .ok a => .ok a
  | .error e => .err e

/-- brokers.go:248-296 `RequestOffsets` -/
def requestOffsets (topic : Bytes) (pid : Int32) (b : Brokers W) : Out (List OffsetsResponse) × Brokers W :=
  match requestMetaData net [topic] b with
  | ((_, some e), b) => (.err (.wrapped e), b)
  | ((r, none), b) =>
    match r.topics with
    | [] => (.panic, b)
    | t :: _ =>
      if pid ≥ 0 then
        let x := offsetsOfPartition net topic pid t.partitions b
        (.ofExcept x.1, x.2)
      else
        match order net (byLeader t.partitions) b with
        | (ls, b) =>
          let x := offsetsLoop net topic ls [] b
          (.ofExcept x.1, x.2)

/-- brokers.go:297-311 `findLeader` -/
def findLeader (topic : Bytes) (pid : Int32) (b : Brokers W) : Out Int32 × Brokers W :=
  let answer : Brokers W → MetadataResponse → Out Int32 × Brokers W := fun b r =>
    match r.topics with
    | [] => (.panic, b)
    | t :: _ =>
      match t.partitions.find? (fun x => x.partitionID = pid) with
      | some x => (.ok x.leader, b)
      | none => (.err (.other "could not find out leader"), b)
  match requestMetaData net [topic] b with
  | ((r, none), b) => answer b r
  | ((r, some e), b) => if e.isKafka then answer b r else (.err (.wrapped e), b)

/-- brokers.go:314-331: the loop of `FindCoordinator` -/
def coordinatorLoop (group : Bytes) : List BrokerInfo → Brokers W → Except Err FindCoordinatorResponse × Brokers W
  | [], b => (.error (.other "could not find coordinator from all brokers"), b)
  | i :: is, b =>
    match getBroker net i.nodeID b with
    | (.error _, b) => coordinatorLoop group is b
    | (.ok h, b) =>
      match askCoordinator net h.1 group b with
      | ((r, none), b) => (.ok r, b)
      | ((_, some _), b) => coordinatorLoop group is b

/-- brokers.go:313-331 `FindCoordinator` -/
def findCoordinator (group : Bytes) (b : Brokers W) : Except Err FindCoordinatorResponse × Brokers W :=
  match order net (b.infos.map Prod.snd) b with
  | (is, b) => coordinatorLoop net group is b

/-- brokers.go:69-102 `newBrokersFromOne`, given the broker object with its address; the object was created with
node id -1 (brokers.go:44) -/
def fromOne (bootstrap : List Bytes) (address : Bytes) (h : Nat) (w : W) : Except Err (Brokers W) :=
  let b : Brokers W := ⟨bootstrap, [], [], 0, w, []⟩
  match askMetadata net h [] b with
  | ((_, some e), _) => .error e
  | ((r, none), b) =>
    if r.brokers = [] then .error (.other "no brokers in getmetadata response") else
    .ok (r.brokers.foldl (fun b i =>
      { b with infos := b.infos.set i.nodeID i
               cache := if address = i.netAddress then b.cache.set i.nodeID (h, -1) else b.cache })
      { b with controllerID := r.controllerID })

/-- client.go:44-63: the loop of `Client.ListGroups`; groups are stored under the node id of the broker object.
`RequestListGroups` returns a nil response only together with an error. -/
def listGroupsLoop : List BrokerInfo → AMap Int32 (List ListedGroup) → Brokers W →
    (AMap Int32 (List ListedGroup) × Option Err) × Brokers W
  | [], acc, b => ((acc, none), b)
  | i :: is, acc, b =>
    match getBroker net i.nodeID b with
    | (.error e, b) => ((acc, some e), b)
    | (.ok h, b) =>
      match askListGroups net h.1 b with
      | ((_, some e), b) => ((acc, some e), b)
      | ((none, none), b) => ((acc, none), b)
      | ((some r, none), b) =>
        listGroupsLoop is (if r.groups = [] then acc else acc.set h.2 r.groups) b

/-- client.go:44-63 `Client.ListGroups` -/
def listGroups (b : Brokers W) : (AMap Int32 (List ListedGroup) × Option Err) × Brokers W :=
  match order net (b.infos.map Prod.snd) b with
  | (is, b) => listGroupsLoop net is [] b

end Brokers

end Healer
