import Verif.Model.Tools

/-!
# get-offsets, get-metadata

The offsets of a topic, from the command line and over HTTP, and the metadata of a cluster.
-/

namespace Healer

/-- a line of get-offsets: partition, timestamp, offset (get-offsets.go:61-63) -/
structure OffsetLine where
  partition : Int32
  timestamp : Int64
  offset : Int64
deriving DecidableEq, Repr

/-- get-offsets.go:60-65: the lines printed, and `none` if `GetOffset` panicked on the way.  (Of the line it panicked at, the beginning is printed; that is left out.) -/
def printOffsets : List PartitionOffset → List OffsetLine × Option Unit
  | [] => ([], some ())
  | p :: ps =>
    match p.getOffset with
    | .ok o =>
      let r := printOffsets ps
      (⟨p.partition, p.timestamp, o⟩ :: r.1, r.2)
    | _ => ([], none)

/-- How get-offsets ended: what it printed, and whether it reported an error or crashed. -/
structure OffsetsShown where
  lines : List OffsetLine := []
  failed : Option Err := none
  crashed : Bool := false
deriving DecidableEq, Repr

/-- the answer to a request over HTTP: the offsets with status 200, or another status -/
inductive OffsetsAnswer where
  | offsets (l : List PartitionOffset)
  | status (code : Nat)
deriving DecidableEq, Repr

namespace Brokers

variable {W : Type}

/-- get-offsets.go:44-59, apicontrollers/topic.go:127-141: the offsets of all partitions, sorted by partition.  `net.offsets` answers for the timestamp given.
`sort.Slice` need not keep the order of entries of the same partition; insertion sort, which does, stands for it. -/
def listOffsets (net : Net W) (topic : Bytes) (b : Brokers W) : Out (List PartitionOffset) × Brokers W :=
  andThen (requestOffsets net topic (-1) b) fun rs b =>
    (.ok (goSort (fun x y => decide (x.partition ≤ y.partition)) (rs.flatMap fun r => r.topicPartitionOffsets.flatMap Prod.snd)), b)

/-- get-offsets.go:44-68: the tool with the brokers known; `net ts` is the cluster as it answers for the timestamp `ts` -/
def getOffsetsCmd (net : Int64 → Net W) (topic : Bytes) (timestamp : Int64) (b : Brokers W) : OffsetsShown × Brokers W :=
  match listOffsets (net timestamp) topic b with
  | (.ok l, b) => ({ lines := (printOffsets l).1, crashed := (printOffsets l).2.isNone }, b)
  | (.err e, b) => ({ failed := some (.wrapped e) }, b)
  | (.panic, b) => ({ crashed := true }, b)

/-- get-offsets.go:72: `--timestamp`, -1 unless given -/
def getOffsetsTool (net : Int64 → Net W) (topic : Bytes) (timestamp : Option Int64) (b : Brokers W) : OffsetsShown × Brokers W :=
  getOffsetsCmd net topic (timestamp.getD (-1)) b

/-- apicontrollers/topic.go:117-142 `GetTopicOffsets` with the brokers known; a parameter `timestamp` which is missing is the empty string (gin, `c.Query`).
`strconv.ParseInt(s, 10, 64)` reads what `strconv.Atoi` reads.  gin turns a panic into status 500. -/
def getTopicOffsets (net : Int64 → Net W) (topic : Bytes) (timestamp : Option Bytes) (b : Brokers W) : OffsetsAnswer × Brokers W :=
  match atoi (timestamp.getD []) with
  | none => (.status 400, b)
  | some ts =>
    match listOffsets (net ts) topic b with
    | (.ok l, b) => (.offsets l, b)
    | (.err _, b) => (.status 500, b)
    | (.panic, b) => (.status 500, b)

end Brokers

/-! ## get-metadata -/

/-- what get-metadata prints: the whole answer, or brokers and leaders -/
inductive MetadataShown where
  | json (r : MetadataResponse)
  | cat (brokers : List (Int32 × Bytes)) (leaders : List (Bytes × Int32 × Bytes))
  | nothing
deriving DecidableEq, Repr

/-- get-metadata.go:47-58: the map from node id to address -/
def addresses (r : MetadataResponse) : AMap Int32 Bytes := setAll (r.brokers.map fun b => (b.nodeID, b.netAddress)) []

/-- get-metadata.go:47-65 `catResponse`; a node which is not in the map has the empty address -/
def catMetadata (r : MetadataResponse) : MetadataShown :=
  .cat (r.brokers.map fun b => (b.nodeID, b.netAddress))
    (r.topics.flatMap fun t => t.partitions.map fun p => (t.name, p.partitionID, ((addresses r).get p.leader).getD []))

/-- get-metadata.go:27-42: what is printed for the answer of `RequestMetaData`; its error is not looked at -/
def showMetadata (format : Bytes) (answer : MetadataResponse × Option Err) : MetadataShown :=
  -- "json", "cat"
  if format = [106, 115, 111, 110] then .json answer.1
  else if format = [99, 97, 116] then catMetadata answer.1
  else .nothing

/-- get-metadata.go:13-44: the tool with the brokers known; it returns no error -/
def getMetadataCmd {W : Type} (net : Net W) (topics : List Bytes) (format : Bytes) (b : Brokers W) : (MetadataShown × Option Err) × Brokers W :=
  let x := Brokers.requestMetaData net topics b
  ((showMetadata format x.1, none), x.2)

end Healer
