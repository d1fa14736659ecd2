import Verif.Model.Primitive
import Verif.Go.Map
import Verif.Go.Sort

/-!
# group.go, assign.go: member assignment, subscription metadata, range assignment
-/

namespace Healer

/-- group.go:5-8 `PartitionAssignment` -/
structure PartitionAssignment where
  topic : Bytes
  partitions : List Int32
deriving DecidableEq, Repr

/-- group.go:12-16 `MemberAssignment`; `userData = none` is the nil slice -/
structure MemberAssignment where
  version : Int16
  partitionAssignments : List PartitionAssignment
  userData : Option Bytes
deriving DecidableEq, Repr

/-- group.go:18-26 `Length` -/
def MemberAssignment.length (m : MemberAssignment) : Nat :=
  m.partitionAssignments.foldl (fun l p => l + (2 + p.topic.length) + (4 + p.partitions.length * 4)) (2 + 4)
    + (4 + (m.userData.getD []).length)

/-- group.go:37-51: loop body -/
def PartitionAssignment.enc (p : PartitionAssignment) : Enc := .all [
  .put (be16 (UInt16.ofNat p.topic.length)),
  .cpyN p.topic,
  .put (be32 (UInt32.ofNat p.partitions.length)),
  .each (fun (x : Int32) => .put (be32 x.toUInt32)) p.partitions]

/-- group.go:28-55 `Encode`.  The user data is copied without a length in front. -/
def MemberAssignment.encode (m : MemberAssignment) : Out Bytes :=
  encodeFull m.length (.all [
    .put (be16 m.version.toUInt16),
    .put (be32 (UInt32.ofNat m.partitionAssignments.length)),
    .each PartitionAssignment.enc m.partitionAssignments,
    .cpy (m.userData.getD [])])

/-- group.go:74-89: loop body -/
def decodePartitionAssignment : Cur PartitionAssignment := do
  let tl ← rdU16
  let t ← rdBytes tl.toNat
  let c ← rdU32
  let ps ← Cur.forN c.toNat rdI32
  pure { topic := t, partitions := ps }

/-- group.go:57-100 `NewMemberAssignment`.  Line 96-97: `make([]byte, count)` then `copy`, so missing
bytes are zero; a negative count other than -1 panics. -/
def newMemberAssignment (payload : Bytes) : Out MemberAssignment :=
  if payload.length = 0 then .err .emptyPayload
  else
    match (do
      let v ← rdI16
      let c ← rdI32
      let ps ← Cur.forInt c.toInt decodePartitionAssignment
      let uc ← rdI32
      if uc = -1 then pure { version := v, partitionAssignments := ps, userData := none }
      else if uc.toInt < 0 then Cur.crash
      else do
        let rest ← Cur.peekRest
        let u := rest.take uc.toInt.toNat
        pure { version := v, partitionAssignments := ps,
               userData := some (u ++ List.replicate (uc.toInt.toNat - u.length) 0) } : Cur MemberAssignment)
      payload 0 with
    | .ok (r, _) => .ok r
    | .err e => .err e
    | .panic => .panic

/-- group.go:109-113 `ProtocolMetadata` -/
structure ProtocolMetadata where
  version : UInt16
  subscription : List Bytes
  userData : Option Bytes
deriving DecidableEq, Repr

/-- group.go:115-123 `Length` -/
def ProtocolMetadata.length (m : ProtocolMetadata) : Nat :=
  m.subscription.foldl (fun l s => l + 2 + s.length) (2 + 4) + (4 + (m.userData.getD []).length)

/-- group.go:125-146 `Encode` -/
def ProtocolMetadata.encode (m : ProtocolMetadata) : Out Bytes :=
  encodeFull m.length (.all [
    .put (be16 m.version),
    .put (be32 (UInt32.ofNat m.subscription.length)),
    .each (fun s => .all [.put (be16 (UInt16.ofNat s.length)), .cpyN s]) m.subscription,
    .put (be32 (UInt32.ofNat (m.userData.getD []).length)),
    .cpy (m.userData.getD [])])

/-- group.go:148-173 `NewProtocolMetadata` -/
def newProtocolMetadata (payload : Bytes) : Out ProtocolMetadata :=
  match (do
    let v ← rdU16
    let c ← rdU32
    let ss ← Cur.forN c.toNat (do
      let l ← rdU16
      rdBytes l.toNat)
    let l ← rdI32
    if l = -1 then pure { version := v, subscription := ss, userData := none }
    else if l.toInt < 0 then Cur.crash
    else do
      let u ← rdBytes l.toInt
      pure { version := v, subscription := ss, userData := some u } : Cur ProtocolMetadata) payload 0 with
  | .ok (r, _) => .ok r
  | .err e => .err e
  | .panic => .panic

/-! ## Range assignment (assign.go) -/

/-- joingroup_response.go: the fields of `Member` used by the assignment -/
structure Member where
  memberID : Bytes
  memberMetadata : Bytes
deriving DecidableEq, Repr

/-- metadata_response.go: the fields of `TopicMetadata` used by the assignment -/
structure TopicPartitions where
  topicName : Bytes
  partitionIDs : List Int32
deriving DecidableEq, Repr

/-- assign.go:44-48: `sort.Sort(ByPartitionID(partitions))` -/
def sortPartitions (ps : List Int32) : List Int32 := goSort (fun a b => decide (a ≤ b)) ps

/-- assign.go:50-54: `sort.Sort(ByMemberID(members))`; Go compares strings bytewise -/
def sortMembers (ms : List Bytes) : List Bytes := goSort (fun a b => decide (a ≤ b)) ms

/-- `partitions[start : start+length]` -/
def sliceList {α : Type} (xs : List α) (lo hi : Nat) : Out (List α) :=
  if lo ≤ hi ∧ hi ≤ xs.length then .ok ((xs.take hi).drop lo) else .panic

/-- assign.go:32-40: the loop of `assignPartitions` -/
def assignLoop (partitions : List Int32) (watershed ceil floor : Nat) :
    List Bytes → (i start : Nat) → AMap Bytes (List Int32) → Out (AMap Bytes (List Int32))
  | [], _, _, rst => .ok rst
  | member :: ms, i, start, rst =>
    let length := if i < watershed then ceil else floor
    match sliceList partitions start (start + length) with
    | .ok s => assignLoop partitions watershed ceil floor ms (i + 1) (start + length) (rst.set member s)
    | .err e => .err e
    | .panic => .panic

/-- assign.go:18-42 `assignPartitions`: `len(partitions) % len(members)` panics for no members -/
def assignPartitions (members : List Bytes) (partitions : List Int32) : Out (AMap Bytes (List Int32)) :=
  if members.length = 0 then .panic
  else
    let watershed := partitions.length % members.length
    let floor := partitions.length / members.length
    let ceil := if watershed > 0 then floor + 1 else floor
    assignLoop partitions watershed ceil floor members 0 0 []

/-- assign.go:68-77: collect and sort the members subscribed to a topic -/
def membersWithTopic (topic : Bytes) : List Member → List Bytes → Out (List Bytes)
  | [], acc => .ok acc
  | m :: ms, acc =>
    match newProtocolMetadata m.memberMetadata with
    | .ok pm =>
      membersWithTopic topic ms
        (if topic ∈ pm.subscription then sortMembers (acc ++ [m.memberID]) else acc)
    | .err e => .err e
    | .panic => .panic

/-- assign.go:59-79: topic ↦ member ↦ partitions -/
def topicAssignments (members : List Member) :
    List TopicPartitions → AMap Bytes (AMap Bytes (List Int32)) →
      Out (AMap Bytes (AMap Bytes (List Int32)))
  | [], acc => .ok acc
  | t :: ts, acc => do
    let ms ← membersWithTopic t.topicName members []
    let a ← assignPartitions ms (sortPartitions t.partitionIDs)
    topicAssignments members ts (acc.set t.topicName a)

/-- assign.go:90-96: empty assignment for every member -/
def initAssignments (members : List Member) : AMap Bytes (List PartitionAssignment) :=
  members.foldl (fun acc m => acc.set m.memberID []) []

/-- assign.go:99-104: inner loop; a member absent from the map would be a nil dereference -/
def appendAssignments (topic : Bytes) :
    AMap Bytes (List Int32) → AMap Bytes (List PartitionAssignment) →
      Out (AMap Bytes (List PartitionAssignment))
  | [], acc => .ok acc
  | (member, ps) :: rest, acc =>
    match acc.get member with
    | none => .panic
    | some l => appendAssignments topic rest (acc.set member (l ++ [{ topic := topic, partitions := ps }]))

/-- assign.go:98-105: outer loop -/
def spreadAssignments (inner : AMap Bytes (List Int32) → AMap Bytes (List Int32)) :
    AMap Bytes (AMap Bytes (List Int32)) → AMap Bytes (List PartitionAssignment) →
      Out (AMap Bytes (List PartitionAssignment))
  | [], acc => .ok acc
  | (topic, pa) :: rest, acc => do
    let acc ← appendAssignments topic (inner pa) acc
    spreadAssignments inner rest acc

/-- Iteration orders chosen by the Go runtime for the three `range` loops over maps. -/
structure MapOrders where
  topics : AMap Bytes (AMap Bytes (List Int32)) → AMap Bytes (AMap Bytes (List Int32))
  inner : AMap Bytes (List Int32) → AMap Bytes (List Int32)
  members : AMap Bytes (List PartitionAssignment) → AMap Bytes (List PartitionAssignment)
  topics_perm : ∀ m, (topics m).Perm m
  inner_perm : ∀ m, (inner m).Perm m
  members_perm : ∀ m, (members m).Perm m

/-- assign.go:57-119 before encoding: the member assignments in the order they are emitted. -/
def assignStructs (ord : MapOrders) (members : List Member) (topics : List TopicPartitions) :
    Out (AMap Bytes (List PartitionAssignment)) := do
  let tpa ← topicAssignments members topics []
  let ma ← spreadAssignments ord.inner (ord.topics tpa) (initAssignments members)
  pure (ord.members ma)

/-- assign.go:83-86, 109-119: encode each entry; the slice has one slot per member, unused slots
stay zero (empty id, nil assignment). -/
def encodeAssignments (n : Nat) : AMap Bytes (List PartitionAssignment) → Out (List (Bytes × Option Bytes))
  | [] => .ok (List.replicate n ([], none))
  | (m, pas) :: rest => do
    let b ← MemberAssignment.encode { version := 0, partitionAssignments := pas, userData := none }
    let r ← encodeAssignments (n - 1) rest
    pure ((m, some b) :: r)

/-- assign.go:57-121 `Assign` -/
def assign (ord : MapOrders) (members : List Member) (topics : List TopicPartitions) :
    Out (List (Bytes × Option Bytes)) := do
  let s ← assignStructs ord members topics
  encodeAssignments members.length s

end Healer
