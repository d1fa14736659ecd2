import Verif.Model.Position
import Verif.Model.Brokers

/-!
# Where a partition consumer with a group, but outside a group consumer, commits

Which position is committed when is in Model/Consumer; here it is the broker that matters.
-/

namespace Healer

variable {W : Type} (net : Net W)

/-- simple_consumer.go:130-144 `getCoordinator` -/
def ownCoordinator (group : Bytes) (b : Brokers W) : Except Err (Nat × Int32) × Brokers W :=
  match Brokers.findCoordinator net group b with
  | (.error e, b) => (.error e, b)
  | (.ok r, b) => Brokers.getBroker net r.nodeID b

/-- simple_consumer.go:75-85: the loop of the constructor, which has no end but success; here its first `n` rounds -/
def attach (group : Bytes) : Nat → Brokers W → Option (Nat × Int32) × Brokers W
  | 0, b => (none, b)
  | n + 1, b =>
    match ownCoordinator net group b with
    | (.error _, b) => attach group n b
    | (.ok h, b) => (some h, b)

/-- simple_consumer.go:246-256: the loop of `getCommitedOffet`, which has no end but success; here its first `n` rounds.  `ask k` is
what `RequestAndGet` of the coordinator's object returns in the `k`-th round. -/
def committedLoop (topic : Bytes) (pid : Int32) (offset : Int64) (ask : Nat → Except Err OffsetFetchResponse) : Nat → Nat → Option Int64
  | 0, _ => none
  | n + 1, k =>
    match ask k with
    | .error _ => committedLoop topic pid offset ask n (k + 1)
    | .ok r => some (committedPosition topic pid r offset)

/-- the consumer's part in committing -/
structure Committer where
  /-- the node of `c.coordinator` -/
  coordinator : Int32
  offset : Int64
  /-- `c.offsetCommited`, 0 in a new consumer -/
  committed : Int64 := 0

/-- simple_consumer.go:297-318, 323-338 `CommitOffset` of a consumer with `belongTO` nil and a group; `ask` is what the commit request
comes to at a node.  Reading `c.offset` twice is left to Model/Consumer. -/
def Committer.commit (ask : Int32 → Int64 → Option Err) (s : Committer) : Committer :=
  if s.offset = s.committed then s
  else match ask s.coordinator s.offset with
    | none => { s with committed := s.offset }
    | some _ => s

end Healer
