import Verif.Model.Consumer
import Verif.Model.Response

/-!
# Where a partition consumer starts: the answers it reads positions from
-/

namespace Healer

/-- simple_consumer.go:258-270: `getCommitedOffet` looks at one topic of the answer; `o` is the position so far -/
def committedStep (topic : Bytes) (pid : Int32) (o : Int64) (t : Bytes × List FetchedOffset) : Int64 :=
  if t.1 ≠ topic then o
  else match t.2.find? fun p => decide (p.partitionID = pid) with
    | some p => if p.offset ≥ 0 then p.offset else o
    | none => o

/-- simple_consumer.go:258-270: the loops of `getCommitedOffet` over the answer; `offset` is the position before -/
def committedPosition (topic : Bytes) (pid : Int32) (r : OffsetFetchResponse) (offset : Int64) : Int64 :=
  r.topics.foldl (committedStep topic pid) offset

/-- simple_consumer.go:218-221: the rest of `getOffset`, after the request.  Taking the first entry of a topic that is not in the
answer, or is there without partitions, is an index out of range. -/
def lookupAnswer (topic : Bytes) (r : OffsetsResponse) : Out Int64 :=
  match r.error with
  | some e => .err e
  | none =>
    match r.topicPartitionOffsets.get topic with
    | some (p :: _) => p.getOffset
    | _ => .panic

end Healer
