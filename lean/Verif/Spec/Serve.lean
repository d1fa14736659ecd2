import Verif.Spec.Fetch

/-!
# What a broker returns to a fetch

The log of a partition is a sequence of batches.  Compaction removes messages from a batch and keeps its range of offsets, so
that a batch may end later than its last message does (Kafka, "Log Compaction"; KIP-98 on empty batches).  A broker returns
whole batches, beginning with the first one that does not end before the offset asked for, as many as fit into the size asked
for, but at least one (KIP-74).
-/

namespace Kafka

/-- A batch of the log: its last offset, its size in bytes, and the messages that are left in it. -/
structure LogBatch where
  last : Int
  size : Nat
  messages : List Stored
deriving DecidableEq, Repr

/-- The batches at the beginning which fit. -/
def fitting (room : Int) : List LogBatch → List LogBatch
  | [] => []
  | b :: bs => if (b.size : Int) ≤ room then b :: fitting (room - b.size) bs else []

/-- The batches returned for an offset and a size. -/
def serve (log : List LogBatch) (offset size : Int) : List LogBatch :=
  match log.dropWhile fun b => decide (b.last < offset) with
  | [] => []
  | b :: bs => b :: fitting (size - b.size) bs

/-- A log as it can be: no message lies behind the end of its batch, and batches are not empty on disk. -/
structure ProperLog (log : List LogBatch) : Prop where
  inside : ∀ b ∈ log, ∀ m ∈ b.messages, m.offset ≤ b.last
  sized : ∀ b ∈ log, 0 < b.size

end Kafka
