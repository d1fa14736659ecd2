import Verif.Spec.Fetch

/-!
# A partition's log (specification)

What a broker does with the record data of a produce request: it stores the bytes as they are, except for the base
offset, which it assigns, and the leader epoch.
-/

namespace Kafka

/-- A big-endian number. -/
def natOf (bs : Wire) : Nat := bs.foldl (fun n b => n * 256 + b.toNat) 0

/-- Base offset (8 bytes) and leader epoch (after the length of 4 bytes) of a batch replaced. -/
def restamp (base epoch : Int) (data : Wire) : Wire :=
  int64 base ++ (data.drop 8).take 4 ++ int32 epoch ++ data.drop 16

/-- The offset delta of the last record of a batch: after base offset, length, leader epoch, magic, checksum and
attributes. -/
def lastDelta (data : Wire) : Nat := natOf ((data.drop 23).take 4)

structure Log where
  /-- the next offset -/
  next : Int
  /-- the batches -/
  stored : List Wire

/-- Append a batch. -/
def Log.append (epoch : Int) (l : Log) (data : Wire) : Log :=
  { next := l.next + lastDelta data + 1, stored := l.stored ++ [restamp l.next epoch data] }

end Kafka
