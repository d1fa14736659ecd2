import Verif.Spec.Wire
import Verif.Spec.Crc

/-!
# Records, record batches and legacy messages (specification)

The on-disk and on-wire format of Kafka messages: record batch format version 2, message format
versions 0 and 1.
-/

namespace Kafka

/-- A record of a version-2 batch. -/
structure Record where
  attributes : Int
  timestampDelta : Int
  offsetDelta : Int
  key : Option Wire
  value : Option Wire
  headers : List (Wire × Option Wire)
deriving DecidableEq, Repr

/-- Length as a varint, -1 for null, then the bytes. -/
def varintBytes : Option Wire → Wire
  | none => varint (-1)
  | some b => varint b.length ++ b

def recordHeader (h : Wire × Option Wire) : Wire := varint h.1.length ++ h.1 ++ varintBytes h.2

/-- Everything after the length of a record. -/
def recordBody (r : Record) : Wire :=
  int8 r.attributes ++ varint r.timestampDelta ++ varint r.offsetDelta ++ varintBytes r.key ++
    varintBytes r.value ++ varint r.headers.length ++ r.headers.flatMap recordHeader

def record (r : Record) : Wire := varint (recordBody r).length ++ recordBody r

/-- A version-2 record batch. -/
structure Batch where
  baseOffset : Int
  partitionLeaderEpoch : Int
  attributes : Int
  lastOffsetDelta : Int
  baseTimestamp : Int
  maxTimestamp : Int
  producerId : Int
  producerEpoch : Int
  baseSequence : Int
  records : List Record
deriving DecidableEq, Repr

/-- The part of a batch covered by the checksum: from the attributes to the end. -/
def batchTail (b : Batch) : Wire :=
  int16 b.attributes ++ int32 b.lastOffsetDelta ++ int64 b.baseTimestamp ++ int64 b.maxTimestamp ++
    int64 b.producerId ++ int16 b.producerEpoch ++ int32 b.baseSequence ++
    int32 b.records.length ++ b.records.flatMap record

/-- A batch with an arbitrary checksum field.  The length counts everything after itself: leader
epoch (4), magic (1), checksum (4) and the rest. -/
def batchWithCrc (crc : Nat) (b : Batch) : Wire :=
  int64 b.baseOffset ++ int32 ((batchTail b).length + 9) ++ int32 b.partitionLeaderEpoch ++ int8 2 ++
    int32 crc ++ batchTail b

/-- A well-formed uncompressed batch. -/
def batch (b : Batch) : Wire := batchWithCrc (crc32c (batchTail b)).toNat b

/-- A legacy message (formats 0 and 1). -/
structure LegacyMessage where
  offset : Int
  magic : Int
  attributes : Int
  /-- present in format 1 only -/
  timestamp : Int
  key : Option Wire
  value : Option Wire
deriving DecidableEq, Repr

/-- The part of a legacy message covered by its checksum. -/
def legacyBody (m : LegacyMessage) : Wire :=
  int8 m.magic ++ int8 m.attributes ++ (if m.magic = 1 then int64 m.timestamp else []) ++
    nullableBytes m.key ++ nullableBytes m.value

def legacyMessage (m : LegacyMessage) : Wire :=
  int64 m.offset ++ int32 ((legacyBody m).length + 4) ++ int32 (crc32 (legacyBody m)).toNat ++ legacyBody m

def legacyMessageSet (ms : List LegacyMessage) : Wire := ms.flatMap legacyMessage

end Kafka
