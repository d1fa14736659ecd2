import Verif.Spec.Record

/-!
# Fetch responses (specification)

Versions 0, 7 and 10 of Kafka's Fetch response.
-/

namespace Kafka

structure FetchPartition where
  partition : Int
  errorCode : Int
  highWatermark : Int
  lastStableOffset : Int
  logStartOffset : Int
  /-- producer id and first offset of aborted transactions; `none` is the null array -/
  aborted : Option (List (Int × Int))
  /-- the record batches -/
  data : Wire
deriving DecidableEq, Repr

def abortedArray : Option (List (Int × Int)) → Wire
  | none => int32 (-1)
  | some xs => int32 xs.length ++ xs.flatMap fun x => int64 x.1 ++ int64 x.2

/-- Everything before the record data of a partition. -/
def fetchPartitionHead (v : Nat) (p : FetchPartition) : Wire :=
  int32 p.partition ++ int16 p.errorCode ++ int64 p.highWatermark ++
    (if v ≥ 4 then int64 p.lastStableOffset else []) ++ (if v ≥ 5 then int64 p.logStartOffset else []) ++
    (if v ≥ 4 then abortedArray p.aborted else []) ++ int32 p.data.length

def fetchTopicHead (topic : Wire) (partitions : Nat) : Wire := int16 topic.length ++ topic ++ int32 partitions

structure FetchHeader where
  correlationId : Int
  throttleTimeMs : Int
  errorCode : Int
  sessionId : Int
deriving DecidableEq, Repr

def fetchHead (v : Nat) (h : FetchHeader) (topics : Nat) : Wire :=
  int32 h.correlationId ++ (if v ≥ 1 then int32 h.throttleTimeMs else []) ++
    (if v ≥ 7 then int16 h.errorCode ++ int32 h.sessionId else []) ++ int32 topics

def fetchTopic (v : Nat) (t : Wire × List FetchPartition) : Wire :=
  fetchTopicHead t.1 t.2.length ++ t.2.flatMap fun p => fetchPartitionHead v p ++ p.data

/-- A fetch response (without its length prefix). -/
def fetchResponse (v : Nat) (h : FetchHeader) (topics : List (Wire × List FetchPartition)) : Wire :=
  fetchHead v h topics.length ++ topics.flatMap (fetchTopic v)

/-- A stored message as a reader of the log sees it; null and empty payloads are not distinguished. -/
structure Stored where
  offset : Int
  timestamp : Int
  key : Wire
  value : Wire
  headers : List (Wire × Wire)
deriving DecidableEq, Repr

/-- A message together with where it came from. -/
structure Delivered where
  topic : Wire
  partition : Int
  message : Stored
deriving DecidableEq, Repr

/-- The messages stored in a batch whose timestamps are creation times. -/
def stored (b : Batch) : List Stored :=
  b.records.map fun r =>
    { offset := b.baseOffset + r.offsetDelta, timestamp := b.baseTimestamp + r.timestampDelta,
      key := r.key.getD [], value := r.value.getD [], headers := r.headers.map fun h => (h.1, h.2.getD []) }

end Kafka

namespace Kafka

/-- A record batch as stored: its fields, and the records as they were stored, compressed or not. -/
structure Packed where
  crc : Nat
  batch : Batch
  payload : Wire
deriving DecidableEq, Repr

/-- The layout of a batch with any payload and any checksum field. -/
def packed (x : Packed) : Wire :=
  int64 x.batch.baseOffset ++ int32 (x.payload.length + 49) ++ int32 x.batch.partitionLeaderEpoch ++ int8 2 ++
    (int32 x.crc ++ int16 x.batch.attributes ++ int32 x.batch.lastOffsetDelta ++ int64 x.batch.baseTimestamp ++
      int64 x.batch.maxTimestamp ++ int64 x.batch.producerId ++ int16 x.batch.producerEpoch ++
      int32 x.batch.baseSequence ++ int32 x.batch.records.length) ++ x.payload

/-- The payload holds the records of the batch: as they are if the codec (the low three attribute
bits) is 0, otherwise compressed so that `unpack codec` gives them back. -/
def Holds (unpack : Nat → Wire → Option Wire) (x : Packed) : Prop :=
  if x.batch.attributes % 8 = 0 then x.payload = x.batch.records.flatMap record
  else unpack (x.batch.attributes % 8).toNat x.payload = some (x.batch.records.flatMap record)

end Kafka
