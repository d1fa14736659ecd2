import Verif.Go.Cursor
import Verif.Go.Crc

/-!
# record.go: records and record batches
-/

namespace Healer

/-- record.go:12-15 `RecordHeader` -/
structure RecordHeader where
  key : Bytes
  value : Bytes
deriving DecidableEq, Repr

/-- record.go:31-38 `Record`; `none` is the nil slice.  A nil `Headers` is the empty list. -/
structure Record where
  attributes : Int8 := 0
  timestampDelta : Int64 := 0
  offsetDelta : Int32 := 0
  key : Option Bytes := none
  value : Option Bytes := none
  headers : List RecordHeader := []
deriving DecidableEq, Repr

/-- record.go:89-113: one header -/
def RecordHeader.encode (h : RecordHeader) : Bytes :=
  putVarint h.key.length ++ h.key ++ putVarint h.value.length ++ h.value

/-- record.go:66-73: length and bytes of the key.  For a nil key the number of bytes taken from the
ten-byte buffer is the stale `n` of line 59, the size of the offset delta. -/
def Record.encodeKey (r : Record) : Bytes :=
  match r.key with
  | none =>
    ((putVarint (-1)) ++ List.replicate (10 - (putVarint (-1)).length) 0).take
      (putVarint r.offsetDelta.toInt).length
  | some k => putVarint k.length ++ k

/-- record.go:41-116: everything except the length; writes to a `bytes.Buffer` do not fail -/
def Record.encodeBody (r : Record) : Bytes :=
  [r.attributes.toUInt8] ++ putVarint r.timestampDelta.toInt ++ putVarint r.offsetDelta.toInt ++
    r.encodeKey ++ putVarint (r.value.getD []).length ++ r.value.getD [] ++
    putVarint r.headers.length ++ r.headers.flatMap RecordHeader.encode

/-- record.go:41-134 `Record.Encode` -/
def Record.encode (r : Record) : Bytes := putVarint r.encodeBody.length ++ r.encodeBody

/-- record.go:17-28 `decodeHeader` -/
def decodeRecordHeader : Cur RecordHeader := do
  let kl ← rdVarint
  let k ← rdBytes kl
  let vl ← rdVarint
  let v ← rdBytes vl
  pure { key := k, value := v }

/-- record.go:158-161, 165-168: `if l > 0 { x = make; copy }`, otherwise nil -/
def rdIfPositive (l : Int) : Cur (Option Bytes) :=
  Cur.cond (l > 0) (do let b ← rdBytes l; pure (some b)) none

/-- record.go:144-178: the fields after the length of a record -/
def decodeRecordFields : Cur Record := do
  let attributes ← rdI8
  let timestampDelta ← rdVarint
  let offsetDelta ← rdVarint
  let keyLength ← rdVarint
  let key ← rdIfPositive keyLength
  let valueLen ← rdVarint
  let value ← rdIfPositive valueLen
  let headerCount ← rdVarint
  let headers ← Cur.forInt headerCount (Cur.call (Cur.run decodeRecordHeader))
  pure { attributes := attributes, timestampDelta := Int64.ofInt timestampDelta,
         offsetDelta := Int32.ofInt offsetDelta, key := key, value := value, headers := headers }

/-- record.go:137-179 `DecodeToRecord` -/
def decodeToRecord : GoDec Record := Cur.run do
  let length ← rdVarint
  if length = 0 then Cur.fail .uncompleteRecord
  else do
    let rest ← Cur.peekRest
    if (rest.length : Int) < length then Cur.fail .uncompleteRecord
    else decodeRecordFields

/-- record.go:181-205 `RecordBatch`; the records are pointers, taken to be non-nil -/
structure RecordBatch where
  baseOffset : Int64 := 0
  batchLength : Int32 := 0
  partitionLeaderEpoch : Int32 := 0
  magic : Int8 := 0
  crc : UInt32 := 0
  attributes : Int16 := 0
  lastOffsetDelta : Int32 := 0
  baseTimestamp : Int64 := 0
  maxTimestamp : Int64 := 0
  producerID : Int64 := 0
  producerEpoch : Int16 := 0
  baseSequence : Int32 := 0
  records : List Record := []
deriving DecidableEq, Repr

/-- `binary.BigEndian.PutUint32(payload[off:], v)` on an existing payload -/
def putU32At (off : Nat) (v : UInt32) (payload : Bytes) : Out Bytes :=
  if off + 4 ≤ payload.length then .ok (payload.take off ++ be32 v ++ payload.drop (off + 4)) else .panic

/-- record.go:268-299: the records, compressed as the two low attribute bits say.  The compressor
is a parameter: gzip, snappy and lz4 are external libraries. -/
def RecordBatch.encodeRecords (compress : Int8 → Bytes → Out Bytes) (r : RecordBatch) : Out Bytes :=
  let c := (r.attributes &&& 3).toInt8
  let raw := r.records.flatMap Record.encode
  if c = 0 then .ok raw else compress c raw

/-- record.go:209-301 `RecordBatch.Encode`.  The deferred functions run last-in first-out: first the
checksum at offset 17 over everything after it, then the length at offset 8.  An error of the
compressor returns a nil payload, on which the deferred functions panic. -/
def RecordBatch.encode (compress : Int8 → Bytes → Out Bytes) (r : RecordBatch) : Out Bytes :=
  match r.encodeRecords compress with
  | .ok recs =>
    let payload := be64 r.baseOffset.toUInt64 ++ be32 r.batchLength.toUInt32 ++
      be32 r.partitionLeaderEpoch.toUInt32 ++ [r.magic.toUInt8] ++ be32 r.crc ++
      be16 r.attributes.toUInt16 ++ be32 r.lastOffsetDelta.toUInt32 ++ be64 r.baseTimestamp.toUInt64 ++
      be64 r.maxTimestamp.toUInt64 ++ be64 r.producerID.toUInt64 ++ be16 r.producerEpoch.toUInt16 ++
      be32 r.baseSequence.toUInt32 ++ be32 (UInt32.ofNat r.records.length) ++ recs
    let bufLen := payload.length
    do
      let payload ← putU32At 17 (crc32Castagnoli (payload.drop 21)) payload
      putU32At 8 (UInt32.ofNat (bufLen - 12)) payload
  | .err _ => .panic
  | .panic => .panic

/-- record.go:305-356 `DecodeToRecordBatch` -/
def decodeToRecordBatch : GoDec RecordBatch := Cur.run do
  let baseOffset ← rdI64
  let batchLength ← rdI32
  let partitionLeaderEpoch ← rdI32
  let magic ← rdI8
  let crc ← rdU32
  let attributes ← rdI16
  let lastOffsetDelta ← rdI32
  let baseTimestamp ← rdI64
  let maxTimestamp ← rdI64
  let producerID ← rdI64
  let producerEpoch ← rdI16
  let baseSequence ← rdI32
  let recordCount ← rdU32
  let records ← Cur.forN recordCount.toNat (Cur.call decodeToRecord)
  pure { baseOffset := baseOffset, batchLength := batchLength,
         partitionLeaderEpoch := partitionLeaderEpoch, magic := magic, crc := crc,
         attributes := attributes, lastOffsetDelta := lastOffsetDelta, baseTimestamp := baseTimestamp,
         maxTimestamp := maxTimestamp, producerID := producerID, producerEpoch := producerEpoch,
         baseSequence := baseSequence, records := records }

end Healer
