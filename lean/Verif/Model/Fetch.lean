import Verif.Go.Reader
import Verif.Model.Message

/-!
# The fetch response stream decoder (fetch_response.go)

The decoder reads the response from the connection while it decodes, and hands messages to a
channel.  Its mutable state is `SD`; everything fixed during one response is `FetchEnv`.
-/

namespace Healer

/-- message.go:14-19 `FullMessage` -/
structure FullMessage where
  topicName : Bytes
  partitionID : Int32
  error : Option Err
  message : Option Message
deriving DecidableEq, Repr

/-- fetch_response.go:41-58 `fetchResponseStreamDecoder`, the fields that change.  `delivered` is what
has been sent to the `messages` channel. -/
structure SD where
  rd : Rdr
  offset : Nat := 0
  hasOne : Bool := false
  delivered : List FullMessage := []
deriving DecidableEq, Repr

/-- What is fixed while one response is decoded.

* `codec c b`: gzip (1), snappy (2), lz4 (3) decompression of all of `b`, external libraries;
* `compress`: the compressors, called for legacy messages (message.go:40-47);
* `accept n`: whether the `n`-th send to the channel wins over the cancelled context;
* `legacyFuel`: bound for the nesting of compressed legacy messages, see `decodeMessagesFrom`. -/
structure FetchEnv where
  version : UInt16 := 10
  totalLength : Nat := 0
  startOffset : Int64 := 0
  codec : Int8 → Bytes → Except Err Bytes := fun _ _ => .error (.other "codec")
  compress : Compress := fun _ _ => .err (.other "codec")
  accept : Nat → Bool := fun _ => true
  legacyFuel : Nat := 100

/-- Result of a decoding step: a value or an error together with the new state, or a crash. -/
inductive Res (α : Type) where
  | ok (a : α) (s : SD)
  | err (e : Err) (s : SD)
  | panic
deriving DecidableEq, Repr

def FM (α : Type) := SD → Res α

namespace FM

instance : Monad FM where
  pure a := fun s => .ok a s
  bind m f := fun s => match m s with
    | .ok a s' => f a s'
    | .err e s' => .err e s'
    | .panic => .panic

theorem bind_def {α β : Type} (m : FM α) (f : α → FM β) (s : SD) :
    (m >>= f) s = match m s with
      | .ok a s' => f a s'
      | .err e s' => .err e s'
      | .panic => .panic := rfl

theorem pure_def {α : Type} (a : α) (s : SD) : (pure a : FM α) s = .ok a s := rfl

/-- `return ..., err` -/
def fail {α : Type} (e : Err) : FM α := fun s => .err e s

/-- run-time panic -/
def crash {α : Type} : FM α := fun _ => .panic

/-- the result of pure code that may fail or panic -/
def lift {α : Type} (o : Out α) : FM α := fun s => match o with
  | .ok a => .ok a s
  | .err e => .err e s
  | .panic => .panic

/-- A deferred function that may replace the error, looking at the state. -/
def after (m : FM Unit) (fix : SD → Option Err → Option Err) : FM Unit := fun s =>
  match m s with
  | .ok () s' => match fix s' none with
    | none => .ok () s'
    | some e => .err e s'
  | .err e s' => match fix s' (some e) with
    | none => .ok () s'
    | some e' => .err e' s'
  | .panic => .panic

end FM

/-- fetch_response.go:84-93 `read`: the bytes read and the error of `io.ReadFull` -/
def fetchRead (n : Nat) : FM (Bytes × Option Err) := fun s =>
  match s.rd.readFull n with
  | (got, e, rd') => .ok (got, e) { s with rd := rd', offset := s.offset + got.length }

/-- fetch_response.go:75-81 `Read`: one read of at most `n` bytes -/
def fetchRead1 (n : Nat) : FM (Bytes × Option Err) := fun s =>
  match s.rd.read1 n with
  | (got, e, rd') => .ok (got, e) { s with rd := rd', offset := s.offset + got.length }

/-- `io.ReadAll(io.LimitReader(streamDecoder, n))` -/
def fetchReadUpTo (n : Nat) : FM (Bytes × Option Err) := fun s =>
  match s.rd.readUpTo n with
  | (got, e, rd') => .ok (got, e) { s with rd := rd', offset := s.offset + got.length }

/-- fetch_response.go:62-64 `end` -/
def fetchEnd (env : FetchEnv) (s : SD) : Bool := decide (s.offset ≥ env.totalLength)

/-- fetch_response.go:306-313 `putMessage` -/
def putMessage (env : FetchEnv) (m : FullMessage) : FM Unit := fun s =>
  if env.accept s.delivered.length then .ok () { s with delivered := s.delivered ++ [m] }
  else .err (.other "context canceled") s

/-- fetch_response.go:285-304 `filterAndPutMessage`, `filterMessage` -/
def filterAndPutMessage (env : FetchEnv) (topic : Bytes) (part : Int32) (m : Message) : FM Unit := fun s =>
  if m.offset ≥ env.startOffset then
    match putMessage env { topicName := topic, partitionID := part, error := none, message := some m } s with
    | .ok () s' => .ok () { s' with hasOne := true }
    | .err e s' => .err e s'
    | .panic => .panic
  else .ok () s

/-- fetch_response.go:192-196: put every message of a slice -/
def putAll (env : FetchEnv) (topic : Bytes) (part : Int32) : List Message → FM Unit
  | [] => pure ()
  | m :: ms => do
    filterAndPutMessage env topic part m
    putAll env topic part ms

/-- fetch_response.go:96-128 `uncompress` of all that a limited reader gives.  An external codec is
taken to consume all of its input; if it fails, the caller reads the rest (line 251), so
everything is consumed in either case.  All errors are wrapped by `fmt.Errorf("%w")`. -/
def uncompress (env : FetchEnv) (c : Int8) (data : Bytes) (ioErr : Option Err) : Except Err Bytes :=
  match ioErr with
  | some e => .error (.wrapped e)
  | none =>
    if c = 0 then .ok data
    else match env.codec c data with
      | .ok b => .ok b
      | .error e => .error (.wrapped e)

/-- fetch_response.go:268-276: the message built from a record -/
def recordMessage (baseOffset : Int64) (baseTimestamp : UInt64) (r : Record) : Message :=
  { offset := r.offsetDelta.toInt64 + baseOffset, timestamp := r.timestampDelta.toUInt64 + baseTimestamp,
    attributes := r.attributes, magicByte := 2, key := r.key, value := r.value, headers := r.headers }

/-- fetch_response.go:258-280: the loop over the records of a batch, from position `off` on.  An
incomplete record ends the batch without error. -/
def putRecords (env : FetchEnv) (topic : Bytes) (part : Int32) (baseOffset : Int64) (baseTimestamp : UInt64) :
    Nat → Bytes → Int → FM Unit
  | 0, _, _ => pure ()
  | n + 1, data, off => fun s =>
    match sliceFrom data off with
    | .ok d => match decodeToRecord d with
      | .ok (r, o) =>
        (do filterAndPutMessage env topic part (recordMessage baseOffset baseTimestamp r)
            putRecords env topic part baseOffset baseTimestamp n data (off + o)) s
      | .err e => if e = .uncompleteRecord then .ok () s else .err e s
      | .panic => .panic
    | .err e => .err e s
    | .panic => .panic

/-- big-endian value of `w` bytes at position `off` of a buffer long enough -/
def beAt (w off : Nat) (b : Bytes) : Nat := beVal ((b.drop off).take w)

/-- fetch_response.go:246-282: the records of a batch: read and decompress all of them, then the loop -/
def decodeBatchRecords (env : FetchEnv) (topic : Bytes) (part : Int32) (baseOffset : Int64) (baseTimestamp : UInt64)
    (compress : Int8) (count : Nat) (size : Int) : FM Unit := fun s =>
  match fetchReadUpTo size.toNat s with
  | .ok (data, ioErr) s' =>
    match uncompress env compress data ioErr with
    | .error e => if fetchEnd env s' && s'.hasOne then .ok () s' else .err (.wrapped e) s'
    | .ok raw => putRecords env topic part baseOffset baseTimestamp count raw 0 s'
  | .err e s' => .err e s'
  | .panic => .panic

/-- fetch_response.go:202-283 `decodeRecordsMagic2`.  The checksum (bytes 17-20) is not looked at. -/
def decodeRecordsMagic2 (env : FetchEnv) (topic : Bytes) (part : Int32) (header17 : Bytes) : FM Int := do
  let (got, e) ← fetchRead 44
  match e with
  | some e => if e = .unexpectedEof then pure (got.length : Int) else FM.fail e
  | none =>
    let buf := header17 ++ got
    let baseOffset := (UInt64.ofNat (beAt 8 0 buf)).toInt64
    let batchLength := beAt 4 8 buf
    let attributes := beAt 2 21 buf
    let baseTimestamp := UInt64.ofNat (beAt 8 27 buf)
    let count := beAt 4 57 buf
    if count = 0 then pure 44
    else do
      decodeBatchRecords env topic part baseOffset baseTimestamp (Int8.ofNat (attributes % 4)) count
        ((batchLength : Int) - 49)
      pure (44 + ((batchLength : Int) - 49))

/-- fetch_response.go:181-196: decode one legacy message with its header and put what it holds;
`false` if it held nothing (the caller returns) -/
def putLegacy (env : FetchEnv) (topic : Bytes) (part : Int32) (value : Bytes) : FM Bool := do
  let ms ← FM.lift (decodeToMessageSet env.compress env.legacyFuel value)
  if ms = [] then pure false
  else do
    putAll env topic part ms
    pure true

/-- fetch_response.go:134-197, the second and later rounds of the loop; `acc` is the local `offset`.
Every round reads at least 12 bytes, so `fuel` above the number of bytes left is never used up. -/
def legacyLoop (env : FetchEnv) (topic : Bytes) (part : Int32) : Nat → Int → FM Int
  | 0, _ => FM.fail (.other "fuel")
  | fuel + 1, acc => do
    let (buf, e) ← fetchRead 12
    match e with
    | some e => FM.fail e
    | none =>
      let messageSize := beAt 4 8 buf
      let (got, e) ← fetchRead1 messageSize
      let acc := acc + 12 + got.length
      match e with
      | some e => FM.fail e
      | none =>
        if (got.length : Int) < (messageSize : Int) - 5 then pure acc
        else do
          let more ← putLegacy env topic part (buf ++ got ++ List.replicate (messageSize - got.length) 0)
          if more then legacyLoop env topic part fuel acc else pure acc

/-- fetch_response.go:130-198 `decodeMessageSetMagic0or1` -/
def decodeMessageSetMagic0or1 (env : FetchEnv) (topic : Bytes) (part : Int32) (header17 : Bytes) : FM Int := do
  let messageSize := beAt 4 8 header17
  if messageSize < 6 then pure 0
  else do
    let (got, e) ← fetchRead1 (messageSize - 5)
    match e with
    | some e => FM.fail e
    | none =>
      if got.length < messageSize - 5 then pure (got.length : Int)
      else do
        let more ← putLegacy env topic part (header17 ++ got)
        if more then (fun s => legacyLoop env topic part (s.rd.limit + 1) got.length s)
        else pure (got.length : Int)

/-- fetch_response.go:333-362: the loop over the batches; `offset` is the local variable.  Every round
reads 17 bytes, so `fuel` above the number of bytes left is never used up. -/
def messageSetLoop (env : FetchEnv) (topic : Bytes) (part : Int32) (size : Int) : Nat → Int → FM Unit
  | 0, _ => FM.fail (.other "fuel")
  | fuel + 1, offset =>
    if offset < size then do
      let (header17, e) ← fetchRead 17
      match e with
      | some e => if e = .unexpectedEof then pure () else FM.fail e
      | none => do
        let o ← (if beAt 1 16 header17 < 2 then decodeMessageSetMagic0or1 env topic part header17
                 else decodeRecordsMagic2 env topic part header17)
        messageSetLoop env topic part size fuel (offset + 17 + o)
    else pure ()

/-- fetch_response.go:318-327: the deferred function of `decodeMessageSet` -/
def messageSetFix (s : SD) (e : Option Err) : Option Err :=
  let e := match e with
    | some e =>
      if (e.is .eof || e.is .unexpectedEof || decide (e = .maxBytesTooSmall)) && s.hasOne then none else some e
    | none => none
  if !s.hasOne && e.isNone then some .maxBytesTooSmall else e

/-- fetch_response.go:317-364 `decodeMessageSet` -/
def decodeMessageSet (env : FetchEnv) (topic : Bytes) (part : Int32) (size : Int32) : FM Unit :=
  FM.after (fun s => messageSetLoop env topic part size.toInt (s.rd.limit + 1) 0 s) messageSetFix

/-- `if _, err = streamDecoder.Read(buf[:k]); err != nil { return err }`: one `Read`, possibly short,
into the shared 8-byte buffer, of which the rest keeps its old contents -/
def rdBuf (k : Nat) (buf : Bytes) : FM Bytes := do
  let (got, e) ← fetchRead1 k
  match e with
  | some e => FM.fail e
  | none => pure (got ++ buf.drop got.length)

/-- fetch_response.go:417-427: the aborted transactions -/
def rdAborted : Nat → Bytes → FM Bytes
  | 0, buf => pure buf
  | n + 1, buf => do
    let buf ← rdBuf 8 buf
    let buf ← rdBuf 8 buf
    rdAborted n buf

/-- fetch_response.go:396-429: the fields of versions 7 and 10 -/
def rdPartitionV7 (version : UInt16) (buf : Bytes) : FM Bytes :=
  if version = 7 ∨ version = 10 then do
    let buf ← rdBuf 8 buf
    let buf ← rdBuf 8 buf
    let buf ← rdBuf 4 buf
    let count := (UInt32.ofNat (beAt 4 0 buf)).toInt32
    rdAborted count.toInt.toNat buf
  else pure buf

/-- fetch_response.go:378-434: partition id and size of the record data; fails with the error code -/
def partitionHead (version : UInt16) : FM (Int32 × Int32) := do
  let buf ← rdBuf 4 (List.replicate 8 0)
  let partitionID := (UInt32.ofNat (beAt 4 0 buf)).toInt32
  let buf ← rdBuf 2 buf
  let errorCode := (UInt16.ofNat (beAt 2 0 buf)).toInt16
  if errorCode ≠ 0 then FM.fail (.kafka errorCode)
  else do
    let buf ← rdBuf 8 buf
    let buf ← rdPartitionV7 version buf
    let buf ← rdBuf 4 buf
    pure (partitionID, (UInt32.ofNat (beAt 4 0 buf)).toInt32)

/-- fetch_response.go:378-443: the body of `decodePartitionResponse` -/
def partitionBody (env : FetchEnv) (topic : Bytes) : FM Unit := do
  let (partitionID, size) ← partitionHead env.version
  if size ≤ 0 then pure () else decodeMessageSet env topic partitionID size

/-- fetch_response.go:372-376: the deferred function of `decodePartitionResponse` -/
def partitionFix (_ : SD) (e : Option Err) : Option Err :=
  match e with
  | some e => some (if e.is .eof then .maxBytesTooSmall else e)
  | none => none

/-- fetch_response.go:366-444 `decodePartitionResponse` -/
def decodePartitionResponse (env : FetchEnv) (topic : Bytes) : FM Unit :=
  FM.after (partitionBody env topic) partitionFix

/-- `buffer, _, err = streamDecoder.read(n); if err != nil { return err }` -/
def rdExact (n : Nat) : FM Bytes := do
  let (got, e) ← fetchRead n
  match e with
  | some e => FM.fail e
  | none => pure got

/-- a loop of `n` rounds of the same code -/
def FM.times : Nat → FM Unit → FM Unit
  | 0, _ => pure ()
  | n + 1, m => do m; FM.times n m

/-- fetch_response.go:452-468: topic name and number of partitions -/
def topicHead : FM (Bytes × Nat) := do
  let b ← rdExact 2
  let topic ← rdExact (beAt 2 0 b)
  let b ← rdExact 4
  pure (topic, beAt 4 0 b)

/-- fetch_response.go:446-481 `decodeResponses` -/
def decodeResponses (env : FetchEnv) : FM Unit := do
  let (topic, count) ← topicHead
  if count = 0 then FM.fail .noPartitionResponse
  else FM.times count (decodePartitionResponse env topic)

/-- fetch_response.go:483-507 `decodeHeader`: the number of topic responses.  In versions 7 and 10 the
header holds the throttle time, an error code and the session id, which are not looked at. -/
def decodeFetchHeader (version : UInt16) : FM Nat :=
  if version = 0 then do
    let b ← rdExact 8
    pure (beAt 4 4 b)
  else if version = 7 ∨ version = 10 then do
    let b ← rdExact 18
    pure (beAt 4 14 b)
  else FM.crash

/-- fetch_response.go:530-548: after an error in one topic response the error is sent to the channel
and the function returns -/
def responsesLoop (env : FetchEnv) : Nat → FM Unit
  | 0 => pure ()
  | n + 1 => fun s =>
    match decodeResponses env s with
    | .ok () s' => responsesLoop env n s'
    | .err e s' => putMessage env { topicName := [], partitionID := -1, error := some e, message := none } s'
    | .panic => .panic

/-- fetch_response.go:517-550: after the header; the deferred function drains the reader -/
def drainAfter (m : FM Unit) : FM Unit := fun s =>
  match m s with
  | .ok () s' => .ok () { s' with rd := s'.rd.drain, offset := s'.offset + (s'.rd.limit - s'.rd.drain.limit) }
  | .err e s' => .err e { s' with rd := s'.rd.drain, offset := s'.offset + (s'.rd.limit - s'.rd.drain.limit) }
  | .panic => .panic

/-- fetch_response.go:509-551 `streamDecode` -/
def streamDecode (env : FetchEnv) : FM Unit := fun s =>
  (do
    let n ← decodeFetchHeader env.version
    drainAfter (responsesLoop env n)) { s with offset := 0, hasOne := false }

end Healer
