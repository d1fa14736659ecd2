import Verif.Model.Record
import Verif.Model.Header

/-!
# Legacy messages and message sets (message.go)
-/

namespace Healer

/-- message.go:21-35 `Message`; `none` is the nil slice. -/
structure Message where
  offset : Int64 := 0
  messageSize : Int32 := 0
  crc : UInt32 := 0
  magicByte : Int8 := 0
  attributes : Int8 := 0
  timestamp : UInt64 := 0
  key : Option Bytes := none
  value : Option Bytes := none
  headers : List RecordHeader := []
deriving DecidableEq, Repr

/-- The compressors (compressor.go:7-19, compress_type.go:19-32) by their type number; gzip, snappy
and lz4 are external, so the table is a parameter: `compress c b` for `c` = 0, 1, 2, 3, where
`compress 0` is `NoneCompressor` (none_compressor.go:6-8). -/
abbrev Compress := Int8 → Bytes → Out Bytes

/-- message.go:40-47 `decompress`.  It calls `Compress` and uses only two of the three type bits; the
result of two bits is always one of the four known names. -/
def Message.decompress (compress : Compress) (m : Message) : Out Bytes :=
  compress (m.attributes &&& 3) (m.value.getD [])

/-- message.go:49-58 `MessageSet.Length` -/
def messageSetLength (ms : List Message) : Nat :=
  ms.foldl (fun l m => l + (26 + optLen m.key + optLen m.value) + (if m.magicByte = 1 then 8 else 0)) 0

/-- message.go:74-104: the code leaves a gap of four bytes, writes `body`, and stores the checksum of
what `body` wrote in the gap.  `payload[crcPosition+4 : offset]` panics if the copies ran past the end. -/
def Enc.sumBlock (sum : Bytes → UInt32) (body : Enc) : Enc := fun w =>
  match body { w with data := w.data ++ [0, 0, 0, 0] } with
  | .ok w' =>
    if w'.data.length ≤ w'.cap then
      .ok { w' with data := w.data ++ be32 (sum (w'.data.drop (w.data.length + 4))) ++
              w'.data.drop (w.data.length + 4) }
    else .panic
  | .err e => .err e
  | .panic => .panic

/-- message.go:87-95: the key, nil written as length -1 -/
def encodeLegacyKey : Option Bytes → Enc
  | none => Enc.put (be32 (Int32.toUInt32 (-1)))
  | some k => Enc.seq (Enc.put (be32 (UInt32.ofNat k.length))) (Enc.cpyN k)

/-- message.go:77-101: the part covered by the checksum -/
def Message.encodeBody (m : Message) : Enc :=
  Enc.all [
    Enc.put [m.magicByte.toUInt8],
    Enc.put [m.attributes.toUInt8],
    Enc.when (decide (m.magicByte = 1)) (Enc.put (be64 m.timestamp)),
    encodeLegacyKey m.key,
    Enc.put (be32 (UInt32.ofNat (optLen m.value))),
    Enc.cpyN (m.value.getD [])]

/-- message.go:63-104: one message of the loop -/
def Message.encode (m : Message) : Enc :=
  Enc.all [
    Enc.put (be64 m.offset.toUInt64),
    Enc.put (be32 (UInt32.ofNat (14 + optLen m.key + optLen m.value + (if m.magicByte = 1 then 8 else 0)))),
    Enc.sumBlock crc32IEEE m.encodeBody]

/-- message.go:60-107 `MessageSet.Encode` into a buffer.  The assignment to `message.Crc` of the
caller's message is left out. -/
def encodeMessageSet (ms : List Message) : Enc := Enc.each Message.encode ms

/-- message.go:139-147: `-1` is nil, other negative lengths panic in `make` -/
def rdLegacyBytes : Cur (Option Bytes) := do
  let l ← rdI32
  Cur.cond (l ≠ -1) (do let b ← rdBytes l.toInt; pure (some b)) none

/-- message.go:119-158: one message of the loop -/
def rdLegacyMessage : Cur Message := do
  let offset ← rdI64
  let size ← rdI32
  let crc ← rdU32
  let magic ← rdI8
  let attributes ← rdI8
  let timestamp ← Cur.cond (magic = 1) rdU64 0
  let key ← rdLegacyBytes
  let value ← rdLegacyBytes
  pure { offset := offset, messageSize := size, crc := crc, magicByte := magic, attributes := attributes,
         timestamp := timestamp, key := key, value := value }

/-- message.go:112-185 `DecodeToMessageSet` from `offset` on.  The Go function is a loop that calls
itself on compressed values; `fuel` bounds the number of messages looked at (every message consumes
at least 22 bytes, so `payload.length` suffices when nothing is compressed), and running out of it is
reported as the error `other "fuel"`, which no Go execution produces. -/
def decodeMessagesFrom (compress : Compress) : Nat → Bytes → Int → Out (List Message)
  | 0, _, _ => .err (.other "fuel")
  | fuel + 1, p, off =>
    if off = p.length then .ok []
    else match rdLegacyMessage p off with
      | .ok (m, off') =>
        if m.attributes &&& 7 = 0 then
          match decodeMessagesFrom compress fuel p off' with
          | .ok ms => .ok (m :: ms)
          | .err e => .err e
          | .panic => .panic
        else match m.decompress compress with
          | .ok v => match decodeMessagesFrom compress fuel v 0 with
            | .ok inner => match decodeMessagesFrom compress fuel p off' with
              | .ok ms => .ok (inner ++ ms)
              | .err e => .err e
              | .panic => .panic
            | .err e => .err e
            | .panic => .panic
          | .err e => .err e
          | .panic => .panic
      | .err e => .err e
      | .panic => .panic

def decodeToMessageSet (compress : Compress) (fuel : Nat) (p : Bytes) : Out (List Message) :=
  decodeMessagesFrom compress fuel p 0

end Healer
