import Verif.Go.Cursor

/-!
# primitive_type_encode.go, primitive_types_decode.go, tagged_fields.go
-/

namespace Healer

/-- `uint64(1 + len)`-style varint length: `1+uint64(len(s))` as written by `PutUvarint`. -/
def lenPlus1 (n : Nat) : Nat := (UInt64.ofNat n + 1).toNat

/-! ## Encoders -/

/-- primitive_type_encode.go:10-15 `encodeString` -/
def encodeString (s : Bytes) : Out Bytes :=
  encodeFull (s.length + 2) (.all [.put (be16 (UInt16.ofNat s.length)), .cpy s])

/-- primitive_type_encode.go:16-23 `writeString`; the result is what reaches an error-free writer. -/
def writeString (s : Bytes) : Bytes := be16 (UInt16.ofNat s.length) ++ s

/-- primitive_type_encode.go:28-33 `encodeCompactString` (`MaxVarintLen64` = 10) -/
def encodeCompactString (s : Bytes) : Out Bytes :=
  encodeCut (s.length + 10) (.all [.put (putUvarint (lenPlus1 s.length)), .cpy s])

/-- primitive_type_encode.go:35-43 `writeCompactString`, error-free writer -/
def writeCompactString (s : Bytes) : Out Bytes := do
  let l ← encodeCut 10 (.put (putUvarint (lenPlus1 s.length)))
  pure (l ++ s)

/-- primitive_type_encode.go:49-58 `encodeNullableString` -/
def encodeNullableString : Option Bytes → Out Bytes
  | none => .ok (be16 0xFFFF)
  | some s => encodeCut (s.length + 2) (.all [.put (be16 (UInt16.ofNat s.length)), .cpy s])

/-- primitive_type_encode.go:60-71 `writeNullableString`, error-free writer -/
def writeNullableString : Option Bytes → Bytes
  | none => be16 0xFFFF
  | some s => be16 (UInt16.ofNat s.length) ++ s

/-- primitive_type_encode.go:77-85 `encodeCompactNullableString` (`MaxVarintLen16` = 3) -/
def encodeCompactNullableString : Option Bytes → Out Bytes
  | none => .ok [0]
  | some s => encodeCut (s.length + 3) (.all [.put (putUvarint (lenPlus1 s.length)), .cpy s])

/-- primitive_type_encode.go:87-98 `writeCompactNullableString`, error-free writer -/
def writeCompactNullableString : Option Bytes → Out Bytes
  | none => .ok [0]
  | some s => do
    let l ← encodeCut (s.length + 3) (.put (putUvarint (lenPlus1 s.length)))
    pure (l ++ s)

/-- primitive_type_encode.go:103-108 `encodeCompactBytes`; a nil slice has length 0 -/
def encodeCompactBytes (s : Option Bytes) : Out Bytes :=
  let b := s.getD []
  encodeCut (b.length + 10) (.all [.put (putUvarint (lenPlus1 b.length)), .cpy b])

/-- primitive_type_encode.go:114-122 `encodeNullableBytes`.  Line 119 discards the result of
`AppendUint32`, so the four length bytes stay zero. -/
def encodeNullableBytes : Option Bytes → Out Bytes
  | none => .ok (be32 0xFFFFFFFF)
  | some s => encodeCut (s.length + 4) (.all [.put [0, 0, 0, 0], .cpy s])

/-- primitive_type_encode.go:127-135 `encodeCompactNullableBytes` -/
def encodeCompactNullableBytes : Option Bytes → Out Bytes
  | none => .ok [0]
  | some s => encodeCut (s.length + 10) (.all [.put (putUvarint (lenPlus1 s.length)), .cpy s])

/-- primitive_type_encode.go:137-141 `encodeCompactArrayLength`; `l` is a Go `int` (64 bits) -/
def encodeCompactArrayLength (l : Int64) : Out Bytes :=
  encodeCut 10 (.put (putUvarint (1 + l).toUInt64.toNat))

/-! ## Decoders -/

/-- `length--; int(length)` for a uint64 -/
def decLen (v : Nat) : Int := (UInt64.ofNat v - 1).toInt64.toInt

/-- primitive_types_decode.go:11-17 `nonnullableString` -/
def nonnullableString : GoDec Bytes := Cur.run do
  let l ← rdU16
  rdBytes l.toNat

/-- primitive_types_decode.go:22-27 `compactString`.  `o+int(length)` is not wrapped to 64 bits:
a sum beyond the int range panics in Go and here. -/
def compactString : GoDec Bytes := Cur.run do
  let v ← rdUvarint
  rdBytes (decLen v)

/-- primitive_types_decode.go:33-40 `nullableString` -/
def nullableString : GoDec (Option Bytes) := Cur.run do
  let l ← rdI16
  if l = -1 then pure none
  else do
    let s ← rdBytes l.toInt
    pure (some s)

/-- primitive_types_decode.go:46-54 `compactNullableString` -/
def compactNullableString : GoDec (Option Bytes) := Cur.run do
  let v ← rdUvarint
  if v = 0 then pure none
  else do
    let s ← rdBytes (decLen v)
    pure (some s)

/-- primitive_types_decode.go:59-64 `compactBytes` -/
def compactBytes : GoDec Bytes := Cur.run do
  let v ← rdUvarint
  rdBytes (decLen v)

/-- primitive_types_decode.go:70-77 `nullableBytes` -/
def nullableBytes : GoDec (Option Bytes) := Cur.run do
  let l ← rdI32
  if l = -1 then pure none
  else do
    let s ← rdBytes l.toInt
    pure (some s)

/-- primitive_types_decode.go:82-91 `compactNullableBytes`: the length is decremented before it is
compared with zero. -/
def compactNullableBytes : GoDec (Option Bytes) := Cur.run do
  let v ← rdUvarint
  if UInt64.ofNat v - 1 = 0 then pure none
  else do
    let s ← rdBytes (decLen v)
    pure (some s)

/-- primitive_types_decode.go:99-102 `compactArrayLength` -/
def compactArrayLength : GoDec Int32 := fun p =>
  let (l, o) := uvarint p
  .ok ((UInt64.ofNat l).toUInt32.toInt32 - 1, o)

/-! ## Tagged fields -/

/-- tagged_fields.go:9-12 `TaggedField`.  `Tag` is a Go `int`. -/
structure TaggedField where
  tag : Int64
  data : Bytes
deriving DecidableEq, Repr

/-- tagged_fields.go:7 `TaggedFields`; `none` is the nil slice. -/
abbrev TaggedFields := Option (List TaggedField)

/-- tagged_fields.go:62-64: `MaxVarintLen32` = 5 -/
def TaggedField.length (t : TaggedField) : Nat := 5 + 5 + t.data.length

/-- tagged_fields.go:66-71 `TaggedField.encode` -/
def TaggedField.enc (t : TaggedField) : Enc := .all [
  .put (putUvarint t.tag.toUInt64.toNat),
  .put (putUvarint t.data.length),
  .cpy t.data]

/-- tagged_fields.go:14-23 `length`: the receiver is the address of a field, never nil, so the
nil-pointer branch is unreachable through callers; a nil or empty list has length 10. -/
def TaggedFields.length (r : TaggedFields) : Nat :=
  (r.getD []).foldl (fun l v => l + v.length) 10

/-- tagged_fields.go:25-32 `EncodeTo` -/
def TaggedFields.encodeTo (r : TaggedFields) : Enc :=
  .seq (.put (putUvarint (r.getD []).length)) (.each TaggedField.enc (r.getD []))

/-- tagged_fields.go:33-44 `Encode` -/
def TaggedFields.encode (r : TaggedFields) : Out Bytes :=
  match r with
  | none => .ok [0]
  | some _ => encodeCut r.length r.encodeTo

/-- tagged_fields.go:51-58: one iteration of the decoding loop -/
def decodeTaggedField : Cur TaggedField := do
  let tag ← rdUvarint
  let dl ← rdUvarint
  let data ← rdBytes (UInt64.ofNat dl).toInt64.toInt
  pure { tag := (UInt64.ofNat tag).toInt64, data := data }

/-- tagged_fields.go:46-60 `DecodeTaggedFields`; the result stays nil when no field is appended. -/
def decodeTaggedFields : GoDec TaggedFields := Cur.run do
  let n ← rdUvarint
  let xs ← Cur.forN n decodeTaggedField
  pure (if xs = [] then none else some xs)

end Healer
