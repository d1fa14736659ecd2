/-!
# Kafka wire grammar (specification)

Primitive types of https://kafka.apache.org/protocol#protocol_types, written from the protocol
document.  Nothing here mentions the Go code or its model.
-/

namespace Kafka

/-- A sequence of bytes on the wire. -/
notation "Wire" => List UInt8

/-- `w` bytes, most significant first, of the natural number `v` (modulo `256^w`). -/
def be (w v : Nat) : Wire := (List.range w).reverse.map fun i => UInt8.ofNat (v / 256 ^ i)

/-- Two's-complement big-endian integers. -/
def int8 (v : Int) : Wire := be 1 (v % 2 ^ 8).toNat
def int16 (v : Int) : Wire := be 2 (v % 2 ^ 16).toNat
def int32 (v : Int) : Wire := be 4 (v % 2 ^ 32).toNat
def int64 (v : Int) : Wire := be 8 (v % 2 ^ 64).toNat

/-- BOOLEAN -/
def boolean (b : Bool) : Wire := [if b then 1 else 0]

/-- UNSIGNED_VARINT: groups of seven bits, least significant first; every byte but the last has
its top bit set.  `Nat.log2 v / 7` is the number of continuation bytes. -/
def uvarint (v : Nat) : Wire :=
  (List.range (Nat.log2 v / 7)).map (fun i => UInt8.ofNat (v / 128 ^ i % 128 + 128))
    ++ [UInt8.ofNat (v / 128 ^ (Nat.log2 v / 7))]

/-- VARINT / VARLONG: zig-zag, then UNSIGNED_VARINT. -/
def varint (v : Int) : Wire := uvarint (if 0 ≤ v then (2 * v).toNat else (-2 * v - 1).toNat)

/-- The longest STRING has 32767 bytes. -/
def IsString (s : Wire) : Prop := s.length < 2 ^ 15

/-- STRING -/
def string (s : Wire) : Wire := int16 s.length ++ s

/-- NULLABLE_STRING -/
def nullableString : Option Wire → Wire
  | none => int16 (-1)
  | some s => int16 s.length ++ s

/-- COMPACT_STRING -/
def compactString (s : Wire) : Wire := uvarint (s.length + 1) ++ s

/-- COMPACT_NULLABLE_STRING -/
def compactNullableString : Option Wire → Wire
  | none => uvarint 0
  | some s => uvarint (s.length + 1) ++ s

/-- BYTES -/
def bytes (s : Wire) : Wire := int32 s.length ++ s

/-- NULLABLE_BYTES -/
def nullableBytes : Option Wire → Wire
  | none => int32 (-1)
  | some s => int32 s.length ++ s

/-- COMPACT_BYTES -/
def compactBytes (s : Wire) : Wire := uvarint (s.length + 1) ++ s

/-- COMPACT_NULLABLE_BYTES -/
def compactNullableBytes : Option Wire → Wire
  | none => uvarint 0
  | some s => uvarint (s.length + 1) ++ s

/-- ARRAY -/
def array {α : Type} (f : α → Wire) (xs : List α) : Wire := int32 xs.length ++ xs.flatMap f

/-- nullable ARRAY -/
def nullableArray {α : Type} (f : α → Wire) : Option (List α) → Wire
  | none => int32 (-1)
  | some xs => int32 xs.length ++ xs.flatMap f

/-- COMPACT_ARRAY -/
def compactArray {α : Type} (f : α → Wire) (xs : List α) : Wire :=
  uvarint (xs.length + 1) ++ xs.flatMap f

/-- nullable COMPACT_ARRAY -/
def compactNullableArray {α : Type} (f : α → Wire) : Option (List α) → Wire
  | none => uvarint 0
  | some xs => uvarint (xs.length + 1) ++ xs.flatMap f

/-- Flexible versions of a message use the compact types. -/
def flexString (f : Bool) (s : Wire) : Wire := if f then compactString s else string s
def flexNullable (f : Bool) (s : Option Wire) : Wire := if f then compactNullableString s else nullableString s
def flexArray {α : Type} (f : Bool) (enc : α → Wire) (xs : List α) : Wire :=
  if f then compactArray enc xs else array enc xs

/-- TAG_BUFFER: number of tagged fields, then for each its tag, size and bytes (KIP-482). -/
def tagBuffer (ts : List (Nat × Wire)) : Wire :=
  uvarint ts.length ++ ts.flatMap fun t => uvarint t.1 ++ uvarint t.2.length ++ t.2

/-- Present in flexible versions only. -/
def flexTags (f : Bool) (ts : List (Nat × Wire)) : Wire := if f then tagBuffer ts else []

/-- Size-prefixed frame: every request and response on the connection. -/
def frame (body : Wire) : Wire := int32 body.length ++ body

end Kafka
