/-!
# CRC-32 checksums (specification)

The bit-at-a-time definition of the reflected 32-bit CRC with initial value and final complement
all ones.  CRC-32C (Castagnoli) is used by record batches, CRC-32 (IEEE) by legacy messages.
-/

namespace Kafka

/-- Shift out one bit; if it was set, add the generator polynomial. -/
def crcBit (poly c : BitVec 32) : BitVec 32 :=
  (c >>> 1) ^^^ (if c.getLsbD 0 then poly else 0#32)

/-- Add one byte of input. -/
def crcByte (poly c : BitVec 32) (b : UInt8) : BitVec 32 :=
  Nat.repeat (crcBit poly) 8 (c ^^^ b.toBitVec.setWidth 32)

def crc (poly : BitVec 32) (bs : List UInt8) : UInt32 :=
  UInt32.ofBitVec (~~~ (bs.foldl (crcByte poly) (0xFFFFFFFF#32)))

/-- CRC-32C -/
def crc32c (bs : List UInt8) : UInt32 := crc 0x82F63B78#32 bs
/-- CRC-32 -/
def crc32 (bs : List UInt8) : UInt32 := crc 0xEDB88320#32 bs

/-- The check values of the two standard CRCs (input "123456789"). -/
example : crc32c [49, 50, 51, 52, 53, 54, 55, 56, 57] = 0xE3069283 := by decide +kernel
example : crc32 [49, 50, 51, 52, 53, 54, 55, 56, 57] = 0xCBF43926 := by decide +kernel

end Kafka
