import Verif.Spec.Wire

/-!
# MurmurHash2 and Kafka's default partitioner

The hash is that of Austin Appleby, which both the library used by the producer (github.com/aviddiviner/go-murmur, not part of
/repo) and `org.apache.kafka.common.utils.Utils.murmur2` implement; they differ in the seed.
-/

namespace Kafka

/-- four bytes, the least significant one first -/
def le32 (a b c d : UInt8) : UInt32 := a.toUInt32 ||| b.toUInt32 <<< 8 ||| c.toUInt32 <<< 16 ||| d.toUInt32 <<< 24

/-- one round: four bytes mixed into the hash -/
def murmurMix (h k : UInt32) : UInt32 :=
  let k := k * 0x5bd1e995
  let k := (k ^^^ k >>> 24) * 0x5bd1e995
  h * 0x5bd1e995 ^^^ k

/-- the bytes, four at a time, then what is left -/
def murmurLoop (h : UInt32) : List UInt8 → UInt32
  | a :: b :: c :: d :: rest => murmurLoop (murmurMix h (le32 a b c d)) rest
  | [a, b, c] => (h ^^^ c.toUInt32 <<< 16 ^^^ b.toUInt32 <<< 8 ^^^ a.toUInt32) * 0x5bd1e995
  | [a, b] => (h ^^^ b.toUInt32 <<< 8 ^^^ a.toUInt32) * 0x5bd1e995
  | [a] => (h ^^^ a.toUInt32) * 0x5bd1e995
  | [] => h

/-- MurmurHash2 with a seed -/
def murmur2 (seed : UInt32) (data : List UInt8) : UInt32 :=
  let h := murmurLoop (seed ^^^ UInt32.ofNat data.length) data
  let h := (h ^^^ h >>> 13) * 0x5bd1e995
  h ^^^ h >>> 15

/-- `BuiltInPartitioner.partitionForKey`: the hash with Kafka's seed, without its sign, modulo the number of partitions -/
def partitionForKey (key : List UInt8) (n : Nat) : Nat := (murmur2 0x9747b28c key &&& 0x7fffffff).toNat % n

end Kafka
