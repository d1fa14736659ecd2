import Verif.Go.Basic
import Verif.Spec.Crc

/-!
# hash/crc32

Go's table-driven algorithm (`simpleMakeTable`, `simpleUpdate` in the standard library), and the
proof that it computes the bitwise CRC of the specification.  The hardware and slicing-by-8
variants the library may select compute the same function and are not modelled.
-/

namespace Healer

/-- `crc32.MakeTable(poly)[i]` -/
def crcTable (poly : BitVec 32) (i : UInt8) : BitVec 32 :=
  Nat.repeat (fun c => if c &&& 1#32 = 1#32 then (c >>> 1) ^^^ poly else c >>> 1) 8
    (i.toBitVec.setWidth 32)

/-- one round of `simpleUpdate`: `crc = tab[byte(crc)^v] ^ (crc >> 8)` -/
def crcUpdate (poly c : BitVec 32) (v : UInt8) : BitVec 32 :=
  crcTable poly (UInt8.ofBitVec (c.setWidth 8) ^^^ v) ^^^ (c >>> 8)

/-- `crc32.Checksum(data, MakeTable(poly))` -/
def crcChecksum (poly : BitVec 32) (data : Bytes) : UInt32 :=
  UInt32.ofBitVec (~~~ (data.foldl (crcUpdate poly) (~~~ 0#32)))

/-- `crc32.Checksum(data, crc32.MakeTable(crc32.Castagnoli))` -/
def crc32Castagnoli (data : Bytes) : UInt32 := crcChecksum 0x82F63B78#32 data
/-- `crc32.ChecksumIEEE(data)` -/
def crc32IEEE (data : Bytes) : UInt32 := crcChecksum 0xEDB88320#32 data

theorem crcBit_xor (poly a b : BitVec 32) :
    Kafka.crcBit poly (a ^^^ b) = Kafka.crcBit poly a ^^^ Kafka.crcBit poly b := by
  unfold Kafka.crcBit
  rw [BitVec.getLsbD_xor, BitVec.ushiftRight_xor_distrib]
  generalize a >>> 1 = x
  generalize b >>> 1 = y
  cases a.getLsbD 0 <;> cases b.getLsbD 0
  · simp
  · simp [BitVec.xor_assoc]
  · simp only [Bool.xor_false, if_true, Bool.false_eq_true, if_false, BitVec.xor_zero]
    rw [BitVec.xor_assoc, BitVec.xor_assoc, BitVec.xor_comm y poly]
  · simp only [Bool.xor_self, if_true, Bool.false_eq_true, if_false, BitVec.xor_zero]
    rw [BitVec.xor_assoc, BitVec.xor_comm poly, BitVec.xor_assoc, BitVec.xor_self, BitVec.xor_zero]

theorem crcBit_repeat_xor (poly : BitVec 32) (n : Nat) (a b : BitVec 32) :
    Nat.repeat (Kafka.crcBit poly) n (a ^^^ b)
      = Nat.repeat (Kafka.crcBit poly) n a ^^^ Nat.repeat (Kafka.crcBit poly) n b := by
  induction n with
  | zero => rfl
  | succ n ih => simp only [Nat.repeat, ih, crcBit_xor]

/-- With the low `n` bits clear, `n` rounds only shift. -/
theorem crcBit_repeat_high (poly : BitVec 32) (n : Nat) (a : BitVec 32)
    (h : ∀ i < n, a.getLsbD i = false) : Nat.repeat (Kafka.crcBit poly) n a = a >>> n := by
  induction n with
  | zero => simp [Nat.repeat]
  | succ n ih =>
    simp only [Nat.repeat]
    rw [ih (fun i hi => h i (by omega))]
    unfold Kafka.crcBit
    rw [BitVec.getLsbD_ushiftRight, Nat.add_zero, h n (by omega)]
    simp [← BitVec.shiftRight_add]

theorem crcTable_eq (poly : BitVec 32) (i : UInt8) :
    crcTable poly i = Nat.repeat (Kafka.crcBit poly) 8 (i.toBitVec.setWidth 32) := by
  unfold crcTable
  congr 1
  funext c
  unfold Kafka.crcBit
  have : (c &&& 1#32 = 1#32) ↔ c.getLsbD 0 = true := by
    constructor
    · intro h
      have := congrArg (fun x => x.getLsbD 0) h
      simpa using this
    · intro h
      ext i hi
      simp only [BitVec.getElem_and, BitVec.getElem_one]
      by_cases h0 : i = 0
      · subst h0; simpa [BitVec.getLsbD_eq_getElem] using h
      · simp [h0]
  by_cases hc : c.getLsbD 0 = true
  · rw [if_pos (this.2 hc), if_pos hc]
  · rw [if_neg (fun x => hc (this.1 x)), if_neg hc]; simp

theorem crcUpdate_eq (poly c : BitVec 32) (v : UInt8) : crcUpdate poly c v = Kafka.crcByte poly c v := by
  unfold crcUpdate Kafka.crcByte
  rw [crcTable_eq]
  have hsplit : c ^^^ v.toBitVec.setWidth 32
      = ((UInt8.ofBitVec (c.setWidth 8) ^^^ v).toBitVec.setWidth 32) ^^^ (c &&& 0xFFFFFF00#32) := by
    ext i hi
    simp only [BitVec.getElem_xor, BitVec.getElem_setWidth, UInt8.toBitVec_xor, UInt8.toBitVec_ofBitVec,
      BitVec.getLsbD_xor, BitVec.getLsbD_setWidth, BitVec.getElem_and]
    have hc : c[i] = c.getLsbD i := (BitVec.getLsbD_eq_getElem hi).symm
    rw [hc]
    by_cases h8 : i < 8
    · have hm : (0xFFFFFF00#32)[i] = false := by
        have : ∀ j (hj : j < 32), j < 8 → (0xFFFFFF00#32)[j] = false := by decide
        exact this i hi h8
      simp [h8, hm]
    · have hm : (0xFFFFFF00#32)[i] = true := by
        have : ∀ j (hj : j < 32), ¬ j < 8 → (0xFFFFFF00#32)[j] = true := by decide
        exact this i hi h8
      have hv : v.toBitVec.getLsbD i = false := BitVec.getLsbD_of_ge _ _ (by omega)
      simp [h8, hm, hv]
  rw [hsplit, crcBit_repeat_xor]
  congr 1
  rw [crcBit_repeat_high]
  · ext i hi
    simp only [BitVec.getElem_ushiftRight, BitVec.getLsbD_and]
    by_cases h : 8 + i < 32
    · have : ∀ j, j < 24 → (0xFFFFFF00#32).getLsbD (8 + j) = true := by decide
      rw [this i (by omega)]; simp
    · rw [BitVec.getLsbD_of_ge c _ (by omega)]; simp
  · intro i hi
    have : ∀ j, j < 8 → (0xFFFFFF00#32).getLsbD j = false := by decide
    rw [BitVec.getLsbD_and, this i hi]; simp

theorem crcChecksum_eq (poly : BitVec 32) (data : Bytes) : crcChecksum poly data = Kafka.crc poly data := by
  unfold crcChecksum Kafka.crc
  congr 2
  have : crcUpdate poly = Kafka.crcByte poly := by funext c v; exact crcUpdate_eq poly c v
  rw [this]
  rfl

theorem crc32Castagnoli_eq (data : Bytes) : crc32Castagnoli data = Kafka.crc32c data := crcChecksum_eq _ _
theorem crc32IEEE_eq (data : Bytes) : crc32IEEE data = Kafka.crc32 data := crcChecksum_eq _ _

end Healer
