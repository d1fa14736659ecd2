import Verif.Go.Cursor
import Verif.Spec.Wire

/-!
# Bridge lemmas: Go's `encoding/binary` output equals the wire grammar
-/

namespace Healer

theorem be_succ (w v : Nat) : Kafka.be (w + 1) v = UInt8.ofNat (v / 256 ^ w) :: Kafka.be w v := by
  simp [Kafka.be, List.range_succ]

theorem beBytes_eq (w v : Nat) : beBytes w v = Kafka.be w v := by
  induction w with
  | zero => rfl
  | succ w ih => rw [be_succ, beBytes, ih]

theorem putUvarint_eq (x : Nat) : putUvarint x = Kafka.uvarint x := by
  induction x using Nat.strongRecOn with
  | _ x ih =>
    rw [putUvarint_unfold]
    split
    · rename_i h
      have hl : Nat.log2 x / 7 = 0 := by
        by_cases h0 : x = 0
        · subst h0; decide
        · have := (Nat.log2_lt h0 (k := 7)).2 (by omega)
          omega
      simp [Kafka.uvarint, hl]
    · rename_i h
      have h1 : Nat.log2 x = Nat.log2 (x / 128) + 7 := by
        have hx : x / 128 ≠ 0 := by omega
        have h0 : x ≠ 0 := by omega
        have a := (Nat.log2_eq_iff hx (k := Nat.log2 (x/128))).1 rfl
        rw [Nat.log2_eq_iff h0]
        have e1 : 2 ^ (Nat.log2 (x / 128) + 7) = 2 ^ (Nat.log2 (x / 128)) * 128 := by
          rw [Nat.pow_add]
        have e2 : 2 ^ (Nat.log2 (x / 128) + 7 + 1) = 2 ^ (Nat.log2 (x / 128) + 1) * 128 := by
          rw [show Nat.log2 (x / 128) + 7 + 1 = (Nat.log2 (x / 128) + 1) + 7 from by omega, Nat.pow_add]
        rw [e1, e2]
        generalize 2 ^ (Nat.log2 (x / 128)) = p at *
        generalize 2 ^ (Nat.log2 (x / 128) + 1) = q at *
        omega
      rw [ih (x / 128) (by omega)]
      have h2 : Nat.log2 x / 7 = Nat.log2 (x / 128) / 7 + 1 := by omega
      have h3 : ∀ i, x / 128 / 128 ^ i = x / 128 ^ (i + 1) := by
        intro i; rw [Nat.div_div_eq_div_mul, Nat.pow_succ, Nat.mul_comm]
      unfold Kafka.uvarint
      rw [h2, List.range_succ_eq_map]
      simp only [h3]
      simp [Function.comp_def]

theorem be16_eq (v : Int16) : be16 v.toUInt16 = Kafka.int16 v.toInt := by
  unfold be16 Kafka.int16
  rw [beBytes_eq]
  congr 1
  have := v.toBitVec.toNat_of_zero_length
  rw [← Int16.toInt_toBitVec]
  show v.toBitVec.toNat = _
  rw [BitVec.toInt_eq_toNat_cond]
  have := v.toBitVec.isLt
  split <;> omega

theorem be32_eq (v : Int32) : be32 v.toUInt32 = Kafka.int32 v.toInt := by
  unfold be32 Kafka.int32
  rw [beBytes_eq]
  congr 1
  rw [← Int32.toInt_toBitVec]
  show v.toBitVec.toNat = _
  rw [BitVec.toInt_eq_toNat_cond]
  have := v.toBitVec.isLt
  split <;> omega

theorem be64_eq (v : Int64) : be64 v.toUInt64 = Kafka.int64 v.toInt := by
  unfold be64 Kafka.int64
  rw [beBytes_eq]
  congr 1
  rw [← Int64.toInt_toBitVec]
  show v.toBitVec.toNat = _
  rw [BitVec.toInt_eq_toNat_cond]
  have := v.toBitVec.isLt
  split <;> omega

theorem be16_ofNat (n : Nat) : be16 (UInt16.ofNat n) = Kafka.int16 n := by
  unfold be16 Kafka.int16
  rw [beBytes_eq, UInt16.toNat_ofNat']
  congr 1

theorem be32_ofNat (n : Nat) : be32 (UInt32.ofNat n) = Kafka.int32 n := by
  unfold be32 Kafka.int32
  rw [beBytes_eq, UInt32.toNat_ofNat']
  congr 1

theorem be64_ofNat (n : Nat) : be64 (UInt64.ofNat n) = Kafka.int64 n := by
  unfold be64 Kafka.int64
  rw [beBytes_eq, UInt64.toNat_ofNat']
  congr 1

theorem int8_eq (v : Int8) : [v.toUInt8] = Kafka.int8 v.toInt := by
  unfold Kafka.int8
  rw [← beBytes_eq, ← Int8.toInt_toBitVec]
  simp only [beBytes, Nat.pow_zero, Nat.div_one]
  congr 1
  rw [BitVec.toInt_eq_toNat_cond]
  have := v.toBitVec.isLt
  have h : v.toUInt8.toNat = v.toBitVec.toNat := rfl
  rw [← UInt8.toNat_inj, UInt8.toNat_ofNat', h]
  split <;> omega

@[simp] theorem be_length (w v : Nat) : (Kafka.be w v).length = w := by simp [Kafka.be]
@[simp] theorem int8_length (v : Int) : (Kafka.int8 v).length = 1 := by simp [Kafka.int8]
@[simp] theorem int16_length (v : Int) : (Kafka.int16 v).length = 2 := by simp [Kafka.int16]
@[simp] theorem int32_length (v : Int) : (Kafka.int32 v).length = 4 := by simp [Kafka.int32]
@[simp] theorem int64_length (v : Int) : (Kafka.int64 v).length = 8 := by simp [Kafka.int64]
@[simp] theorem boolean_length (b : Bool) : (Kafka.boolean b).length = 1 := by simp [Kafka.boolean]

theorem putVarint_eq (v : Int) : putVarint v = Kafka.varint v := by
  unfold putVarint Kafka.varint zigzag
  rw [putUvarint_eq]
  congr 1
  by_cases h : v < 0
  · rw [if_pos h, if_neg (by omega)]
  · rw [if_neg h, if_pos (by omega)]

theorem uvarint_length_pos (x : Nat) : 0 < (Kafka.uvarint x).length := by
  rw [← putUvarint_eq]; exact putUvarint_length_pos x

theorem uvarint_length_le (k x : Nat) (hx : x < 128 ^ (k + 1)) :
    (Kafka.uvarint x).length ≤ k + 1 := by
  rw [← putUvarint_eq]; exact putUvarint_length_le k x hx

/-! Reading grammar integers back. -/

theorem toInt16_of_spec (v : Int) (h : -2 ^ 15 ≤ v ∧ v < 2 ^ 15) : (Int16.ofInt v).toInt = v := by
  rw [Int16.toInt_ofInt]; exact Int.bmod_eq_of_le (by simp only [Int16.size]; omega) (by simp only [Int16.size]; omega)
theorem toInt32_of_spec (v : Int) (h : -2 ^ 31 ≤ v ∧ v < 2 ^ 31) : (Int32.ofInt v).toInt = v := by
  rw [Int32.toInt_ofInt]; exact Int.bmod_eq_of_le (by simp only [Int32.size]; omega) (by simp only [Int32.size]; omega)
theorem toInt64_of_spec (v : Int) (h : -2 ^ 63 ≤ v ∧ v < 2 ^ 63) : (Int64.ofInt v).toInt = v := by
  rw [Int64.toInt_ofInt]; exact Int.bmod_eq_of_le (by simp only [Int64.size]; omega) (by simp only [Int64.size]; omega)

theorem creads_int8 (v : Int8) : CReads rdI8 (Kafka.int8 v.toInt) v :=
  (reads_rdI8 v).cast (int8_eq v) rfl
theorem creads_int16 (v : Int16) : CReads rdI16 (Kafka.int16 v.toInt) v :=
  (reads_rdI16 v).cast (be16_eq v) rfl
theorem creads_int32 (v : Int32) : CReads rdI32 (Kafka.int32 v.toInt) v :=
  (reads_rdI32 v).cast (be32_eq v) rfl
theorem creads_int64 (v : Int64) : CReads rdI64 (Kafka.int64 v.toInt) v :=
  (reads_rdI64 v).cast (be64_eq v) rfl

/-- Reading an unsigned 16-bit length written for `n < 65536`. -/
theorem creads_len16 (n : Nat) : CReads rdU16 (Kafka.int16 n) (UInt16.ofNat n) :=
  (reads_rdU16 _).cast (be16_ofNat n) rfl
theorem creads_len32 (n : Nat) : CReads rdU32 (Kafka.int32 n) (UInt32.ofNat n) :=
  (reads_rdU32 _).cast (be32_ofNat n) rfl
theorem creads_ilen32 (n : Nat) : CReads rdI32 (Kafka.int32 n) (UInt32.ofNat n).toInt32 :=
  CReads.bind_pure (g := UInt32.toInt32) (creads_len32 n)
theorem creads_ilen16 (n : Nat) : CReads rdI16 (Kafka.int16 n) (UInt16.ofNat n).toInt16 :=
  CReads.bind_pure (g := UInt16.toInt16) (creads_len16 n)

theorem toNat_len16 (n : Nat) (h : n < 2 ^ 16) : (UInt16.ofNat n).toNat = n := by
  rw [UInt16.toNat_ofNat']; omega
theorem toNat_len32 (n : Nat) (h : n < 2 ^ 32) : (UInt32.ofNat n).toNat = n := by
  rw [UInt32.toNat_ofNat']; omega
theorem toInt_ilen32 (n : Nat) (h : n < 2 ^ 31) : (UInt32.ofNat n).toInt32.toInt = n := by
  rw [UInt32.toInt32_ofNat', Int32.toInt_ofNat']
  exact Int.bmod_eq_of_le (by simp only [Int32.size]; omega) (by simp only [Int32.size]; omega)
theorem toInt_ilen16 (n : Nat) (h : n < 2 ^ 15) : (UInt16.ofNat n).toInt16.toInt = n := by
  rw [UInt16.toInt16_ofNat', Int16.toInt_ofNat']
  exact Int.bmod_eq_of_le (by simp only [Int16.size]; omega) (by simp only [Int16.size]; omega)

theorem creads_uvarint (x : Nat) (hx : x < 2 ^ 64) : CReads rdUvarint (Kafka.uvarint x) x :=
  (reads_rdUvarint x hx).cast (putUvarint_eq x) rfl
theorem creads_varint (x : Int) (h : -2 ^ 63 ≤ x ∧ x < 2 ^ 63) :
    CReads rdVarint (Kafka.varint x) x :=
  (reads_rdVarint x h).cast (putVarint_eq x) rfl

end Healer
