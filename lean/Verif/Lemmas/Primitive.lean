import Verif.Go.Bridge
import Verif.Model.Primitive

/-! # Helper lemmas about primitive encoders and decoders -/

namespace Healer

theorem lenPlus1_eq (n : Nat) (h : n < 2 ^ 63) : lenPlus1 n = n + 1 := by
  unfold lenPlus1
  rw [UInt64.toNat_add, UInt64.toNat_ofNat']
  have : (1 : UInt64).toNat = 1 := rfl
  omega

theorem decLen_succ (n : Nat) (h : n < 2 ^ 63) : decLen (n + 1) = n := by
  unfold decLen
  have : UInt64.ofNat (n + 1) - 1 = UInt64.ofNat n := by
    apply UInt64.toNat_inj.1
    rw [UInt64.toNat_sub_of_le]
    · simp only [UInt64.toNat_ofNat']
      have : (1 : UInt64).toNat = 1 := rfl
      omega
    · rw [UInt64.le_iff_toNat_le, UInt64.toNat_ofNat']
      have : (1 : UInt64).toNat = 1 := rfl
      omega
  rw [this, UInt64.toInt64_ofNat', Int64.toInt_ofNat']
  exact Int.bmod_eq_of_le (by simp only [Int64.size]; omega) (by simp only [Int64.size]; omega)

theorem uvarint_len_le5 (n : Nat) (h : n < 2 ^ 35) : (Kafka.uvarint n).length ≤ 5 := by
  apply uvarint_length_le 4
  have : (128 : Nat) ^ (4 + 1) = 2 ^ 35 := by decide
  omega
theorem uvarint_len_le3 (n : Nat) (h : n < 2 ^ 21) : (Kafka.uvarint n).length ≤ 3 := by
  apply uvarint_length_le 2
  have : (128 : Nat) ^ (2 + 1) = 2 ^ 21 := by decide
  omega
theorem uvarint_len_le10 (n : Nat) (h : n < 2 ^ 64) : (Kafka.uvarint n).length ≤ 10 := by
  apply uvarint_length_le 9
  have : (128 : Nat) ^ (9 + 1) = 2 ^ 70 := by decide
  omega

theorem encodeString_eq (s : Bytes) : encodeString s = .ok (Kafka.string s) := by
  unfold encodeString
  rw [encodeFull_exact (bs := Kafka.string s)]
  · refine (Writes.all_cons (Writes.put _) (Writes.all_cons (Writes.cpy s) Writes.all_nil)).cast ?_
    simp [Kafka.string, be16_ofNat]
  · simp [Kafka.string]; omega

theorem writeString_eq (s : Bytes) : writeString s = Kafka.string s := by
  simp [writeString, Kafka.string, be16_ofNat]

theorem be16_ffff : be16 0xFFFF = Kafka.int16 (-1) := by decide
theorem be32_ffffffff : be32 0xFFFFFFFF = Kafka.int32 (-1) := by decide

theorem encodeNullableString_eq (s : Option Bytes) :
    encodeNullableString s = .ok (Kafka.nullableString s) := by
  cases s with
  | none => simp [encodeNullableString, Kafka.nullableString, be16_ffff]
  | some s =>
    unfold encodeNullableString
    simp only
    rw [encodeCut_of_writes (bs := Kafka.string s)]
    · rfl
    · refine (Writes.all_cons (Writes.put _) (Writes.all_cons (Writes.cpy s) Writes.all_nil)).cast ?_
      simp [Kafka.string, be16_ofNat]
    · simp [Kafka.string]; omega

theorem writeNullableString_eq (s : Option Bytes) :
    writeNullableString s = Kafka.nullableString s := by
  cases s with
  | none => simp [writeNullableString, Kafka.nullableString, be16_ffff]
  | some s => simp [writeNullableString, Kafka.nullableString, be16_ofNat]

theorem writes_varlen (s : Bytes) (h : s.length < 2 ^ 63) :
    Writes (.all [.put (putUvarint (lenPlus1 s.length)), .cpy s]) (Kafka.compactString s) := by
  refine (Writes.all_cons (Writes.put _) (Writes.all_cons (Writes.cpy s) Writes.all_nil)).cast ?_
  simp [Kafka.compactString, putUvarint_eq, lenPlus1_eq _ h]

theorem encodeCompactString_eq (s : Bytes) (h : s.length < 2 ^ 63) :
    encodeCompactString s = .ok (Kafka.compactString s) := by
  unfold encodeCompactString
  rw [encodeCut_of_writes (writes_varlen s h)]
  have := uvarint_len_le10 (s.length + 1) (by omega)
  simp [Kafka.compactString]; omega

theorem writeCompactString_eq (s : Bytes) (h : s.length < 2 ^ 63) :
    writeCompactString s = .ok (Kafka.compactString s) := by
  unfold writeCompactString
  rw [encodeCut_of_writes (Writes.put _)]
  · simp [Kafka.compactString, putUvarint_eq, lenPlus1_eq _ h]
  · rw [putUvarint_eq, lenPlus1_eq _ h]
    exact uvarint_len_le10 (s.length + 1) (by omega)

theorem uvarint_zero : Kafka.uvarint 0 = [0] := by decide

theorem encodeCompactNullableString_eq (s : Option Bytes)
    (h : ∀ b, s = some b → b.length + 1 < 2 ^ 21) :
    encodeCompactNullableString s = .ok (Kafka.compactNullableString s) := by
  cases s with
  | none => simp [encodeCompactNullableString, Kafka.compactNullableString, uvarint_zero]
  | some s =>
    have h := h s rfl
    unfold encodeCompactNullableString
    simp only
    rw [encodeCut_of_writes (writes_varlen s (by omega))]
    · rfl
    · have := uvarint_len_le3 (s.length + 1) (by omega)
      simp [Kafka.compactString]; omega

/-- `writeCompactNullableString` has no length limit below 2^63: the varint always fits in the
scratch buffer because the buffer is longer than the string. -/
theorem writeCompactNullableString_eq (s : Option Bytes)
    (h : ∀ b, s = some b → b.length < 2 ^ 63) :
    writeCompactNullableString s = .ok (Kafka.compactNullableString s) := by
  cases s with
  | none => simp [writeCompactNullableString, Kafka.compactNullableString, uvarint_zero]
  | some s =>
    have h := h s rfl
    unfold writeCompactNullableString
    simp only
    rw [encodeCut_of_writes (Writes.put _)]
    · simp [Kafka.compactNullableString, putUvarint_eq, lenPlus1_eq _ h]
    · rw [putUvarint_eq, lenPlus1_eq _ h]
      by_cases h2 : s.length + 1 < 2 ^ 21
      · have := uvarint_len_le3 (s.length + 1) (by omega)
        omega
      · have := uvarint_len_le10 (s.length + 1) (by omega)
        omega

theorem encodeCompactBytes_eq (s : Bytes) (h : s.length < 2 ^ 63) :
    encodeCompactBytes (some s) = .ok (Kafka.compactBytes s) := by
  unfold encodeCompactBytes
  simp only [Option.getD]
  rw [encodeCut_of_writes (writes_varlen s h)]
  · rfl
  · have := uvarint_len_le10 (s.length + 1) (by omega)
    simp [Kafka.compactString]; omega

theorem encodeCompactNullableBytes_eq (s : Option Bytes)
    (h : ∀ b, s = some b → b.length < 2 ^ 63) :
    encodeCompactNullableBytes s = .ok (Kafka.compactNullableBytes s) := by
  cases s with
  | none => simp [encodeCompactNullableBytes, Kafka.compactNullableBytes, uvarint_zero]
  | some s =>
    have h := h s rfl
    unfold encodeCompactNullableBytes
    simp only
    rw [encodeCut_of_writes (writes_varlen s h)]
    · rfl
    · have := uvarint_len_le10 (s.length + 1) (by omega)
      simp [Kafka.compactString]; omega

theorem encodeCompactArrayLength_eq (n : Nat) (h : n < 2 ^ 63) (l : Int64) (hl : l.toInt = n) :
    encodeCompactArrayLength l = .ok (Kafka.uvarint (n + 1)) := by
  have e : (1 + l).toUInt64.toNat = n + 1 := by
    have h1 : (1 + l).toUInt64 = 1 + l.toUInt64 := rfl
    rw [h1, UInt64.toNat_add]
    have h2 : l.toUInt64.toNat = n := by
      have h3 : l.toUInt64.toNat = l.toBitVec.toNat := rfl
      rw [← Int64.toInt_toBitVec, BitVec.toInt_eq_toNat_cond] at hl
      have := l.toBitVec.isLt
      rw [h3]
      split at hl <;> omega
    have : (1 : UInt64).toNat = 1 := rfl
    omega
  unfold encodeCompactArrayLength
  rw [e, putUvarint_eq, encodeCut_of_writes (Writes.put _)]
  exact uvarint_len_le10 (n + 1) (by omega)

/-! ## Decoders -/

theorem reads_nonnullableString (s : Bytes) (h : s.length < 2 ^ 16) :
    Reads nonnullableString (Kafka.string s) s := by
  apply CReads.run
  refine CReads.bind (creads_len16 s.length) (reads_rdBytes _ _ ?_)
  rw [toNat_len16 _ h]

theorem reads_compactString (s : Bytes) (h : s.length < 2 ^ 63) :
    Reads compactString (Kafka.compactString s) s := by
  apply CReads.run
  exact CReads.bind (creads_uvarint _ (by omega)) (reads_rdBytes _ _ (decLen_succ _ h))

theorem reads_compactBytes (s : Bytes) (h : s.length < 2 ^ 63) :
    Reads compactBytes (Kafka.compactBytes s) s := by
  apply CReads.run
  exact CReads.bind (creads_uvarint _ (by omega)) (reads_rdBytes _ _ (decLen_succ _ h))

theorem creads_minus1_16 : CReads rdI16 (Kafka.int16 (-1)) (-1) := creads_int16 (-1)
theorem creads_minus1_32 : CReads rdI32 (Kafka.int32 (-1)) (-1) := creads_int32 (-1)

theorem reads_nullableString (s : Option Bytes) (h : ∀ b, s = some b → b.length < 2 ^ 15) :
    Reads nullableString (Kafka.nullableString s) s := by
  apply CReads.run
  cases s with
  | none =>
    refine (CReads.bind creads_minus1_16 ?_).cast (List.append_nil _) rfl
    rw [if_pos rfl]; exact CReads.pure _
  | some s =>
    have h := h s rfl
    refine CReads.bind (creads_ilen16 s.length) ?_
    have e := toInt_ilen16 s.length h
    rw [if_neg]
    · exact CReads.bind_pure (reads_rdBytes _ _ e)
    · intro hc; rw [hc] at e; simp at e

theorem reads_compactNullableString (s : Option Bytes) (h : ∀ b, s = some b → b.length < 2 ^ 63) :
    Reads compactNullableString (Kafka.compactNullableString s) s := by
  apply CReads.run
  cases s with
  | none =>
    refine (CReads.bind (creads_uvarint 0 (by omega)) ?_).cast (List.append_nil _) rfl
    rw [if_pos rfl]; exact CReads.pure _
  | some s =>
    have h := h s rfl
    refine CReads.bind (creads_uvarint _ (by omega)) ?_
    rw [if_neg (by omega)]
    exact CReads.bind_pure (reads_rdBytes _ _ (decLen_succ _ h))

theorem reads_nullableBytes (s : Option Bytes) (h : ∀ b, s = some b → b.length < 2 ^ 31) :
    Reads nullableBytes (Kafka.nullableBytes s) s := by
  apply CReads.run
  cases s with
  | none =>
    refine (CReads.bind creads_minus1_32 ?_).cast (List.append_nil _) rfl
    rw [if_pos rfl]; exact CReads.pure _
  | some s =>
    have h := h s rfl
    refine CReads.bind (creads_ilen32 s.length) ?_
    have e := toInt_ilen32 s.length h
    rw [if_neg]
    · exact CReads.bind_pure (reads_rdBytes _ _ e)
    · intro hc; rw [hc] at e; simp at e

theorem reads_compactNullableBytes_nonempty (s : Bytes) (h : s.length < 2 ^ 63) (hne : s ≠ []) :
    Reads compactNullableBytes (Kafka.compactNullableBytes (some s)) (some s) := by
  apply CReads.run
  refine CReads.bind (creads_uvarint _ (by omega)) ?_
  have e := decLen_succ _ h
  rw [if_neg]
  · exact CReads.bind_pure (reads_rdBytes _ _ e)
  · intro hc
    unfold decLen at e
    rw [hc] at e
    have : s.length ≠ 0 := by simpa using hne
    have h0 : (0 : UInt64).toInt64.toInt = 0 := by decide
    omega

theorem reads_compactArrayLength (n : Nat) (h : n < 2 ^ 31) :
    Reads compactArrayLength (Kafka.uvarint (n + 1)) (Int32.ofInt n) := by
  intro rest
  unfold compactArrayLength
  rw [← putUvarint_eq, uvarint_put _ (by omega)]
  simp only
  congr 2
  apply Int32.toInt_inj.1
  have e : (UInt64.ofNat (n+1)).toUInt32 = UInt32.ofNat (n+1) := by
    apply UInt32.toNat_inj.1
    rw [UInt64.toNat_toUInt32, UInt64.toNat_ofNat', UInt32.toNat_ofNat']
    omega
  rw [e, UInt32.toInt32_ofNat', Int32.toInt_sub, Int32.toInt_ofNat', Int32.toInt_ofInt]
  have h1 : (1 : Int32).toInt = 1 := rfl
  rw [h1]
  simp only [Int32.size]
  rw [Int.bmod_sub_bmod]
  congr 1; omega

theorem reads_compactArrayLength_null :
    Reads compactArrayLength (Kafka.uvarint 0) (-1) := by
  intro rest
  unfold compactArrayLength
  rw [← putUvarint_eq, uvarint_put _ (by omega)]
  rfl

/-! ## Tagged fields -/

/-- Wire form of a tagged field. -/
def TaggedField.wire (t : TaggedField) : Nat × Bytes := (t.tag.toInt.toNat, t.data)

/-- Tag and payload size inside the protocol's 32-bit range. -/
def TaggedField.Fits (t : TaggedField) : Prop :=
  0 ≤ t.tag.toInt ∧ t.tag.toInt < 2 ^ 35 ∧ t.data.length < 2 ^ 35

theorem toUInt64_toNat_of_nonneg (v : Int64) (h : 0 ≤ v.toInt) : v.toUInt64.toNat = v.toInt.toNat := by
  have h3 : v.toUInt64.toNat = v.toBitVec.toNat := rfl
  rw [← Int64.toInt_toBitVec, BitVec.toInt_eq_toNat_cond] at h ⊢
  have := v.toBitVec.isLt
  split at h <;> omega

theorem taggedField_writes (t : TaggedField) (h : t.Fits) :
    Writes t.enc (Kafka.uvarint t.wire.1 ++ Kafka.uvarint t.wire.2.length ++ t.wire.2) := by
  refine (Writes.all_cons (Writes.put _) (Writes.all_cons (Writes.put _)
    (Writes.all_cons (Writes.cpy _) Writes.all_nil))).cast ?_
  simp [putUvarint_eq, TaggedField.wire, toUInt64_toNat_of_nonneg _ h.1]

theorem taggedFields_writes (ts : TaggedFields) (h : ∀ t ∈ ts.getD [], t.Fits) :
    Writes ts.encodeTo (Kafka.tagBuffer ((ts.getD []).map TaggedField.wire)) := by
  refine (Writes.seq (Writes.put _) (Writes.each _ (fun t ht => taggedField_writes t (h t ht)))).cast ?_
  simp [Kafka.tagBuffer, putUvarint_eq, List.flatMap_map]

theorem taggedFields_length_aux (ts : List TaggedField) (h : ∀ t ∈ ts, t.Fits) (k : Nat) :
    k + ((ts.map TaggedField.wire).flatMap fun t =>
      Kafka.uvarint t.1 ++ Kafka.uvarint t.2.length ++ t.2).length
      ≤ ts.foldl (fun l v => l + v.length) k := by
  induction ts generalizing k with
  | nil => simp
  | cons t ts ih =>
    have ht := h t (by simp)
    have a := uvarint_len_le5 t.tag.toInt.toNat (by have := ht.2.1; have := ht.1; omega)
    have b := uvarint_len_le5 t.data.length ht.2.2
    have c := ih (fun x hx => h x (by simp [hx])) (k + t.length)
    simp only [List.map_cons, List.flatMap_cons, List.length_append, List.foldl_cons,
      TaggedField.wire] at *
    unfold TaggedField.length at *
    omega

theorem taggedFields_length_ok (ts : TaggedFields) (h : ∀ t ∈ ts.getD [], t.Fits)
    (hn : (ts.getD []).length < 2 ^ 64) :
    (Kafka.tagBuffer ((ts.getD []).map TaggedField.wire)).length ≤ ts.length := by
  have a := taggedFields_length_aux (ts.getD []) h 10
  have b := uvarint_len_le10 (ts.getD []).length hn
  unfold TaggedFields.length Kafka.tagBuffer
  simp only [List.length_append, List.length_map]
  omega

theorem taggedFields_encode_eq (ts : TaggedFields) (h : ∀ t ∈ ts.getD [], t.Fits)
    (hn : (ts.getD []).length < 2 ^ 64) :
    ts.encode = .ok (Kafka.tagBuffer ((ts.getD []).map TaggedField.wire)) := by
  cases ts with
  | none => simp [TaggedFields.encode, Kafka.tagBuffer, uvarint_zero]
  | some l =>
    exact encodeCut_of_writes (taggedFields_writes (some l) h) (taggedFields_length_ok (some l) h hn)

theorem creads_taggedField (t : TaggedField) (h : t.Fits) :
    CReads decodeTaggedField (Kafka.uvarint t.wire.1 ++ Kafka.uvarint t.wire.2.length ++ t.wire.2) t := by
  obtain ⟨h1, h2, h3⟩ := h
  unfold decodeTaggedField
  rw [List.append_assoc]
  refine CReads.bind (creads_uvarint _ ?_) (CReads.bind (creads_uvarint _ ?_) ?_)
  · simp only [TaggedField.wire]; omega
  · simp only [TaggedField.wire]; omega
  · have e : (UInt64.ofNat t.wire.1).toInt64 = t.tag := by
      apply Int64.toInt_inj.1
      rw [UInt64.toInt64_ofNat', Int64.toInt_ofNat']
      simp only [TaggedField.wire]
      rw [Int.bmod_eq_of_le (by simp only [Int64.size]; omega) (by simp only [Int64.size]; omega)]
      omega
    rw [e]
    refine CReads.bind_pure (g := fun d => ({ tag := t.tag, data := d } : TaggedField)) (reads_rdBytes t.data _ ?_)
    simp only [TaggedField.wire]
    rw [UInt64.toInt64_ofNat', Int64.toInt_ofNat']
    exact Int.bmod_eq_of_le (by simp only [Int64.size]; omega) (by simp only [Int64.size]; omega)

theorem reads_taggedFields (ts : List TaggedField) (h : ∀ t ∈ ts, t.Fits) (hn : ts.length < 2 ^ 64) :
    Reads decodeTaggedFields (Kafka.tagBuffer (ts.map TaggedField.wire))
      (if ts = [] then none else some ts) := by
  apply CReads.run
  unfold Kafka.tagBuffer
  refine CReads.bind (creads_uvarint _ (by simpa using hn)) ?_
  have := CReads.forN (c := decodeTaggedField) (g := id) ts (fun t ht => creads_taggedField t (h t ht))
  rw [List.map_id] at this
  have := CReads.bind_pure (g := fun xs => if xs = [] then none else some xs) this
  rw [List.length_map, List.flatMap_map]
  exact this

end Healer
