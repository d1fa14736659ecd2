import Verif.Lemmas.Primitive

/-!
# C01–C06: primitive encodings

`Kafka.*` is the wire grammar.  `2^63` bounds are Go's `int` range: no Go string or slice is longer.
-/

namespace Healer

/-- C01. A compact string is written as the grammar says and read back exactly, whatever follows. -/
theorem C01_compact_string (s rest : Bytes) (h : s.length < 2 ^ 63) :
    ∃ w, encodeCompactString s = .ok w ∧ writeCompactString s = .ok w ∧ w = Kafka.compactString s ∧
      compactString (w ++ rest) = .ok (s, (w.length : Int)) :=
  ⟨_, encodeCompactString_eq s h, writeCompactString_eq s h, rfl, reads_compactString s h rest⟩

example : encodeCompactString [104, 105] = .ok [3, 104, 105] ∧
    compactString ([3, 104, 105] ++ [7]) = .ok ([104, 105], 3) := by decide

/-- C01 for compact byte arrays. -/
theorem C01_compact_bytes (s rest : Bytes) (h : s.length < 2 ^ 63) :
    ∃ w, encodeCompactBytes (some s) = .ok w ∧ w = Kafka.compactBytes s ∧
      compactBytes (w ++ rest) = .ok (s, (w.length : Int)) :=
  ⟨_, encodeCompactBytes_eq s h, rfl, reads_compactBytes s h rest⟩

example : compactBytes ([3, 104, 105] ++ [7]) = .ok ([104, 105], 3) := by decide

/-- C02. A string within the protocol limit survives. -/
theorem C02_plain_string (s rest : Bytes) (h : s.length ≤ 32767) :
    ∃ w, encodeString s = .ok w ∧ writeString s = w ∧ w = Kafka.string s ∧
      nonnullableString (w ++ rest) = .ok (s, (w.length : Int)) :=
  ⟨_, encodeString_eq s, writeString_eq s, rfl, reads_nonnullableString s (by omega) rest⟩

example : encodeString [104, 105] = .ok [0, 2, 104, 105] ∧
    nonnullableString ([0, 2, 104, 105] ++ [9]) = .ok ([104, 105], 4) := by decide

/-- C02. A nullable string within the protocol limit survives; null and empty are told apart
because the decoder returns the original option. -/
theorem C02_nullable_string (s : Option Bytes) (rest : Bytes)
    (h : ∀ b, s = some b → b.length ≤ 32767) :
    ∃ w, encodeNullableString s = .ok w ∧ writeNullableString s = w ∧ w = Kafka.nullableString s ∧
      nullableString (w ++ rest) = .ok (s, (w.length : Int)) :=
  ⟨_, encodeNullableString_eq s, writeNullableString_eq s, rfl,
    reads_nullableString s (fun b hb => by have := h b hb; omega) rest⟩

example : nullableString ([0xff, 0xff] ++ [9]) = .ok (none, 2) ∧
    nullableString ([0, 0] ++ [9]) = .ok (some [], 2) ∧
    nullableString ([0, 1, 65] ++ [9]) = .ok (some [65], 3) := by decide

/-- C03 is violated: the plain nullable encoding of any non-empty array reads back as the empty
array, because its length field is never written. -/
theorem C03_violated_plain (s rest : Bytes) (hne : s ≠ []) :
    ∃ w, encodeNullableBytes (some s) = .ok w ∧
      nullableBytes (w ++ rest) = .ok (some [], 4) ∧ some s ≠ some ([] : Bytes) := by
  refine ⟨[0, 0, 0, 0] ++ s, ?_, ?_, by simpa using hne⟩
  · unfold encodeNullableBytes
    simp only
    rw [encodeCut_of_writes (bs := [0, 0, 0, 0] ++ s)]
    · exact (Writes.all_cons (Writes.put _) (Writes.all_cons (Writes.cpy s) Writes.all_nil)).cast (by simp)
    · simp
  · have := reads_nullableBytes (some []) (by intro b hb; cases hb; decide) (s ++ rest)
    simpa [Kafka.nullableBytes, show Kafka.int32 0 = [0, 0, 0, 0] from by decide] using this

/-- C03 is violated: the compact nullable encoding of the empty array reads back as null. -/
theorem C03_violated_compact_empty (rest : Bytes) :
    encodeCompactNullableBytes (some []) = .ok [1] ∧
      compactNullableBytes ([1] ++ rest) = .ok (none, 1) := by
  refine ⟨by decide, ?_⟩
  have := creads_uvarint 1 (by omega) [] rest
  rw [show Kafka.uvarint 1 = [1] from by decide] at this
  unfold compactNullableBytes Cur.run
  rw [Cur.bind_def]
  simp only [List.nil_append, List.length_nil, Int.cast_ofNat_Int] at this
  rw [this]
  rfl

/-- C03 is violated: reading the compact null crashes. -/
theorem C03_violated_compact_null (rest : Bytes) :
    encodeCompactNullableBytes none = .ok [0] ∧
      compactNullableBytes ([0] ++ rest) = .panic := by
  refine ⟨rfl, ?_⟩
  have := creads_uvarint 0 (by omega) [] rest
  rw [show Kafka.uvarint 0 = [0] from by decide] at this
  unfold compactNullableBytes Cur.run
  rw [Cur.bind_def]
  simp only [List.nil_append, List.length_nil, Int.cast_ofNat_Int] at this
  rw [this]
  simp only
  rw [if_neg (by decide), Cur.bind_def]
  unfold rdBytes sliceTo
  rw [if_neg]
  have : decLen 0 = -1 := by decide
  rw [this]; omega

/-- C03, what holds: null and empty in the plain form, non-empty in the compact form, and the plain
reader against correct wire bytes.  Missing: non-empty arrays in the plain form (never written
correctly), empty and null in the compact form (never read correctly). -/
theorem C03_nullable_bytes_partial (rest : Bytes) :
    (∃ w, encodeNullableBytes none = .ok w ∧ nullableBytes (w ++ rest) = .ok (none, (w.length : Int))) ∧
    (∃ w, encodeNullableBytes (some []) = .ok w ∧
      nullableBytes (w ++ rest) = .ok (some [], (w.length : Int))) ∧
    (∀ s : Bytes, s ≠ [] → s.length < 2 ^ 63 → ∃ w, encodeCompactNullableBytes (some s) = .ok w ∧
      compactNullableBytes (w ++ rest) = .ok (some s, (w.length : Int))) ∧
    (∀ s : Option Bytes, (∀ b, s = some b → b.length < 2 ^ 31) →
      nullableBytes (Kafka.nullableBytes s ++ rest)
        = .ok (s, ((Kafka.nullableBytes s).length : Int))) := by
  refine ⟨⟨_, rfl, ?_⟩, ⟨[0, 0, 0, 0], by decide, ?_⟩, ?_, ?_⟩
  · rw [be32_ffffffff]
    exact reads_nullableBytes none (by simp) rest
  · have := reads_nullableBytes (some []) (by intro b hb; cases hb; decide) rest
    simpa [Kafka.nullableBytes, show Kafka.int32 0 = [0, 0, 0, 0] from by decide] using this
  · intro s hne hlen
    exact ⟨_, encodeCompactNullableBytes_eq (some s) (by intro b hb; cases hb; exact hlen),
      reads_compactNullableBytes_nonempty s hlen hne rest⟩
  · intro s h
    exact reads_nullableBytes s h rest

example : ∃ s : Bytes, s ≠ [] ∧ s.length < 2 ^ 63 := ⟨[1], by decide, by decide⟩

/-- C04. The compact nullable string survives, for both the buffer encoder (below 2 MiB, see
`C04_violated_long`) and the stream writer. -/
theorem C04_compact_nullable_string_partial (s : Option Bytes) (rest : Bytes)
    (h : ∀ b, s = some b → b.length + 1 < 2 ^ 21) :
    ∃ w, encodeCompactNullableString s = .ok w ∧ writeCompactNullableString s = .ok w ∧
      w = Kafka.compactNullableString s ∧
      compactNullableString (w ++ rest) = .ok (s, (w.length : Int)) :=
  ⟨_, encodeCompactNullableString_eq s h,
    writeCompactNullableString_eq s (fun b hb => by have := h b hb; omega), rfl,
    reads_compactNullableString s (fun b hb => by have := h b hb; omega) rest⟩

example : compactNullableString ([0] ++ [9]) = .ok (none, 1) ∧
    compactNullableString ([1] ++ [9]) = .ok (some [], 1) ∧
    compactNullableString ([2, 65] ++ [9]) = .ok (some [65], 2) := by decide

/-- C04. The stream writer has no such limit. -/
theorem C04_compact_nullable_string_stream (s : Option Bytes) (rest : Bytes)
    (h : ∀ b, s = some b → b.length < 2 ^ 63) :
    ∃ w, writeCompactNullableString s = .ok w ∧ w = Kafka.compactNullableString s ∧
      compactNullableString (w ++ rest) = .ok (s, (w.length : Int)) :=
  ⟨_, writeCompactNullableString_eq s h, rfl, reads_compactNullableString s h rest⟩

/-- C04 is violated from 2^21 - 1 bytes on: the buffer encoder drops the end of the string. -/
theorem C04_violated_long (s : Bytes) (h1 : 2 ^ 21 ≤ s.length + 1) (h2 : s.length < 2 ^ 63) :
    ∃ w, encodeCompactNullableString (some s) = .ok w ∧
      w.length < (Kafka.compactNullableString (some s)).length := by
  have hl : 3 < (Kafka.uvarint (s.length + 1)).length := by
    rw [← putUvarint_eq]
    apply putUvarint_length_gt
    have : (128 : Nat) ^ 3 = 2 ^ 21 := by decide
    omega
  have hu := uvarint_len_le10 (s.length + 1) (by omega)
  refine ⟨Kafka.uvarint (s.length + 1) ++ s.take (s.length + 3 - (Kafka.uvarint (s.length + 1)).length), ?_, ?_⟩
  · unfold encodeCompactNullableString encodeCut
    simp only [Enc.all, Enc.seq, Enc.put, Enc.cpy, Enc.nop, lenPlus1_eq _ h2, putUvarint_eq,
      List.length_nil, Nat.zero_add, List.nil_append]
    rw [if_pos (by omega)]
    simp only
    rw [if_pos (by omega)]
    simp only
    rw [if_pos (by simp; omega)]
  · simp [Kafka.compactNullableString]; omega

example : 2 ^ 21 ≤ (List.replicate (2 ^ 21) (65 : UInt8)).length + 1 ∧
    (List.replicate (2 ^ 21) (65 : UInt8)).length < 2 ^ 63 := by
  rw [List.length_replicate]; decide

/-- C05. Every compact array length from 0 to the int32 maximum survives. -/
theorem C05_compact_array_length (n : Nat) (h : n < 2 ^ 31) (rest : Bytes) :
    ∃ w, encodeCompactArrayLength (Int64.ofNat n) = .ok w ∧ w = Kafka.uvarint (n + 1) ∧
      compactArrayLength (w ++ rest) = .ok (Int32.ofInt n, (w.length : Int)) ∧
      (Int32.ofInt n).toInt = n := by
  refine ⟨_, encodeCompactArrayLength_eq n (by omega) _ ?_, rfl,
    reads_compactArrayLength n h rest, toInt32_of_spec n (by omega)⟩
  rw [Int64.toInt_ofNat']
  exact Int.bmod_eq_of_le (by simp only [Int64.size]; omega) (by simp only [Int64.size]; omega)

/-- C05. The null marker survives. -/
theorem C05_compact_array_null (rest : Bytes) :
    encodeCompactArrayLength (-1) = .ok [0] ∧ compactArrayLength ([0] ++ rest) = .ok (-1, 1) := by
  refine ⟨by decide, ?_⟩
  have := reads_compactArrayLength_null rest
  rwa [uvarint_zero] at this

example : compactArrayLength ([0xac, 2] ++ [1]) = .ok (299, 2) := by decide

/-- C06. Tagged fields with tags and sizes in the protocol's range survive, and the space reserved
for them suffices (the encoder neither panics nor truncates: its output is the grammar's). -/
theorem C06_tagged_fields (ts : TaggedFields) (rest : Bytes) (hn : (ts.getD []).length < 2 ^ 63)
    (h : ∀ t ∈ ts.getD [], 0 ≤ t.tag.toInt ∧ t.tag.toInt < 2 ^ 32 ∧ t.data.length < 2 ^ 32) :
    ∃ w, ts.encode = .ok w ∧
      w = Kafka.tagBuffer ((ts.getD []).map fun t => (t.tag.toInt.toNat, t.data)) ∧
      w.length ≤ ts.length ∧
      (∃ r, decodeTaggedFields (w ++ rest) = .ok (r, (w.length : Int)) ∧
        r.getD [] = ts.getD []) := by
  have hf : ∀ t ∈ ts.getD [], t.Fits := fun t ht => by
    obtain ⟨a, b, c⟩ := h t ht
    exact ⟨a, by omega, by omega⟩
  refine ⟨_, taggedFields_encode_eq ts hf (by omega), rfl, taggedFields_length_ok ts hf (by omega),
    _, reads_taggedFields _ hf (by omega) rest, ?_⟩
  split
  · rename_i h0; simp [h0]
  · simp

example : TaggedFields.encode (some [⟨5, [1, 2]⟩, ⟨300, []⟩]) = .ok [2, 5, 2, 1, 2, 0xac, 2, 0] ∧
    decodeTaggedFields ([2, 5, 2, 1, 2, 0xac, 2, 0] ++ [7])
      = .ok (some [⟨5, [1, 2]⟩, ⟨300, []⟩], 8) := by decide

end Healer
