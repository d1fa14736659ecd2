import Verif.Lemmas.Record

/-!
# C09–C11: records and record batches
-/

namespace Healer

/-- C09, for records with a key, or without a key and with an offset delta between -64 and 63 (the
producer always uses 0): the encoding is Kafka's record, and decoding it in front of any other data
gives the same record, nil and empty payloads identified, consuming exactly the encoded bytes.
Missing for the full statement: nil keys with larger offset deltas (`C09_violated_nil_key`). -/
theorem C09_record_roundtrip_partial (r : Record) (rest : Bytes)
    (hk : r.key ≠ none ∨ (-64 ≤ r.offsetDelta.toInt ∧ r.offsetDelta.toInt ≤ 63))
    (hs : r.encode.length < 2 ^ 63) :
    r.encode = Kafka.record r.toSpec ∧
    decodeToRecord (r.encode ++ rest)
      = .ok ({ r with key := if r.key = some [] then none else r.key,
                      value := if r.value = some [] then none else r.value }, (r.encode.length : Int)) := by
  have he := encode_eq r (fun h => by rcases hk with hk | hk; exact absurd h hk; exact hk)
  refine ⟨he, ?_⟩
  rw [he] at hs ⊢
  have hf : RecordFits r.toSpec := by
    refine ⟨?_, ?_, ?_, ?_, ?_⟩
    · have h1 := Int8.toInt_lt r.attributes; have h2 := Int8.le_toInt r.attributes
      simp only [Record.toSpec]; omega
    · have h1 := Int64.toInt_lt r.timestampDelta; have h2 := Int64.le_toInt r.timestampDelta
      simp only [Record.toSpec]; omega
    · have h1 := Int32.toInt_lt r.offsetDelta; have h2 := Int32.le_toInt r.offsetDelta
      simp only [Record.toSpec]; omega
    · intro h hh
      simp only [Record.toSpec, List.mem_map] at hh
      obtain ⟨x, _, rfl⟩ := hh
      simp
    · simp only [Kafka.record, List.length_append] at hs; omega
  rw [reads_record r.toSpec hf rest]
  congr 2
  obtain ⟨a, t, o, k, v, hd⟩ := r
  have hh : (hd.map (fun h : RecordHeader => (h.key, some h.value))).map
      (fun h : Bytes × Option Bytes => (⟨h.1, h.2.getD []⟩ : RecordHeader)) = hd := by
    rw [List.map_map]
    exact List.map_id' hd
  rcases k with _ | k <;> rcases v with _ | v <;>
    simp [goRecord, Record.toSpec, normBytes, hh]

example : (Record.mk 0 300 5 (some [107]) (some [118, 119]) [⟨[104], [1]⟩]).encode
      = [28, 0, 216, 4, 10, 2, 107, 4, 118, 119, 2, 2, 104, 2, 1] ∧
    (-64 ≤ (5 : Int32).toInt) := by decide

/-- C09 fails: a record without key at offset delta 64 is not read back; its value is lost and it has a header which was
not written. -/
theorem C09_violated_nil_key :
    ∃ r r' : Record, r.key = none ∧ r.value = some [0] ∧ r.headers = [] ∧
      decodeToRecord r.encode = .ok (r', 10) ∧ r'.value = none ∧ r'.headers = [⟨[], []⟩] :=
  ⟨{ offsetDelta := 64, value := some [0] }, { offsetDelta := 64, headers := [⟨[], []⟩] }, rfl, rfl, rfl,
    by decide +kernel, rfl, rfl⟩

/-- C83 fails: a message without value (a tombstone) is written with an empty value, not with Kafka's
null value. -/
theorem C83_violated_tombstone :
    ∃ r : Record, r.value = none ∧
      r.encode ≠ Kafka.record { r.toSpec with value := none } ∧
      r.encode = ({ r with value := some [] } : Record).encode :=
  ⟨{ key := some [107], value := none }, rfl, by decide, by decide⟩

/-- C83 fails for every record: without value it is written as with an empty value, and never as Kafka's
record with a null value. -/
theorem C83_violated_always (r : Record) (hv : r.value = none)
    (hk : r.key ≠ none ∨ (-64 ≤ r.offsetDelta.toInt ∧ r.offsetDelta.toInt ≤ 63)) :
    r.encode = ({ r with value := some [] } : Record).encode ∧
    r.encode = Kafka.record { r.toSpec with value := some [] } ∧
    r.encode ≠ Kafka.record { r.toSpec with value := none } := by
  have he := encode_eq r (fun h => by rcases hk with hk | hk; exact absurd h hk; exact hk)
  have hs : r.toSpec = { r.toSpec with value := some [] } := by simp [Record.toSpec, hv]
  refine ⟨by simp [Record.encode, Record.encodeBody, Record.encodeKey, hv], by rw [he, ← hs], ?_⟩
  rw [he, hs]
  intro hh
  simp only [Kafka.record, Kafka.recordBody, Kafka.varintBytes] at hh
  have h0 : Kafka.varint 0 = [0] := by decide
  have h1 : Kafka.varint (-1) = [1] := by decide
  simp only [List.length_nil, Int.natCast_zero, h0, h1, List.append_nil, List.length_append, List.length_cons, List.append_assoc] at hh
  have := List.append_cancel_left (List.append_cancel_left (List.append_cancel_left (List.append_cancel_left (List.append_cancel_left hh))))
  simp at this

example : (⟨0, 0, 0, some [107], none, []⟩ : Record).encode ≠ Kafka.record ⟨0, 0, 0, some [107], none, []⟩ := by decide

/-- C10. Whatever the compressor, an encoded batch consists of the base offset, the number of bytes
that follow, the leader epoch, the magic byte, the CRC-32C of the bytes that follow, and these
bytes: the fixed fields as set, the number of records, and the records. -/
theorem C10_framing (compress : Int8 → Bytes → Out Bytes) (r : RecordBatch) (bs : Bytes)
    (h : r.encode compress = .ok bs) :
    ∃ recs rest covered,
      bs = Kafka.int64 r.baseOffset.toInt ++ Kafka.int32 rest.length ++ rest ∧
      rest = Kafka.int32 r.partitionLeaderEpoch.toInt ++ Kafka.int8 r.magic.toInt ++
        Kafka.int32 (Kafka.crc32c covered).toNat ++ covered ∧
      covered = Kafka.int16 r.attributes.toInt ++ Kafka.int32 r.lastOffsetDelta.toInt ++
        Kafka.int64 r.baseTimestamp.toInt ++ Kafka.int64 r.maxTimestamp.toInt ++
        Kafka.int64 r.producerID.toInt ++ Kafka.int16 r.producerEpoch.toInt ++
        Kafka.int32 r.baseSequence.toInt ++ Kafka.int32 r.records.length ++ recs ∧
      r.encodeRecords compress = .ok recs := by
  cases hr : r.encodeRecords compress with
  | ok recs =>
    have := batch_encode_eq compress r recs hr
    rw [this] at h
    cases h
    refine ⟨recs, _, r.tail recs, ?_, rfl, rfl, rfl⟩
    simp only [List.append_assoc, List.length_append, int32_length, int8_length]
    congr 3
    omega
  | err e => unfold RecordBatch.encode at h; rw [hr] at h; cases h
  | panic => unfold RecordBatch.encode at h; rw [hr] at h; cases h

/-- C10, uncompressed: an encoded magic-2 batch is Kafka's record batch of its fields and records. -/
theorem C10_uncompressed (compress : Int8 → Bytes → Out Bytes) (r : RecordBatch) (hm : r.magic = 2)
    (hc : r.attributes &&& 3 = 0)
    (hk : ∀ x ∈ r.records, x.key = none → -64 ≤ x.offsetDelta.toInt ∧ x.offsetDelta.toInt ≤ 63) :
    r.encode compress = .ok (Kafka.batch r.toSpec) := by
  rw [batch_encode_eq compress r _ (encodeRecords_none compress r hc hk), tail_eq_batchTail, hm]
  rfl

example : (RecordBatch.encode (fun _ b => .ok b)
    { magic := 2, records := [{ value := some [118] }], producerID := -1 }).okAnd
      (fun bs => bs.drop 8 == [0, 0, 0, 57, 0, 0, 0, 0, 2, 139, 182, 66, 187, 0, 0, 0, 0, 0, 0, 0, 0, 0, 0, 0,
        0, 0, 0, 0, 0, 0, 0, 0, 0, 0, 0, 255, 255, 255, 255, 255, 255, 255, 255, 0, 0, 0, 0, 0, 0, 0, 0, 0, 1,
        14, 0, 0, 0, 1, 2, 118, 0]) = true := by decide +kernel

/-- Two records without key, the second at offset delta 64. -/
def nilKeyBatch : RecordBatch := { records := [{ value := some [1] }, { offsetDelta := 64, value := some [0] }] }

/-- `nilKeyBatch` as it is written. -/
def nilKeyBytes : Bytes :=
  [0, 0, 0, 0, 0, 0, 0, 0, 0, 0, 0, 67, 0, 0, 0, 0, 0, 49, 112, 249, 81, 0, 0, 0, 0, 0, 0, 0, 0, 0, 0, 0, 0, 0, 0, 0, 0,
   0, 0, 0, 0, 0, 0, 0, 0, 0, 0, 0, 0, 0, 0, 0, 0, 0, 0, 0, 0, 0, 0, 0, 2, 14, 0, 0, 0, 1, 2, 1, 0, 18, 0, 0, 128, 1, 1,
   0, 2, 0, 0]

theorem nilKeyBatch_compress (compress : Int8 → Bytes → Out Bytes) :
    nilKeyBatch.encode compress = nilKeyBatch.encode fun _ b => .ok b := rfl

/-- C11 fails for what C09 fails for: the batch of two records without key, the second at offset delta 64, is read back
with the value of the second one missing and with a header that was not written. -/
theorem C11_violated_nil_key (compress : Int8 → Bytes → Out Bytes) :
    ∃ (r r' : RecordBatch) (bs : Bytes), r.attributes = 0 ∧ r.encode compress = .ok bs ∧
      decodeToRecordBatch bs = .ok (r', (bs.length : Int)) ∧
      r.records = [{ value := some [1] }, { offsetDelta := 64, value := some [0] }] ∧
      r'.records = [{ value := some [1] }, { offsetDelta := 64, headers := [⟨[], []⟩] }] :=
  ⟨nilKeyBatch, { nilKeyBatch with
      batchLength := 67, crc := 829487441,
      records := [{ value := some [1] }, { offsetDelta := 64, headers := [⟨[], []⟩] }] }, nilKeyBytes, rfl,
    (nilKeyBatch_compress compress).trans (by decide +kernel), by decide +kernel, rfl, rfl⟩

/-- C11, for records with a key or with an offset delta between -64 and 63. An uncompressed batch that is encoded and
decoded again has the same header fields (the length and checksum filled in) and the same records in the same order, nil
and empty payloads identified; exactly its bytes are consumed.
Missing for the full statement: records without key at larger offset deltas (`C11_violated_nil_key`). -/
theorem C11_batch_roundtrip_partial (compress : Int8 → Bytes → Out Bytes) (r : RecordBatch)
    (hc : r.attributes &&& 3 = 0)
    (hk : ∀ x ∈ r.records, x.key = none → -64 ≤ x.offsetDelta.toInt ∧ x.offsetDelta.toInt ≤ 63)
    (hn : r.records.length < 2 ^ 32) (hs : ∀ x ∈ r.records, x.encode.length < 2 ^ 63) :
    ∃ bs len crc, r.encode compress = .ok bs ∧ ∀ rest,
      decodeToRecordBatch (bs ++ rest) = .ok ({ r with
        batchLength := len, crc := crc,
        records := r.records.map fun x =>
          { x with key := if x.key = some [] then none else x.key,
                   value := if x.value = some [] then none else x.value } }, (bs.length : Int)) := by
  have hrec := encodeRecords_none compress r hc hk
  have henc := batch_encode_eq compress r _ hrec
  refine ⟨_, (UInt32.ofNat ((r.tail ((r.records.map Record.toSpec).flatMap Kafka.record)).length + 9)).toInt32,
    Kafka.crc32c (r.tail ((r.records.map Record.toSpec).flatMap Kafka.record)), henc, fun rest => ?_⟩
  have hrs : CReads (Cur.forN (UInt32.ofNat r.records.length).toNat (Cur.call decodeToRecord))
      (r.records.flatMap Record.encode) (r.records.map fun x =>
          { x with key := if x.key = some [] then none else x.key,
                   value := if x.value = some [] then none else x.value }) := by
    rw [toNat_len32 _ hn]
    apply CReads.forN
    intro x hx
    apply CReads.call
    intro rest
    refine (C09_record_roundtrip_partial x rest ?_ (hs x hx)).2
    cases hkx : x.key with
    | none => exact Or.inr (hk x hx hkx)
    | some _ => simp
  have hfm : (r.records.map Record.toSpec).flatMap Kafka.record = r.records.flatMap Record.encode := by
    rw [List.flatMap_map]
    generalize r.records = rs at hk
    clear hrs hrec henc
    induction rs with
    | nil => rfl
    | cons x xs ih =>
      simp only [List.flatMap_cons]
      rw [encode_eq x (hk x (by simp)), ih (fun y hy => hk y (by simp [hy]))]
  rw [hfm]
  have hlen := creads_ilen32 ((r.tail (r.records.flatMap Record.encode)).length + 9)
  rw [show (((r.tail (r.records.flatMap Record.encode)).length + 9 : Nat) : Int)
    = ((r.tail (r.records.flatMap Record.encode)).length : Int) + 9 from by omega] at hlen
  have hl : ∀ T, T = r.tail (r.records.flatMap Record.encode) →
      Kafka.int64 r.baseOffset.toInt ++ Kafka.int32 ((T.length : Int) + 9) ++
      Kafka.int32 r.partitionLeaderEpoch.toInt ++ Kafka.int8 r.magic.toInt ++
      Kafka.int32 (Kafka.crc32c T).toNat ++ T
      = (Kafka.int64 r.baseOffset.toInt ++ (Kafka.int32 ((T.length : Int) + 9) ++
        (Kafka.int32 r.partitionLeaderEpoch.toInt ++ (Kafka.int8 r.magic.toInt ++
          (Kafka.int32 (Kafka.crc32c T).toNat ++ (Kafka.int16 r.attributes.toInt ++
            (Kafka.int32 r.lastOffsetDelta.toInt ++ (Kafka.int64 r.baseTimestamp.toInt ++
              (Kafka.int64 r.maxTimestamp.toInt ++ (Kafka.int64 r.producerID.toInt ++
                (Kafka.int16 r.producerEpoch.toInt ++ (Kafka.int32 r.baseSequence.toInt ++
                  (Kafka.int32 r.records.length ++ r.records.flatMap Record.encode))))))))))))) := by
    intro T hT
    have : T = Kafka.int16 r.attributes.toInt ++
            (Kafka.int32 r.lastOffsetDelta.toInt ++ (Kafka.int64 r.baseTimestamp.toInt ++
              (Kafka.int64 r.maxTimestamp.toInt ++ (Kafka.int64 r.producerID.toInt ++
                (Kafka.int16 r.producerEpoch.toInt ++ (Kafka.int32 r.baseSequence.toInt ++
                  (Kafka.int32 r.records.length ++ r.records.flatMap Record.encode))))))) := by
      rw [hT]; simp only [RecordBatch.tail, List.append_assoc]
    rw [← this]
    simp only [List.append_assoc]
  rw [hl _ rfl]
  unfold decodeToRecordBatch
  refine CReads.run ?_ rest
  refine CReads.bind (creads_int64 _) ?_
  refine CReads.bind hlen ?_
  refine CReads.bind (creads_int32 _) ?_
  refine CReads.bind (creads_int8 _) ?_
  refine CReads.bind (creads_u32 _) ?_
  refine CReads.bind (creads_int16 _) ?_
  refine CReads.bind (creads_int32 _) ?_
  refine CReads.bind (creads_int64 _) ?_
  refine CReads.bind (creads_int64 _) ?_
  refine CReads.bind (creads_int64 _) ?_
  refine CReads.bind (creads_int16 _) ?_
  refine CReads.bind (creads_int32 _) ?_
  refine CReads.bind (creads_len32 _) ?_
  exact CReads.bind_pure hrs

example : (RecordBatch.encode (fun _ b => .ok b) { magic := 2, producerID := -1, records :=
      [{ key := some [107], value := some [118] }, { offsetDelta := 1, value := some [119] }] }).okAnd
    (fun bs => (decodeToRecordBatch bs).okAnd (fun x => decide (x.1.records =
      [{ key := some [107], value := some [118] }, { offsetDelta := 1, value := some [119] }]))) = true := by
  decide +kernel

end Healer
