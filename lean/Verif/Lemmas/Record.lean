import Verif.Go.Bridge
import Verif.Lemmas.Header
import Verif.Model.Record
import Verif.Spec.Record

/-! # Helper lemmas about records and record batches -/

namespace Healer

/-- The record on the wire: nil values are written as empty. -/
def Record.toSpec (r : Record) : Kafka.Record :=
  { attributes := r.attributes.toInt, timestampDelta := r.timestampDelta.toInt,
    offsetDelta := r.offsetDelta.toInt, key := r.key, value := some (r.value.getD []),
    headers := r.headers.map fun h => (h.key, some h.value) }

/-- Absent and empty payloads are not told apart after decoding. -/
def normBytes (b : Option Bytes) : Option Bytes := if b = some [] then none else b

/-- The record as the consumer sees it. -/
def goRecord (s : Kafka.Record) : Record :=
  { attributes := Int8.ofInt s.attributes, timestampDelta := Int64.ofInt s.timestampDelta,
    offsetDelta := Int32.ofInt s.offsetDelta, key := normBytes s.key, value := normBytes s.value,
    headers := s.headers.map fun h => ⟨h.1, h.2.getD []⟩ }

/-- A record within the ranges of its fields, with no null header value. -/
structure RecordFits (s : Kafka.Record) : Prop where
  attributes : -2 ^ 7 ≤ s.attributes ∧ s.attributes < 2 ^ 7
  timestamp : -2 ^ 63 ≤ s.timestampDelta ∧ s.timestampDelta < 2 ^ 63
  offset : -2 ^ 31 ≤ s.offsetDelta ∧ s.offsetDelta < 2 ^ 31
  headers : ∀ h ∈ s.headers, h.2 ≠ none
  size : (Kafka.recordBody s).length < 2 ^ 63

theorem putVarint_small (x : Int) (h : -64 ≤ x ∧ x ≤ 63) : (putVarint x).length = 1 := by
  unfold putVarint
  have h1 := putUvarint_length_pos (zigzag x)
  have h2 := putUvarint_length_le 0 (zigzag x) (by unfold zigzag; split <;> omega)
  omega

theorem encodeKey_eq (r : Record) (h : r.key = none → -64 ≤ r.offsetDelta.toInt ∧ r.offsetDelta.toInt ≤ 63) :
    r.encodeKey = Kafka.varintBytes r.key := by
  unfold Record.encodeKey Kafka.varintBytes
  cases hk : r.key with
  | none =>
    simp only
    rw [putVarint_small _ (h hk), ← putVarint_eq]
    decide
  | some k => simp only [putVarint_eq]

theorem encodeHeader_eq (h : RecordHeader) : h.encode = Kafka.recordHeader (h.key, some h.value) := by
  simp [RecordHeader.encode, Kafka.recordHeader, Kafka.varintBytes, putVarint_eq]

theorem encodeBody_eq (r : Record) (h : r.key = none → -64 ≤ r.offsetDelta.toInt ∧ r.offsetDelta.toInt ≤ 63) :
    r.encodeBody = Kafka.recordBody r.toSpec := by
  unfold Record.encodeBody Kafka.recordBody
  rw [encodeKey_eq r h]
  have hh : r.headers.flatMap RecordHeader.encode = r.toSpec.headers.flatMap Kafka.recordHeader := by
    simp only [Record.toSpec, List.flatMap_map]
    congr 1; funext x; exact encodeHeader_eq x
  rw [hh]
  simp [Record.toSpec, Kafka.varintBytes, putVarint_eq, int8_eq]

theorem encode_eq (r : Record) (h : r.key = none → -64 ≤ r.offsetDelta.toInt ∧ r.offsetDelta.toInt ≤ 63) :
    r.encode = Kafka.record r.toSpec := by
  unfold Record.encode Kafka.record
  rw [encodeBody_eq r h, putVarint_eq]

/-! ## Decoding -/

theorem creads_int8' (v : Int) (h : -2 ^ 7 ≤ v ∧ v < 2 ^ 7) :
    CReads rdI8 (Kafka.int8 v) (Int8.ofInt v) := by
  have := creads_int8 (Int8.ofInt v)
  rwa [Int8.toInt_ofInt_of_le (by omega) (by omega)] at this

theorem creads_varint_len (n : Nat) (h : n < 2 ^ 63) : CReads rdVarint (Kafka.varint n) (n : Int) :=
  creads_varint n (by omega)

/-- The length written for optional bytes. -/
def bytesLen : Option Bytes → Int
  | none => -1
  | some x => x.length

theorem creads_ifPositive (b : Option Bytes) :
    CReads (rdIfPositive (bytesLen b))
      (b.getD []) (normBytes b) := by
  unfold rdIfPositive Cur.cond normBytes bytesLen
  cases b with
  | none => exact CReads.pure none
  | some x =>
    by_cases hx : x = []
    · subst hx; simp; exact CReads.pure none
    · have : (x.length : Int) > 0 := by
        have := List.length_pos_iff.2 hx; omega
      simp only [this, if_true, Option.getD_some, Option.some.injEq, hx, if_false]
      exact CReads.bind_pure (reads_rdBytes x _ rfl)

theorem creads_varintBytes {β : Type} (b : Option Bytes) (h : (b.getD []).length < 2 ^ 63)
    (f : Option Bytes → Cur β) (e2 : Bytes) (r : β) (hf : CReads (f (normBytes b)) e2 r) :
    CReads (do let l ← rdVarint; let x ← rdIfPositive l; f x) (Kafka.varintBytes b ++ e2) r := by
  have h1 : CReads rdVarint (Kafka.varint (bytesLen b)) (bytesLen b) := by
    cases b with
    | none => exact creads_varint (-1) (by omega)
    | some x => exact creads_varint_len _ h
  refine (CReads.bind h1 (CReads.bind (creads_ifPositive b) hf)).cast ?_ rfl
  cases b <;> simp [Kafka.varintBytes, bytesLen]

theorem creads_recordHeader (h : Bytes × Option Bytes) (hv : h.2 ≠ none)
    (hs : (Kafka.recordHeader h).length < 2 ^ 63) :
    CReads decodeRecordHeader (Kafka.recordHeader h) ⟨h.1, h.2.getD []⟩ := by
  obtain ⟨k, v⟩ := h
  cases v with
  | none => exact absurd rfl hv
  | some v =>
    simp only [Kafka.recordHeader, Kafka.varintBytes, List.length_append] at hs
    refine (CReads.bind (creads_varint_len k.length (by omega)) (CReads.bind (reads_rdBytes k _ rfl)
      (CReads.bind (creads_varint_len v.length (by omega)) (CReads.bind_pure (reads_rdBytes v _ rfl))))).cast ?_ rfl
    simp [Kafka.recordHeader, Kafka.varintBytes]

theorem length_le_flatMap {α : Type} {f : α → Bytes} {xs : List α} {x : α} (hx : x ∈ xs) :
    (f x).length ≤ (xs.flatMap f).length := by
  induction xs with
  | nil => simp at hx
  | cons y ys ih =>
    simp only [List.flatMap_cons, List.length_append]
    rcases List.mem_cons.1 hx with rfl | h
    · omega
    · have := ih h; omega

theorem length_le_flatMap_of_pos {α : Type} {f : α → Bytes} {xs : List α}
    (h : ∀ x ∈ xs, 0 < (f x).length) : xs.length ≤ (xs.flatMap f).length := by
  induction xs with
  | nil => simp
  | cons y ys ih =>
    simp only [List.flatMap_cons, List.length_append, List.length_cons]
    have := h y (by simp)
    have := ih (fun x hx => h x (by simp [hx]))
    omega

theorem recordBody_pos (s : Kafka.Record) : 0 < (Kafka.recordBody s).length := by
  simp [Kafka.recordBody]; omega

theorem varint_length_pos (v : Int) : 0 < (Kafka.varint v).length := uvarint_length_pos _

theorem creads_recordBody (s : Kafka.Record) (hs : RecordFits s) :
    CReads decodeRecordFields
      (Kafka.recordBody s) (goRecord s) := by
  have hsz := hs.size
  simp only [Kafka.recordBody, List.length_append, int8_length] at hsz
  have hk : (s.key.getD []).length ≤ (Kafka.varintBytes s.key).length := by
    cases s.key <;> simp [Kafka.varintBytes]
  have hv : (s.value.getD []).length ≤ (Kafka.varintBytes s.value).length := by
    cases s.value <;> simp [Kafka.varintBytes]
  have hh : CReads (Cur.forInt s.headers.length (Cur.call (Cur.run decodeRecordHeader)))
      (s.headers.flatMap Kafka.recordHeader) (s.headers.map fun h => ⟨h.1, h.2.getD []⟩) := by
    apply CReads.forInt _ _ rfl
    intro x hx
    have := length_le_flatMap (f := Kafka.recordHeader) hx
    exact CReads.call (CReads.run (creads_recordHeader x (hs.headers x hx) (by omega)))
  have hc : s.headers.length ≤ (s.headers.flatMap Kafka.recordHeader).length :=
    length_le_flatMap_of_pos (fun x _ => by
      have := varint_length_pos x.1.length
      simp [Kafka.recordHeader]; omega)
  refine (CReads.bind (creads_int8' s.attributes hs.attributes) (CReads.bind
    (creads_varint s.timestampDelta hs.timestamp) (CReads.bind
      (creads_varint s.offsetDelta (by have := hs.offset; omega)) (creads_varintBytes s.key (by omega) _ _ _
        (creads_varintBytes s.value (by omega) _ _ _ (CReads.bind (creads_varint_len s.headers.length (by omega))
          (CReads.bind_pure hh))))))).cast ?_ ?_
  · simp [Kafka.recordBody]
  · rfl

theorem reads_record (s : Kafka.Record) (hs : RecordFits s) :
    Reads decodeToRecord (Kafka.record s) (goRecord s) := by
  unfold decodeToRecord
  apply CReads.run
  unfold Kafka.record
  have hpos := recordBody_pos s
  refine CReads.bind (creads_varint_len _ hs.size) ?_
  rw [if_neg (by omega)]
  apply reads_peekRest_bind
  intro pre rest
  rw [if_neg (by simp; omega)]
  exact creads_recordBody s hs pre rest

end Healer

namespace Healer

/-! ## Batches -/

/-- The batch on the wire. -/
def RecordBatch.toSpec (r : RecordBatch) : Kafka.Batch :=
  { baseOffset := r.baseOffset.toInt, partitionLeaderEpoch := r.partitionLeaderEpoch.toInt,
    attributes := r.attributes.toInt, lastOffsetDelta := r.lastOffsetDelta.toInt,
    baseTimestamp := r.baseTimestamp.toInt, maxTimestamp := r.maxTimestamp.toInt,
    producerId := r.producerID.toInt, producerEpoch := r.producerEpoch.toInt,
    baseSequence := r.baseSequence.toInt, records := r.records.map Record.toSpec }

/-- Fixed fields covered by the checksum, then the (possibly compressed) records. -/
def RecordBatch.tail (r : RecordBatch) (recs : Bytes) : Bytes :=
  Kafka.int16 r.attributes.toInt ++ Kafka.int32 r.lastOffsetDelta.toInt ++
    Kafka.int64 r.baseTimestamp.toInt ++ Kafka.int64 r.maxTimestamp.toInt ++
    Kafka.int64 r.producerID.toInt ++ Kafka.int16 r.producerEpoch.toInt ++
    Kafka.int32 r.baseSequence.toInt ++ Kafka.int32 r.records.length ++ recs

theorem batch_encode_eq (compress : Int8 → Bytes → Out Bytes) (r : RecordBatch) (recs : Bytes)
    (h : r.encodeRecords compress = .ok recs) :
    r.encode compress = .ok (Kafka.int64 r.baseOffset.toInt ++ Kafka.int32 ((r.tail recs).length + 9) ++
      Kafka.int32 r.partitionLeaderEpoch.toInt ++ Kafka.int8 r.magic.toInt ++
      Kafka.int32 (Kafka.crc32c (r.tail recs)).toNat ++ r.tail recs) := by
  unfold RecordBatch.encode
  rw [h]
  simp only
  have hp : be64 r.baseOffset.toUInt64 ++ be32 r.batchLength.toUInt32 ++
      be32 r.partitionLeaderEpoch.toUInt32 ++ [r.magic.toUInt8] ++ be32 r.crc ++
      be16 r.attributes.toUInt16 ++ be32 r.lastOffsetDelta.toUInt32 ++ be64 r.baseTimestamp.toUInt64 ++
      be64 r.maxTimestamp.toUInt64 ++ be64 r.producerID.toUInt64 ++ be16 r.producerEpoch.toUInt16 ++
      be32 r.baseSequence.toUInt32 ++ be32 (UInt32.ofNat r.records.length) ++ recs
      = (Kafka.int64 r.baseOffset.toInt ++ Kafka.int32 r.batchLength.toInt ++
        Kafka.int32 r.partitionLeaderEpoch.toInt ++ Kafka.int8 r.magic.toInt) ++
        (be32 r.crc ++ r.tail recs) := by
    simp only [be64_eq, be32_eq, be16_eq, int8_eq, be32_ofNat, RecordBatch.tail, List.append_assoc]
  rw [hp]
  generalize r.tail recs = T
  have h17 : (Kafka.int64 r.baseOffset.toInt ++ Kafka.int32 r.batchLength.toInt ++
        Kafka.int32 r.partitionLeaderEpoch.toInt ++ Kafka.int8 r.magic.toInt).length = 17 := by simp
  have hdrop : ((Kafka.int64 r.baseOffset.toInt ++ Kafka.int32 r.batchLength.toInt ++
        Kafka.int32 r.partitionLeaderEpoch.toInt ++ Kafka.int8 r.magic.toInt) ++
        (be32 r.crc ++ T)).drop 21 = T := by
    rw [← List.append_assoc]
    exact List.drop_left' (by simp)
  rw [hdrop]
  have hput1 : putU32At 17 (crc32Castagnoli T) ((Kafka.int64 r.baseOffset.toInt ++ Kafka.int32 r.batchLength.toInt ++
        Kafka.int32 r.partitionLeaderEpoch.toInt ++ Kafka.int8 r.magic.toInt) ++
        (be32 r.crc ++ T)) = .ok ((Kafka.int64 r.baseOffset.toInt) ++ (Kafka.int32 r.batchLength.toInt ++
        (Kafka.int32 r.partitionLeaderEpoch.toInt ++ Kafka.int8 r.magic.toInt ++
          Kafka.int32 (Kafka.crc32c T).toNat ++ T))) := by
    unfold putU32At
    rw [if_pos (by simp; omega), List.take_left' h17]
    have : ((Kafka.int64 r.baseOffset.toInt ++ Kafka.int32 r.batchLength.toInt ++
        Kafka.int32 r.partitionLeaderEpoch.toInt ++ Kafka.int8 r.magic.toInt) ++
        (be32 r.crc ++ T)).drop (17 + 4) = T := hdrop
    rw [this, be32_toNat, crc32Castagnoli_eq]
    simp only [List.append_assoc]
  rw [hput1]
  simp only [Out.bind_ok]
  unfold putU32At
  rw [if_pos (by simp; omega), List.take_left' (by simp), be32_ofNat]
  congr 1

/-- Keys that survive encoding: a nil key needs an offset delta of one varint byte. -/
def KeysEncodable (rs : List Record) : Prop :=
  ∀ x ∈ rs, x.key = none → -64 ≤ x.offsetDelta.toInt ∧ x.offsetDelta.toInt ≤ 63

theorem encodeRecords_none (compress : Int8 → Bytes → Out Bytes) (r : RecordBatch)
    (hc : r.attributes &&& 3 = 0) (hk : KeysEncodable r.records) :
    r.encodeRecords compress = .ok ((r.records.map Record.toSpec).flatMap Kafka.record) := by
  unfold RecordBatch.encodeRecords
  have : (r.attributes &&& 3).toInt8 = 0 := by rw [hc]; rfl
  simp only [this, if_true]
  congr 1
  rw [List.flatMap_map]
  unfold KeysEncodable at hk
  generalize r.records = rs at hk ⊢
  induction rs with
  | nil => rfl
  | cons x xs ih =>
    simp only [List.flatMap_cons]
    rw [encode_eq x (hk x (by simp)), ih (fun y hy => hk y (by simp [hy]))]

theorem tail_eq_batchTail (r : RecordBatch) :
    r.tail ((r.records.map Record.toSpec).flatMap Kafka.record) = Kafka.batchTail r.toSpec := by
  simp [RecordBatch.tail, Kafka.batchTail, RecordBatch.toSpec]

end Healer
