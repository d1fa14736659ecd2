import Verif.Lemmas.FetchRead

/-!
# Helper lemmas for the fetch decoder: record batches
-/

namespace Healer

/-- Handing messages to the channel. -/
def SD.deliver (s : SD) (fs : List FullMessage) : SD :=
  { s with delivered := s.delivered ++ fs, hasOne := s.hasOne || !fs.isEmpty }

theorem SD.deliver_nil (s : SD) : s.deliver [] = s := by
  unfold SD.deliver; simp

theorem SD.deliver_deliver (s : SD) (a b : List FullMessage) : (s.deliver a).deliver b = s.deliver (a ++ b) := by
  unfold SD.deliver
  simp only [SD.mk.injEq, true_and, List.append_assoc]
  cases a <;> simp

/-- The messages of a batch as the decoder builds them. -/
def batchMessages (b : Kafka.Batch) : List Message :=
  b.records.map fun r =>
    recordMessage (Int64.ofInt b.baseOffset) (Int64.ofInt b.baseTimestamp).toUInt64 (goRecord r)

/-- Those asked for, as they are put on the channel. -/
def wanted (env : FetchEnv) (topic : Bytes) (part : Int32) (ms : List Message) : List FullMessage :=
  (ms.filter fun m => decide (m.offset ≥ env.startOffset)).map fun m =>
    { topicName := topic, partitionID := part, error := none, message := some m }

theorem wanted_append (env : FetchEnv) (topic : Bytes) (part : Int32) (a b : List Message) :
    wanted env topic part (a ++ b) = wanted env topic part a ++ wanted env topic part b := by
  simp [wanted]

theorem filterAndPut_ok (env : FetchEnv) (hacc : ∀ n, env.accept n = true) (topic : Bytes) (part : Int32) (m : Message)
    (s : SD) : filterAndPutMessage env topic part m s = .ok () (s.deliver (wanted env topic part [m])) := by
  unfold filterAndPutMessage wanted putMessage
  by_cases h : m.offset ≥ env.startOffset
  · simp [h, hacc, SD.deliver]
  · simp only [if_neg h, List.filter_cons, decide_eq_true_eq, List.filter_nil, List.map_nil, SD.deliver_nil]

/-- The loop over the records, on data that may be cut anywhere. -/
theorem putRecords_take (env : FetchEnv) (hacc : ∀ n, env.accept n = true) (topic : Bytes) (part : Int32)
    (bo : Int64) (bt : UInt64) (rs : List Kafka.Record) (hr : ∀ r ∈ rs, RecordFits r) (pre : Bytes) (k : Nat) (s : SD) :
    ∃ j, j ≤ rs.length ∧
      putRecords env topic part bo bt rs.length (pre ++ (rs.flatMap Kafka.record).take k) pre.length s
        = .ok () (s.deliver (wanted env topic part ((rs.take j).map fun r => recordMessage bo bt (goRecord r)))) ∧
      (j < rs.length → k < ((rs.take (j + 1)).flatMap Kafka.record).length) ∧
      ((rs.take j).flatMap Kafka.record).length ≤ k := by
  induction rs generalizing pre k s with
  | nil => exact ⟨0, by simp, by simp [putRecords, FM.pure_def, wanted, SD.deliver_nil], by simp, by simp⟩
  | cons r rs ih =>
    simp only [List.length_cons, putRecords]
    rw [sliceFrom_append]
    simp only [List.flatMap_cons]
    by_cases hk : k < (Kafka.record r).length
    · rw [List.take_append_of_le_length (by omega), decodeToRecord_short r (hr r (by simp)) k hk]
      refine ⟨0, by omega, by simp [wanted, SD.deliver_nil], ?_, by simp⟩
      intro _
      simpa using hk
    · rw [List.take_append, List.take_of_length_le (by omega)]
      rw [reads_record r (hr r (by simp))]
      simp only
      rw [FM.bind_def, filterAndPut_ok env hacc]
      simp only
      obtain ⟨j, hj, h1, h2, h3⟩ := ih (fun x hx => hr x (by simp [hx])) (pre ++ Kafka.record r)
        (k - (Kafka.record r).length) (s.deliver (wanted env topic part [recordMessage bo bt (goRecord r)]))
      rw [List.append_assoc, List.length_append] at h1
      rw [show ((pre.length : Int) + ((Kafka.record r).length : Int)) = ((pre.length + (Kafka.record r).length : Nat) : Int) from rfl]
      rw [h1, SD.deliver_deliver, ← wanted_append]
      refine ⟨j + 1, by omega, by simp, ?_, ?_⟩
      · intro hlt
        have := h2 (by omega)
        simp only [List.take_succ_cons, List.flatMap_cons, List.length_append]
        omega
      · simp only [List.take_succ_cons, List.flatMap_cons, List.length_append]
        omega

/-- A batch in the ranges of its fields. -/
structure BatchFits (b : Kafka.Batch) : Prop where
  records : ∀ r ∈ b.records, RecordFits r
  count : b.records.length < 2 ^ 32
  size : (b.records.flatMap Kafka.record).length + 49 < 2 ^ 32
  /-- not compressed -/
  plain : b.attributes % 4 = 0

/-- The fixed part of a batch after the first 17 bytes. -/
def batchFixed (crc : Nat) (b : Kafka.Batch) : Bytes :=
  Kafka.int32 crc ++ Kafka.int16 b.attributes ++ Kafka.int32 b.lastOffsetDelta ++ Kafka.int64 b.baseTimestamp ++
    Kafka.int64 b.maxTimestamp ++ Kafka.int64 b.producerId ++ Kafka.int16 b.producerEpoch ++
    Kafka.int32 b.baseSequence ++ Kafka.int32 b.records.length

/-- The first 17 bytes of a batch. -/
def batchHead (b : Kafka.Batch) : Bytes :=
  Kafka.int64 b.baseOffset ++ Kafka.int32 ((Kafka.batchTail b).length + 9) ++ Kafka.int32 b.partitionLeaderEpoch ++
    Kafka.int8 2

theorem batchFixed_length (crc : Nat) (b : Kafka.Batch) : (batchFixed crc b).length = 44 := by
  simp [batchFixed]

theorem batchHead_length (b : Kafka.Batch) : (batchHead b).length = 17 := by
  simp [batchHead]

theorem batchWithCrc_eq (crc : Nat) (b : Kafka.Batch) :
    Kafka.batchWithCrc crc b = batchHead b ++ (batchFixed crc b ++ b.records.flatMap Kafka.record) := by
  unfold Kafka.batchWithCrc
  have h : ∀ T : Bytes, T = Kafka.batchTail b → T = Kafka.int16 b.attributes ++ (Kafka.int32 b.lastOffsetDelta ++ (Kafka.int64 b.baseTimestamp ++
    (Kafka.int64 b.maxTimestamp ++ (Kafka.int64 b.producerId ++ (Kafka.int16 b.producerEpoch ++
    (Kafka.int32 b.baseSequence ++ (Kafka.int32 b.records.length ++ b.records.flatMap Kafka.record))))))) := by
    intro T hT; rw [hT]; unfold Kafka.batchTail; simp only [List.append_assoc]
  unfold batchHead batchFixed
  generalize hT : Kafka.batchTail b = T
  have := h T hT.symm
  simp only [List.append_assoc]
  rw [← this]

theorem batchTail_length (b : Kafka.Batch) :
    (Kafka.batchTail b).length = 40 + (b.records.flatMap Kafka.record).length := by
  unfold Kafka.batchTail; simp only [List.length_append, int16_length, int32_length, int64_length]

/-- What the decoder reads off the 61 fixed bytes. -/
theorem batch_fields (crc : Nat) (b : Kafka.Batch) (hb : BatchFits b) :
    (UInt64.ofNat (beAt 8 0 (batchHead b ++ batchFixed crc b))).toInt64 = Int64.ofInt b.baseOffset ∧
    beAt 4 8 (batchHead b ++ batchFixed crc b) = (b.records.flatMap Kafka.record).length + 49 ∧
    beAt 2 21 (batchHead b ++ batchFixed crc b) % 4 = 0 ∧
    UInt64.ofNat (beAt 8 27 (batchHead b ++ batchFixed crc b)) = (Int64.ofInt b.baseTimestamp).toUInt64 ∧
    beAt 4 57 (batchHead b ++ batchFixed crc b) = b.records.length := by
  have hsz := hb.size
  have hcnt := hb.count
  have hpl := hb.plain
  have e0 : batchHead b ++ batchFixed crc b = [] ++ (Kafka.int64 b.baseOffset ++
      (Kafka.int32 ((Kafka.batchTail b).length + 9) ++ (Kafka.int32 b.partitionLeaderEpoch ++ (Kafka.int8 2 ++ batchFixed crc b)))) := by
    simp only [batchHead, List.append_assoc, List.nil_append]
  have e1 : batchHead b ++ batchFixed crc b = Kafka.int64 b.baseOffset ++
      (Kafka.int32 ((Kafka.batchTail b).length + 9) ++ (Kafka.int32 b.partitionLeaderEpoch ++ (Kafka.int8 2 ++ batchFixed crc b))) := by
    simp only [batchHead, List.append_assoc]
  have e2 : batchHead b ++ batchFixed crc b = (batchHead b ++ Kafka.int32 crc) ++ (Kafka.int16 b.attributes ++
      (Kafka.int32 b.lastOffsetDelta ++ Kafka.int64 b.baseTimestamp ++
    Kafka.int64 b.maxTimestamp ++ Kafka.int64 b.producerId ++ Kafka.int16 b.producerEpoch ++
    Kafka.int32 b.baseSequence ++ Kafka.int32 b.records.length)) := by
    simp only [batchFixed, List.append_assoc]
  have e3 : batchHead b ++ batchFixed crc b = (batchHead b ++ Kafka.int32 crc ++ Kafka.int16 b.attributes ++
      Kafka.int32 b.lastOffsetDelta) ++ (Kafka.int64 b.baseTimestamp ++
    (Kafka.int64 b.maxTimestamp ++ Kafka.int64 b.producerId ++ Kafka.int16 b.producerEpoch ++
    Kafka.int32 b.baseSequence ++ Kafka.int32 b.records.length)) := by
    simp only [batchFixed, List.append_assoc]
  have e4 : batchHead b ++ batchFixed crc b = (batchHead b ++ Kafka.int32 crc ++ Kafka.int16 b.attributes ++
      Kafka.int32 b.lastOffsetDelta ++ Kafka.int64 b.baseTimestamp ++
    Kafka.int64 b.maxTimestamp ++ Kafka.int64 b.producerId ++ Kafka.int16 b.producerEpoch ++
    Kafka.int32 b.baseSequence) ++ (Kafka.int32 b.records.length ++ []) := by
    simp only [batchFixed, List.append_assoc, List.append_nil]
  refine ⟨?_, ?_, ?_, ?_, ?_⟩
  · rw [e0, beAt_append 8 0 _ _ _ (by simp) (by simp), beVal_int64, int64_ofEmod]
  · rw [e1, beAt_append 4 8 _ _ _ (by simp) (by simp), beVal_int32, batchTail_length]
    omega
  · rw [e2, beAt_append 2 21 _ _ _ (by simp [batchHead]) (by simp), beVal_int16]
    omega
  · rw [e3, beAt_append 8 27 _ _ _ (by simp [batchHead]) (by simp), beVal_int64, uint64_ofEmod]
  · rw [e4, beAt_append 4 57 _ _ _ (by simp [batchHead]) (by simp), beVal_int32]
    omega

theorem batch_magic (b : Kafka.Batch) : ¬ beAt 1 16 (batchHead b) < 2 := by
  have e : batchHead b = (Kafka.int64 b.baseOffset ++ Kafka.int32 ((Kafka.batchTail b).length + 9) ++
    Kafka.int32 b.partitionLeaderEpoch) ++ (Kafka.int8 2 ++ []) := by
    simp only [batchHead, List.append_assoc, List.append_nil]
  rw [e, beAt_append 1 16 _ _ _ (by simp) (by simp)]
  decide

theorem Adv.zero (s : SD) : Adv 0 s s :=
  ⟨by simp, by simp, by simp, rfl, id, rfl, rfl, rfl⟩

theorem Adv.trans {m n : Nat} {s s1 s2 : SD} (h1 : Adv m s s1) (h2 : Adv n s1 s2) : Adv (m + n) s s2 := by
  refine ⟨?_, ?_, ?_, ?_, ?_, ?_, ?_, ?_⟩
  · rw [h2.avail, h1.avail, List.drop_drop]
  · rw [h2.limit, h1.limit]; omega
  · rw [h2.flat, h1.flat, List.drop_drop]
  · rw [h2.fin, h1.fin]
  · exact fun h => h2.whole (h1.whole h)
  · rw [h2.offset, h1.offset]; omega
  · rw [h2.hasOne, h1.hasOne]
  · rw [h2.delivered, h1.delivered]

/-- After the 44 fixed bytes: the records, possibly cut. -/
theorem decodeBatchRecords_take (env : FetchEnv) (hacc : ∀ n, env.accept n = true) (topic : Bytes) (part : Int32)
    (b : Kafka.Batch) (hb : BatchFits b) (s : SD) (k : Nat) (more : Bytes)
    (hav : s.avail = (b.records.flatMap Kafka.record).take k ++ more)
    (hk : (k < (b.records.flatMap Kafka.record).length → more = [] ∧ s.Whole)) :
    ∃ j s1, j ≤ b.records.length ∧
      decodeBatchRecords env topic part (Int64.ofInt b.baseOffset) (Int64.ofInt b.baseTimestamp).toUInt64 (Int8.ofNat 0)
        b.records.length (((b.records.flatMap Kafka.record).length : Int)) s
        = .ok () (s1.deliver (wanted env topic part ((batchMessages b).take j))) ∧
      Adv (min k (b.records.flatMap Kafka.record).length) s s1 ∧
      (j < b.records.length → k < ((b.records.take (j + 1)).flatMap Kafka.record).length) := by
  unfold decodeBatchRecords
  rw [Int.toNat_natCast]
  have hl : s.avail.length = min k (b.records.flatMap Kafka.record).length + more.length := by
    rw [hav]; simp
  obtain ⟨s1, h1, h2⟩ := fetchReadUpTo_ok (b.records.flatMap Kafka.record).length s (by
    by_cases hlt : k < (b.records.flatMap Kafka.record).length
    · exact Or.inr (hk hlt).2
    · left; omega)
  rw [h1]
  simp only
  have hgot : s.avail.take (b.records.flatMap Kafka.record).length = (b.records.flatMap Kafka.record).take k := by
    rw [hav]
    by_cases hlt : k < (b.records.flatMap Kafka.record).length
    · rw [(hk hlt).1, List.append_nil, List.take_take, Nat.min_eq_right (by omega)]
    · rw [List.take_of_length_le (by omega : (b.records.flatMap Kafka.record).length ≤ k), List.take_left' rfl]
  have hmin : min (b.records.flatMap Kafka.record).length s.avail.length = min k (b.records.flatMap Kafka.record).length := by
    by_cases hlt : k < (b.records.flatMap Kafka.record).length
    · rw [(hk hlt).1] at hl; simp only [List.length_nil] at hl; omega
    · omega
  rw [hgot]
  rw [hmin] at h2
  have hun : uncompress env (Int8.ofNat 0) ((b.records.flatMap Kafka.record).take k) none
      = .ok ((b.records.flatMap Kafka.record).take k) := by
    unfold uncompress; rfl
  rw [hun]
  simp only
  obtain ⟨j, hj, e1, e2, _⟩ := putRecords_take env hacc topic part (Int64.ofInt b.baseOffset)
    (Int64.ofInt b.baseTimestamp).toUInt64 b.records hb.records [] k s1
  simp only [List.nil_append, List.length_nil] at e1
  refine ⟨j, s1, hj, ?_, h2, e2⟩
  rw [show ((0 : Nat) : Int) = 0 from rfl] at e1
  rw [e1]
  unfold batchMessages
  rw [List.map_take]

/-- A batch after its first 17 bytes, complete or cut after the 44 fixed bytes. -/
theorem decodeRecordsMagic2_take (env : FetchEnv) (hacc : ∀ n, env.accept n = true) (topic : Bytes) (part : Int32)
    (crc : Nat) (b : Kafka.Batch) (hb : BatchFits b) (s : SD) (k : Nat) (more : Bytes)
    (hav : s.avail = batchFixed crc b ++ ((b.records.flatMap Kafka.record).take k ++ more))
    (hk : (k < (b.records.flatMap Kafka.record).length → more = [] ∧ s.Whole)) :
    ∃ j s1, j ≤ b.records.length ∧
      decodeRecordsMagic2 env topic part (batchHead b) s
        = .ok (((44 + (b.records.flatMap Kafka.record).length : Nat) : Int))
            (s1.deliver (wanted env topic part ((batchMessages b).take j))) ∧
      Adv (44 + min k (b.records.flatMap Kafka.record).length) s s1 ∧
      (j < b.records.length → k < ((b.records.take (j + 1)).flatMap Kafka.record).length) := by
  unfold decodeRecordsMagic2
  have hlen : 44 ≤ s.avail.length := by rw [hav, List.length_append, batchFixed_length]; omega
  obtain ⟨s1, h1, h2⟩ := fetchRead_ok 44 s hlen
  rw [FM.bind_def, h1]
  have hgot : s.avail.take 44 = batchFixed crc b := by rw [hav, List.take_left' (batchFixed_length crc b)]
  have hav1 : s1.avail = (b.records.flatMap Kafka.record).take k ++ more := by
    rw [h2.avail, hav, List.drop_left' (batchFixed_length crc b)]
  obtain ⟨f1, f2, f3, f4, f5⟩ := batch_fields crc b hb
  simp only [hgot, f1, f2, f3, f4, f5]
  by_cases hc : b.records.length = 0
  · rw [if_pos hc]
    have hnil : b.records = [] := List.length_eq_zero_iff.1 hc
    refine ⟨0, s1, by omega, ?_, ?_, by omega⟩
    · simp [FM.pure_def, hnil, wanted, SD.deliver_nil]
    · simpa [hnil] using h2
  · rw [if_neg hc]
    obtain ⟨j, s2, hj, e1, e2, e3⟩ := decodeBatchRecords_take env hacc topic part b hb s1 k more hav1
      (fun h => ⟨(hk h).1, h2.whole (hk h).2⟩)
    refine ⟨j, s2, hj, ?_, h2.trans e2, e3⟩
    rw [FM.bind_def]
    have hs : (((b.records.flatMap Kafka.record).length + 49 : Nat) : Int) - 49 = ((b.records.flatMap Kafka.record).length : Int) := by
      omega
    rw [hs, e1]
    rfl

/-- The wire form of a sequence of batches with arbitrary checksum fields. -/
def batchesWire (bs : List (Nat × Kafka.Batch)) : Bytes := bs.flatMap fun x => Kafka.batchWithCrc x.1 x.2

theorem batchWithCrc_length (crc : Nat) (b : Kafka.Batch) :
    (Kafka.batchWithCrc crc b).length = 61 + (b.records.flatMap Kafka.record).length := by
  rw [batchWithCrc_eq, List.length_append, List.length_append, batchHead_length, batchFixed_length]; omega

theorem deliver_avail (s : SD) (fs : List FullMessage) : (s.deliver fs).avail = s.avail := rfl
theorem deliver_rd (s : SD) (fs : List FullMessage) : (s.deliver fs).rd = s.rd := rfl
theorem deliver_whole (s : SD) (fs : List FullMessage) : (s.deliver fs).Whole ↔ s.Whole := Iff.rfl

theorem Adv.deliver {n : Nat} {s s' : SD} (h : Adv n s s') (fs : List FullMessage) : Adv n (s.deliver fs) (s'.deliver fs) := by
  refine ⟨h.avail, h.limit, h.flat, h.fin, h.whole, h.offset, ?_, ?_⟩
  · simp [SD.deliver, h.hasOne]
  · simp [SD.deliver, h.delivered]

/-- The loop over complete batches. -/
theorem messageSetLoop_full (env : FetchEnv) (hacc : ∀ n, env.accept n = true) (topic : Bytes) (part : Int32)
    (bs : List (Nat × Kafka.Batch)) (hb : ∀ x ∈ bs, BatchFits x.2) (s : SD) (more : Bytes)
    (hav : s.avail = batchesWire bs ++ more) (size off : Int) (fuel : Nat) (hf : s.rd.limit < fuel)
    (hoff : off + (batchesWire bs).length = size) :
    ∃ s1, messageSetLoop env topic part size fuel off s
        = .ok () (s1.deliver (wanted env topic part (bs.flatMap fun x => batchMessages x.2))) ∧
      Adv (batchesWire bs).length s s1 := by
  induction bs generalizing s off fuel with
  | nil =>
    obtain ⟨f, rfl⟩ : ∃ f, fuel = f + 1 := ⟨fuel - 1, by omega⟩
    refine ⟨s, ?_, Adv.zero s⟩
    unfold messageSetLoop
    simp only [batchesWire, List.flatMap_nil, List.length_nil] at hoff
    rw [if_neg (by omega)]
    simp [FM.pure_def, wanted, SD.deliver_nil]
  | cons x bs ih =>
    obtain ⟨crc, b⟩ := x
    obtain ⟨f, rfl⟩ : ∃ f, fuel = f + 1 := ⟨fuel - 1, by omega⟩
    have hw : batchesWire ((crc, b) :: bs) = Kafka.batchWithCrc crc b ++ batchesWire bs := by simp [batchesWire]
    have hwl := batchWithCrc_length crc b
    rw [hw, List.length_append] at hoff
    have hfits := hb (crc, b) (by simp)
    unfold messageSetLoop
    rw [if_pos (by omega)]
    have hav' : s.avail = batchHead b ++ (batchFixed crc b ++ (b.records.flatMap Kafka.record ++ (batchesWire bs ++ more))) := by
      rw [hav, hw, batchWithCrc_eq]; simp only [List.append_assoc]
    obtain ⟨s1, h1, h2⟩ := fetchRead_ok 17 s (by rw [hav', List.length_append, batchHead_length]; omega)
    rw [FM.bind_def, h1]
    simp only
    have hh : s.avail.take 17 = batchHead b := by rw [hav', List.take_left' (batchHead_length b)]
    rw [hh, if_neg (batch_magic b), FM.bind_def]
    have hav1 : s1.avail = batchFixed crc b ++ ((b.records.flatMap Kafka.record).take (b.records.flatMap Kafka.record).length ++ (batchesWire bs ++ more)) := by
      rw [h2.avail, hav', List.drop_left' (batchHead_length b), List.take_length]
    obtain ⟨j, s2, hj, e1, e2, e3⟩ := decodeRecordsMagic2_take env hacc topic part crc b hfits s1
      (b.records.flatMap Kafka.record).length _ hav1 (fun h => absurd h (by omega))
    have hjl : j = b.records.length := by
      apply Nat.le_antisymm hj
      apply Nat.le_of_not_lt
      intro hlt
      have := e3 hlt
      have h5 : ((b.records.take (j + 1)).flatMap Kafka.record).length ≤ (b.records.flatMap Kafka.record).length := by
        conv => rhs; rw [← List.take_append_drop (j + 1) b.records]
        rw [List.flatMap_append, List.length_append]; omega
      omega
    rw [e1]
    simp only
    rw [Nat.min_self] at e2
    have h12 := h2.trans e2
    have hlim := h12.limit
    have havl : s.avail.length ≤ s.rd.limit := by unfold SD.avail; rw [List.length_take]; omega
    have hcl : 61 + (b.records.flatMap Kafka.record).length ≤ s.avail.length := by
      rw [hav, hw, List.length_append, List.length_append]; omega
    have hav2 : s2.avail = batchesWire bs ++ more := by
      rw [h12.avail, hav, hw, List.append_assoc]
      exact List.drop_left' (by omega)
    obtain ⟨s3, g1, g2⟩ := ih (fun y hy => hb y (by simp [hy]))
      (s2.deliver (wanted env topic part ((batchMessages b).take j))) hav2
      (off + 17 + ((44 + (b.records.flatMap Kafka.record).length : Nat) : Int)) f
      (by rw [deliver_rd]; omega) (by omega)
    rw [g1]
    have hall : (batchMessages b).take j = batchMessages b := by
      rw [hjl]; unfold batchMessages; rw [← List.length_map (f := fun r => recordMessage (Int64.ofInt b.baseOffset) (Int64.ofInt b.baseTimestamp).toUInt64 (goRecord r)), List.take_length]
    rw [hall] at g2
    refine ⟨{ s3 with delivered := s2.delivered, hasOne := s2.hasOne }, ?_, ?_⟩
    · congr 1
      rw [List.flatMap_cons, wanted_append, ← SD.deliver_deliver]
      congr 1
      have a1 := g2.delivered
      have a2 := g2.hasOne
      unfold SD.deliver at a1 a2 ⊢
      simp only at a1 a2 ⊢
      rw [← a1, ← a2]
    · rw [hw, List.length_append, hwl]
      have h23 : Adv (batchesWire bs).length s2 { s3 with delivered := s2.delivered, hasOne := s2.hasOne } :=
        ⟨g2.avail, g2.limit, g2.flat, g2.fin, g2.whole, g2.offset, rfl, rfl⟩
      have := h12.trans h23
      rwa [show 17 + (44 + (b.records.flatMap Kafka.record).length) + (batchesWire bs).length
        = 61 + (b.records.flatMap Kafka.record).length + (batchesWire bs).length from by omega] at this

/-- Moving the reader of a state that already delivered something. -/
theorem adv_undeliver {n : Nat} {s2 s3 : SD} {fs gs : List FullMessage} (g : Adv n (s2.deliver fs) s3) :
    ∃ s4, s3.deliver gs = s4.deliver (fs ++ gs) ∧ Adv n s2 s4 := by
  refine ⟨{ s3 with delivered := s2.delivered, hasOne := s2.hasOne }, ?_, ?_⟩
  · rw [← SD.deliver_deliver]
    congr 1
    have a1 := g.delivered
    have a2 := g.hasOne
    unfold SD.deliver at a1 a2 ⊢
    simp only at a1 a2 ⊢
    rw [← a1, ← a2]
  · exact ⟨g.avail, g.limit, g.flat, g.fin, g.whole, g.offset, rfl, rfl⟩

/-- The result of a loop that met the end of the data: no error, or `io.EOF`. -/
def EndsAt (r : Res Unit) (s : SD) : Prop := r = .ok () s ∨ r = .err .eof s

theorem List.prefix_flatMap_take (bs : List (Nat × Kafka.Batch)) (b : Nat × Kafka.Batch) (j : Nat) :
    (batchMessages b.2).take j <+: (b :: bs).flatMap (fun x => batchMessages x.2) := by
  rw [List.flatMap_cons]
  exact (List.take_prefix _ _).trans (List.prefix_append _ _)

/-- The loop over batches cut at byte `k`. -/
theorem messageSetLoop_cut (env : FetchEnv) (hacc : ∀ n, env.accept n = true) (topic : Bytes) (part : Int32)
    (bs : List (Nat × Kafka.Batch)) (hb : ∀ x ∈ bs, BatchFits x.2) (s : SD) (hw : s.Whole) (k : Nat)
    (hav : s.avail = (batchesWire bs).take k) (size off : Int) (fuel : Nat) (hf : s.rd.limit < fuel)
    (hoff : off + s.rd.limit = size) :
    ∃ s1 pre, pre <+: (bs.flatMap fun x => batchMessages x.2) ∧
      EndsAt (messageSetLoop env topic part size fuel off s) (s1.deliver (wanted env topic part pre)) ∧
      Adv s.rd.limit s s1 := by
  have hlen := hw.length
  induction bs generalizing s off fuel k with
  | nil =>
    obtain ⟨f, rfl⟩ : ∃ f, fuel = f + 1 := ⟨fuel - 1, by omega⟩
    have h0 : s.rd.limit = 0 := by rw [← hlen, hav]; simp [batchesWire]
    refine ⟨s, [], List.prefix_refl _, Or.inl ?_, by rw [h0]; exact Adv.zero s⟩
    unfold messageSetLoop
    rw [if_neg (by omega)]
    simp [FM.pure_def, wanted, SD.deliver_nil]
  | cons x bs ih =>
    obtain ⟨crc, b⟩ := x
    obtain ⟨f, rfl⟩ : ∃ f, fuel = f + 1 := ⟨fuel - 1, by omega⟩
    have hww : batchesWire ((crc, b) :: bs) = Kafka.batchWithCrc crc b ++ batchesWire bs := by simp [batchesWire]
    have hwl := batchWithCrc_length crc b
    have hfits := hb (crc, b) (by simp)
    unfold messageSetLoop
    by_cases h0 : s.rd.limit = 0
    · rw [if_neg (by omega)]
      exact ⟨s, [], List.nil_prefix, Or.inl (by simp [FM.pure_def, wanted, SD.deliver_nil]), by rw [h0]; exact Adv.zero s⟩
    rw [if_pos (by omega), FM.bind_def]
    have hav' : s.avail = (batchHead b ++ (batchFixed crc b ++ (b.records.flatMap Kafka.record ++ batchesWire bs))).take k := by
      rw [hav, hww, batchWithCrc_eq]; simp only [List.append_assoc]
    by_cases h17 : s.avail.length < 17
    · obtain ⟨s1, h1, h2⟩ := fetchRead_short 17 s hw h17
      rw [h1]
      have hne : s.avail ≠ [] := by intro h; rw [h] at hlen; simp at hlen; omega
      simp only [hne, if_false, if_true]
      rw [hlen] at h2
      exact ⟨s1, [], List.nil_prefix, Or.inl (by simp [FM.pure_def, wanted, SD.deliver_nil]), h2⟩
    obtain ⟨s1, h1, h2⟩ := fetchRead_ok 17 s (by omega)
    rw [h1]
    simp only
    have hk17 : 17 ≤ k := by
      have := congrArg List.length hav'
      rw [List.length_take] at this
      omega
    have hh : s.avail.take 17 = batchHead b := by
      rw [hav', List.take_take, Nat.min_eq_left hk17, List.take_left' (batchHead_length b)]
    rw [hh, if_neg (batch_magic b), FM.bind_def]
    have hav1 : s1.avail = (batchFixed crc b ++ (b.records.flatMap Kafka.record ++ batchesWire bs)).take (k - 17) := by
      rw [h2.avail, hav', List.drop_take, List.drop_left' (batchHead_length b)]
    have hw1 := h2.whole hw
    have hlen1 := hw1.length
    have hlim1 := h2.limit
    by_cases h44 : s1.avail.length < 44
    · obtain ⟨s2, g1, g2⟩ := fetchRead_short 44 s1 hw1 h44
      unfold decodeRecordsMagic2
      rw [FM.bind_def, g1]
      simp only
      have hadv := h2.trans g2
      rw [hlen1, hlim1, show 17 + (s.rd.limit - 17) = s.rd.limit from by omega] at hadv
      by_cases he : s1.avail = []
      · rw [if_pos he]
        rw [if_neg (by simp)]
        exact ⟨s2, [], List.nil_prefix, Or.inr (by simp [FM.fail, wanted, SD.deliver_nil]), hadv⟩
      · rw [if_neg he]
        simp only [if_true, FM.pure_def]
        obtain ⟨f', rfl⟩ : ∃ f', f = f' + 1 := ⟨f - 1, by omega⟩
        refine ⟨s2, [], List.nil_prefix, Or.inl ?_, hadv⟩
        unfold messageSetLoop
        rw [if_neg (by omega)]
        simp [FM.pure_def, wanted, SD.deliver_nil]
    · have hk44 : 44 ≤ k - 17 := by
        have := congrArg List.length hav1
        rw [List.length_take] at this
        omega
      rw [List.take_append, List.take_of_length_le (by rw [batchFixed_length]; omega), batchFixed_length] at hav1
      by_cases hfull : k - 17 - 44 < (b.records.flatMap Kafka.record).length
      · -- the cut is inside this batch
        rw [List.take_append_of_le_length (by omega)] at hav1
        obtain ⟨j, s2, hj, e1, e2, e3⟩ := decodeRecordsMagic2_take env hacc topic part crc b hfits s1
          (k - 17 - 44) [] (by rw [hav1, List.append_nil]) (fun _ => ⟨rfl, hw1⟩)
        rw [e1]
        simp only
        obtain ⟨f', rfl⟩ : ∃ f', f = f' + 1 := ⟨f - 1, by omega⟩
        have hl1 : s1.rd.limit = 44 + (k - 17 - 44) := by
          rw [← hlen1, hav1, List.length_append, batchFixed_length, List.length_take]; omega
        have hadv := h2.trans e2
        rw [show 17 + (44 + min (k - 17 - 44) (b.records.flatMap Kafka.record).length) = s.rd.limit from by omega] at hadv
        refine ⟨s2, _, List.prefix_flatMap_take bs (crc, b) j, Or.inl ?_, hadv⟩
        unfold messageSetLoop
        rw [if_neg (by omega)]
        rfl
      · rw [List.take_append, List.take_of_length_le (by omega)] at hav1
        obtain ⟨j, s2, hj, e1, e2, e3⟩ := decodeRecordsMagic2_take env hacc topic part crc b hfits s1
          (b.records.flatMap Kafka.record).length _ (by rw [hav1, List.take_length]) (fun h => absurd h (by omega))
        have hjl : j = b.records.length := by
          apply Nat.le_antisymm hj
          apply Nat.le_of_not_lt
          intro hlt
          have := e3 hlt
          have h5 : ((b.records.take (j + 1)).flatMap Kafka.record).length ≤ (b.records.flatMap Kafka.record).length := by
            conv => rhs; rw [← List.take_append_drop (j + 1) b.records]
            rw [List.flatMap_append, List.length_append]; omega
          omega
        have hall : (batchMessages b).take j = batchMessages b := by
          rw [hjl]; unfold batchMessages; rw [← List.length_map (f := fun r => recordMessage (Int64.ofInt b.baseOffset) (Int64.ofInt b.baseTimestamp).toUInt64 (goRecord r)), List.take_length]
        rw [e1, hall]
        simp only
        rw [Nat.min_self] at e2
        have h12 := h2.trans e2
        have hlim := h12.limit
        have hcl : 44 + (b.records.flatMap Kafka.record).length ≤ s1.avail.length := by
          rw [hav1, List.length_append, List.length_append, batchFixed_length]; omega
        have hav2 : s2.avail = (batchesWire bs).take (k - 17 - 44 - (b.records.flatMap Kafka.record).length) := by
          rw [e2.avail, hav1, ← List.append_assoc]
          exact List.drop_left' (by rw [List.length_append, batchFixed_length])
        have hw2 := h12.whole hw
        obtain ⟨s3, pre, p1, p2, p3⟩ := ih (fun y hy => hb y (by simp [hy]))
          (s2.deliver (wanted env topic part (batchMessages b))) hw2 _ hav2
          (off + 17 + ((44 + (b.records.flatMap Kafka.record).length : Nat) : Int)) f
          (by rw [deliver_rd]; omega) (by rw [deliver_rd]; omega) hw2.length
        obtain ⟨s4, q1, q2⟩ := adv_undeliver (gs := wanted env topic part pre) p3
        rw [q1, ← wanted_append] at p2
        refine ⟨s4, batchMessages b ++ pre, ?_, p2, ?_⟩
        · rw [List.flatMap_cons]
          exact (List.prefix_append_right_inj _).2 p1
        · have := h12.trans q2
          rwa [show 17 + (44 + (b.records.flatMap Kafka.record).length) + (s2.deliver (wanted env topic part (batchMessages b))).rd.limit
            = s.rd.limit from by rw [deliver_rd]; omega] at this

end Healer
