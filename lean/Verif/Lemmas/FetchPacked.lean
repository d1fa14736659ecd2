import Verif.Lemmas.FetchHead

/-!
# Helper lemmas for the fetch decoder: complete batches, compressed or not
-/

namespace Healer

/-- What the decoder needs to know about a batch. -/
structure PackFits (env : FetchEnv) (x : Kafka.Packed) : Prop where
  records : ∀ r ∈ x.batch.records, RecordFits r
  count : x.batch.records.length < 2 ^ 32
  size : x.payload.length + 49 < 2 ^ 32
  raw : uncompress env (Int8.ofNat (x.batch.attributes % 4).toNat) x.payload none
    = .ok (x.batch.records.flatMap Kafka.record)

/-- The first 17 bytes of a batch. -/
def packHead (x : Kafka.Packed) : Bytes :=
  Kafka.int64 x.batch.baseOffset ++ Kafka.int32 (x.payload.length + 49) ++ Kafka.int32 x.batch.partitionLeaderEpoch ++
    Kafka.int8 2

theorem packed_eq (x : Kafka.Packed) : Kafka.packed x = packHead x ++ (batchFixed x.crc x.batch ++ x.payload) := by
  unfold Kafka.packed packHead batchFixed
  simp only [List.append_assoc]

theorem packHead_length (x : Kafka.Packed) : (packHead x).length = 17 := by simp [packHead]

theorem packed_length (x : Kafka.Packed) : (Kafka.packed x).length = 61 + x.payload.length := by
  rw [packed_eq, List.length_append, List.length_append, packHead_length, batchFixed_length]; omega

theorem pack_fields (x : Kafka.Packed) (hsz : x.payload.length + 49 < 2 ^ 32) (hcnt : x.batch.records.length < 2 ^ 32) :
    (UInt64.ofNat (beAt 8 0 (packHead x ++ batchFixed x.crc x.batch))).toInt64 = Int64.ofInt x.batch.baseOffset ∧
    beAt 4 8 (packHead x ++ batchFixed x.crc x.batch) = x.payload.length + 49 ∧
    beAt 2 21 (packHead x ++ batchFixed x.crc x.batch) % 4 = (x.batch.attributes % 4).toNat ∧
    UInt64.ofNat (beAt 8 27 (packHead x ++ batchFixed x.crc x.batch)) = (Int64.ofInt x.batch.baseTimestamp).toUInt64 ∧
    beAt 4 57 (packHead x ++ batchFixed x.crc x.batch) = x.batch.records.length := by
  obtain ⟨crc, b, payload⟩ := x
  simp only at hsz hcnt ⊢
  have e1 : packHead ⟨crc, b, payload⟩ ++ batchFixed crc b = Kafka.int64 b.baseOffset ++
      (Kafka.int32 (payload.length + 49) ++ (Kafka.int32 b.partitionLeaderEpoch ++ (Kafka.int8 2 ++ batchFixed crc b))) := by
    simp only [packHead, List.append_assoc]
  have e2 : packHead ⟨crc, b, payload⟩ ++ batchFixed crc b = (packHead ⟨crc, b, payload⟩ ++ Kafka.int32 crc) ++ (Kafka.int16 b.attributes ++
      (Kafka.int32 b.lastOffsetDelta ++ Kafka.int64 b.baseTimestamp ++
    Kafka.int64 b.maxTimestamp ++ Kafka.int64 b.producerId ++ Kafka.int16 b.producerEpoch ++
    Kafka.int32 b.baseSequence ++ Kafka.int32 b.records.length)) := by
    simp only [batchFixed, List.append_assoc]
  have e3 : packHead ⟨crc, b, payload⟩ ++ batchFixed crc b = (packHead ⟨crc, b, payload⟩ ++ Kafka.int32 crc ++ Kafka.int16 b.attributes ++
      Kafka.int32 b.lastOffsetDelta) ++ (Kafka.int64 b.baseTimestamp ++
    (Kafka.int64 b.maxTimestamp ++ Kafka.int64 b.producerId ++ Kafka.int16 b.producerEpoch ++
    Kafka.int32 b.baseSequence ++ Kafka.int32 b.records.length)) := by
    simp only [batchFixed, List.append_assoc]
  have e4 : packHead ⟨crc, b, payload⟩ ++ batchFixed crc b = (packHead ⟨crc, b, payload⟩ ++ Kafka.int32 crc ++ Kafka.int16 b.attributes ++
      Kafka.int32 b.lastOffsetDelta ++ Kafka.int64 b.baseTimestamp ++
    Kafka.int64 b.maxTimestamp ++ Kafka.int64 b.producerId ++ Kafka.int16 b.producerEpoch ++
    Kafka.int32 b.baseSequence) ++ (Kafka.int32 b.records.length ++ []) := by
    simp only [batchFixed, List.append_assoc, List.append_nil]
  refine ⟨?_, ?_, ?_, ?_, ?_⟩
  · rw [e1, beAt_first 8 _ _ (by simp), beVal_int64, int64_ofEmod]
  · rw [e1, beAt_append 4 8 _ _ _ (by simp) (by simp), beVal_int32]
    omega
  · rw [e2, beAt_append 2 21 _ _ _ (by simp [packHead]) (by simp), beVal_int16]
    omega
  · rw [e3, beAt_append 8 27 _ _ _ (by simp [packHead]) (by simp), beVal_int64, uint64_ofEmod]
  · rw [e4, beAt_append 4 57 _ _ _ (by simp [packHead]) (by simp), beVal_int32]
    omega

theorem pack_magic (x : Kafka.Packed) : ¬ beAt 1 16 (packHead x) < 2 := by
  have e : packHead x = (Kafka.int64 x.batch.baseOffset ++ Kafka.int32 (x.payload.length + 49) ++
    Kafka.int32 x.batch.partitionLeaderEpoch) ++ (Kafka.int8 2 ++ []) := by
    simp only [packHead, List.append_assoc, List.append_nil]
  rw [e, beAt_append 1 16 _ _ _ (by simp) (by simp)]
  decide

theorem decodeBatchRecords_packed (env : FetchEnv) (hacc : ∀ n, env.accept n = true) (topic : Bytes) (part : Int32)
    (x : Kafka.Packed) (hb : PackFits env x) (s : SD) (more : Bytes) (hav : s.avail = x.payload ++ more) :
    ∃ s1,
      decodeBatchRecords env topic part (Int64.ofInt x.batch.baseOffset) (Int64.ofInt x.batch.baseTimestamp).toUInt64
        (Int8.ofNat (x.batch.attributes % 4).toNat) x.batch.records.length ((x.payload.length : Int)) s
        = .ok () (s1.deliver (wanted env topic part (batchMessages x.batch))) ∧
      Adv x.payload.length s s1 := by
  unfold decodeBatchRecords
  rw [Int.toNat_natCast]
  have hl : x.payload.length ≤ s.avail.length := by rw [hav]; simp
  obtain ⟨s1, h1, h2⟩ := fetchReadUpTo_ok x.payload.length s (Or.inl hl)
  rw [h1]
  simp only
  rw [Nat.min_eq_left hl] at h2
  rw [hav, List.take_left' rfl, hb.raw]
  simp only
  obtain ⟨j, hj, e1, e2, _⟩ := putRecords_take env hacc topic part (Int64.ofInt x.batch.baseOffset)
    (Int64.ofInt x.batch.baseTimestamp).toUInt64 x.batch.records hb.records [] (x.batch.records.flatMap Kafka.record).length s1
  simp only [List.nil_append, List.length_nil, List.take_length] at e1
  refine ⟨s1, ?_, h2⟩
  rw [show ((0 : Nat) : Int) = 0 from rfl] at e1
  rw [e1]
  have hjl : j = x.batch.records.length := by
    apply Nat.le_antisymm hj
    apply Nat.le_of_not_lt
    intro hlt
    have := e2 hlt
    have h5 : ((x.batch.records.take (j + 1)).flatMap Kafka.record).length ≤ (x.batch.records.flatMap Kafka.record).length := by
      conv => rhs; rw [← List.take_append_drop (j + 1) x.batch.records]
      rw [List.flatMap_append, List.length_append]; omega
    omega
  rw [hjl, List.take_length]
  rfl

theorem decodeRecordsMagic2_packed (env : FetchEnv) (hacc : ∀ n, env.accept n = true) (topic : Bytes) (part : Int32)
    (x : Kafka.Packed) (hb : PackFits env x) (s : SD) (more : Bytes)
    (hav : s.avail = batchFixed x.crc x.batch ++ (x.payload ++ more))
    (hz : x.batch.records = [] → x.payload = []) :
    ∃ s1,
      decodeRecordsMagic2 env topic part (packHead x) s
        = .ok (((44 + x.payload.length : Nat) : Int)) (s1.deliver (wanted env topic part (batchMessages x.batch))) ∧
      Adv (44 + x.payload.length) s s1 := by
  unfold decodeRecordsMagic2
  have hlen : 44 ≤ s.avail.length := by rw [hav, List.length_append, batchFixed_length]; omega
  obtain ⟨s1, h1, h2⟩ := fetchRead_ok 44 s hlen
  rw [FM.bind_def, h1]
  have hgot : s.avail.take 44 = batchFixed x.crc x.batch := by rw [hav, List.take_left' (batchFixed_length x.crc x.batch)]
  have hav1 : s1.avail = x.payload ++ more := by
    rw [h2.avail, hav, List.drop_left' (batchFixed_length x.crc x.batch)]
  obtain ⟨f1, f2, f3, f4, f5⟩ := pack_fields x hb.size hb.count
  simp only [hgot, f1, f2, f3, f4, f5]
  by_cases hc : x.batch.records.length = 0
  · rw [if_pos hc]
    have hnil : x.batch.records = [] := List.length_eq_zero_iff.1 hc
    have hp := hz hnil
    refine ⟨s1, ?_, ?_⟩
    · simp [FM.pure_def, hnil, hp, batchMessages, wanted, SD.deliver_nil]
    · simpa [hp] using h2
  · rw [if_neg hc]
    obtain ⟨s2, e1, e2⟩ := decodeBatchRecords_packed env hacc topic part x hb s1 more hav1
    refine ⟨s2, ?_, h2.trans e2⟩
    rw [FM.bind_def]
    have hs : ((x.payload.length + 49 : Nat) : Int) - 49 = (x.payload.length : Int) := by omega
    rw [hs, e1]
    rfl

def packsWire (xs : List Kafka.Packed) : Bytes := xs.flatMap Kafka.packed

/-- The loop over complete batches, compressed or not. -/
theorem messageSetLoop_packed (env : FetchEnv) (hacc : ∀ n, env.accept n = true) (topic : Bytes) (part : Int32)
    (xs : List Kafka.Packed) (hb : ∀ x ∈ xs, PackFits env x) (hz : ∀ x ∈ xs, x.batch.records = [] → x.payload = [])
    (s : SD) (more : Bytes) (hav : s.avail = packsWire xs ++ more) (size off : Int) (fuel : Nat) (hf : s.rd.limit < fuel)
    (hoff : off + (packsWire xs).length = size) :
    ∃ s1, messageSetLoop env topic part size fuel off s
        = .ok () (s1.deliver (wanted env topic part (xs.flatMap fun x => batchMessages x.batch))) ∧
      Adv (packsWire xs).length s s1 := by
  induction xs generalizing s off fuel with
  | nil =>
    obtain ⟨f, rfl⟩ : ∃ f, fuel = f + 1 := ⟨fuel - 1, by omega⟩
    refine ⟨s, ?_, Adv.zero s⟩
    unfold messageSetLoop
    simp only [packsWire, List.flatMap_nil, List.length_nil] at hoff
    rw [if_neg (by omega)]
    simp [FM.pure_def, wanted, SD.deliver_nil]
  | cons x xs ih =>
    obtain ⟨f, rfl⟩ : ∃ f, fuel = f + 1 := ⟨fuel - 1, by omega⟩
    have hw : packsWire (x :: xs) = Kafka.packed x ++ packsWire xs := by simp [packsWire]
    have hwl := packed_length x
    rw [hw, List.length_append] at hoff
    have hfits := hb x (by simp)
    unfold messageSetLoop
    rw [if_pos (by omega)]
    have hav' : s.avail = packHead x ++ (batchFixed x.crc x.batch ++ (x.payload ++ (packsWire xs ++ more))) := by
      rw [hav, hw, packed_eq]; simp only [List.append_assoc]
    obtain ⟨s1, h1, h2⟩ := fetchRead_ok 17 s (by rw [hav', List.length_append, packHead_length]; omega)
    rw [FM.bind_def, h1]
    simp only
    have hh : s.avail.take 17 = packHead x := by rw [hav', List.take_left' (packHead_length x)]
    rw [hh, if_neg (pack_magic x), FM.bind_def]
    have hav1 : s1.avail = batchFixed x.crc x.batch ++ (x.payload ++ (packsWire xs ++ more)) := by
      rw [h2.avail, hav', List.drop_left' (packHead_length x)]
    obtain ⟨s2, e1, e2⟩ := decodeRecordsMagic2_packed env hacc topic part x hfits s1 _ hav1 (hz x (by simp))
    rw [e1]
    simp only
    have h12 := h2.trans e2
    have hlim := h12.limit
    have havl : s.avail.length ≤ s.rd.limit := by unfold SD.avail; rw [List.length_take]; omega
    have hcl : 61 + x.payload.length ≤ s.avail.length := by
      rw [hav, hw, List.length_append, List.length_append]; omega
    have hav2 : s2.avail = packsWire xs ++ more := by
      rw [h12.avail, hav, hw, List.append_assoc]
      exact List.drop_left' (by omega)
    obtain ⟨s3, g1, g2⟩ := ih (fun y hy => hb y (by simp [hy])) (fun y hy => hz y (by simp [hy]))
      (s2.deliver (wanted env topic part (batchMessages x.batch))) hav2
      (off + 17 + ((44 + x.payload.length : Nat) : Int)) f
      (by rw [deliver_rd]; omega) (by omega)
    rw [g1]
    obtain ⟨s4, d1, d2⟩ := adv_undeliver (gs := wanted env topic part (xs.flatMap fun x => batchMessages x.batch)) g2
    refine ⟨s4, ?_, ?_⟩
    · rw [d1, List.flatMap_cons, wanted_append]
    · rw [hw, List.length_append, hwl]
      have := h12.trans d2
      rwa [show 17 + (44 + x.payload.length) + (packsWire xs).length
        = 61 + x.payload.length + (packsWire xs).length from by omega] at this

/-! ## The whole response with one partition -/

/-- What `responsesLoop` does with the result of the only partition. -/
def finishOne (env : FetchEnv) : Res Unit → Res Unit
  | .ok () s' => .ok () { s' with rd := s'.rd.drain, offset := s'.offset + (s'.rd.limit - s'.rd.drain.limit) }
  | .err e s' =>
    drainAfter (putMessage env ⟨[], -1, some (if e.is .eof then .maxBytesTooSmall else e), none⟩) s'
  | .panic => .panic

/-- Everything before the record data of a response with one partition. -/
def oneHead (v : UInt16) (h : Kafka.FetchHeader) (topic : Bytes) (p : Kafka.FetchPartition) : Bytes :=
  Kafka.fetchHead v.toNat h 1 ++ (Kafka.fetchTopicHead topic 1 ++ Kafka.fetchPartitionHead v.toNat p)

theorem fetchResponse_one (v : UInt16) (h : Kafka.FetchHeader) (topic : Bytes) (p : Kafka.FetchPartition) :
    Kafka.fetchResponse v.toNat h [(topic, [p])] = oneHead v h topic p ++ p.data := by
  unfold Kafka.fetchResponse Kafka.fetchTopic oneHead
  simp [List.append_assoc]

theorem times_one (m : FM Unit) (s : SD) : FM.times 1 m s = m s := by
  unfold FM.times FM.times
  rw [FM.bind_def]
  cases m s <;> rfl

theorem after_bind_pure (env : FetchEnv) (topic : Bytes) (s s1 : SD) (pid size : Int32)
    (h : partitionHead env.version s = .ok (pid, size) s1) :
    decodePartitionResponse env topic s =
      FM.after (if size ≤ 0 then pure () else decodeMessageSet env topic pid size) partitionFix s1 := by
  unfold decodePartitionResponse FM.after partitionBody
  rw [FM.bind_def, h]

/-- Where decoding stands after the headers, and what remains to be done. -/
theorem streamDecode_skip (env : FetchEnv) (hv : env.version = 0 ∨ env.version = 7 ∨ env.version = 10)
    (h : Kafka.FetchHeader) (topic : Bytes) (ht : topic.length < 2 ^ 16) (p : Kafka.FetchPartition) (hp : AbortedFits p)
    (he : p.errorCode = 0) (s : SD) (c : Bytes) (cs : List Bytes)
    (hc : s.rd.chunks = (oneHead env.version h topic p ++ c) :: cs)
    (hl : (oneHead env.version h topic p).length ≤ s.rd.limit) :
    streamDecode env s = finishOne env ((if Int32.ofInt p.data.length ≤ 0 then pure ()
        else decodeMessageSet env topic (Int32.ofInt p.partition) (Int32.ofInt p.data.length))
      (({ s with offset := 0, hasOne := false } : SD).skip (oneHead env.version h topic p) c cs)) := by
  have hone : FReads (do
      let n ← decodeFetchHeader env.version
      let t ← topicHead
      let q ← partitionHead env.version
      pure (n, t, q)) (oneHead env.version h topic p)
        (1, (topic, 1), (Int32.ofInt p.partition, Int32.ofInt p.data.length)) :=
    FReads.bind (freads_fetchHeader env.version hv h 1 (by omega))
      (FReads.bind (freads_topicHead topic 1 ht (by omega))
        (FReads.bind_pure (f := fun q => (1, (topic, 1), q)) (freads_partitionHead env.version hv p hp he)))
  have h1 := (freads_fetchHeader env.version hv h 1 (by omega)).all { s with offset := 0, hasOne := false }
    (Kafka.fetchTopicHead topic 1 ++ Kafka.fetchPartitionHead env.version.toNat p ++ c) cs (by
      rw [hc]; simp [oneHead, List.append_assoc]) (by unfold oneHead at hl; rw [List.length_append] at hl; simp only; omega)
  have hall := hone.all { s with offset := 0, hasOne := false } c cs hc hl
  rw [FM.bind_def, h1] at hall
  simp only at hall
  unfold streamDecode
  rw [FM.bind_def, h1]
  simp only
  generalize ({ s with offset := 0, hasOne := false } : SD).skip (Kafka.fetchHead env.version.toNat h 1)
    (Kafka.fetchTopicHead topic 1 ++ Kafka.fetchPartitionHead env.version.toNat p ++ c) cs = s1 at hall
  generalize ({ s with offset := 0, hasOne := false } : SD).skip (oneHead env.version h topic p) c cs = s3 at hall
  unfold drainAfter responsesLoop decodeResponses
  rw [FM.bind_def] at hall ⊢
  cases ht1 : topicHead s1 with
  | err e s2 => rw [ht1] at hall; cases hall
  | panic => rw [ht1] at hall; cases hall
  | ok t s2 =>
    rw [ht1] at hall
    simp only at hall
    rw [FM.bind_def] at hall
    cases hp1 : partitionHead env.version s2 with
    | err e s4 => rw [hp1] at hall; cases hall
    | panic => rw [hp1] at hall; cases hall
    | ok q s4 =>
      rw [hp1] at hall
      simp only at hall
      rw [FM.pure_def] at hall
      simp only [Res.ok.injEq, Prod.mk.injEq, true_and] at hall
      obtain ⟨⟨rfl, rfl⟩, rfl⟩ := hall
      simp only
      rw [if_neg (by omega), times_one, after_bind_pure env topic s2 _ _ _ hp1]
      unfold FM.after
      cases (if Int32.ofInt p.data.length ≤ 0 then pure ()
        else decodeMessageSet env topic (Int32.ofInt p.partition) (Int32.ofInt p.data.length) : FM Unit) s4 with
      | ok a s5 => rfl
      | err e s5 => rfl
      | panic => rfl

theorem streamDecode_one (env : FetchEnv) (hv : env.version = 0 ∨ env.version = 7 ∨ env.version = 10)
    (h : Kafka.FetchHeader) (topic : Bytes) (ht : topic.length < 2 ^ 16) (p : Kafka.FetchPartition) (hp : AbortedFits p)
    (he : p.errorCode = 0) (s : SD) (c : Bytes) (cs : List Bytes)
    (hc : s.rd.chunks = (oneHead env.version h topic p ++ c) :: cs)
    (hl : (oneHead env.version h topic p).length ≤ s.rd.limit) :
    ∃ s1, Adv (oneHead env.version h topic p).length { s with offset := 0, hasOne := false } s1 ∧
      streamDecode env s = finishOne env ((if Int32.ofInt p.data.length ≤ 0 then pure ()
        else decodeMessageSet env topic (Int32.ofInt p.partition) (Int32.ofInt p.data.length)) s1) :=
  ⟨_, skip_avail { s with offset := 0, hasOne := false } _ c cs hc hl, streamDecode_skip env hv h topic ht p hp he s c cs hc hl⟩

end Healer
