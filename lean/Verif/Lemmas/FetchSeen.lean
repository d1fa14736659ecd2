import Verif.Lemmas.FetchPacked

/-!
# Helper lemmas for the fetch decoder: what the user sees
-/

namespace Healer

/-- A message as the user of the consumer sees it, nil and empty payloads not distinguished. -/
def Message.seen (m : Message) : Kafka.Stored :=
  { offset := m.offset.toInt, timestamp := m.timestamp.toInt64.toInt, key := m.key.getD [], value := m.value.getD [],
    headers := m.headers.map fun h => (h.key, h.value) }

/-- Topic, partition and message, if it is one and not an error. -/
def FullMessage.seen (f : FullMessage) : Option Kafka.Delivered :=
  if f.error.isSome then none else f.message.map fun m => ⟨f.topicName, f.partitionID.toInt, m.seen⟩

/-- The ranges of the fields of a stored batch. -/
structure BatchRange (b : Kafka.Batch) : Prop where
  records : ∀ r ∈ b.records, RecordFits r
  count : b.records.length < 2 ^ 32
  offsets : ∀ r ∈ b.records, -2 ^ 63 ≤ b.baseOffset + r.offsetDelta ∧ b.baseOffset + r.offsetDelta < 2 ^ 63
  timestamps : ∀ r ∈ b.records, -2 ^ 63 ≤ b.baseTimestamp + r.timestampDelta ∧ b.baseTimestamp + r.timestampDelta < 2 ^ 63

theorem int64_add_ofInt (a b : Int) : Int64.ofInt a + Int64.ofInt b = Int64.ofInt (a + b) := by
  rw [Int64.ofInt_add]

theorem int32_toInt64_ofInt (a : Int) (h : -2 ^ 31 ≤ a ∧ a < 2 ^ 31) : (Int32.ofInt a).toInt64 = Int64.ofInt a := by
  apply Int64.toInt_inj.1
  rw [Int32.toInt_toInt64, Int32.toInt_ofInt_of_le (by omega) (by omega), Int64.toInt_ofInt_of_le (by omega) (by omega)]

theorem seen_record (b : Kafka.Batch) (hb : BatchRange b) (r : Kafka.Record) (hr : r ∈ b.records) :
    (recordMessage (Int64.ofInt b.baseOffset) (Int64.ofInt b.baseTimestamp).toUInt64 (goRecord r)).seen =
      { offset := b.baseOffset + r.offsetDelta, timestamp := b.baseTimestamp + r.timestampDelta,
        key := r.key.getD [], value := r.value.getD [], headers := r.headers.map fun h => (h.1, h.2.getD []) } := by
  have h1 := hb.offsets r hr
  have h2 := hb.timestamps r hr
  have h3 := (hb.records r hr).offset
  unfold Message.seen recordMessage goRecord
  simp only [Kafka.Stored.mk.injEq]
  refine ⟨?_, ?_, ?_, ?_, ?_⟩
  · rw [int32_toInt64_ofInt _ h3, int64_add_ofInt, Int64.toInt_ofInt_of_le (by omega) (by omega)]; omega
  · rw [show ((Int64.ofInt r.timestampDelta).toUInt64 + (Int64.ofInt b.baseTimestamp).toUInt64).toInt64
      = Int64.ofInt r.timestampDelta + Int64.ofInt b.baseTimestamp from rfl, int64_add_ofInt,
      Int64.toInt_ofInt_of_le (by omega) (by omega)]
    omega
  · cases r.key with
    | none => rfl
    | some k => cases k <;> rfl
  · cases r.value with
    | none => rfl
    | some k => cases k <;> rfl
  · rw [List.map_map]; rfl

theorem seen_batch (b : Kafka.Batch) (hb : BatchRange b) : (batchMessages b).map Message.seen = Kafka.stored b := by
  unfold batchMessages Kafka.stored
  rw [List.map_map]
  apply List.map_congr_left
  intro r hr
  exact seen_record b hb r hr

/-- Of these messages, those from `start` on, as delivered for a partition. -/
def expected (topic : Bytes) (part start : Int) (ms : List Kafka.Stored) : List Kafka.Delivered :=
  (ms.filter fun m => decide (m.offset ≥ start)).map fun m => ⟨topic, part, m⟩

theorem seen_wanted (env : FetchEnv) (topic : Bytes) (part : Int32) (ms : List Message) :
    (wanted env topic part ms).map FullMessage.seen
      = (expected topic part.toInt env.startOffset.toInt (ms.map Message.seen)).map some := by
  induction ms with
  | nil => rfl
  | cons m ms ih =>
    have hd : decide (m.offset ≥ env.startOffset) = decide (m.seen.offset ≥ env.startOffset.toInt) := by
      apply decide_eq_decide.2
      exact Int64.le_iff_toInt_le
    unfold wanted expected at ih ⊢
    rw [List.map_cons, List.filter_cons, List.filter_cons, hd]
    by_cases h : decide (m.seen.offset ≥ env.startOffset.toInt) = true
    · rw [if_pos h, if_pos h]
      simp only [List.map_cons, ih]
      rfl
    · rw [if_neg h, if_neg h]
      exact ih

theorem wanted_clean (env : FetchEnv) (topic : Bytes) (part : Int32) (ms : List Message) :
    ∀ f ∈ wanted env topic part ms, f.error = none := by
  intro f hf
  unfold wanted at hf
  obtain ⟨m, _, rfl⟩ := List.mem_map.1 hf
  rfl

theorem wanted_nil_iff (env : FetchEnv) (topic : Bytes) (part : Int32) (ms : List Message) :
    wanted env topic part ms = [] ↔ expected topic part.toInt env.startOffset.toInt (ms.map Message.seen) = [] := by
  have := seen_wanted env topic part ms
  constructor
  · intro h; rw [h] at this; simpa using this.symm
  · intro h; rw [h] at this; simpa using this

/-- The messages of a partition's data: what is delivered, and that the function ends normally. -/
theorem finishOne_endsAt (env : FetchEnv) (hacc : ∀ n, env.accept n = true) (topic : Bytes) (part size : Int32)
    (s s1 : SD) (h0 : s.hasOne = false) (hs1 : s1.hasOne = false) (fs : List FullMessage)
    (hr : EndsAt (messageSetLoop env topic part size.toInt (s.rd.limit + 1) 0 s) (s1.deliver fs)) :
    ∃ s', finishOne env (decodeMessageSet env topic part size s) = .ok () s' ∧
      s'.delivered = s1.delivered ++ (if fs = [] then [⟨[], -1, some .maxBytesTooSmall, none⟩] else fs) ∧
      s'.rd = s1.rd.drain := by
  unfold decodeMessageSet FM.after
  change EndsAt ((fun s : SD => messageSetLoop env topic part size.toInt (s.rd.limit + 1) 0 s) s) _ at hr
  generalize (fun s : SD => messageSetLoop env topic part size.toInt (s.rd.limit + 1) 0 s) = m at hr ⊢
  by_cases hf : fs = []
  · subst hf
    rw [SD.deliver_nil] at hr
    rcases hr with hr | hr <;> rw [hr] <;> simp only [messageSetFix, hs1]
    · simp only [finishOne, drainAfter, putMessage, hacc, if_true]
      exact ⟨_, rfl, rfl, rfl⟩
    · simp only [finishOne, drainAfter, putMessage, hacc, if_true]
      exact ⟨_, rfl, rfl, rfl⟩
  · have hone : (s1.deliver fs).hasOne = true := by
      unfold SD.deliver
      cases fs with
      | nil => exact absurd rfl hf
      | cons _ _ => simp
    rw [if_neg hf]
    rcases hr with hr | hr <;> rw [hr] <;> simp only [messageSetFix, hone]
    · exact ⟨_, rfl, rfl, rfl⟩
    · exact ⟨_, rfl, rfl, rfl⟩

/-- The state after the headers of a response with one partition whose bytes all arrive. -/
theorem afterHead {s s1 : SD} {head data rest : Bytes} (hflat : s.rd.flat = head ++ data ++ rest)
    (hlim : s.rd.limit = (head ++ data).length) (h : Adv head.length { s with offset := 0, hasOne := false } s1) :
    s1.avail = data ∧ s1.rd.limit = data.length ∧ s1.rd.flat = data ++ rest ∧ s1.Whole ∧ s1.hasOne = false ∧
      s1.delivered = s.delivered := by
  have h1 := h.flat
  have h2 := h.limit
  simp only at h1 h2
  rw [hflat, List.append_assoc, List.drop_left] at h1
  rw [hlim, List.length_append] at h2
  have h3 : s1.rd.limit = data.length := by omega
  refine ⟨?_, h3, h1, ?_, h.hasOne, h.delivered⟩
  · unfold SD.avail; rw [h1, h3, List.take_left]
  · unfold SD.Whole; rw [h3, h1]; simp

theorem drain_rest {s : SD} {data rest : Bytes} (hflat : s.rd.flat = data ++ rest) (hlim : s.rd.limit = data.length) :
    s.rd.drain.flat = rest ∧ s.rd.drain.limit = 0 := by
  obtain ⟨d1, d2, d3⟩ := drain_spec s.rd
  refine ⟨by rw [d2, hflat, hlim, List.drop_left], ?_⟩
  rw [d3, hflat, hlim]
  simp

end Healer
