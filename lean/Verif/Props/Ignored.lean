import Verif.Props.Fetch

/-!
# C84, C85, C87: what the attributes of a batch say and the consumer ignores, for all batches
-/

namespace Healer

/-- a control batch: attribute bit 5 -/
def Control (b : Kafka.Batch) : Prop := b.attributes / 32 % 2 = 1

/-- timestamps are log append times: attribute bit 3 -/
def AppendTime (b : Kafka.Batch) : Prop := b.attributes / 8 % 2 = 1

instance (b : Kafka.Batch) : Decidable (Control b) := inferInstanceAs (Decidable (_ = _))

instance (b : Kafka.Batch) : Decidable (AppendTime b) := inferInstanceAs (Decidable (_ = _))

theorem handed_over (env : FetchEnv) (hacc : ∀ n, env.accept n = true)
    (unpack : Nat → Bytes → Option Bytes) (xs : List Kafka.Packed) (hx : ∀ x ∈ xs, LogFits env unpack x)
    (h : Kafka.FetchHeader) (topic : Bytes) (p : Kafka.FetchPartition) (hdata : p.data = xs.flatMap Kafka.packed)
    (hne : p.data ≠ []) (rest : Bytes) (s : SD) (w : OnWire env h topic p rest s)
    (x : Kafka.Packed) (hm : x ∈ xs) (m : Kafka.Stored) (hs : m ∈ Kafka.stored x.batch) (hoff : env.startOffset.toInt ≤ m.offset) :
    ∃ s', streamDecode env s = .ok () s' ∧ ∃ f ∈ s'.delivered, f.seen = some ⟨topic, p.partition, m⟩ := by
  obtain ⟨s', ms, h1, h2, -, -, h5⟩ := C15_fetch_delivery_partial env hacc unpack xs hx h topic p hdata hne rest s w
  have hmem : (⟨topic, p.partition, m⟩ : Kafka.Delivered) ∈
      expected topic p.partition env.startOffset.toInt (xs.flatMap fun x => Kafka.stored x.batch) := by
    rw [expected]
    exact List.mem_map.2 ⟨m, List.mem_filter.2 ⟨List.mem_flatMap.2 ⟨x, hm, hs⟩, by simpa using hoff⟩, rfl⟩
  simp only [if_neg (List.ne_nil_of_mem hmem)] at h5
  have : some (⟨topic, p.partition, m⟩ : Kafka.Delivered) ∈ ms.map FullMessage.seen := by
    rw [h5]; exact List.mem_map_of_mem hmem
  obtain ⟨f, hf, hfs⟩ := List.mem_map.1 this
  exact ⟨s', h1, f, by rw [h2]; exact List.mem_append_right _ hf, hfs⟩

/-- C84 fails for every control batch: each of its records from the requested offset on is handed to the user as a
message. -/
theorem C84_violated_always (env : FetchEnv) (hacc : ∀ n, env.accept n = true)
    (unpack : Nat → Bytes → Option Bytes) (xs : List Kafka.Packed) (hx : ∀ x ∈ xs, LogFits env unpack x)
    (h : Kafka.FetchHeader) (topic : Bytes) (p : Kafka.FetchPartition) (hdata : p.data = xs.flatMap Kafka.packed)
    (hne : p.data ≠ []) (rest : Bytes) (s : SD) (w : OnWire env h topic p rest s)
    (x : Kafka.Packed) (hm : x ∈ xs) (_hc : Control x.batch) (r : Kafka.Record) (hr : r ∈ x.batch.records)
    (hoff : env.startOffset.toInt ≤ x.batch.baseOffset + r.offsetDelta) :
    ∃ s', streamDecode env s = .ok () s' ∧ ∃ f ∈ s'.delivered, ∃ d, f.seen = some d ∧ d.topic = topic ∧ d.partition = p.partition ∧
      d.message.offset = x.batch.baseOffset + r.offsetDelta ∧ d.message.key = r.key.getD [] ∧ d.message.value = r.value.getD [] := by
  obtain ⟨s', h1, f, h2, h3⟩ := handed_over env hacc unpack xs hx h topic p hdata hne rest s w x hm _
    (List.mem_map.2 ⟨r, hr, rfl⟩) hoff
  exact ⟨s', h1, f, h2, _, h3, rfl, rfl, rfl, rfl, rfl⟩

/-- The messages stored in a batch: with log append time every timestamp is the batch's maximum timestamp. -/
def storedAt (b : Kafka.Batch) : List Kafka.Stored :=
  (Kafka.stored b).map fun m => if AppendTime b then { m with timestamp := b.maxTimestamp } else m

/-- the records with their batches -/
def inBatches (xs : List Kafka.Packed) : List (Kafka.Batch × Kafka.Record) :=
  xs.flatMap fun x => x.batch.records.map fun r => (x.batch, r)

/-- a record as a stored message with creation time -/
def storedOne (x : Kafka.Batch × Kafka.Record) : Kafka.Stored :=
  { offset := x.1.baseOffset + x.2.offsetDelta, timestamp := x.1.baseTimestamp + x.2.timestampDelta,
    key := x.2.key.getD [], value := x.2.value.getD [], headers := x.2.headers.map fun h => (h.1, h.2.getD []) }

/-- and with the right time -/
def storedOneAt (x : Kafka.Batch × Kafka.Record) : Kafka.Stored :=
  if AppendTime x.1 then { storedOne x with timestamp := x.1.maxTimestamp } else storedOne x

theorem storedOneAt_offset (x : Kafka.Batch × Kafka.Record) : (storedOneAt x).offset = x.1.baseOffset + x.2.offsetDelta := by
  unfold storedOneAt
  split <;> rfl

theorem expected_map (topic : Bytes) (part start : Int) (f : Kafka.Batch × Kafka.Record → Kafka.Stored)
    (hf : ∀ x, (f x).offset = x.1.baseOffset + x.2.offsetDelta) (l : List (Kafka.Batch × Kafka.Record)) :
    expected topic part start (l.map f) =
      (l.filter fun x => decide (start ≤ x.1.baseOffset + x.2.offsetDelta)).map fun x => ⟨topic, part, f x⟩ := by
  rw [expected, List.filter_map, List.map_map]
  congr 1
  congr 1
  funext x
  simp only [Function.comp_apply, hf, ge_iff_le]

theorem stored_pairs (xs : List Kafka.Packed) : (xs.flatMap fun x => Kafka.stored x.batch) = (inBatches xs).map storedOne := by
  rw [inBatches, List.map_flatMap]
  congr 1
  funext x
  rw [List.map_map]
  rfl

theorem storedAt_pairs (xs : List Kafka.Packed) : (xs.flatMap fun x => storedAt x.batch) = (inBatches xs).map storedOneAt := by
  rw [inBatches, List.map_flatMap]
  congr 1
  funext x
  rw [List.map_map, storedAt, Kafka.stored, List.map_map]
  rfl

/-- C85, exactly: the consumer is handed the stored messages with their right timestamps if and only if every record
from the requested offset on in a batch with log append time was created, by the clock of its producer, at the very time the
broker appended the batch.
Missing for the full statement: all other batches with log append time (`C85_violated_append_time`, `C85_violated_always`). -/
theorem C85_exact_partial (env : FetchEnv) (hacc : ∀ n, env.accept n = true)
    (unpack : Nat → Bytes → Option Bytes) (xs : List Kafka.Packed) (hx : ∀ x ∈ xs, LogFits env unpack x)
    (h : Kafka.FetchHeader) (topic : Bytes) (p : Kafka.FetchPartition) (hdata : p.data = xs.flatMap Kafka.packed)
    (hne : p.data ≠ []) (rest : Bytes) (s : SD) (w : OnWire env h topic p rest s) :
    ∃ s' ms, streamDecode env s = .ok () s' ∧ s'.delivered = s.delivered ++ ms ∧
      ((let want := expected topic p.partition env.startOffset.toInt (xs.flatMap fun x => storedAt x.batch)
        if want = [] then ms = [⟨[], -1, some .maxBytesTooSmall, none⟩] else ms.map FullMessage.seen = want.map some) ↔
       ∀ x ∈ xs, AppendTime x.batch → ∀ r ∈ x.batch.records, env.startOffset.toInt ≤ x.batch.baseOffset + r.offsetDelta →
         x.batch.baseTimestamp + r.timestampDelta = x.batch.maxTimestamp) := by
  obtain ⟨s', ms, h1, h2, -, -, h5⟩ := C15_fetch_delivery_partial env hacc unpack xs hx h topic p hdata hne rest s w
  refine ⟨s', ms, h1, h2, ?_⟩
  simp only [stored_pairs, storedAt_pairs] at h5 ⊢
  rw [expected_map _ _ _ _ (fun _ => rfl)] at h5
  rw [expected_map _ _ _ _ storedOneAt_offset]
  have hall : (∀ x ∈ xs, AppendTime x.batch → ∀ r ∈ x.batch.records, env.startOffset.toInt ≤ x.batch.baseOffset + r.offsetDelta →
         x.batch.baseTimestamp + r.timestampDelta = x.batch.maxTimestamp) ↔
      ∀ y ∈ (inBatches xs).filter (fun x => decide (env.startOffset.toInt ≤ x.1.baseOffset + x.2.offsetDelta)), storedOne y = storedOneAt y := by
    constructor
    · intro hh y hy
      obtain ⟨hy1, hy2⟩ := List.mem_filter.1 hy
      obtain ⟨x, hxm, hyx⟩ := List.mem_flatMap.1 hy1
      obtain ⟨r, hr, rfl⟩ := List.mem_map.1 hyx
      unfold storedOneAt
      by_cases ha : AppendTime x.batch
      · rw [if_pos ha, ← hh x hxm ha r hr (by simpa using hy2)]
        rfl
      · rw [if_neg ha]
    · intro hh x hxm ha r hr hoff
      have hy := hh (x.batch, r) (List.mem_filter.2 ⟨List.mem_flatMap.2 ⟨x, hxm, List.mem_map.2 ⟨r, hr, rfl⟩⟩, by simpa using hoff⟩)
      unfold storedOneAt at hy
      rw [if_pos ha] at hy
      exact congrArg Kafka.Stored.timestamp hy
  rw [hall]
  by_cases hnil : (inBatches xs).filter (fun x => decide (env.startOffset.toInt ≤ x.1.baseOffset + x.2.offsetDelta)) = []
  · simp only [hnil, List.map_nil, if_true] at h5 ⊢
    exact ⟨fun _ y hy => (by cases hy), fun _ => h5⟩
  · simp only [List.map_eq_nil_iff, if_neg hnil] at h5 ⊢
    rw [h5, List.map_map, List.map_map, List.map_inj_left]
    refine forall_congr' fun y => forall_congr' fun _ => ?_
    simp only [Function.comp_apply, Option.some.injEq, Kafka.Delivered.mk.injEq, true_and]

/-- C85 fails for every batch with log append time: each record from the requested offset on is handed over with the
time of its creation, whatever the time it was appended. -/
theorem C85_violated_always (env : FetchEnv) (hacc : ∀ n, env.accept n = true)
    (unpack : Nat → Bytes → Option Bytes) (xs : List Kafka.Packed) (hx : ∀ x ∈ xs, LogFits env unpack x)
    (h : Kafka.FetchHeader) (topic : Bytes) (p : Kafka.FetchPartition) (hdata : p.data = xs.flatMap Kafka.packed)
    (hne : p.data ≠ []) (rest : Bytes) (s : SD) (w : OnWire env h topic p rest s)
    (x : Kafka.Packed) (hm : x ∈ xs) (_ha : AppendTime x.batch) (r : Kafka.Record) (hr : r ∈ x.batch.records)
    (hoff : env.startOffset.toInt ≤ x.batch.baseOffset + r.offsetDelta) :
    ∃ s', streamDecode env s = .ok () s' ∧ ∃ f ∈ s'.delivered, ∃ d, f.seen = some d ∧
      d.message.offset = x.batch.baseOffset + r.offsetDelta ∧ d.message.timestamp = x.batch.baseTimestamp + r.timestampDelta := by
  obtain ⟨s', h1, f, h2, h3⟩ := handed_over env hacc unpack xs hx h topic p hdata hne rest s w x hm _
    (List.mem_map.2 ⟨r, hr, rfl⟩) hoff
  exact ⟨s', h1, f, h2, _, h3, rfl, rfl⟩

/-- C87 fails for every batch with codec 4 (zstd): the compressed bytes are read as they are, and if they happen to
read as records, these are handed to the user without any error. -/
theorem C87_violated_always (env : FetchEnv) (hacc : ∀ n, env.accept n = true) (xs : List Kafka.Packed)
    (hr : ∀ x ∈ xs, BatchRange x.batch) (hsize : ∀ x ∈ xs, x.payload.length + 49 < 2 ^ 32)
    (hcodec : ∀ x ∈ xs, x.batch.attributes % 8 = 4)
    (hread : ∀ x ∈ xs, x.payload = x.batch.records.flatMap Kafka.record)
    (h : Kafka.FetchHeader) (topic : Bytes) (p : Kafka.FetchPartition) (hdata : p.data = xs.flatMap Kafka.packed)
    (hne : p.data ≠ []) (rest : Bytes) (s : SD) (w : OnWire env h topic p rest s)
    (hsome : ∃ x ∈ xs, ∃ r ∈ x.batch.records, env.startOffset.toInt ≤ x.batch.baseOffset + r.offsetDelta) :
    ∃ s' ms, streamDecode env s = .ok () s' ∧ s'.delivered = s.delivered ++ ms ∧ s'.rd.flat = rest ∧
      ms.map FullMessage.seen =
        (expected topic p.partition env.startOffset.toInt (xs.flatMap fun x => Kafka.stored x.batch)).map some := by
  have hpack : ∀ x ∈ xs, PackFits env x := by
    intro x hm
    refine ⟨(hr x hm).records, (hr x hm).count, hsize x hm, ?_⟩
    have h4 : x.batch.attributes % 4 = 0 := by have := hcodec x hm; omega
    rw [h4, hread x hm]
    rfl
  obtain ⟨s', ms, h1, h2, h3, -, h5⟩ := delivery_packed env hacc xs hpack hr
    (fun x hm he => by rw [hread x hm, he]; rfl) h topic p hdata hne rest s w
  refine ⟨s', ms, h1, h2, h3, ?_⟩
  obtain ⟨x, hm, r, hrm, hoff⟩ := hsome
  have hmem : (⟨topic, p.partition, storedOne (x.batch, r)⟩ : Kafka.Delivered) ∈
      expected topic p.partition env.startOffset.toInt (xs.flatMap fun x => Kafka.stored x.batch) := by
    rw [expected]
    exact List.mem_map.2 ⟨_, List.mem_filter.2 ⟨List.mem_flatMap.2 ⟨x, hm, List.mem_map.2 ⟨r, hrm, rfl⟩⟩, by simpa [storedOne] using hoff⟩, rfl⟩
  simp only [if_neg (List.ne_nil_of_mem hmem)] at h5
  exact h5

/-! Cases: a control batch, a batch with log append time and one with codec 4, each holding a record from the
requested offset on. -/

example : Control (sampleBatch 32) ∧ AppendTime (sampleBatch 8) ∧ (sampleBatch 4).attributes % 8 = 4 ∧
    ∃ r ∈ (sampleBatch 32).records, (42 : Int) ≤ (sampleBatch 32).baseOffset + r.offsetDelta ∧
      (sampleBatch 8).baseTimestamp + r.timestampDelta ≠ (sampleBatch 8).maxTimestamp :=
  ⟨by decide, by decide, by decide, ⟨0, 9, 2, some [], none, []⟩, by decide, by decide, by decide⟩

end Healer
