import Verif.Lemmas.FetchSeen

/-!
# C14–C19, C84–C87: fetch responses

The statements are about `streamDecode`, called with a response `oneHead … ++ data` on the
connection, followed by the bytes `rest` of later responses.  The connection hands out its bytes in
chunks; only that the headers lie in the first chunk is assumed (they take less than 100 bytes).
What the consumer is handed is `delivered`.
-/

namespace Healer

/-- A response with one partition is on the connection `s`, headers in the first chunk. -/
structure OnWire (env : FetchEnv) (h : Kafka.FetchHeader) (topic : Bytes) (p : Kafka.FetchPartition) (rest : Bytes)
    (s : SD) : Prop where
  version : env.version = 0 ∨ env.version = 7 ∨ env.version = 10
  name : topic.length < 2 ^ 16
  aborted : (p.aborted.getD []).length < 2 ^ 31
  noError : p.errorCode = 0
  partition : -2 ^ 31 ≤ p.partition ∧ p.partition < 2 ^ 31
  size : p.data.length < 2 ^ 31
  bytes : s.rd.flat = Kafka.fetchResponse env.version.toNat h [(topic, [p])] ++ rest
  limit : s.rd.limit = (Kafka.fetchResponse env.version.toNat h [(topic, [p])]).length
  chunk : ∃ c cs, s.rd.chunks = (oneHead env.version h topic p ++ c) :: cs

theorem OnWire.decode {env : FetchEnv} {h : Kafka.FetchHeader} {topic : Bytes} {p : Kafka.FetchPartition} {rest : Bytes}
    {s : SD} (w : OnWire env h topic p rest s) (hpos : p.data ≠ []) :
    ∃ s1, (s1.avail = p.data ∧ s1.rd.limit = p.data.length ∧ s1.rd.flat = p.data ++ rest ∧ s1.Whole ∧
        s1.hasOne = false ∧ s1.delivered = s.delivered) ∧ (Int32.ofInt p.data.length).toInt = p.data.length ∧
      (Int32.ofInt p.partition).toInt = p.partition ∧
      streamDecode env s = finishOne env (decodeMessageSet env topic (Int32.ofInt p.partition) (Int32.ofInt p.data.length) s1) := by
  obtain ⟨c, cs, hc⟩ := w.chunk
  have hb := w.bytes
  have hl := w.limit
  have hsz := w.size
  have hp := w.partition
  rw [fetchResponse_one] at hb hl
  obtain ⟨s1, h1, h2⟩ := streamDecode_one env w.version h topic w.name p w.aborted w.noError s c cs hc
    (by rw [hl, List.length_append]; omega)
  have hlen : 0 < p.data.length := List.length_pos_iff.2 hpos
  have hi : (Int32.ofInt p.data.length).toInt = p.data.length := Int32.toInt_ofInt_of_le (by omega) (by omega)
  refine ⟨s1, afterHead hb hl h1, hi, Int32.toInt_ofInt_of_le (by omega) (by omega), ?_⟩
  rw [h2, if_neg (by
    rw [Int32.le_iff_toInt_le, hi]
    show ¬ ((p.data.length : Int) ≤ 0)
    omega)]

/-- The stored batches are within the ranges of their fields, and their payloads hold their records,
as they are or compressed with a codec the client supports. -/
structure LogFits (env : FetchEnv) (unpack : Nat → Bytes → Option Bytes) (x : Kafka.Packed) : Prop where
  range : BatchRange x.batch
  size : x.payload.length + 49 < 2 ^ 32
  holds : Kafka.Holds unpack x
  codec : 0 ≤ x.batch.attributes ∧ x.batch.attributes % 8 < 4
  /-- the codecs undo the compression -/
  undo : ∀ c : Nat, 0 < c → c < 4 → ∀ d r, unpack c d = some r → env.codec (Int8.ofNat c) d = .ok r
  empty : x.batch.records = [] → x.payload = []

theorem LogFits.pack {env : FetchEnv} {unpack : Nat → Bytes → Option Bytes} {x : Kafka.Packed}
    (h : LogFits env unpack x) : PackFits env x := by
  refine ⟨h.range.records, h.range.count, h.size, ?_⟩
  have hh := h.holds
  have hc := h.codec
  have h48 : x.batch.attributes % 4 = x.batch.attributes % 8 := by omega
  unfold Kafka.Holds at hh
  unfold uncompress
  rw [h48]
  by_cases h0 : x.batch.attributes % 8 = 0
  · rw [if_pos h0] at hh
    rw [h0, hh]
    rfl
  · rw [if_neg h0] at hh
    have hne : ¬ Int8.ofNat (x.batch.attributes % 8).toNat = 0 := by
      have : (x.batch.attributes % 8).toNat = 1 ∨ (x.batch.attributes % 8).toNat = 2 ∨ (x.batch.attributes % 8).toNat = 3 := by
        omega
      rcases this with h | h | h <;> rw [h] <;> decide
    simp only
    rw [if_neg hne, h.undo _ (by omega) (by omega) _ _ hh]

/-- What is handed over from complete batches whose payloads hold their records as the client unpacks them. -/
theorem delivery_packed (env : FetchEnv) (hacc : ∀ n, env.accept n = true)
    (xs : List Kafka.Packed) (hx : ∀ x ∈ xs, PackFits env x) (hr : ∀ x ∈ xs, BatchRange x.batch)
    (he : ∀ x ∈ xs, x.batch.records = [] → x.payload = [])
    (h : Kafka.FetchHeader) (topic : Bytes) (p : Kafka.FetchPartition) (hdata : p.data = xs.flatMap Kafka.packed)
    (hne : p.data ≠ []) (rest : Bytes) (s : SD) (w : OnWire env h topic p rest s) :
    ∃ s' ms, streamDecode env s = .ok () s' ∧ s'.delivered = s.delivered ++ ms ∧ s'.rd.flat = rest ∧ s'.rd.limit = 0 ∧
      (let want := expected topic p.partition env.startOffset.toInt (xs.flatMap fun x => Kafka.stored x.batch)
       if want = [] then ms = [⟨[], -1, some .maxBytesTooSmall, none⟩] else ms.map FullMessage.seen = want.map some) := by
  obtain ⟨s1, ⟨a1, a2, a3, a4, a5, a6⟩, hi, hpid, hdec⟩ := w.decode hne
  rw [hdec]
  obtain ⟨s2, g1, g2⟩ := messageSetLoop_packed env hacc topic (Int32.ofInt p.partition) xs hx
    he s1 [] (by rw [a1, hdata, List.append_nil]; rfl) (Int32.ofInt p.data.length).toInt 0 (s1.rd.limit + 1) (by omega)
    (by rw [hi, hdata]; simp [packsWire])
  obtain ⟨s', k1, k2, k3⟩ := finishOne_endsAt env hacc topic (Int32.ofInt p.partition) (Int32.ofInt p.data.length) s1 s2 a5
    (by rw [g2.hasOne, a5]) _ (Or.inl g1)
  have hlen : (packsWire xs).length = p.data.length := by rw [hdata]; rfl
  have hfl : s2.rd.flat = [] ++ rest := by
    rw [g2.flat, a3, hlen, List.drop_left]; rfl
  have hlm : s2.rd.limit = ([] : Bytes).length := by rw [g2.limit, a2, hlen]; simp
  obtain ⟨d1, d2⟩ := drain_rest hfl hlm
  refine ⟨s', _, k1, by rw [k2, g2.delivered, a6], by rw [k3, d1], by rw [k3, d2], ?_⟩
  have hseen : (xs.flatMap fun x => batchMessages x.batch).map Message.seen = xs.flatMap fun x => Kafka.stored x.batch := by
    rw [List.map_flatMap]
    have : ∀ (l : List Kafka.Packed), (∀ x ∈ l, BatchRange x.batch) →
        l.flatMap (fun x => (batchMessages x.batch).map Message.seen) = l.flatMap fun x => Kafka.stored x.batch := by
      intro l hl
      induction l with
      | nil => rfl
      | cons x l ih =>
        rw [List.flatMap_cons, List.flatMap_cons, seen_batch x.batch (hl x (by simp)), ih (fun y hy => hl y (by simp [hy]))]
    exact this xs hr
  have h1 := seen_wanted env topic (Int32.ofInt p.partition) (xs.flatMap fun x => batchMessages x.batch)
  have h2 := wanted_nil_iff env topic (Int32.ofInt p.partition) (xs.flatMap fun x => batchMessages x.batch)
  rw [hseen, hpid] at h1 h2
  by_cases hw : expected topic p.partition env.startOffset.toInt (xs.flatMap fun x => Kafka.stored x.batch) = []
  · simp only [if_pos hw, if_pos (h2.2 hw)]
  · simp only [if_neg hw, if_neg (fun hh => hw (h2.1 hh))]
    exact h1

/-- C15, for records without null header values: from a response holding complete batches, compressed
or not, the consumer is handed exactly the stored messages from the requested offset on, each once and in order, for the right topic and partition, with the
stored offset, timestamp, key, value and headers; the connection is left at the next response.  If there is
no such message it is handed the error "maximum fetch size too small" instead.
Missing for the full statement: null header values (`C15_violated_null_header`). -/
theorem C15_fetch_delivery_partial (env : FetchEnv) (hacc : ∀ n, env.accept n = true)
    (unpack : Nat → Bytes → Option Bytes) (xs : List Kafka.Packed) (hx : ∀ x ∈ xs, LogFits env unpack x)
    (h : Kafka.FetchHeader) (topic : Bytes) (p : Kafka.FetchPartition) (hdata : p.data = xs.flatMap Kafka.packed)
    (hne : p.data ≠ []) (rest : Bytes) (s : SD) (w : OnWire env h topic p rest s) :
    ∃ s' ms, streamDecode env s = .ok () s' ∧ s'.delivered = s.delivered ++ ms ∧ s'.rd.flat = rest ∧ s'.rd.limit = 0 ∧
      (let want := expected topic p.partition env.startOffset.toInt (xs.flatMap fun x => Kafka.stored x.batch)
       if want = [] then ms = [⟨[], -1, some .maxBytesTooSmall, none⟩] else ms.map FullMessage.seen = want.map some) := by
  exact delivery_packed env hacc xs (fun x hm => (hx x hm).pack) (fun x hm => (hx x hm).range) (fun x hm => (hx x hm).empty)
    h topic p hdata hne rest s w

/-! ### Sample data -/

/-- A connection with these chunks, the first response being `n` bytes long. -/
def conn (n : Nat) (chunks : List Bytes) : SD := { rd := { chunks := chunks, limit := n } }

def sampleBatch (attributes : Int) : Kafka.Batch :=
  { baseOffset := 40, partitionLeaderEpoch := 0, attributes := attributes, lastOffsetDelta := 2, baseTimestamp := 1000,
    maxTimestamp := 5000, producerId := -1, producerEpoch := -1, baseSequence := -1,
    records := [⟨0, 0, 0, some [107], some [118], []⟩, ⟨0, 7, 1, none, some [118, 119], [([104], some [1])]⟩,
      ⟨0, 9, 2, some [], none, []⟩] }

def samplePacked (attributes : Int) : Kafka.Packed :=
  ⟨0, sampleBatch attributes, (sampleBatch attributes).records.flatMap Kafka.record⟩

def samplePartition (data : Bytes) : Kafka.FetchPartition := ⟨3, 0, 43, 43, 0, none, data⟩

def sampleHeader : Kafka.FetchHeader := ⟨7, 0, 0, 0⟩

def sampleResponse (data : Bytes) : Bytes := Kafka.fetchResponse 10 sampleHeader [([116], [samplePartition data])]

/-- What was delivered (`none` for errors), and what is left on the connection. -/
structure Ran where
  seen : List (Option Kafka.Delivered)
  left : Bytes
deriving DecidableEq

/-- Run on one chunk. -/
def runOn (env : FetchEnv) (resp : Bytes) : Option Ran :=
  match streamDecode env (conn resp.length [resp ++ [99]]) with
  | .ok () s => some ⟨s.delivered.map FullMessage.seen, s.rd.flat⟩
  | _ => none

/-- Two messages from offset 41 on out of a batch of three, the next response untouched. -/
example : runOn { startOffset := 41 } (sampleResponse (Kafka.packed (samplePacked 0)))
    = some ⟨[some ⟨[116], 3, ⟨41, 1007, [], [118, 119], [([104], [1])]⟩⟩, some ⟨[116], 3, ⟨42, 1009, [], [], []⟩⟩], [99]⟩ := by
  decide +kernel

example : OnWire { startOffset := 41 } sampleHeader [116] (samplePartition (Kafka.packed (samplePacked 0))) [99]
    (conn (sampleResponse (Kafka.packed (samplePacked 0))).length [sampleResponse (Kafka.packed (samplePacked 0)) ++ [99]]) := by
  refine ⟨Or.inr (Or.inr rfl), by decide, by decide, by decide, by decide, by decide +kernel, by decide +kernel,
    by decide +kernel, Kafka.packed (samplePacked 0) ++ [99], [], ?_⟩
  show [sampleResponse _ ++ [99]] = _
  unfold sampleResponse
  rw [show (10 : Nat) = (10 : UInt16).toNat from rfl, fetchResponse_one]
  simp only [List.append_assoc]
  rfl

example : LogFits {} (fun _ _ => none) (samplePacked 0) := by
  refine ⟨⟨?_, by decide, by decide, by decide⟩, by decide +kernel, ?_, by decide, ?_, by decide⟩
  · intro r hr
    have h3 : r = ⟨0, 0, 0, some [107], some [118], []⟩ ∨ r = ⟨0, 7, 1, none, some [118, 119], [([104], some [1])]⟩ ∨
        r = ⟨0, 9, 2, some [], none, []⟩ := by
      simpa [samplePacked, sampleBatch] using hr
    rcases h3 with rfl | rfl | rfl <;> exact ⟨by decide, by decide, by decide, by decide, by decide +kernel⟩
  · unfold Kafka.Holds; rw [if_pos (by decide)]; rfl
  · intro c _ _ d r h; cases h

/-- C15 fails for a message with a null header value: the decoder crashes. -/
theorem C15_violated_null_header :
    ∃ b : Kafka.Batch, b.records = [⟨0, 0, 0, some [107], some [118], [([104], none)]⟩] ∧
      streamDecode {} (conn (sampleResponse (Kafka.batch b)).length [sampleResponse (Kafka.batch b)]) = .panic :=
  ⟨{ sampleBatch 0 with records := [⟨0, 0, 0, some [107], some [118], [([104], none)]⟩] }, rfl, by decide +kernel⟩

/-- C14 fails: a message is delivered from a batch whose bytes do not match its checksum. Flipping a
bit of the value in a correct batch makes the consumer deliver the altered value. -/
theorem C14_violated_checksum_ignored :
    ∃ good bad : Bytes, good = Kafka.batch (sampleBatch 0) ∧ bad = good.set 68 119 ∧ good ≠ bad ∧
      runOn { startOffset := 40 } (sampleResponse good)
        = some ⟨[some ⟨[116], 3, ⟨40, 1000, [107], [118], []⟩⟩, some ⟨[116], 3, ⟨41, 1007, [], [118, 119], [([104], [1])]⟩⟩,
            some ⟨[116], 3, ⟨42, 1009, [], [], []⟩⟩], [99]⟩ ∧
      runOn { startOffset := 40 } (sampleResponse bad)
        = some ⟨[some ⟨[116], 3, ⟨40, 1000, [107], [119], []⟩⟩, some ⟨[116], 3, ⟨41, 1007, [], [118, 119], [([104], [1])]⟩⟩,
            some ⟨[116], 3, ⟨42, 1009, [], [], []⟩⟩], [99]⟩ :=
  ⟨_, _, rfl, rfl, by decide +kernel, by decide +kernel, by decide +kernel⟩

/-- C14 fails in general: whatever the checksum fields of the batches hold, the same messages are delivered. -/
theorem C14_violated_any_checksum (env : FetchEnv) (hacc : ∀ n, env.accept n = true)
    (unpack : Nat → Bytes → Option Bytes) (xs : List Kafka.Packed) (hx : ∀ x ∈ xs, LogFits env unpack x)
    (crcs : Kafka.Packed → Nat)
    (h : Kafka.FetchHeader) (topic : Bytes) (p p' : Kafka.FetchPartition) (hpp : p.partition = p'.partition)
    (hdata : p.data = xs.flatMap Kafka.packed)
    (hdata' : p'.data = (xs.map fun x => { x with crc := crcs x }).flatMap Kafka.packed) (hne : p.data ≠ []) (hne' : p'.data ≠ [])
    (rest : Bytes) (s s' : SD) (w : OnWire env h topic p rest s) (w' : OnWire env h topic p' rest s')
    (hd : s.delivered = s'.delivered) :
    ∃ t t', streamDecode env s = .ok () t ∧ streamDecode env s' = .ok () t' ∧
      t.delivered.map FullMessage.seen = t'.delivered.map FullMessage.seen := by
  have hx' : ∀ x ∈ xs.map (fun x => { x with crc := crcs x }), LogFits env unpack x := by
    intro y hy
    obtain ⟨x, hm, rfl⟩ := List.mem_map.1 hy
    have := hx x hm
    exact ⟨this.range, this.size, this.holds, this.codec, this.undo, this.empty⟩
  obtain ⟨t, ms, a1, a2, _, _, a5⟩ := C15_fetch_delivery_partial env hacc unpack xs hx h topic p hdata hne rest s w
  obtain ⟨t', ms', b1, b2, _, _, b5⟩ := C15_fetch_delivery_partial env hacc unpack _ hx' h topic p' hdata' hne' rest s' w'
  refine ⟨t, t', a1, b1, ?_⟩
  have hsame : (xs.map fun x => { x with crc := crcs x }).flatMap (fun x : Kafka.Packed => Kafka.stored x.batch)
      = xs.flatMap fun x => Kafka.stored x.batch := by
    rw [List.flatMap_map]
  rw [hsame, ← hpp] at b5
  rw [a2, b2, hd, List.map_append, List.map_append]
  congr 1
  by_cases hw : expected topic p.partition env.startOffset.toInt (xs.flatMap fun x => Kafka.stored x.batch) = []
  · simp only [if_pos hw] at a5 b5; rw [a5, b5]
  · simp only [if_neg hw] at a5 b5; rw [a5, b5]

/-- C16, for uncompressed version-2 batches: if the data of the partition are cut anywhere, the consumer is
handed, in order, a prefix of what it would be handed from the complete data, and no error; or, if that
prefix is empty, just the error "maximum fetch size too small".  The connection is left at the next
response.  Compressed batches: `C16_compressed_partial`.  Missing for the full statement: legacy messages, for which it
fails (`C16_violated_legacy`). -/
theorem C16_truncated_batch_partial (env : FetchEnv) (hacc : ∀ n, env.accept n = true)
    (bs : List (Nat × Kafka.Batch)) (hb : ∀ x ∈ bs, BatchFits x.2 ∧ BatchRange x.2)
    (k : Nat) (h : Kafka.FetchHeader) (topic : Bytes) (p : Kafka.FetchPartition)
    (hdata : p.data = (bs.flatMap fun x => Kafka.batchWithCrc x.1 x.2).take k) (hne : p.data ≠ [])
    (rest : Bytes) (s : SD) (w : OnWire env h topic p rest s) :
    ∃ s' ms, streamDecode env s = .ok () s' ∧ s'.delivered = s.delivered ++ ms ∧ s'.rd.flat = rest ∧ s'.rd.limit = 0 ∧
      (ms = [⟨[], -1, some .maxBytesTooSmall, none⟩] ∨
       ms ≠ [] ∧ ∃ pre, pre <+: (bs.flatMap fun x => Kafka.stored x.2) ∧
        ms.map FullMessage.seen = (expected topic p.partition env.startOffset.toInt pre).map some) := by
  obtain ⟨s1, ⟨a1, a2, a3, a4, a5, a6⟩, hi, hpid, hdec⟩ := w.decode hne
  rw [hdec]
  obtain ⟨s2, pre, hpre, hends, hadv⟩ := messageSetLoop_cut env hacc topic (Int32.ofInt p.partition) bs (fun x hx => (hb x hx).1)
    s1 a4 k (by rw [a1, hdata]; rfl) (Int32.ofInt p.data.length).toInt 0 (s1.rd.limit + 1) (by omega) (by rw [hi, a2]; omega)
  obtain ⟨s', k1, k2, k3⟩ := finishOne_endsAt env hacc topic (Int32.ofInt p.partition) (Int32.ofInt p.data.length) s1 s2 a5
    (by rw [hadv.hasOne, a5]) _ hends
  have hfl : s2.rd.flat = [] ++ rest := by rw [hadv.flat, a3, a2, List.drop_left]; rfl
  have hlm : s2.rd.limit = ([] : Bytes).length := by rw [hadv.limit]; simp
  obtain ⟨d1, d2⟩ := drain_rest hfl hlm
  refine ⟨s', _, k1, by rw [k2, hadv.delivered, a6], by rw [k3, d1], by rw [k3, d2], ?_⟩
  have hseen : (bs.flatMap fun x => batchMessages x.2).map Message.seen = bs.flatMap fun x => Kafka.stored x.2 := by
    rw [List.map_flatMap]
    have : ∀ (l : List (Nat × Kafka.Batch)), (∀ x ∈ l, BatchRange x.2) →
        l.flatMap (fun x => (batchMessages x.2).map Message.seen) = l.flatMap fun x => Kafka.stored x.2 := by
      intro l hl
      induction l with
      | nil => rfl
      | cons x l ih =>
        rw [List.flatMap_cons, List.flatMap_cons, seen_batch x.2 (hl x (by simp)), ih (fun y hy => hl y (by simp [hy]))]
    exact this bs (fun x hx' => (hb x hx').2)
  have h1 := seen_wanted env topic (Int32.ofInt p.partition) pre
  rw [hpid] at h1
  by_cases hw : wanted env topic (Int32.ofInt p.partition) pre = []
  · left; rw [if_pos hw]
  · right
    rw [if_neg hw]
    refine ⟨hw, pre.map Message.seen, ?_, h1⟩
    rw [← hseen]
    exact hpre.map Message.seen

/-- The batch cut in the middle of its second record: the first message only. -/
example : runOn { startOffset := 40 } (sampleResponse ((Kafka.packed (samplePacked 0)).take 80))
    = some ⟨[some ⟨[116], 3, ⟨40, 1000, [107], [118], []⟩⟩], [99]⟩ := by
  decide +kernel

example : runOn { startOffset := 40 } (sampleResponse ((Kafka.packed (samplePacked 0)).take 69))
    = some ⟨[none], [99]⟩ := by
  decide +kernel

example : BatchFits (sampleBatch 0) ∧ (Kafka.packed (samplePacked 0)).take 80 ≠ [] := by
  refine ⟨⟨?_, by decide, by decide +kernel, by decide⟩, by decide +kernel⟩
  intro r hr
  have h3 : r = ⟨0, 0, 0, some [107], some [118], []⟩ ∨ r = ⟨0, 7, 1, none, some [118, 119], [([104], some [1])]⟩ ∨
      r = ⟨0, 9, 2, some [], none, []⟩ := by
    simpa [sampleBatch] using hr
  rcases h3 with rfl | rfl | rfl <;> exact ⟨by decide, by decide, by decide, by decide, by decide +kernel⟩

/-- Two legacy messages of 8-byte values. -/
def sampleLegacy : List Kafka.LegacyMessage :=
  [⟨5, 1, 0, 77, none, some [1, 2, 3, 4, 5, 6, 7, 8]⟩, ⟨6, 1, 0, 78, none, some [1, 2, 3, 4, 5, 6, 7, 8]⟩]

/-- C16 fails for legacy messages: when the last 1 to 5 bytes of the second message are cut off, it is delivered
all the same, the missing bytes replaced by zeros. -/
theorem C16_violated_legacy :
    runOn { startOffset := 0 } (sampleResponse (sampleLegacy.flatMap Kafka.legacyMessage))
      = some ⟨[some ⟨[116], 3, ⟨5, 77, [], [1, 2, 3, 4, 5, 6, 7, 8], []⟩⟩, some ⟨[116], 3, ⟨6, 78, [], [1, 2, 3, 4, 5, 6, 7, 8], []⟩⟩], [99]⟩ ∧
    runOn { startOffset := 0 } (sampleResponse ((sampleLegacy.flatMap Kafka.legacyMessage).take
        ((sampleLegacy.flatMap Kafka.legacyMessage).length - 5)))
      = some ⟨[some ⟨[116], 3, ⟨5, 77, [], [1, 2, 3, 4, 5, 6, 7, 8], []⟩⟩, some ⟨[116], 3, ⟨6, 78, [], [1, 2, 3, 0, 0, 0, 0, 0], []⟩⟩], [99]⟩ := by
  decide +kernel

/-- C17: whatever bytes a partition's non-empty data consist of, unless decoding crashes the consumer is handed
something: messages, or messages followed by one error.  If the error is "maximum fetch size too
small", no message was handed over before it. -/
theorem C17_no_silence (env : FetchEnv) (hacc : ∀ n, env.accept n = true) (h : Kafka.FetchHeader) (topic : Bytes)
    (p : Kafka.FetchPartition) (hne : p.data ≠ []) (rest : Bytes) (s : SD) (w : OnWire env h topic p rest s)
    (hno : streamDecode env s ≠ .panic) :
    ∃ s' ms err, streamDecode env s = .ok () s' ∧ s'.delivered = s.delivered ++ ms ++ err ∧
      (∀ m ∈ ms, m.error = none ∧ m.message ≠ none) ∧
      (err = [] ∧ ms ≠ [] ∨ ∃ e, err = [⟨[], -1, some e, none⟩] ∧ (e = .maxBytesTooSmall → ms = [])) := by
  obtain ⟨s1, ⟨a1, a2, a3, a4, a5, a6⟩, hi, hpid, hdec⟩ := w.decode hne
  rw [hdec] at hno ⊢
  have hk := (keeps_messageSetLoop env topic (Int32.ofInt p.partition) (Int32.ofInt p.data.length).toInt (s1.rd.limit + 1) 0).all s1
  unfold decodeMessageSet FM.after at hno ⊢
  change (∀ a s', (fun s : SD => messageSetLoop env topic (Int32.ofInt p.partition) (Int32.ofInt p.data.length).toInt
    (s.rd.limit + 1) 0 s) s1 = .ok a s' → Ext s1 s') ∧ (∀ e s', (fun s : SD => messageSetLoop env topic (Int32.ofInt p.partition)
      (Int32.ofInt p.data.length).toInt (s.rd.limit + 1) 0 s) s1 = .err e s' → Ext s1 s') at hk
  generalize (fun s : SD => messageSetLoop env topic (Int32.ofInt p.partition) (Int32.ofInt p.data.length).toInt
    (s.rd.limit + 1) 0 s) = m at hk hno ⊢
  cases hm : m s1 with
  | panic => rw [hm] at hno; exact absurd rfl hno
  | ok a s2 =>
    obtain ⟨ms, e1, e2, e3⟩ := (hk.1 a s2 hm).more
    rw [a5, Bool.false_or] at e3
    cases ms with
    | nil =>
      simp only [messageSetFix, e3]
      simp only [finishOne, drainAfter, putMessage, hacc, if_true]
      refine ⟨_, [], [⟨[], -1, some .maxBytesTooSmall, none⟩], rfl, ?_, by simp, Or.inr ⟨_, rfl, fun _ => rfl⟩⟩
      simp only [e1, a6, List.append_nil]
      rfl
    | cons x xs =>
      simp only [messageSetFix, e3]
      refine ⟨_, x :: xs, [], rfl, ?_, e2, Or.inl ⟨rfl, by simp⟩⟩
      simp only [e1, a6, List.append_nil]
  | err e s2 =>
    obtain ⟨ms, e1, e2, e3⟩ := (hk.2 e s2 hm).more
    rw [a5, Bool.false_or] at e3
    cases ms with
    | nil =>
      simp only [messageSetFix, e3]
      simp only [finishOne, drainAfter, putMessage, hacc, if_true, List.isEmpty_nil, Bool.not_true, Bool.and_false,
        Bool.false_eq_true, if_false, Bool.not_false, Option.isNone_some]
      refine ⟨_, [], [⟨[], -1, some (if e.is .eof = true then .maxBytesTooSmall else e), none⟩], rfl, ?_, by simp, Or.inr ⟨_, rfl, fun _ => rfl⟩⟩
      simp only [e1, a6, List.append_nil]
    | cons x xs =>
      simp only [messageSetFix, e3, List.isEmpty_cons, Bool.not_false, Bool.and_true, Bool.not_true, Bool.false_and,
        Bool.false_eq_true, if_false]
      by_cases hq : (e.is .eof || e.is .unexpectedEof || decide (e = .maxBytesTooSmall)) = true
      · simp only [if_pos hq, finishOne]
        refine ⟨_, x :: xs, [], rfl, ?_, e2, Or.inl ⟨rfl, by simp⟩⟩
        simp only [e1, a6, List.append_nil]
      · simp only [if_neg hq]
        simp only [Bool.or_eq_true, decide_eq_true_eq, not_or] at hq
        simp only [finishOne, if_neg hq.1.1, drainAfter, putMessage, hacc, if_true]
        refine ⟨_, x :: xs, [⟨[], -1, some e, none⟩], rfl, ?_, e2, Or.inr ⟨_, rfl, fun h => absurd h hq.2⟩⟩
        simp only [e1, a6]

/-- C17, the broker's error: a partition with a non-zero error code gives exactly that error, whatever follows. -/
theorem C17_broker_error (env : FetchEnv) (hv : env.version = 0 ∨ env.version = 7 ∨ env.version = 10)
    (hacc : ∀ n, env.accept n = true) (h : Kafka.FetchHeader) (topic : Bytes) (ht : topic.length < 2 ^ 16) (pid e : Int)
    (he : -2 ^ 15 ≤ e ∧ e < 2 ^ 15) (hnz : e ≠ 0) (s : SD) (c : Bytes) (cs : List Bytes)
    (hc : s.rd.chunks = (Kafka.fetchHead env.version.toNat h 1 ++ Kafka.fetchTopicHead topic 1 ++ Kafka.int32 pid ++ Kafka.int16 e ++ c) :: cs)
    (hl : (Kafka.fetchHead env.version.toNat h 1 ++ Kafka.fetchTopicHead topic 1 ++ Kafka.int32 pid ++ Kafka.int16 e).length ≤ s.rd.limit) :
    ∃ s', streamDecode env s = .ok () s' ∧
      s'.delivered = s.delivered ++ [⟨[], -1, some (.kafka (Int16.ofInt e)), none⟩] ∧ (Int16.ofInt e).toInt = e := by
  have hi : (Int16.ofInt e).toInt = e := Int16.toInt_ofInt_of_le (by omega) (by omega)
  have hne : Int16.ofInt e ≠ 0 := by
    intro h0; rw [h0] at hi; exact hnz hi.symm
  have h1 := (freads_fetchHeader env.version hv h 1 (by omega)).all { s with offset := 0, hasOne := false }
    (Kafka.fetchTopicHead topic 1 ++ (Kafka.int32 pid ++ Kafka.int16 e ++ c)) cs (by
      rw [hc]; simp only [List.append_assoc]) (by simp only [List.length_append] at hl ⊢; omega)
  have h2 := (freads_topicHead topic 1 ht (by omega)).all _ (Kafka.int32 pid ++ Kafka.int16 e ++ c) cs
    (rfl : (({ s with offset := 0, hasOne := false } : SD).skip (Kafka.fetchHead env.version.toNat h 1)
      (Kafka.fetchTopicHead topic 1 ++ (Kafka.int32 pid ++ Kafka.int16 e ++ c)) cs).rd.chunks = _)
    (by simp only [List.length_append, SD.skip] at hl ⊢; omega)
  have h3 := partitionHead_error env.version pid e _ c cs hne
    (rfl : ((({ s with offset := 0, hasOne := false } : SD).skip (Kafka.fetchHead env.version.toNat h 1)
      (Kafka.fetchTopicHead topic 1 ++ (Kafka.int32 pid ++ Kafka.int16 e ++ c)) cs).skip (Kafka.fetchTopicHead topic 1)
      (Kafka.int32 pid ++ Kafka.int16 e ++ c) cs).rd.chunks = _)
    (by simp only [List.length_append, SD.skip, int32_length, int16_length] at hl ⊢; omega)
  have hdec : ∀ s2, partitionHead env.version s2 = .err (.kafka (Int16.ofInt e)) (s2.skip (Kafka.int32 pid ++ Kafka.int16 e) c cs) →
      decodePartitionResponse env topic s2 = .err (.kafka (Int16.ofInt e)) (s2.skip (Kafka.int32 pid ++ Kafka.int16 e) c cs) := by
    intro s2 hh
    unfold decodePartitionResponse FM.after partitionBody
    rw [FM.bind_def, hh]
    rfl
  have h4 := hdec _ h3
  unfold streamDecode
  rw [FM.bind_def, h1]
  simp only
  unfold drainAfter responsesLoop decodeResponses
  rw [FM.bind_def, h2]
  simp only
  rw [if_neg (by omega), times_one, h4]
  simp only [putMessage, hacc, if_true]
  exact ⟨_, rfl, rfl, hi⟩

/-- C17, no data: a partition without data is no error and delivers nothing. -/
theorem C17_no_data (env : FetchEnv) (h : Kafka.FetchHeader) (topic : Bytes) (p : Kafka.FetchPartition) (hz : p.data = [])
    (rest : Bytes) (s : SD) (w : OnWire env h topic p rest s) :
    ∃ s', streamDecode env s = .ok () s' ∧ s'.delivered = s.delivered ∧ s'.rd.flat = rest := by
  obtain ⟨c, cs, hc⟩ := w.chunk
  have hb := w.bytes
  have hl := w.limit
  rw [fetchResponse_one] at hb hl
  obtain ⟨s1, h1, h2⟩ := streamDecode_one env w.version h topic w.name p w.aborted w.noError s c cs hc
    (by rw [hl, List.length_append]; omega)
  obtain ⟨a1, a2, a3, a4, a5, a6⟩ := afterHead hb hl h1
  rw [hz] at a2 a3
  obtain ⟨d1, d2⟩ := drain_rest a3 a2
  rw [h2, hz, if_pos (by decide)]
  exact ⟨_, rfl, a6, d1⟩

/-- Garbage in the partition's data, and an old batch below the requested offset. -/
example : runOn { startOffset := 41 } (sampleResponse (List.replicate 20 2)) = some ⟨[none], [99]⟩ ∧
    runOn { startOffset := 100 } (sampleResponse (Kafka.packed (samplePacked 0))) = some ⟨[none], [99]⟩ ∧
    runOn { startOffset := 100 } (sampleResponse []) = some ⟨[], [99]⟩ ∧
    runOn {} (Kafka.fetchResponse 10 sampleHeader [([116], [{ samplePartition [] with errorCode := 1 }])]) = some ⟨[none], [99]⟩ := by
  decide +kernel

/-- C18, for complete batches and headers within the first chunk: two connections carrying the same
response, split differently, give the same messages.
Missing for the full statement: a split inside the headers of the response, for which it fails
(`C18_violated_split_header`), and other data. -/
theorem C18_chunking_partial (env : FetchEnv) (hacc : ∀ n, env.accept n = true)
    (unpack : Nat → Bytes → Option Bytes) (xs : List Kafka.Packed) (hx : ∀ x ∈ xs, LogFits env unpack x)
    (h : Kafka.FetchHeader) (topic : Bytes) (p : Kafka.FetchPartition) (hdata : p.data = xs.flatMap Kafka.packed)
    (rest rest' : Bytes) (s t : SD) (w : OnWire env h topic p rest s) (w' : OnWire env h topic p rest' t)
    (hd : s.delivered = t.delivered) :
    ∃ s' t', streamDecode env s = .ok () s' ∧ streamDecode env t = .ok () t' ∧ s'.delivered = t'.delivered := by
  by_cases hne : p.data = []
  · obtain ⟨s', a1, a2, _⟩ := C17_no_data env h topic p hne rest s w
    obtain ⟨t', b1, b2, _⟩ := C17_no_data env h topic p hne rest' t w'
    exact ⟨s', t', a1, b1, by rw [a2, b2, hd]⟩
  · have key : ∀ (rest : Bytes) (s : SD), OnWire env h topic p rest s → ∃ s', streamDecode env s = .ok () s' ∧
        s'.delivered = s.delivered ++ (if wanted env topic (Int32.ofInt p.partition) (xs.flatMap fun x => batchMessages x.batch) = []
          then [⟨[], -1, some .maxBytesTooSmall, none⟩]
          else wanted env topic (Int32.ofInt p.partition) (xs.flatMap fun x => batchMessages x.batch)) := by
      intro rest s w
      obtain ⟨s1, ⟨a1, a2, a3, a4, a5, a6⟩, hi, hpid, hdec⟩ := w.decode hne
      rw [hdec]
      obtain ⟨s2, g1, g2⟩ := messageSetLoop_packed env hacc topic (Int32.ofInt p.partition) xs (fun x hx' => (hx x hx').pack)
        (fun x hx' => (hx x hx').empty) s1 [] (by rw [a1, hdata, List.append_nil]; rfl) (Int32.ofInt p.data.length).toInt 0 (s1.rd.limit + 1) (by omega)
        (by rw [hi, hdata]; simp [packsWire])
      obtain ⟨s', k1, k2, k3⟩ := finishOne_endsAt env hacc topic (Int32.ofInt p.partition) (Int32.ofInt p.data.length) s1 s2 a5
        (by rw [g2.hasOne, a5]) _ (Or.inl g1)
      exact ⟨s', k1, by rw [k2, g2.delivered, a6]⟩
    obtain ⟨s', a1, a2⟩ := key rest s w
    obtain ⟨t', b1, b2⟩ := key rest' t w'
    exact ⟨s', t', a1, b1, by rw [a2, b2, hd]⟩

def deliveredOn (env : FetchEnv) (n : Nat) (chunks : List Bytes) : Option (List (Option Kafka.Delivered)) :=
  match streamDecode env (conn n chunks) with
  | .ok () s => some (s.delivered.map FullMessage.seen)
  | _ => none

/-- Split inside a record. -/
example :
    let r := sampleResponse (Kafka.packed (samplePacked 0))
    deliveredOn { startOffset := 42 } r.length [r.take 140, (r.drop 140).take 3, [], r.drop 143]
      = some [some ⟨[116], 3, ⟨42, 1009, [], [], []⟩⟩] := by
  decide +kernel

/-- C18 fails: when the network splits the response between two bytes of a partition's high watermark,
the consumer is handed nothing or an error instead of the messages. -/
theorem C18_violated_split_header :
    let r := sampleResponse (Kafka.packed (samplePacked 0))
    deliveredOn { startOffset := 42 } r.length [r] = some [some ⟨[116], 3, ⟨42, 1009, [], [], []⟩⟩] ∧
    deliveredOn { startOffset := 42 } r.length [r.take 35, r.drop 35] = some [] ∧
    deliveredOn { startOffset := 42 } r.length [r.take 36, r.drop 36] = some [none] := by
  decide +kernel

/-- C19: whatever the response holds and however it is split, unless decoding crashes, the connection
is afterwards exactly at the end of the response (or the connection ended before it). -/
theorem C19_connection_drained (env : FetchEnv) (s : SD) :
    (∀ s', streamDecode env s = .ok () s' →
      s'.rd.flat = s.rd.flat.drop s.rd.limit ∧ (s.rd.limit ≤ s.rd.flat.length → s'.rd.flat = [] ∨ s'.rd.limit = 0)) ∧
    (∀ e s', streamDecode env s = .err e s' →
      s'.rd.flat = s.rd.flat.drop s.rd.limit ∧ (s.rd.limit ≤ s.rd.flat.length → s'.rd.flat = [] ∨ s'.rd.limit = 0)) := by
  obtain ⟨h1, h2⟩ := streamDecode_drained env s
  exact ⟨fun s' h => ⟨(h1 () s' h).2, fun _ => (h1 () s' h).1.symm⟩, fun e s' h => ⟨(h2 e s' h).2, fun _ => (h2 e s' h).1.symm⟩⟩

/-- An error in the first of two partitions: the rest of the response is skipped, the next one untouched. -/
example :
    let r := Kafka.fetchResponse 10 sampleHeader
      [([116], [{ samplePartition [1, 2] with errorCode := 6 }, samplePartition (Kafka.packed (samplePacked 0))])]
    runOn {} r = some ⟨[none], [99]⟩ := by
  decide +kernel

/-- C84 fails: the markers of transactions (control batches, attribute bit 5) are delivered as messages. -/
theorem C84_violated_control_batch :
    ∃ b : Kafka.Batch, b.attributes = 32 ∧
      runOn { startOffset := 42 } (sampleResponse (Kafka.batch b)) = some ⟨[some ⟨[116], 3, ⟨42, 1009, [], [], []⟩⟩], [99]⟩ :=
  ⟨sampleBatch 32, rfl, by decide +kernel⟩

/-- C85 fails: in a batch with log append time (attribute bit 3) the timestamp of every message is the
maximum timestamp of the batch, here 5000; the consumer is handed another one. -/
theorem C85_violated_append_time :
    ∃ b : Kafka.Batch, b.attributes = 8 ∧ b.maxTimestamp = 5000 ∧
      runOn { startOffset := 42 } (sampleResponse (Kafka.batch b)) = some ⟨[some ⟨[116], 3, ⟨42, 1009, [], [], []⟩⟩], [99]⟩ :=
  ⟨sampleBatch 8, rfl, rfl, by decide +kernel⟩

/-- C86 fails: with an error code in the header of the response and no topics, the consumer is handed nothing
at all, for every error code. -/
theorem C86_violated_top_level_error (env : FetchEnv) (hv : env.version = 7 ∨ env.version = 10) (h : Kafka.FetchHeader)
    (s : SD) (c : Bytes) (cs : List Bytes) (hc : s.rd.chunks = (Kafka.fetchHead env.version.toNat h 0 ++ c) :: cs)
    (hl : (Kafka.fetchHead env.version.toNat h 0).length ≤ s.rd.limit) :
    ∃ s', streamDecode env s = .ok () s' ∧ s'.delivered = s.delivered := by
  have h1 := (freads_fetchHeader env.version (Or.inr hv) h 0 (by omega)).all { s with offset := 0, hasOne := false } c cs hc hl
  unfold streamDecode
  rw [FM.bind_def, h1]
  exact ⟨_, rfl, rfl⟩

example : runOn {} (Kafka.fetchResponse 10 { sampleHeader with errorCode := 70 } []) = some ⟨[], [99]⟩ := by decide +kernel

/-- C87 fails: a batch compressed with zstd (codec 4) is read as if it were not compressed. -/
theorem C87_violated_zstd :
    ∃ x : Kafka.Packed, x.batch.attributes % 8 = 4 ∧
      runOn { startOffset := 42 } (sampleResponse (Kafka.packed x)) = some ⟨[some ⟨[116], 3, ⟨42, 1009, [], [], []⟩⟩], [99]⟩ :=
  ⟨samplePacked 4, rfl, by decide +kernel⟩

end Healer
