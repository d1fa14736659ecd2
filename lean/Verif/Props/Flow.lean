import Verif.Spec.Log
import Verif.Props.Producer
import Verif.Props.Fetch

/-!
# C139: what is produced is what is consumed

From the batches a producer sends, through the log of a broker, to what a consumer is handed.
-/

namespace Healer

theorem natOf_int32 (k : Nat) (h : k < 2 ^ 32) : Kafka.natOf (Kafka.int32 k) = k := by
  have h1 : ((k : Int) % 2 ^ 32).toNat = k := by omega
  unfold Kafka.natOf Kafka.int32
  rw [h1]
  simp only [Kafka.be, show (List.range 4).reverse = [3, 2, 1, 0] from rfl, List.map_cons, List.map_nil, List.foldl_cons,
    List.foldl_nil, UInt8.toNat_ofNat']
  omega

/-- The messages fit: what the producer was given in one batch. -/
structure FlushFits (ms : List KV) : Prop where
  some : ms ≠ []
  count : ms.length < 2 ^ 31
  sizes : ∀ m ∈ ms, (m.key.getD []).length < 2 ^ 61 ∧ m.value.length < 2 ^ 61

/-- The codec of the producer, and the consumer knows how to undo it. -/
def CodecFits (cfg : ProducerCfg) (compress : Int8 → Bytes → Out Bytes) (env : FetchEnv) : Prop :=
  cfg.compression = 0 ∨ (cfg.compression = 1 ∨ cfg.compression = 2 ∨ cfg.compression = 3) ∧
    ∀ raw, ∃ z, compress cfg.compression raw = .ok z ∧ env.codec cfg.compression z = .ok raw

/-- The batch a flush sends, as stored at `base`, with payload `z`. -/
def flushed (cfg : ProducerCfg) (base epoch : Int) (ts : Int64) (ms : List KV) (z : Bytes) : Kafka.Packed :=
  ⟨(Kafka.crc32c ((createRecordBatch cfg ts (ms.map KV.record)).tail z)).toNat,
    { (createRecordBatch cfg ts (ms.map KV.record)).toSpec with baseOffset := base, partitionLeaderEpoch := epoch }, z⟩

theorem varint_length_le (v : Int) (h : -2 ^ 63 ≤ v ∧ v < 2 ^ 63) : (Kafka.varint v).length ≤ 10 := by
  unfold Kafka.varint
  apply uvarint_len_le10
  split <;> omega

theorem varintBytes_length (b : Option Bytes) (h : (b.getD []).length < 2 ^ 61) :
    (Kafka.varintBytes b).length < 2 ^ 61 + 20 := by
  cases b with
  | none =>
    have := varint_length_le (-1) (by omega)
    simp only [Kafka.varintBytes]
    omega
  | some x =>
    have h' : x.length < 2 ^ 61 := h
    have := varint_length_le x.length (by omega)
    simp only [Kafka.varintBytes, List.length_append]
    omega

theorem rawRecords (ms : List KV) :
    (ms.map KV.record).flatMap Record.encode = ((ms.map KV.record).map Record.toSpec).flatMap Kafka.record := by
  have h := encodeRecords_none (fun _ b => .ok b) { magic := 2, records := ms.map KV.record, producerID := -1 } (show (0 : Int16) &&& 3 = 0 by decide) (by
    intro x hx _
    obtain ⟨m, -, rfl⟩ := List.mem_map.1 hx
    exact ⟨show (-64 : Int) ≤ (0 : Int32).toInt by decide, show (0 : Int32).toInt ≤ 63 by decide⟩)
  unfold RecordBatch.encodeRecords at h
  rw [if_pos (show ((0 : Int16) &&& 3).toInt8 = 0 by decide)] at h
  exact Out.ok.inj h

theorem flush_records (cfg : ProducerCfg) (compress : Int8 → Bytes → Out Bytes) (env : FetchEnv)
    (hc : CodecFits cfg compress env) (ts : Int64) (ms : List KV) :
    ∃ z, (createRecordBatch cfg ts (ms.map KV.record)).encodeRecords compress = .ok z ∧
      ∀ base epoch, Kafka.Holds (fun c d => match env.codec (Int8.ofNat c) d with | .ok r => some r | .error _ => none)
        (flushed cfg base epoch ts ms z) := by
  have hraw := rawRecords ms
  rcases hc with h0 | ⟨h1, h2⟩
  · refine ⟨(ms.map KV.record).flatMap Record.encode, ?_, fun base epoch => ?_⟩
    · unfold RecordBatch.encodeRecords createRecordBatch
      simp only [h0]
      rfl
    · unfold Kafka.Holds flushed
      simp only [RecordBatch.toSpec, createRecordBatch, h0]
      rw [if_pos (by decide)]
      exact hraw
  · obtain ⟨z, hz, hz'⟩ := h2 ((ms.map KV.record).flatMap Record.encode)
    refine ⟨z, ?_, fun base epoch => ?_⟩
    · unfold RecordBatch.encodeRecords createRecordBatch
      have : (cfg.compression.toInt16 &&& 3).toInt8 = cfg.compression ∧ cfg.compression ≠ 0 := by
        rcases h1 with h | h | h <;> rw [h] <;> decide
      simp only [this.1, this.2, if_false]
      exact hz
    · have ha : (flushed cfg base epoch ts ms z).batch.attributes = cfg.compression.toInt16.toInt := rfl
      have hp : (flushed cfg base epoch ts ms z).payload = z := rfl
      have hr : (flushed cfg base epoch ts ms z).batch.records = (ms.map KV.record).map Record.toSpec := rfl
      unfold Kafka.Holds
      have : cfg.compression.toInt16.toInt % 8 ≠ 0 ∧ Int8.ofNat (cfg.compression.toInt16.toInt % 8).toNat = cfg.compression := by
        rcases h1 with h | h | h <;> rw [h] <;> decide
      rw [ha, if_neg this.1, hp, hr, ← hraw]
      simp only [this.2, hz']

theorem lastOffsetDelta_eq (cfg : ProducerCfg) (ts : Int64) (ms : List KV) (hf : FlushFits ms) :
    (createRecordBatch cfg ts (ms.map KV.record)).lastOffsetDelta.toInt = ((ms.length - 1 : Nat) : Int) := by
  have h1 := List.length_pos_iff.2 hf.some
  rw [(C12_single_partial cfg ts ms).2 h1 hf.count]
  omega

theorem restamp_eq (A L E R : Bytes) (hA : A.length = 8) (hL : L.length = 4) (hE : E.length = 4) (base epoch : Int) :
    Kafka.restamp base epoch (A ++ L ++ E ++ R) = Kafka.int64 base ++ L ++ Kafka.int32 epoch ++ R := by
  have h1 : (A ++ L ++ E ++ R).drop 8 = L ++ (E ++ R) := by
    rw [List.append_assoc, List.append_assoc]; exact List.drop_left' hA
  have h2 : (A ++ L ++ E ++ R).drop 16 = R := List.drop_left' (by simp [hA, hL, hE])
  unfold Kafka.restamp
  rw [h1, h2, List.take_left' hL]

theorem lastDelta_eq (P D R : Bytes) (hP : P.length = 23) (hD : D.length = 4) : Kafka.lastDelta (P ++ (D ++ R)) = Kafka.natOf D := by
  unfold Kafka.lastDelta
  rw [List.drop_left' hP, List.take_left' hD]

theorem flush_encode (cfg : ProducerCfg) (hm : cfg.magic = 2) (compress : Int8 → Bytes → Out Bytes) (env : FetchEnv)
    (hc : CodecFits cfg compress env) (ts : Int64) (ms : List KV) (hf : FlushFits ms) :
    ∃ data z, (createRecordBatch cfg ts (ms.map KV.record)).encode compress = .ok data ∧
      Kafka.lastDelta data + 1 = ms.length ∧ (∀ base epoch, Kafka.restamp base epoch data = Kafka.packed (flushed cfg base epoch ts ms z)) ∧
      ∀ base epoch, Kafka.Holds (fun c d => match env.codec (Int8.ofNat c) d with | .ok r => some r | .error _ => none)
        (flushed cfg base epoch ts ms z) := by
  obtain ⟨z, hz, hh⟩ := flush_records cfg compress env hc ts ms
  have he := batch_encode_eq compress _ z hz
  have h1 := List.length_pos_iff.2 hf.some
  have h2 := hf.count
  refine ⟨_, z, he, ?_, fun base epoch => ?_, hh⟩
  · conv => lhs; lhs; arg 1; rw [RecordBatch.tail]
    simp only [List.append_assoc]
    rw [show ∀ (a b c d e f g h : Bytes), a ++ (b ++ (c ++ (d ++ (e ++ (f ++ (g ++ h)))))) = (a ++ b ++ c ++ d ++ e ++ f) ++ (g ++ h) by
      intros; simp only [List.append_assoc]]
    rw [lastDelta_eq _ _ _ (by simp) (by simp), lastOffsetDelta_eq cfg ts ms hf, natOf_int32 _ (by omega)]
    omega
  · simp only [List.append_assoc]
    rw [show ∀ (a b c d : Bytes), a ++ (b ++ (c ++ d)) = a ++ b ++ c ++ d by intros; simp only [List.append_assoc]]
    rw [restamp_eq _ _ _ _ (by simp) (by simp) (by simp)]
    have hl : ((createRecordBatch cfg ts (ms.map KV.record)).tail z).length + 9 = z.length + 49 := by
      simp [RecordBatch.tail]
      omega
    have hl' : (((createRecordBatch cfg ts (ms.map KV.record)).tail z).length : Int) + 9 = z.length + 49 := by omega
    have hmg : (createRecordBatch cfg ts (ms.map KV.record)).magic.toInt = 2 := by
      show cfg.magic.toInt = 2
      rw [hm]; rfl
    rw [hl', hmg]
    unfold Kafka.packed flushed RecordBatch.tail
    simp only [RecordBatch.toSpec, List.length_map, List.append_assoc]

/-! ## The log -/

/-- How many messages. -/
def messageCount (fs : List (Int64 × List KV)) : Nat := (fs.map fun f => f.2.length).sum

/-- The batches of the flushes as stored from `base` on. -/
def placed (cfg : ProducerCfg) (epoch : Int) (z : Int64 × List KV → Bytes) : Int → List (Int64 × List KV) → List Kafka.Packed
  | _, [] => []
  | base, f :: fs => flushed cfg base epoch f.1 f.2 (z f) :: placed cfg epoch z (base + f.2.length) fs

theorem placed_drop (cfg : ProducerCfg) (epoch : Int) (z : Int64 × List KV → Bytes) (fs : List (Int64 × List KV)) :
    ∀ (base : Int) (k : Nat), (placed cfg epoch z base fs).drop k =
      placed cfg epoch z (base + messageCount (fs.take k)) (fs.drop k) := by
  induction fs with
  | nil => intro base k; simp [placed]
  | cons f fs ih =>
    intro base k
    cases k with
    | zero => simp [messageCount]
    | succ k =>
      simp only [placed, List.drop_succ_cons, List.take_succ_cons, messageCount, List.map_cons, List.sum_cons]
      rw [ih]
      congr 1
      simp only [messageCount]
      omega

theorem placed_take (cfg : ProducerCfg) (epoch : Int) (z : Int64 × List KV → Bytes) (fs : List (Int64 × List KV)) :
    ∀ (base : Int) (n : Nat), (placed cfg epoch z base fs).take n = placed cfg epoch z base (fs.take n) := by
  induction fs with
  | nil => intro base n; simp [placed]
  | cons f fs ih =>
    intro base n
    cases n with
    | zero => simp [placed]
    | succ n => simp only [placed, List.take_succ_cons]; rw [ih]

theorem placed_mem (cfg : ProducerCfg) (epoch : Int) (z : Int64 × List KV → Bytes) (fs : List (Int64 × List KV)) (x : Kafka.Packed) :
    ∀ (base : Int), x ∈ placed cfg epoch z base fs → ∃ f ∈ fs, ∃ b, base ≤ b ∧ b + f.2.length ≤ base + messageCount fs ∧
      x = flushed cfg b epoch f.1 f.2 (z f) := by
  induction fs with
  | nil => intro base h; cases h
  | cons f fs ih =>
    intro base h
    have hc : messageCount (f :: fs) = f.2.length + messageCount fs := by simp [messageCount]
    rcases List.mem_cons.1 h with h | h
    · exact ⟨f, List.mem_cons_self, base, Int.le_refl _, by omega, h⟩
    · obtain ⟨g, hg, b, h1, h2, h3⟩ := ih _ h
      exact ⟨g, List.mem_cons_of_mem _ hg, b, by omega, by omega, h3⟩

theorem log_stored (cfg : ProducerCfg) (epoch : Int) (z data : Int64 × List KV → Bytes) (fs : List (Int64 × List KV))
    (hf : ∀ f ∈ fs, Kafka.lastDelta (data f) + 1 = f.2.length ∧
      ∀ base, Kafka.restamp base epoch (data f) = Kafka.packed (flushed cfg base epoch f.1 f.2 (z f))) :
    ∀ l : Kafka.Log, (fs.map data).foldl (Kafka.Log.append epoch) l =
      ⟨l.next + messageCount fs, l.stored ++ (placed cfg epoch z l.next fs).map Kafka.packed⟩ := by
  induction fs with
  | nil => intro l; simp [placed, messageCount]
  | cons f fs ih =>
    intro l
    obtain ⟨h1, h2⟩ := hf f List.mem_cons_self
    have hc : messageCount (f :: fs) = f.2.length + messageCount fs := by simp [messageCount]
    have hn : l.next + Kafka.lastDelta (data f) + 1 = l.next + f.2.length := by omega
    rw [List.map_cons, List.foldl_cons, ih fun g hg => hf g (List.mem_cons_of_mem _ hg)]
    simp only [Kafka.Log.append, hn, h2, hc, placed, List.map_cons, List.append_assoc, List.singleton_append]
    congr 1
    omega

/-- The messages of the flushes, as a consumer should be handed them: time, key (none and empty are the same), value. -/
def sentMessages (fs : List (Int64 × List KV)) : List (Int × Bytes × Bytes) :=
  fs.flatMap fun f => f.2.map fun m => (f.1.toInt, m.key.getD [], m.value)

/-- Time, key and value of a stored message without headers. -/
def plainly (m : Kafka.Stored) : Option (Int × Bytes × Bytes) :=
  if m.headers = [] then some (m.timestamp, m.key, m.value) else none

theorem flushed_stored (cfg : ProducerCfg) (base epoch : Int) (ts : Int64) (ms : List KV) (z : Bytes) :
    Kafka.stored (flushed cfg base epoch ts ms z).batch =
      ms.map fun m => ⟨base, ts.toInt, m.key.getD [], m.value, []⟩ := by
  simp only [Kafka.stored, flushed, RecordBatch.toSpec, createRecordBatch, List.map_map]
  apply List.map_congr_left
  intro m _
  simp [KV.record, Record.toSpec]

theorem placed_stored (cfg : ProducerCfg) (epoch : Int) (z : Int64 × List KV → Bytes) (fs : List (Int64 × List KV)) :
    ∀ base : Int, ((placed cfg epoch z base fs).flatMap fun x => Kafka.stored x.batch).map plainly = (sentMessages fs).map some ∧
      ∀ m ∈ (placed cfg epoch z base fs).flatMap (fun x => Kafka.stored x.batch), base ≤ m.offset := by
  induction fs with
  | nil => intro base; simp [placed, sentMessages]
  | cons f fs ih =>
    intro base
    obtain ⟨h1, h2⟩ := ih (base + f.2.length)
    simp only [placed, List.flatMap_cons, flushed_stored]
    refine ⟨?_, ?_⟩
    · rw [List.map_append, h1]
      simp only [sentMessages, List.flatMap_cons, List.map_append, List.map_map]
      congr 1
    · intro m hm
      rcases List.mem_append.1 hm with hm | hm
      · obtain ⟨k, -, rfl⟩ := List.mem_map.1 hm
        exact Int.le_refl _
      · have := h2 m hm
        omega

theorem flushed_fits (cfg : ProducerCfg) (compress : Int8 → Bytes → Out Bytes) (env : FetchEnv) (hc : CodecFits cfg compress env)
    (ts : Int64) (ms : List KV) (hf : FlushFits ms) (base epoch : Int) (z : Bytes) (hb : 0 ≤ base ∧ base < 2 ^ 63)
    (hz : z.length + 49 < 2 ^ 32)
    (hh : Kafka.Holds (fun c d => match env.codec (Int8.ofNat c) d with | .ok r => some r | .error _ => none)
      (flushed cfg base epoch ts ms z)) :
    LogFits env (fun c d => match env.codec (Int8.ofNat c) d with | .ok r => some r | .error _ => none)
      (flushed cfg base epoch ts ms z) := by
  have hr : (flushed cfg base epoch ts ms z).batch.records = ms.map fun m => m.record.toSpec := by
    simp [flushed, RecordBatch.toSpec, createRecordBatch]
  have h1 := ts.toInt_lt
  have h2 := ts.le_toInt
  refine ⟨⟨?_, ?_, ?_, ?_⟩, hz, hh, ?_, ?_, ?_⟩
  · intro r h
    rw [hr] at h
    obtain ⟨m, hm, rfl⟩ := List.mem_map.1 h
    obtain ⟨k1, k2⟩ := hf.sizes m hm
    refine ⟨show -2 ^ 7 ≤ (0 : Int8).toInt ∧ (0 : Int8).toInt < 2 ^ 7 by decide,
      show -2 ^ 63 ≤ (0 : Int64).toInt ∧ (0 : Int64).toInt < 2 ^ 63 by decide,
      show -2 ^ 31 ≤ (0 : Int32).toInt ∧ (0 : Int32).toInt < 2 ^ 31 by decide, ?_, ?_⟩
    · intro h hh
      cases hh
    · have g1 := varintBytes_length m.key k1
      have g2 := varintBytes_length (some m.value) k2
      have g3 := varint_length_le 0 (by omega)
      simp only [Kafka.recordBody, KV.record, Record.toSpec, List.length_append]
      have g4 : (Kafka.varint (0 : Int64).toInt).length ≤ 10 := g3
      have g5 : (Kafka.varint (0 : Int32).toInt).length ≤ 10 := g3
      have g6 : (Kafka.varintBytes (some ((some m.value).getD []))).length = (Kafka.varintBytes (some m.value)).length := rfl
      have g7 : (Kafka.int8 (0 : Int8).toInt).length = 1 := rfl
      have g8 : (Kafka.varint (([] : List RecordHeader).map fun h => (h.key, some h.value)).length).length ≤ 10 := g3
      have g9 : ((([] : List RecordHeader).map fun h => (h.key, some h.value)).flatMap Kafka.recordHeader).length = 0 := rfl
      omega
  · rw [hr, List.length_map]
    have := hf.count
    omega
  · intro r h
    rw [hr] at h
    obtain ⟨m, hm, rfl⟩ := List.mem_map.1 h
    show -2 ^ 63 ≤ base + (0 : Int32).toInt ∧ base + (0 : Int32).toInt < 2 ^ 63
    rw [show (0 : Int32).toInt = 0 from rfl]
    omega
  · intro r h
    rw [hr] at h
    obtain ⟨m, hm, rfl⟩ := List.mem_map.1 h
    show -2 ^ 63 ≤ ts.toInt + (0 : Int64).toInt ∧ ts.toInt + (0 : Int64).toInt < 2 ^ 63
    rw [show (0 : Int64).toInt = 0 from rfl]
    omega
  · show 0 ≤ cfg.compression.toInt16.toInt ∧ cfg.compression.toInt16.toInt % 8 < 4
    rcases hc with h | ⟨h | h | h, -⟩ <;> rw [h] <;> decide
  · intro c _ _ d r h
    revert h
    cases env.codec (Int8.ofNat c) d with
    | ok r' => intro h; cases h; rfl
    | error e => intro h; cases h
  · intro h
    rw [hr] at h
    exact absurd (List.map_eq_nil_iff.1 h) hf.some

/-- C139: for each list of messages a producer flushes, with magic 2 and a codec the consumer can undo, there are record
data such that the request the producer sends is Kafka's produce request with these data; and whatever the log held
before, when a broker has appended the data of all flushes to its log, then a consumer that begins at the offset of the
first message of a batch and gets a fetch response with any number of whole batches from there is handed, in order and
once, exactly the messages of those flushes - topic, partition, time, key and value, and no headers.

Missing for the full statement: the offsets of the messages within a batch, so that a consumer cannot begin inside a
batch (`C139_violated_middle`). -/
theorem C139_flow_partial (cfg : ProducerCfg) (hm : cfg.magic = 2) (compress : Int8 → Bytes → Out Bytes) (env : FetchEnv)
    (hacc : ∀ n, env.accept n = true) (hc : CodecFits cfg compress env) (topic : Bytes) (ht : topic.length < 2 ^ 63)
    (partition : Int32) (fs : List (Int64 × List KV)) (hfs : ∀ f ∈ fs, FlushFits f.2) :
    ∃ data : Int64 × List KV → Bytes,
      (∀ f ∈ fs, (data f).length < 2 ^ 63 → ∀ (corr : UInt32) (cid : Option Bytes), (∀ b, cid = some b → b.length ≤ 32767) →
        (produceRequestOf cfg topic partition f.1 f.2).encode compress (reqHeader API_ProduceRequest 9 corr cid) =
          .ok (Kafka.request .produce 9 corr.toNat cid (Kafka.produceRequest 9 none cfg.acks.toInt cfg.requestTimeoutMS.toInt
            [(topic, [(partition.toInt, data f)])]))) ∧
      ∀ (epoch : Int) (before : Kafka.Log), 0 ≤ before.next → before.next + messageCount fs < 2 ^ 63 →
        let log := (fs.map data).foldl (Kafka.Log.append epoch) before
        log.next = before.next + messageCount fs ∧
        ∀ (skip n : Nat), skip < fs.length → 0 < n → env.startOffset.toInt = before.next + messageCount (fs.take skip) →
          ∀ (h : Kafka.FetchHeader) (p : Kafka.FetchPartition) (rest : Bytes) (s : SD), p.partition = partition.toInt →
            p.data = (((log.stored.drop before.stored.length).drop skip).take n).flatten → OnWire env h topic p rest s →
            ∃ s' ms, streamDecode env s = .ok () s' ∧ s'.delivered = s.delivered ++ ms ∧ s'.rd.flat = rest ∧
              ms.map (fun m => m.seen.bind fun d => if d.topic = topic ∧ d.partition = partition.toInt then plainly d.message else none) =
                (sentMessages ((fs.drop skip).take n)).map some := by
  have hall : ∀ f : Int64 × List KV, ∃ dz : Bytes × Bytes, FlushFits f.2 →
      (createRecordBatch cfg f.1 (f.2.map KV.record)).encode compress = .ok dz.1 ∧ Kafka.lastDelta dz.1 + 1 = f.2.length ∧
      (∀ base epoch, Kafka.restamp base epoch dz.1 = Kafka.packed (flushed cfg base epoch f.1 f.2 dz.2)) ∧
      ∀ base epoch, Kafka.Holds (fun c d => match env.codec (Int8.ofNat c) d with | .ok r => some r | .error _ => none)
        (flushed cfg base epoch f.1 f.2 dz.2) := by
    intro f
    by_cases hf : FlushFits f.2
    · obtain ⟨d, z, h⟩ := flush_encode cfg hm compress env hc f.1 f.2 hf
      exact ⟨(d, z), fun _ => h⟩
    · exact ⟨([], []), fun h => absurd h hf⟩
  obtain ⟨dz, hdz⟩ := Classical.skolem.1 hall
  refine ⟨fun f => (dz f).1, ?_, ?_⟩
  · intro f hf hl corr cid hcid
    have hb := (hdz f (hfs f hf)).1
    have he : encodeBatches compress [createRecordBatch cfg f.1 (f.2.map KV.record)] = .ok (dz f).1 := by
      simp only [encodeBatches, hb]
      show Out.ok (_ ++ []) = _
      rw [List.append_nil]
    exact C64_produce_v9_partial compress (fun _ => (dz f).1) (produceRequestOf cfg topic partition f.1 f.2)
      (by simp only [produceRequestOf, List.mem_singleton, forall_eq]; exact he)
      (fun _ _ _ _ => hl)
      (by simp only [produceRequestOf, List.mem_singleton, forall_eq]; exact ⟨ht, by simp⟩)
      (by simp [produceRequestOf]) (by simp [produceRequestOf]) corr cid hcid
  · intro epoch before h0 hmax log
    have hlog := log_stored cfg epoch (fun f => (dz f).2) (fun f => (dz f).1) fs
      (fun f hf => ⟨(hdz f (hfs f hf)).2.1, fun base => (hdz f (hfs f hf)).2.2.1 base epoch⟩) before
    refine ⟨by show ((fs.map _).foldl _ before).next = _; rw [hlog], ?_⟩
    intro skip n hskip hn hstart h p rest s hpart hdata w
    have hst : log.stored = before.stored ++ (placed cfg epoch (fun f => (dz f).2) before.next fs).map Kafka.packed := by
      show ((fs.map _).foldl _ before).stored = _
      rw [hlog]
    let base := before.next + messageCount (fs.take skip)
    let sel := (fs.drop skip).take n
    let xs := placed cfg epoch (fun f => (dz f).2) base sel
    have hd : p.data = xs.flatMap Kafka.packed := by
      rw [hdata, hst, List.drop_left, ← List.map_drop, ← List.map_take, placed_drop, placed_take, List.flatMap_def]
    have hsub : ∀ f ∈ sel, f ∈ fs := fun f hf => List.mem_of_mem_drop (List.mem_of_mem_take hf)
    have hcount : messageCount (fs.take skip) + messageCount sel ≤ messageCount fs := by
      have e1 : ∀ a b, messageCount (a ++ b) = messageCount a + messageCount b := by intros; simp [messageCount]
      have e2 := e1 (fs.take skip) (fs.drop skip)
      have e3 := e1 sel ((fs.drop skip).drop n)
      rw [List.take_append_drop] at e2 e3
      omega
    have hsel : sel ≠ [] := by
      intro e
      have := congrArg List.length e
      simp [sel] at this
      omega
    have hfit : ∀ x ∈ xs, LogFits env (fun c d => match env.codec (Int8.ofNat c) d with | .ok r => some r | .error _ => none) x := by
      intro x hx
      have hlen := length_le_flatMap (f := Kafka.packed) hx
      rw [← hd, packed_length] at hlen
      have hsz := w.size
      obtain ⟨f, hf, b, k1, k2, rfl⟩ := placed_mem cfg epoch _ sel x base hx
      have hff := hfs f (hsub f hf)
      refine flushed_fits cfg compress env hc f.1 f.2 hff b epoch _ ?_ ?_ ((hdz f hff).2.2.2 b epoch)
      · have := List.length_pos_iff.2 hff.some
        simp only [base] at k1 k2
        omega
      · have : (flushed cfg b epoch f.1 f.2 (dz f).2).payload = (dz f).2 := rfl
        rw [this] at hlen
        omega
    have hne : p.data ≠ [] := by
      obtain ⟨f, g, he⟩ := List.exists_cons_of_ne_nil hsel
      intro e
      have : xs = flushed cfg base epoch f.1 f.2 (dz f).2 :: placed cfg epoch (fun f => (dz f).2) (base + f.2.length) g := by
        simp only [xs, he, placed]
      rw [hd, this] at e
      have := congrArg List.length e
      simp [packed_length] at this
    obtain ⟨s', ms, r1, r2, r3, -, r4⟩ := C15_fetch_delivery_partial env hacc _ xs hfit h topic p hd hne rest s w
    refine ⟨s', ms, r1, r2, r3, ?_⟩
    obtain ⟨q1, q2⟩ := placed_stored cfg epoch (fun f => (dz f).2) sel base
    have hex : expected topic p.partition env.startOffset.toInt (xs.flatMap fun x => Kafka.stored x.batch) =
        (xs.flatMap fun x => Kafka.stored x.batch).map fun m => ⟨topic, p.partition, m⟩ := by
      unfold expected
      rw [List.filter_eq_self.2]
      intro m hm'
      have := q2 m hm'
      simp only [decide_eq_true_eq]
      rw [hstart]
      exact this
    have hlist : (xs.flatMap fun x => Kafka.stored x.batch) ≠ [] := by
      obtain ⟨f, g, he⟩ := List.exists_cons_of_ne_nil hsel
      have : xs = flushed cfg base epoch f.1 f.2 (dz f).2 :: placed cfg epoch (fun f => (dz f).2) (base + f.2.length) g := by
        simp only [xs, he, placed]
      have hf : f.2 ≠ [] := (hfs f (hsub f (by rw [he]; exact List.mem_cons_self))).some
      rw [this, List.flatMap_cons, flushed_stored]
      simp [hf]
    simp only [hex] at r4
    rw [if_neg (by simpa using hlist)] at r4
    rw [← q1]
    have : ms.map (fun m => m.seen.bind fun d => if d.topic = topic ∧ d.partition = partition.toInt then plainly d.message else none) =
        (ms.map FullMessage.seen).map fun o => o.bind fun d => if d.topic = topic ∧ d.partition = partition.toInt then plainly d.message else none := by
      rw [List.map_map]; rfl
    rw [this, r4, List.map_map, List.map_map]
    apply List.map_congr_left
    intro m _
    simp [hpart]

/-- Flushes and their record data, appended to a log that begins at 40. -/
def flowLog (fs : List (Int64 × List KV)) : Kafka.Log :=
  (fs.map fun f => match (createRecordBatch plainCfg f.1 (f.2.map KV.record)).encode fun _ b => .ok b with | .ok d => d | _ => []).foldl
    (Kafka.Log.append 5) ⟨40, []⟩

/-- two flushes of two messages and one message -/
def twoFlushes : List (Int64 × List KV) := [(1000, [⟨some [107], [118]⟩, ⟨none, [119]⟩]), (2000, [⟨none, [120]⟩])]

/-- C139: a log in which the second message of a batch has, by Kafka's count, offset 41.  A consumer that begins there is
not handed this message but the complaint that its fetch size is too small. -/
theorem C139_violated_middle :
    (flowLog (twoFlushes.take 1)).next = 42 ∧
      runOn { startOffset := 41 } (sampleResponse (flowLog (twoFlushes.take 1)).stored.flatten) = some ⟨[none], [99]⟩ := by
  decide +kernel

/-- All three messages from 40 on, the last from 42 on. -/
example : (flowLog twoFlushes).next = 43 ∧
    runOn { startOffset := 40 } (sampleResponse (flowLog twoFlushes).stored.flatten) =
      some ⟨[some ⟨[116], 3, ⟨40, 1000, [107], [118], []⟩⟩, some ⟨[116], 3, ⟨40, 1000, [], [119], []⟩⟩,
        some ⟨[116], 3, ⟨42, 2000, [], [120], []⟩⟩], [99]⟩ ∧
    runOn { startOffset := 42 } (sampleResponse ((flowLog twoFlushes).stored.drop 1).flatten) =
      some ⟨[some ⟨[116], 3, ⟨42, 2000, [], [120], []⟩⟩], [99]⟩ := by decide +kernel

example : plainCfg.magic = 2 ∧ CodecFits plainCfg (fun _ b => .ok b) {} ∧ ∀ f ∈ twoFlushes, FlushFits f.2 := by
  refine ⟨rfl, Or.inl rfl, ?_⟩
  simp only [twoFlushes, List.mem_cons, List.not_mem_nil, or_false]
  rintro f (rfl | rfl) <;> exact ⟨by simp, by simp, by simp⟩

/-- C139: the batches a producer sends are ordinary ones: a broker sees a batch of no idempotent producer and of no transaction, no control batch, with the
times the client gave, the codec the producer is told to use, and offsets for all its records. -/
theorem C139_ordinary (cfg : ProducerCfg) (hc : cfg.compression = 0 ∨ cfg.compression = 1 ∨ cfg.compression = 2 ∨ cfg.compression = 3)
    (ts : Int64) (ms : List KV) (hn : 0 < ms.length) (hm : ms.length < 2 ^ 31) :
    (createRecordBatch cfg ts (ms.map KV.record)).toSpec.producerId = -1 ∧
    (createRecordBatch cfg ts (ms.map KV.record)).toSpec.attributes = cfg.compression.toInt ∧
    (createRecordBatch cfg ts (ms.map KV.record)).toSpec.attributes.toNat &&& 0x38 = 0 ∧
    (createRecordBatch cfg ts (ms.map KV.record)).toSpec.baseTimestamp = ts.toInt ∧
    (createRecordBatch cfg ts (ms.map KV.record)).toSpec.maxTimestamp = ts.toInt ∧
    (createRecordBatch cfg ts (ms.map KV.record)).toSpec.lastOffsetDelta + 1 = (createRecordBatch cfg ts (ms.map KV.record)).toSpec.records.length := by
  have ha : (createRecordBatch cfg ts (ms.map KV.record)).toSpec.attributes = cfg.compression.toInt := by
    show cfg.compression.toInt16.toInt = _
    rcases hc with h | h | h | h <;> rw [h] <;> rfl
  refine ⟨rfl, ha, ?_, rfl, rfl, ?_⟩
  · rw [ha]
    rcases hc with h | h | h | h <;> rw [h] <;> decide
  · show (createRecordBatch cfg ts (ms.map KV.record)).lastOffsetDelta.toInt + 1 = ((ms.map KV.record).map Record.toSpec).length
    rw [(C12_single_partial cfg ts ms).2 hn hm, List.length_map, List.length_map]
    omega

end Healer
