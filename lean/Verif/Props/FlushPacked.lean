import Verif.Props.Flush
import Verif.Props.Flow

/-!
C145 with compression: what a flush writes and reports when the producer compresses.
-/

namespace Healer

/-- how the consumer's codecs undo compression -/
def FetchEnv.unpack (env : FetchEnv) : Nat → Bytes → Option Bytes :=
  fun c d => match env.codec (Int8.ofNat c) d with | .ok r => some r | .error _ => none

theorem flush_packed (cfg : ProducerCfg) (hm : cfg.magic = 2) (compress : Int8 → Bytes → Out Bytes) (env : FetchEnv)
    (hc : CodecFits cfg compress env) (ts : Int64) (ms : List KV) :
    ∃ x : Kafka.Packed, (createRecordBatch cfg ts (ms.map KV.record)).encode compress = .ok (Kafka.packed x) ∧ Kafka.Holds env.unpack x ∧
      x.crc = (Kafka.crc32c ((Kafka.packed x).drop 21)).toNat ∧ x.batch.attributes = cfg.compression.toInt ∧ x.payload.length + 61 = (Kafka.packed x).length ∧
      x.batch.records.map (fun r => (r.key, r.value)) = ms.map fun m => (m.key, some m.value) := by
  obtain ⟨z, hz, hh⟩ := flush_records cfg compress env hc ts ms
  have he := batch_encode_eq compress _ z hz
  have hl : ((createRecordBatch cfg ts (ms.map KV.record)).tail z).length + 9 = z.length + 49 := by
    simp [RecordBatch.tail]
    omega
  have hl' : (((createRecordBatch cfg ts (ms.map KV.record)).tail z).length : Int) + 9 = z.length + 49 := by omega
  have hmg : (createRecordBatch cfg ts (ms.map KV.record)).magic.toInt = 2 := by
    show cfg.magic.toInt = 2
    rw [hm]; rfl
  rw [hl', hmg] at he
  have hpk : Kafka.packed (flushed cfg 0 (-1) ts ms z) =
      (Kafka.int64 0 ++ Kafka.int32 (z.length + 49) ++ Kafka.int32 (-1) ++ Kafka.int8 2 ++
        Kafka.int32 (Kafka.crc32c ((createRecordBatch cfg ts (ms.map KV.record)).tail z)).toNat) ++
        (createRecordBatch cfg ts (ms.map KV.record)).tail z := by
    unfold Kafka.packed flushed RecordBatch.tail
    simp only [RecordBatch.toSpec, List.length_map, List.append_assoc]
  refine ⟨flushed cfg 0 (-1) ts ms z, ?_, hh 0 (-1), ?_, ?_, ?_, ?_⟩
  · rw [he, hpk]
    rfl
  · rw [hpk, List.drop_left' (by simp)]
    rfl
  · show cfg.compression.toInt16.toInt = _
    exact Int8.toInt_toInt16 _
  · rw [hpk]
    simp only [List.length_append, int64_length, int32_length, int8_length]
    show z.length + 61 = _
    omega
  · simp only [flushed, RecordBatch.toSpec, createRecordBatch, List.map_map]
    rfl

/-- C145 with any of the codecs: with a broker that answers (`acks` is 1 or -1), a flush writes one request, with `acks` as configured and one batch, which names the
codec, has the right checksum and, unpacked with that codec, holds exactly the messages; and it reports success exactly if the answer says that the messages were
taken.  Missing for the full statement: `acks` 0; versions other than 9, where request or answer are not right (C64, C73). -/
theorem C145_compressed_partial (compress : Int8 → Bytes → Out Bytes) (cfg : ProducerCfg) (hm : cfg.magic = 2) (env : FetchEnv) (hc : CodecFits cfg compress env)
    (topic : Bytes) (ht : topic.length < 2 ^ 63) (partition : Int32) (ts : Int64) (ms : List KV) (hcid : cfg.clientID.length ≤ 32767)
    (hl : ∀ z, (createRecordBatch cfg ts (ms.map KV.record)).encode compress = .ok z → z.length < 2 ^ 63)
    {b : Broker} {c : Conn} (hb : b.Ready c) (hv : getHighestAvailableAPIVersion b.apiVersions API_ProduceRequest = 9)
    (corr : UInt32) (p : ProducedPartition) (hp : p.Plain) (hid : 0 ≤ p.partitionID.toInt ∧ p.partitionID.toInt < 2 ^ 24) (throttle : Int)
    (hr : (producedAnswer corr topic p throttle).length < 2 ^ 31) {chunks : List Bytes} {extra : Bytes} {tail : List Ev}
    (hd : c.Delivers (producedAnswer corr topic p throttle) chunks extra tail) :
    ∃ (left : List Bytes) (x : Kafka.Packed) (e : Option Err), left.flatten = extra ∧
      Kafka.Holds env.unpack x ∧ x.crc = (Kafka.crc32c ((Kafka.packed x).drop 21)).toNat ∧ x.batch.attributes = cfg.compression.toInt ∧
      x.batch.records.map (fun r => (r.key, r.value)) = (ms.map fun m => (m.key, some m.value)) ∧
      (e = none ↔ p.errorCode = 0) ∧
      flushTo compress cfg topic partition ts ms b = (.ok e, b.after c (Kafka.request .produce 9 (b.correlationID + 1).toNat (some cfg.clientID)
        (Kafka.produceRequest 9 none cfg.acks.toInt cfg.requestTimeoutMS.toInt [(topic, [(partition.toInt, Kafka.packed x)])])) (left.map .data ++ tail)) := by
  obtain ⟨x, hx, h1, h2, h3, -, h4⟩ := flush_packed cfg hm compress env hc ts ms
  have he : encodeBatches compress [createRecordBatch cfg ts (ms.map KV.record)] = .ok (Kafka.packed x) := by
    simp only [encodeBatches, hx]
    show Out.ok (_ ++ []) = _
    rw [List.append_nil]
  have henc := C64_produce_v9_partial compress (fun _ => Kafka.packed x) (produceRequestOf cfg topic partition ts ms)
    (by simp only [produceRequestOf, List.mem_singleton, forall_eq]; exact he)
    (fun _ _ _ _ => hl _ hx)
    (by simp only [produceRequestOf, List.mem_singleton, forall_eq]; exact ⟨ht, by simp⟩)
    (by simp [produceRequestOf]) (by simp [produceRequestOf]) (b.correlationID + 1) (some cfg.clientID) (by intro y hy; cases hy; exact hcid)
  obtain ⟨r, hpar, _, _, herr⟩ := C119_produce_partial corr topic p hp hid throttle hr
  obtain ⟨left, g1, g2⟩ := askAnswer hb .produce .produce (.produce compress (produceRequestOf cfg topic partition ts ms)) cfg.clientID (v := 9) hv
    henc hpar (Nat.lt_trans hr (by decide)) hd (by simp) (fun _ => ⟨r.error, rfl, by
      intro y hy
      rw [herr] at hy
      unfold firstCode at hy
      obtain ⟨z, hz, rfl⟩ := Option.map_eq_some_iff.mp hy
      rfl⟩)
  refine ⟨left, x, r.error, g1, h1, h2, h3, h4, ?_, ?_⟩
  · rw [herr]
    unfold firstCode
    by_cases h0 : p.errorCode = 0 <;> simp [h0]
  · unfold flushTo
    simp only [askBind, B.bind, g2, given, Response.error]
    rcases he : r.error with _ | e
    · simp only [flushOutcome, Response.error, he]; rfl
    · simp only [flushOutcome]; rfl

/-- a codec that turns the bytes around, as gzip -/
def turning : FetchEnv := { codec := fun _ b => .ok b.reverse }

example : CodecFits { plainCfg with compression := 1 } (fun _ b => .ok b.reverse) turning :=
  .inr ⟨.inl rfl, fun raw => ⟨raw.reverse, rfl, by simp [turning]⟩⟩

/-- success and failure with that codec -/
example : (flushTo (fun _ b => .ok b.reverse) { plainCfg with compression := 1 } [116] 3 1000 [⟨some [107], [118]⟩] (flushBroker 0)).1 = .ok none
    ∧ (flushTo (fun _ b => .ok b.reverse) { plainCfg with compression := 1 } [116] 3 1000 [⟨some [107], [118]⟩] (flushBroker 6)).1 = .ok (some (.kafka 6)) := by
  decide +kernel

end Healer
