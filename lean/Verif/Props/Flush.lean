import Verif.Model.Flush
import Verif.Props.Ask
import Verif.Props.Producer
import Verif.Props.Response3

/-!
C145: what a flush reports, for each setting of `acks`.
-/

namespace Healer

/-- The answer of a broker to a produce request in version 9 for one partition. -/
def producedAnswer (corr : UInt32) (topic : Bytes) (p : ProducedPartition) (throttle : Int) : Bytes :=
  Kafka.response .produce 9 corr.toNat [] (Kafka.produceResponse 9 [(topic, [p.wire])] throttle)

/-- With a broker that answers (`acks` is 1 or -1), a flush writes one request, with the messages and with `acks` as configured, and reports success exactly if the
answer says that the messages were taken.  Missing for the full statement: `acks` 0; versions other than 9, where request or answer are not right (C64, C73).
With compression: `C145_compressed_partial`. -/
theorem C145_acknowledged_partial (compress : Int8 → Bytes → Out Bytes) (cfg : ProducerCfg) (hm : cfg.magic = 2) (hc : cfg.compression = 0)
    (topic : Bytes) (ht : topic.length < 2 ^ 63) (partition : Int32) (ts : Int64) (ms : List KV) (hcid : cfg.clientID.length ≤ 32767)
    (hl : (Kafka.batch (createRecordBatch cfg ts (ms.map KV.record)).toSpec).length < 2 ^ 63)
    {b : Broker} {c : Conn} (hb : b.Ready c) (hv : getHighestAvailableAPIVersion b.apiVersions API_ProduceRequest = 9)
    (corr : UInt32) (p : ProducedPartition) (hp : p.Plain) (hid : 0 ≤ p.partitionID.toInt ∧ p.partitionID.toInt < 2 ^ 24) (throttle : Int)
    (hr : (producedAnswer corr topic p throttle).length < 2 ^ 31) {chunks : List Bytes} {extra : Bytes} {tail : List Ev}
    (hd : c.Delivers (producedAnswer corr topic p throttle) chunks extra tail) :
    ∃ (left : List Bytes) (batch : Kafka.Batch) (e : Option Err), left.flatten = extra ∧
      batch.records.map (fun r => (r.key, r.value)) = (ms.map fun m => (m.key, some m.value)) ∧
      (e = none ↔ p.errorCode = 0) ∧
      flushTo compress cfg topic partition ts ms b = (.ok e, b.after c (Kafka.request .produce 9 (b.correlationID + 1).toNat (some cfg.clientID)
        (Kafka.produceRequest 9 none cfg.acks.toInt cfg.requestTimeoutMS.toInt [(topic, [(partition.toInt, Kafka.batch batch)])])) (left.map .data ++ tail)) := by
  obtain ⟨batch, henc, hms⟩ := C46_request_bytes compress cfg hm hc topic partition ts ms (b.correlationID + 1) (some cfg.clientID)
    (by intro x hx; cases hx; exact hcid) ht hl
  obtain ⟨r, hpar, _, _, herr⟩ := C119_produce_partial corr topic p hp hid throttle hr
  obtain ⟨left, h1, h2⟩ := askAnswer hb .produce .produce (.produce compress (produceRequestOf cfg topic partition ts ms)) cfg.clientID (v := 9) hv
    henc hpar (Nat.lt_trans hr (by decide)) hd (by simp) (fun _ => ⟨r.error, rfl, by
      intro y hy
      rw [herr] at hy
      unfold firstCode at hy
      obtain ⟨z, hz, rfl⟩ := Option.map_eq_some_iff.mp hy
      rfl⟩)
  refine ⟨left, batch, r.error, h1, hms, ?_, ?_⟩
  · rw [herr]
    unfold firstCode
    by_cases h0 : p.errorCode = 0 <;> simp [h0]
  · unfold flushTo
    simp only [askBind, B.bind, h2, given, Response.error]
    rcases he : r.error with _ | e
    · simp only [flushOutcome, Response.error, he]; rfl
    · simp only [flushOutcome]; rfl

/-- With `acks` 0 a broker takes the messages and answers nothing.  The request is on its way, and the flush waits for an answer all the same, until the time for it is
over, and reports an error. -/
theorem C145_violated_noAcks (compress : Int8 → Bytes → Out Bytes) (cfg : ProducerCfg) (hm : cfg.magic = 2) (hc : cfg.compression = 0) (hacks : cfg.acks = 0)
    (topic : Bytes) (ht : topic.length < 2 ^ 63) (partition : Int32) (ts : Int64) (ms : List KV) (hcid : cfg.clientID.length ≤ 32767)
    (hl : (Kafka.batch (createRecordBatch cfg ts (ms.map KV.record)).toSpec).length < 2 ^ 63)
    {b : Broker} {c : Conn} (hb : b.Ready c) (hv : getHighestAvailableAPIVersion b.apiVersions API_ProduceRequest = 9)
    {later : List Ev} (hquiet : c.reads = .fail .timeout :: later) :
    ∃ (batch : Kafka.Batch) (e : Err),
      batch.records.map (fun r => (r.key, r.value)) = (ms.map fun m => (m.key, some m.value)) ∧
      flushTo compress cfg topic partition ts ms b = (.ok (some e), b.after c (Kafka.request .produce 9 (b.correlationID + 1).toNat (some cfg.clientID)
        (Kafka.produceRequest 9 none 0 cfg.requestTimeoutMS.toInt [(topic, [(partition.toInt, Kafka.batch batch)])])) later) := by
  obtain ⟨batch, henc, hms⟩ := C46_request_bytes compress cfg hm hc topic partition ts ms (b.correlationID + 1) (some cfg.clientID)
    (by intro x hx; cases hx; exact hcid) ht hl
  rw [hacks] at henc
  have hread : readAndParse API_ProduceRequest 9 c.reads = (.err (.wrapped .timeout), later) := by
    rw [hquiet]
    rfl
  have := requestBoth_answer (resp := .heartbeat ⟨0, 0⟩) hb.conn hb.free hb.writes ((AnyRequest.produce compress (produceRequestOf cfg topic partition ts ms)).by cfg.clientID) hv
    henc (by simp [Kafka.request, Kafka.frame, Kafka.requestHeader]; omega) (e := some .timeout) hread (by intro x hx; cases hx; rfl) (by simp)
  refine ⟨batch, .wrapped .timeout, hms, ?_⟩
  unfold flushTo
  simp only [askBind, B.bind, this, given, flushOutcome]
  rfl

/-- A connection on which the broker answers the request for topic "t", partition 3, in two pieces: the messages were stored from offset 7 on (or, with code 6, not stored). -/
def flushBroker (code : Int16) : Broker :=
  let answer := producedAnswer 1 [116] ⟨3, code, 7, -1, 0, [], none⟩ 0
  { sasl := ⟨[], [], []⟩, apiVersions := [⟨0, 0, 9⟩], correlationID := 0, mux := false, dials := [], dialed := 1, log := [],
    conn := some ⟨0, [.data (answer.take 5), .data (answer.drop 5)], fun _ => none, 0⟩ }

example : (flushTo (fun _ b => .ok b) plainCfg [116] 3 1000 [⟨some [107], [118]⟩] (flushBroker 0)).1 = .ok none
    ∧ (flushTo (fun _ b => .ok b) plainCfg [116] 3 1000 [⟨some [107], [118]⟩] (flushBroker 6)).1 = .ok (some (.kafka 6)) := by
  decide +kernel

/-- the same broker with `acks` 0, which says nothing -/
example : (flushTo (fun _ b => .ok b) { plainCfg with acks := 0 } [116] 3 1000 [⟨some [107], [118]⟩]
    { flushBroker 0 with conn := some ⟨0, [.fail .timeout], fun _ => none, 0⟩ }).1 = .ok (some (.wrapped .timeout)) := by
  decide +kernel

end Healer
