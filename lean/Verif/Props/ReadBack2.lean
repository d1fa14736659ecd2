import Verif.Props.ReadBack
import Verif.Props.Record

/-!
# Produce requests read back (C133)
-/

namespace Healer

/-- What a batch says.  The length and the checksum are filled in when it is written; nil and empty keys and values are not
told apart (C09). -/
def RecordBatch.content (b : RecordBatch) : RecordBatch :=
  { b with batchLength := 0, crc := 0,
           records := b.records.map fun x =>
             { x with key := if x.key = some [] then none else x.key,
                      value := if x.value = some [] then none else x.value } }

def ProduceP.content (p : ProduceP) : ProduceP := { p with recordBatches := p.recordBatches.map RecordBatch.content }

def ProduceT.content (t : ProduceT) : ProduceT := { t with partitionBlocks := t.partitionBlocks.map ProduceP.content }

def ProduceRequest.content (r : ProduceRequest) : ProduceRequest := { r with topicBlocks := r.topicBlocks.map ProduceT.content }

/-- An uncompressed batch of records that can be written (C09). -/
structure RecordBatch.Plain (b : RecordBatch) : Prop where
  uncompressed : b.attributes &&& 3 = 0
  keys : ∀ x ∈ b.records, x.key = none → -64 ≤ x.offsetDelta.toInt ∧ x.offsetDelta.toInt ≤ 63
  count : b.records.length < 2 ^ 32
  sizes : ∀ x ∈ b.records, x.encode.length < 2 ^ 63

theorem RecordBatch.content_idem (b : RecordBatch) (len : Int32) (crc : UInt32) :
    RecordBatch.content { b with batchLength := len, crc := crc, records := b.records.map fun x =>
      { x with key := if x.key = some [] then none else x.key,
               value := if x.value = some [] then none else x.value } } = b.content := by
  unfold RecordBatch.content
  simp only [List.map_map]
  congr 1
  apply List.map_congr_left
  intro x _
  simp only [Function.comp]
  congr 1
  · by_cases h : x.key = some [] <;> simp [h]
  · by_cases h : x.value = some [] <;> simp [h]

/-- The bytes of every plain batch and what is read from them. -/
theorem plain_reads (compress : Int8 → Bytes → Out Bytes) : ∃ (enc : RecordBatch → Bytes) (seen : RecordBatch → RecordBatch),
    ∀ b : RecordBatch, b.Plain → b.encode compress = .ok (enc b) ∧ 0 < (enc b).length ∧
      Reads decodeToRecordBatch (enc b) (seen b) ∧ (seen b).content = b.content := by
  have : ∀ b : RecordBatch, ∃ x : Bytes × RecordBatch, b.Plain → b.encode compress = .ok x.1 ∧ 0 < x.1.length ∧
      Reads decodeToRecordBatch x.1 x.2 ∧ x.2.content = b.content := by
    intro b
    by_cases hb : b.Plain
    · obtain ⟨bs, len, crc, he, hd⟩ := C11_batch_roundtrip_partial compress b hb.uncompressed hb.keys hb.count hb.sizes
      refine ⟨(bs, _), fun _ => ⟨he, ?_, hd, b.content_idem len crc⟩⟩
      obtain ⟨recs, rest, covered, hbs, -⟩ := C10_framing compress b bs he
      simp only [hbs, List.length_append, int64_length]
      omega
    · exact ⟨([], b), fun h => absurd h hb⟩
  obtain ⟨f, hf⟩ := Classical.skolem.1 this
  exact ⟨fun b => (f b).1, fun b => (f b).2, hf⟩

theorem encodeBatches_eq (compress : Int8 → Bytes → Out Bytes) (enc : RecordBatch → Bytes) (bs : List RecordBatch)
    (h : ∀ b ∈ bs, b.encode compress = .ok (enc b)) : encodeBatches compress bs = .ok (bs.flatMap enc) := by
  induction bs with
  | nil => rfl
  | cons b bs ih =>
    rw [encodeBatches, h b (by simp), ih fun x hx => h x (by simp [hx])]
    rfl

theorem creads_batches (enc : RecordBatch → Bytes) (seen : RecordBatch → RecordBatch) (bs : List RecordBatch)
    (h : ∀ b ∈ bs, 0 < (enc b).length ∧ Reads decodeToRecordBatch (enc b) (seen b)) (fuel : Nat) (hf : bs.length ≤ fuel) :
    CReads (rdBatches fuel (bs.flatMap enc).length) (bs.flatMap enc) (bs.map seen) := by
  induction bs generalizing fuel with
  | nil =>
    intro pre rest
    cases fuel <;> simp [rdBatches] <;> rfl
  | cons b bs ih =>
    obtain ⟨fuel, rfl⟩ : ∃ k, fuel = k + 1 := ⟨fuel - 1, by simp at hf; omega⟩
    have h1 := h b (by simp)
    intro pre rest
    have ih := ih (fun x hx => h x (by simp [hx])) fuel (by simp at hf; omega) (pre ++ enc b) rest
    have hb := CReads.call h1.2 pre (bs.flatMap enc ++ rest)
    have hpos : ¬ (((b :: bs).flatMap enc).length : Int) ≤ 0 := by
      rw [List.flatMap_cons, List.length_append]; omega
    have step : rdBatches (fuel + 1) ((b :: bs).flatMap enc).length = _ := (rdBatches.eq_2 _ _).trans (if_neg hpos)
    rw [step]
    simp only [List.flatMap_cons, List.append_assoc, hb]
    have e1 : ((((enc b) ++ bs.flatMap enc).length : Nat) : Int) - (((pre.length + (enc b).length : Nat) : Int) - (pre.length : Int)) =
        ((bs.flatMap enc).length : Nat) := by rw [List.length_append]; omega
    simp only [e1, Cur.bind_def]
    rw [List.length_append, List.append_assoc] at ih
    rw [ih]
    simp only [List.length_append, List.map_cons, Cur.pure_def]
    congr 3
    omega

/-- one partition on the wire -/
def prodPWire (f : Bool) (recs : ProduceP → Bytes) (p : ProduceP) : Bytes :=
  Kafka.int32 p.partition.toInt ++ ((if f then Kafka.uvarint ((recs p).length + 1) else Kafka.int32 (recs p).length) ++
    (recs p ++ Kafka.flexTags f []))

/-- one topic on the wire -/
def prodTWire (f : Bool) (recs : ProduceP → Bytes) (t : ProduceT) : Bytes :=
  Kafka.flexString f t.topicName ++ (Kafka.flexArray f (prodPWire f recs) t.partitionBlocks ++ Kafka.flexTags f [])

/-- the request after the header -/
def prodWire (f : Bool) (recs : ProduceP → Bytes) (r : ProduceRequest) : Bytes :=
  Kafka.flexNullable f r.transactionalID ++ (Kafka.int16 r.requiredAcks.toInt ++ (Kafka.int32 r.timeout.toInt ++
    (Kafka.flexArray f (prodTWire f recs) r.topicBlocks ++ Kafka.flexTags f [])))

theorem writeCount_eq (f : Bool) (n : Nat) (h : n < 2 ^ 31) :
    writeCount f n = .ok (if f then Kafka.uvarint (n + 1) else Kafka.int32 n) := by
  cases f
  · simp only [writeCount, Bool.false_eq_true, if_false, be32_ofNat]
  · exact writeCount_true n (by omega)

theorem writeTags_eq (f : Bool) : writeTags f = .ok (Kafka.flexTags f []) := by
  cases f
  · rfl
  · simp only [writeTags, if_true, noTags_encode, Kafka.flexTags]

theorem flexArray_eq {α : Type} (f : Bool) (enc : α → Bytes) (xs : List α) : Kafka.flexArray f enc xs =
    (if f then Kafka.uvarint (xs.length + 1) else Kafka.int32 xs.length) ++ xs.flatMap enc := by
  cases f <;> simp [Kafka.flexArray, Kafka.array, Kafka.compactArray]

theorem flexString_write {β : Type} (f : Bool) (s : Bytes) (h : s.length < 2 ^ 63) (k : Bytes → Out β) :
    (if f = true then (writeCompactString s >>= k) else (Out.ok (writeString s) >>= k)) = k (Kafka.flexString f s) := by
  cases f
  · simp only [Bool.false_eq_true, if_false, writeString_eq]; rfl
  · simp only [if_true, writeCompactString_eq _ h]; rfl

theorem flexNullable_write {β : Type} (f : Bool) (s : Option Bytes) (h : ∀ b, s = some b → b.length < 2 ^ 63) (k : Bytes → Out β) :
    (if f = true then (writeCompactNullableString s >>= k) else (Out.ok (writeNullableString s) >>= k)) =
      k (Kafka.flexNullable f s) := by
  cases f
  · simp only [Bool.false_eq_true, if_false, writeNullableString_eq]; rfl
  · simp only [if_true, writeCompactNullableString_eq _ h]; rfl

/-- Everything in the request can be written. -/
structure ProduceRequest.Writable (recs : ProduceP → Bytes) (compress : Int8 → Bytes → Out Bytes) (r : ProduceRequest) : Prop where
  batches : ∀ t ∈ r.topicBlocks, ∀ p ∈ t.partitionBlocks, encodeBatches compress p.recordBatches = .ok (recs p) ∧ (recs p).length < 2 ^ 31
  topics : ∀ t ∈ r.topicBlocks, Kafka.IsString t.topicName ∧ t.partitionBlocks.length < 2 ^ 31
  count : r.topicBlocks.length < 2 ^ 31
  tid : ∀ b, r.transactionalID = some b → Kafka.IsString b

theorem produce_bytes (compress : Int8 → Bytes → Out Bytes) (recs : ProduceP → Bytes) (r : ProduceRequest) (h : r.Writable recs compress)
    (v : UInt16) (corr : UInt32) (cid : Option Bytes) (hc : ShortId cid) :
    r.encode compress (reqHeader API_ProduceRequest v corr cid) = .ok (Kafka.request .produce v.toNat corr.toNat cid
      (prodWire (Kafka.Api.flexible .produce v.toNat) recs r)) := by
  have hf := reqHeader_flexible .produce API_ProduceRequest v corr cid rfl
  generalize hff : Kafka.Api.flexible .produce v.toNat = f at hf
  have hp : ∀ t ∈ r.topicBlocks, ∀ p ∈ t.partitionBlocks, p.encode compress f = .ok (prodPWire f recs p) := by
    intro t ht p hp
    unfold ProduceP.encode
    rw [(h.batches t ht p hp).1]
    simp only [Out.bind_ok, writeCount_eq f _ (h.batches t ht p hp).2, writeTags_eq, be32_eq, List.append_assoc, prodPWire]
    rfl
  have ht : ∀ t ∈ r.topicBlocks, t.encode compress f = .ok (prodTWire f recs t) := by
    intro t ht
    have hs := (h.topics t ht).1
    unfold Kafka.IsString at hs
    unfold ProduceT.encode
    have e := encodeEach_eq (f := ProduceP.encode compress f) (g := prodPWire f recs) (k := id) t.partitionBlocks (hp t ht)
    have en := flexString_write (β := Bytes) f t.topicName (by omega)
    simp only [en, e]
    simp only [Out.bind_ok, writeCount_eq f _ (h.topics t ht).2, writeTags_eq, prodTWire, flexArray_eq, List.append_assoc, List.map_id]
    rfl
  have e := encodeEach_eq (f := ProduceT.encode compress f) (g := prodTWire f recs) (k := id) r.topicBlocks ht
  have hw := (C07_request_header .produce v corr cid none [] hc (by simp) (by simp)).2.1
  have hw' : (reqHeader API_ProduceRequest v corr cid).writeTo =
    .ok (hdr .produce v corr cid, (hdr .produce v corr cid).length) := hw
  have en := flexNullable_write (β := Bytes) f r.transactionalID fun b hb => by
    have := h.tid b hb; unfold Kafka.IsString at this; omega
  unfold ProduceRequest.encode
  rw [hf, hw']
  refine (en _).trans ?_
  simp only [Out.bind_ok, e, writeCount_eq f _ h.count, writeTags_eq, be16_eq, be32_eq, List.append_assoc]
  rw [patch_ok]
  simp only [Kafka.request, prodWire, flexArray_eq, List.append_assoc, List.map_id, hdr]

theorem sreads_produceP (f : Bool) (recs : ProduceP → Bytes) (seen : RecordBatch → RecordBatch) (enc : RecordBatch → Bytes) (p : ProduceP)
    (hr : recs p = p.recordBatches.flatMap enc)
    (hb : ∀ b ∈ p.recordBatches, 0 < (enc b).length ∧ Reads decodeToRecordBatch (enc b) (seen b)) :
    SReads (rdProduceP f) (prodPWire f recs p) { p with recordBatches := p.recordBatches.map seen } := by
  unfold rdProduceP prodPWire
  refine SReads.bind (sreads_i32 _) ?_
  intro hl pre rest
  have hlen : (recs p).length < 2 ^ 31 := by simp only [List.length_append] at hl; omega
  have e : (Int32.ofInt (recs p).length).toInt = (recs p).length :=
    Int32.toInt_ofInt_of_le (by omega) (by omega)
  have hle : ∀ bs : List RecordBatch, (∀ b ∈ bs, 0 < (enc b).length) → bs.length ≤ (bs.flatMap enc).length := by
    intro bs h
    induction bs with
    | nil => simp
    | cons b bs ih =>
      have := h b (by simp)
      have := ih fun x hx => h x (by simp [hx])
      simp only [List.flatMap_cons, List.length_append, List.length_cons]; omega
  have hbs := creads_batches enc seen p.recordBatches hb (recs p).length (by rw [hr]; exact hle _ fun b hx => (hb b hx).1)
  rw [← hr] at hbs
  refine SReads.bind (sreads_flexCount f _ hlen) ?_ hl pre rest
  rw [e, Int.toNat_natCast]
  exact SReads.bind hbs.s ((sreads_flexTags (f := f) (t := none) ⟨by simp, by simp⟩).bind_pure (g := fun _ => _))

theorem sreads_makeCount' (f : Bool) (n : Nat) (h : n < 2 ^ 31) :
    SReads (rdMakeCount f) (if f then Kafka.uvarint (n + 1) else Kafka.int32 n) (n : Int) := by
  cases f with
  | true => exact sreads_makeCount n h
  | false =>
    have := (CReads.bind_pure (g := fun n : UInt32 => (n.toNat : Int)) (creads_u32 (UInt32.ofNat n))).s
    refine this.cast ?_ ?_
    · rw [← be32_toNat, be32_ofNat]; rfl
    · show (((UInt32.ofNat n).toNat : Nat) : Int) = n
      rw [UInt32.toNat_ofNat_of_lt' (by simp [UInt32.size]; omega)]

theorem sreads_makeArr {α β γ : Type} {c : Cur β} {enc : α → Bytes} {body : List β → Cur γ} {tail : Bytes} {out : γ}
    (f : Bool) (k : α → β) (xs : List α) (hn : xs.length < 2 ^ 31) (h : ∀ x ∈ xs, SReads c (enc x) (k x))
    (hb : SReads (body (xs.map k)) tail out) :
    SReads (rdMakeCount f >>= fun n => Cur.forInt n c >>= body) (Kafka.flexArray f enc xs ++ tail) out := by
  rw [flexArray_eq, List.append_assoc]
  exact SReads.bind (sreads_makeCount' f _ hn) (SReads.bind (sreads_forInt rfl (SReads.forN xs h)) hb)

/-- C133, produce: a produce request of uncompressed batches is read back as it was written: the topics, the partitions, the
batches and the records, in order.  (Versions 1 and 2 too, though nothing asks for them.)  Not shown, because it is not so:
compressed batches, see the next theorem.
Missing: compressed batches (`C133_violated_produce_compressed`). -/
theorem C133_produce_partial (compress : Int8 → Bytes → Out Bytes) (r : ProduceRequest)
    (hplain : ∀ t ∈ r.topicBlocks, ∀ p ∈ t.partitionBlocks, ∀ b ∈ p.recordBatches, b.Plain)
    (hnames : ∀ t ∈ r.topicBlocks, Kafka.IsString t.topicName) (htid : ∀ b, r.transactionalID = some b → Kafka.IsString b)
    (hcount : r.topicBlocks.length < 2 ^ 31 ∧ ∀ t ∈ r.topicBlocks, t.partitionBlocks.length < 2 ^ 31)
    (hsize : ∀ t ∈ r.topicBlocks, ∀ p ∈ t.partitionBlocks, ∀ bs, encodeBatches compress p.recordBatches = .ok bs → bs.length < 2 ^ 31)
    (v : UInt16) (corr : UInt32) (cid : Option Bytes) (hc : ShortId cid) :
    ∃ bs, r.encode compress (reqHeader API_ProduceRequest v corr cid) = .ok bs ∧ (bs.length < 2 ^ 31 →
      ∃ h got, decodeProduceRequest bs = .ok (h, got) ∧ got.content = r.content ∧
        SameRequest h (reqHeader API_ProduceRequest v corr cid)) := by
  obtain ⟨enc, seen, hes⟩ := plain_reads compress
  let recs : ProduceP → Bytes := fun p => p.recordBatches.flatMap enc
  have hw : r.Writable recs compress := by
    refine ⟨fun t ht p hp => ?_, fun t ht => ⟨hnames t ht, hcount.2 t ht⟩, hcount.1, htid⟩
    have := encodeBatches_eq compress enc p.recordBatches fun b hb => (hes b (hplain t ht p hp b hb)).1
    exact ⟨this, hsize t ht p hp _ this⟩
  refine ⟨_, produce_bytes compress recs r hw v corr cid hc, fun hl => ?_⟩
  let kp : ProduceP → ProduceP := fun p => { p with recordBatches := p.recordBatches.map seen }
  let kt : ProduceT → ProduceT := fun t => { t with partitionBlocks := t.partitionBlocks.map kp }
  refine ⟨readHeader .produce API_ProduceRequest v corr cid, { r with topicBlocks := r.topicBlocks.map kt }, ?_, ?_, readHeader_same ..⟩
  · unfold decodeProduceRequest
    rw [respondWrap_eq _ _ hl]
    refine respond_request (key := API_ProduceRequest) rfl hc ?_ hl
    rw [readHeader_flex]
    generalize Kafka.Api.flexible .produce v.toNat = f
    unfold prodWire
    refine SReads.bind (sreads_flexNullable fun _ => htid) (SReads.bind (sreads_i16 _) (SReads.bind (sreads_i32 _) ?_))
    refine sreads_makeArr f kt r.topicBlocks hcount.1 (fun t ht => ?_)
      ((sreads_flexTags (f := f) (t := none) ⟨by simp, by simp⟩).bind_pure (g := fun _ => _))
    unfold rdProduceT prodTWire
    refine SReads.bind (sreads_flexString fun _ => hnames t ht) ?_
    refine sreads_makeArr f kp t.partitionBlocks (hcount.2 t ht) (fun p hp => ?_)
      ((sreads_flexTags (f := f) (t := none) ⟨by simp, by simp⟩).bind_pure (g := fun _ => _))
    exact sreads_produceP f recs seen enc p rfl fun b hb => (hes b (hplain t ht p hp b hb)).2.imp id And.left
  · unfold ProduceRequest.content
    simp only [List.map_map]
    congr 1
    refine List.map_congr_left fun t ht => ?_
    simp only [Function.comp, ProduceT.content, kt, List.map_map]
    congr 1
    refine List.map_congr_left fun p hp => ?_
    simp only [Function.comp, ProduceP.content, kp, List.map_map]
    congr 1
    exact List.map_congr_left fun b hb => (hes b (hplain t ht p hp b hb)).2.2.2

/-- two topics, three partitions, two batches in one of them -/
def produceSeveral : ProduceRequest :=
  ⟨none, -1, 3000, [⟨[116], [⟨0, [{ magic := 2, records := [{ key := some [107], value := some [118] }, { offsetDelta := 1 }] },
    { magic := 2, records := [{ value := some [] }] }]⟩, ⟨2, [{ magic := 2 }]⟩]⟩, ⟨[117], [⟨1, []⟩]⟩]⟩

example : (∀ t ∈ produceSeveral.topicBlocks, ∀ p ∈ t.partitionBlocks, ∀ b ∈ p.recordBatches, b.Plain) ∧
    (∀ v ∈ [0, 9], (produceSeveral.encode (fun _ b => .ok b) (reqHeader API_ProduceRequest v 7 (some [99]))).okAnd
      (fun bs => (decodeProduceRequest bs).okAnd fun x => decide (x.2 ≠ produceSeveral ∧ x.2.content = produceSeveral.content)) = true) := by
  refine ⟨?_, by decide +kernel⟩
  intro t ht p hp b hb
  simp only [produceSeveral, List.mem_cons, List.not_mem_nil, or_false] at ht
  rcases ht with rfl | rfl <;> simp at hp
  · rcases hp with rfl | rfl <;> simp at hb
    · rcases hb with rfl | rfl <;> constructor <;> simp <;> decide
    · subst hb; constructor <;> simp
  · subst hp; simp at hb

/-- what gzip makes of the record -/
def zipped : Bytes := [31, 139, 8, 0, 0, 0, 0, 0, 2, 3, 227, 99, 96, 96, 96, 100, 42, 99, 0, 0, 32, 160, 245, 178, 8, 0, 0, 0]

/-- C133 fails for compressed batches, which `Decode` takes for uncompressed: reading back a batch compressed with gzip panics. -/
theorem C133_violated_produce_compressed : ∃ (compress : Int8 → Bytes → Out Bytes) (r : ProduceRequest),
    compress 1 [14, 0, 0, 0, 1, 2, 118, 0] = .ok zipped ∧
    ∃ bs, r.encode compress (reqHeader API_ProduceRequest 9 7 (some [99])) = .ok bs ∧ bs.length < 2 ^ 31 ∧
      decodeProduceRequest bs = .panic := by
  let r : ProduceRequest := ⟨none, -1, 3000, [⟨[116], [⟨0, [{ magic := 2, attributes := 1, records := [{ value := some [118] }] }]⟩]⟩]⟩
  have h : (r.encode (fun _ _ => .ok zipped) (reqHeader API_ProduceRequest 9 7 (some [99]))).okAnd
      (fun bs => decide (bs.length < 2 ^ 31 ∧ decodeProduceRequest bs = .panic)) = true := by decide +kernel
  refine ⟨fun _ _ => .ok zipped, r, rfl, ?_⟩
  generalize r.encode _ _ = o at h
  cases o with
  | ok bs => exact ⟨bs, rfl, by simpa [Out.okAnd] using h⟩
  | err e => simp [Out.okAnd] at h
  | panic => simp [Out.okAnd] at h

end Healer
