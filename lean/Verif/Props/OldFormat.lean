import Verif.Lemmas.FetchLegacy
import Verif.Props.Fetch

/-!
# C169: messages of the old formats (0 and 1)

Brokers keep messages in the format they were written in, and hand them out like that; after the
message format of a topic was raised, a response can hold messages of the old formats followed by batches.
-/

namespace Kafka

/-- What the user is to see of a message of format 0 or 1; format 0 has no timestamp. -/
def storedOld (m : LegacyMessage) : Stored :=
  { offset := m.offset, timestamp := if m.magic = 1 then m.timestamp else 0, key := m.key.getD [], value := m.value.getD [],
    headers := [] }

end Kafka

namespace Healer

theorem seen_old (m : Kafka.LegacyMessage) (hm : OldFits m) : (goMessage m).seen = Kafka.storedOld m := by
  have h1 := hm.fits.offset
  have h2 := hm.time
  unfold goMessage Message.seen Kafka.storedOld
  simp only [Kafka.Stored.mk.injEq, List.map_nil, and_true]
  refine ⟨Int64.toInt_ofInt_of_le (by omega) (by omega), ?_⟩
  by_cases h : m.magic = 1
  · rw [if_pos h, if_pos h]
    simp only [Int64.toInt64_toUInt64]
    exact Int64.toInt_ofInt_of_le (by omega) (by omega)
  · rw [if_neg h, if_neg h]; rfl

/-- The response and what follows it lie in the first chunk. -/
structure InOne (env : FetchEnv) (h : Kafka.FetchHeader) (topic : Bytes) (p : Kafka.FetchPartition) (rest : Bytes)
    (s : SD) : Prop where
  wire : OnWire env h topic p rest s
  one : s.rd.chunks = [Kafka.fetchResponse env.version.toNat h [(topic, [p])] ++ rest]

/-- The state after the headers when the rest of the response comes in the chunks `(c :: cs)`. -/
theorem OnWire.skip {env : FetchEnv} {h : Kafka.FetchHeader} {topic : Bytes} {p : Kafka.FetchPartition} {rest : Bytes}
    {s : SD} (w : OnWire env h topic p rest s) (hpos : p.data ≠ []) (c : Bytes) (cs : List Bytes)
    (hc : s.rd.chunks = (oneHead env.version h topic p ++ c) :: cs) :
    ∃ s1, s1.rd.chunks = c :: cs ∧ (s1.avail = p.data ∧ s1.rd.limit = p.data.length ∧ s1.rd.flat = p.data ++ rest ∧ s1.Whole ∧
        s1.hasOne = false ∧ s1.delivered = s.delivered) ∧ (Int32.ofInt p.data.length).toInt = p.data.length ∧
      (Int32.ofInt p.partition).toInt = p.partition ∧
      streamDecode env s = finishOne env (decodeMessageSet env topic (Int32.ofInt p.partition) (Int32.ofInt p.data.length) s1) := by
  have hb := w.bytes
  have hl := w.limit
  have hsz := w.size
  have hp := w.partition
  rw [fetchResponse_one] at hb hl
  have hll : (oneHead env.version h topic p).length ≤ s.rd.limit := by rw [hl, List.length_append]; omega
  have h2 := streamDecode_skip env w.version h topic w.name p w.aborted w.noError s c cs hc hll
  have h1 := skip_avail { s with offset := 0, hasOne := false } (oneHead env.version h topic p) c cs hc hll
  have hlen : 0 < p.data.length := List.length_pos_iff.2 hpos
  have hi : (Int32.ofInt p.data.length).toInt = p.data.length := Int32.toInt_ofInt_of_le (by omega) (by omega)
  refine ⟨_, rfl, afterHead hb hl h1, hi, Int32.toInt_ofInt_of_le (by omega) (by omega), ?_⟩
  rw [h2, if_neg (by
    rw [Int32.le_iff_toInt_le, hi]
    show ¬ ((p.data.length : Int) ≤ 0)
    omega)]

theorem legacySet_ne_nil (m : Kafka.LegacyMessage) (ms : List Kafka.LegacyMessage) : Kafka.legacyMessageSet (m :: ms) ≠ [] := by
  intro h
  have := congrArg List.length h
  unfold Kafka.legacyMessageSet at this
  rw [List.flatMap_cons, List.length_append, old_length] at this
  simp at this

theorem seen_olds (ms : List Kafka.LegacyMessage) (hms : ∀ m ∈ ms, OldFits m) :
    (ms.map goMessage).map Message.seen = ms.map Kafka.storedOld := by
  rw [List.map_map]
  apply List.map_congr_left
  intro m hm
  exact seen_old m (hms m hm)

/-- C169, for a response that holds complete uncompressed messages of formats 0 and 1 and is handed out by the
network in one piece: the consumer is handed exactly the stored messages from the requested offset on, each once and in
order, with the stored offset, timestamp, key and value, and the connection is left at the next response.
If there is no such message it is handed the error "maximum fetch size too small" instead.
Missing for the full statement: responses handed out in several pieces, for which it fails
(`C18_violated_every_old_zeros`, `C18_violated_every_old_lost`), and batches after the messages, for which it fails
(`C169_violated_every_mixed`). -/
theorem C169_old_delivery_partial (env : FetchEnv) (hacc : ∀ n, env.accept n = true) (hf : 2 ≤ env.legacyFuel)
    (m : Kafka.LegacyMessage) (ms : List Kafka.LegacyMessage) (hms : ∀ x ∈ m :: ms, OldFits x)
    (h : Kafka.FetchHeader) (topic : Bytes) (p : Kafka.FetchPartition) (hdata : p.data = Kafka.legacyMessageSet (m :: ms))
    (rest : Bytes) (s : SD) (w : InOne env h topic p rest s) :
    ∃ s' fs, streamDecode env s = .ok () s' ∧ s'.delivered = s.delivered ++ fs ∧ s'.rd.flat = rest ∧ s'.rd.limit = 0 ∧
      (let want := expected topic p.partition env.startOffset.toInt ((m :: ms).map Kafka.storedOld)
       if want = [] then fs = [⟨[], -1, some .maxBytesTooSmall, none⟩] else fs.map FullMessage.seen = want.map some) := by
  have hc := w.one
  rw [fetchResponse_one, hdata, List.append_assoc] at hc
  obtain ⟨s1, hch, ⟨a1, a2, a3, a4, a5, a6⟩, hi, hpid, hdec⟩ := w.wire.skip (by rw [hdata]; exact legacySet_ne_nil m ms) _ _ hc
  rw [hdec]
  have hsize : 0 < (Int32.ofInt p.data.length).toInt := by
    rw [hi, hdata]
    have := List.length_pos_iff.2 (legacySet_ne_nil m ms)
    omega
  obtain ⟨n, hn, hloop⟩ := messageSet_old env hacc hf topic (Int32.ofInt p.partition) m ms hms
    (Int32.ofInt p.data.length).toInt s1.rd.limit s1 rest [] hch (by rw [a2, hdata]; exact Nat.le_refl _) hsize
  obtain ⟨k, rfl⟩ : ∃ k, n = k + 1 := ⟨n - 1, by omega⟩
  generalize hfs : wanted env topic (Int32.ofInt p.partition) ((m :: ms).map goMessage) = fs at hloop
  have hlim : ((s1.skip (Kafka.legacyMessageSet (m :: ms)) rest []).deliver fs).rd.limit = 0 := by
    show s1.rd.limit - _ = 0
    rw [a2, hdata]; omega
  have hend : messageSetLoop env topic (Int32.ofInt p.partition) (Int32.ofInt p.data.length).toInt (s1.rd.limit + 1) 0 s1
      = .err .eof ((s1.skip (Kafka.legacyMessageSet (m :: ms)) rest []).deliver fs) := by
    rw [hloop, FM.bind_def, legacyLoop, FM.bind_def, fetchRead_end 12 (by omega) _ hlim]
    rfl
  obtain ⟨s', k1, k2, k3⟩ := finishOne_endsAt env hacc topic (Int32.ofInt p.partition) (Int32.ofInt p.data.length) s1
    (s1.skip (Kafka.legacyMessageSet (m :: ms)) rest []) a5 a5 fs (Or.inr hend)
  obtain ⟨d1, d2⟩ := drain_rest (s := s1.skip (Kafka.legacyMessageSet (m :: ms)) rest []) (data := []) (rest := rest)
    (by simp [SD.skip, Rdr.flat]) hlim
  refine ⟨s', _, k1, by rw [k2]; show s1.delivered ++ _ = _; rw [a6], by rw [k3, d1], by rw [k3, d2], ?_⟩
  have h1 := seen_wanted env topic (Int32.ofInt p.partition) ((m :: ms).map goMessage)
  have h2 := wanted_nil_iff env topic (Int32.ofInt p.partition) ((m :: ms).map goMessage)
  rw [seen_olds _ hms, hpid, hfs] at h1 h2
  by_cases hw : expected topic p.partition env.startOffset.toInt ((m :: ms).map Kafka.storedOld) = []
  · simp only [if_pos hw, if_pos (h2.2 hw)]
  · simp only [if_neg hw, if_neg (fun hh => hw (h2.1 hh))]
    exact h1

/-! ## What follows the messages is not a message -/

theorem creads_step {α β : Type} {m : Cur α} {f : α → Cur β} {e : Bytes} {a : α} (h : CReads m e a) (p : Bytes) (off : Int)
    (pre rest : Bytes) (hp : p = pre ++ (e ++ rest)) (ho : off = pre.length) : (m >>= f) p off = f a p (pre ++ e).length := by
  subst hp ho
  rw [Cur.bind_def, h pre rest, List.length_append]

theorem rdLegacyBytes_crash (l : Int32) (h : l ≠ -1) (p : Bytes) (off : Int) (pre rest : Bytes)
    (hp : p = pre ++ (Kafka.int32 l.toInt ++ rest)) (ho : off = pre.length)
    (hbig : l.toInt < 0 ∨ (rest.length : Int) < l.toInt) : rdLegacyBytes p off = .panic := by
  unfold rdLegacyBytes
  refine (creads_step (creads_int32 l) p off pre rest hp ho).trans ?_
  unfold Cur.cond
  rw [if_pos h, Cur.bind_def]
  unfold rdBytes sliceTo
  rw [if_neg]
  subst hp
  simp only [List.length_append, int32_length]
  omega

/-- The checksum and the first byte of the attributes of a batch, taken for the attributes and the length of the key of a message. -/
def asKeyLength (y : Kafka.Packed) : Int := (y.crc % 2 ^ 24 * 256 : Nat)

theorem crc_as_key (y : Kafka.Packed) (ha : 0 ≤ y.batch.attributes ∧ y.batch.attributes < 256) :
    ∃ b lo : UInt8, Kafka.int32 y.crc ++ Kafka.int16 y.batch.attributes = [b] ++ (Kafka.int32 (asKeyLength y) ++ [lo]) := by
  refine ⟨UInt8.ofNat (y.crc / 2 ^ 24), UInt8.ofNat y.batch.attributes.toNat, ?_⟩
  have hat : (y.batch.attributes % 2 ^ 16).toNat = y.batch.attributes.toNat := by omega
  have hc : ((y.crc : Int) % 2 ^ 32).toNat = y.crc % 2 ^ 32 := by omega
  have hk : (asKeyLength y % 2 ^ 32).toNat = y.crc % 2 ^ 24 * 256 := by unfold asKeyLength; omega
  unfold Kafka.int32 Kafka.int16
  rw [hat, hc, hk]
  have h4 : ∀ v, Kafka.be 4 v = [UInt8.ofNat (v / 256 ^ 3), UInt8.ofNat (v / 256 ^ 2), UInt8.ofNat (v / 256 ^ 1),
    UInt8.ofNat (v / 256 ^ 0)] := fun _ => rfl
  have h2 : ∀ v, Kafka.be 2 v = [UInt8.ofNat (v / 256 ^ 1), UInt8.ofNat (v / 256 ^ 0)] := fun _ => rfl
  have hu : ∀ a b : Nat, a % 256 = b % 256 → UInt8.ofNat a = UInt8.ofNat b := by
    intro a b hab
    apply UInt8.toNat_inj.1
    rw [UInt8.toNat_ofNat', UInt8.toNat_ofNat']
    exact hab
  rw [h4, h4, h2]
  simp only [List.cons_append, List.nil_append, List.cons.injEq, and_true]
  exact ⟨hu _ _ (by omega), hu _ _ (by omega), hu _ _ (by omega), hu _ _ (by omega), hu _ _ (by omega), hu _ _ (by omega)⟩

/-- Whether the checksum of a batch, taken for the length of a key, exceeds the batch.  It does unless
the lower 24 bits of the checksum are less than a 256th of the size of the batch. -/
def TooLong (y : Kafka.Packed) : Prop := y.payload.length + 39 < y.crc % 2 ^ 24 * 256

theorem batch_as_message (y : Kafka.Packed) (ha : 0 ≤ y.batch.attributes ∧ y.batch.attributes < 256) (hy : TooLong y) :
    rdLegacyMessage (Kafka.packed y) 0 = .panic := by
  obtain ⟨b, lo, hb⟩ := crc_as_key y ha
  obtain ⟨R, hR, hRl⟩ : ∃ R : Bytes, Kafka.packed y = Kafka.int64 y.batch.baseOffset ++ (Kafka.int32 (y.payload.length + 49 : Nat) ++
      (Kafka.int32 y.batch.partitionLeaderEpoch ++ (Kafka.int8 2 ++ ([b] ++ (Kafka.int32 (asKeyLength y) ++ R))))) ∧
      R.length = y.payload.length + 39 := by
    refine ⟨[lo] ++ (Kafka.int32 y.batch.lastOffsetDelta ++ (Kafka.int64 y.batch.baseTimestamp ++
      (Kafka.int64 y.batch.maxTimestamp ++ (Kafka.int64 y.batch.producerId ++ (Kafka.int16 y.batch.producerEpoch ++
        (Kafka.int32 y.batch.baseSequence ++ (Kafka.int32 y.batch.records.length ++ y.payload))))))), ?_, by simp; omega⟩
    have : ∀ T : Bytes, [b] ++ (Kafka.int32 (asKeyLength y) ++ ([lo] ++ T)) = Kafka.int32 y.crc ++ (Kafka.int16 y.batch.attributes ++ T) := by
      intro T
      rw [← List.append_assoc (Kafka.int32 y.crc), hb]
      simp only [List.append_assoc]
    rw [this, packed_eq]
    unfold packHead batchFixed
    simp only [List.append_assoc]
    rfl
  have hl : (Int32.ofInt (asKeyLength y)).toInt < 0 ∨ (R.length : Int) < (Int32.ofInt (asKeyLength y)).toInt := by
    unfold TooLong at hy
    rw [Int32.toInt_ofInt]
    have h0 : asKeyLength y = ((y.crc % 2 ^ 24 * 256 : Nat) : Int) := rfl
    have hlt : y.crc % 2 ^ 24 * 256 < 2 ^ 32 := by omega
    rw [h0]
    simp only [Int32.size, Int.bmod_def]
    omega
  have hne : Int32.ofInt (asKeyLength y) ≠ -1 := by
    intro hh
    have h1 := congrArg Int32.toInt hh
    rw [Int32.toInt_ofInt] at h1
    have h0 : asKeyLength y = ((y.crc % 2 ^ 24 * 256 : Nat) : Int) := rfl
    have h2 : (-1 : Int32).toInt = -1 := by decide
    rw [h0, h2] at h1
    simp only [Int32.size, Int.bmod_def] at h1
    omega
  have hkl : Kafka.int32 (asKeyLength y) = Kafka.int32 (Int32.ofInt (asKeyLength y)).toInt := by
    unfold Kafka.int32
    congr 2
    rw [Int32.toInt_ofInt]
    simp only [Int32.size]
    exact Int.bmod_emod.symm
  have hep : Kafka.int32 y.batch.partitionLeaderEpoch = Kafka.int32 (UInt32.ofNat (y.batch.partitionLeaderEpoch % 2 ^ 32).toNat).toNat := by
    unfold Kafka.int32
    congr 1
    rw [UInt32.toNat_ofNat']
    omega
  rw [hkl, hep] at hR
  have hm : Kafka.int8 2 = [(2 : Int8).toUInt8] := by decide
  rw [hm] at hR
  generalize hB : Kafka.int64 y.batch.baseOffset = B at hR
  generalize hN : Kafka.int32 (y.payload.length + 49 : Nat) = N at hR
  generalize hE : Kafka.int32 (UInt32.ofNat (y.batch.partitionLeaderEpoch % 2 ^ 32).toNat).toNat = E at hR
  generalize hK : Kafka.int32 (Int32.ofInt (asKeyLength y)).toInt = K at hR
  have c1 := creads_int64' y.batch.baseOffset
  have c2 := creads_ilen32 (y.payload.length + 49)
  have c3 := creads_u32 (UInt32.ofNat (y.batch.partitionLeaderEpoch % 2 ^ 32).toNat)
  have c5 := reads_rdI8 b.toInt8
  rw [hB] at c1
  rw [hN] at c2
  rw [hE] at c3
  rw [UInt8.toUInt8_toInt8] at c5
  unfold rdLegacyMessage
  refine (creads_step c1 _ 0 [] (N ++ (E ++ ([(2 : Int8).toUInt8] ++ ([b] ++ (K ++ R))))) (by rw [hR]; rfl) rfl).trans ?_
  refine (creads_step c2 _ _ ([] ++ B) (E ++ ([(2 : Int8).toUInt8] ++ ([b] ++ (K ++ R)))) (by rw [hR]; rfl) rfl).trans ?_
  refine (creads_step c3 _ _ (([] ++ B) ++ N) ([(2 : Int8).toUInt8] ++ ([b] ++ (K ++ R))) (by
    rw [hR]; simp only [List.nil_append, List.append_assoc]) rfl).trans ?_
  refine (creads_step (reads_rdI8 2) _ _ ((([] ++ B) ++ N) ++ E) ([b] ++ (K ++ R)) (by
    rw [hR]; simp only [List.nil_append, List.append_assoc]) rfl).trans ?_
  refine (creads_step c5 _ _ (((([] ++ B) ++ N) ++ E) ++ [(2 : Int8).toUInt8]) (K ++ R) (by
    rw [hR]; simp only [List.nil_append, List.append_assoc]) rfl).trans ?_
  refine (creads_step (e := []) (a := 0) (by
    unfold Cur.cond
    rw [if_neg (by decide)]
    exact CReads.pure 0) _ _ ((((([] ++ B) ++ N) ++ E) ++ [(2 : Int8).toUInt8]) ++ [b]) (K ++ R) (by
    rw [hR]; simp only [List.nil_append, List.append_assoc]) rfl).trans ?_
  rw [Cur.bind_def, rdLegacyBytes_crash (Int32.ofInt (asKeyLength y)) hne _ _
    (((((([] ++ B) ++ N) ++ E) ++ [(2 : Int8).toUInt8]) ++ [b]) ++ []) R (by
      rw [hR, hK]; simp only [List.nil_append, List.append_assoc]) rfl hl]

/-- Everything up to the messages, and the messages. -/
theorem start_old (env : FetchEnv) (hacc : ∀ n, env.accept n = true) (hf : 2 ≤ env.legacyFuel)
    (m : Kafka.LegacyMessage) (ms : List Kafka.LegacyMessage) (hms : ∀ x ∈ m :: ms, OldFits x)
    (h : Kafka.FetchHeader) (topic : Bytes) (p : Kafka.FetchPartition) (more : Bytes)
    (hdata : p.data = Kafka.legacyMessageSet (m :: ms) ++ more) (rest : Bytes) (s : SD) (w : OnWire env h topic p rest s)
    (c : Bytes) (cs : List Bytes)
    (hc : s.rd.chunks = (oneHead env.version h topic p ++ (Kafka.legacyMessageSet (m :: ms) ++ c)) :: cs) :
    ∃ (s1 : SD) (n fuel : Nat) (fs : List FullMessage), fs = wanted env topic (Int32.ofInt p.partition) ((m :: ms).map goMessage) ∧ more.length < fuel ∧ more.length < n ∧
      s1.rd.chunks = c :: cs ∧ s1.rd.limit = more.length ∧ s1.rd.flat = more ++ rest ∧
      s1.delivered = s.delivered ∧ s1.hasOne = false ∧ (Int32.ofInt p.partition).toInt = p.partition ∧
      ∀ r, (do let o ← legacyLoop env topic (Int32.ofInt p.partition) n ((Kafka.legacyMessageSet (m :: ms)).length - 17)
               messageSetLoop env topic (Int32.ofInt p.partition) ((Kafka.legacyMessageSet (m :: ms)).length + more.length) fuel (17 + o))
            (s1.deliver fs) = r →
          streamDecode env s = finishOne env (FM.after (fun _ => r) messageSetFix s) := by
  have hne : p.data ≠ [] := by
    rw [hdata]
    intro hh
    exact legacySet_ne_nil m ms (List.append_eq_nil_iff.1 hh).1
  obtain ⟨s1, hch, ⟨a1, a2, a3, a4, a5, a6⟩, hi, hpid, hdec⟩ := w.skip hne _ _ hc
  have hpos := List.length_pos_iff.2 (legacySet_ne_nil m ms)
  have hlen : p.data.length = (Kafka.legacyMessageSet (m :: ms)).length + more.length := by rw [hdata, List.length_append]
  obtain ⟨n, hn, hloop⟩ := messageSet_old env hacc hf topic (Int32.ofInt p.partition) m ms hms
    (Int32.ofInt p.data.length).toInt s1.rd.limit s1 c cs hch (by omega) (by omega)
  refine ⟨s1.skip (Kafka.legacyMessageSet (m :: ms)) c cs, n, s1.rd.limit, _, rfl, by omega, by omega, rfl, ?_, ?_, a6, a5, hpid, ?_⟩
  · show s1.rd.limit - _ = _
    omega
  · have := (skip_avail s1 _ c cs hch (by omega)).flat
    rw [this, a3, hdata, List.append_assoc, List.drop_left]
  · intro r hr
    rw [hdec]
    unfold decodeMessageSet FM.after
    simp only
    rw [hloop]
    rw [hi, hlen]
    rw [show (((Kafka.legacyMessageSet (m :: ms)).length + more.length : Nat) : Int) = (Kafka.legacyMessageSet (m :: ms)).length + more.length by omega]
    rw [hr]

/-- C169 fails when a batch of the current format follows messages of the old formats: whatever they hold, the client takes the batch for another message
of the old format, takes the middle of the checksum for the length of a key, and crashes.  (Unless that number is, by
chance, not larger than the batch: one checksum in several thousand for batches of a megabyte.) -/
theorem C169_violated_every_mixed (env : FetchEnv) (hacc : ∀ n, env.accept n = true) (hf : 2 ≤ env.legacyFuel)
    (m : Kafka.LegacyMessage) (ms : List Kafka.LegacyMessage) (hms : ∀ x ∈ m :: ms, OldFits x)
    (y : Kafka.Packed) (ha : 0 ≤ y.batch.attributes ∧ y.batch.attributes < 256) (hy : TooLong y) (more : Bytes)
    (h : Kafka.FetchHeader) (topic : Bytes) (p : Kafka.FetchPartition)
    (hdata : p.data = Kafka.legacyMessageSet (m :: ms) ++ (Kafka.packed y ++ more))
    (rest : Bytes) (s : SD) (w : InOne env h topic p rest s) : streamDecode env s = .panic := by
  have hc := w.one
  rw [fetchResponse_one, hdata] at hc
  simp only [List.append_assoc] at hc
  obtain ⟨s1, n, fuel, fs, -, hfuel, hn, hch, hlim, -, -, -, -, hgo⟩ := start_old env hacc hf m ms hms h topic p _ hdata rest s w.wire _ _ hc
  obtain ⟨k, rfl⟩ : ∃ k, n = k + 1 := ⟨n - 1, by omega⟩
  have hsz := w.wire.size
  rw [hdata] at hsz
  simp only [List.length_append, packed_length] at hsz hlim
  obtain ⟨lead, main, hlm, hlead, hmain, hbe⟩ : ∃ lead main : Bytes, Kafka.packed y = lead ++ main ∧ lead.length = 12 ∧
      main.length = y.payload.length + 49 ∧ beAt 4 8 lead = y.payload.length + 49 := by
    refine ⟨Kafka.int64 y.batch.baseOffset ++ Kafka.int32 (y.payload.length + 49 : Nat), Kafka.int32 y.batch.partitionLeaderEpoch ++
      (Kafka.int8 2 ++ (batchFixed y.crc y.batch ++ y.payload)), ?_, by simp, ?_, ?_⟩
    · rw [packed_eq]; unfold packHead; simp only [List.append_assoc]; rfl
    · simp only [List.length_append, int32_length, int8_length, batchFixed_length]; omega
    · have := beAt_append 4 8 (Kafka.int64 y.batch.baseOffset) (Kafka.int32 (y.payload.length + 49 : Nat)) [] (by simp) (by simp)
      rw [List.append_nil] at this
      rw [this, beVal_int32]
      omega
  rw [hlm] at hch
  simp only [List.append_assoc] at hch
  have hcr : decodeToMessageSet env.compress env.legacyFuel (lead ++ main) = .panic := by
    obtain ⟨f, hf'⟩ : ∃ f, env.legacyFuel = f + 1 := ⟨env.legacyFuel - 1, by omega⟩
    unfold decodeToMessageSet
    have hl0 := packed_length y
    rw [hf', decodeMessagesFrom, ← hlm, if_neg (by omega), batch_as_message y ha hy]
  refine (hgo .panic ?_).trans ?_
  · rw [FM.bind_def, legacyLoop, FM.bind_def, fetchRead_chunk lead 12 hlead (s1.deliver fs) (main ++ (more ++ rest)) [] hch (by
      show 12 ≤ s1.rd.limit; omega)]
    simp only
    rw [hbe, FM.bind_def, fetchRead1_chunk main (more ++ rest) _ ((s1.deliver fs).skip lead (main ++ (more ++ rest)) []) []
      (by intro hh; rw [hh] at hmain; simp at hmain) rfl (by omega) (by
        show _ ≤ s1.rd.limit - lead.length; omega) (Or.inl hmain)]
    simp only
    rw [if_neg (by omega), hmain, Nat.sub_self, List.replicate_zero, List.append_nil, FM.bind_def]
    unfold putLegacy
    rw [hcr, FM.bind_def]
    rfl
  · rfl

/-! ## A last message that is not complete, or not yet there -/

end Healer

namespace Kafka

/-- The message with the last `r` bytes of its value replaced by zeros. -/
def zeroed (r : Nat) (x : LegacyMessage) : LegacyMessage :=
  { x with value := x.value.map fun v => v.take (v.length - r) ++ List.replicate r 0 }

end Kafka

namespace Healer

/-- The body up to the value. -/
def oldFront (x : Kafka.LegacyMessage) (v : Bytes) : Bytes :=
  Kafka.int8 x.magic ++ (Kafka.int8 x.attributes ++ ((if x.magic = 1 then Kafka.int64 x.timestamp else []) ++
    (Kafka.nullableBytes x.key ++ Kafka.int32 v.length)))

theorem oldBody_value (x : Kafka.LegacyMessage) (v : Bytes) (hv : x.value = some v) : Kafka.legacyBody x = oldFront x v ++ v := by
  unfold Kafka.legacyBody oldFront
  rw [hv]
  simp only [Kafka.nullableBytes, List.append_assoc]

theorem zeroed_length (v : Bytes) (r : Nat) (hr : r ≤ v.length) : (v.take (v.length - r) ++ List.replicate r (0 : UInt8)).length = v.length := by
  rw [List.length_append, List.length_take, List.length_replicate]
  omega

theorem zeroedBody (x : Kafka.LegacyMessage) (v : Bytes) (hv : x.value = some v) (r : Nat) (hr : r ≤ v.length) :
    Kafka.legacyBody (Kafka.zeroed r x) = oldFront x v ++ (v.take (v.length - r) ++ List.replicate r 0) := by
  rw [oldBody_value (Kafka.zeroed r x) (v.take (v.length - r) ++ List.replicate r 0) (by unfold Kafka.zeroed; rw [hv]; rfl)]
  unfold oldFront
  rw [zeroed_length v r hr]
  rfl

/-- The bytes of a message of which the last `r` have not come. -/
theorem cut_zeros (x : Kafka.LegacyMessage) (v : Bytes) (hv : x.value = some v) (r : Nat) (hr : r ≤ v.length) :
    (Kafka.legacyMessage x).take ((Kafka.legacyMessage x).length - r) ++ List.replicate r 0
      = oldLead x ++ (Kafka.int32 (Kafka.crc32 (Kafka.legacyBody x)).toNat ++ Kafka.legacyBody (Kafka.zeroed r x)) := by
  have hb : Kafka.legacyMessage x = (oldLead x ++ (Kafka.int32 (Kafka.crc32 (Kafka.legacyBody x)).toNat ++ oldFront x v)) ++ v := by
    have := oldBody_value x v hv
    unfold Kafka.legacyMessage oldLead
    generalize Kafka.legacyBody x = B at this ⊢
    rw [this]
    simp only [List.append_assoc]
  rw [zeroedBody x v hv r hr]
  have ht : (Kafka.legacyMessage x).take ((Kafka.legacyMessage x).length - r)
      = (oldLead x ++ (Kafka.int32 (Kafka.crc32 (Kafka.legacyBody x)).toNat ++ oldFront x v)) ++ v.take (v.length - r) := by
    generalize oldLead x ++ (Kafka.int32 (Kafka.crc32 (Kafka.legacyBody x)).toNat ++ oldFront x v) = P at hb
    rw [hb, List.length_append, show P.length + v.length - r = P.length + (v.length - r) by omega, List.take_length_add_append]
  rw [ht]
  simp only [List.append_assoc]

/-- What the client makes of it. -/
def zeroedMessage (r : Nat) (x : Kafka.LegacyMessage) : Message :=
  { goMessage (Kafka.zeroed r x) with crc := Kafka.crc32 (Kafka.legacyBody x) }

theorem zeroed_fits (x : Kafka.LegacyMessage) (hx : OldFits x) (v : Bytes) (hv : x.value = some v) (r : Nat) (hr : r ≤ v.length) :
    OldFits (Kafka.zeroed r x) := by
  have hl : (Kafka.legacyMessage (Kafka.zeroed r x)).length = (Kafka.legacyMessage x).length := by
    rw [old_length, old_length, zeroedBody x v hv r hr, oldBody_value x v hv, List.length_append, zeroed_length v r hr,
      List.length_append]
  refine ⟨⟨hx.fits.offset, hx.fits.magic, hx.fits.attributes, hx.fits.key, ?_⟩, hx.format, hx.plain, hx.time, by rw [hl]; exact hx.size⟩
  intro b hb
  have : b = v.take (v.length - r) ++ List.replicate r 0 := by
    unfold Kafka.zeroed at hb
    rw [hv] at hb
    exact (Option.some.inj hb).symm
  rw [this, zeroed_length v r hr]
  exact hx.fits.value v hv

theorem zeroed_seen (x : Kafka.LegacyMessage) (hx : OldFits x) (v : Bytes) (hv : x.value = some v) (r : Nat) (hr : r ≤ v.length) :
    (zeroedMessage r x).seen = Kafka.storedOld (Kafka.zeroed r x) := seen_old _ (zeroed_fits x hx v hv r hr)

theorem creads_zeroed (x : Kafka.LegacyMessage) (hx : OldFits x) (v : Bytes) (hv : x.value = some v) (r : Nat) (hr : r ≤ v.length) :
    CReads rdLegacyMessage (oldLead x ++ (Kafka.int32 (Kafka.crc32 (Kafka.legacyBody x)).toNat ++ Kafka.legacyBody (Kafka.zeroed r x)))
      (zeroedMessage r x) := by
  have hs := (zeroed_fits x hx v hv r hr).fits
  have hlen : (Kafka.legacyBody x).length = (Kafka.legacyBody (Kafka.zeroed r x)).length := by
    rw [zeroedBody x v hv r hr, oldBody_value x v hv, List.length_append, List.length_append, zeroed_length v r hr]
  have hoff : x.offset = (Kafka.zeroed r x).offset := rfl
  unfold zeroedMessage oldLead
  generalize Kafka.crc32 (Kafka.legacyBody x) = crc
  rw [hlen, hoff]
  generalize Kafka.zeroed r x = z at hs
  have hw : Kafka.int64 z.offset ++ Kafka.int32 ((Kafka.legacyBody z).length + 4) ++ (Kafka.int32 crc.toNat ++ Kafka.legacyBody z)
      = Kafka.int64 z.offset ++ (Kafka.int32 (((Kafka.legacyBody z).length + 4 : Nat) : Int) ++
      (Kafka.int32 crc.toNat ++ (Kafka.int8 z.magic ++ (Kafka.int8 z.attributes ++
        ((if z.magic = 1 then Kafka.int64 z.timestamp else []) ++ (Kafka.nullableBytes z.key ++
          Kafka.nullableBytes z.value)))))) := by
    have : Kafka.legacyBody z = Kafka.int8 z.magic ++ (Kafka.int8 z.attributes ++
        ((if z.magic = 1 then Kafka.int64 z.timestamp else []) ++ (Kafka.nullableBytes z.key ++
          Kafka.nullableBytes z.value))) := by
      unfold Kafka.legacyBody; simp only [List.append_assoc]
    rw [← this]
    simp only [List.append_assoc]
    rfl
  rw [hw]
  unfold rdLegacyMessage
  refine CReads.bind (creads_int64' _) ?_
  refine CReads.bind (creads_ilen32 _) ?_
  refine CReads.bind (creads_u32 _) ?_
  refine CReads.bind (creads_int8' _ hs.magic) ?_
  refine CReads.bind (creads_int8' _ hs.attributes) ?_
  refine CReads.bind (CReads.cond' ?_ (fun _ => creads_u64' z.timestamp)) ?_
  · rw [← int8_toInt_eq_one]
    rw [show (Int8.ofInt z.magic).toInt = z.magic from ?_]
    rw [Int8.toInt_ofInt]
    have := hs.magic
    exact Int.bmod_eq_of_le (by simp only [Int8.size]; omega) (by simp only [Int8.size]; omega)
  refine CReads.bind (creads_legacyBytes _ hs.key) ?_
  exact CReads.bind_pure (creads_legacyBytes _ hs.value)

theorem putLegacy_zeroed (env : FetchEnv) (hacc : ∀ n, env.accept n = true) (hf : 2 ≤ env.legacyFuel) (topic : Bytes)
    (part : Int32) (x : Kafka.LegacyMessage) (hx : OldFits x) (v : Bytes) (hv : x.value = some v) (r : Nat) (hr : r ≤ v.length) (s : SD) :
    putLegacy env topic part ((Kafka.legacyMessage x).take ((Kafka.legacyMessage x).length - r) ++ List.replicate r 0) s
      = .ok true (s.deliver (wanted env topic part [zeroedMessage r x])) := by
  have hd : decodeToMessageSet env.compress env.legacyFuel
      ((Kafka.legacyMessage x).take ((Kafka.legacyMessage x).length - r) ++ List.replicate r 0) = .ok [zeroedMessage r x] := by
    obtain ⟨k, hk⟩ : ∃ k, env.legacyFuel = k + 2 := ⟨env.legacyFuel - 2, by omega⟩
    have h := creads_zeroed x hx v hv r hr [] []
    rw [← cut_zeros x v hv r hr] at h
    have hlen : ((Kafka.legacyMessage x).take ((Kafka.legacyMessage x).length - r) ++ List.replicate r (0 : UInt8)).length ≠ 0 := by
      have := old_length x
      rw [List.length_append, List.length_take, List.length_replicate]
      omega
    generalize (Kafka.legacyMessage x).take ((Kafka.legacyMessage x).length - r) ++ List.replicate r (0 : UInt8) = P at h hlen
    simp only [List.nil_append, List.append_nil, List.length_nil, Nat.zero_add, Int.ofNat_zero] at h
    change rdLegacyMessage P 0 = _ at h
    unfold decodeToMessageSet
    rw [hk, decodeMessagesFrom, if_neg (by omega), h]
    simp only
    rw [if_pos (show (zeroedMessage r x).attributes &&& 7 = 0 from old_attributes x hx), decodeMessagesFrom, if_pos rfl]
  unfold putLegacy
  rw [hd, FM.bind_def]
  simp only [FM.lift]
  rw [if_neg (by simp), FM.bind_def]
  unfold putAll
  rw [FM.bind_def, filterAndPut_ok env hacc]
  unfold putAll
  rfl

/-- One round of the loop that gets all but the last `r` bytes of a message, one to five. -/
theorem legacyLoop_zeroed (env : FetchEnv) (hacc : ∀ n, env.accept n = true) (hf : 2 ≤ env.legacyFuel) (topic : Bytes)
    (part : Int32) (x : Kafka.LegacyMessage) (hx : OldFits x) (v : Bytes) (hv : x.value = some v) (r : Nat) (hr : r ≤ v.length)
    (h5 : r ≤ 5) (n : Nat) (acc : Int) (s : SD) (c : Bytes) (cs : List Bytes)
    (hch : s.rd.chunks = ((Kafka.legacyMessage x).take ((Kafka.legacyMessage x).length - r) ++ c) :: cs)
    (hl : (Kafka.legacyMessage x).length - r ≤ s.rd.limit)
    (hend : (Kafka.legacyMessage x).length - r = s.rd.limit ∨ c = []) :
    legacyLoop env topic part (n + 1) acc s = legacyLoop env topic part n (acc + ((Kafka.legacyMessage x).length - r : Nat))
      ((s.skip ((Kafka.legacyMessage x).take ((Kafka.legacyMessage x).length - r)) c cs).deliver
        (wanted env topic part [zeroedMessage r x])) := by
  have hlen := old_length x
  have htl := oldTail_pos x
  have hto := oldTail_length x
  have hm := oldMain_length x
  have hsplit : (Kafka.legacyMessage x).take ((Kafka.legacyMessage x).length - r)
      = oldLead x ++ (oldMain x).take ((oldMain x).length - r) := by
    rw [old_lead_main, List.length_append, oldLead_length,
      show 12 + (oldMain x).length - r = (oldLead x).length + ((oldMain x).length - r) by rw [oldLead_length]; omega,
      List.take_length_add_append]
  have hgl : ((oldMain x).take ((oldMain x).length - r)).length = (oldMain x).length - r := by rw [List.length_take]; omega
  have hz := putLegacy_zeroed env hacc hf topic part x hx v hv r hr
  rw [hsplit] at hch hz ⊢
  generalize hg : (oldMain x).take ((oldMain x).length - r) = got at *
  rw [List.append_assoc] at hch
  rw [legacyLoop, FM.bind_def, fetchRead_chunk (oldLead x) 12 (oldLead_length x) s (got ++ c) cs hch (by omega)]
  have hsz := old_size x hx []
  rw [List.append_nil] at hsz
  simp only
  rw [hsz, FM.bind_def, fetchRead1_chunk got c _ (s.skip (oldLead x) (got ++ c) cs) cs
    (by intro hh; rw [hh] at hgl; simp only [List.length_nil] at hgl; omega) rfl (by omega) (by
      show _ ≤ s.rd.limit - (oldLead x).length; rw [oldLead_length]; omega)
    (Or.inr (by
      rcases hend with he | he
      · left; show _ = s.rd.limit - (oldLead x).length; rw [oldLead_length]; omega
      · exact Or.inr he))]
  simp only
  rw [if_neg (by omega), show (Kafka.legacyBody x).length + 4 - got.length = r by omega, FM.bind_def, hz]
  simp only [if_true]
  rw [skip_skip]
  congr 1
  omega

/-- However decoding of the partition ended, if something was delivered the user sees no error. -/
theorem finishOne_seen (env : FetchEnv) (s t : SD) (ht : t.hasOne = true) (r : Res Unit)
    (hr : r = .ok () t ∨ r = .err .eof t ∨ r = .err .unexpectedEof t) :
    ∃ s', finishOne env (FM.after (fun _ => r) messageSetFix s) = .ok () s' ∧ s'.delivered = t.delivered ∧ s'.rd = t.rd.drain := by
  unfold FM.after
  rcases hr with rfl | rfl | rfl <;> simp only [messageSetFix, ht] <;> exact ⟨_, rfl, rfl, rfl⟩

theorem wanted_zeroed (env : FetchEnv) (topic : Bytes) (part : Int32) (x : Kafka.LegacyMessage) (hx : OldFits x) (r : Nat)
    (hstart : env.startOffset.toInt ≤ x.offset) : wanted env topic part [zeroedMessage r x] ≠ [] := by
  have ho := hx.fits.offset
  have : (zeroedMessage r x).offset ≥ env.startOffset := by
    show env.startOffset ≤ Int64.ofInt x.offset
    rw [Int64.le_iff_toInt_le, Int64.toInt_ofInt_of_le (by omega) (by omega)]
    exact hstart
  unfold wanted
  rw [List.filter_cons, if_pos (by simpa using this)]
  simp

theorem deliver_hasOne (s : SD) (fs : List FullMessage) (h : fs ≠ []) : (s.deliver fs).hasOne = true := by
  unfold SD.deliver
  cases fs with
  | nil => exact absurd rfl h
  | cons _ _ => simp

theorem seen_zeroed (env : FetchEnv) (topic : Bytes) (part : Int32) (ms : List Kafka.LegacyMessage) (hms : ∀ y ∈ ms, OldFits y)
    (x : Kafka.LegacyMessage) (hx : OldFits x) (v : Bytes) (hv : x.value = some v) (r : Nat) (hr : r ≤ v.length) :
    (wanted env topic part (ms.map goMessage) ++ wanted env topic part [zeroedMessage r x]).map FullMessage.seen
      = (expected topic part.toInt env.startOffset.toInt ((ms ++ [Kafka.zeroed r x]).map Kafka.storedOld)).map some := by
  rw [← wanted_append, seen_wanted]
  congr 2
  rw [List.map_append, List.map_append, seen_olds ms hms]
  simp only [List.map_cons, List.map_nil, zeroed_seen x hx v hv r hr]

/-- C16 fails for messages of the old formats, whatever they hold: when the broker cuts the last 1 to 5 bytes off the last
of at least two messages, that message is delivered all the same, the bytes that are missing replaced by
zeros.  If they were not zeros, the user sees a value nobody stored. -/
theorem C16_violated_every_legacy (env : FetchEnv) (hacc : ∀ n, env.accept n = true) (hf : 2 ≤ env.legacyFuel)
    (m : Kafka.LegacyMessage) (ms : List Kafka.LegacyMessage) (hms : ∀ y ∈ m :: ms, OldFits y)
    (x : Kafka.LegacyMessage) (hx : OldFits x) (v : Bytes) (hv : x.value = some v) (r : Nat) (hr : r ≤ v.length) (h5 : r ≤ 5)
    (hstart : env.startOffset.toInt ≤ x.offset)
    (h : Kafka.FetchHeader) (topic : Bytes) (p : Kafka.FetchPartition)
    (hdata : p.data = Kafka.legacyMessageSet (m :: ms) ++ (Kafka.legacyMessage x).take ((Kafka.legacyMessage x).length - r))
    (rest : Bytes) (s : SD) (w : InOne env h topic p rest s) :
    ∃ s' fs, streamDecode env s = .ok () s' ∧ s'.delivered = s.delivered ++ fs ∧
      fs.map FullMessage.seen
        = (expected topic p.partition env.startOffset.toInt ((m :: ms ++ [Kafka.zeroed r x]).map Kafka.storedOld)).map some ∧
      (v.drop (v.length - r) ≠ List.replicate r 0 → (Kafka.storedOld (Kafka.zeroed r x)).value ≠ v) := by
  have hc := w.one
  rw [fetchResponse_one, hdata] at hc
  simp only [List.append_assoc] at hc
  obtain ⟨s1, n, fuel, fs, hfs, hfuel, hn, hch, hlim, -, hdel, -, hpid, hgo⟩ := start_old env hacc hf m ms hms h topic p _ hdata rest s w.wire _ _ hc
  obtain ⟨k, rfl⟩ : ∃ k, n = k + 2 := ⟨n - 2, by
    have := old_length x
    rw [List.length_take] at hn
    have := oldTail_pos x
    have := oldTail_length x
    omega⟩
  rw [List.length_take] at hlim
  have ht := deliver_hasOne ((s1.deliver fs).skip ((Kafka.legacyMessage x).take ((Kafka.legacyMessage x).length - r)) rest []) _
    (wanted_zeroed env topic (Int32.ofInt p.partition) x hx r hstart)
  obtain ⟨s', k1, k2, k3⟩ := finishOne_seen env s _ ht _ (Or.inr (Or.inl rfl))
  refine ⟨s', fs ++ wanted env topic (Int32.ofInt p.partition) [zeroedMessage r x], (hgo _ ?_).trans k1, k2.trans ?_, ?_, ?_⟩
  · rw [FM.bind_def, legacyLoop_zeroed env hacc hf topic (Int32.ofInt p.partition) x hx v hv r hr h5 (k + 1) _ (s1.deliver fs) rest []
      hch (by show _ ≤ s1.rd.limit; omega) (Or.inl (by show _ = s1.rd.limit; omega)),
      legacyLoop, FM.bind_def, fetchRead_end 12 (by omega) _ (by
        show s1.rd.limit - _ = 0
        rw [List.length_take]
        omega)]
    rfl
  · show s1.delivered ++ fs ++ _ = _
    rw [hdel, List.append_assoc]
  · rw [hfs, seen_zeroed env topic _ _ hms x hx v hv r hr, hpid]
  · intro hne hh
    unfold Kafka.storedOld Kafka.zeroed at hh
    rw [hv] at hh
    simp only [Option.map_some, Option.getD_some] at hh
    apply hne
    have := congrArg (List.drop (v.length - r)) hh
    rw [List.drop_append_of_le_length (by rw [List.length_take]; omega), List.drop_of_length_le (by rw [List.length_take]; omega),
      List.nil_append] at this
    exact this.symm

/-- C18 fails for messages of the old formats, whatever they hold: when the network hands out the last 1 to 5 bytes of the
last of at least two messages separately, that message is delivered with zeros in their place; with the same bytes
in one piece it is delivered as it is (`C169_old_delivery_partial`). -/
theorem C18_violated_every_old_zeros (env : FetchEnv) (hacc : ∀ n, env.accept n = true) (hf : 2 ≤ env.legacyFuel)
    (m : Kafka.LegacyMessage) (ms : List Kafka.LegacyMessage) (hms : ∀ y ∈ m :: ms, OldFits y)
    (x : Kafka.LegacyMessage) (hx : OldFits x) (v : Bytes) (hv : x.value = some v) (r : Nat) (hr : r ≤ v.length) (h1 : 1 ≤ r) (h5 : r ≤ 5)
    (hstart : env.startOffset.toInt ≤ x.offset)
    (h : Kafka.FetchHeader) (topic : Bytes) (p : Kafka.FetchPartition)
    (hdata : p.data = Kafka.legacyMessageSet (m :: ms ++ [x])) (rest : Bytes) (s : SD) (w : OnWire env h topic p rest s)
    (hc : s.rd.chunks = [oneHead env.version h topic p ++ (p.data.take (p.data.length - r)), p.data.drop (p.data.length - r) ++ rest]) :
    ∃ s' fs, streamDecode env s = .ok () s' ∧ s'.delivered = s.delivered ++ fs ∧
      fs.map FullMessage.seen
        = (expected topic p.partition env.startOffset.toInt ((m :: ms ++ [Kafka.zeroed r x]).map Kafka.storedOld)).map some := by
  have hlx := old_length x
  have htl := oldTail_pos x
  have hto := oldTail_length x
  have hdata' : p.data = Kafka.legacyMessageSet (m :: ms) ++ Kafka.legacyMessage x := by
    rw [hdata]
    unfold Kafka.legacyMessageSet
    rw [List.flatMap_append]
    simp
  have htake : p.data.take (p.data.length - r) = Kafka.legacyMessageSet (m :: ms) ++
      (Kafka.legacyMessage x).take ((Kafka.legacyMessage x).length - r) := by
    rw [hdata', List.length_append,
      show (Kafka.legacyMessageSet (m :: ms)).length + (Kafka.legacyMessage x).length - r
        = (Kafka.legacyMessageSet (m :: ms)).length + ((Kafka.legacyMessage x).length - r) by omega, List.take_length_add_append]
  rw [htake] at hc
  obtain ⟨s1, n, fuel, fs, hfs, hfuel, hn, hch, hlim, hflat, hdel, -, hpid, hgo⟩ := start_old env hacc hf m ms hms h topic p _ hdata' rest s w
    ((Kafka.legacyMessage x).take ((Kafka.legacyMessage x).length - r)) _ hc
  obtain ⟨k, rfl⟩ : ∃ k, n = k + 2 := ⟨n - 2, by omega⟩
  have hl0 : (Kafka.legacyMessage x).length - r ≤ (s1.deliver fs).rd.limit := by show _ ≤ s1.rd.limit; omega
  have hstep := legacyLoop_zeroed env hacc hf topic (Int32.ofInt p.partition) x hx v hv r hr h5 (k + 1)
    ((Kafka.legacyMessageSet (m :: ms)).length - 17) (s1.deliver fs) [] _ (by rw [List.append_nil]; exact hch) hl0 (Or.inr rfl)
  have hadv := skip_avail (s1.deliver fs) ((Kafka.legacyMessage x).take ((Kafka.legacyMessage x).length - r)) [] _
    (by rw [List.append_nil]; exact hch) (by rw [List.length_take]; omega)
  generalize hT : (s1.deliver fs).skip ((Kafka.legacyMessage x).take ((Kafka.legacyMessage x).length - r)) []
    [p.data.drop (p.data.length - r) ++ rest] = T at hstep hadv
  have hTl : T.rd.limit = r := by
    rw [hadv.limit]
    show s1.rd.limit - _ = r
    rw [hlim, List.length_take]
    omega
  have hTf : r ≤ T.rd.flat.length := by
    rw [hadv.flat]
    show r ≤ (s1.rd.flat.drop _).length
    rw [hflat, List.length_drop, List.length_append, List.length_take]
    omega
  have hav : T.avail.length = r := by unfold SD.avail; rw [List.length_take, hTl]; omega
  obtain ⟨t, ht1, ht2⟩ := fetchRead_short 12 (T.deliver (wanted env topic (Int32.ofInt p.partition) [zeroedMessage r x]))
    (show T.rd.limit ≤ T.rd.flat.length by omega) (show T.avail.length < 12 by omega)
  rw [if_neg (by
    intro hh
    have : T.avail = [] := hh
    rw [this] at hav
    simp at hav
    omega)] at ht1
  have ht : t.hasOne = true := by
    rw [ht2.hasOne]
    exact deliver_hasOne _ _ (wanted_zeroed env topic (Int32.ofInt p.partition) x hx r hstart)
  obtain ⟨s', k1, k2, k3⟩ := finishOne_seen env s t ht _ (Or.inr (Or.inr rfl))
  refine ⟨s', fs ++ wanted env topic (Int32.ofInt p.partition) [zeroedMessage r x], (hgo _ ?_).trans k1, k2.trans ?_, ?_⟩
  · rw [FM.bind_def, hstep, legacyLoop, FM.bind_def, ht1]
    rfl
  · rw [ht2.delivered]
    show T.delivered ++ _ = _
    rw [← hT]
    show s1.delivered ++ fs ++ _ = _
    rw [hdel, List.append_assoc]
  · rw [hfs, seen_zeroed env topic _ _ hms x hx v hv r hr, hpid]

/-- One round of the loop that gets the size of a message and part of the rest, at least six bytes short. -/
theorem legacyLoop_short (env : FetchEnv) (topic : Bytes) (part : Int32) (x : Kafka.LegacyMessage) (hx : OldFits x) (k : Nat)
    (h12 : 12 < k) (hk : k + 6 ≤ (Kafka.legacyMessage x).length) (n : Nat) (acc : Int) (s : SD) (c : Bytes) (cs : List Bytes)
    (hch : s.rd.chunks = ((Kafka.legacyMessage x).take k ++ c) :: cs) (hl : k ≤ s.rd.limit) (hend : k = s.rd.limit ∨ c = []) :
    legacyLoop env topic part (n + 1) acc s = .ok (acc + k) (s.skip ((Kafka.legacyMessage x).take k) c cs) := by
  have hlen := old_length x
  have hm := oldMain_length x
  have hsplit : (Kafka.legacyMessage x).take k = oldLead x ++ (oldMain x).take (k - 12) := by
    rw [old_lead_main, show k = (oldLead x).length + (k - 12) by rw [oldLead_length]; omega, List.take_length_add_append]
    rw [oldLead_length, Nat.add_sub_cancel_left]
  have hgl : ((oldMain x).take (k - 12)).length = k - 12 := by rw [List.length_take]; omega
  rw [hsplit] at hch ⊢
  generalize hg : (oldMain x).take (k - 12) = got at *
  rw [List.append_assoc] at hch
  rw [legacyLoop, FM.bind_def, fetchRead_chunk (oldLead x) 12 (oldLead_length x) s (got ++ c) cs hch (by omega)]
  have hsz := old_size x hx []
  rw [List.append_nil] at hsz
  simp only
  rw [hsz, FM.bind_def, fetchRead1_chunk got c _ (s.skip (oldLead x) (got ++ c) cs) cs
    (by intro hh; rw [hh] at hgl; simp only [List.length_nil] at hgl; omega) rfl (by omega) (by
      show _ ≤ s.rd.limit - (oldLead x).length; rw [oldLead_length]; omega)
    (Or.inr (by
      rcases hend with he | he
      · left; show _ = s.rd.limit - (oldLead x).length; rw [oldLead_length]; omega
      · exact Or.inr he))]
  simp only
  rw [if_pos (by omega), skip_skip, FM.pure_def]
  congr 1
  omega

/-- C16 for messages of the old formats handed out in one piece, when the last message is cut by at least six bytes: the
complete messages from the requested offset on are delivered, nothing else, and no error if there are any.
Missing for the full statement: cuts by one to five bytes, for which it fails (`C16_violated_every_legacy`). -/
theorem C16_old_cut_partial (env : FetchEnv) (hacc : ∀ n, env.accept n = true) (hf : 2 ≤ env.legacyFuel)
    (m : Kafka.LegacyMessage) (ms : List Kafka.LegacyMessage) (hms : ∀ y ∈ m :: ms, OldFits y)
    (x : Kafka.LegacyMessage) (hx : OldFits x) (k : Nat) (hk : k + 6 ≤ (Kafka.legacyMessage x).length)
    (h : Kafka.FetchHeader) (topic : Bytes) (p : Kafka.FetchPartition)
    (hdata : p.data = Kafka.legacyMessageSet (m :: ms) ++ (Kafka.legacyMessage x).take k)
    (hsome : expected topic p.partition env.startOffset.toInt ((m :: ms).map Kafka.storedOld) ≠ [])
    (rest : Bytes) (s : SD) (w : InOne env h topic p rest s) :
    ∃ s' fs, streamDecode env s = .ok () s' ∧ s'.delivered = s.delivered ++ fs ∧
      fs.map FullMessage.seen = (expected topic p.partition env.startOffset.toInt ((m :: ms).map Kafka.storedOld)).map some := by
  have hc := w.one
  rw [fetchResponse_one, hdata] at hc
  simp only [List.append_assoc] at hc
  obtain ⟨s1, n, fuel, fs, hfs, hfuel, hn, hch, hlim, -, hdel, -, hpid, hgo⟩ := start_old env hacc hf m ms hms h topic p _ hdata rest s w.wire _ _ hc
  have htk : ((Kafka.legacyMessage x).take k).length = k := by rw [List.length_take]; omega
  rw [htk] at hlim hgo hn hfuel
  obtain ⟨j, rfl⟩ : ∃ j, n = j + 1 := ⟨n - 1, by omega⟩
  obtain ⟨g, rfl⟩ : ∃ g, fuel = g + 1 := ⟨fuel - 1, by omega⟩
  have h1 := seen_wanted env topic (Int32.ofInt p.partition) ((m :: ms).map goMessage)
  have h2 := wanted_nil_iff env topic (Int32.ofInt p.partition) ((m :: ms).map goMessage)
  rw [seen_olds _ hms, hpid, ← hfs] at h1 h2
  have hne : fs ≠ [] := fun hh => hsome (h2.1 hh)
  suffices hr : ∃ t : SD, t.hasOne = true ∧ t.delivered = s1.delivered ++ fs ∧ ∃ r, (r = .ok () t ∨ r = .err .eof t ∨ r = .err .unexpectedEof t) ∧
      (do let o ← legacyLoop env topic (Int32.ofInt p.partition) (j + 1) ((Kafka.legacyMessageSet (m :: ms)).length - 17)
          messageSetLoop env topic (Int32.ofInt p.partition) ((Kafka.legacyMessageSet (m :: ms)).length + k) (g + 1) (17 + o))
        (s1.deliver fs) = r by
    obtain ⟨t, ht, htd, r, hr, hrun⟩ := hr
    obtain ⟨s', k1, k2, k3⟩ := finishOne_seen env s t ht r hr
    exact ⟨s', fs, (hgo r hrun).trans k1, by rw [k2, htd, hdel], h1⟩
  by_cases h0 : k = 0
  · refine ⟨s1.deliver fs, deliver_hasOne _ _ hne, rfl, _, Or.inr (Or.inl rfl), ?_⟩
    rw [FM.bind_def, legacyLoop, FM.bind_def, fetchRead_end 12 (by omega) _ (by show s1.rd.limit = 0; omega)]
    rfl
  by_cases h12 : k < 12
  · refine ⟨(s1.deliver fs).skip ((Kafka.legacyMessage x).take k) rest [], deliver_hasOne _ _ hne, rfl, _, Or.inr (Or.inr rfl), ?_⟩
    rw [FM.bind_def, legacyLoop, FM.bind_def, fetchRead_less ((Kafka.legacyMessage x).take k) rest 12 (s1.deliver fs) []
      (by intro hh; rw [hh] at htk; simp at htk; omega) hch (by omega) (by show s1.rd.limit = _; omega)]
    rfl
  by_cases he : k = 12
  · refine ⟨(s1.deliver fs).skip ((Kafka.legacyMessage x).take k) rest [], deliver_hasOne _ _ hne, rfl, _, Or.inr (Or.inl rfl), ?_⟩
    rw [FM.bind_def, legacyLoop, FM.bind_def, fetchRead_chunk ((Kafka.legacyMessage x).take k) 12 (by omega) (s1.deliver fs) rest [] hch
      (by show 12 ≤ s1.rd.limit; omega)]
    simp only
    rw [FM.bind_def, fetchRead1_end _ _ (by show s1.rd.limit - _ = 0; omega)]
    rfl
  · refine ⟨(s1.deliver fs).skip ((Kafka.legacyMessage x).take k) rest [], deliver_hasOne _ _ hne, rfl, _, Or.inl rfl, ?_⟩
    rw [FM.bind_def, legacyLoop_short env topic (Int32.ofInt p.partition) x hx k (by omega) hk j _ (s1.deliver fs) rest [] hch
      (by show _ ≤ s1.rd.limit; omega) (Or.inl (by show _ = s1.rd.limit; omega))]
    simp only
    rw [messageSetLoop, if_neg (by omega), FM.pure_def]

/-- C18 fails for messages of the old formats, whatever they hold: when the network hands out the last 6 to 16 bytes of
the last of at least two messages separately, that message is not delivered, without any error; with the same bytes in
one piece it is (`C169_old_delivery_partial`). -/
theorem C18_violated_every_old_lost (env : FetchEnv) (hacc : ∀ n, env.accept n = true) (hf : 2 ≤ env.legacyFuel)
    (m : Kafka.LegacyMessage) (ms : List Kafka.LegacyMessage) (hms : ∀ y ∈ m :: ms, OldFits y)
    (x : Kafka.LegacyMessage) (hx : OldFits x) (r : Nat) (h6 : 6 ≤ r) (h16 : r ≤ 16) (hr : r + 12 < (Kafka.legacyMessage x).length)
    (h : Kafka.FetchHeader) (topic : Bytes) (p : Kafka.FetchPartition)
    (hdata : p.data = Kafka.legacyMessageSet (m :: ms ++ [x]))
    (hsome : expected topic p.partition env.startOffset.toInt ((m :: ms).map Kafka.storedOld) ≠ [])
    (rest : Bytes) (s : SD) (w : OnWire env h topic p rest s)
    (hc : s.rd.chunks = [oneHead env.version h topic p ++ (p.data.take (p.data.length - r)), p.data.drop (p.data.length - r) ++ rest]) :
    ∃ s' fs, streamDecode env s = .ok () s' ∧ s'.delivered = s.delivered ++ fs ∧
      fs.map FullMessage.seen = (expected topic p.partition env.startOffset.toInt ((m :: ms).map Kafka.storedOld)).map some := by
  have hdata' : p.data = Kafka.legacyMessageSet (m :: ms) ++ Kafka.legacyMessage x := by
    rw [hdata]
    unfold Kafka.legacyMessageSet
    rw [List.flatMap_append]
    simp
  have htake : p.data.take (p.data.length - r) = Kafka.legacyMessageSet (m :: ms) ++
      (Kafka.legacyMessage x).take ((Kafka.legacyMessage x).length - r) := by
    rw [hdata', List.length_append,
      show (Kafka.legacyMessageSet (m :: ms)).length + (Kafka.legacyMessage x).length - r
        = (Kafka.legacyMessageSet (m :: ms)).length + ((Kafka.legacyMessage x).length - r) by omega, List.take_length_add_append]
  rw [htake] at hc
  obtain ⟨s1, n, fuel, fs, hfs, hfuel, hn, hch, hlim, hflat, hdel, -, hpid, hgo⟩ := start_old env hacc hf m ms hms h topic p _ hdata' rest s w
    ((Kafka.legacyMessage x).take ((Kafka.legacyMessage x).length - r)) _ hc
  obtain ⟨j, rfl⟩ : ∃ j, n = j + 1 := ⟨n - 1, by omega⟩
  obtain ⟨g, rfl⟩ : ∃ g, fuel = g + 1 := ⟨fuel - 1, by omega⟩
  have h1 := seen_wanted env topic (Int32.ofInt p.partition) ((m :: ms).map goMessage)
  have h2 := wanted_nil_iff env topic (Int32.ofInt p.partition) ((m :: ms).map goMessage)
  rw [seen_olds _ hms, hpid, ← hfs] at h1 h2
  have hne : fs ≠ [] := fun hh => hsome (h2.1 hh)
  have htk : ((Kafka.legacyMessage x).take ((Kafka.legacyMessage x).length - r)).length = (Kafka.legacyMessage x).length - r := by
    rw [List.length_take]; omega
  have hstep := legacyLoop_short env topic (Int32.ofInt p.partition) x hx ((Kafka.legacyMessage x).length - r) (by omega) (by omega) j
    ((Kafka.legacyMessageSet (m :: ms)).length - 17) (s1.deliver fs) [] _ (by rw [List.append_nil]; exact hch)
    (by show _ ≤ s1.rd.limit; omega) (Or.inr rfl)
  have hadv := skip_avail (s1.deliver fs) ((Kafka.legacyMessage x).take ((Kafka.legacyMessage x).length - r)) [] _
    (by rw [List.append_nil]; exact hch) (by show _ ≤ s1.rd.limit; omega)
  generalize hT : (s1.deliver fs).skip ((Kafka.legacyMessage x).take ((Kafka.legacyMessage x).length - r)) []
    [p.data.drop (p.data.length - r) ++ rest] = T at hstep hadv
  have hTl : T.rd.limit = r := by
    rw [hadv.limit]
    show s1.rd.limit - _ = r
    omega
  have hTf : r ≤ T.rd.flat.length := by
    rw [hadv.flat]
    show r ≤ (s1.rd.flat.drop _).length
    rw [hflat, List.length_drop, List.length_append]
    omega
  have hav : T.avail.length = r := by unfold SD.avail; rw [List.length_take, hTl]; omega
  obtain ⟨t, ht1, ht2⟩ := fetchRead_short 17 T (show T.rd.limit ≤ T.rd.flat.length by omega) (by omega)
  rw [if_neg (by
    intro hh
    rw [hh] at hav
    simp at hav
    omega)] at ht1
  have ht : t.hasOne = true := by
    rw [ht2.hasOne, ← hT]
    exact deliver_hasOne _ _ hne
  obtain ⟨s', k1, k2, k3⟩ := finishOne_seen env s t ht _ (Or.inl rfl)
  refine ⟨s', fs, (hgo _ ?_).trans k1, k2.trans ?_, h1⟩
  · rw [FM.bind_def, hstep]
    simp only
    rw [messageSetLoop, if_pos (by omega), FM.bind_def, ht1]
    rfl
  · rw [ht2.delivered, ← hT]
    show s1.delivered ++ fs = _
    rw [hdel]

/-! ### Sample data -/

theorem sampleLegacy_fits : ∀ m ∈ sampleLegacy, OldFits m := by
  intro m hm
  have h2 : m = ⟨5, 1, 0, 77, none, some [1, 2, 3, 4, 5, 6, 7, 8]⟩ ∨ m = ⟨6, 1, 0, 78, none, some [1, 2, 3, 4, 5, 6, 7, 8]⟩ := by
    simpa [sampleLegacy] using hm
  rcases h2 with rfl | rfl <;>
    exact ⟨⟨by decide, by decide, by decide, (fun b hb => by cases hb), (fun b hb => by cases hb; decide)⟩, by decide, by decide, by decide,
      by decide +kernel⟩

theorem sampleWire (env : FetchEnv) (hv : env.version = 10) (data rest : Bytes) (hsz : data.length < 2 ^ 31) (c : Bytes) (cs : List Bytes)
    (hd : c ++ cs.flatten = data ++ rest) :
    OnWire env sampleHeader [116] (samplePartition data) rest
      (conn (sampleResponse data).length ((oneHead 10 sampleHeader [116] (samplePartition data) ++ c) :: cs)) := by
  have hv' : env.version.toNat = 10 := by rw [hv]; rfl
  refine ⟨by rw [hv]; decide, by decide, ?_, rfl, ⟨?_, ?_⟩, hsz, ?_, ?_, ?_⟩
  · show (0 : Nat) < _
    omega
  · show (-2 ^ 31 : Int) ≤ 3
    omega
  · show (3 : Int) < 2 ^ 31
    omega
  · rw [hv', show (10 : Nat) = (10 : UInt16).toNat from rfl, fetchResponse_one]
    show ((oneHead 10 sampleHeader [116] (samplePartition data) ++ c) :: cs).flatten = _
    rw [List.flatten_cons, List.append_assoc, hd, List.append_assoc]
    rfl
  · rw [hv']; rfl
  · exact ⟨c, cs, by rw [hv]; rfl⟩

theorem sampleInOne (env : FetchEnv) (hv : env.version = 10) (data rest : Bytes) (hsz : data.length < 2 ^ 31) :
    InOne env sampleHeader [116] (samplePartition data) rest
      (conn (sampleResponse data).length [oneHead 10 sampleHeader [116] (samplePartition data) ++ (data ++ rest)]) := by
  refine ⟨sampleWire env hv data rest hsz (data ++ rest) [] (by simp), ?_⟩
  have hv' : env.version.toNat = 10 := by rw [hv]; rfl
  rw [hv', show (10 : Nat) = (10 : UInt16).toNat from rfl, fetchResponse_one, List.append_assoc]
  rfl

/-- Two messages, of which the second is asked for, followed by the next response. -/
example : InOne { startOffset := 6 } sampleHeader [116] (samplePartition (Kafka.legacyMessageSet sampleLegacy)) [99]
      (conn (sampleResponse (Kafka.legacyMessageSet sampleLegacy)).length
        [oneHead 10 sampleHeader [116] (samplePartition (Kafka.legacyMessageSet sampleLegacy)) ++ (Kafka.legacyMessageSet sampleLegacy ++ [99])]) ∧
    expected [116] 3 6 (sampleLegacy.map Kafka.storedOld) = [⟨[116], 3, ⟨6, 78, [], [1, 2, 3, 4, 5, 6, 7, 8], []⟩⟩] :=
  ⟨sampleInOne _ rfl _ _ (by decide +kernel), by decide⟩

/-- The same messages, the last five bytes coming separately. -/
example : OnWire {} sampleHeader [116] (samplePartition (Kafka.legacyMessageSet sampleLegacy)) [99]
      (conn (sampleResponse (Kafka.legacyMessageSet sampleLegacy)).length
        [oneHead 10 sampleHeader [116] (samplePartition (Kafka.legacyMessageSet sampleLegacy)) ++ (Kafka.legacyMessageSet sampleLegacy).take 79,
          (Kafka.legacyMessageSet sampleLegacy).drop 79 ++ [99]]) ∧
    (Kafka.legacyMessageSet sampleLegacy).length = 84 ∧
    (Kafka.storedOld (Kafka.zeroed 5 ⟨6, 1, 0, 78, none, some [1, 2, 3, 4, 5, 6, 7, 8]⟩)).value = [1, 2, 3, 0, 0, 0, 0, 0] := by
  refine ⟨sampleWire _ rfl _ _ (by decide +kernel) _ _ ?_, by decide +kernel, by decide⟩
  simp only [List.flatten_cons, List.flatten_nil, List.append_nil]
  rw [← List.append_assoc, List.take_append_drop]

/-- A batch with the checksum it has: taken for a message it has a key of more bytes than there are. -/
example : TooLong ⟨(Kafka.crc32c (Kafka.batchTail (sampleBatch 0))).toNat, sampleBatch 0, (sampleBatch 0).records.flatMap Kafka.record⟩ := by
  unfold TooLong
  decide +kernel

/-- A message followed by that batch. -/
example : streamDecode {} (conn (sampleResponse (Kafka.legacyMessageSet sampleLegacy ++ Kafka.batch (sampleBatch 0))).length
    [sampleResponse (Kafka.legacyMessageSet sampleLegacy ++ Kafka.batch (sampleBatch 0))]) = .panic := by
  decide +kernel

end Healer
