import Verif.Model.Deadline
import Verif.Props.Damaged

/-!
# C181: the time for a fetch is over before its answer is complete
-/

namespace Healer

/-- Of an answer with one partition only the headers and `cut` of the data have come when the time is over. -/
structure CutOff (env : FetchEnv) (h : Kafka.FetchHeader) (topic : Bytes) (p : Kafka.FetchPartition) (cut : Bytes)
    (early : List Bytes) : Prop where
  version : env.version = 0 ∨ env.version = 7 ∨ env.version = 10
  name : topic.length < 2 ^ 16
  aborted : (p.aborted.getD []).length < 2 ^ 31
  noError : p.errorCode = 0
  partition : -2 ^ 31 ≤ p.partition ∧ p.partition < 2 ^ 31
  size : p.data.length < 2 ^ 31
  total : env.totalLength = (Kafka.fetchResponse env.version.toNat h [(topic, [p])]).length
  bytes : early.flatten = oneHead env.version h topic p ++ cut
  short : cut.length < p.data.length
  chunk : ∃ c cs, early = (oneHead env.version h topic p ++ c) :: cs

/-- the state of the decoder when it starts -/
def timedState (env : FetchEnv) (early : List Bytes) : SD :=
  { rd := { chunks := early, limit := env.totalLength, fin := .timeout } }

theorem CutOff.decode {env : FetchEnv} {h : Kafka.FetchHeader} {topic : Bytes} {p : Kafka.FetchPartition} {cut : Bytes}
    {early : List Bytes} (w : CutOff env h topic p cut early) :
    ∃ s1, (s1.avail = cut ∧ s1.rd.limit = p.data.length ∧ s1.rd.flat = cut ∧ s1.rd.fin = .timeout ∧
        s1.hasOne = false ∧ s1.delivered = []) ∧ (Int32.ofInt p.data.length).toInt = p.data.length ∧
      (Int32.ofInt p.partition).toInt = p.partition ∧ s1.offset + p.data.length = env.totalLength ∧
      streamDecode env (timedState env early) =
        finishOne env (decodeMessageSet env topic (Int32.ofInt p.partition) (Int32.ofInt p.data.length) s1) := by
  obtain ⟨c, cs, hc⟩ := w.chunk
  have hl := w.total
  have hb := w.bytes
  have hsz := w.size
  have hsh := w.short
  have hp := w.partition
  rw [fetchResponse_one, List.length_append] at hl
  obtain ⟨s1, h1, h2⟩ := streamDecode_one env w.version h topic w.name p w.aborted w.noError (timedState env early) c cs hc
    (by show _ ≤ env.totalLength; omega)
  have hi : (Int32.ofInt p.data.length).toInt = p.data.length := Int32.toInt_ofInt_of_le (by omega) (by omega)
  have hflat : s1.rd.flat = cut := by
    rw [h1.flat]
    show early.flatten.drop _ = _
    rw [hb, List.drop_left]
  have hlim : s1.rd.limit = p.data.length := by
    rw [h1.limit]
    show env.totalLength - _ = _
    omega
  refine ⟨s1, ⟨?_, hlim, hflat, h1.fin, h1.hasOne, h1.delivered⟩, hi, Int32.toInt_ofInt_of_le (by omega) (by omega), ?_, ?_⟩
  · unfold SD.avail
    rw [hflat, hlim, List.take_of_length_le (by omega)]
  · rw [h1.offset]
    show 0 + _ + _ = _
    omega
  · rw [h2, if_neg (by
      rw [Int32.le_iff_toInt_le, hi]
      show ¬ ((p.data.length : Int) ≤ 0)
      omega)]

/-- Reading more than has come before the time is over. -/
theorem fetchRead_late (n : Nat) (s : SD) (hl : s.rd.flat.length < s.rd.limit) (hf : s.rd.fin = .timeout)
    (h : s.rd.flat.length < n) :
    ∃ s', fetchRead n s = .ok (s.rd.flat, some .timeout) s' ∧ s'.rd.flat = [] ∧ s'.hasOne = s.hasOne ∧
      s'.delivered = s.delivered := by
  have ht : s.rd.flat.take s.rd.limit = s.rd.flat := List.take_of_length_le (by omega)
  obtain ⟨rd', h1, h2, h3, h4⟩ := readFull_short n s.rd (by rw [ht]; omega)
  unfold fetchRead
  rw [h1]
  refine ⟨{ s with rd := rd', offset := s.offset + s.rd.flat.length }, ?_, ?_, rfl, rfl⟩
  · rw [if_neg (by rw [hf]; simp; omega), ht, hf]
  · simp only [h2]
    exact List.drop_eq_nil_of_le (by omega)

theorem fetchReadUpTo_late (n : Nat) (s : SD) (hl : s.rd.flat.length < s.rd.limit) (hf : s.rd.fin = .timeout)
    (h : s.rd.flat.length < n) :
    ∃ s', fetchReadUpTo n s = .ok (s.rd.flat, some .timeout) s' ∧ s'.rd.flat = [] ∧ s'.hasOne = s.hasOne ∧
      s'.delivered = s.delivered ∧ s'.offset = s.offset + s.rd.flat.length := by
  have ht : s.rd.flat.take s.rd.limit = s.rd.flat := List.take_of_length_le (by omega)
  obtain ⟨rd', h1, h2, h3, h4⟩ := readUpTo_spec n s.rd
  unfold fetchReadUpTo
  rw [h1]
  refine ⟨{ s with rd := rd', offset := s.offset + s.rd.flat.length }, ?_, ?_, rfl, rfl, rfl⟩
  · rw [ht, if_neg (by rw [hf]; simp; omega), hf, List.take_of_length_le (by omega)]
  · simp only [h2, ht]
    rw [Nat.min_eq_right (by omega)]
    exact List.drop_eq_nil_of_le (by omega)

/-- the error with which the loop over the batches ends when the time is over after `j` bytes of a batch -/
def lateError (j : Nat) : Err := if j < 61 then .timeout else .wrapped (.wrapped .timeout)

theorem messageSetLoop_late (env : FetchEnv) (topic : Bytes) (part : Int32) (x : Kafka.Packed)
    (hsize : x.payload.length + 49 < 2 ^ 32) (hsome : x.batch.records ≠ []) (hcount : x.batch.records.length < 2 ^ 32)
    (j : Nat) (hj : j < (Kafka.packed x).length) (s : SD) (hflat : s.rd.flat = (Kafka.packed x).take j)
    (hlim : j < s.rd.limit) (hfin : s.rd.fin = .timeout) (hav : s.avail = (Kafka.packed x).take j) (size off : Int) (fuel : Nat)
    (hfuel : 0 < fuel) (hoff : off < size) (htotal : s.offset + (Kafka.packed x).length ≤ env.totalLength) :
    ∃ s1, messageSetLoop env topic part size fuel off s = .err (lateError j) s1 ∧ s1.rd.flat = [] ∧
      s1.delivered = s.delivered ∧ s1.hasOne = s.hasOne := by
  obtain ⟨f, rfl⟩ : ∃ f, fuel = f + 1 := ⟨fuel - 1, by omega⟩
  have hwl := packed_length x
  have hfl : s.rd.flat.length = j := by rw [hflat, List.length_take]; omega
  rw [messageSetLoop, if_pos hoff]
  by_cases h17 : j < 17
  · obtain ⟨s1, h1, h2, h3, h4⟩ := fetchRead_late 17 s (by omega) hfin (by omega)
    rw [FM.bind_def, h1]
    refine ⟨s1, ?_, h2, h4, h3⟩
    rw [lateError, if_pos (show j < 61 by omega)]
    rfl
  · have hcut : (Kafka.packed x).take j = packHead x ++ (batchFixed x.crc x.batch ++ x.payload).take (j - 17) := by
      rw [packed_eq, List.take_append, List.take_of_length_le (by rw [packHead_length]; omega), packHead_length]
    obtain ⟨s1, h1, h2⟩ := fetchRead_ok 17 s (by rw [hav, List.length_take]; omega)
    rw [FM.bind_def, h1]
    simp only
    have hh : s.avail.take 17 = packHead x := by rw [hav, hcut, List.take_left' (packHead_length x)]
    rw [hh, if_neg (pack_magic x), FM.bind_def]
    have hflat1 : s1.rd.flat = (batchFixed x.crc x.batch ++ x.payload).take (j - 17) := by
      rw [h2.flat, hflat, hcut, List.drop_left' (packHead_length x)]
    have hav1 : s1.avail = (batchFixed x.crc x.batch ++ x.payload).take (j - 17) := by
      rw [h2.avail, hav, hcut, List.drop_left' (packHead_length x)]
    have hfl1 : s1.rd.flat.length = j - 17 := by
      rw [hflat1, List.length_take, List.length_append, batchFixed_length]; omega
    have hlim1 := h2.limit
    unfold decodeRecordsMagic2
    by_cases h61 : j < 61
    · obtain ⟨s2, h3, h4, h5, h6⟩ := fetchRead_late 44 s1 (by omega) (h2.fin.trans hfin) (by omega)
      rw [FM.bind_def, h3]
      refine ⟨s2, ?_, h4, h6.trans h2.delivered, h5.trans h2.hasOne⟩
      rw [lateError, if_pos h61]
      rfl
    · have hcut1 : (batchFixed x.crc x.batch ++ x.payload).take (j - 17) = batchFixed x.crc x.batch ++ x.payload.take (j - 61) := by
        rw [List.take_append, List.take_of_length_le (by rw [batchFixed_length]; omega), batchFixed_length]
        congr 2
      obtain ⟨s2, h3, h4⟩ := fetchRead_ok 44 s1 (by
        rw [hav1, hcut1, List.length_append, batchFixed_length]; omega)
      rw [FM.bind_def, h3]
      have hgot : s1.avail.take 44 = batchFixed x.crc x.batch := by
        rw [hav1, hcut1, List.take_left' (batchFixed_length x.crc x.batch)]
      obtain ⟨f1, f2, f3, f4, f5⟩ := pack_fields x hsize hcount
      simp only [hgot, f1, f2, f3, f4, f5]
      rw [if_neg (by have := List.length_pos_iff.2 hsome; omega), FM.bind_def]
      unfold decodeBatchRecords
      have hs : (((x.payload.length + 49 : Nat) : Int) - 49).toNat = x.payload.length := by omega
      rw [hs]
      have hflat2 : s2.rd.flat = x.payload.take (j - 61) := by
        rw [h4.flat, hflat1, hcut1, List.drop_left' (batchFixed_length x.crc x.batch)]
      have hfl2 : s2.rd.flat.length = j - 61 := by rw [hflat2, List.length_take]; omega
      have hlim2 := h4.limit
      obtain ⟨s3, h5, h6, h7, h8, h9⟩ := fetchReadUpTo_late x.payload.length s2 (by omega) (h4.fin.trans (h2.fin.trans hfin)) (by omega)
      rw [h5]
      have ho2 := h4.offset
      have ho1 := h2.offset
      have hend : fetchEnd env s3 = false := by
        unfold fetchEnd
        rw [h9, hfl2]
        exact decide_eq_false (by omega)
      refine ⟨s3, ?_, h6, h8.trans (h4.delivered.trans h2.delivered), h7.trans (h4.hasOne.trans h2.hasOne)⟩
      simp only [uncompress, hend, Bool.false_and, Bool.false_eq_true, if_false, lateError]
      rw [if_neg h61]

theorem finishOne_late (env : FetchEnv) (hacc : ∀ n, env.accept n = true) (topic : Bytes) (part size : Int32) (s s3 : SD) (j : Nat)
    (h : messageSetLoop env topic part size.toInt (s.rd.limit + 1) 0 s = .err (lateError j) s3) :
    ∃ s', finishOne env (decodeMessageSet env topic part size s) = .ok () s' ∧
      s'.delivered = s3.delivered ++ [⟨[], -1, some (lateError j), none⟩] ∧ s'.rd = s3.rd.drain := by
  unfold decodeMessageSet FM.after
  change (fun s : SD => messageSetLoop env topic part size.toInt (s.rd.limit + 1) 0 s) s = _ at h
  generalize (fun s : SD => messageSetLoop env topic part size.toInt (s.rd.limit + 1) 0 s) = m at h ⊢
  have h1 : (lateError j).is .eof = false := by unfold lateError; split <;> rfl
  have h2 : (lateError j).is .unexpectedEof = false := by unfold lateError; split <;> rfl
  have h3 : lateError j ≠ .maxBytesTooSmall := by unfold lateError; split <;> simp
  rw [h]
  have hk : messageSetFix s3 (some (lateError j)) = some (lateError j) := by
    simp [messageSetFix, h1, h2, h3]
  simp only [hk, finishOne, drainAfter, putMessage, hacc, if_true, h1, Bool.false_eq_true, if_false]
  exact ⟨_, rfl, rfl, rfl⟩

/-- What the decoder sends and leaves when the time is over after `j` bytes of a batch. -/
theorem timed_cut (env : FetchEnv) (hacc : ∀ n, env.accept n = true) (unpack : Nat → Bytes → Option Bytes)
    (xs : List Kafka.Packed) (hx : ∀ x ∈ xs, LogFits env unpack x) (x : Kafka.Packed)
    (hsize : x.payload.length + 49 < 2 ^ 32) (hsome : x.batch.records ≠ []) (hcount : x.batch.records.length < 2 ^ 32)
    (j : Nat) (hj : j < (Kafka.packed x).length) (more : Bytes) (h : Kafka.FetchHeader) (topic : Bytes) (p : Kafka.FetchPartition)
    (hdata : p.data = xs.flatMap Kafka.packed ++ (Kafka.packed x ++ more)) (early : List Bytes)
    (w : CutOff env h topic p (xs.flatMap Kafka.packed ++ (Kafka.packed x).take j) early) :
    ∃ s' ms, streamDecode env (timedState env early) = .ok () s' ∧
      s'.delivered = ms ++ [⟨[], -1, some (lateError j), none⟩] ∧ s'.rd.flat = [] ∧ (∀ m ∈ ms, m.error = none) ∧
      ms.map FullMessage.seen =
        (expected topic p.partition env.startOffset.toInt (xs.flatMap fun x => Kafka.stored x.batch)).map some := by
  have hwl := packed_length x
  have hdl := congrArg List.length hdata
  rw [List.length_append, List.length_append] at hdl
  obtain ⟨s1, ⟨a1, a2, a3, a4, a5, a6⟩, hi, hpid, hoffs, hdec⟩ := w.decode
  rw [hdec]
  have hpw : packsWire xs = xs.flatMap Kafka.packed := rfl
  obtain ⟨s2, f, g1, g2, g3⟩ := messageSetLoop_first env hacc topic (Int32.ofInt p.partition) xs (fun x hx' => (hx x hx').pack)
    (fun x hx' => (hx x hx').empty) s1 ((Kafka.packed x).take j) (by rw [a1, hpw]) (Int32.ofInt p.data.length).toInt 0
    (s1.rd.limit + 1) (by omega) (by rw [hi, hpw]; omega)
  have hseen : (xs.flatMap fun x => batchMessages x.batch).map Message.seen = xs.flatMap fun x => Kafka.stored x.batch := by
    rw [List.map_flatMap]
    have : ∀ (l : List Kafka.Packed), (∀ x ∈ l, BatchRange x.batch) →
        l.flatMap (fun x => (batchMessages x.batch).map Message.seen) = l.flatMap fun x => Kafka.stored x.batch := by
      intro l hl
      induction l with
      | nil => rfl
      | cons x l ih =>
        rw [List.flatMap_cons, List.flatMap_cons, seen_batch x.batch (hl x (by simp)), ih (fun y hy => hl y (by simp [hy]))]
    exact this xs (fun x hx' => (hx x hx').range)
  have w1 := seen_wanted env topic (Int32.ofInt p.partition) (xs.flatMap fun x => batchMessages x.batch)
  rw [hseen, hpid] at w1
  have hno : ∀ m ∈ wanted env topic (Int32.ofInt p.partition) (xs.flatMap fun x => batchMessages x.batch), m.error = none := by
    intro m hm
    unfold wanted at hm
    obtain ⟨y, _, rfl⟩ := List.mem_map.1 hm
    rfl
  generalize wanted env topic (Int32.ofInt p.partition) (xs.flatMap fun x => batchMessages x.batch) = fs at *
  have hlim2 := g2.limit
  have hoff2 := g2.offset
  rw [hpw] at hlim2 hoff2
  obtain ⟨s3, k1, k2, k3, k4⟩ := messageSetLoop_late env topic (Int32.ofInt p.partition) x hsize hsome hcount j hj (s2.deliver fs)
    (by rw [deliver_rd, g2.flat, a3, hpw, List.drop_left]) (by rw [deliver_rd]; omega) (by rw [deliver_rd, g2.fin]; exact a4)
    (by
      show s2.avail = _
      rw [g2.avail, a1, hpw, List.drop_left])
    (Int32.ofInt p.data.length).toInt (0 + (packsWire xs).length) f (by omega) (by rw [hi, hpw]; omega)
    (by
      show s2.offset + _ ≤ _
      omega)
  obtain ⟨s', r1, r2, r3⟩ := finishOne_late env hacc topic (Int32.ofInt p.partition) (Int32.ofInt p.data.length) s1 s3 j
    (by rw [g1, k1])
  refine ⟨s', fs, r1, ?_, ?_, hno, w1⟩
  · rw [r2, k3]
    show s2.delivered ++ fs ++ _ = _
    rw [g2.delivered, a6, List.nil_append]
  · rw [r3, (drain_spec s3.rd).2.1, k2]
    simp

theorem firstError_cut (ms : List FullMessage) (h : ∀ m ∈ ms, m.error = none) (e : Err) :
    firstError (ms ++ [⟨[], -1, some e, none⟩]) = some e := by
  unfold firstError
  rw [List.filterMap_append, show ms.filterMap FullMessage.error = [] from List.filterMap_eq_nil_iff.2 h]
  rfl

theorem filter_flat {cs : List Bytes} (h : cs.flatten = []) : cs.filter (· ≠ []) = [] := by
  rw [List.filter_eq_nil_iff]
  intro c hc
  simpa using List.flatten_eq_nil_iff.1 h c hc

/-- C181, the part that holds.  The time for a fetch is over in the first 61 bytes of a batch - or between two batches - :
the consumer has been handed the messages of the batches before it, and the connection is given up. -/
theorem C181_header_partial (env : FetchEnv) (hacc : ∀ n, env.accept n = true) (unpack : Nat → Bytes → Option Bytes)
    (xs : List Kafka.Packed) (hx : ∀ x ∈ xs, LogFits env unpack x) (x : Kafka.Packed)
    (hsize : x.payload.length + 49 < 2 ^ 32) (hsome : x.batch.records ≠ []) (hcount : x.batch.records.length < 2 ^ 32)
    (j : Nat) (hj : j < 61) (more : Bytes) (h : Kafka.FetchHeader) (topic : Bytes) (p : Kafka.FetchPartition)
    (hdata : p.data = xs.flatMap Kafka.packed ++ (Kafka.packed x ++ more)) (early : List Bytes)
    (w : CutOff env h topic p (xs.flatMap Kafka.packed ++ (Kafka.packed x).take j) early) (late : List Ev) :
    ∃ ms e, timedFetch env early late = some (ms ++ [⟨[], -1, some e, none⟩], none) ∧
      ms.map FullMessage.seen =
        (expected topic p.partition env.startOffset.toInt (xs.flatMap fun x => Kafka.stored x.batch)).map some := by
  have hwl := packed_length x
  obtain ⟨s', ms, h1, h2, h3, h4, h5⟩ := timed_cut env hacc unpack xs hx x hsize hsome hcount j (by omega) more h topic p hdata early w
  refine ⟨ms, lateError j, ?_, h5⟩
  unfold timedFetch
  rw [show ({ rd := { chunks := early, limit := env.totalLength, fin := .timeout } } : SD) = timedState env early from rfl, h1]
  simp only [h2, fetchCloses, firstError_cut ms h4]
  unfold lateError
  rw [if_pos hj]
  rfl

/-- C181 is violated for every answer whose time is over after the header of a batch and before the end of its records: the
consumer is sent the error, but the connection stays in use, and what comes of that answer afterwards is the first thing the
next request on the connection reads.  If the rest of the records begins with the length of some bytes and these bytes - a
producer chooses them - then the next request takes exactly them for its answer. -/
theorem C181_violated_every_records (env : FetchEnv) (hacc : ∀ n, env.accept n = true) (unpack : Nat → Bytes → Option Bytes)
    (xs : List Kafka.Packed) (hx : ∀ x ∈ xs, LogFits env unpack x) (x : Kafka.Packed)
    (hsize : x.payload.length + 49 < 2 ^ 32) (hsome : x.batch.records ≠ []) (hcount : x.batch.records.length < 2 ^ 32)
    (k : Nat) (hk : k < x.payload.length) (more : Bytes) (h : Kafka.FetchHeader) (topic : Bytes) (p : Kafka.FetchPartition)
    (hdata : p.data = xs.flatMap Kafka.packed ++ (Kafka.packed x ++ more)) (early : List Bytes)
    (w : CutOff env h topic p (xs.flatMap Kafka.packed ++ (Kafka.packed x).take (61 + k)) early) (late : List Ev) :
    (∃ ms e, timedFetch env early late = some (ms ++ [⟨[], -1, some e, none⟩], some late) ∧
      ms.map FullMessage.seen =
        (expected topic p.partition env.startOffset.toInt (xs.flatMap fun x => Kafka.stored x.batch)).map some) ∧
    ∀ (answer tail : Bytes), answer.length < 2 ^ 32 → x.payload.drop k = Kafka.int32 answer.length ++ (answer ++ tail) →
      answer ++ tail ≠ [] → ∀ evs, late = .data (x.payload.drop k) :: evs →
      ∀ b c, b.conn = some c → c.reads = late →
        ∃ n b', awaitLength b = (.ok n, b') ∧ n.toNat = answer.length ∧
          b'.conn = some { c with reads := .data (answer ++ tail) :: evs } := by
  have hwl := packed_length x
  refine ⟨?_, ?_⟩
  · obtain ⟨s', ms, h1, h2, h3, h4, h5⟩ := timed_cut env hacc unpack xs hx x hsize hsome hcount (61 + k) (by omega) more h topic p
      hdata early w
    refine ⟨ms, lateError (61 + k), ?_, h5⟩
    unfold timedFetch
    rw [show ({ rd := { chunks := early, limit := env.totalLength, fin := .timeout } } : SD) = timedState env early from rfl, h1]
    simp only [h2, fetchCloses, firstError_cut ms h4]
    unfold lateError
    rw [if_neg (by omega), filter_flat (show s'.rd.chunks.flatten = [] from h3)]
    rfl
  · intro answer tail ha hp hne evs hl b c hb hc
    subst hl
    have hlen : (Kafka.int32 answer.length).length = 4 := by simp
    refine ⟨UInt32.ofNat answer.length, { b with conn := some { c with reads := .data (answer ++ tail) :: evs } }, ?_, ?_, rfl⟩
    · have hr : rdU32 (Kafka.int32 answer.length) 0 = .ok (UInt32.ofNat answer.length, 4) := by
        have := creads_len32 answer.length [] []
        simpa [hlen] using this
      have hpos := List.length_pos_iff.2 hne
      unfold awaitLength
      simp only [hb, hc]
      rw [hp, readLength]
      rw [if_neg (by rw [List.length_append, hlen]; omega), List.take_left' hlen, List.drop_left' hlen, hr]
      simp only
      rw [if_neg (by rw [List.length_append, hlen]; omega)]
    · simp
      omega

/-- What this can lead to.  A producer stores a message whose value is the length and the bytes of a fetch answer of its own making;
the time of a fetch is over just before this value has come.  The next fetch of the same connection takes the value for its
answer, and the consumer is handed the messages in it - with the offsets, keys and values its author chose, although the partition
does not hold them. -/
theorem C181_violated_every_forged (env env' : FetchEnv) (hacc : ∀ n, env.accept n = true) (hacc' : ∀ n, env'.accept n = true)
    (unpack : Nat → Bytes → Option Bytes) (xs : List Kafka.Packed) (hx : ∀ x ∈ xs, LogFits env unpack x) (x : Kafka.Packed)
    (hsize : x.payload.length + 49 < 2 ^ 32) (hsome : x.batch.records ≠ []) (hcount : x.batch.records.length < 2 ^ 32)
    (k : Nat) (hk : k < x.payload.length) (more : Bytes) (h : Kafka.FetchHeader) (topic : Bytes) (p : Kafka.FetchPartition)
    (hdata : p.data = xs.flatMap Kafka.packed ++ (Kafka.packed x ++ more)) (early : List Bytes)
    (w : CutOff env h topic p (xs.flatMap Kafka.packed ++ (Kafka.packed x).take (61 + k)) early)
    (forged : List Kafka.Packed) (hforged : ∀ x ∈ forged, LogFits env' unpack x) (h' : Kafka.FetchHeader) (p' : Kafka.FetchPartition)
    (hdata' : p'.data = forged.flatMap Kafka.packed) (hne' : p'.data ≠ []) (tail : Bytes)
    (hv' : env'.version = 0 ∨ env'.version = 7 ∨ env'.version = 10) (hab' : (p'.aborted.getD []).length < 2 ^ 31)
    (he' : p'.errorCode = 0) (hp' : -2 ^ 31 ≤ p'.partition ∧ p'.partition < 2 ^ 31) (hsz' : p'.data.length < 2 ^ 31)
    (hlen : (Kafka.fetchResponse env'.version.toNat h' [(topic, [p'])]).length < 2 ^ 32)
    (hpay : x.payload.drop k = Kafka.int32 (Kafka.fetchResponse env'.version.toNat h' [(topic, [p'])]).length ++
      (Kafka.fetchResponse env'.version.toNat h' [(topic, [p'])] ++ tail))
    (hwant : expected topic p'.partition env'.startOffset.toInt (forged.flatMap fun x => Kafka.stored x.batch) ≠ [])
    (b : Broker) (c : Conn) (hb : b.conn = some c) (hc : some c.reads = (timedFetch env early [.data (x.payload.drop k)]).bind Prod.snd) :
    ∃ n b' s', awaitLength b = (.ok n, b') ∧ (∃ d, b'.conn = some { c with reads := [.data d] } ∧
      streamDecode env' { rd := { chunks := [d], limit := n.toNat } } = .ok () s') ∧
      s'.delivered.map FullMessage.seen =
        (expected topic p'.partition env'.startOffset.toInt (forged.flatMap fun x => Kafka.stored x.batch)).map some := by
  obtain ⟨⟨ms, e, h1, _⟩, h2⟩ := C181_violated_every_records env hacc unpack xs hx x hsize hsome hcount k hk more h topic p hdata early w
    [.data (x.payload.drop k)]
  rw [h1] at hc
  have hc : c.reads = [.data (x.payload.drop k)] := Option.some.inj hc
  generalize hans : Kafka.fetchResponse env'.version.toNat h' [(topic, [p'])] = answer at *
  have hans' := hans
  rw [fetchResponse_one] at hans'
  have hpos : answer ++ tail ≠ [] := by
    rw [← hans']
    simp [hne']
  obtain ⟨n, b', g1, g2, g3⟩ := h2 answer tail hlen hpay hpos [] rfl b c hb hc
  have hw : OnWire env' h' topic p' tail { rd := { chunks := [answer ++ tail], limit := n.toNat } } := by
    refine ⟨hv', w.name, hab', he', hp', hsz', ?_, ?_, p'.data ++ tail, [], ?_⟩
    · rw [hans]; simp [Rdr.flat]
    · rw [hans]; exact g2
    · rw [← hans', List.append_assoc]
  obtain ⟨s', fs, d1, d2, _, _, d3⟩ := C15_fetch_delivery_partial env' hacc' unpack forged hforged h' topic p' hdata' hne' tail _ hw
  simp only at d3
  rw [if_neg hwant] at d3
  refine ⟨n, b', s', g1, ⟨answer ++ tail, g3, d1⟩, ?_⟩
  rw [d2]
  simpa using d3

/-- C181 is violated when the time is over in the header of the answer: nothing at all is sent to the consumer, so the
connection stays in use. -/
theorem C181_violated_every_start (env : FetchEnv) (hv : env.version = 0 ∨ env.version = 7 ∨ env.version = 10)
    (early : List Bytes) (hshort : early.flatten.length < if env.version = 0 then 8 else 18)
    (hmore : early.flatten.length < env.totalLength) (late : List Ev) :
    timedFetch env early late = some ([], some late) := by
  obtain ⟨n, hn, hdec⟩ : ∃ n, early.flatten.length < n ∧
      ∃ f : Bytes → Nat, decodeFetchHeader env.version = (do let b ← rdExact n; pure (f b)) := by
    by_cases h0 : env.version = 0
    · rw [if_pos h0] at hshort
      exact ⟨8, hshort, fun b => beAt 4 4 b, by unfold decodeFetchHeader; rw [if_pos h0]⟩
    · rw [if_neg h0] at hshort
      exact ⟨18, hshort, fun b => beAt 4 14 b, by
        unfold decodeFetchHeader; rw [if_neg h0, if_pos (by rcases hv with h | h | h; exact absurd h h0; exact Or.inl h; exact Or.inr h)]⟩
  obtain ⟨f, hf⟩ := hdec
  obtain ⟨s1, h1, h2, h3, h4⟩ := fetchRead_late n (timedState env early) hmore rfl hn
  unfold timedFetch
  rw [show ({ rd := { chunks := early, limit := env.totalLength, fin := .timeout } } : SD) = timedState env early from rfl]
  unfold streamDecode
  rw [hf, show ({ timedState env early with offset := 0, hasOne := false } : SD) = timedState env early from rfl]
  simp only [FM.bind_def, rdExact]
  rw [h1]
  simp only [FM.fail]
  have : s1.delivered = [] := h4
  rw [this, filter_flat (show s1.rd.chunks.flatten = [] from h2)]
  rfl

/-- a batch with one record, whose value is the number 2 and two bytes -/
def trickyPacked : Kafka.Packed :=
  let b := { sampleBatch 0 with records := [⟨0, 0, 0, none, some (Kafka.int32 2 ++ [9, 9]), []⟩] }
  ⟨0, b, b.records.flatMap Kafka.record⟩

def trickyData : Bytes := Kafka.packed (samplePacked 0) ++ Kafka.packed trickyPacked

def trickyEnv : FetchEnv := { startOffset := 41, totalLength := (sampleResponse trickyData).length }

/-- all but the last seven bytes of the answer -/
def trickyEarly : List Bytes := [(sampleResponse trickyData).take ((sampleResponse trickyData).length - 7)]

example : trickyPacked.payload.drop 6 = Kafka.int32 (2 : Nat) ++ ([9, 9] ++ [0]) := by decide +kernel

example : CutOff trickyEnv sampleHeader [116] (samplePartition trickyData)
    ([samplePacked 0].flatMap Kafka.packed ++ (Kafka.packed trickyPacked).take (61 + 6)) trickyEarly := by
  refine ⟨Or.inr (Or.inr rfl), by decide, by decide, by decide, by decide, by decide +kernel, by decide +kernel,
    by decide +kernel, by decide +kernel, trickyData.take (trickyData.length - 7), [], by decide +kernel⟩

/-- Two messages and an error, the connection is still in use, and the next request takes `[9, 9]` for its answer. -/
example : (timedFetch trickyEnv trickyEarly [.data (trickyPacked.payload.drop 6)]).map (fun r => (r.1.map FullMessage.seen, r.2.isSome)) =
    some ([some ⟨[116], 3, ⟨41, 1007, [], [118, 119], [([104], [1])]⟩⟩, some ⟨[116], 3, ⟨42, 1009, [], [], []⟩⟩, none], true) := by
  decide +kernel

example : (readLength [.data (trickyPacked.payload.drop 6)]).1 = .ok 2 := by decide +kernel

/-- With 50 bytes of the second batch the connection is closed. -/
example : (timedFetch trickyEnv [(sampleResponse trickyData).take ((sampleResponse trickyData).length - 24)] []).map
    (fun r => (r.1.length, r.2.isSome)) = some (3, false) := by decide +kernel

/-- Ten bytes of the answer have come: nothing is sent and the connection is still in use. -/
example : (timedFetch trickyEnv [(sampleResponse trickyData).take 10] [.data [1]]).map (fun r => (r.1.length, r.2.isSome)) =
    some (0, true) := by decide +kernel

/-- a batch with one record, whose value is a whole fetch answer with the length in front -/
def forgingPacked : Kafka.Packed :=
  let answer := sampleResponse (Kafka.packed (samplePacked 0))
  let b := { sampleBatch 0 with records := [⟨0, 0, 0, none, some (Kafka.int32 answer.length ++ answer), []⟩] }
  ⟨0, b, b.records.flatMap Kafka.record⟩

example : forgingPacked.payload.drop 8 = Kafka.int32 (sampleResponse (Kafka.packed (samplePacked 0))).length ++
    (sampleResponse (Kafka.packed (samplePacked 0)) ++ [0]) := by decide +kernel

/-- C181, which error counts: a connection whose fetch gave a message with an error is closed because of the first one, if that is a timeout, the end of the stream
or an answer that another broker leads; an error that comes after one of the others closes nothing, though it be a timeout.
What is missing: `C181_violated_every_records`. -/
theorem C181_first_partial (before after : List FullMessage) (m : FullMessage) (e : Err) (hb : ∀ x ∈ before, x.error = none) (hm : m.error = some e) :
    (fetchCloses (before ++ m :: after) = true ↔ isTimeout e = true ∨ e.is .eof = true ∨ e.is .epipe = true ∨ e.is (.kafka 6) = true) ∧
    fetchCloses before = false := by
  have h0 : before.filterMap FullMessage.error = [] := List.filterMap_eq_nil_iff.2 hb
  constructor
  · simp [fetchCloses, firstError, List.filterMap_append, h0, hm, closesConn, or_assoc]
  · simp [fetchCloses, firstError, h0]

example : fetchCloses [{ topicName := [116], partitionID := 0, error := some (.kafka 1), message := none },
    { topicName := [116], partitionID := 0, error := some .timeout, message := none }] = false := by decide

theorem rdExact_take (n : Nat) (s : SD) (h : n ≤ s.avail.length) : ∃ s', rdExact n s = .ok (s.avail.take n) s' ∧ Adv n s s' := by
  obtain ⟨s', h1, h2⟩ := fetchRead_ok n s h
  exact ⟨s', by unfold rdExact; rw [FM.bind_def, h1]; rfl, h2⟩

theorem rdExact_late (n : Nat) (s : SD) (hl : s.rd.flat.length < s.rd.limit) (hf : s.rd.fin = .timeout) (h : s.rd.flat.length < n) :
    ∃ s', rdExact n s = .err .timeout s' ∧ s'.delivered = s.delivered := by
  obtain ⟨s', h1, -, -, h4⟩ := fetchRead_late n s hl hf h
  exact ⟨s', by unfold rdExact; rw [FM.bind_def, h1]; rfl, h4⟩

/-- what has come is less than the limit, and then the time is over -/
def SD.Late (s : SD) (bs : Bytes) : Prop := s.rd.flat = bs ∧ bs.length < s.rd.limit ∧ s.rd.fin = .timeout

theorem SD.Late.avail {s : SD} {bs : Bytes} (h : s.Late bs) : s.avail = bs := by
  obtain ⟨h1, h2, -⟩ := h
  unfold SD.avail
  rw [h1, List.take_of_length_le (by omega)]

theorem SD.Late.adv {s s' : SD} {a b : Bytes} (h : s.Late (a ++ b)) (ha : Adv a.length s s') : s'.Late b := by
  obtain ⟨h1, h2, h3⟩ := h
  rw [List.length_append] at h2
  refine ⟨by rw [ha.flat, h1, List.drop_left], by rw [ha.limit]; omega, by rw [ha.fin, h3]⟩

/-- Reading one field of a message cut off. -/
theorem rdExact_cut (n : Nat) (s : SD) (bs : Bytes) (h : s.Late bs) :
    (bs.length < n → ∃ s', rdExact n s = .err .timeout s' ∧ s'.delivered = s.delivered) ∧
    (n ≤ bs.length → ∃ s', rdExact n s = .ok (bs.take n) s' ∧ s'.delivered = s.delivered ∧ s'.Late (bs.drop n)) := by
  refine ⟨fun hn => rdExact_late n s (by rw [h.1]; exact h.2.1) h.2.2 (by rw [h.1]; exact hn), fun hn => ?_⟩
  obtain ⟨s', h1, h2⟩ := rdExact_take n s (by rw [h.avail]; exact hn)
  rw [h.avail] at h1
  refine ⟨s', h1, h2.delivered, ?_⟩
  have hl : (bs.take n).length = n := by simp; omega
  exact SD.Late.adv (a := bs.take n) (by rw [List.take_append_drop]; exact h) (by rw [hl]; exact h2)

/-- The head of a topic, cut off anywhere. -/
theorem topicHead_cut (topic : Bytes) (ht : topic.length < 2 ^ 16) (m : Nat) (cut rest : Bytes) (hne : rest ≠ [])
    (hcut : cut ++ rest = Kafka.fetchTopicHead topic m) (s : SD) (h : s.Late cut) :
    ∃ s', topicHead s = .err .timeout s' ∧ s'.delivered = s.delivered := by
  have hlen : cut.length < 2 + topic.length + 4 := by
    have := congrArg List.length hcut
    simp [Kafka.fetchTopicHead] at this
    have : 0 < rest.length := List.length_pos_iff.2 hne
    omega
  unfold topicHead
  rw [FM.bind_def]
  by_cases h2 : cut.length < 2
  · obtain ⟨s', h1, hd⟩ := (rdExact_cut 2 s cut h).1 h2
    exact ⟨s', by rw [h1], hd⟩
  · obtain ⟨s1, h1, hd1, hl1⟩ := (rdExact_cut 2 s cut h).2 (by omega)
    have htake : cut.take 2 = Kafka.int16 topic.length := by
      have := congrArg (List.take 2) hcut
      rw [List.take_append_of_le_length (by omega)] at this
      rw [this]
      simp [Kafka.fetchTopicHead]
    have hbe : beAt 2 0 (Kafka.int16 topic.length) = topic.length := by
      have := beAt_first 2 (Kafka.int16 topic.length) [] (by simp)
      rw [List.append_nil] at this
      rw [this, beVal_int16]
      omega
    rw [h1, htake]
    simp only
    rw [FM.bind_def, hbe]
    by_cases h3 : (cut.drop 2).length < topic.length
    · obtain ⟨s', h4, hd⟩ := (rdExact_cut _ s1 _ hl1).1 h3
      exact ⟨s', by rw [h4], hd.trans hd1⟩
    · obtain ⟨s2, h4, hd2, hl2⟩ := (rdExact_cut topic.length s1 _ hl1).2 (by omega)
      rw [h4]
      simp only
      rw [FM.bind_def]
      obtain ⟨s', h5, hd⟩ := (rdExact_cut 4 s2 _ hl2).1 (by rw [List.length_drop, List.length_drop]; omega)
      exact ⟨s', by rw [h5], hd.trans (hd2.trans hd1)⟩

/-- C181 holds when the time is over in the head of the first topic: the consumer is sent the timeout and nothing else, and the connection is closed. -/
theorem C181_topic_partial (env : FetchEnv) (hacc : ∀ n, env.accept n = true) (hv : env.version = 0 ∨ env.version = 7 ∨ env.version = 10) (h : Kafka.FetchHeader) (n : Nat) (hn : 0 < n ∧ n < 2 ^ 32)
    (topic : Bytes) (ht : topic.length < 2 ^ 16) (m : Nat) (cut rest : Bytes) (hne : rest ≠ []) (hcut : cut ++ rest = Kafka.fetchTopicHead topic m)
    (c : Bytes) (cs : List Bytes) (hc : c ++ cs.flatten = cut) (hmore : (Kafka.fetchHead env.version.toNat h n).length + cut.length < env.totalLength) (late : List Ev) :
    timedFetch env ((Kafka.fetchHead env.version.toNat h n ++ c) :: cs) late =
      some ([{ topicName := [], partitionID := -1, error := some .timeout, message := none }], none) := by
  obtain ⟨k, rfl⟩ : ∃ k, n = k + 1 := ⟨n - 1, by omega⟩
  have hs := (freads_fetchHeader env.version hv h (k + 1) hn.2).all (timedState env ((Kafka.fetchHead env.version.toNat h (k + 1) ++ c) :: cs)) c cs rfl
    (by show _ ≤ env.totalLength; omega)
  have ha := skip_avail (timedState env ((Kafka.fetchHead env.version.toNat h (k + 1) ++ c) :: cs)) (Kafka.fetchHead env.version.toNat h (k + 1)) c cs rfl
    (by show _ ≤ env.totalLength; omega)
  generalize hs1 : (timedState env ((Kafka.fetchHead env.version.toNat h (k + 1) ++ c) :: cs)).skip (Kafka.fetchHead env.version.toNat h (k + 1)) c cs = s1 at hs ha
  have hlate : s1.Late cut := by
    refine SD.Late.adv (a := Kafka.fetchHead env.version.toNat h (k + 1)) ⟨?_, ?_, rfl⟩ ha
    · show (_ :: _).flatten = _
      rw [List.flatten_cons, List.append_assoc, hc]
    · rw [List.length_append]; exact hmore
  obtain ⟨s2, h2, hd⟩ := topicHead_cut topic ht m cut rest hne hcut s1 hlate
  have hd0 : s2.delivered = [] := hd.trans ha.delivered
  have hdec : decodeResponses env s1 = .err .timeout s2 := by
    unfold decodeResponses
    rw [FM.bind_def, h2]
  unfold timedFetch
  rw [show ({ rd := { chunks := (Kafka.fetchHead env.version.toNat h (k + 1) ++ c) :: cs, limit := env.totalLength, fin := .timeout } } : SD) =
    timedState env ((Kafka.fetchHead env.version.toNat h (k + 1) ++ c) :: cs) from rfl]
  unfold streamDecode
  rw [FM.bind_def, show ({ timedState env ((Kafka.fetchHead env.version.toNat h (k + 1) ++ c) :: cs) with offset := 0, hasOne := false } : SD) =
    timedState env ((Kafka.fetchHead env.version.toNat h (k + 1) ++ c) :: cs) from rfl, hs]
  simp only [drainAfter, responsesLoop, hdec, putMessage, hacc, if_true, hd0, List.nil_append]
  rw [if_pos (by decide)]

/-- Non-vacuity: the answer to a request of version 10, one topic, cut within the name of the topic. -/
example : timedFetch { totalLength := 200 } [Kafka.fetchHead 10 ⟨0, 0, 0, 0⟩ 1 ++ [0], [5, 116, 111]] [] =
    some ([{ topicName := [], partitionID := -1, error := some .timeout, message := none }], none) :=
  C181_topic_partial { totalLength := 200 } (fun _ => rfl) (Or.inr (Or.inr rfl)) ⟨0, 0, 0, 0⟩ 1 (by decide) [116, 111, 112, 105, 99] (by decide) 1 [0, 5, 116, 111]
    [112, 105, 99, 0, 0, 0, 1] (by decide) (by decide) [0] [[5, 116, 111]] rfl (by decide) []

end Healer
