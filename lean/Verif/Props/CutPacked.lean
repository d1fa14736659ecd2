import Verif.Props.Damaged

/-!
C16 with compressed batches: the data of a partition are complete batches, compressed or not, and a last one which is cut.
-/

namespace Healer

/-- The batch that is cut, of which `k` bytes are left: it is not compressed; or the codec rejects what is left of its records, as gzip, snappy and lz4 do, whose
formats say where the data end. -/
inductive CutFits (env : FetchEnv) (x : Kafka.Packed) (k : Nat) : Prop
  | plain (h : x.batch.attributes % 4 = 0) (holds : x.payload = x.batch.records.flatMap Kafka.record)
  | rejected (h : x.batch.attributes % 4 ≠ 0) (some : x.batch.records ≠ [])
      (rejects : 61 ≤ k → ∃ e, env.codec (Int8.ofNat (x.batch.attributes % 4).toNat) (x.payload.take (k - 61)) = .error e)

/-- The loop over what is left of a batch whose records are rejected. -/
theorem messageSetLoop_rest (env : FetchEnv) (topic : Bytes) (part : Int32) (x : Kafka.Packed) (hr : BatchRange x.batch)
    (hsz : x.payload.length + 49 < 2 ^ 32) (k : Nat) (hk0 : 0 < k) (hk : k < (Kafka.packed x).length) (hc4 : x.batch.attributes % 4 ≠ 0)
    (hsome : x.batch.records ≠ [])
    (hrej : 61 ≤ k → ∃ e, env.codec (Int8.ofNat (x.batch.attributes % 4).toNat) (x.payload.take (k - 61)) = .error e)
    (s : SD) (hw : s.Whole) (hav : s.avail = (Kafka.packed x).take k) (size off : Int) (fuel : Nat) (hf : s.rd.limit < fuel)
    (hoff : off + s.rd.limit = size) (htotal : s.offset + s.rd.limit = env.totalLength) :
    ∃ s1, Adv s.rd.limit s s1 ∧
      (EndsAt (messageSetLoop env topic part size fuel off s) s1 ∨
        s.hasOne = false ∧ ∃ e, messageSetLoop env topic part size fuel off s = .err (.wrapped (.wrapped e)) s1) := by
  obtain ⟨f, rfl⟩ : ∃ f, fuel = f + 1 := ⟨fuel - 1, by omega⟩
  have hwl := packed_length x
  have hlen := hw.length
  have hlk : s.rd.limit = k := by rw [← hlen, hav, List.length_take]; omega
  rw [messageSetLoop, if_pos (by omega), FM.bind_def]
  have hav' : s.avail = (packHead x ++ (batchFixed x.crc x.batch ++ x.payload)).take k := by rw [hav, packed_eq]
  by_cases h17 : k < 17
  · obtain ⟨s1, h1, h2⟩ := fetchRead_short 17 s hw (by omega)
    rw [h1]
    have hne : s.avail ≠ [] := by intro h; rw [h] at hlen; simp at hlen; omega
    simp only [hne, if_false, if_true]
    rw [hlen] at h2
    exact ⟨s1, h2, Or.inl (Or.inl rfl)⟩
  obtain ⟨s1, h1, h2⟩ := fetchRead_ok 17 s (by omega)
  rw [h1]
  simp only
  have hh : s.avail.take 17 = packHead x := by
    rw [hav', List.take_take, Nat.min_eq_left (by omega), List.take_left' (packHead_length x)]
  rw [hh, if_neg (pack_magic x), FM.bind_def]
  have hav1 : s1.avail = (batchFixed x.crc x.batch ++ x.payload).take (k - 17) := by
    rw [h2.avail, hav', List.drop_take, List.drop_left' (packHead_length x)]
  have hw1 := h2.whole hw
  have hlen1 := hw1.length
  have hlim1 := h2.limit
  by_cases h44 : s1.avail.length < 44
  · obtain ⟨s2, g1, g2⟩ := fetchRead_short 44 s1 hw1 h44
    unfold decodeRecordsMagic2
    rw [FM.bind_def, g1]
    simp only
    have hadv := h2.trans g2
    rw [hlen1, hlim1, show 17 + (s.rd.limit - 17) = s.rd.limit from by omega] at hadv
    by_cases he : s1.avail = []
    · rw [if_pos he, if_neg (by simp)]
      exact ⟨s2, hadv, Or.inl (Or.inr rfl)⟩
    · rw [if_neg he]
      simp only [if_true, FM.pure_def]
      obtain ⟨f', rfl⟩ : ∃ f', f = f' + 1 := ⟨f - 1, by omega⟩
      refine ⟨s2, hadv, Or.inl (Or.inl ?_)⟩
      unfold messageSetLoop
      rw [if_neg (by omega)]
      rfl
  · have hk44 : 44 ≤ k - 17 := by omega
    rw [List.take_append, List.take_of_length_le (by rw [batchFixed_length]; omega), batchFixed_length] at hav1
    obtain ⟨e, hrej⟩ := hrej (by omega)
    unfold decodeRecordsMagic2
    obtain ⟨s2, h3, h4⟩ := fetchRead_ok 44 s1 (by omega)
    rw [FM.bind_def, h3]
    have hgot : s1.avail.take 44 = batchFixed x.crc x.batch := by rw [hav1, List.take_left' (batchFixed_length x.crc x.batch)]
    have hav2 : s2.avail = x.payload.take (k - 61) := by
      rw [h4.avail, hav1, List.drop_left' (batchFixed_length x.crc x.batch), show k - 17 - 44 = k - 61 from by omega]
    obtain ⟨f1, f2, f3, f4, f5⟩ := pack_fields x hsz hr.count
    simp only [hgot, f1, f2, f3, f4, f5]
    rw [if_neg (by have := List.length_pos_iff.2 hsome; omega), FM.bind_def]
    unfold decodeBatchRecords
    have hs : (((x.payload.length + 49 : Nat) : Int) - 49).toNat = x.payload.length := by omega
    rw [hs]
    have hw2 := h4.whole hw1
    have hl2 := hw2.length
    have hlim2 := h4.limit
    obtain ⟨s3, h5, h6⟩ := fetchReadUpTo_ok x.payload.length s2 (Or.inr hw2)
    rw [h5]
    simp only
    rw [Nat.min_eq_right (by omega)] at h6
    have hc0 : ¬ Int8.ofNat (x.batch.attributes % 4).toNat = 0 := by
      have : (x.batch.attributes % 4).toNat = 1 ∨ (x.batch.attributes % 4).toNat = 2 ∨ (x.batch.attributes % 4).toNat = 3 := by
        omega
      rcases this with h | h | h <;> rw [h] <;> decide
    have hun : uncompress env (Int8.ofNat (x.batch.attributes % 4).toNat) (s2.avail.take x.payload.length) none =
        .error (.wrapped e) := by
      rw [hav2, List.take_of_length_le (by rw [List.length_take]; omega)]
      unfold uncompress
      simp only
      rw [if_neg hc0, hrej]
    rw [hun]
    have hadv : Adv s.rd.limit s s3 := by
      have := (h2.trans h4).trans h6
      rwa [show 17 + 44 + s2.avail.length = s.rd.limit from by omega] at this
    have hfe : fetchEnd env s3 = true := by
      unfold fetchEnd
      rw [hadv.offset]
      simp only [decide_eq_true_eq]
      omega
    refine ⟨s3, hadv, ?_⟩
    simp only
    rw [hfe, hadv.hasOne, Bool.true_and]
    cases ho : s.hasOne with
    | true =>
      refine Or.inl (Or.inl ?_)
      simp only [if_true, FM.pure_def]
      obtain ⟨f', rfl⟩ : ∃ f', f = f' + 1 := ⟨f - 1, by omega⟩
      rw [messageSetLoop, if_neg (by omega)]
      rfl
    | false => exact Or.inr ⟨rfl, e, rfl⟩

theorem packed_plain (x : Kafka.Packed) (h : x.payload = x.batch.records.flatMap Kafka.record) : Kafka.packed x = Kafka.batchWithCrc x.crc x.batch := by
  rw [packed_eq, batchWithCrc_eq, h]
  congr 1
  unfold packHead batchHead
  rw [h, show ((Kafka.batchTail x.batch).length : Int) + 9 = ((x.batch.records.flatMap Kafka.record).length : Int) + 49 by
    rw [batchTail_length]; omega]

/-- The messages of a list of batches, as the specification has them. -/
theorem seen_batches (xs : List Kafka.Packed) (hx : ∀ x ∈ xs, BatchRange x.batch) :
    (xs.flatMap fun x => batchMessages x.batch).map Message.seen = xs.flatMap fun x => Kafka.stored x.batch := by
  rw [List.map_flatMap]
  induction xs with
  | nil => rfl
  | cons x l ih =>
    rw [List.flatMap_cons, List.flatMap_cons, seen_batch x.batch (hx x (by simp)), ih (fun y hy => hx y (by simp [hy]))]

/-- C16 for all batches of version 2: the data of the partition are complete batches, compressed or not, and the first `k` bytes of another one.  The consumer is
handed, in order, a prefix of what it would be handed from the complete data - at least all messages of the complete batches - and no error; or, if that prefix
is empty, just an error.  The connection is left at the next response.  Missing for the full statement: legacy messages, for which it fails
(`C16_violated_legacy`). -/
theorem C16_compressed_partial (env : FetchEnv) (hacc : ∀ n, env.accept n = true) (unpack : Nat → Bytes → Option Bytes)
    (xs : List Kafka.Packed) (hx : ∀ x ∈ xs, LogFits env unpack x) (x : Kafka.Packed) (hr : BatchRange x.batch) (hsz : x.payload.length + 49 < 2 ^ 32)
    (k : Nat) (hk0 : 0 < k) (hk : k < (Kafka.packed x).length) (hcut : CutFits env x k) (h : Kafka.FetchHeader) (topic : Bytes) (p : Kafka.FetchPartition)
    (hdata : p.data = xs.flatMap Kafka.packed ++ (Kafka.packed x).take k) (rest : Bytes) (s : SD)
    (w : OnWire env h topic p rest s) (htotal : env.totalLength = s.rd.limit) :
    ∃ s' ms, streamDecode env s = .ok () s' ∧ s'.delivered = s.delivered ++ ms ∧ s'.rd.flat = rest ∧ s'.rd.limit = 0 ∧
      ∃ pre, pre <+: Kafka.stored x.batch ∧
        (let want := expected topic p.partition env.startOffset.toInt ((xs.flatMap fun x => Kafka.stored x.batch) ++ pre)
         want = [] ∧ (∃ e, ms = [⟨[], -1, some e, none⟩]) ∨ want ≠ [] ∧ ms.map FullMessage.seen = want.map some) := by
  have hwl := packed_length x
  have htk : ((Kafka.packed x).take k).length = k := by rw [List.length_take]; omega
  have hdl := congrArg List.length hdata
  rw [List.length_append, htk] at hdl
  have hne : p.data ≠ [] := List.length_pos_iff.1 (by omega)
  obtain ⟨s1, ⟨a1, a2, a3, a4, a5, a6⟩, hi, hpid, hoffs, hdec⟩ := w.decodeAt hne
  rw [hdec]
  have hpw : packsWire xs = xs.flatMap Kafka.packed := rfl
  obtain ⟨s2, f, g1, g2, g3⟩ := messageSetLoop_first env hacc topic (Int32.ofInt p.partition) xs (fun x hx' => (hx x hx').pack)
    (fun x hx' => (hx x hx').empty) s1 ((Kafka.packed x).take k) (by rw [a1, hdata, hpw]) (Int32.ofInt p.data.length).toInt 0
    (s1.rd.limit + 1) (by omega) (by rw [hi, hpw]; omega)
  have hseen := seen_batches xs (fun x hx' => (hx x hx').range)
  have hav2 : s2.avail = (Kafka.packed x).take k := by rw [g2.avail, a1, hdata, hpw, List.drop_left]
  have hlim2 : s2.rd.limit = k := by rw [g2.limit, a2, hpw]; omega
  have hdrain : ∀ s3, Adv s2.rd.limit s2 s3 → s3.rd.drain.flat = rest ∧ s3.rd.drain.limit = 0 := by
    intro s3 h3
    refine drain_rest (data := []) ?_ ?_
    · rw [h3.flat, g2.flat, a3, hlim2, List.drop_drop, List.nil_append]
      exact List.drop_left' (by rw [hpw]; omega)
    · rw [h3.limit]; simp
  have key : ∀ (s3 : SD) (pre : List Message), pre <+: batchMessages x.batch → Adv s2.rd.limit s2 s3 →
      EndsAt (messageSetLoop env topic (Int32.ofInt p.partition) (Int32.ofInt p.data.length).toInt (s1.rd.limit + 1) 0 s1)
        (s3.deliver (wanted env topic (Int32.ofInt p.partition) ((xs.flatMap fun x => batchMessages x.batch) ++ pre))) →
      ∃ s' ms, finishOne env (decodeMessageSet env topic (Int32.ofInt p.partition) (Int32.ofInt p.data.length) s1) = .ok () s' ∧
        s'.delivered = s.delivered ++ ms ∧ s'.rd.flat = rest ∧ s'.rd.limit = 0 ∧
        ∃ pre, pre <+: Kafka.stored x.batch ∧
        (let want := expected topic p.partition env.startOffset.toInt ((xs.flatMap fun x => Kafka.stored x.batch) ++ pre)
         want = [] ∧ (∃ e, ms = [⟨[], -1, some e, none⟩]) ∨ want ≠ [] ∧ ms.map FullMessage.seen = want.map some) := by
    intro s3 pre hpre h3 hends
    obtain ⟨s', r1, r2, r3⟩ := finishOne_endsAt env hacc topic (Int32.ofInt p.partition) (Int32.ofInt p.data.length) s1 s3 a5
      (by rw [h3.hasOne, g2.hasOne, a5]) _ hends
    refine ⟨s', _, r1, by rw [r2, h3.delivered, g2.delivered, a6], by rw [r3]; exact (hdrain s3 h3).1, by rw [r3]; exact (hdrain s3 h3).2,
      pre.map Message.seen, ?_, ?_⟩
    · rw [← seen_batch x.batch hr]
      exact hpre.map Message.seen
    · have w1 := seen_wanted env topic (Int32.ofInt p.partition) ((xs.flatMap fun x => batchMessages x.batch) ++ pre)
      have w2 := wanted_nil_iff env topic (Int32.ofInt p.partition) ((xs.flatMap fun x => batchMessages x.batch) ++ pre)
      rw [List.map_append, hseen, hpid] at w1 w2
      simp only
      by_cases hw0 : wanted env topic (Int32.ofInt p.partition) ((xs.flatMap fun x => batchMessages x.batch) ++ pre) = []
      · rw [if_pos hw0]
        exact Or.inl ⟨w2.1 hw0, _, rfl⟩
      · rw [if_neg hw0]
        exact Or.inr ⟨fun hh => hw0 (w2.2 hh), w1⟩
  cases hcut with
  | plain hc hp =>
    obtain ⟨s3, pre, hpre, hends, hadv⟩ := messageSetLoop_cut env hacc topic (Int32.ofInt p.partition) [(x.crc, x.batch)]
      (by
        intro y hy
        rw [List.mem_singleton] at hy
        subst hy
        exact ⟨hr.records, hr.count, by rw [← hp]; exact hsz, hc⟩)
      (s2.deliver (wanted env topic (Int32.ofInt p.partition) (xs.flatMap fun x => batchMessages x.batch))) (g2.whole a4) k
      (by
        rw [deliver_avail, hav2, packed_plain x hp]
        simp [batchesWire])
      (Int32.ofInt p.data.length).toInt (0 + (packsWire xs).length) f g3 (by rw [deliver_rd, hi, hpw, hlim2]; omega)
    obtain ⟨s4, e1, e2⟩ := adv_undeliver (gs := wanted env topic (Int32.ofInt p.partition) pre) hadv
    refine key s4 pre (by simpa using hpre) e2 ?_
    rw [g1, wanted_append, ← e1]
    exact hends
  | rejected hc hs hrej =>
    obtain ⟨s3, hadv, hres⟩ := messageSetLoop_rest env topic (Int32.ofInt p.partition) x hr hsz k hk0 hk hc hs hrej
      (s2.deliver (wanted env topic (Int32.ofInt p.partition) (xs.flatMap fun x => batchMessages x.batch))) (g2.whole a4)
      (by rw [deliver_avail, hav2]) (Int32.ofInt p.data.length).toInt (0 + (packsWire xs).length) f g3
      (by rw [deliver_rd, hi, hpw, hlim2]; omega)
      (by
        show s2.offset + s2.rd.limit = _
        rw [g2.offset, htotal, hpw, hlim2]
        omega)
    rcases hres with hends | ⟨hone, e, herr⟩
    · obtain ⟨s4, e1, e2⟩ := adv_undeliver (gs := []) hadv
      refine key s4 [] List.nil_prefix e2 ?_
      rw [g1, wanted_append, show wanted env topic (Int32.ofInt p.partition) [] = [] from rfl, ← e1, SD.deliver_nil]
      exact hends
    · have hfs : wanted env topic (Int32.ofInt p.partition) (xs.flatMap fun x => batchMessages x.batch) = [] := by
        simp only [SD.deliver, Bool.or_eq_false_iff] at hone
        simpa using hone.2
      obtain ⟨s', es, r1, r2, r3, r4⟩ := finishOne_damaged env hacc topic (Int32.ofInt p.partition) (Int32.ofInt p.data.length) s1 s3 e
        (by rw [g1, herr])
      have hadv' : Adv s2.rd.limit s2 s3 := by rw [hfs, SD.deliver_nil] at hadv; exact hadv
      have w2 := wanted_nil_iff env topic (Int32.ofInt p.partition) (xs.flatMap fun x => batchMessages x.batch)
      rw [hseen, hpid] at w2
      refine ⟨s', es, r1, by rw [r2, hadv'.delivered, g2.delivered, a6], by rw [r3]; exact (hdrain s3 hadv').1, by rw [r3]; exact (hdrain s3 hadv').2,
        [], List.nil_prefix, Or.inl ⟨by rw [List.append_nil]; exact w2.1 hfs, ?_⟩⟩
      rcases r4 with ⟨q1, q2, q3⟩ | q
      · rw [hadv'.hasOne, g2.hasOne, a5] at q2
        cases q2
      · exact q

/-- a codec that gives back what it gets if that ends with 1, and otherwise complains about a premature end -/
def endingCodec (start : Int64) (n : Nat) : FetchEnv :=
  { startOffset := start, totalLength := n, codec := fun _ b => if b.getLast? = some 1 then .ok b.dropLast else .error .unexpectedEof }

/-- a batch for this codec -/
def endingPacked : Kafka.Packed := { samplePacked 1 with payload := (samplePacked 0).payload ++ [1] }

/-- a good batch and a cut one: the messages of the good one -/
example : runOn (endingCodec 40 (sampleResponse (Kafka.packed endingPacked ++ (Kafka.packed endingPacked).take 70)).length)
    (sampleResponse (Kafka.packed endingPacked ++ (Kafka.packed endingPacked).take 70)) =
    some ⟨[some ⟨[116], 3, ⟨40, 1000, [107], [118], []⟩⟩, some ⟨[116], 3, ⟨41, 1007, [], [118, 119], [([104], [1])]⟩⟩,
      some ⟨[116], 3, ⟨42, 1009, [], [], []⟩⟩], [99]⟩ := by decide +kernel

/-- only a cut one: an error -/
example : runOn (endingCodec 40 (sampleResponse ((Kafka.packed endingPacked).take 70)).length)
    (sampleResponse ((Kafka.packed endingPacked).take 70)) = some ⟨[none], [99]⟩ := by decide +kernel

example : CutFits (endingCodec 40 0) endingPacked 70 :=
  .rejected (by decide) (by decide) (fun _ => ⟨.unexpectedEof, rfl⟩)

end Healer
