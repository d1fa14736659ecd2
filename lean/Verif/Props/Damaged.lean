import Verif.Props.Fetch

/-!
# C140: a batch that cannot be decompressed

The decoder of a fetch response comes to a batch whose records the codec rejects.
-/

namespace Healer

theorem OnWire.decodeAt {env : FetchEnv} {h : Kafka.FetchHeader} {topic : Bytes} {p : Kafka.FetchPartition} {rest : Bytes}
    {s : SD} (w : OnWire env h topic p rest s) (hpos : p.data ≠ []) :
    ∃ s1, (s1.avail = p.data ∧ s1.rd.limit = p.data.length ∧ s1.rd.flat = p.data ++ rest ∧ s1.Whole ∧
        s1.hasOne = false ∧ s1.delivered = s.delivered) ∧ (Int32.ofInt p.data.length).toInt = p.data.length ∧
      (Int32.ofInt p.partition).toInt = p.partition ∧ s1.offset + p.data.length = s.rd.limit ∧
      streamDecode env s = finishOne env (decodeMessageSet env topic (Int32.ofInt p.partition) (Int32.ofInt p.data.length) s1) := by
  obtain ⟨c, cs, hc⟩ := w.chunk
  have hb := w.bytes
  have hl := w.limit
  have hsz := w.size
  have hp := w.partition
  rw [fetchResponse_one] at hb hl
  obtain ⟨s1, h1, h2⟩ := streamDecode_one env w.version h topic w.name p w.aborted w.noError s c cs hc
    (by rw [hl, List.length_append]; omega)
  have hlen : 0 < p.data.length := List.length_pos_iff.2 hpos
  have hi : (Int32.ofInt p.data.length).toInt = p.data.length := Int32.toInt_ofInt_of_le (by omega) (by omega)
  refine ⟨s1, afterHead hb hl h1, hi, Int32.toInt_ofInt_of_le (by omega) (by omega), ?_, ?_⟩
  · rw [h1.offset, hl, List.length_append]
    simp
  · rw [h2, if_neg (by
      rw [Int32.le_iff_toInt_le, hi]
      show ¬ ((p.data.length : Int) ≤ 0)
      omega)]

/-- The loop over the first, complete batches. -/
theorem messageSetLoop_first (env : FetchEnv) (hacc : ∀ n, env.accept n = true) (topic : Bytes) (part : Int32)
    (xs : List Kafka.Packed) (hb : ∀ x ∈ xs, PackFits env x) (hz : ∀ x ∈ xs, x.batch.records = [] → x.payload = [])
    (s : SD) (more : Bytes) (hav : s.avail = packsWire xs ++ more) (size off : Int) (fuel : Nat) (hf : s.rd.limit < fuel)
    (hoff : off + (packsWire xs).length < size) :
    ∃ s1 f, messageSetLoop env topic part size fuel off s =
        messageSetLoop env topic part size f (off + (packsWire xs).length)
          (s1.deliver (wanted env topic part (xs.flatMap fun x => batchMessages x.batch))) ∧
      Adv (packsWire xs).length s s1 ∧ s1.rd.limit < f := by
  induction xs generalizing s off fuel with
  | nil =>
    refine ⟨s, fuel, ?_, Adv.zero s, hf⟩
    simp [packsWire, wanted, SD.deliver_nil]
  | cons x xs ih =>
    obtain ⟨f, rfl⟩ : ∃ f, fuel = f + 1 := ⟨fuel - 1, by omega⟩
    have hw : packsWire (x :: xs) = Kafka.packed x ++ packsWire xs := by simp [packsWire]
    have hwl := packed_length x
    rw [hw, List.length_append] at hoff
    have hfits := hb x (by simp)
    rw [messageSetLoop, if_pos (by omega)]
    have hav' : s.avail = packHead x ++ (batchFixed x.crc x.batch ++ (x.payload ++ (packsWire xs ++ more))) := by
      rw [hav, hw, packed_eq]; simp only [List.append_assoc]
    obtain ⟨s1, h1, h2⟩ := fetchRead_ok 17 s (by rw [hav', List.length_append, packHead_length]; omega)
    rw [FM.bind_def, h1]
    simp only
    have hh : s.avail.take 17 = packHead x := by rw [hav', List.take_left' (packHead_length x)]
    rw [hh, if_neg (pack_magic x), FM.bind_def]
    have hav1 : s1.avail = batchFixed x.crc x.batch ++ (x.payload ++ (packsWire xs ++ more)) := by
      rw [h2.avail, hav', List.drop_left' (packHead_length x)]
    obtain ⟨s2, e1, e2⟩ := decodeRecordsMagic2_packed env hacc topic part x hfits s1 _ hav1 (hz x (by simp))
    rw [e1]
    simp only
    have h12 := h2.trans e2
    have hlim := h12.limit
    have havl : s.avail.length ≤ s.rd.limit := by unfold SD.avail; rw [List.length_take]; omega
    have hcl : 61 + x.payload.length ≤ s.avail.length := by
      rw [hav, hw, List.length_append, List.length_append]; omega
    have hav2 : s2.avail = packsWire xs ++ more := by
      rw [h12.avail, hav, hw, List.append_assoc]
      exact List.drop_left' (by omega)
    obtain ⟨s3, f', g1, g2, g3⟩ := ih (fun y hy => hb y (by simp [hy])) (fun y hy => hz y (by simp [hy]))
      (s2.deliver (wanted env topic part (batchMessages x.batch))) hav2
      (off + 17 + ((44 + x.payload.length : Nat) : Int)) f
      (by rw [deliver_rd]; omega) (by omega)
    rw [g1]
    obtain ⟨s4, d1, d2⟩ := adv_undeliver (gs := wanted env topic part (xs.flatMap fun x => batchMessages x.batch)) g2
    have hrd : s3.rd = s4.rd := by
      have := congrArg SD.rd d1
      rwa [deliver_rd, deliver_rd] at this
    refine ⟨s4, f', ?_, ?_, by rw [← hrd]; exact g3⟩
    · rw [d1, List.flatMap_cons, wanted_append, hw, List.length_append, hwl]
      congr 1
      omega
    · rw [hw, List.length_append, hwl]
      have := h12.trans d2
      rwa [show 17 + (44 + x.payload.length) + (packsWire xs).length
        = 61 + x.payload.length + (packsWire xs).length from by omega] at this

/-- A batch whose records the codec rejects. -/
structure Damaged (env : FetchEnv) (x : Kafka.Packed) (e : Err) : Prop where
  size : x.payload.length + 49 < 2 ^ 32
  some : x.batch.records ≠ []
  count : x.batch.records.length < 2 ^ 32
  codec : x.batch.attributes % 4 ≠ 0
  rejects : env.codec (Int8.ofNat (x.batch.attributes % 4).toNat) x.payload = .error e

/-- A round of the loop with a damaged batch. -/
theorem messageSetLoop_damaged (env : FetchEnv) (topic : Bytes) (part : Int32) (x : Kafka.Packed) (e : Err) (hx : Damaged env x e)
    (s : SD) (more : Bytes) (hav : s.avail = Kafka.packed x ++ more) (size off : Int) (fuel : Nat) (hf : s.rd.limit < fuel)
    (hoff : off < size) (hend : off + (Kafka.packed x).length + more.length = size)
    (htotal : s.offset + (Kafka.packed x).length + more.length = env.totalLength) :
    ∃ s1, Adv (Kafka.packed x).length s s1 ∧
      ((s.hasOne = true ∧ more = [] ∧ messageSetLoop env topic part size fuel off s = .ok () s1) ∨
        ((s.hasOne = true → more ≠ []) ∧ messageSetLoop env topic part size fuel off s = .err (.wrapped (.wrapped e)) s1)) := by
  obtain ⟨f, rfl⟩ : ∃ f, fuel = f + 1 := ⟨fuel - 1, by omega⟩
  have hwl := packed_length x
  rw [messageSetLoop, if_pos hoff]
  have hav' : s.avail = packHead x ++ (batchFixed x.crc x.batch ++ (x.payload ++ more)) := by
    rw [hav, packed_eq]; simp only [List.append_assoc]
  have havl : s.avail.length ≤ s.rd.limit := by unfold SD.avail; rw [List.length_take]; omega
  have hcl : 61 + x.payload.length ≤ s.avail.length := by rw [hav, List.length_append]; omega
  obtain ⟨s1, h1, h2⟩ := fetchRead_ok 17 s (by rw [hav', List.length_append, packHead_length]; omega)
  rw [FM.bind_def, h1]
  simp only
  have hh : s.avail.take 17 = packHead x := by rw [hav', List.take_left' (packHead_length x)]
  rw [hh, if_neg (pack_magic x), FM.bind_def]
  have hav1 : s1.avail = batchFixed x.crc x.batch ++ (x.payload ++ more) := by
    rw [h2.avail, hav', List.drop_left' (packHead_length x)]
  unfold decodeRecordsMagic2
  obtain ⟨s2, h3, h4⟩ := fetchRead_ok 44 s1 (by rw [hav1, List.length_append, batchFixed_length]; omega)
  rw [FM.bind_def, h3]
  have hgot : s1.avail.take 44 = batchFixed x.crc x.batch := by rw [hav1, List.take_left' (batchFixed_length x.crc x.batch)]
  have hav2 : s2.avail = x.payload ++ more := by
    rw [h4.avail, hav1, List.drop_left' (batchFixed_length x.crc x.batch)]
  obtain ⟨f1, f2, f3, f4, f5⟩ := pack_fields x hx.size hx.count
  simp only [hgot, f1, f2, f3, f4, f5]
  rw [if_neg (by have := List.length_pos_iff.2 hx.some; omega), FM.bind_def]
  unfold decodeBatchRecords
  have hs : (((x.payload.length + 49 : Nat) : Int) - 49).toNat = x.payload.length := by omega
  rw [hs]
  have hl : x.payload.length ≤ s2.avail.length := by rw [hav2]; simp
  obtain ⟨s3, h5, h6⟩ := fetchReadUpTo_ok x.payload.length s2 (Or.inl hl)
  rw [h5]
  simp only
  rw [Nat.min_eq_left hl] at h6
  have hc0 : ¬ Int8.ofNat (x.batch.attributes % 4).toNat = 0 := by
    have := hx.codec
    have : (x.batch.attributes % 4).toNat = 1 ∨ (x.batch.attributes % 4).toNat = 2 ∨ (x.batch.attributes % 4).toNat = 3 := by
      omega
    rcases this with h | h | h <;> rw [h] <;> decide
  have hun : uncompress env (Int8.ofNat (x.batch.attributes % 4).toNat) (s2.avail.take x.payload.length) none =
      .error (.wrapped e) := by
    rw [hav2, List.take_left' rfl]
    unfold uncompress
    simp only
    rw [if_neg hc0, hx.rejects]
  rw [hun]
  have hadv : Adv (Kafka.packed x).length s s3 := by
    have := (h2.trans h4).trans h6
    rwa [show 17 + 44 + x.payload.length = (Kafka.packed x).length from by omega] at this
  have hfe : fetchEnd env s3 = decide (more = []) := by
    unfold fetchEnd
    rw [hadv.offset]
    apply decide_eq_decide.2
    rw [← List.length_eq_zero_iff]
    omega
  refine ⟨s3, hadv, ?_⟩
  simp only
  by_cases hm : s.hasOne = true ∧ more = []
  · refine Or.inl ⟨hm.1, hm.2, ?_⟩
    rw [hfe, hadv.hasOne, hm.1, hm.2]
    simp only [decide_true, Bool.and_self, if_true, FM.pure_def]
    have hlim := hadv.limit
    obtain ⟨f', rfl⟩ : ∃ f', f = f' + 1 := ⟨f - 1, by omega⟩
    rw [messageSetLoop, if_neg (by
      have := hend
      rw [hm.2, List.length_nil] at this
      omega)]
    rfl
  · refine Or.inr ⟨fun h1 h2 => hm ⟨h1, h2⟩, ?_⟩
    have : ¬ (fetchEnd env s3 && s3.hasOne) = true := by
      rw [hfe, hadv.hasOne]
      simp only [Bool.and_eq_true, decide_eq_true_eq]
      exact fun h => hm ⟨h.2, h.1⟩
    rw [if_neg this]

/-- What becomes of the error of a damaged batch. -/
theorem finishOne_damaged (env : FetchEnv) (hacc : ∀ n, env.accept n = true) (topic : Bytes) (part size : Int32) (s s3 : SD) (e : Err)
    (h : messageSetLoop env topic part size.toInt (s.rd.limit + 1) 0 s = .err (.wrapped (.wrapped e)) s3) :
    ∃ s' es, finishOne env (decodeMessageSet env topic part size s) = .ok () s' ∧ s'.delivered = s3.delivered ++ es ∧
      s'.rd = s3.rd.drain ∧
      (es = [] ∧ s3.hasOne = true ∧ (e.is .eof || e.is .unexpectedEof) = true ∨ ∃ e', es = [⟨[], -1, some e', none⟩]) := by
  unfold decodeMessageSet FM.after
  change (fun s : SD => messageSetLoop env topic part size.toInt (s.rd.limit + 1) 0 s) s = _ at h
  generalize (fun s : SD => messageSetLoop env topic part size.toInt (s.rd.limit + 1) 0 s) = m at h ⊢
  have h1 : (Err.wrapped (Err.wrapped e)).is .eof = e.is .eof := by simp [Err.is]
  have h2 : (Err.wrapped (Err.wrapped e)).is .unexpectedEof = e.is .unexpectedEof := by simp [Err.is]
  rw [h]
  simp only
  by_cases hc : ((e.is .eof || e.is .unexpectedEof) && s3.hasOne) = true
  · have hk : messageSetFix s3 (some (.wrapped (.wrapped e))) = none := by
      simp only [messageSetFix, h1, h2, reduceCtorEq, decide_false, Bool.or_false, hc, if_true]
      simp only [Bool.and_eq_true] at hc
      simp [hc.2]
    rw [hk]
    simp only [Bool.and_eq_true] at hc
    exact ⟨_, [], rfl, (List.append_nil _).symm, rfl, Or.inl ⟨rfl, hc.2, hc.1⟩⟩
  · have hk : messageSetFix s3 (some (.wrapped (.wrapped e))) = some (.wrapped (.wrapped e)) := by
      simp only [messageSetFix, h1, h2, reduceCtorEq, decide_false, Bool.or_false, hc]
      simp
    rw [hk]
    simp only [finishOne, drainAfter, putMessage, hacc, if_true]
    exact ⟨_, _, rfl, rfl, rfl, Or.inr ⟨_, rfl⟩⟩

/-- C140.  A fetch response holds complete batches, then one whose records the codec rejects, then whatever else.  The
consumer is handed exactly the stored messages of the batches before it, from the offset asked for on, and after them at
most an error: nothing of the damaged batch and nothing stored after it.  The error is there whenever there was no message
before it - so the fetch that begins at the damaged batch always says so - and also when the response goes on after the
batch, unless the codec complains about a premature end. -/
theorem C140_not_skipped (env : FetchEnv) (hacc : ∀ n, env.accept n = true) (unpack : Nat → Bytes → Option Bytes)
    (xs : List Kafka.Packed) (hx : ∀ x ∈ xs, LogFits env unpack x) (x : Kafka.Packed) (e : Err) (hd : Damaged env x e)
    (more : Bytes) (h : Kafka.FetchHeader) (topic : Bytes) (p : Kafka.FetchPartition)
    (hdata : p.data = xs.flatMap Kafka.packed ++ (Kafka.packed x ++ more)) (rest : Bytes) (s : SD)
    (w : OnWire env h topic p rest s) (htotal : env.totalLength = s.rd.limit) :
    ∃ s' ms es, streamDecode env s = .ok () s' ∧ s'.delivered = s.delivered ++ (ms ++ es) ∧ s'.rd.flat = rest ∧
      s'.rd.limit = 0 ∧
      (let want := expected topic p.partition env.startOffset.toInt (xs.flatMap fun x => Kafka.stored x.batch)
       ms.map FullMessage.seen = want.map some ∧
       (es = [] ∧ want ≠ [] ∧ (more = [] ∨ (e.is .eof || e.is .unexpectedEof) = true) ∨
        ∃ e', es = [⟨[], -1, some e', none⟩])) := by
  have hwl := packed_length x
  have hdl := congrArg List.length hdata
  rw [List.length_append, List.length_append] at hdl
  have hne : p.data ≠ [] := List.length_pos_iff.1 (by omega)
  obtain ⟨s1, ⟨a1, a2, a3, a4, a5, a6⟩, hi, hpid, hoffs, hdec⟩ := w.decodeAt hne
  rw [hdec]
  have hpw : packsWire xs = xs.flatMap Kafka.packed := rfl
  obtain ⟨s2, f, g1, g2, g3⟩ := messageSetLoop_first env hacc topic (Int32.ofInt p.partition) xs (fun x hx' => (hx x hx').pack)
    (fun x hx' => (hx x hx').empty) s1 (Kafka.packed x ++ more) (by rw [a1, hdata, hpw]) (Int32.ofInt p.data.length).toInt 0
    (s1.rd.limit + 1) (by omega) (by rw [hi, hpw]; omega)
  have hseen : (xs.flatMap fun x => batchMessages x.batch).map Message.seen = xs.flatMap fun x => Kafka.stored x.batch := by
    rw [List.map_flatMap]
    have : ∀ (l : List Kafka.Packed), (∀ x ∈ l, BatchRange x.batch) →
        l.flatMap (fun x => (batchMessages x.batch).map Message.seen) = l.flatMap fun x => Kafka.stored x.batch := by
      intro l hl
      induction l with
      | nil => rfl
      | cons x l ih =>
        rw [List.flatMap_cons, List.flatMap_cons, seen_batch x.batch (hl x (by simp)), ih (fun y hy => hl y (by simp [hy]))]
    exact this xs (fun x hx' => (hx x hx').range)
  have w1 := seen_wanted env topic (Int32.ofInt p.partition) (xs.flatMap fun x => batchMessages x.batch)
  have w2 := wanted_nil_iff env topic (Int32.ofInt p.partition) (xs.flatMap fun x => batchMessages x.batch)
  rw [hseen, hpid] at w1 w2
  generalize wanted env topic (Int32.ofInt p.partition) (xs.flatMap fun x => batchMessages x.batch) = fs at *
  have hone : (s2.deliver fs).hasOne = true ↔ fs ≠ [] := by
    unfold SD.deliver
    rw [g2.hasOne, a5]
    cases fs <;> simp
  obtain ⟨s3, k1, k2⟩ := messageSetLoop_damaged env topic (Int32.ofInt p.partition) x e hd (s2.deliver fs) more
    (by
      show s2.avail = _
      rw [g2.avail, a1, hdata, hpw, List.drop_left])
    (Int32.ofInt p.data.length).toInt (0 + (packsWire xs).length) f (by rw [deliver_rd]; exact g3) (by rw [hi, hpw]; omega)
    (by rw [hi, hpw]; omega)
    (by
      show s2.offset + _ + _ = _
      rw [g2.offset, htotal, hpw]
      omega)
  have hdel : s3.delivered = s.delivered ++ fs := by
    rw [k1.delivered]
    show s2.delivered ++ fs = _
    rw [g2.delivered, a6]
  have hdrain : s3.rd.drain.flat = rest ∧ s3.rd.drain.limit = 0 := by
    refine drain_rest (data := more) ?_ ?_
    · rw [k1.flat, deliver_rd, g2.flat, a3, hdata, hpw, List.append_assoc, List.drop_left, List.append_assoc, List.drop_left]
    · rw [k1.limit, deliver_rd, g2.limit, a2, hpw]
      omega
  rcases k2 with ⟨c1, c2, c3⟩ | ⟨c1, c3⟩
  · obtain ⟨s', r1, r2, r3⟩ := finishOne_endsAt env hacc topic (Int32.ofInt p.partition) (Int32.ofInt p.data.length) s1
      { s3 with delivered := s.delivered, hasOne := false } a5 rfl fs (Or.inl (by
        rw [g1, c3]
        unfold SD.deliver
        have : s3.hasOne = true := by rw [k1.hasOne]; exact c1
        have hf : fs ≠ [] := hone.1 c1
        simp only [Bool.false_or]
        rw [← hdel, show (!fs.isEmpty) = s3.hasOne by rw [this]; simpa using hf]))
    have hf : fs ≠ [] := hone.1 c1
    rw [if_neg hf] at r2
    refine ⟨s', fs, [], r1, by rw [r2, List.append_nil], by rw [r3]; exact hdrain.1, by rw [r3]; exact hdrain.2, w1,
      Or.inl ⟨rfl, fun hh => hf (w2.2 hh), Or.inl c2⟩⟩
  · obtain ⟨s', es, r1, r2, r3, r4⟩ := finishOne_damaged env hacc topic (Int32.ofInt p.partition) (Int32.ofInt p.data.length) s1 s3 e
      (by rw [g1, c3])
    refine ⟨s', fs, es, r1, by rw [r2, hdel, List.append_assoc], by rw [r3]; exact hdrain.1, by rw [r3]; exact hdrain.2, w1, ?_⟩
    rcases r4 with ⟨q1, q2, q3⟩ | q
    · refine Or.inl ⟨q1, fun hh => ?_, Or.inr q3⟩
      rw [k1.hasOne] at q2
      exact hone.1 q2 (w2.2 hh)
    · exact Or.inr q

/-- a codec that rejects everything -/
def noCodec (start : Int64) (n : Nat) : FetchEnv := { startOffset := start, totalLength := n, codec := fun _ _ => .error (.other "broken") }

/-- data with a damaged batch between two good ones -/
def damagedData : Bytes := Kafka.packed (samplePacked 0) ++ (Kafka.packed (samplePacked 1) ++ Kafka.packed (samplePacked 0))

/-- The good batch, then the error; the batch after it is not delivered. -/
example : runOn (noCodec 40 (sampleResponse damagedData).length) (sampleResponse damagedData) =
    some ⟨[some ⟨[116], 3, ⟨40, 1000, [107], [118], []⟩⟩, some ⟨[116], 3, ⟨41, 1007, [], [118, 119], [([104], [1])]⟩⟩,
      some ⟨[116], 3, ⟨42, 1009, [], [], []⟩⟩, none], [99]⟩ := by decide +kernel

example : Damaged (noCodec 40 0) (samplePacked 1) (.other "broken") :=
  ⟨by decide +kernel, by decide, by decide, by decide, rfl⟩

end Healer
