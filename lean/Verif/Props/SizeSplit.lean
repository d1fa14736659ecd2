import Verif.Props.OldFormat

/-!
# C18: a response split inside the size of the record data
-/

namespace Healer

/-- `m` reads exactly `pre` when it is what is left of the first chunk. -/
structure FEnds {α : Type} (m : FM α) (pre : Bytes) (a : α) : Prop where
  all : ∀ (s : SD) (cs : List Bytes), s.rd.chunks = pre :: cs → pre.length ≤ s.rd.limit → m s = .ok a (s.skip pre [] cs)

theorem FEnds.bind {α β : Type} {m : FM α} {f : α → FM β} {p q : Bytes} {a : α} {b : β} (h1 : FReads m p a) (h2 : FEnds (f a) q b) : FEnds (m >>= f) (p ++ q) b := by
  refine ⟨fun s cs h hl => ?_⟩
  rw [FM.bind_def, h1.all s q cs h (by rw [List.length_append] at hl; omega)]
  simp only
  rw [h2.all (s.skip p q cs) cs rfl (by rw [List.length_append] at hl; show _ ≤ s.rd.limit - p.length; omega), skip_skip]

theorem FEnds.bind_pure {α β : Type} {m : FM α} {f : α → β} {p : Bytes} {a : α} (h1 : FEnds m p a) : FEnds (m >>= fun x => Pure.pure (f x)) p (f a) := by
  refine ⟨fun s cs h hl => ?_⟩
  rw [FM.bind_def, h1.all s cs h hl]
  rfl

theorem fends_rdBuf (got buf : Bytes) (k : Nat) (hpos : got ≠ []) (hk : got.length ≤ k) : FEnds (rdBuf k buf) got (got ++ buf.drop got.length) := by
  refine ⟨fun s cs h hl => ?_⟩
  unfold rdBuf
  rw [FM.bind_def, fetchRead1_chunk got [] k s cs hpos (by rw [List.append_nil]; exact h) hk hl (.inr (.inr rfl))]
  rfl

/-- What is in the first four bytes of the buffer before the size is read: all zero, as is the case after the high watermark if that is below 2³² (version 0), and after an
empty list of aborted transactions (versions 7 and 10). -/
def ZeroBefore (v : UInt16) (p : Kafka.FetchPartition) : Prop :=
  (v = 0 ∧ 0 ≤ p.highWatermark ∧ p.highWatermark < 2 ^ 32) ∨ ((v = 7 ∨ v = 10) ∧ p.aborted = some [])

theorem int64_zeros (x : Int) (h0 : 0 ≤ x) (h1 : x < 2 ^ 32) : Kafka.int64 x = [0, 0, 0, 0] ++ Kafka.int32 x := by
  have e1 : (x % 2 ^ 64).toNat = x.toNat := by omega
  have e2 : (x % 2 ^ 32).toNat = x.toNat := by omega
  unfold Kafka.int64 Kafka.int32
  rw [e1, e2]
  have hn : x.toNat < 2 ^ 32 := by omega
  generalize x.toNat = n at hn
  have d (k : Nat) (hk : 4 ≤ k) : n / 256 ^ k = 0 := Nat.div_eq_of_lt (Nat.lt_of_lt_of_le hn (by
    calc 2 ^ 32 = 256 ^ 4 := by decide
      _ ≤ 256 ^ k := Nat.pow_le_pow_right (by omega) hk))
  show [UInt8.ofNat (n / 256 ^ 7), UInt8.ofNat (n / 256 ^ 6), UInt8.ofNat (n / 256 ^ 5), UInt8.ofNat (n / 256 ^ 4), UInt8.ofNat (n / 256 ^ 3), UInt8.ofNat (n / 256 ^ 2),
    UInt8.ofNat (n / 256 ^ 1), UInt8.ofNat (n / 256 ^ 0)] = [0, 0, 0, 0, UInt8.ofNat (n / 256 ^ 3), UInt8.ofNat (n / 256 ^ 2), UInt8.ofNat (n / 256 ^ 1), UInt8.ofNat (n / 256 ^ 0)]
  rw [d 7 (by omega), d 6 (by omega), d 5 (by omega), d 4 (by omega)]
  rfl

/-- The first bytes of a small number. -/
theorem int32_zeros (n j : Nat) (hj : j ≤ 4) (hn : n < 256 ^ (4 - j)) : (Kafka.int32 n).take j = List.replicate j 0 := by
  have e2 : ((n : Int) % 2 ^ 32).toNat = n := by
    have : n < 2 ^ 32 := Nat.lt_of_lt_of_le hn (by
      calc 256 ^ (4 - j) ≤ 256 ^ 4 := Nat.pow_le_pow_right (by omega) (by omega)
        _ = 2 ^ 32 := by decide)
    omega
  unfold Kafka.int32
  rw [e2]
  have d (k : Nat) (hk : 4 - j ≤ k) : n / 256 ^ k = 0 := Nat.div_eq_of_lt (Nat.lt_of_lt_of_le hn (Nat.pow_le_pow_right (by omega) hk))
  show List.take j [UInt8.ofNat (n / 256 ^ 3), UInt8.ofNat (n / 256 ^ 2), UInt8.ofNat (n / 256 ^ 1), UInt8.ofNat (n / 256 ^ 0)] = _
  match j, hj with
  | 0, _ => rfl
  | 1, _ => rw [d 3 (by omega)]; rfl
  | 2, _ => rw [d 3 (by omega), d 2 (by omega)]; rfl
  | 3, _ => rw [d 3 (by omega), d 2 (by omega), d 1 (by omega)]; rfl
  | 4, _ => rw [d 3 (by omega), d 2 (by omega), d 1 (by omega), d 0 (by omega)]; rfl

theorem rdPartitionV7_zero (v : UInt16) (p : Kafka.FetchPartition) (hz : ZeroBefore v p) (buf : Bytes) :
    ∃ t, FReads (rdPartitionV7 v (Kafka.int64 p.highWatermark ++ buf)) (partitionMore v.toNat p) ([0, 0, 0, 0] ++ t) := by
  rcases hz with ⟨rfl, h0, h1⟩ | ⟨hv, ha⟩
  · refine ⟨Kafka.int32 p.highWatermark ++ buf, ?_⟩
    rw [int64_zeros p.highWatermark h0 h1, List.append_assoc]
    exact FReads.pure _
  · unfold rdPartitionV7 partitionMore
    rw [if_pos hv, if_pos (by rcases hv with h | h <;> subst h <;> decide), ha]
    have h3 : ∀ b : Bytes, FReads (do
        let buf ← rdBuf 4 b
        let count := (UInt32.ofNat (beAt 4 0 buf)).toInt32
        rdAborted count.toInt.toNat buf) (Kafka.abortedArray (some [])) ([0, 0, 0, 0] ++ b.drop 4) := by
      intro b
      refine FReads.cast (FReads.bind (q := []) (freads_rdBuf (Kafka.int32 0) 4 b (by simp) (by omega)) ?_) rfl
      simp only
      rw [beAt_first 4 _ _ (by simp), beVal_of32]
      exact FReads.pure _
    exact ⟨_, FReads.bind (freads_rdBuf _ 8 _ (by simp) (by omega)) (FReads.bind (freads_rdBuf _ 8 _ (by simp) (by omega)) (h3 _))⟩

/-- Everything before the size. -/
def partitionFront (v : Nat) (p : Kafka.FetchPartition) : Bytes :=
  Kafka.int32 p.partition ++ (Kafka.int16 p.errorCode ++ (Kafka.int64 p.highWatermark ++ partitionMore v p))

theorem fends_partitionHead (v : UInt16) (p : Kafka.FetchPartition) (he : p.errorCode = 0) (hz : ZeroBefore v p) (j : Nat) (hj : 1 ≤ j ∧ j ≤ 3)
    (hs : p.data.length < 256 ^ (4 - j)) :
    FEnds (partitionHead v) (partitionFront v.toNat p ++ (Kafka.int32 p.data.length).take j) (Int32.ofInt p.partition, 0) := by
  unfold partitionFront
  simp only [List.append_assoc]
  unfold partitionHead
  refine FEnds.bind (freads_rdBuf _ 4 _ (by simp) (by omega)) ?_
  refine FEnds.bind (freads_rdBuf _ 2 _ (by simp) (by omega)) ?_
  rw [if_neg (by
    rw [beAt_first 2 _ _ (by simp), beVal_int16, int16_ofEmod, he]; decide)]
  refine FEnds.bind (freads_rdBuf _ 8 _ (by simp) (by omega)) ?_
  obtain ⟨t, ht⟩ := rdPartitionV7_zero v p hz ((Kafka.int16 p.errorCode ++ (Kafka.int32 p.partition ++ (List.replicate 8 0).drop 4).drop 2).drop 8)
  refine FEnds.bind ht ?_
  rw [int32_zeros _ j (by omega) hs]
  have := FEnds.bind_pure (f := fun buf => ((UInt32.ofNat (beAt 4 0 (Kafka.int32 p.partition ++ (List.replicate 8 0).drop 4))).toInt32,
    (UInt32.ofNat (beAt 4 0 buf)).toInt32)) (fends_rdBuf (List.replicate j 0) ([0, 0, 0, 0] ++ t) 4 (by
      intro hh
      have := congrArg List.length hh
      rw [List.length_replicate] at this
      simp at this
      omega) (by rw [List.length_replicate]; omega))
  have hb : List.replicate j (0 : UInt8) ++ List.drop (List.replicate j (0 : UInt8)).length ([0, 0, 0, 0] ++ t) = [0, 0, 0, 0] ++ t := by
    rw [List.length_replicate]
    match j, hj with
    | 1, _ => rfl
    | 2, _ => rfl
    | 3, _ => rfl
  rw [hb, beAt_first 4 _ _ (by simp), beAt_first 4 _ _ (by simp), beVal_of32] at this
  rw [beAt_first 4 _ _ (by simp), beVal_of32]
  exact this

/-- **C18 is violated for every response** that the network splits inside the size of the record data, one to three bytes into it, if the record data is short enough for these bytes to be
zero (one byte: less than 16 megabytes): of whatever is stored nothing is delivered, and no error either. With the same bytes in one piece the stored messages are delivered
(`C18_chunking_partial`). (Version 0 and a partition with less than 2³² messages so far, or version 7 or 10 and an empty list of aborted transactions.) -/
theorem C18_violated_every_split_size (env : FetchEnv) (h : Kafka.FetchHeader) (topic : Bytes) (ht : topic.length < 2 ^ 16) (p : Kafka.FetchPartition) (he : p.errorCode = 0)
    (hz : ZeroBefore env.version p) (j : Nat) (hj : 1 ≤ j ∧ j ≤ 3) (hs : p.data.length < 256 ^ (4 - j)) (s : SD) (rest : Bytes)
    (hl : s.rd.limit = (Kafka.fetchResponse env.version.toNat h [(topic, [p])]).length)
    (hc : ∃ a b, Kafka.fetchResponse env.version.toNat h [(topic, [p])] = a ++ b ∧ b.length = p.data.length + 4 - j ∧ s.rd.chunks = [a, b ++ rest]) :
    ∃ s', streamDecode env s = .ok () s' ∧ s'.delivered = s.delivered ∧ s'.rd.flat = rest := by
  have hv : env.version = 0 ∨ env.version = 7 ∨ env.version = 10 := by
    rcases hz with ⟨h, -⟩ | ⟨h, -⟩
    · exact .inl h
    · exact .inr h
  obtain ⟨a, b, hab, hbl, hch⟩ := hc
  have hP : Kafka.fetchPartitionHead env.version.toNat p = partitionFront env.version.toNat p ++ Kafka.int32 p.data.length := by
    rw [fetchPartitionHead_eq _ hv]
    unfold partitionFront
    simp only [List.append_assoc]
  have hA : a = Kafka.fetchHead env.version.toNat h 1 ++ (Kafka.fetchTopicHead topic 1 ++ (partitionFront env.version.toNat p ++ (Kafka.int32 p.data.length).take j)) := by
    rw [fetchResponse_one] at hab
    unfold oneHead at hab
    rw [hP] at hab
    have h4 : (Kafka.int32 p.data.length).length = 4 := by simp
    have hsplit : Kafka.fetchHead env.version.toNat h 1 ++ (Kafka.fetchTopicHead topic 1 ++ (partitionFront env.version.toNat p ++ Kafka.int32 p.data.length)) ++ p.data
        = (Kafka.fetchHead env.version.toNat h 1 ++ (Kafka.fetchTopicHead topic 1 ++ (partitionFront env.version.toNat p ++ (Kafka.int32 p.data.length).take j)))
          ++ ((Kafka.int32 p.data.length).drop j ++ p.data) := by
      simp only [List.append_assoc]
      rw [← List.append_assoc (List.take j _), List.take_append_drop]
    rw [hsplit] at hab
    refine (List.append_inj' hab ?_).1.symm
    rw [hbl, List.length_append, List.length_drop, h4]
    omega
  have hal : a.length ≤ s.rd.limit := by rw [hl, hab, List.length_append]; omega
  have hgo : ∃ t : SD, streamDecode env s = .ok () t ∧ t.delivered = s.delivered := by
    have h1 := freads_fetchHeader env.version hv h 1 (by omega)
    have h2 := freads_topicHead topic 1 ht (by omega)
    have h3 := fends_partitionHead env.version p he hz j hj hs
    rw [hA] at hch hal
    simp only [List.length_append] at hal
    unfold streamDecode
    have hch0 : ({ s with offset := 0, hasOne := false } : SD).rd.chunks = (Kafka.fetchHead env.version.toNat h 1 ++
      (Kafka.fetchTopicHead topic 1 ++ (partitionFront env.version.toNat p ++ (Kafka.int32 p.data.length).take j))) :: [b ++ rest] := hch
    have hd0 : ({ s with offset := 0, hasOne := false } : SD).delivered = s.delivered := rfl
    have hl0 : ({ s with offset := 0, hasOne := false } : SD).rd.limit = s.rd.limit := rfl
    rw [← hl0] at hal
    rw [← hd0]
    generalize ({ s with offset := 0, hasOne := false } : SD) = s0 at hch0 hal
    rw [FM.bind_def, h1.all s0 _ _ hch0 (by omega)]
    simp only
    have e2 := h2.all (s0.skip (Kafka.fetchHead env.version.toNat h 1) (Kafka.fetchTopicHead topic 1 ++
      (partitionFront env.version.toNat p ++ (Kafka.int32 p.data.length).take j)) [b ++ rest])
      (partitionFront env.version.toNat p ++ (Kafka.int32 p.data.length).take j) [b ++ rest] rfl (by show _ ≤ s0.rd.limit - _; omega)
    rw [skip_skip] at e2
    have e3 := h3.all (s0.skip (Kafka.fetchHead env.version.toNat h 1 ++ Kafka.fetchTopicHead topic 1)
      (partitionFront env.version.toNat p ++ (Kafka.int32 p.data.length).take j) [b ++ rest]) [b ++ rest] rfl
      (by show _ ≤ s0.rd.limit - _; simp only [List.length_append]; omega)
    rw [skip_skip] at e3
    have e4 := after_bind_pure env topic _ _ _ _ e3
    unfold drainAfter responsesLoop decodeResponses
    rw [FM.bind_def, e2]
    simp only
    rw [if_neg (by omega), times_one, e4, if_pos (by decide)]
    exact ⟨_, rfl, rfl⟩
  obtain ⟨t, ht1, ht2⟩ := hgo
  obtain ⟨d, -⟩ := C19_connection_drained env s
  refine ⟨_, ht1, ht2, ?_⟩
  rw [(d _ ht1).1, hl]
  unfold Rdr.flat
  rw [hch, hab]
  simp only [List.flatten_cons, List.flatten_nil, List.append_nil]
  rw [← List.append_assoc, List.drop_left]

/-- A batch, stored in a partition whose size comes in two pieces: one byte and three. -/
example :
    let p : Kafka.FetchPartition := { samplePartition (Kafka.packed (samplePacked 0)) with aborted := some [] }
    let r := Kafka.fetchResponse 10 sampleHeader [([116], [p])]
    let a := r.take (r.length - (p.data.length + 3))
    ZeroBefore 10 p ∧ 0 < p.data.length ∧ p.data.length < 256 ^ 3 ∧ (r.drop (r.length - (p.data.length + 3))).length = p.data.length + 4 - 1 ∧
      (match streamDecode {} (conn r.length [a, r.drop (r.length - (p.data.length + 3)) ++ [99]]) with
        | .ok () s' => decide (s'.delivered = [] ∧ s'.rd.flat = [99])
        | _ => false) = true ∧
      (match streamDecode {} (conn r.length [r ++ [99]]) with
        | .ok () s' => decide (s'.delivered ≠ [] ∧ s'.rd.flat = [99])
        | _ => false) = true :=
  ⟨.inr ⟨.inr rfl, rfl⟩, by decide +kernel, by decide +kernel, by decide +kernel, by decide +kernel, by decide +kernel⟩

end Healer
