import Verif.Lemmas.FetchKeep

/-!
# Helper lemmas for the fetch decoder: reading what lies in the first chunk
-/

namespace Healer

/-- The state whose first chunk starts with `pre`, before and after reading it. -/
def SD.skip (s : SD) (pre c : Bytes) (cs : List Bytes) : SD :=
  { s with rd := { s.rd with chunks := c :: cs, limit := s.rd.limit - pre.length }, offset := s.offset + pre.length }

/-- `m` reads exactly `pre` when it lies within the first chunk. -/
structure FReads {α : Type} (m : FM α) (pre : Bytes) (a : α) : Prop where
  all : ∀ (s : SD) (c : Bytes) (cs : List Bytes), s.rd.chunks = (pre ++ c) :: cs → pre.length ≤ s.rd.limit →
    m s = .ok a (s.skip pre c cs)

theorem FReads.pure {α : Type} (a : α) : FReads (Pure.pure a : FM α) [] a := by
  refine ⟨fun s c cs h _ => ?_⟩
  rw [FM.pure_def]
  obtain ⟨⟨ch, l, f⟩, o, ho, d⟩ := s
  simp only [List.nil_append] at h
  subst h
  rfl

theorem FReads.bind {α β : Type} {m : FM α} {f : α → FM β} {p q : Bytes} {a : α} {b : β}
    (h1 : FReads m p a) (h2 : FReads (f a) q b) : FReads (m >>= f) (p ++ q) b := by
  refine ⟨fun s c cs h hl => ?_⟩
  rw [FM.bind_def, h1.all s (q ++ c) cs (by rw [h, List.append_assoc]) (by rw [List.length_append] at hl; omega)]
  simp only
  rw [h2.all (s.skip p (q ++ c) cs) c cs rfl (by rw [List.length_append] at hl; show _ ≤ s.rd.limit - p.length; omega)]
  congr 1
  simp only [SD.skip, List.length_append, SD.mk.injEq, Rdr.mk.injEq, true_and, and_true]
  constructor <;> omega

theorem FReads.bind_pure {α β : Type} {m : FM α} {f : α → β} {p : Bytes} {a : α} (h1 : FReads m p a) :
    FReads (m >>= fun x => Pure.pure (f x)) p (f a) := by
  have := FReads.bind (f := fun x => Pure.pure (f x)) h1 (FReads.pure (f a))
  rwa [List.append_nil] at this

theorem FReads.cast {α : Type} {m : FM α} {p q : Bytes} {a : α} (h : FReads m p a) (hpq : p = q) : FReads m q a :=
  hpq ▸ h

theorem freads_rdExact (pre : Bytes) (n : Nat) (hn : pre.length = n) : FReads (rdExact n) pre pre := by
  subst hn
  refine ⟨fun s c cs h hl => ?_⟩
  unfold rdExact
  rw [FM.bind_def]
  unfold fetchRead Rdr.readFull
  have hr : Rdr.readLoop pre.length pre.length s.rd
      = (pre, none, { s.rd with chunks := c :: cs, limit := s.rd.limit - pre.length }) := by
    obtain ⟨⟨ch, l, f⟩, o, ho, d⟩ := s
    simp only at h hl ⊢
    subst h
    cases pre with
    | nil => simp [Rdr.readLoop]
    | cons x xs =>
      rw [List.length_cons, Rdr.readLoop]
      rw [if_neg (by omega), read1_head (xs.length + 1) _ cs l f (by omega) (by simp) (by simpa using hl)]
      simp only [List.cons_append, List.take_succ_cons, List.drop_succ_cons, List.take_left, List.drop_left]
      have : xs.length + 1 - (x :: xs).length = 0 := by simp
      cases xs with
      | nil => simp [Rdr.readLoop]
      | cons y ys => simp [Rdr.readLoop]
  rw [hr]
  rfl

theorem freads_rdBuf (pre : Bytes) (k : Nat) (buf : Bytes) (hk : pre.length = k) (hpos : 0 < k) :
    FReads (rdBuf k buf) pre (pre ++ buf.drop k) := by
  subst hk
  refine ⟨fun s c cs h hl => ?_⟩
  unfold rdBuf
  rw [FM.bind_def]
  unfold fetchRead1
  obtain ⟨⟨ch, l, f⟩, o, ho, d⟩ := s
  simp only at h hl ⊢
  subst h
  rw [read1_head pre.length _ cs l f hpos (by simp) hl]
  simp only [List.take_left, List.drop_left]
  rfl

/-! ## The parts of a response -/

theorem beVal_of32 (v : Int) : (UInt32.ofNat (beVal (Kafka.int32 v))).toInt32 = Int32.ofInt v := by
  rw [beVal_int32, int32_ofEmod]

theorem beAt_first (w : Nat) (field rest : Bytes) (hf : field.length = w) : beAt w 0 (field ++ rest) = beVal field := by
  have := beAt_append w 0 [] field rest rfl hf
  simpa using this

theorem beVal_ofNat32 (n : Nat) (h : n < 2 ^ 32) : beVal (Kafka.int32 n) = n := by
  rw [beVal_int32]; omega

theorem freads_aborted (xs : List (Int × Int)) (buf : Bytes) :
    ∃ buf', FReads (rdAborted xs.length buf) (xs.flatMap fun x => Kafka.int64 x.1 ++ Kafka.int64 x.2) buf' := by
  induction xs generalizing buf with
  | nil => exact ⟨buf, FReads.pure buf⟩
  | cons x xs ih =>
    obtain ⟨b', h⟩ := ih (Kafka.int64 x.2 ++ (Kafka.int64 x.1 ++ buf.drop 8).drop 8)
    refine ⟨b', ?_⟩
    rw [List.length_cons, rdAborted, List.flatMap_cons, List.append_assoc]
    exact FReads.bind (freads_rdBuf _ 8 buf (by simp) (by omega)) (FReads.bind (freads_rdBuf _ 8 _ (by simp) (by omega)) h)

/-- How many aborted transactions a partition may list. -/
def AbortedFits (p : Kafka.FetchPartition) : Prop := (p.aborted.getD []).length < 2 ^ 31

theorem freads_abortedArray (p : Kafka.FetchPartition) (hp : AbortedFits p) (buf : Bytes) :
    ∃ buf', FReads (do
      let buf ← rdBuf 4 buf
      rdAborted ((UInt32.ofNat (beAt 4 0 buf)).toInt32).toInt.toNat buf) (Kafka.abortedArray p.aborted) buf' := by
  unfold AbortedFits at hp
  cases ha : p.aborted with
  | none =>
    refine ⟨Kafka.int32 (-1) ++ buf.drop 4, ?_⟩
    have := FReads.bind (f := fun buf => rdAborted ((UInt32.ofNat (beAt 4 0 buf)).toInt32).toInt.toNat buf)
      (freads_rdBuf (Kafka.int32 (-1)) 4 buf (by simp) (by omega)) (q := []) (b := Kafka.int32 (-1) ++ buf.drop 4) (by
        rw [beAt_first 4 _ _ (by simp), beVal_of32]
        exact FReads.pure _)
    rwa [List.append_nil] at this
  | some xs =>
    rw [ha] at hp
    simp only [Option.getD_some] at hp
    obtain ⟨b', h⟩ := freads_aborted xs (Kafka.int32 xs.length ++ buf.drop 4)
    refine ⟨b', ?_⟩
    refine FReads.bind (freads_rdBuf (Kafka.int32 xs.length) 4 buf (by simp) (by omega)) ?_
    rw [beAt_first 4 _ _ (by simp), beVal_of32, Int32.toInt_ofInt_of_le (by omega) (by omega), Int.toNat_natCast]
    exact h

/-- The fields of versions 7 and 10, or nothing. -/
def partitionMore (v : Nat) (p : Kafka.FetchPartition) : Bytes :=
  if v ≥ 4 then Kafka.int64 p.lastStableOffset ++ (Kafka.int64 p.logStartOffset ++ Kafka.abortedArray p.aborted) else []

theorem freads_partitionV7 (v : UInt16) (hv : v = 0 ∨ v = 7 ∨ v = 10) (p : Kafka.FetchPartition) (hp : AbortedFits p)
    (buf : Bytes) : ∃ buf', FReads (rdPartitionV7 v buf) (partitionMore v.toNat p) buf' := by
  unfold rdPartitionV7 partitionMore
  by_cases h : v = 7 ∨ v = 10
  · rw [if_pos h, if_pos (by rcases h with h | h <;> subst h <;> decide)]
    obtain ⟨b', hb⟩ := freads_abortedArray p hp
      (Kafka.int64 p.logStartOffset ++ (Kafka.int64 p.lastStableOffset ++ buf.drop 8).drop 8)
    exact ⟨b', FReads.bind (freads_rdBuf _ 8 _ (by simp) (by omega))
      (FReads.bind (freads_rdBuf _ 8 _ (by simp) (by omega)) hb)⟩
  · rw [if_neg h]
    have h0 : v = 0 := by rcases hv with h' | h' | h' <;> simp_all
    subst h0
    exact ⟨buf, FReads.pure buf⟩

theorem fetchPartitionHead_eq (v : UInt16) (hv : v = 0 ∨ v = 7 ∨ v = 10) (p : Kafka.FetchPartition) :
    Kafka.fetchPartitionHead v.toNat p = Kafka.int32 p.partition ++ (Kafka.int16 p.errorCode ++
      (Kafka.int64 p.highWatermark ++ (partitionMore v.toNat p ++ Kafka.int32 p.data.length))) := by
  unfold Kafka.fetchPartitionHead partitionMore
  rcases hv with h | h | h <;> subst h <;>
    simp only [show (0 : UInt16).toNat = 0 from rfl, show (7 : UInt16).toNat = 7 from rfl,
      show (10 : UInt16).toNat = 10 from rfl] <;> simp [List.append_assoc]

theorem freads_partitionHead (v : UInt16) (hv : v = 0 ∨ v = 7 ∨ v = 10) (p : Kafka.FetchPartition)
    (hp : AbortedFits p) (he : p.errorCode = 0) :
    FReads (partitionHead v) (Kafka.fetchPartitionHead v.toNat p)
      (Int32.ofInt p.partition, Int32.ofInt p.data.length) := by
  rw [fetchPartitionHead_eq v hv]
  unfold partitionHead
  refine FReads.bind (freads_rdBuf _ 4 _ (by simp) (by omega)) ?_
  refine FReads.bind (freads_rdBuf _ 2 _ (by simp) (by omega)) ?_
  rw [if_neg (by
    rw [beAt_first 2 _ _ (by simp), beVal_int16, int16_ofEmod, he]; decide)]
  refine FReads.bind (freads_rdBuf _ 8 _ (by simp) (by omega)) ?_
  obtain ⟨b', hb⟩ := freads_partitionV7 v hv p hp
    (Kafka.int64 p.highWatermark ++ (Kafka.int16 p.errorCode ++ (Kafka.int32 p.partition ++ (List.replicate 8 0).drop 4).drop 2).drop 8)
  refine FReads.bind hb ?_
  have := FReads.bind_pure (f := fun buf => ((UInt32.ofNat (beAt 4 0 (Kafka.int32 p.partition ++ (List.replicate 8 0).drop 4))).toInt32,
    (UInt32.ofNat (beAt 4 0 buf)).toInt32)) (freads_rdBuf (Kafka.int32 p.data.length) 4 b' (by simp) (by omega))
  rw [beAt_first 4 _ _ (by simp), beAt_first 4 _ _ (by simp), beVal_of32, beVal_of32] at this
  rw [beAt_first 4 _ _ (by simp), beVal_of32]
  exact this

/-- A partition with an error code stops the reader after the code. -/
theorem partitionHead_error (v : UInt16) (pid e : Int) (s : SD) (c : Bytes) (cs : List Bytes)
    (he : Int16.ofInt e ≠ 0) (hc : s.rd.chunks = (Kafka.int32 pid ++ Kafka.int16 e ++ c) :: cs) (hl : 6 ≤ s.rd.limit) :
    partitionHead v s = .err (.kafka (Int16.ofInt e)) (s.skip (Kafka.int32 pid ++ Kafka.int16 e) c cs) := by
  unfold partitionHead
  rw [FM.bind_def, (freads_rdBuf (Kafka.int32 pid) 4 (List.replicate 8 0) (by simp) (by omega)).all s
    (Kafka.int16 e ++ c) cs (by rw [hc, List.append_assoc]) (by simp; omega)]
  simp only
  rw [FM.bind_def, (freads_rdBuf (Kafka.int16 e) 2 _ (by simp) (by omega)).all _ c cs rfl (by simp [SD.skip]; omega)]
  simp only
  rw [beAt_first 2 _ _ (by simp), beVal_int16, int16_ofEmod, if_pos he]
  unfold FM.fail
  congr 1

theorem freads_topicHead (topic : Bytes) (n : Nat) (ht : topic.length < 2 ^ 16) (hn : n < 2 ^ 32) :
    FReads topicHead (Kafka.fetchTopicHead topic n) (topic, n) := by
  unfold topicHead Kafka.fetchTopicHead
  rw [List.append_assoc]
  refine FReads.bind (freads_rdExact _ 2 (by simp)) ?_
  have h2 : beAt 2 0 (Kafka.int16 topic.length) = topic.length := by
    have := beAt_first 2 (Kafka.int16 topic.length) [] (by simp)
    rw [List.append_nil] at this
    rw [this, beVal_int16]; omega
  rw [h2]
  refine FReads.bind (freads_rdExact topic _ rfl) ?_
  have h4 : beAt 4 0 (Kafka.int32 n) = n := by
    have := beAt_first 4 (Kafka.int32 n) [] (by simp)
    rw [List.append_nil] at this
    rw [this, beVal_ofNat32 n hn]
  have := FReads.bind_pure (f := fun b => (topic, beAt 4 0 b)) (freads_rdExact (Kafka.int32 n) 4 (by simp))
  simpa only [h4] using this

theorem freads_fetchHeader (v : UInt16) (hv : v = 0 ∨ v = 7 ∨ v = 10) (h : Kafka.FetchHeader) (n : Nat) (hn : n < 2 ^ 32) :
    FReads (decodeFetchHeader v) (Kafka.fetchHead v.toNat h n) n := by
  unfold decodeFetchHeader Kafka.fetchHead
  by_cases h0 : v = 0
  · subst h0
    rw [if_pos rfl]
    simp only [show (0 : UInt16).toNat = 0 from rfl]
    have := FReads.bind_pure (f := fun b => beAt 4 4 b)
      (freads_rdExact (Kafka.int32 h.correlationId ++ (Kafka.int32 n ++ [])) 8 (by simp))
    rw [beAt_append 4 4 _ _ _ (by simp) (by simp), beVal_ofNat32 n hn] at this
    simpa using this
  · rw [if_neg h0]
    have h7 : v = 7 ∨ v = 10 := by rcases hv with h' | h'; exact absurd h' h0; exact h'
    rw [if_pos h7]
    have := FReads.bind_pure (f := fun b => beAt 4 14 b)
      (freads_rdExact ((Kafka.int32 h.correlationId ++ Kafka.int32 h.throttleTimeMs ++ Kafka.int16 h.errorCode ++
        Kafka.int32 h.sessionId) ++ (Kafka.int32 n ++ [])) 18 (by simp))
    rw [beAt_append 4 14 _ _ _ (by simp) (by simp), beVal_ofNat32 n hn] at this
    rcases h7 with h' | h' <;> subst h' <;>
      simp only [show (7 : UInt16).toNat = 7 from rfl, show (10 : UInt16).toNat = 10 from rfl] <;>
      simpa [List.append_assoc] using this

theorem skip_avail (s : SD) (pre c : Bytes) (cs : List Bytes) (h : s.rd.chunks = (pre ++ c) :: cs)
    (hl : pre.length ≤ s.rd.limit) : Adv pre.length s (s.skip pre c cs) := by
  have hf : s.rd.flat = pre ++ (c ++ cs.flatten) := by
    unfold Rdr.flat; rw [h]; simp
  have hlen : pre.length ≤ s.avail.length := by
    unfold SD.avail; rw [List.length_take, hf]; simp; omega
  refine Adv.of pre.length s _ hlen ?_ rfl rfl
  rw [hf, List.drop_left]
  simp [Rdr.flat]

end Healer
