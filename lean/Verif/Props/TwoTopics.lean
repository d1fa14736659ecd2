import Verif.Props.OldPartitions

/-! C73: every answer of version 9 about records written to several topics crashes the client. -/

namespace Healer

/-- `topic9`, with the place where the decoder goes on: behind the first byte of the first partition. -/
theorem topic9_at (name : Bytes) (p : ProducedPartition) (h : p.Plain)
    (hid : 0 ≤ p.partitionID.toInt ∧ p.partitionID.toInt < 2 ^ 24) (n : Nat) (post : Bytes)
    (hl : (Kafka.compactString name ++ (Kafka.uvarint (n + 1) ++ (partition9 p.wire ++ post))).length < 2 ^ 31)
    (hn : n < 2 ^ 31) :
    decodeProducedTopic 9 true (Kafka.compactString name ++ (Kafka.uvarint (n + 1) ++ (partition9 p.wire ++ post))) =
      .ok (⟨name, List.replicate n p, none⟩, (Kafka.compactString name).length + (Kafka.uvarint (n + 1)).length + 1) := by
  simp only [List.length_append] at hl
  obtain ⟨t, ht⟩ := int32_small _ hid
  have h1 := sreads_compactString name (by omega) [] (Kafka.uvarint (n + 1) ++ (partition9 p.wire ++ post))
  have h2 := sreads_makeCount n hn (by omega) (Kafka.compactString name) (partition9 p.wire ++ post)
  have h3 := call_keepOffset (sreads_partition9 p h (by omega)) (Kafka.compactString name ++ Kafka.uvarint (n + 1)) post
  have h4 := forN_keep h3 n
  have hp : ∃ t', partition9 p.wire ++ post = [0] ++ t' := by
    obtain ⟨x, hx⟩ : ∃ x, partition9 p.wire = Kafka.int32 p.partitionID.toInt ++ x := ⟨_, rfl⟩
    exact ⟨t ++ (x ++ post), by rw [hx, ht]; simp⟩
  obtain ⟨t', ht'⟩ := hp
  have h5 := sreads_noTags (by decide) (Kafka.compactString name ++ Kafka.uvarint (n + 1)) t'
  simp only [List.nil_append, List.append_assoc, List.length_append, List.length_nil, Int.natCast_add] at h1 h2 h3 h4 h5
  have e1 : rdFlexString true = Cur.call compactString := rfl
  have z : ((0 : Nat) : Int) = 0 := rfl
  simp only [z, Int.zero_add] at h1
  simp only [decodeProducedTopic, Cur.run, e1, Cur.bind_def, h1, h2, Cur.forInt, Int.toNat_natCast,
    show ¬ ((n : Int) < 0) by omega, if_false, decodeProducedPartition, h4]
  rw [ht']
  simp only [h5, Cur.pure_def]
  rfl

/-- A topic whose compact name has length 0 crashes the decoder. -/
theorem topic_crashes (bs : Bytes) : CrashesAt (Cur.call (decodeProducedTopic 9 true)) (0 :: bs) := by
  intro pre
  have h : decodeProducedTopic 9 true (0 :: bs) = .panic := by
    have h1 : compactString (0 :: bs) = .panic := by
      unfold compactString Cur.run
      have h2 := (creads_uvarint 0 (by decide)) [] bs
      rw [uvarint_zero] at h2
      simp only [List.nil_append, List.cons_append, List.length_nil, List.length_cons] at h2
      rw [Cur.bind_def, show (0 : Int) = ((0 : Nat) : Int) from rfl, h2]
      unfold rdBytes sliceTo
      have : decLen 0 = -1 := by decide
      simp only [this]
      rw [if_neg (by omega)]
    unfold decodeProducedTopic Cur.run
    rw [Cur.bind_def]
    have h2 : rdFlexString true (0 :: bs) 0 = .panic := by
      show Cur.call compactString (0 :: bs) 0 = _
      have := sliceFrom_append [] (0 :: bs)
      simp only [List.nil_append, List.length_nil] at this
      unfold Cur.call
      rw [show (0 : Int) = ((0 : Nat) : Int) from rfl, this]
      simp only [h1]
    rw [h2]
  unfold Cur.call
  rw [sliceFrom_append]
  simp only [h]

/-- C73 fails for every answer of version 9 about several topics whose first partition has a number below 65536 (its record errors have no tagged fields): the second topic is
read from inside the first, and the client crashes. -/
theorem C73_violated_every_topics (corr : UInt32) (name : Bytes) (p : ProducedPartition) (h : p.Plain)
    (hid : 0 ≤ p.partitionID.toInt ∧ p.partitionID.toInt < 2 ^ 16) (rest : List Kafka.ProducedPartition)
    (second : Bytes × List Kafka.ProducedPartition) (more : List (Bytes × List Kafka.ProducedPartition)) (throttle : Int)
    (hr : rest.length + 1 < 2 ^ 31) (hm : more.length + 2 < 2 ^ 31)
    (hl : (Kafka.response .produce 9 corr.toNat [] (Kafka.produceResponse 9 ((name, p.wire :: rest) :: second :: more) throttle)).length < 2 ^ 31) :
    newProduceResponse 9 (Kafka.response .produce 9 corr.toNat [] (Kafka.produceResponse 9 ((name, p.wire :: rest) :: second :: more) throttle)) = .panic := by
  obtain ⟨tail, e⟩ : ∃ tail, Kafka.response .produce 9 corr.toNat [] (Kafka.produceResponse 9 ((name, p.wire :: rest) :: second :: more) throttle) =
      Kafka.frame ((Kafka.int32 corr.toNat ++ [0]) ++ (Kafka.uvarint (more.length + 2 + 1) ++ (Kafka.compactString name ++
        (Kafka.uvarint (rest.length + 1 + 1) ++ (partition9 p.wire ++ tail))))) := by
    simp only [Kafka.response, Kafka.responseHeader, Kafka.produceResponse, partition9,
      show Kafka.Api.responseHeaderVersion .produce 9 = 1 from rfl, show Kafka.Api.flexible .produce 9 = true from rfl,
      Nat.le_refl, if_true, tagBuffer_nil, List.append_assoc, Kafka.flexArray, Kafka.compactArray, Kafka.flexString,
      Kafka.flexNullable, Kafka.flexTags, List.flatMap_cons, List.length_cons,
      show (2 : Nat) ≤ 9 by decide, show (5 : Nat) ≤ 9 by decide, show (8 : Nat) ≤ 9 by decide,
      show (1 : Nat) ≤ 9 by decide]
    exact ⟨_, rfl⟩
  rw [e] at hl ⊢
  have hh := (CReads.call (reads_responseHeader API_DeleteAcls 9 1 rfl corr none taggedFields_fits_none)).s
  have hh' : SReads (Cur.call (decodeResponseHeader API_DeleteAcls 9)) (Kafka.int32 corr.toNat ++ [0])
      ⟨API_DeleteAcls, 9, 1, corr, none⟩ := hh.cast rfl rfl
  refine respond_panics (SReads.bind_panics hh' ?_) hl
  rw [show ResponseHeader.isFlexible ⟨API_DeleteAcls, 9, 1, corr, none⟩ = true from rfl]
  refine SReads.bind_panics (sreads_makeCount (more.length + 2) hm) (SPanics.bind ?_)
  intro h31 pre
  have hk := topic9_at name p h ⟨hid.1, by omega⟩ (rest.length + 1) tail h31 hr
  obtain ⟨t, ht⟩ : ∃ t, partition9 p.wire ++ tail = [0] ++ (0 :: t) := by
    obtain ⟨x, hx⟩ : ∃ x, partition9 p.wire = Kafka.int32 p.partitionID.toInt ++ x := ⟨_, rfl⟩
    obtain ⟨m, hm⟩ : ∃ m : Nat, p.partitionID.toInt = m := ⟨p.partitionID.toInt.toNat, by omega⟩
    have g1 : ((m : Int) % 2 ^ 32).toNat = m := by omega
    have g2 : m / 256 ^ 2 = 0 := by omega
    have g3 : m / 256 ^ 3 = 0 := by omega
    have : Kafka.int32 p.partitionID.toInt = [0, 0, UInt8.ofNat (m / 256 ^ 1), UInt8.ofNat (m / 256 ^ 0)] := by
      rw [hm]
      unfold Kafka.int32 Kafka.be
      rw [g1]
      show [UInt8.ofNat (m / 256 ^ 3), UInt8.ofNat (m / 256 ^ 2), UInt8.ofNat (m / 256 ^ 1), UInt8.ofNat (m / 256 ^ 0)] = _
      rw [g2, g3]
      rfl
    exact ⟨_, by rw [hx, this]; rfl⟩
  have h2 := topic_crashes t (pre ++ (Kafka.compactString name ++ (Kafka.uvarint (rest.length + 1 + 1) ++ [0])))
  rw [ht] at hk ⊢
  unfold Cur.forInt
  rw [if_neg (by omega), Int.toNat_natCast]
  show (Cur.call (decodeProducedTopic 9 true) >>= fun y => (Cur.call (decodeProducedTopic 9 true) >>= fun z => Cur.forN more.length
    (Cur.call (decodeProducedTopic 9 true)) >>= fun zs => pure (z :: zs)) >>= fun ys => pure (y :: ys)) _ _ = _
  have h3 : Cur.call (decodeProducedTopic 9 true) (pre ++ (Kafka.compactString name ++ (Kafka.uvarint (rest.length + 1 + 1) ++ ([0] ++ 0 :: t)))) pre.length =
      .ok (⟨name, List.replicate (rest.length + 1) p, none⟩, pre.length + ((Kafka.compactString name).length + (Kafka.uvarint (rest.length + 1 + 1)).length + 1)) := by
    unfold Cur.call
    rw [sliceFrom_append]
    simp only [hk]
  simp only [List.append_assoc, List.length_append, List.length_cons, List.length_nil, Int.natCast_add] at h2
  simp only [Cur.bind_def, h3]
  rw [show (pre.length : Int) + ((Kafka.compactString name).length + (Kafka.uvarint (rest.length + 1 + 1)).length + 1) =
    pre.length + ((Kafka.compactString name).length + ((Kafka.uvarint (rest.length + 1 + 1)).length + (((0 : Nat) : Int) + ((1 : Nat) : Int)))) by omega, h2]

example : newProduceResponse 9 (Kafka.response .produce 9 7 [] (Kafka.produceResponse 9
    [([97], [⟨3, 0, 5, -1, 0, [], none⟩, ⟨4, 0, 5, -1, 0, [], none⟩]), ([98], []), ([99], [])] 0)) = .panic := by decide +kernel

end Healer
