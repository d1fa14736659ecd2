import Verif.Props.Deadline
import Verif.Props.SizeSplit

/-!
# C181: an answer cut off inside the size of the record data
-/

namespace Healer

/-- **C181 is violated for every answer** cut off by the time limit inside the size of the record data, one to three bytes into it, if the record data is short enough for these bytes to
be zero (one byte: less than 16 megabytes): the short read is taken for the size, which is then zero, so the consumer is sent nothing, not even an error, and the connection is kept; what
comes of the answer afterwards is the first thing the next request on it reads. (Version 0 and a partition with less than 2³² messages so far, or version 7 or 10 and an empty list of
aborted transactions.) -/
theorem C181_violated_every_size (env : FetchEnv) (h : Kafka.FetchHeader) (topic : Bytes) (ht : topic.length < 2 ^ 16) (p : Kafka.FetchPartition) (he : p.errorCode = 0)
    (hz : ZeroBefore env.version p) (j : Nat) (hj : 1 ≤ j ∧ j ≤ 3) (hs : p.data.length < 256 ^ (4 - j))
    (hl : env.totalLength = (Kafka.fetchResponse env.version.toNat h [(topic, [p])]).length) (a b : Bytes)
    (hab : Kafka.fetchResponse env.version.toNat h [(topic, [p])] = a ++ b) (hbl : b.length = p.data.length + 4 - j) (late : List Ev) :
    timedFetch env [a] late = some ([], some late) := by
  have hv : env.version = 0 ∨ env.version = 7 ∨ env.version = 10 := by
    rcases hz with ⟨h, -⟩ | ⟨h, -⟩
    · exact .inl h
    · exact .inr h
  have hP : Kafka.fetchPartitionHead env.version.toNat p = partitionFront env.version.toNat p ++ Kafka.int32 p.data.length := by
    rw [fetchPartitionHead_eq _ hv]
    unfold partitionFront
    simp only [List.append_assoc]
  have hA : a = Kafka.fetchHead env.version.toNat h 1 ++ (Kafka.fetchTopicHead topic 1 ++ (partitionFront env.version.toNat p ++ (Kafka.int32 p.data.length).take j)) := by
    have hab := hab
    rw [fetchResponse_one] at hab
    unfold oneHead at hab
    rw [hP] at hab
    have h4 : (Kafka.int32 p.data.length).length = 4 := by simp
    have hsplit : Kafka.fetchHead env.version.toNat h 1 ++ (Kafka.fetchTopicHead topic 1 ++ (partitionFront env.version.toNat p ++ Kafka.int32 p.data.length)) ++ p.data
        = (Kafka.fetchHead env.version.toNat h 1 ++ (Kafka.fetchTopicHead topic 1 ++ (partitionFront env.version.toNat p ++ (Kafka.int32 p.data.length).take j)))
          ++ ((Kafka.int32 p.data.length).drop j ++ p.data) := by
      simp only [List.append_assoc]
      rw [← List.append_assoc (List.take j _), List.take_append_drop]
    rw [hsplit] at hab
    refine (List.append_inj' hab ?_).1.symm
    rw [hbl, List.length_append, List.length_drop, h4]
    omega
  have hlim : (timedState env [a]).rd.limit = env.totalLength := rfl
  have hal : a.length ≤ (timedState env [a]).rd.limit := by rw [hlim, hl, hab, List.length_append]; omega
  have hgo : ∃ t : SD, streamDecode env (timedState env [a]) = .ok () t ∧ t.delivered = [] := by
    have h1 := freads_fetchHeader env.version hv h 1 (by omega)
    have h2 := freads_topicHead topic 1 ht (by omega)
    have h3 := fends_partitionHead env.version p he hz j hj hs
    have hch0 : (timedState env [a]).rd.chunks = (Kafka.fetchHead env.version.toNat h 1 ++
      (Kafka.fetchTopicHead topic 1 ++ (partitionFront env.version.toNat p ++ (Kafka.int32 p.data.length).take j))) :: [] := by rw [← hA]; rfl
    have hal' := hal
    rw [hA] at hal'
    simp only [List.length_append] at hal'
    rw [← hA] at hal'
    unfold streamDecode
    rw [show ({ timedState env [a] with offset := 0, hasOne := false } : SD) = timedState env [a] from rfl]
    have hd0 : (timedState env [a]).delivered = [] := rfl
    rw [← hd0]
    generalize timedState env [a] = s0 at hch0 hal'
    rw [FM.bind_def, h1.all s0 _ _ hch0 (by omega)]
    simp only
    have e2 := h2.all (s0.skip (Kafka.fetchHead env.version.toNat h 1) (Kafka.fetchTopicHead topic 1 ++
      (partitionFront env.version.toNat p ++ (Kafka.int32 p.data.length).take j)) [])
      (partitionFront env.version.toNat p ++ (Kafka.int32 p.data.length).take j) [] rfl (by show _ ≤ s0.rd.limit - _; omega)
    rw [skip_skip] at e2
    have e3 := h3.all (s0.skip (Kafka.fetchHead env.version.toNat h 1 ++ Kafka.fetchTopicHead topic 1)
      (partitionFront env.version.toNat p ++ (Kafka.int32 p.data.length).take j) []) [] rfl
      (by show _ ≤ s0.rd.limit - _; simp only [List.length_append]; omega)
    rw [skip_skip] at e3
    have e4 := after_bind_pure env topic _ _ _ _ e3
    unfold drainAfter responsesLoop decodeResponses
    rw [FM.bind_def, e2]
    simp only
    rw [if_neg (by omega), times_one, e4, if_pos (by decide)]
    exact ⟨_, rfl, rfl⟩
  obtain ⟨t, ht1, ht2⟩ := hgo
  obtain ⟨d, -⟩ := C19_connection_drained env (timedState env [a])
  have hflat : t.rd.flat = [] := by
    rw [(d _ ht1).1]
    refine List.drop_eq_nil_of_le ?_
    show [a].flatten.length ≤ _
    rw [List.flatten_cons, List.flatten_nil, List.append_nil]
    exact hal
  unfold timedFetch
  rw [show ({ rd := { chunks := [a], limit := env.totalLength, fin := .timeout } } : SD) = timedState env [a] from rfl, ht1]
  simp only
  rw [ht2, filter_flat (show t.rd.chunks.flatten = [] from hflat)]
  rfl

/-- Non-vacuity: a stored batch, one byte of the size before the limit. -/
example :
    let p : Kafka.FetchPartition := { samplePartition (Kafka.packed (samplePacked 0)) with aborted := some [] }
    let r := Kafka.fetchResponse 10 sampleHeader [([116], [p])]
    ZeroBefore 10 p ∧ 0 < p.data.length ∧ p.data.length < 256 ^ 3 ∧ (r.drop (r.length - (p.data.length + 3))).length = p.data.length + 4 - 1 ∧
      timedFetch { totalLength := r.length } [r.take (r.length - (p.data.length + 3))] [.data (r.drop (r.length - (p.data.length + 3)))] =
        some ([], some [.data (r.drop (r.length - (p.data.length + 3)))]) := by
  intro p r
  have hz : ZeroBefore 10 p := .inr ⟨.inr rfl, rfl⟩
  have hlen : (r.drop (r.length - (p.data.length + 3))).length = p.data.length + 4 - 1 := by decide +kernel
  exact ⟨hz, by decide +kernel, by decide +kernel, hlen,
    C181_violated_every_size { totalLength := r.length } sampleHeader [116] (by decide) p rfl hz 1 (by decide) (by decide +kernel) rfl _ _
      (List.take_append_drop _ _).symm hlen _⟩

end Healer
