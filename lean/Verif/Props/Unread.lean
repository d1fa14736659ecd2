import Verif.Props.Consumer2
import Verif.Props.GroupConsumer

/-!
# C86, C98, C105: for all inputs, what was shown by witnesses
-/

namespace Healer

/-! ## C86: the error code of the header -/

/-- C86 fails for every response: whatever topics it holds, it is read in the same way with every error code in its header as
with none. -/
theorem C86_violated_no_difference (env : FetchEnv) (hv : env.version = 7 ∨ env.version = 10) (h : Kafka.FetchHeader) (e : Int)
    (topics : List (Bytes × List Kafka.FetchPartition)) (hn : topics.length < 2 ^ 32) (n : Nat) (hl : 18 ≤ n) (rest : Bytes) (cs : List Bytes) :
    streamDecode env (conn n ((Kafka.fetchResponse env.version.toNat { h with errorCode := e } topics ++ rest) :: cs)) =
      streamDecode env (conn n ((Kafka.fetchResponse env.version.toNat { h with errorCode := 0 } topics ++ rest) :: cs)) := by
  have len : ∀ x : Int, (Kafka.fetchHead env.version.toNat { h with errorCode := x } topics.length).length = 18 := by
    intro x
    rcases hv with hv | hv <;> rw [hv] <;> simp [Kafka.fetchHead]
  have go : ∀ x : Int, decodeFetchHeader env.version
      (conn n ((Kafka.fetchResponse env.version.toNat { h with errorCode := x } topics ++ rest) :: cs)) =
      .ok topics.length { conn n [] with offset := 18, rd := { chunks := (topics.flatMap (Kafka.fetchTopic env.version.toNat) ++ rest) :: cs, limit := n - 18 } } := by
    intro x
    rw [(freads_fetchHeader env.version (Or.inr hv) { h with errorCode := x } topics.length hn).all _
      (topics.flatMap (Kafka.fetchTopic env.version.toNat) ++ rest) cs (by simp [conn, Kafka.fetchResponse]) (by rw [len]; exact hl)]
    simp only [SD.skip, conn, len]
  unfold streamDecode
  rw [FM.bind_def, FM.bind_def]
  rw [show ({ conn n ((Kafka.fetchResponse env.version.toNat { h with errorCode := e } topics ++ rest) :: cs) with offset := 0, hasOne := false } : SD) =
    conn n ((Kafka.fetchResponse env.version.toNat { h with errorCode := e } topics ++ rest) :: cs) from rfl, go e]
  rw [show ({ conn n ((Kafka.fetchResponse env.version.toNat { h with errorCode := 0 } topics ++ rest) :: cs) with offset := 0, hasOne := false } : SD) =
    conn n ((Kafka.fetchResponse env.version.toNat { h with errorCode := 0 } topics ++ rest) :: cs) from rfl, go 0]

/-! ## C98: the rest of the response -/

theorem fetchResponse_cons (v : Nat) (h : Kafka.FetchHeader) (topic : Bytes) (p : Kafka.FetchPartition) (ps : List Kafka.FetchPartition)
    (ts : List (Bytes × List Kafka.FetchPartition)) : ∃ c, Kafka.fetchResponse v h ((topic, p :: ps) :: ts) =
      Kafka.fetchHead v h (ts.length + 1) ++ (Kafka.fetchTopicHead topic (ps.length + 1) ++
        (Kafka.int32 p.partition ++ Kafka.int16 p.errorCode ++ c)) ∧ 12 ≤ c.length := by
  refine ⟨Kafka.int64 p.highWatermark ++
    (if v ≥ 4 then Kafka.int64 p.lastStableOffset else []) ++ (if v ≥ 5 then Kafka.int64 p.logStartOffset else []) ++
    (if v ≥ 4 then Kafka.abortedArray p.aborted else []) ++ Kafka.int32 p.data.length ++ p.data ++
    (ps.flatMap (fun p => Kafka.fetchPartitionHead v p ++ p.data) ++ ts.flatMap (Kafka.fetchTopic v)), ?_, ?_⟩
  · simp [Kafka.fetchResponse, Kafka.fetchTopic, Kafka.fetchPartitionHead]
  · simp only [List.length_append, int64_length, int32_length]
    omega

/-- C98 fails for every response whose first partition has an error: when the consumer is handed the error, at least
twelve bytes of the response, with all the other partitions and topics, are still unread on the connection on which
the consumer goes on to ask for a position. -/
theorem C98_violated_always (env : FetchEnv) (hv : env.version = 0 ∨ env.version = 7 ∨ env.version = 10)
    (hacc : ∀ n, env.accept n = true) (h : Kafka.FetchHeader) (topic : Bytes) (ht : topic.length < 2 ^ 16)
    (p : Kafka.FetchPartition) (ps : List Kafka.FetchPartition) (ts : List (Bytes × List Kafka.FetchPartition))
    (hps : ps.length + 1 < 2 ^ 32) (hts : ts.length + 1 < 2 ^ 32)
    (he : -2 ^ 15 ≤ p.errorCode ∧ p.errorCode < 2 ^ 15) (hnz : p.errorCode ≠ 0) :
    ∃ u, 12 ≤ u ∧ unreadAtError env (Kafka.fetchResponse env.version.toNat h ((topic, p :: ps) :: ts)) =
      some ([some (.kafka (Int16.ofInt p.errorCode))], u) := by
  obtain ⟨c, hc, hlen⟩ := fetchResponse_cons env.version.toNat h topic p ps ts
  rw [hc]
  have hne : Int16.ofInt p.errorCode ≠ 0 := by
    have hi : (Int16.ofInt p.errorCode).toInt = p.errorCode := Int16.toInt_ofInt_of_le (by omega) (by omega)
    intro h0; rw [h0] at hi; exact hnz hi.symm
  generalize hr : Kafka.fetchHead env.version.toNat h (ts.length + 1) ++ (Kafka.fetchTopicHead topic (ps.length + 1) ++
    (Kafka.int32 p.partition ++ Kafka.int16 p.errorCode ++ c)) = r
  have hl : r.length = (Kafka.fetchHead env.version.toNat h (ts.length + 1)).length + ((Kafka.fetchTopicHead topic (ps.length + 1)).length +
    (6 + c.length)) := by rw [← hr]; simp; omega
  have h1 := (freads_fetchHeader env.version hv h (ts.length + 1) hts).all (conn r.length [r])
    (Kafka.fetchTopicHead topic (ps.length + 1) ++ (Kafka.int32 p.partition ++ Kafka.int16 p.errorCode ++ c)) [] (by
      rw [hr]; rfl) (by show _ ≤ r.length; omega)
  have h2 := (freads_topicHead topic (ps.length + 1) ht hps).all _ (Kafka.int32 p.partition ++ Kafka.int16 p.errorCode ++ c) []
    (rfl : ((conn r.length [r]).skip (Kafka.fetchHead env.version.toNat h (ts.length + 1))
      (Kafka.fetchTopicHead topic (ps.length + 1) ++ (Kafka.int32 p.partition ++ Kafka.int16 p.errorCode ++ c)) []).rd.chunks = _)
    (by simp only [SD.skip, conn]; omega)
  have h3 := partitionHead_error env.version p.partition p.errorCode _ c [] hne
    (rfl : (((conn r.length [r]).skip (Kafka.fetchHead env.version.toNat h (ts.length + 1))
      (Kafka.fetchTopicHead topic (ps.length + 1) ++ (Kafka.int32 p.partition ++ Kafka.int16 p.errorCode ++ c)) []).skip
      (Kafka.fetchTopicHead topic (ps.length + 1))
      (Kafka.int32 p.partition ++ Kafka.int16 p.errorCode ++ c) []).rd.chunks = _)
    (by simp only [SD.skip, conn]; omega)
  have hdec : ∀ s2 s3, partitionHead env.version s2 = .err (.kafka (Int16.ofInt p.errorCode)) s3 →
      FM.times (ps.length + 1) (decodePartitionResponse env topic) s2 = .err (.kafka (Int16.ofInt p.errorCode)) s3 := by
    intro s2 s3 hh
    rw [FM.times, FM.bind_def]
    unfold decodePartitionResponse FM.after partitionBody
    rw [FM.bind_def, hh]
    rfl
  have h4 := hdec _ _ h3
  unfold unreadAtError
  rw [FM.bind_def, h1]
  simp only
  unfold responsesLoop decodeResponses
  rw [FM.bind_def, h2]
  simp only
  rw [if_neg (by omega), h4]
  simp only [putMessage, hacc, if_true]
  refine ⟨_, ?_, rfl⟩
  simp only [SD.skip, conn, List.length_append, int32_length, int16_length]
  omega

/-- C98, the part that holds: when the decoder is done, whatever it met, nothing of the response is left on the connection.
Missing for the full statement: that the consumer waits for it before it uses the connection (`C98_violated_always`). -/
theorem C98_drained_partial (env : FetchEnv) (s : SD) : (streamDecode env s).All (Drained s) :=
  streamDecode_drained env s

/-! ## C105: the generation of a commit -/

theorem lastMember_same (init : Bytes × Int32) (log : List Seen) (h : ∀ m g, Seen.member m g ∈ log → (m, g) = init) :
    lastMember init log = init := by
  unfold lastMember
  induction log with
  | nil => rfl
  | cons e log ih =>
    rw [List.foldl_cons]
    have ih' := ih fun m g hm => h m g (List.mem_cons_of_mem _ hm)
    cases e with
    | member m g =>
      have hm := h m g (List.mem_cons_self ..)
      subst hm
      exact ih'
    | _ => exact ih'

/-- C105, the part that holds: as long as the group is in the generation that assigned the partition, whatever the consumer
and the calls of `CommitOffset` do, and in whatever order, all commits carry it.
Missing for the full statement: commits made after a rebalance (`C105_violated_any_generation`). -/
theorem C105_same_generation_partial (env : ConsumerEnv) (hmode : env.mode = .member) (as : List ConsumerAct) (s s' : SC) (hlog : s.log = [])
    (hcs : s.commits = []) (h : s.run env as = some s')
    (hsame : ∀ m g, .member m g ∈ s'.log → m = s.memberID ∧ g = s.generationID) :
    ∀ m g o ok, .commit m g o ok ∈ s'.log → m = s.memberID ∧ g = s.generationID := by
  intro m g o ok hmem
  obtain ⟨pre, post, heq⟩ := List.append_of_mem hmem
  obtain ⟨h1, -⟩ := C43_current_membership_partial env hmode as s s' hlog hcs h pre _ post heq
  rw [lastMember_same] at h1
  · cases h1; exact ⟨rfl, rfl⟩
  · intro m' g' hm'
    obtain ⟨e1, e2⟩ := hsame m' g' (by rw [heq]; exact List.mem_append.2 (.inl hm'))
    rw [e1, e2]

example : seenIn { mode := .member, autoOnly := true } { offset := 5, fetchMaxBytes := 100, memberID := [109], generationID := 3 }
    (deliverThenStop ++ commitCall true) = some [("fetch", 5, 100), ("put", 5, 0), ("got", 5, 0), ("commit", 6, 3)] := by decide +kernel

/-- C105 fails for every rebalance: whatever the position of a consumer of the old generation, once the member has joined another
generation, under any id, the last commit of the old consumer is made in its name. -/
theorem C105_violated_any_generation (s : SC) (hc : s.commits = []) (m : Bytes) (g : Int32) (hm : m ≠ [])
    (hd : s.offset ≠ s.offsetCommited) (h0 : 0 ≤ s.offset) :
    ∃ s', SC.run { mode := .member, autoOnly := true } (.membership m g :: (commitCall true ++ [.commitStep 0 true])) s = some s' ∧
      s'.log = s.log ++ [.member m g, .commit m g s.offset true] := by
  have := C104_last_commit_partial { s with memberID := m, generationID := g, log := s.log ++ [.member m g] } hc hm hd h0
  exact ⟨_, this, by simp⟩

end Healer
