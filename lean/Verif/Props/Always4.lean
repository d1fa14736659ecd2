import Verif.Props.Late
import Verif.Props.Tools3
import Verif.Props.Producer2
import Verif.Props.Flow

/-!
# Faults shown for all states: comparing topics, configurations, refreshes and commits

As `Verif.Props.Always`: where a property fails, it fails for all inputs of a kind and not for the one shown beside it.
-/

namespace Healer

/-! ## C45 -/

/-- C45 fails for every change of leaders: whatever the topics, if the leaders listed differ, the group rebalances. -/
theorem C45_violated_every_leader (a b : List TopicMetadata)
    (h : (a.flatMap fun t => t.partitions.map PartitionMetadataInfo.leader) ≠ b.flatMap fun t => t.partitions.map PartitionMetadataInfo.leader) :
    ifTopicMetadatasSame (some a) (some b) = false := by
  rw [Bool.eq_false_iff]
  intro hs
  have := (C45_exact_partial a b).1 hs
  apply h
  have := congrArg (List.flatMap fun x : Bytes × Int16 × List (Int32 × Int16 × Int32) => x.2.2.map fun y => y.2.2) this
  simpa [List.flatMap_map, TopicMetadata.compared, Function.comp_def] using this

/-- C45 fails for every exchange of two topics in the broker's list. -/
theorem C45_violated_every_order (xs ys : List TopicMetadata) (x y : TopicMetadata) (h : x.name ≠ y.name) :
    ifTopicMetadatasSame (some (xs ++ x :: y :: ys)) (some (xs ++ y :: x :: ys)) = false := by
  rw [Bool.eq_false_iff]
  intro hs
  have := (C45_exact_partial _ _).1 hs
  simp [TopicMetadata.compared, h] at this

example : (oneTopic 1 1).name ≠ (oneTopic 2 1).name := by decide

/-! ## C111 -/

/-- C111 fails for every configuration a consumer is made from: whatever timeouts are given for single APIs, the general one is used for
all but three of them. -/
theorem C111_violated_every_config (kind : ConsumerKind) (dflt given c : ConsumerConfig) (arrays arrays' : IntArrays)
    (h : acceptConsumer kind dflt (.config given) arrays = .ok (arrays', .ok c)) (hs : 0 ≤ given.sessionTimeoutMS) (api : Nat) (h1 : api ≠ 1) (h8 : api ≠ 8)
    (h11 : api ≠ 11) : c.net.timeoutFor arrays' api = given.net.timeoutMS := by
  obtain ⟨r', hc, hr⟩ := acceptConsumer_create h
  obtain ⟨d, hres, hd⟩ := createConsumerConfig_reset hc
  have := hd c (hr c rfl).1
  subst this
  obtain ⟨heq, _⟩ := ConsumerConfig.reset_ok hres
  have e : c = { given with net := { given.net with forEachAPI := c.net.forEachAPI } } := heq
  have := (C110_timeouts kind dflt (.config given) arrays arrays' c h (by rw [e]; exact hs)).2.2.2.2 api h1 h8 h11
  rw [this, e]

/-- C111 fails for every list of one to eleven timeouts: no consumer can be made with it. -/
theorem C111_violated_every_short (kind : ConsumerKind) (dflt given : ConsumerConfig) (arrays : IntArrays) (h : given.net.slice arrays ≠ [])
    (hl : (given.net.slice arrays).length ≤ 11) : acceptConsumer kind dflt (.config given) arrays = .panic := by
  unfold NetConfig.slice at h hl
  cases hi : given.net.forEachAPI with
  | none => simp [hi] at h
  | some i =>
    rw [hi] at h hl
    have h0 : (arrays.getD i []).length ≠ 0 := by simpa using h
    have : given.reset arrays = .panic := by
      unfold ConsumerConfig.reset
      rw [hi]
      simp only
      rw [if_neg h0, if_pos hl]
    simp [acceptConsumer, createConsumerConfig, this, Out.map]

example : ({ sampleConsumerConfig with net.forEachAPI := some 0 } : ConsumerConfig).net.slice [[100, 100]] = [100, 100] := rfl

/-! ## C54 -/

/-- C54 fails for every consumer that has the array of the default configuration (one made without a configuration or from a map): once a
simple consumer is made from a map, the older consumer waits as long as that map says. -/
theorem C54_violated_every_map (w w' : Clients) (c d : ConsumerConfig) (i : Nat) (hc : c.net.forEachAPI = some i)
    (hd : w.dflt.net.forEachAPI = some i) (hn : w.arrays.getD i [] ≠ []) (decode : ConsumerConfig → Except Err ConsumerConfig) (hm : decode w.dflt = .ok d)
    (h : w.step (.consumer .simple (.map decode)) = .ok w') (hpos : d.net.timeoutMS > 0) (api : Nat) (h12 : api < 12) (h1 : api ≠ 1) (h8 : api ≠ 8)
    (h11 : api ≠ 11) : c.net.timeoutFor w'.arrays api = d.net.timeoutMS := by
  have h0 : (w.arrays.getD i []).length ≠ 0 := by simpa using hn
  simp only [Clients.step, acceptConsumer, createConsumerConfig, hm] at h
  simp only [ConsumerConfig.reset, hd] at h
  rw [if_neg h0] at h
  by_cases hl : (w.arrays.getD i []).length ≤ 11
  · rw [if_pos hl] at h
    simp [Out.map] at h
  · rw [if_neg hl] at h
    simp only [Out.map, Out.ok.injEq] at h
    subst h
    have hlen : i < w.arrays.length := by
      apply Classical.byContradiction
      intro hge
      apply hn
      simp [List.getD_eq_getElem?_getD, List.getElem?_eq_none (Nat.le_of_not_lt hge)]
    have hsl : c.net.slice (w.arrays.set i (({ d with net := { d.net with forEachAPI := some i } } : ConsumerConfig).timeouts (w.arrays.getD i []).length)) =
        ({ d with net := { d.net with forEachAPI := some i } } : ConsumerConfig).timeouts (w.arrays.getD i []).length := by
      simp only [NetConfig.slice, hc]
      rw [List.getD_eq_getElem?_getD (l := w.arrays.set _ _), List.getElem?_set_self hlen]
      rfl
    have hget : (({ d with net := { d.net with forEachAPI := some i } } : ConsumerConfig).timeouts (w.arrays.getD i []).length).getD api 0 = d.net.timeoutMS := by
      simp only [ConsumerConfig.timeouts, List.getD_eq_getElem?_getD (l := List.set _ _ _)]
      rw [List.getElem?_set_ne (Ne.symm h1), List.getElem?_set_ne (Ne.symm h8), List.getElem?_set_ne (Ne.symm h11), List.getElem?_replicate,
        if_pos (by omega)]
      rfl
    have hll : (({ d with net := { d.net with forEachAPI := some i } } : ConsumerConfig).timeouts (w.arrays.getD i []).length).length > api := by
      simp only [ConsumerConfig.timeouts, List.length_set, List.length_replicate]
      omega
    simp only [NetConfig.timeoutFor]
    rw [hsl, hget, if_pos hll, if_pos hpos]

example : ∃ w c, Clients.init.run (sharingActs.take 1) = .ok w ∧ w.consumers = [c] ∧ c.net.forEachAPI = some 0 ∧ w.dflt.net.forEachAPI = some 0 ∧
    (w.arrays.getD 0 []).length = 68 := ⟨_, _, rfl, rfl, rfl, rfl, rfl⟩

/-! ## C107, C108 -/

/-- C107 fails whenever the answer to a metadata request says that the partition has no leader (-1), with or without an error from Kafka: the partition producer is
made without a broker and without an error. -/
theorem C107_violated_every_leaderless {W : Type} (net : Net W) (topic : Bytes) (pid : Int32) (b b' : Brokers W) (r : MetadataResponse) (err : Option Err)
    (h : Brokers.requestMetaData net [topic] b = ((r, err), b')) (he : ∀ e, err = some e → e.isKafka = true) (t : TopicMetadata) (ts : List TopicMetadata)
    (ht : r.topics = t :: ts) (x : PartitionMetadataInfo) (hx : t.partitions.find? (fun x => x.partitionID = pid) = some x) (hl : x.leader = -1)
    (connected : Option Err) :
    Brokers.findLeader net topic pid b = (.ok (-1), b') ∧ createLeader (.ok (-1)) connected = .ok none := by
  refine ⟨?_, rfl⟩
  unfold Brokers.findLeader
  rw [h]
  cases err with
  | none => simp [ht, hx, hl]
  | some e => simp [he e rfl, ht, hx, hl]

example : ∃ r b' t ts x, Brokers.requestMetaData electingNet [[116]] (demoBrokers goodNet) = ((r, some (.wrapped (.kafka 5))), b') ∧ r.topics = t :: ts ∧
    t.partitions.find? (fun x => x.partitionID = 0) = some x ∧ x.leader = -1 := ⟨_, _, _, _, _, rfl, rfl, rfl, rfl⟩

theorem firstKafkaErr_some {l : List Int16} {c : Int16} (h : c ∈ l) (h0 : c ≠ 0) : ∃ d, firstKafkaErr l = some (.kafka d) ∧ d ≠ 0 := by
  induction l with
  | nil => cases h
  | cons x xs ih =>
    unfold firstKafkaErr
    by_cases hx : x = 0
    · rw [if_pos hx]
      rcases List.mem_cons.1 h with rfl | h
      · exact absurd hx h0
      · exact ih h
    · rw [if_neg hx]
      exact ⟨x, rfl, hx⟩

/-- C108 fails for every answer in which some partition has an error: the refresh fails and nothing is changed, whatever partitions are available. -/
theorem C108_violated_every_partition (r : MetadataResponse) (t : TopicMetadata) (ht : t ∈ r.topics) (x : PartitionMetadataInfo) (hx : x ∈ t.partitions)
    (h0 : x.errorCode ≠ 0) (pick : Nat) (found : Except Err Int32) (connected : Option Err) (p : Producer) :
    ∃ code, code ≠ 0 ∧ p.update (.ok r) pick found connected = .ok (some (.wrapped (.wrapped (.kafka code))), p) := by
  obtain ⟨d, hd, hd0⟩ := firstKafkaErr_some (l := r.topics.flatMap fun t => t.errorCode :: t.partitions.map PartitionMetadataInfo.errorCode)
    (List.mem_flatMap.2 ⟨t, ht, List.mem_cons_of_mem _ (List.mem_map.2 ⟨x, hx, rfl⟩)⟩) h0
  refine ⟨d, hd0, ?_⟩
  have : r.error = some (.wrapped (.kafka d)) := by
    unfold MetadataResponse.error
    rw [hd]
    rfl
  simp only [Producer.update, this]

example : ∃ t ∈ (metaOf [demoPart 0 1, ⟨5, 1, -1, 0, [], [], []⟩]).topics, ∃ x ∈ t.partitions, x.errorCode ≠ 0 :=
  ⟨_, List.mem_singleton.2 rfl, ⟨5, 1, -1, 0, [], [], []⟩, by simp, by decide⟩

/-! ## C131 -/

/-- C131 fails for every `--stopoffset` behind the last message: all messages are printed, but the tool waits, even if the message before the
stop offset is the last one wanted. -/
theorem C131_violated_every_end (topic : Bytes) (pid : Int32) (stop : Int64) : ∀ (n : Nat) (ms : List Message), ms.length < n →
    (∀ m ∈ ms, m.offset < stop) → printLoop stop n (ms.map (deliver topic pid)) = (ms.map .message, none)
  | 0, ms, h, _ => by omega
  | n + 1, [], _, _ => rfl
  | n + 1, m :: ms, h, hs => by
    have h1 : ¬ (stop > 0 ∧ m.offset ≥ stop) := fun ⟨_, h2⟩ => by
      have := hs m (List.mem_cons_self ..)
      rw [ge_iff_le, Int64.le_iff_toInt_le] at h2
      rw [Int64.lt_iff_toInt_lt] at this
      omega
    have ih := C131_violated_every_end topic pid stop n ms (by simpa using h) fun x hx => hs x (List.mem_cons_of_mem _ hx)
    simp only [List.map_cons, printLoop, deliver]
    rw [if_neg h1]
    simp [ih]

example : ∀ m ∈ ([5, 7, 8].map fun o => ({ offset := o } : Message)), m.offset < 9 := by decide

/-! ## C38, C39, C40, C43 -/

/-- C38 fails in every state of a consumer committing for itself whose channel has room: the next message is put into the channel, and the
position after it is committed while the message is there. -/
theorem C38_violated_every_buffered (env : ConsumerEnv) (hm : env.mode = .own) (s : SC) (x : FullMessage) (m : Message) (ms : List FullMessage)
    (hl : s.loop = .inner (x :: ms)) (he : x.error = none) (hx : x.message = some m) (hq : s.queue.length < env.capacity) (hc : s.commits = [])
    (hn : m.offset + 1 ≠ s.offsetCommited) (ok : Bool) :
    ∃ s', SC.run env (take' ++ ownCommit ok) s = some s' ∧ s'.queue = s.queue ++ [m] ∧
      s'.log = s.log ++ [.put m, .commit [] (-1) (m.offset + 1) ok] := by
  have h0 : env.capacity ≠ 0 := by omega
  cases ok <;>
    simp [take', ownCommit, SC.run, SC.step, nextMessage, hl, he, hx, hq, hc, h0, hm, hn, putSeen, commitNext, setCommit]

example : ∃ s, SC.run { mode := .own } [.fetched [at' 5]] { offset := 5, fetchMaxBytes := 100 } = some s ∧ s.loop = .inner [at' 5] ∧ s.queue.length < 100 ∧
    s.commits = [] ∧ (6 : Int64) ≠ s.offsetCommited := ⟨_, rfl, rfl, by decide, rfl, by decide⟩

/-- C39 fails in every state of a group member in which two calls of `CommitOffset` have passed the check: the later position may be committed before
the earlier one. -/
theorem C39_violated_every_two (env : ConsumerEnv) (s : SC) (low high : Int64) (hc : s.commits = [.checked low, .checked high]) :
    ∃ s', SC.run env [.commitStep 1 true, .commitStep 1 true, .commitStep 0 true, .commitStep 0 true] s = some s' ∧
      s'.log = s.log ++ [.commit s.memberID s.generationID high true, .commit s.memberID s.generationID low true] ∧ s'.offsetCommited = low := by
  simp [SC.run, SC.step, hc, commitNext, setCommit]

/-- Two such calls: 6 and 7. -/
example : ((SC.run { mode := .member } ([.fetched [at' 5, at' 6]] ++ take' ++ [.commit, .commitStep 0 true, .commitStep 0 true, .commitStep 0 true] ++ take' ++
    [.commit, .commitStep 1 true, .commitStep 1 true, .commitStep 1 true]) { offset := 5, fetchMaxBytes := 100, memberID := [109] }).map SC.commits) =
    some [.checked 6, .checked 7] := by decide +kernel

/-- C40 fails in every state of a consumer committing for itself in which the position has moved on since a call of `CommitOffset` read it: the new position
is committed, and again by the next call. -/
theorem C40_violated_every_moved (env : ConsumerEnv) (hm : env.mode = .own) (s : SC) (o : Int64) (hc : s.commits = [.read o]) (hn : s.offset ≠ o) :
    ∃ s', SC.run env ([.commitStep 0 true, .commitStep 0 true] ++ ownCommit true) s = some s' ∧
      s'.log = s.log ++ [.commit [] (-1) s.offset true, .commit [] (-1) s.offset true] := by
  simp [ownCommit, SC.run, SC.step, hc, commitNext, setCommit, hm, hn]

example : ((SC.run { mode := .own, autoOnly := true } ([.fetched [at' 5, at' 6]] ++ take' ++ [.commit, .commitStep 0 true, .commitStep 0 true] ++ take')
    { offset := 5, fetchMaxBytes := 100 }).map fun s => (s.commits, s.offset)) = some ([.read 6], 7) := by decide +kernel

/-- C43 fails in every state of a group member with a position to commit: if the group is left after the check, the commit carries an empty member id. -/
theorem C43_violated_every_leave (env : ConsumerEnv) (hm : env.mode = .member) (s : SC) (hc : s.commits = []) (hid : s.memberID ≠ [])
    (hp : ¬ s.offset < 0) (hn : s.offset ≠ s.offsetCommited) (g : Int32) (ok : Bool) :
    ∃ s', SC.run env [.commit, .commitStep 0 ok, .commitStep 0 ok, .commitStep 0 ok, .membership [] g, .commitStep 0 ok] s = some s' ∧
      s'.log = s.log ++ [.member [] g, .commit [] g s.offset ok] := by
  simp [SC.run, SC.step, hc, commitNext, setCommit, hm, hid, hn, hp]

example : (SC.mk false false 5 0 false 100 .top [] [] [109] 3 []).memberID ≠ [] ∧ ¬ (5 : Int64) < 0 ∧ (5 : Int64) ≠ 0 := by decide

/-! ## C139 -/

/-- C139 fails (and C12 shows) for every flush of two or more messages: whatever the log held before, a consumer that begins at the offset Kafka counts for any message
of the flush but the first, and gets the batch that has it, is handed no message but the complaint that its fetch size is too small. -/
theorem C139_violated_every_middle (cfg : ProducerCfg) (hm : cfg.magic = 2) (compress : Int8 → Bytes → Out Bytes) (env : FetchEnv)
    (hacc : ∀ n, env.accept n = true) (hc : CodecFits cfg compress env) (topic : Bytes) (ts : Int64) (ms : List KV) (hf : FlushFits ms) (data : Bytes)
    (hdata : (createRecordBatch cfg ts (ms.map KV.record)).encode compress = .ok data) (epoch : Int) (before : Kafka.Log) (h0 : 0 ≤ before.next)
    (hmax : before.next + ms.length < 2 ^ 63) (hlo : before.next < env.startOffset.toInt) (hhi : env.startOffset.toInt < (before.append epoch data).next)
    (h : Kafka.FetchHeader) (p : Kafka.FetchPartition) (rest : Bytes) (s : SD)
    (hp : p.data = ((before.append epoch data).stored.drop before.stored.length).flatten) (w : OnWire env h topic p rest s) :
    (before.append epoch data).next = before.next + ms.length ∧
    ∃ s', streamDecode env s = .ok () s' ∧ s'.delivered = s.delivered ++ [⟨[], -1, some .maxBytesTooSmall, none⟩] := by
  obtain ⟨d, z, h1, h2, h3, h4⟩ := flush_encode cfg hm compress env hc ts ms hf
  have : d = data := by rw [hdata] at h1; cases h1; rfl
  subst this
  have hnext : (before.append epoch d).next = before.next + ms.length := by
    simp only [Kafka.Log.append]
    omega
  have hd : p.data = [flushed cfg before.next epoch ts ms z].flatMap Kafka.packed := by
    rw [hp]
    simp only [Kafka.Log.append, List.drop_left, List.flatten_cons, List.flatten_nil, h3, List.flatMap_cons, List.flatMap_nil]
  have hlen : (Kafka.packed (flushed cfg before.next epoch ts ms z)).length = p.data.length := by
    rw [hd]; simp
  have hpl := packed_length (flushed cfg before.next epoch ts ms z)
  have hpay : (flushed cfg before.next epoch ts ms z).payload = z := rfl
  rw [hpay] at hpl
  have hpos := List.length_pos_iff.2 hf.some
  have hsz := w.size
  have hfit : ∀ x ∈ [flushed cfg before.next epoch ts ms z], LogFits env (fun c d => match env.codec (Int8.ofNat c) d with | .ok r => some r | .error _ => none) x := by
    intro x hx
    rw [List.mem_singleton] at hx
    subst hx
    exact flushed_fits cfg compress env hc ts ms hf before.next epoch z ⟨h0, by omega⟩ (by omega) (h4 _ _)
  have hne : p.data ≠ [] := by
    intro e
    rw [e, List.length_nil] at hlen
    omega
  obtain ⟨s', out, r1, r2, -, -, r4⟩ := C15_fetch_delivery_partial env hacc _ _ hfit h topic p hd hne rest s w
  refine ⟨hnext, s', r1, ?_⟩
  have hex : expected topic p.partition env.startOffset.toInt ([flushed cfg before.next epoch ts ms z].flatMap fun x => Kafka.stored x.batch) = [] := by
    unfold expected
    simp only [List.flatMap_cons, List.flatMap_nil, List.append_nil, flushed_stored]
    rw [List.filter_eq_nil_iff.2]
    · rfl
    · intro m hm'
      obtain ⟨k, -, rfl⟩ := List.mem_map.1 hm'
      simp only [decide_eq_true_eq]
      omega
  simp only [hex, if_true] at r4
  rw [r2, r4]

/-- The second of two messages: offset 41 of a log that goes on at 40. -/
example : ∃ data, (createRecordBatch plainCfg 1000 (([⟨some [107], [118]⟩, ⟨none, [119]⟩] : List KV).map KV.record)).encode (fun _ b => .ok b) = .ok data ∧
    ((⟨40, []⟩ : Kafka.Log).append 5 data).next = 42 ∧ (40 : Int) < (41 : Int64).toInt ∧ (41 : Int64).toInt < 42 := by
  refine ⟨_, rfl, ?_⟩
  decide +kernel

end Healer
