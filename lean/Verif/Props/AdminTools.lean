import Verif.Model.AdminTools
import Verif.Props.Request2
import Verif.Props.Request3
import Verif.Props.Builders
import Mathlib.Data.List.Induction

/-!
# C149: the administration tools ask for what they are given, and wait long enough for it

The specification is `grouped`, which is independent of the model, and Kafka's layout of the requests (`Kafka.request`).
A broker works on such a request for the time it is given in the request before it answers, so that the client has to wait at least so long.
-/

namespace Healer

/-- What belongs to each key, in the given order; the keys are in the order in which they appear first. -/
def grouped {κ α : Type} [BEq κ] (data : List (κ × α)) : List (κ × List α) :=
  (data.map Prod.fst).eraseDups.map fun k => (k, (data.filter (·.1 == k)).map Prod.snd)

/-- The same, each value once. -/
def groupedOnce {κ α : Type} [BEq κ] [BEq α] (data : List (κ × α)) : List (κ × List α) :=
  (grouped data).map fun g => (g.1, g.2.eraseDups)

/-- Nothing is lost or made up. -/
theorem mem_grouped {κ α : Type} [BEq κ] [LawfulBEq κ] (data : List (κ × α)) (k : κ) (a : α) :
    (k, a) ∈ data ↔ ∃ g ∈ grouped data, g.1 = k ∧ a ∈ g.2 := by
  simp only [grouped, List.mem_map, List.mem_eraseDups]
  constructor
  · intro h
    exact ⟨_, ⟨k, ⟨_, h, rfl⟩, rfl⟩, rfl, List.mem_map.2 ⟨(k, a), List.mem_filter.2 ⟨h, by simp⟩, rfl⟩⟩
  · rintro ⟨_, ⟨k', _, rfl⟩, rfl, h⟩
    obtain ⟨⟨k2, a2⟩, h', rfl⟩ := List.mem_map.1 h
    obtain ⟨h, e⟩ := List.mem_filter.1 h'
    simp only [beq_iff_eq] at e
    exact e ▸ h

theorem eraseDups_concat {κ : Type} [BEq κ] [LawfulBEq κ] [DecidableEq κ] (l : List κ) (k : κ) :
    (l ++ [k]).eraseDups = if k ∈ l then l.eraseDups else l.eraseDups ++ [k] := by
  rw [List.eraseDups_append]
  by_cases h : k ∈ l <;> simp [h, List.removeAll, List.eraseDups_cons]

theorem eraseDups_nodup {κ : Type} [BEq κ] [LawfulBEq κ] [DecidableEq κ] (l : List κ) : l.eraseDups.Nodup := by
  induction l using List.reverseRecOn with
  | nil => simp
  | append_singleton l k ih =>
    rw [eraseDups_concat]
    split
    · exact ih
    · rename_i h
      rw [List.nodup_append]
      refine ⟨ih, by simp, ?_⟩
      intro a ha b hb e
      simp only [List.mem_singleton] at hb
      subst hb e
      exact h (List.mem_eraseDups.1 ha)

theorem eraseDups_length_le {κ : Type} [BEq κ] [LawfulBEq κ] [DecidableEq κ] (l : List κ) : l.eraseDups.length ≤ l.length := by
  induction l using List.reverseRecOn with
  | nil => simp
  | append_singleton l k ih =>
    rw [eraseDups_concat]
    split <;> simp <;> omega

theorem inFirst_map {κ τ : Type} [BEq κ] [LawfulBEq κ] [DecidableEq κ] (key : τ → κ) (k : κ) (f : τ → τ) (new : τ) (m m' : κ → τ)
    (hk : ∀ k, key (m k) = k) (hf : f (m k) = m' k) (ho : ∀ x, x ≠ k → m' x = m x) :
    ∀ l : List κ, l.Nodup → (k ∉ l → new = m' k) →
      inFirst (fun t => key t == k) f new (l.map m) = if k ∈ l then l.map m' else l.map m' ++ [m' k]
  | [], _, hn => by simp [inFirst, hn]
  | x :: l, hl, hn => by
    obtain ⟨hx, hl⟩ := List.nodup_cons.1 hl
    rw [List.map_cons, inFirst, hk]
    by_cases h : x = k
    · subst h
      have : l.map m = l.map m' := List.map_congr_left fun y hy => (ho y fun e => hx (e ▸ hy)).symm
      simp [hf, this]
    · have h' : ¬k = x := fun e => h e.symm
      have ih := inFirst_map key k f new m m' hk hf ho l hl (fun hm => hn (by simp [h', hm]))
      simp only [beq_iff_eq, h, if_false, ih, List.mem_cons, h', false_or, List.map_cons, ho x h]
      split <;> rfl

/-- What the loops of the tools come to: `mk k vs` is the entry of `k` after the values `vs` were added. -/
theorem fold_inFirst {κ α τ : Type} [BEq κ] [LawfulBEq κ] [DecidableEq κ] (key : τ → κ) (add : α → τ → τ) (new : κ → α → τ) (mk : κ → List α → τ)
    (hk : ∀ k vs, key (mk k vs) = k) (hadd : ∀ k vs v, add v (mk k vs) = mk k (vs ++ [v])) (hnew : ∀ k v, new k v = mk k [v]) (data : List (κ × α)) :
    data.foldl (fun ts d => inFirst (fun t => key t == d.1) (add d.2) (new d.1 d.2) ts) [] = (grouped data).map fun g => mk g.1 g.2 := by
  induction data using List.reverseRecOn with
  | nil => rfl
  | append_singleton data d ih =>
    rw [List.foldl_append, List.foldl_cons, List.foldl_nil, ih]
    simp only [grouped, List.map_map]
    obtain ⟨k, v⟩ := d
    rw [List.map_append, List.map_singleton, eraseDups_concat]
    rw [inFirst_map key k (add v) (new k v) ((fun g : κ × List α => mk g.1 g.2) ∘ fun k' => (k', (data.filter (·.1 == k')).map Prod.snd)) ((fun g : κ × List α => mk g.1 g.2) ∘ fun k' => (k', ((data ++ [(k, v)]).filter (·.1 == k')).map Prod.snd))
      (fun k => hk _ _) (by simp [hadd]) (fun x hx => by simp [List.filter_cons, Ne.symm hx]) _ (eraseDups_nodup _) ?_]
    · simp only [List.mem_eraseDups]
      split <;> simp
    · intro hm
      rw [List.mem_eraseDups] at hm
      have : data.filter (fun x => x.1 == k) = [] := by
        rw [List.filter_eq_nil_iff]
        intro a ha e
        simp only [beq_iff_eq] at e
        exact hm (List.mem_map.2 ⟨a, ha, e⟩)
      simp [hnew, this]

/-! ## What is asked for -/

theorem electLeaders_fold (data : List (Bytes × Int32)) :
    data.foldl (fun ts d => addElectLeaders d.1 d.2 ts) [] = (grouped data).map fun g => ⟨g.1, g.2⟩ :=
  fold_inFirst TopicPids.topic (fun pid t => { t with partitions := t.partitions ++ [pid] }) (fun t pid => ⟨t, [pid]⟩) (fun k vs => ⟨k, vs⟩)
    (fun _ _ => rfl) (fun _ _ _ => rfl) (fun _ _ => rfl) data

theorem alterReassignments_topics (data : List (Bytes × ReassignPartition)) :
    ∀ r : AlterReassignmentsRequest, data.foldl (fun r a => r.addAssignment a.1 a.2.partitionID a.2.replicas) r =
      { r with topics := data.foldl (fun ts a => inFirst (fun t => t.topicName == a.1) (fun t => { t with partitions := t.partitions ++ [a.2] }) ⟨a.1, [a.2]⟩ ts) r.topics } := by
  induction data with
  | nil => intro r; rfl
  | cons a data ih => intro r; rw [List.foldl_cons, ih]; rfl

theorem alterReassignments_eq (data : List (Bytes × ReassignPartition)) (timeout : Int32) :
    alterReassignments data timeout = { timeoutMs := timeout, topics := (grouped data).map fun g => ⟨g.1, g.2⟩ } := by
  rw [alterReassignments, alterReassignments_topics]
  congr 1
  exact fold_inFirst ReassignTopic.topicName (fun p t => { t with partitions := t.partitions ++ [p] }) (fun t p => ⟨t, [p]⟩) (fun k vs => ⟨k, vs⟩)
    (fun _ _ => rfl) (fun _ _ _ => rfl) (fun _ _ => rfl) data

theorem listReassignments_topics (data : List (Bytes × Int32)) :
    ∀ r : ListReassignmentsRequest, data.foldl (fun r d => r.addTP d.1 d.2) r =
      ⟨r.timeoutMS, if data = [] then r.topics else
        some (data.foldl (fun ts a => inFirst (fun t => t.topic == a.1) (TopicPids.addOnce a.2) ⟨a.1, [a.2]⟩ ts) (r.topics.getD []))⟩ := by
  induction data with
  | nil => intro r; rfl
  | cons a data ih =>
    intro r
    rw [List.foldl_cons, ih]
    by_cases h : data = [] <;> simp [h, ListReassignmentsRequest.addTP]

theorem listReassignments_eq (data : List (Bytes × Int32)) (timeout : Int32) :
    listReassignments data timeout =
      { timeoutMS := timeout, topics := if data = [] then none else some ((groupedOnce data).map fun g => ⟨g.1, g.2⟩) } := by
  rw [listReassignments, listReassignments_topics]
  congr 1
  split
  · rfl
  · congr 1
    rw [groupedOnce, List.map_map]
    refine fold_inFirst TopicPids.topic TopicPids.addOnce (fun t pid => ⟨t, [pid]⟩) (fun k vs => ⟨k, vs.eraseDups⟩)
      (fun _ _ => rfl) (fun k vs v => ?_) (fun _ _ => by simp [List.eraseDups_cons]) data
    rw [eraseDups_concat, TopicPids.addOnce]
    simp only [List.mem_eraseDups]
    split <;> rfl

/-- C149: elect-leaders asks for the partitions it is given, each topic once, with the timeout it is given. -/
theorem C149_elect_leaders (data : List (Bytes × Int32)) (timeout : Int32) (v : UInt16) (hv : v ∈ clientVersions API_ElectLeaders) (corr : UInt32)
    (cid : Option Bytes) :
    (electLeadersCmd data timeout).req.encode (reqHeader API_ElectLeaders v corr cid) v = .ok (Kafka.request .electLeaders v.toNat corr.toNat cid
      (Kafka.electLeadersRequest ((grouped data).map fun g => (g.1, g.2.map Int32.toInt)) timeout.toInt)) := by
  have := C61_electLeaders ((grouped data).map fun g => ⟨g.1, g.2⟩) timeout v hv corr cid
  rw [List.map_map] at this
  simp only [electLeadersCmd, AnyRequest.encode, electLeaders_fold]
  exact this

/-- two topics, named alternately -/
example : grouped [(1, 5), (2, 6), (1, 7), (1, 5)] = [(1, [5, 7, 5]), (2, [6])] ∧
    groupedOnce [(1, 5), (2, 6), (1, 7), (1, 5)] = [(1, [5, 7]), (2, [6])] := by decide

example : (0 : UInt16) ∈ clientVersions API_ElectLeaders := by decide

/-- C149: so does the handler, if the timeout has 32 bits.
Missing: longer timeouts (`C149_violated_wraps`). -/
theorem C149_elect_leaders_http_partial (data : List (Bytes × Int32)) (timeout : Int64) (v : UInt16) (hv : v ∈ clientVersions API_ElectLeaders) (corr : UInt32)
    (cid : Option Bytes) (ht : timeout.toInt32.toInt = timeout.toInt) :
    (electLeadersHttp data timeout).req.encode (reqHeader API_ElectLeaders v corr cid) v = .ok (Kafka.request .electLeaders v.toNat corr.toNat cid
      (Kafka.electLeadersRequest ((grouped data).map fun g => (g.1, g.2.map Int32.toInt)) timeout.toInt)) := by
  rw [← ht]
  exact C149_elect_leaders data timeout.toInt32 v hv corr cid

/-- a reassignment as it is given -/
def ReassignPartition.given (p : ReassignPartition) : Kafka.Reassignment := ⟨p.partitionID.toInt, some ((p.replicas.getD []).map Int32.toInt)⟩

/-- C149: alter-partition-reassignments asks for the reassignments it is given, each topic once, with the timeout it is given.
(The sizes are beyond those of Go slices.  Missing replicas count as none: C88.) -/
theorem C149_alter_reassignments (data : List (Bytes × ReassignPartition)) (timeout : Int32) (v : UInt16) (hv : v ∈ clientVersions API_AlterPartitionReassignments)
    (corr : UInt32) (cid : Option Bytes) (hn : data.length < 2 ^ 48)
    (hd : ∀ d ∈ data, d.1.length < 2 ^ 48 ∧ (d.2.replicas.getD []).length < 2 ^ 48) :
    (alterReassignmentsCmd data timeout).req.encode (reqHeader API_AlterPartitionReassignments v corr cid) v =
      .ok (Kafka.request .alterPartitionReassignments v.toNat corr.toNat cid
        (Kafka.alterPartitionReassignmentsRequest timeout.toInt ((grouped data).map fun g => (g.1, g.2.map ReassignPartition.given)))) := by
  have := C62_alterPartitionReassignments (alterReassignments data timeout) ?_ ?_ v hv corr cid
  · simp only [alterReassignmentsCmd, timeoutOnly, AnyRequest.encode]
    rw [this, alterReassignments_eq]
    simp only [List.map_map]
    rfl
  · rw [alterReassignments_eq]
    intro t ht
    obtain ⟨g, hg, rfl⟩ := List.mem_map.1 ht
    obtain ⟨k, hk, rfl⟩ := List.mem_map.1 hg
    obtain ⟨d, hd', rfl⟩ := List.mem_map.1 (List.mem_eraseDups.1 hk)
    refine ⟨(hd d hd').1, ?_, ?_⟩
    · show (List.map Prod.snd _).length < _
      rw [List.length_map]
      exact Nat.lt_of_le_of_lt (List.length_filter_le _ _) hn
    · intro p hp
      obtain ⟨e, he, rfl⟩ := List.mem_map.1 hp
      exact (hd e (List.mem_filter.1 he).1).2
  · rw [alterReassignments_eq]
    simp only [List.length_map, grouped]
    exact Nat.lt_of_le_of_lt (eraseDups_length_le _) (by simpa using hn)

/-- C149: list-partition-reassignments asks for the partitions it is given, each once, or for all if it is given none.
(Topic names have at most 249 bytes.) -/
theorem C149_list_reassignments (data : List (Bytes × Int32)) (timeout : Int32) (v : UInt16) (hv : v ∈ clientVersions API_ListPartitionReassignments)
    (corr : UInt32) (cid : Option Bytes) (hn : data.length + 1 < 2 ^ 28) (hd : ∀ d ∈ data, d.1.length < 16383) :
    (listReassignmentsCmd data timeout).req.encode (reqHeader API_ListPartitionReassignments v corr cid) v =
      .ok (Kafka.request .listPartitionReassignments v.toNat corr.toNat cid (Kafka.listPartitionReassignmentsRequest timeout.toInt
        (if data = [] then none else some ((groupedOnce data).map fun g => (g.1, g.2.map Int32.toInt))))) := by
  have := C62_listPartitionReassignments (listReassignments data timeout) ?_ ?_ v hv corr cid
  · simp only [listReassignmentsCmd, AnyRequest.encode]
    rw [this, listReassignments_eq]
    split
    · rfl
    · simp only [Option.map_some, List.map_map]
      rfl
  · rw [listReassignments_eq]
    intro t ht
    split at ht
    · simp at ht
    · obtain ⟨g, hg, rfl⟩ := List.mem_map.1 ht
      obtain ⟨g', hg', rfl⟩ := List.mem_map.1 hg
      obtain ⟨k, hk, rfl⟩ := List.mem_map.1 hg'
      obtain ⟨d, hd', rfl⟩ := List.mem_map.1 (List.mem_eraseDups.1 hk)
      refine ⟨hd d hd', ?_⟩
      show (List.map Prod.snd (List.filter (fun x => x.1 == d.1) data)).eraseDups.length + 1 < _
      have h1 := eraseDups_length_le (l := List.map Prod.snd (List.filter (fun x => x.1 == d.1) data))
      rw [List.length_map] at h1
      have := List.length_filter_le (fun x => x.1 == d.1) data
      omega
  · rw [listReassignments_eq]
    split
    · simp
    · have h1 := eraseDups_length_le (l := data.map Prod.fst)
      simp only [List.length_map, Option.getD_some, groupedOnce, grouped] at h1 ⊢
      omega

/-- C149: the handlers ask for what the tools ask for, if the timeout has 32 bits.  (Else they ask for another timeout: `C149_violated_wraps`.) -/
theorem C149_http_partial (timeout : Int64) (t : Int32) (ht : timeout.toInt = t.toInt) :
    (∀ data, (electLeadersHttp data timeout).req = (electLeadersCmd data t).req) ∧
    (∀ data, (alterReassignmentsHttp data timeout).req = (alterReassignmentsCmd data t).req) ∧
    (∀ data, (listReassignmentsHttp data (some timeout)).req = (listReassignmentsCmd data t).req) ∧
    (∀ data, (listReassignmentsHttp data none).req = (listReassignmentsCmd data 30000).req) ∧
    ∀ topic count, createPartitionsHttp topic count timeout = createPartitionsCmd topic count none t.toUInt32 false := by
  have e0 : timeout = t.toInt64 := by
    rw [← Int64.toInt_inj, ht, Int32.toInt_toInt64]
  have e : timeout.toInt32 = t := by
    rw [e0]; simp
  have e2 : timeout.toUInt64.toUInt32 = t.toUInt32 := by
    rw [e0, ← UInt32.toBitVec_inj]
    show (t.toBitVec.signExtend 64).setWidth 32 = t.toBitVec
    apply BitVec.eq_of_getLsbD_eq
    intro i hi
    simp [BitVec.getLsbD_signExtend, hi]
    omega
  refine ⟨fun d => ?_, fun d => ?_, fun d => ?_, fun d => ?_, fun a b => ?_⟩
  all_goals simp [electLeadersHttp, electLeadersCmd, timeoutOnly, alterReassignmentsHttp, alterReassignmentsCmd, listReassignmentsHttp, listReassignmentsCmd, createPartitionsHttp, e, e2]

example : (60000 : Int64).toInt = (60000 : Int32).toInt ∧ (60000 : Int64).toInt32.toInt = (60000 : Int64).toInt := by decide

/-- C149: create-topic asks for the topic it is given. -/
theorem C149_create_topic (topic : Bytes) (partitions : Int32) (factor : Int16) (timeout : UInt32) (v : UInt16) (hv : v ∈ clientVersions API_CreateTopics)
    (corr : UInt32) (cid : Option Bytes) :
    ∃ c, createTopicCmd topic partitions factor timeout = .ok c ∧ c.config = defaultBrokerConfig ∧
      c.req.encode (reqHeader API_CreateTopics v corr cid) v = .ok (Kafka.request .createTopics v.toNat corr.toNat cid
        (Kafka.createTopicsRequest [⟨topic, partitions.toInt, factor.toInt, [], []⟩] timeout.toNat)) :=
  ⟨_, rfl, rfl, C61_createTopics { createTopicRequests := [{ topic := topic, numPartitions := partitions, replicationFactor := factor }], timeout := timeout } v hv corr cid⟩

theorem createTopicCmd_eq (topic : Bytes) (partitions : Int32) (factor : Int16) (timeout : UInt32) :
    createTopicCmd topic partitions factor timeout =
      .ok { req := .createTopics { createTopicRequests := [{ topic := topic, numPartitions := partitions, replicationFactor := factor }], timeout := timeout } } := rfl

theorem createTopics_fold (partitions : Int32) (factor : Int16) : ∀ (topics : List Bytes) (r : CreateTopicsRequest),
    ((topics.Nodup ∧ ∀ t ∈ topics, ∀ q ∈ r.createTopicRequests, q.topic ≠ t) →
      topics.foldlM (fun r t => CreateTopicsRequest.addTopic t partitions factor r) r = .ok { r with
        createTopicRequests := r.createTopicRequests ++ topics.map fun t => { topic := t, numPartitions := partitions, replicationFactor := factor } }) ∧
    (¬(topics.Nodup ∧ ∀ t ∈ topics, ∀ q ∈ r.createTopicRequests, q.topic ≠ t) →
      ∃ e, topics.foldlM (fun r t => CreateTopicsRequest.addTopic t partitions factor r) r = .error e)
  | [], r => by simp; rfl
  | t :: ts, r => by
    by_cases h : r.createTopicRequests.any (·.topic == t) = true
    · have : ∃ q ∈ r.createTopicRequests, q.topic = t := by simpa using h
      obtain ⟨q, hq, e⟩ := this
      refine ⟨fun ⟨_, hd⟩ => absurd e (hd t (by simp) q hq), fun _ => ⟨.other "topic has been added to the create_topics request already", ?_⟩⟩
      rw [List.foldlM_cons, CreateTopicsRequest.addTopic, if_pos h]
      rfl
    · have hf : ∀ q ∈ r.createTopicRequests, q.topic ≠ t := by simpa using h
      have step : (t :: ts).foldlM (fun r t => CreateTopicsRequest.addTopic t partitions factor r) r =
          ts.foldlM (fun r t => CreateTopicsRequest.addTopic t partitions factor r)
            { r with createTopicRequests := r.createTopicRequests ++ [{ topic := t, numPartitions := partitions, replicationFactor := factor }] } := by
        rw [List.foldlM_cons, CreateTopicsRequest.addTopic, if_neg h]
        rfl
      have ih := createTopics_fold partitions factor ts { r with createTopicRequests := r.createTopicRequests ++ [{ topic := t, numPartitions := partitions, replicationFactor := factor }] }
      rw [step]
      have hiff : (t :: ts).Nodup ∧ (∀ x ∈ t :: ts, ∀ q ∈ r.createTopicRequests, q.topic ≠ x) ↔ ts.Nodup ∧ ∀ x ∈ ts, ∀ q ∈ r.createTopicRequests ++
          [({ topic := t, numPartitions := partitions, replicationFactor := factor } : CreateTopicRequest)], q.topic ≠ x := by
        simp only [List.nodup_cons, List.mem_append, List.mem_singleton, List.forall_mem_cons]
        constructor
        · rintro ⟨⟨h1, h2⟩, _, h3⟩
          refine ⟨h2, fun x hx q hq => ?_⟩
          rcases hq with hq | rfl
          · exact h3 x hx q hq
          · intro e
            change t = x at e
            exact h1 (e ▸ hx)
        · rintro ⟨h2, h3⟩
          exact ⟨⟨fun hm => h3 t hm _ (.inr rfl) rfl, h2⟩, hf, fun x hx q hq => h3 x hx q (.inl hq)⟩
      rw [hiff]
      refine ⟨fun hh => ?_, ih.2⟩
      rw [ih.1 hh]
      simp

theorem createTopicsClient_timeout (topics : List Bytes) (partitions : Int32) (factor : Int16) (timeout : UInt32) (c : AdminCall)
    (h : createTopicsClient topics partitions factor timeout = .ok c) : ∃ r, r.timeout = timeout ∧ c = { req := .createTopics r } := by
  unfold createTopicsClient at h
  have := createTopics_fold partitions factor topics { timeout := timeout }
  by_cases hn : topics.Nodup ∧ ∀ t ∈ topics, ∀ q ∈ ({ timeout := timeout } : CreateTopicsRequest).createTopicRequests, q.topic ≠ t
  · rw [this.1 hn] at h
    cases h
    exact ⟨_, rfl, rfl⟩
  · obtain ⟨e, he⟩ := this.2 hn
    rw [he] at h
    cases h

theorem toInt32_small (u : UInt32) (h : u.toNat < 2 ^ 31) : u.toInt32.toInt = u.toNat := by
  show u.toBitVec.toInt = _
  rw [BitVec.toInt_eq_toNat_of_lt]
  · rfl
  · show 2 * u.toNat < _
    omega

/-- C149: `CreateTopics` asks for all topics it is given, and refuses only if one is given twice. -/
theorem C149_create_topics (topics : List Bytes) (partitions : Int32) (factor : Int16) (timeout : UInt32) (v : UInt16) (hv : v ∈ clientVersions API_CreateTopics)
    (corr : UInt32) (cid : Option Bytes) :
    (topics.Nodup → ∃ c, createTopicsClient topics partitions factor timeout = .ok c ∧
      c.req.encode (reqHeader API_CreateTopics v corr cid) v = .ok (Kafka.request .createTopics v.toNat corr.toNat cid
        (Kafka.createTopicsRequest (topics.map fun t => ⟨t, partitions.toInt, factor.toInt, [], []⟩) timeout.toNat))) ∧
    (¬topics.Nodup → ∃ e, createTopicsClient topics partitions factor timeout = .error e) := by
  have hf := createTopics_fold partitions factor topics { timeout := timeout }
  have hn : (topics.Nodup ∧ ∀ t ∈ topics, ∀ q ∈ ({ timeout := timeout } : CreateTopicsRequest).createTopicRequests, q.topic ≠ t) ↔ topics.Nodup := by simp
  rw [hn] at hf
  unfold createTopicsClient
  constructor
  · intro h
    rw [hf.1 h]
    refine ⟨_, rfl, ?_⟩
    have := C61_createTopics { createTopicRequests := topics.map fun t => { topic := t, numPartitions := partitions, replicationFactor := factor }, timeout := timeout } v hv corr cid
    simp only [List.map_map] at this
    exact this
  · intro h
    obtain ⟨e, he⟩ := hf.2 h
    exact ⟨e, by rw [he]; rfl⟩

/-- C149: create-partitions asks for what it is given, of brokers with version 2.  (Topic names have at most 249 bytes.)
Missing: older ones, where the number of new partitions is misread (`C61_violated_createPartitions`). -/
theorem C149_create_partitions_partial (topic : Bytes) (count : Int32) (assignments : Option (List (List Int32))) (timeout : UInt32) (validateOnly : Bool)
    (corr : UInt32) (cid : Option Bytes) (hm : (⟨topic, count, assignments⟩ : CreatePartitionsTopic).Moderate) :
    (createPartitionsCmd topic count assignments timeout validateOnly).req.encode (reqHeader API_CreatePartitions 2 corr cid) 2 =
      .ok (Kafka.request .createPartitions 2 corr.toNat cid (Kafka.createPartitionsRequest 2
        [⟨topic, count.toInt, assignments.map (List.map (List.map Int32.toInt))⟩] timeout.toInt32.toInt validateOnly)) :=
  C61_createPartitions_v2 { topics := [⟨topic, count, assignments⟩], timeoutMS := timeout.toInt32, validateOnly := validateOnly } (by simpa using hm) (by simp) corr cid

example : (⟨[116], 3, some [[1, 2], [2, 3]]⟩ : CreatePartitionsTopic).Moderate := ⟨by decide, by decide, by decide⟩

example : (0 : UInt16) ∈ clientVersions API_CreateTopics ∧ (0 : UInt16) ∈ clientVersions API_DeleteTopics ∧ (0 : UInt16) ∈ clientVersions API_AlterPartitionReassignments ∧
    (0 : UInt16) ∈ clientVersions API_ListPartitionReassignments ∧ [[116], [117]].Nodup := by decide

/-- C149: delete-topics asks for the topics it is given. -/
theorem C149_delete_topics (topics : List Bytes) (v : UInt16) (hv : v ∈ clientVersions API_DeleteTopics) (corr : UInt32) (cid : Option Bytes) :
    (deleteTopicsCmd topics).req.encode (reqHeader API_DeleteTopics v corr cid) v =
      .ok (Kafka.request .deleteTopics v.toNat corr.toNat cid (Kafka.deleteTopicsRequest topics 30000)) :=
  C61_deleteTopics topics 30000 v hv corr cid

/-! ## How long they wait -/

/-- the time which the broker is given in the request; other requests have none -/
def AnyRequest.operationTimeout : AnyRequest → Int
  | .electLeaders _ t => t.toInt
  | .alterPartitionReassignments r => r.timeoutMs.toInt
  | .listPartitionReassignments r => r.timeoutMS.toInt
  | .createTopics r => r.timeout.toNat
  | .createPartitions r => r.timeoutMS.toInt
  | .deleteTopics _ t => t.toInt
  | _ => 0

/-- the time `Broker.Request` waits for the answer (broker.go:220-225) -/
def AdminCall.waits (c : AdminCall) : Int := (c.config.net.timeoutFor c.arrays c.req.key.toNat).toInt

/-- Whoever asks a broker to work for some time waits at least for that time. -/
def AdminCall.LongEnough (c : AdminCall) : Prop := c.req.operationTimeout ≤ c.waits

theorem timeoutOnly_waits (api : Nat) (t : Int64) (req : AnyRequest) (hk : req.key.toNat < 68) :
    (timeoutOnly api t req).waits = if req.key.toNat = api ∧ t > 0 then t.toInt else 30000 := by
  have hs : (timeoutOnly api t req).config.net.slice (timeoutOnly api t req).arrays = (List.replicate 68 0).set api t := rfl
  have hq : (timeoutOnly api t req).req = req := rfl
  have hg : ((List.replicate 68 (0 : Int64)).set api t).getD req.key.toNat 0 = if req.key.toNat = api then t else 0 := by
    rw [List.getD_eq_getElem?_getD, List.getElem?_set]
    by_cases h : api = req.key.toNat
    · simp [h, hk]
    · rw [if_neg h, if_neg (fun e => h e.symm), List.getElem?_replicate, if_pos hk]
      rfl
  unfold AdminCall.waits NetConfig.timeoutFor
  rw [hs, hq, hg, if_pos (by simpa using hk)]
  by_cases h : req.key.toNat = api <;> simp only [h, if_true, if_false, true_and, false_and]
  · split <;> rfl
  · rfl

theorem waits_default (req : AnyRequest) : (AdminCall.waits { req := req }) = 30000 := by
  simp [AdminCall.waits, NetConfig.timeoutFor, NetConfig.slice, defaultBrokerConfig]

/-- C149: alter-partition-reassignments waits as long as it tells the controller to work. -/
theorem C149_alter_waits (data : List (Bytes × ReassignPartition)) (timeout : Int32) :
    (alterReassignmentsCmd data timeout).LongEnough ∧ (0 < timeout → (alterReassignmentsCmd data timeout).waits = timeout.toInt) := by
  have ht : (alterReassignmentsCmd data timeout).req.operationTimeout = timeout.toInt := by
    simp only [alterReassignmentsCmd, timeoutOnly, AnyRequest.operationTimeout, alterReassignments_eq]
  have hw := timeoutOnly_waits 45 timeout.toInt64 (.alterPartitionReassignments (alterReassignments data timeout)) (by show (45 : UInt16).toNat < 68; decide)
  have hk : (AnyRequest.alterPartitionReassignments (alterReassignments data timeout)).key.toNat = 45 := rfl
  have h0 : timeout.toInt64 > 0 ↔ 0 < timeout.toInt := by
    rw [gt_iff_lt, Int64.lt_iff_toInt_lt, Int32.toInt_toInt64]; rfl
  have h1 : 0 < timeout ↔ 0 < timeout.toInt := by rw [Int32.lt_iff_toInt_lt]; rfl
  rw [hk] at hw
  simp only [true_and, h0, Int32.toInt_toInt64] at hw
  unfold AdminCall.LongEnough
  rw [ht, h1]
  change (alterReassignmentsCmd data timeout).waits = _ at hw
  rw [hw]
  split <;> omega

/-- C149: so does its handler, if the timeout has 32 bits.
Missing: longer timeouts (`C149_violated_wraps`). -/
theorem C149_alter_waits_http_partial (data : List (Bytes × ReassignPartition)) (timeout : Int64) (ht : timeout.toInt32.toInt = timeout.toInt) :
    (alterReassignmentsHttp data timeout).LongEnough := by
  have h : timeout = timeout.toInt32.toInt64 := by rw [← Int64.toInt_inj, Int32.toInt_toInt64, ht]
  have e : alterReassignmentsHttp data timeout = alterReassignmentsCmd data timeout.toInt32 := by
    unfold alterReassignmentsHttp alterReassignmentsCmd
    rw [← h]
  rw [e]
  exact (C149_alter_waits data timeout.toInt32).1

/-- C149: delete-topics waits long enough. -/
theorem C149_delete_waits (topics : List Bytes) : (deleteTopicsCmd topics).LongEnough := by
  unfold AdminCall.LongEnough
  rw [deleteTopicsCmd, waits_default]
  show (30000 : Int32).toInt ≤ 30000
  decide

/-- C149: the others wait long enough up to 30 seconds.  Missing: longer timeouts (`C149_violated_gives_up`). -/
theorem C149_waits_partial (timeout : Int32) (u : UInt32) (ht : timeout.toInt ≤ 30000) (hu : u.toNat ≤ 30000) :
    (∀ data, (electLeadersCmd data timeout).LongEnough) ∧ (∀ data, (listReassignmentsCmd data timeout).LongEnough) ∧
    (∀ t p f c, createTopicCmd t p f u = .ok c → c.LongEnough) ∧ (∀ ts p f c, createTopicsClient ts p f u = .ok c → c.LongEnough) ∧
    ∀ t n as b, (createPartitionsCmd t n as u b).LongEnough := by
  refine ⟨fun d => ?_, fun d => ?_, fun t p f c hc => ?_, fun ts p f c hc => ?_, fun t n as b => ?_⟩
  · unfold AdminCall.LongEnough
    rw [electLeadersCmd, waits_default]
    exact ht
  · unfold AdminCall.LongEnough
    rw [listReassignmentsCmd, waits_default, listReassignments_eq]
    exact ht
  · rw [createTopicCmd_eq] at hc
    cases hc
    unfold AdminCall.LongEnough
    rw [waits_default]
    exact Int.ofNat_le.2 hu
  · obtain ⟨r, hr, rfl⟩ := createTopicsClient_timeout ts p f u c hc
    unfold AdminCall.LongEnough
    rw [waits_default]
    show (r.timeout.toNat : Int) ≤ _
    rw [hr]
    exact Int.ofNat_le.2 hu
  · unfold AdminCall.LongEnough
    rw [createPartitionsCmd, waits_default]
    show u.toInt32.toInt ≤ _
    rw [toInt32_small u (by omega)]
    exact Int.ofNat_le.2 hu

/-- C149 is violated: with every longer timeout they give up while the controller still works on the request. -/
theorem C149_violated_gives_up (timeout : Int32) (u : UInt32) (ht : 30000 < timeout.toInt) (hu : 30000 < u.toNat) :
    (∀ data, ¬(electLeadersCmd data timeout).LongEnough) ∧ (∀ data, ¬(electLeadersHttp data timeout.toInt64).LongEnough) ∧
    (∀ data, ¬(listReassignmentsCmd data timeout).LongEnough) ∧
    (∀ t p f c, createTopicCmd t p f u = .ok c → ¬c.LongEnough) ∧
    (u.toNat < 2 ^ 31 → ∀ t n as b, ¬(createPartitionsCmd t n as u b).LongEnough) := by
  refine ⟨fun d => ?_, fun d => ?_, fun d => ?_, fun t p f c hc => ?_, fun hs t n as b => ?_⟩
  · unfold AdminCall.LongEnough
    rw [electLeadersCmd, waits_default]
    exact Int.not_le.2 ht
  · unfold AdminCall.LongEnough
    have hw := timeoutOnly_waits 45 timeout.toInt64 (.electLeaders (d.foldl (fun ts d => addElectLeaders d.1 d.2 ts) []) timeout.toInt64.toInt32)
      (by show (43 : UInt16).toNat < 68; decide)
    rw [if_neg (by rintro ⟨h, _⟩; exact absurd (show (43 : UInt16).toNat = 45 from h) (by decide))] at hw
    unfold electLeadersHttp
    rw [hw]
    simp only [timeoutOnly, AnyRequest.operationTimeout, Int32.toInt32_toInt64]
    omega
  · unfold AdminCall.LongEnough
    rw [listReassignmentsCmd, waits_default, listReassignments_eq]
    exact Int.not_le.2 ht
  · rw [createTopicCmd_eq] at hc
    cases hc
    unfold AdminCall.LongEnough
    rw [waits_default]
    exact Int.not_le.2 (Int.ofNat_lt.2 hu)
  · unfold AdminCall.LongEnough
    rw [createPartitionsCmd, waits_default]
    show ¬ u.toInt32.toInt ≤ _
    rw [toInt32_small u hs]
    exact Int.not_le.2 (Int.ofNat_lt.2 hu)

example : 30000 < (60000 : Int32).toInt ∧ 30000 < (60000 : UInt32).toNat ∧ (60000 : UInt32).toNat < 2 ^ 31 := by decide

/-- C149 is violated: longer timeouts than 32 bits hold are sent as others, of 2^32 milliseconds nothing is left. -/
theorem C149_violated_wraps :
    (∀ data, (electLeadersHttp data 4294967296).req = (electLeadersCmd data 0).req) ∧
    (∀ data, (alterReassignmentsHttp data 4294967296).req = (alterReassignmentsCmd data 0).req) ∧
    (∀ data, (listReassignmentsHttp data (some 4294967296)).req = (listReassignmentsCmd data 0).req) ∧
    ∀ t n, (createPartitionsHttp t n 4294967296).req = (createPartitionsCmd t n none 0 false).req := by
  refine ⟨fun d => rfl, fun d => rfl, fun d => rfl, fun t n => rfl⟩

end Healer
