import Verif.Props.Request2

/-!
# C62 – C65: reassignment, fetch, produce and ACL requests
-/

namespace Healer

/-! ## C62 -/

def ReassignPartition.wire (p : ReassignPartition) : Kafka.Reassignment :=
  { partition := p.partitionID.toInt, replicas := some ((p.replicas.getD []).map Int32.toInt) }

def ReassignTopic.wire (t : ReassignTopic) : Bytes × List Kafka.Reassignment :=
  (t.topicName, t.partitions.map ReassignPartition.wire)

def reassignmentWire (p : Kafka.Reassignment) : Bytes :=
  Kafka.int32 p.partition ++ Kafka.compactNullableArray Kafka.int32 p.replicas ++ Kafka.tagBuffer []

def reassignTopicWire (t : Bytes × List Kafka.Reassignment) : Bytes :=
  Kafka.compactString t.1 ++ Kafka.compactArray reassignmentWire t.2 ++ Kafka.tagBuffer []

/-- Go slices and strings are far shorter than this. -/
structure ReassignTopic.Real (t : ReassignTopic) : Prop where
  name : t.topicName.length < 2 ^ 48
  count : t.partitions.length < 2 ^ 48
  replicas : ∀ p ∈ t.partitions, (p.replicas.getD []).length < 2 ^ 48

theorem ReassignPartition.writes (p : ReassignPartition) (h : (p.replicas.getD []).length < 2 ^ 48) :
    Writes p.enc (reassignmentWire p.wire) := by
  refine Writes.cast writes![Writes.i32 _, Writes.carr' _ (by omega) fun x _ => Writes.i32 x, Writes.noTags] ?_
  simp [reassignmentWire, ReassignPartition.wire, Kafka.compactNullableArray, Kafka.compactArray]

theorem noTagsLength_eq : noTagsLength = 10 := rfl

theorem ReassignPartition.length_le (p : ReassignPartition) (h : (p.replicas.getD []).length < 2 ^ 48) :
    (reassignmentWire p.wire).length ≤ p.length := by
  have := uvarint_len_le10 ((p.replicas.getD []).length + 1) (by omega)
  unfold reassignmentWire ReassignPartition.wire ReassignPartition.length
  simp only [Kafka.compactNullableArray, List.length_append, compactArray_length, int32s_length, int32_length,
    tagBuffer_nil_length, List.length_map, noTagsLength_eq]
  omega

theorem ReassignTopic.writes (t : ReassignTopic) (h : t.Real) : Writes t.enc (reassignTopicWire t.wire) := by
  have h1 := h.name
  have h2 := h.count
  refine Writes.cast writes![Writes.cpyO (encodeCompactString_eq _ (by omega)),
    Writes.carr' (g := reassignmentWire) (k := ReassignPartition.wire) _ (by omega) fun x hx => x.writes (h.replicas x hx),
    Writes.noTags] ?_
  simp [reassignTopicWire, ReassignTopic.wire]

theorem ReassignTopic.length_le (t : ReassignTopic) (h : t.Real) : (reassignTopicWire t.wire).length ≤ t.length := by
  have h1 := uvarint_length_le 6 (t.topicName.length + 1) (by have := h.name; omega)
  have h2 := uvarint_length_le 6 (t.partitions.length + 1) (by have := h.count; omega)
  have := foldl_ge (k := ReassignPartition.wire) (g := reassignmentWire) (f := fun l p => l + p.length) t.partitions
    (2 + t.topicName.length + 4) (fun l p hp => by have := p.length_le (h.replicas p hp); omega)
  unfold reassignTopicWire ReassignTopic.wire ReassignTopic.length
  simp only [List.length_append, compactString_length, compactArray_length, tagBuffer_nil_length, List.length_map,
    noTagsLength_eq]
  omega

/-- C62.  Nil replicas count as an empty list here; that a reassignment cannot be cancelled is C88. -/
theorem C62_alterPartitionReassignments (r : AlterReassignmentsRequest) (hr : ∀ t ∈ r.topics, t.Real)
    (hn : r.topics.length < 2 ^ 48) (v : UInt16) (_ : v ∈ clientVersions API_AlterPartitionReassignments) (corr : UInt32)
    (cid : Option Bytes) :
    r.encode (reqHeader API_AlterPartitionReassignments v corr cid) = .ok (Kafka.request .alterPartitionReassignments
      v.toNat corr.toNat cid (Kafka.alterPartitionReassignmentsRequest r.timeoutMs.toInt (r.topics.map ReassignTopic.wire))) := by
  refine encodePatched_ok .alterPartitionReassignments rfl (Writes.cast writes![Writes.i32 _,
    Writes.carr' (g := reassignTopicWire) (k := ReassignTopic.wire) _ (by omega) fun t ht => t.writes (hr t ht), Writes.noTags] ?_) ?_
  · show _ = Kafka.int32 _ ++ Kafka.compactArray reassignTopicWire _ ++ _
    simp
  · have u := uvarint_len_le10 (r.topics.length + 1) (by omega)
    have := foldl_ge (k := ReassignTopic.wire) (g := reassignTopicWire) (f := fun l t => l + t.length) r.topics (4 + 4)
      (fun l t ht => by have := t.length_le (hr t ht); omega)
    show (Kafka.int32 _ ++ Kafka.compactArray reassignTopicWire _ ++ _).length ≤ _
    simp only [List.length_append, int32_length, compactArray_length, List.length_map, tagBuffer_nil_length, noTagsLength_eq]
    omega

example : AlterReassignmentsRequest.encode (reqHeader API_AlterPartitionReassignments 0 3 none)
    { timeoutMs := 100, topics := [⟨[116], [⟨0, some [1, 2]⟩]⟩] } =
    .ok [0, 0, 0, 35, 0, 45, 0, 0, 0, 0, 0, 3, 255, 255, 0, 0, 0, 0, 100, 2, 2, 116, 2, 0, 0, 0, 0, 3, 0, 0, 0, 1,
      0, 0, 0, 2, 0, 0, 0] := by decide +kernel

theorem uvarint_ne_zero (n : Nat) (h : n + 1 < 2 ^ 64) (a b : Bytes) : Kafka.uvarint (n + 1) ++ a ≠ Kafka.uvarint 0 ++ b := by
  intro he
  have h1 := creads_uvarint (n + 1) h [] a
  have h0 := creads_uvarint 0 (by omega) [] b
  rw [he, h0] at h1
  simp at h1

/-- C88: a nil replica list, which is how the API says "no replicas", is written as an empty array; the protocol
cancels a reassignment only for null.  Whatever the replicas are, the bytes are never those of a cancellation. -/
theorem C88_violated_cancel (topic : Bytes) (ht : topic.length < 2 ^ 48) (timeout : Int32) (pid : Int32)
    (replicas : Option (List Int32)) (hr : (replicas.getD []).length < 2 ^ 48) (corr : UInt32) (cid : Option Bytes) :
    ∃ out, AlterReassignmentsRequest.encode (reqHeader API_AlterPartitionReassignments 0 corr cid)
      { timeoutMs := timeout, topics := [⟨topic, [⟨pid, replicas⟩]⟩] } = .ok out ∧
    out ≠ Kafka.request .alterPartitionReassignments 0 corr.toNat cid (Kafka.alterPartitionReassignmentsRequest
      timeout.toInt [(topic, [{ partition := pid.toInt, replicas := none }])]) := by
  have h := C62_alterPartitionReassignments { timeoutMs := timeout, topics := [⟨topic, [⟨pid, replicas⟩]⟩] }
    (by
      intro t h1
      simp only [List.mem_singleton] at h1
      subst h1
      exact ⟨ht, by simp, by intro p hp; simp only [List.mem_singleton] at hp; subst hp; exact hr⟩)
    (by simp) 0 (by decide) corr cid
  refine ⟨_, h, ?_⟩
  intro he
  have he := (List.append_inj he (by simp [Kafka.frame])).2
  have he := List.append_cancel_left he
  simp only [Kafka.alterPartitionReassignmentsRequest, Kafka.compactArray, ReassignTopic.wire, ReassignPartition.wire,
    List.map_cons, List.map_nil, List.flatMap_cons, List.flatMap_nil, List.append_assoc, List.length_cons,
    List.length_nil, List.append_cancel_left_eq, Kafka.compactNullableArray, List.length_map] at he
  exact uvarint_ne_zero _ (by omega) _ _ he

structure SmallTopic (t : TopicPids) : Prop where
  name : t.topic.length < 16383
  count : t.partitions.length + 1 < 2 ^ 28

def listTopicWire (t : Bytes × List Int) : Bytes :=
  Kafka.compactString t.1 ++ Kafka.compactArray Kafka.int32 t.2 ++ Kafka.tagBuffer []

theorem listTopic_writes (t : TopicPids) (h : SmallTopic t) :
    Writes (encodeListReassignmentsTopic t) (listTopicWire t.wire) := by
  have := h.name
  have := h.count
  refine Writes.cast writes![Writes.put _, Writes.cpy _, Writes.carr _ (by omega) fun x _ => Writes.i32 x, Writes.noTags] ?_
  simp [listTopicWire, TopicPids.wire, Kafka.compactString, putUvarint_eq, lenPlus1_eq t.topic.length (by omega)]

theorem listTopic_length (t : TopicPids) (h : SmallTopic t) :
    (listTopicWire t.wire).length ≤ (2 + t.topic.length) + 4 + 4 * t.partitions.length + 1 := by
  have h1 := uvarint_length_le 1 (t.topic.length + 1) (by have := h.name; omega)
  have h2 := uvarint_length_le 3 (t.partitions.length + 1) (by have := h.count; omega)
  simp only [listTopicWire, TopicPids.wire, List.length_append, compactString_length, compactArray_length, int32s_length,
    tagBuffer_nil_length, List.length_map]
  omega

/-- C62; Kafka's topic names have at most 249 bytes. -/
theorem C62_listPartitionReassignments (r : ListReassignmentsRequest) (hr : ∀ t ∈ r.topics.getD [], SmallTopic t)
    (hn : (r.topics.getD []).length + 1 < 2 ^ 28) (v : UInt16) (_ : v ∈ clientVersions API_ListPartitionReassignments)
    (corr : UInt32) (cid : Option Bytes) :
    r.encode (reqHeader API_ListPartitionReassignments v corr cid) = .ok (Kafka.request .listPartitionReassignments
      v.toNat corr.toNat cid (Kafka.listPartitionReassignmentsRequest r.timeoutMS.toInt
        (r.topics.map (List.map TopicPids.wire)))) := by
  have he : Writes (Enc.each encodeListReassignmentsTopic (r.topics.getD []))
      (((r.topics.getD []).map TopicPids.wire).flatMap listTopicWire) :=
    (Writes.each _ fun t ht => listTopic_writes t (hr t ht)).cast (by rw [List.flatMap_map])
  have hb : Kafka.listPartitionReassignmentsRequest r.timeoutMS.toInt (r.topics.map (List.map TopicPids.wire)) =
      Kafka.int32 r.timeoutMS.toInt ++ (Kafka.uvarint (match r.topics with | none => 0 | some ts => ts.length + 1) ++
      (((r.topics.getD []).map TopicPids.wire).flatMap listTopicWire ++ Kafka.tagBuffer [])) := by
    show Kafka.int32 _ ++ Kafka.compactNullableArray listTopicWire _ ++ _ = _
    cases r.topics <;> simp [Kafka.compactNullableArray, Kafka.compactArray]
  refine encodePatched_ok .listPartitionReassignments rfl (Writes.cast writes![Writes.i32 _, Writes.put _, he, Writes.noTags] ?_) ?_
  · rw [hb, putUvarint_eq]
    cases ht : r.topics with
    | none => rfl
    | some ts => rw [ht] at hn; simp only [Option.getD_some] at hn ⊢; rw [lenPlus1_eq _ (by omega)]
  · have := foldl_ge (k := TopicPids.wire) (g := listTopicWire)
      (f := fun l t => l + (2 + t.topic.length) + 4 + 4 * t.partitions.length + 1) (r.topics.getD []) (4 + 4)
      (fun l t ht => by have := listTopic_length t (hr t ht); omega)
    have hu : (Kafka.uvarint (match r.topics with | none => 0 | some ts => ts.length + 1)).length ≤ 4 := by
      cases ht : r.topics with
      | none => decide
      | some ts => rw [ht] at hn; exact uvarint_length_le 3 _ (by simpa using hn)
    rw [hb]
    simp only [List.length_append, int32_length, tagBuffer_nil_length]
    omega

example : ListReassignmentsRequest.encode (reqHeader API_ListPartitionReassignments 0 7 (some [99])) ⟨1000, some
      [⟨[116], [0, 1]⟩]⟩ =
    .ok [0, 0, 0, 30, 0, 46, 0, 0, 0, 0, 0, 7, 0, 1, 99, 0, 0, 0, 3, 232, 2, 2, 116, 3, 0, 0, 0, 0, 0, 0, 0, 1, 0, 0]
      := by decide +kernel

/-! ## C63 -/

def PartitionBlock.wire (p : PartitionBlock) : Kafka.FetchBlock :=
  { partition := p.partition.toInt, leaderEpoch := p.currentLeaderEpoch.toInt, offset := p.fetchOffset.toInt,
    logStart := p.logStartOffset.toInt, maxBytes := p.maxBytes.toInt }

def FetchRequest.query (r : FetchRequest) : Kafka.FetchQuery :=
  { replica := r.replicaID.toInt, maxWait := r.maxWaitTime.toInt, minBytes := r.minBytes.toInt, maxBytes := r.maxBytes.toInt,
    isolation := r.isolationLevel.toInt, session := r.sessionID.toInt, epoch := r.sessionEpoch.toInt }

def fetchTopicWire (t : Bytes × List PartitionBlock) : Bytes × List Kafka.FetchBlock := (t.1, t.2.map PartitionBlock.wire)

def forgottenWire (t : Bytes × List Int32) : Bytes × List Int := (t.1, t.2.map Int32.toInt)

/-- The grammar's bytes for a fetch request. -/
def FetchRequest.wire (version : UInt16) (r : FetchRequest) : Bytes :=
  Kafka.fetchRequest version.toNat r.query (r.topics.map fetchTopicWire) (r.forgotten.map forgottenWire)

def fetchBlockWire (version : Nat) (p : Kafka.FetchBlock) : Bytes :=
  Kafka.int32 p.partition ++ (if 9 ≤ version then Kafka.int32 p.leaderEpoch else []) ++ Kafka.int64 p.offset ++
    (if 5 ≤ version then Kafka.int64 p.logStart else []) ++ Kafka.int32 p.maxBytes

def fetchTopicBytes (version : Nat) (t : Bytes × List Kafka.FetchBlock) : Bytes :=
  Kafka.string t.1 ++ Kafka.array (fetchBlockWire version) t.2

/-- `Kafka.fetchRequest` up to version 10, with its parts named. -/
def FetchRequest.wire' (version : Nat) (r : FetchRequest) : Bytes :=
  Kafka.int32 r.query.replica ++ Kafka.int32 r.query.maxWait ++ Kafka.int32 r.query.minBytes ++
    (if 3 ≤ version then Kafka.int32 r.query.maxBytes else []) ++
    (if 4 ≤ version then Kafka.int8 r.query.isolation else []) ++
    (if 7 ≤ version then Kafka.int32 r.query.session ++ Kafka.int32 r.query.epoch else []) ++
    Kafka.array (fetchTopicBytes version) (r.topics.map fetchTopicWire) ++
    (if 7 ≤ version then Kafka.array topicPidsWire (r.forgotten.map forgottenWire) else []) ++
    (if 11 ≤ version then Kafka.string [] else [])

theorem fetch_versions {v : UInt16} (hv : v ∈ clientVersions API_FetchRequest) : v = 10 ∨ v = 7 ∨ v = 0 := by
  simpa [clientVersions, availableVersions, API_FetchRequest] using hv

theorem fetchBlock_writes {v : UInt16} (hv : v = 10 ∨ v = 7 ∨ v = 0) (p : PartitionBlock) :
    Writes (p.enc v) (fetchBlockWire v.toNat p.wire) := by
  unfold PartitionBlock.enc
  refine Writes.cast writes![Writes.i32 _, Writes.when fun _ => Writes.i32 _, Writes.i64 _,
    Writes.when fun _ => Writes.i64 _, Writes.i32 _] ?_
  have h9 : decide (v ≥ 10) = decide (9 ≤ v.toNat) := by rcases hv with h | h | h <;> subst h <;> rfl
  have h5 : decide (v ≥ 7) = decide (5 ≤ v.toNat) := by rcases hv with h | h | h <;> subst h <;> rfl
  rw [h9, h5]
  simp only [decide_eq_true_eq, fetchBlockWire, PartitionBlock.wire, List.append_assoc]

theorem fetchTopic_writes {v : UInt16} (hv : v = 10 ∨ v = 7 ∨ v = 0) (t : Bytes × List PartitionBlock) :
    Writes (Enc.all [.str16 t.1, .arr32 (PartitionBlock.enc v) t.2]) (fetchTopicBytes v.toNat (fetchTopicWire t)) :=
  Writes.cast writes![Writes.str16 _, Writes.arr32 (g := fetchBlockWire v.toNat) _ fun p _ => fetchBlock_writes hv p]
    (by simp [fetchTopicBytes, fetchTopicWire])

theorem forgotten_writes (t : Bytes × List Int32) :
    Writes (Enc.all [.str16 t.1, .arr32 .i32 t.2]) (topicPidsWire (forgottenWire t)) :=
  Writes.cast writes![Writes.str16 _, Writes.arr32 _ fun p _ => Writes.i32 p] (by simp [topicPidsWire, forgottenWire])

theorem fetch_writes' (r : FetchRequest) (v : UInt16) (hv : v = 10 ∨ v = 7 ∨ v = 0) :
    Writes (r.body v) (r.wire' v.toNat) := by
  refine Writes.cast writes![Writes.i32 _, Writes.i32 _, Writes.i32 _,
    Writes.when fun _ => writes![Writes.i32 _, Writes.i8 _], Writes.when fun _ => Writes.i32 _,
    Writes.when fun _ => Writes.i32 _,
    Writes.arr32 (g := fetchTopicBytes v.toNat) (k := fetchTopicWire) _ fun t _ => fetchTopic_writes hv t,
    Writes.when fun _ => Writes.arr32 (g := topicPidsWire) (k := forgottenWire) _ fun t _ => forgotten_writes t] ?_
  unfold FetchRequest.wire'
  rcases hv with h | h | h <;> subst h <;> simp [FetchRequest.query]

theorem FetchRequest.writes (r : FetchRequest) (v : UInt16) (hv : v ∈ clientVersions API_FetchRequest) :
    Writes (r.body v) (r.wire v) := fetch_writes' r v (fetch_versions hv)

theorem foldl_add_length {α : Type} (f : α → Nat) (xs : List α) (a : Nat) :
    xs.foldl (fun l x => l + f x) a = a + (xs.map f).sum := by
  induction xs generalizing a with
  | nil => rfl
  | cons x xs ih => rw [List.foldl_cons, ih, List.map_cons, List.sum_cons]; omega

theorem fetch_length_eq (r : FetchRequest) (hl : Nat) : r.length hl =
    (37 + hl + (r.topics.map fun t => 2 + t.1.length + 28).sum +
      (r.forgotten.map fun t => 2 + t.1.length + 4 + t.2.length * 4).sum) * 2 := by
  unfold FetchRequest.length
  rw [foldl_add_length (fun t : Bytes × List Int32 => 2 + t.1.length + 4 + t.2.length * 4),
    foldl_add_length (fun t : Bytes × List PartitionBlock => 2 + t.1.length + 28)]
  omega

theorem fetch_length_ge (r : FetchRequest) (hl : Nat) : 4 + hl ≤ r.length hl := by
  rw [fetch_length_eq]; omega

theorem FetchRequest.encode_eq (r : FetchRequest) (v w : UInt16) (corr : UInt32) (cid : Option Bytes) :
    r.encode (reqHeader API_FetchRequest w corr cid) v =
      encodePatched (reqHeader API_FetchRequest v corr cid)
        (r.length (hdr .fetch v corr cid).length - (hdr .fetch v corr cid).length - 4) (r.body v) := by
  have h1 : { reqHeader API_FetchRequest w corr cid with apiVersion := v } = reqHeader API_FetchRequest v corr cid := rfl
  unfold FetchRequest.encode encodePatched
  rw [h1, reqHeader_length .fetch API_FetchRequest v corr cid rfl]
  simp only [Out.bind_ok]
  have := fetch_length_ge r (hdr .fetch v corr cid).length
  have e : (hdr .fetch v corr cid).length +
    (r.length (hdr .fetch v corr cid).length - (hdr .fetch v corr cid).length - 4) + 4 =
      r.length (hdr .fetch v corr cid).length := by omega
  rw [e]
  show ((reqHeader API_FetchRequest v corr cid).length.bind fun hl => _) = _
  rw [reqHeader_length .fetch API_FetchRequest v corr cid rfl]
  rfl

theorem Fits.fetchBody (r : FetchRequest) (v : UInt16) : Fits (r.body v) := by
  unfold FetchRequest.body PartitionBlock.enc Enc.i8 Enc.i32 Enc.i64
  fits

/-- C63, exactly: the grammar's bytes are produced if and only if they fit into the buffer, whose size counts each
topic as if it had one partition and then doubles the sum.  Missing: requests that do not fit. -/
theorem C63_fetch_partial (r : FetchRequest) (v : UInt16) (hv : v ∈ clientVersions API_FetchRequest) (w : UInt16)
    (corr : UInt32) (cid : Option Bytes) :
    r.encode (reqHeader API_FetchRequest w corr cid) v = .ok (Kafka.request .fetch v.toNat corr.toNat cid (r.wire v)) ↔
      4 + (hdr .fetch v corr cid).length + (r.wire v).length ≤ r.length (hdr .fetch v corr cid).length := by
  rw [FetchRequest.encode_eq]
  have := fetch_length_ge r (hdr .fetch v corr cid).length
  constructor
  · intro h
    refine Decidable.byContradiction fun hc => ?_
    exact encodePatched_bad .fetch rfl (Fits.fetchBody r v) (by omega) h
  · intro h
    exact encodePatched_ok .fetch rfl (r.writes v hv) (by omega)

theorem fetchBlock_length (v : Nat) (p : Kafka.FetchBlock) : (fetchBlockWire v p).length ≤ 28 := by
  unfold fetchBlockWire
  simp only [List.length_append, int32_length, int64_length]
  split <;> split <;> simp

theorem fetchTopic_length (v : Nat) (t : Bytes × List PartitionBlock) :
    (fetchTopicBytes v (fetchTopicWire t)).length ≤ 6 + t.1.length + 28 * t.2.length := by
  have h : ∀ ps : List Kafka.FetchBlock, (ps.flatMap (fetchBlockWire v)).length ≤ 28 * ps.length := by
    intro ps
    induction ps with
    | nil => simp
    | cons p ps ih => have := fetchBlock_length v p; rw [List.flatMap_cons, List.length_append, List.length_cons]; omega
  have := h (t.2.map PartitionBlock.wire)
  rw [List.length_map] at this
  unfold fetchTopicBytes fetchTopicWire
  rw [List.length_append, string_length, array_length]
  simp only
  omega

theorem flatMap_le {α β : Type} (g : β → Bytes) (k : α → β) (f : α → Nat) (xs : List α)
    (h : ∀ x ∈ xs, (g (k x)).length ≤ f x) : ((xs.map k).flatMap g).length ≤ (xs.map f).sum := by
  induction xs with
  | nil => simp
  | cons x xs ih =>
    have h1 := h x (by simp)
    have h2 := ih fun y hy => h y (by simp [hy])
    rw [List.map_cons, List.flatMap_cons, List.length_append, List.map_cons, List.sum_cons]
    omega

theorem sum_le_double {α : Type} (f g : α → Nat) (xs : List α) (h : ∀ x ∈ xs, f x ≤ g x * 2) :
    (xs.map f).sum ≤ (xs.map g).sum * 2 := by
  induction xs with
  | nil => simp
  | cons x xs ih =>
    have h1 := h x (by simp)
    have h2 := ih fun y hy => h y (by simp [hy])
    rw [List.map_cons, List.sum_cons, List.map_cons, List.sum_cons]
    omega

/-- C63 for requests with at most one partition per topic, the only ones the client's consumers make: they are
always encoded.
Missing: several partitions per topic (`C63_violated_many`). -/
theorem C63_fetch_single_partial (r : FetchRequest) (hr : ∀ t ∈ r.topics, t.2.length ≤ 1) (v : UInt16)
    (hv : v ∈ clientVersions API_FetchRequest) (w : UInt16) (corr : UInt32) (cid : Option Bytes) :
    r.encode (reqHeader API_FetchRequest w corr cid) v = .ok (Kafka.request .fetch v.toNat corr.toNat cid (r.wire v)) := by
  rw [C63_fetch_partial r v hv]
  have h1 := flatMap_le (fetchTopicBytes v.toNat) fetchTopicWire (fun t => 6 + t.1.length + 28 * t.2.length) r.topics
    fun t _ => fetchTopic_length v.toNat t
  have h2 := sum_le_double (fun t => 6 + t.1.length + 28 * t.2.length) (fun t => 2 + t.1.length + 28) r.topics
    (fun t ht => by have := hr t ht; omega)
  have h3 := flatMap_le topicPidsWire forgottenWire (fun t => 2 + t.1.length + 4 + t.2.length * 4) r.forgotten
    (fun t _ => by
      unfold topicPidsWire forgottenWire
      rw [List.length_append, string_length, array_length, int32s_length]
      simp only
      omega)
  rw [fetch_length_eq]
  show 4 + _ + (r.wire' v.toNat).length ≤ _
  have h4 : (r.wire' v.toNat).length ≤ 27 + (Kafka.array (fetchTopicBytes v.toNat) (r.topics.map fetchTopicWire)).length +
      (Kafka.array topicPidsWire (r.forgotten.map forgottenWire)).length := by
    unfold FetchRequest.wire'
    simp only [List.length_append, int32_length]
    have e3 : (if 3 ≤ v.toNat then Kafka.int32 r.query.maxBytes else []).length ≤ 4 := by split <;> simp
    have e4 : (if 4 ≤ v.toNat then Kafka.int8 r.query.isolation else []).length ≤ 1 := by split <;> simp
    have e7 : (if 7 ≤ v.toNat then Kafka.int32 r.query.session ++ Kafka.int32 r.query.epoch else []).length ≤ 8 := by
      split <;> simp
    have e8 : (if 7 ≤ v.toNat then Kafka.array topicPidsWire (r.forgotten.map forgottenWire) else []).length ≤
      (Kafka.array topicPidsWire (r.forgotten.map forgottenWire)).length := by split <;> simp
    have e9 : (if 11 ≤ v.toNat then Kafka.string [] else []).length ≤ 2 := by split <;> simp
    omega
  rw [array_length, array_length] at h4
  omega

/-- a topic "t" and four partitions -/
def fetchFour : FetchRequest :=
  { maxWaitTime := 100, minBytes := 1, maxBytes := 1048576,
    topics := [([116], [⟨0, 0, 0, 0, 1024⟩, ⟨1, 0, 0, 0, 1024⟩, ⟨2, 0, 0, 0, 1024⟩, ⟨3, 0, 0, 0, 1024⟩])] }

/-- C63 fails for a request with four partitions of one topic: the buffer is too small and the encoder panics. -/
theorem C63_violated_many : fetchFour.encode (reqHeader API_FetchRequest 0 7 (some [99])) 10 = .panic := by decide +kernel

example : { fetchFour with topics := [([116], [⟨0, 0, 5, 0, 1024⟩])] }.encode (reqHeader API_FetchRequest 0 7 (some [99])) 7
    = .ok [0, 0, 0, 75, 0, 1, 0, 7, 0, 0, 0, 7, 0, 1, 99, 255, 255, 255, 255, 0, 0, 0, 100, 0, 0, 0, 1, 0, 16, 0, 0, 0,
      0, 0, 0, 0, 0, 0, 0, 0, 0, 0, 0, 1, 0, 1, 116, 0, 0, 0, 1, 0, 0, 0, 0, 0, 0, 0, 0, 0, 0, 0, 5, 0, 0, 0, 0, 0, 0, 0, 0,
      0, 0, 4, 0, 0, 0, 0, 0] := by decide +kernel

/-! ## C64 -/

def ProduceP.wire (recs : ProduceP → Bytes) (p : ProduceP) : Int × Bytes := (p.partition.toInt, recs p)

def ProduceT.wire (recs : ProduceP → Bytes) (t : ProduceT) : Bytes × List (Int × Bytes) :=
  (t.topicName, t.partitionBlocks.map (ProduceP.wire recs))

def producePWire (p : Int × Bytes) : Bytes :=
  Kafka.int32 p.1 ++ Kafka.compactNullableBytes (some p.2) ++ Kafka.tagBuffer []

def produceTWire (t : Bytes × List (Int × Bytes)) : Bytes :=
  Kafka.compactString t.1 ++ Kafka.compactArray producePWire t.2 ++ Kafka.tagBuffer []

theorem writeCount_true (n : Nat) (h : n < 2 ^ 63) : writeCount true n = .ok (Kafka.uvarint (n + 1)) := by
  unfold writeCount
  rw [if_pos rfl]
  exact encodeCompactArrayLength_eq n h _ (by rw [Int64.toInt_ofNat_of_lt h])

theorem encodeEach_eq {α β : Type} {f : α → Out Bytes} {g : β → Bytes} {k : α → β} (xs : List α)
    (h : ∀ x ∈ xs, f x = .ok (g (k x))) : encodeEach f xs = .ok ((xs.map k).flatMap g) := by
  induction xs with
  | nil => rfl
  | cons x xs ih =>
    rw [encodeEach, h x (by simp), ih fun y hy => h y (by simp [hy])]
    rfl

theorem produceP_encode (compress : Int8 → Bytes → Out Bytes) (recs : ProduceP → Bytes) (p : ProduceP)
    (he : encodeBatches compress p.recordBatches = .ok (recs p)) (hl : (recs p).length < 2 ^ 63) :
    p.encode compress true = .ok (producePWire (p.wire recs)) := by
  unfold ProduceP.encode
  rw [he]
  simp only [Out.bind_ok, writeCount_true _ hl, writeTags, if_true, noTags_encode, be32_eq]
  simp [producePWire, ProduceP.wire, Kafka.compactNullableBytes, Kafka.compactBytes]

/-- C64, version 9 (flexible): given the bytes `recs p` of the record batches of every partition (C09), the request
is laid out as the grammar says.  Missing: version 0, see below. -/
theorem C64_produce_v9_partial (compress : Int8 → Bytes → Out Bytes) (recs : ProduceP → Bytes) (r : ProduceRequest)
    (he : ∀ t ∈ r.topicBlocks, ∀ p ∈ t.partitionBlocks, encodeBatches compress p.recordBatches = .ok (recs p))
    (hl : ∀ t ∈ r.topicBlocks, ∀ p ∈ t.partitionBlocks, (recs p).length < 2 ^ 63)
    (hp : ∀ t ∈ r.topicBlocks, t.topicName.length < 2 ^ 63 ∧ t.partitionBlocks.length < 2 ^ 63)
    (hn : r.topicBlocks.length < 2 ^ 63) (hid : ∀ b, r.transactionalID = some b → b.length < 2 ^ 63) (corr : UInt32)
    (cid : Option Bytes) (hc : ∀ b, cid = some b → b.length ≤ 32767) :
    r.encode compress (reqHeader API_ProduceRequest 9 corr cid) = .ok (Kafka.request .produce 9 corr.toNat cid
      (Kafka.produceRequest 9 r.transactionalID r.requiredAcks.toInt r.timeout.toInt
        (r.topicBlocks.map (ProduceT.wire recs)))) := by
  have ht : ∀ t ∈ r.topicBlocks, t.encode compress true = .ok (produceTWire (t.wire recs)) := by
    intro t h
    unfold ProduceT.encode
    have e := encodeEach_eq (f := ProduceP.encode compress true) (g := producePWire) (k := ProduceP.wire recs)
      t.partitionBlocks fun p hp => produceP_encode compress recs p (he t h p hp) (hl t h p hp)
    rw [e]
    simp only [if_true, Out.bind_ok, writeCompactString_eq _ (hp t h).1, writeCount_true _ (hp t h).2, writeTags, noTags_encode]
    simp [produceTWire, ProduceT.wire, Kafka.compactArray]
  have e := encodeEach_eq (f := ProduceT.encode compress true) (g := produceTWire) (k := ProduceT.wire recs) r.topicBlocks ht
  have hw := (C07_request_header .produce 9 corr cid none [] hc (by simp) (by simp)).2.1
  have hf := reqHeader_flexible .produce API_ProduceRequest 9 corr cid rfl
  have hf' : Kafka.Api.flexible .produce (9 : UInt16).toNat = true := rfl
  rw [hf'] at hf
  have hw' : (reqHeader API_ProduceRequest 9 corr cid).writeTo =
    .ok (hdr .produce 9 corr cid, (hdr .produce 9 corr cid).length) := hw
  unfold ProduceRequest.encode
  rw [hf, hw']
  simp only [Out.bind_ok, if_true, writeCompactNullableString_eq _ hid, writeCount_true _ hn, e, writeTags, noTags_encode,
    be16_eq, be32_eq, List.append_assoc]
  rw [patch_ok]
  show _ = Out.ok (Kafka.frame (hdr .produce 9 corr cid ++ (Kafka.compactNullableString _ ++ Kafka.int16 _ ++ Kafka.int32 _ ++
    Kafka.compactArray produceTWire _ ++ Kafka.tagBuffer [])))
  simp [Kafka.compactArray]

example : ProduceRequest.encode (fun _ b => .ok b) (reqHeader API_ProduceRequest 9 7 (some [99])) ⟨none, 1, 1000,
      [⟨[116], [⟨0, []⟩]⟩]⟩ =
    .ok [0, 0, 0, 31, 0, 0, 0, 9, 0, 0, 0, 7, 0, 1, 99, 0, 0, 0, 1, 0, 0, 3, 232, 2, 2, 116, 2, 0, 0, 0, 0, 1, 0, 0,
      0] := by decide +kernel

/-- C64 fails for version 0, which has no transactional id: the encoder writes one (null) all the same. -/
theorem C64_violated_v0 :
    let r : ProduceRequest := { transactionalID := none, requiredAcks := 1, timeout := 1000, topicBlocks := [] }
    ∃ out, r.encode (fun _ b => .ok b) (reqHeader API_ProduceRequest 0 7 (some [99])) = .ok out ∧
      out ≠ Kafka.request .produce 0 7 (some [99]) (Kafka.produceRequest 0 none 1 1000 []) ∧
      (0 : UInt16) ∈ clientVersions API_ProduceRequest := by
  refine ⟨[0, 0, 0, 23, 0, 0, 0, 0, 0, 0, 0, 7, 0, 1, 99, 255, 255, 0, 1, 0, 0, 3, 232, 0, 0, 0, 0], ?_, ?_, ?_⟩ <;>
    decide +kernel

/-! ## C65 -/

def AclFilter.wire (f : AclFilter) : Kafka.AclFilter :=
  { resourceType := f.resourceType.toNat, resourceName := f.resourceName, patternType := f.patternType.toNat,
    principal := f.principal, host := f.host, operation := f.operation.toNat, permission := f.permissionType.toNat }

def AclCreation.wire (f : AclCreation) : Kafka.AclCreation :=
  { resourceType := f.resourceType.toNat, resourceName := f.resourceName, patternType := f.patternType.toNat,
    principal := f.principal, host := f.host, operation := f.operation.toNat, permission := f.permissionType.toNat }

/-- Names of Kafka's resources, principals and hosts are shorter than 2 MiB. -/
structure AclFilter.Small (f : AclFilter) : Prop where
  name : ∀ b, f.resourceName = some b → b.length + 1 < 2 ^ 21
  principal : ∀ b, f.principal = some b → b.length + 1 < 2 ^ 21
  host : ∀ b, f.host = some b → b.length + 1 < 2 ^ 21

structure AclCreation.Small (f : AclCreation) : Prop where
  name : f.resourceName.length + 1 < 2 ^ 21
  principal : f.principal.length + 1 < 2 ^ 21
  host : f.host.length + 1 < 2 ^ 21

def filterStr (version : Nat) : Option Bytes → Bytes :=
  if 2 ≤ version then Kafka.compactNullableString else Kafka.nullableString

theorem filterStr_writes (version : Nat) (s : Option Bytes) (h : ∀ b, s = some b → b.length + 1 < 2 ^ 21) :
    Writes (encodeFilterString (decide (2 ≤ version)) s) (filterStr version s) := by
  unfold encodeFilterString filterStr
  by_cases hv : 2 ≤ version
  · simp only [hv, decide_true, if_true]; exact Writes.cpyO (encodeCompactNullableString_eq s h)
  · simp only [hv, decide_false, if_false, Bool.false_eq_true]; exact Writes.cpyO (encodeNullableString_eq s)

theorem filterStr_length (version : Nat) (s : Option Bytes) (h : ∀ b, s = some b → b.length + 1 < 2 ^ 21) :
    (filterStr version s).length ≤ 3 + optLen s := by
  unfold filterStr
  cases s with
  | none => split <;> simp [Kafka.compactNullableString, Kafka.nullableString, uvarint_zero, optLen]
  | some b =>
    have := uvarint_len_le3 (b.length + 1) (h b rfl)
    split
    · simp only [Kafka.compactNullableString, List.length_append, optLen]; omega
    · simp only [Kafka.nullableString, List.length_append, int16_length, optLen]; omega

def filterWire (version : Nat) (f : Kafka.AclFilter) : Bytes :=
  Kafka.aclFilter version f ++ (if 2 ≤ version then Kafka.tagBuffer [] else [])

theorem ge_one (v : UInt16) : decide (v ≥ 1) = decide (1 ≤ v.toNat) := by
  simp only [ge_iff_le, UInt16.le_iff_toNat_le]; rfl

theorem filter_writes (v : UInt16) (f : AclFilter) (h : f.Small) :
    Writes (f.enc v (decide (2 ≤ v.toNat))) (filterWire v.toNat f.wire) := by
  unfold AclFilter.enc
  refine Writes.cast writes![Writes.u8 _, filterStr_writes _ _ h.name, Writes.when fun _ => Writes.u8 _,
    filterStr_writes _ _ h.principal, filterStr_writes _ _ h.host, Writes.u8 _, Writes.u8 _, Writes.when fun _ => Writes.noTags] ?_
  rw [ge_one]
  simp only [decide_eq_true_eq, filterWire, Kafka.aclFilter, AclFilter.wire, List.append_assoc, filterStr]

theorem filter_length (v : Nat) (f : AclFilter) (h : f.Small) : (filterWire v f.wire).length + 4 ≤ f.length := by
  have h1 := filterStr_length v _ h.name
  have h2 := filterStr_length v _ h.principal
  have h3 := filterStr_length v _ h.host
  have h4 : (if 1 ≤ v then Kafka.int8 f.patternType.toNat else []).length ≤ 1 := by split <;> simp
  have h5 : (if 2 ≤ v then Kafka.tagBuffer [] else []).length ≤ 1 := by split <;> simp
  unfold filterWire Kafka.aclFilter AclFilter.wire AclFilter.length
  simp only [List.length_append, int8_length, noTagsLength_eq]
  simp only [filterStr] at h1 h2 h3
  omega

/-- the count in front of an array, classic or compact -/
def countWire (version n : Nat) : Bytes := if 2 ≤ version then Kafka.uvarint (n + 1) else Kafka.int32 n

theorem countWire_length (version n : Nat) (h : n < 2 ^ 31) : (countWire version n).length ≤ 5 := by
  unfold countWire
  split
  · exact uvarint_len_le5 _ (by omega)
  · simp

theorem countWire_zero (version : Nat) : (countWire version 0).length ≤ 4 ∧ (2 ≤ version → (countWire version 0).length = 1) := by
  unfold countWire
  split <;> simp_all <;> decide

theorem count_writes (version n : Nat) (h : n < 2 ^ 31) :
    Writes (if decide (2 ≤ version) = true then Enc.cpyO (encodeCompactArrayLength (Int64.ofNat n))
      else Enc.put (be32 (UInt32.ofNat n))) (countWire version n) := by
  unfold countWire
  by_cases h2 : 2 ≤ version
  · simp only [h2, decide_true, if_true]
    exact Writes.cpyO (encodeCompactArrayLength_eq _ (by omega) _ (Int64.toInt_ofNat_of_lt (by omega)))
  · simp only [h2, decide_false, if_false, Bool.false_eq_true]
    exact (Writes.put _).cast (be32_ofNat _)

def endTags (version : Nat) : Bytes := if 2 ≤ version then Kafka.tagBuffer [] else []

theorem deleteAcls_wire (version : Nat) (fs : List AclFilter) :
    Kafka.deleteAclsRequest version (fs.map AclFilter.wire) =
      countWire version fs.length ++ ((fs.map AclFilter.wire).flatMap (filterWire version) ++ endTags version) := by
  unfold Kafka.deleteAclsRequest filterWire countWire endTags
  split <;> simp [Kafka.compactArray, Kafka.array]

theorem deleteAcls_length (version : Nat) (fs : List AclFilter) (hs : ∀ f ∈ fs, f.Small) (hn : fs.length < 2 ^ 31) :
    (Kafka.deleteAclsRequest version (fs.map AclFilter.wire)).length ≤ fs.foldl (fun l f => l + f.length) 4 := by
  rw [deleteAcls_wire]
  have ht : (endTags version).length ≤ 1 := by unfold endTags; split <;> simp
  cases fs with
  | nil =>
    have := countWire_zero version
    by_cases h2 : 2 ≤ version
    · have := this.2 h2
      simp only [List.length_nil, List.map_nil, List.flatMap_nil, List.length_append, List.foldl_nil]
      omega
    · have e : (endTags version).length = 0 := by unfold endTags; rw [if_neg h2]; rfl
      simp only [List.length_nil, List.map_nil, List.flatMap_nil, List.length_append, List.foldl_nil]
      omega
  | cons f fs =>
    have h1 := foldl_ge (k := AclFilter.wire) (g := filterWire version) (f := fun l f => l + f.length) fs (4 + f.length)
      (fun l f hf => by have := filter_length version f (hs f (by simp [hf])); omega)
    have h2 := filter_length version f (hs f (by simp))
    have h3 := countWire_length version _ hn
    rw [List.map_cons, List.flatMap_cons, List.foldl_cons]
    simp only [List.length_append]
    omega

/-- C65: deleting ACLs, every version. -/
theorem C65_deleteAcls (fs : List AclFilter) (hs : ∀ f ∈ fs, f.Small) (hn : fs.length < 2 ^ 31) (v : UInt16)
    (_ : v ∈ clientVersions API_DeleteAcls) (corr : UInt32) (cid : Option Bytes) :
    encodeDeleteAclsRequest (reqHeader API_DeleteAcls v corr cid) fs = .ok (Kafka.request .deleteAcls v.toNat corr.toNat cid
      (Kafka.deleteAclsRequest v.toNat (fs.map AclFilter.wire))) := by
  have hl := deleteAcls_length v.toNat fs hs hn
  have hf := reqHeader_flexible .deleteAcls API_DeleteAcls v corr cid rfl
  have hfl : Kafka.Api.flexible .deleteAcls v.toNat = decide (2 ≤ v.toNat) := rfl
  rw [hfl] at hf
  have hw : Writes (.all [if decide (2 ≤ v.toNat) = true then .cpyO (encodeCompactArrayLength (Int64.ofNat fs.length))
        else .put (be32 (UInt32.ofNat fs.length)),
      .each (AclFilter.enc v (decide (2 ≤ v.toNat))) fs, .when (decide (2 ≤ v.toNat)) .noTags])
      (Kafka.deleteAclsRequest v.toNat (fs.map AclFilter.wire)) := by
    have he := Writes.each (f := AclFilter.enc v (decide (2 ≤ v.toNat))) (g := fun f => filterWire v.toNat f.wire) fs
      fun f hf => filter_writes v f (hs f hf)
    refine Writes.cast writes![count_writes v.toNat fs.length hn, he,
      Writes.when fun _ => Writes.noTags] ?_
    rw [deleteAcls_wire, List.flatMap_map]; simp only [decide_eq_true_eq, endTags]
  unfold encodeDeleteAclsRequest
  rw [hf, Out.bind_ok]
  exact encodePatched_ok .deleteAcls rfl hw hl

example : encodeDeleteAclsRequest (reqHeader API_DeleteAcls 2 7 (some [99])) [⟨2, some [116], 3, none, none, 1, 1⟩] =
    .ok [0, 0, 0, 23, 0, 31, 0, 2, 0, 0, 0, 7, 0, 1, 99, 0, 2, 2, 2, 116, 3, 0, 0, 1, 1, 0, 0] := by decide +kernel

def creationWire (version : Nat) (f : Kafka.AclCreation) : Bytes := Kafka.aclCreation version f ++ Kafka.tagBuffer []

theorem aclString_writes (s : Bytes) (h : s.length + 1 < 2 ^ 21) : Writes (encodeAclString 2 s) (Kafka.compactString s) := by
  unfold encodeAclString
  rw [if_neg (by decide)]
  exact Writes.cpyO (encodeCompactString_eq s (by omega))

theorem creation_writes (v : UInt16) (hv : 2 ≤ v.toNat) (f : AclCreation) (h : f.Small) :
    Writes (f.enc v 2) (creationWire v.toNat f.wire) := by
  have h1 : 1 ≤ v.toNat := by omega
  unfold AclCreation.enc
  refine Writes.cast writes![Writes.u8 _, aclString_writes _ h.name, Writes.when fun _ => Writes.u8 _,
    aclString_writes _ h.principal, aclString_writes _ h.host, Writes.u8 _, Writes.u8 _, Writes.noTags] ?_
  rw [ge_one]
  simp only [decide_eq_true_eq, creationWire, Kafka.aclCreation, AclCreation.wire, List.append_assoc, hv, h1, if_true]

theorem creation_length (v : Nat) (f : AclCreation) (h : f.Small) (hv : 2 ≤ v) :
    (creationWire v f.wire).length ≤ f.length := by
  have h1 := uvarint_len_le3 _ h.name
  have h2 := uvarint_len_le3 _ h.principal
  have h3 := uvarint_len_le3 _ h.host
  have hv' : 1 ≤ v := by omega
  unfold creationWire Kafka.aclCreation AclCreation.wire AclCreation.length
  simp only [hv, hv', if_true, List.length_append, int8_length, noTagsLength_eq, compactString_length, tagBuffer_nil_length]
  omega

theorem createAcls_wire (version : Nat) (hv : 2 ≤ version) (fs : List AclCreation) :
    Kafka.createAclsRequest version (fs.map AclCreation.wire) =
      Kafka.uvarint (fs.length + 1) ++ ((fs.map AclCreation.wire).flatMap (creationWire version) ++ Kafka.tagBuffer []) := by
  unfold Kafka.createAclsRequest creationWire
  rw [if_pos hv]
  simp [Kafka.compactArray]

theorem createAcls_length (version : Nat) (hv : 2 ≤ version) (fs : List AclCreation) (hs : ∀ f ∈ fs, f.Small)
    (hn : fs.length < 2 ^ 31) : (Kafka.createAclsRequest version (fs.map AclCreation.wire)).length ≤
      fs.foldl (fun l f => l + f.length) 4 + noTagsLength := by
  have h1 := foldl_ge (k := AclCreation.wire) (g := creationWire version) (f := fun l f => l + f.length) fs 4
    (fun l f hf => by have := creation_length version f (hs f hf) hv; omega)
  have h2 := uvarint_len_le5 (fs.length + 1) (by omega)
  rw [createAcls_wire version hv]
  simp only [List.length_append, noTagsLength_eq, tagBuffer_nil_length]
  omega

/-- C65, creating ACLs from version 2 on (flexible).  Missing: versions 0 and 1, see below. -/
theorem C65_createAcls_partial (fs : List AclCreation) (hs : ∀ f ∈ fs, f.Small) (hn : fs.length < 2 ^ 31) (v : UInt16)
    (_ : v ∈ clientVersions API_CreateAcls) (hv : 2 ≤ v.toNat) (corr : UInt32) (cid : Option Bytes) :
    encodeCreateAclsRequest (reqHeader API_CreateAcls v corr cid) fs = .ok (Kafka.request .createAcls v.toNat corr.toNat cid
      (Kafka.createAclsRequest v.toNat (fs.map AclCreation.wire))) := by
  have hl := createAcls_length v.toNat hv fs hs hn
  have hf := reqHeader_version .createAcls API_CreateAcls v corr cid rfl
  have hfl : Kafka.Api.requestHeaderVersion .createAcls v.toNat = 2 := by
    have : Kafka.Api.flexible .createAcls v.toNat = decide (2 ≤ v.toNat) := rfl
    simp [Kafka.Api.requestHeaderVersion, this, hv]
  rw [hfl] at hf
  have hw : Writes (.all [if (2 : UInt16) < 2 then .put (be32 (UInt32.ofNat fs.length))
        else .cpyO (encodeCompactArrayLength (Int64.ofNat fs.length)),
      .each (AclCreation.enc v 2) fs, .noTags]) (Kafka.createAclsRequest v.toNat (fs.map AclCreation.wire)) := by
    have he := Writes.each (f := AclCreation.enc v 2) (g := fun f => creationWire v.toNat f.wire) fs
      fun f hf => creation_writes v hv f (hs f hf)
    have hc := encodeCompactArrayLength_eq fs.length (by omega) (Int64.ofNat fs.length) (Int64.toInt_ofNat_of_lt (by omega))
    rw [if_neg (by decide)]
    refine Writes.cast writes![Writes.cpyO hc, he, Writes.noTags] ?_
    rw [createAcls_wire _ hv, List.flatMap_map]
  unfold encodeCreateAclsRequest
  rw [hf, Out.bind_ok]
  exact encodePatched_ok .createAcls rfl hw hl

example : encodeCreateAclsRequest (reqHeader API_CreateAcls 2 7 (some [99])) [⟨2, [116], 3, [117], [42], 3, 3⟩] =
    .ok [0, 0, 0, 25, 0, 30, 0, 2, 0, 0, 0, 7, 0, 1, 99, 0, 2, 2, 2, 116, 3, 2, 117, 2, 42, 3, 3, 0, 0] := by decide +kernel

/-- C65 fails for creating ACLs in versions 0 and 1: tagged fields are written, which those versions do not have. -/
theorem C65_violated_createAcls :
    let c : AclCreation := ⟨2, [116], 3, [117], [42], 3, 3⟩
    (∃ out, encodeCreateAclsRequest (reqHeader API_CreateAcls 1 7 (some [99])) [c] = .ok out ∧
      out ≠ Kafka.request .createAcls 1 7 (some [99]) (Kafka.createAclsRequest 1 [c.wire])) ∧
    (∃ out, encodeCreateAclsRequest (reqHeader API_CreateAcls 0 7 (some [99])) [c] = .ok out ∧
      out ≠ Kafka.request .createAcls 0 7 (some [99]) (Kafka.createAclsRequest 0 [c.wire])) := by
  refine ⟨⟨[0, 0, 0, 30, 0, 30, 0, 1, 0, 0, 0, 7, 0, 1, 99, 0, 0, 0, 1, 2, 0, 1, 116, 3, 0, 1, 117, 0, 1, 42, 3, 3, 0, 0], ?_, ?_⟩,
    ⟨[0, 0, 0, 29, 0, 30, 0, 0, 0, 0, 0, 7, 0, 1, 99, 0, 0, 0, 1, 2, 0, 1, 116, 0, 1, 117, 0, 1, 42, 3, 3, 0, 0], ?_, ?_⟩⟩ <;>
    decide +kernel

/-- C65, describing ACLs in version 2.  Missing: versions 0 and 1, see below. -/
theorem C65_describeAcls_partial (f : AclFilter) (hs : f.Small) (corr : UInt32) (cid : Option Bytes) :
    encodeDescribeAclsRequest (reqHeader API_DescribeAcls 2 corr cid) 2 f = .ok (Kafka.request .describeAcls 2 corr.toNat cid
      (Kafka.describeAclsRequest 2 f.wire)) := by
  have hs1 : ∀ b, f.resourceName = some b → b.length < 2 ^ 63 := fun b h => by have := hs.name b h; omega
  have hs2 : ∀ b, f.principal = some b → b.length < 2 ^ 63 := fun b h => by have := hs.principal b h; omega
  have hs3 : ∀ b, f.host = some b → b.length < 2 ^ 63 := fun b h => by have := hs.host b h; omega
  have u8 : ∀ b : UInt8, [b] = Kafka.int8 b.toNat := by
    intro b
    have : (b.toNat : Int) % 256 = b.toNat := by have := b.toNat_lt; omega
    simp [Kafka.int8, Kafka.be, this]
  unfold encodeDescribeAclsRequest writeAclString
  rw [reqHeader_length .describeAcls API_DescribeAcls 2 corr cid rfl]
  rw [Out.bind_ok, encodeCut_of_writes (reqHeader_writes .describeAcls API_DescribeAcls 2 corr cid rfl) (Nat.le_refl _)]
  rw [if_neg (by decide), if_neg (by decide), if_neg (by decide)]
  simp only [Out.bind_ok, writeCompactNullableString_eq _ hs1, writeCompactNullableString_eq _ hs2,
    writeCompactNullableString_eq _ hs3, noTags_encode, if_pos (show (2 : UInt16) ≥ 1 by decide), List.append_assoc]
  rw [patch_ok]
  simp only [Kafka.request, Kafka.describeAclsRequest, Kafka.aclFilter, AclFilter.wire, u8, List.append_assoc, hdr]
  rfl

example : encodeDescribeAclsRequest (reqHeader API_DescribeAcls 2 7 (some [99])) 2 ⟨2, some [116], 3, none, none, 1,
      1⟩ =
    .ok [0, 0, 0, 21, 0, 29, 0, 2, 0, 0, 0, 7, 0, 1, 99, 0, 2, 2, 116, 3, 0, 0, 1, 1, 0] := by decide +kernel

/-- C65 fails for describing ACLs in versions 0 and 1: a tag buffer is written, which those versions do not have. -/
theorem C65_violated_describeAcls :
    let f : AclFilter := ⟨2, some [116], 3, none, none, 1, 1⟩
    (∃ out, encodeDescribeAclsRequest (reqHeader API_DescribeAcls 1 7 (some [99])) 1 f = .ok out ∧
      out ≠ Kafka.request .describeAcls 1 7 (some [99]) (Kafka.describeAclsRequest 1 f.wire)) ∧
    (∃ out, encodeDescribeAclsRequest (reqHeader API_DescribeAcls 0 7 (some [99])) 0 f = .ok out ∧
      out ≠ Kafka.request .describeAcls 0 7 (some [99]) (Kafka.describeAclsRequest 0 f.wire)) := by
  refine ⟨⟨[0, 0, 0, 23, 0, 29, 0, 1, 0, 0, 0, 7, 0, 1, 99, 2, 0, 1, 116, 3, 255, 255, 255, 255, 1, 1, 0], ?_, ?_⟩,
    ⟨[0, 0, 0, 22, 0, 29, 0, 0, 0, 0, 0, 7, 0, 1, 99, 2, 0, 1, 116, 255, 255, 255, 255, 1, 1, 0], ?_, ?_⟩⟩ <;> decide +kernel

end Healer
