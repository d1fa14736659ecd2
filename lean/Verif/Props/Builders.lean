import Verif.Model.Builders

/-!
# C75, C76, C77, C112: building requests
-/

namespace Healer

/-! ## The loop -/

theorem inFirst_keys {α κ : Type} [DecidableEq κ] [BEq κ] [LawfulBEq κ] (key : α → κ) (k : κ) (f : α → α) (new : α) (hf : ∀ a, key (f a) = key a) (hn : key new = k) :
    ∀ l : List α, (inFirst (fun a => key a == k) f new l).map key = if k ∈ l.map key then l.map key else l.map key ++ [k]
  | [] => by simp [inFirst, hn]
  | a :: as => by
    unfold inFirst
    by_cases h : key a = k
    · simp [h, hf]
    · have h' : k ≠ key a := fun e => h e.symm
      have ih := inFirst_keys key k f new hf hn as
      simp only [List.map_cons, beq_iff_eq, h, if_false, List.mem_cons, h', false_or]
      rw [ih]
      split <;> rfl

theorem inFirst_nodup {α κ : Type} [DecidableEq κ] [BEq κ] [LawfulBEq κ] (key : α → κ) (k : κ) (f : α → α) (new : α) (hf : ∀ a, key (f a) = key a) (hn : key new = k)
    (l : List α) (hl : (l.map key).Nodup) : ((inFirst (fun a => key a == k) f new l).map key).Nodup := by
  rw [inFirst_keys key k f new hf hn]
  split
  · exact hl
  · rename_i h
    rw [List.nodup_append]
    refine ⟨hl, by simp, ?_⟩
    intro a ha b hb
    simp only [List.mem_singleton] at hb
    subst hb
    intro e
    exact h (e ▸ ha)

theorem inFirst_mem {α κ : Type} [DecidableEq κ] [BEq κ] [LawfulBEq κ] (key : α → κ) (k : κ) (f : α → α) (new : α) :
    ∀ (l : List α), (l.map key).Nodup → ∀ x, x ∈ inFirst (fun a => key a == k) f new l ↔
      (x ∈ l ∧ key x ≠ k) ∨ (∃ a ∈ l, key a = k ∧ x = f a) ∨ ((∀ a ∈ l, key a ≠ k) ∧ x = new)
  | [], _, x => by simp [inFirst]
  | a :: as, hl, x => by
    simp only [List.map_cons, List.nodup_cons] at hl
    unfold inFirst
    by_cases h : key a = k
    · have hne : ∀ b ∈ as, key b ≠ k := by
        intro b hb e
        exact hl.1 (List.mem_map.2 ⟨b, hb, by rw [e, h]⟩)
      simp only [h, beq_self_eq_true, if_true, List.mem_cons]
      constructor
      · rintro (rfl | hx)
        · exact .inr (.inl ⟨a, .inl rfl, h, rfl⟩)
        · exact .inl ⟨.inr hx, hne x hx⟩
      · rintro (⟨rfl | hx, hk⟩ | ⟨b, rfl | hb, hk, rfl⟩ | ⟨hall, _⟩)
        · exact absurd h hk
        · exact .inr hx
        · exact .inl rfl
        · exact absurd hk (hne b hb)
        · exact absurd h (hall a (.inl rfl))
    · have ih := inFirst_mem key k f new as hl.2 x
      simp only [beq_iff_eq, h, if_false, List.mem_cons]
      rw [ih]
      constructor
      · rintro (rfl | ⟨hx, hk⟩ | ⟨b, hb, hk, rfl⟩ | ⟨hall, rfl⟩)
        · exact .inl ⟨.inl rfl, h⟩
        · exact .inl ⟨.inr hx, hk⟩
        · exact .inr (.inl ⟨b, .inr hb, hk, rfl⟩)
        · refine .inr (.inr ⟨?_, rfl⟩)
          rintro b (rfl | hb)
          · exact h
          · exact hall b hb
      · rintro (⟨rfl | hx, hk⟩ | ⟨b, rfl | hb, hk, rfl⟩ | ⟨hall, rfl⟩)
        · exact .inl rfl
        · exact .inr (.inl ⟨hx, hk⟩)
        · exact absurd hk h
        · exact .inr (.inr (.inl ⟨b, hb, hk, rfl⟩))
        · exact .inr (.inr (.inr ⟨fun b hb => hall b (.inr hb), rfl⟩))

/-! ## C75: lists of partitions -/

/-- One entry for each topic, and one for each of its partitions; and these are the given ones. -/
structure ListsExactly (topics : List TopicPids) (wanted : List (Bytes × Int32)) : Prop where
  topicsOnce : (topics.map TopicPids.topic).Nodup
  pidsOnce : ∀ t ∈ topics, t.partitions.Nodup
  exact : ∀ topic pid, (∃ t ∈ topics, t.topic = topic ∧ pid ∈ t.partitions) ↔ (topic, pid) ∈ wanted

theorem TopicPids.mem_addOnce (pid q : Int32) (t : TopicPids) : q ∈ (TopicPids.addOnce pid t).partitions ↔ q ∈ t.partitions ∨ q = pid := by
  unfold TopicPids.addOnce
  split
  · constructor
    · exact .inl
    · rintro (h | rfl)
      · exact h
      · assumption
  · simp

theorem ListsExactly.add {topics : List TopicPids} {wanted : List (Bytes × Int32)} (h : ListsExactly topics wanted) (topic : Bytes) (pid : Int32) :
    ListsExactly (inFirst (·.topic == topic) (TopicPids.addOnce pid) ⟨topic, [pid]⟩ topics) (wanted ++ [(topic, pid)]) := by
  have hf : ∀ t : TopicPids, (TopicPids.addOnce pid t).topic = t.topic := fun t => by unfold TopicPids.addOnce; split <;> rfl
  have mem := inFirst_mem TopicPids.topic topic (TopicPids.addOnce pid) ⟨topic, [pid]⟩ topics h.topicsOnce
  refine ⟨inFirst_nodup TopicPids.topic topic (TopicPids.addOnce pid) ⟨topic, [pid]⟩ hf rfl topics h.topicsOnce, ?_, ?_⟩
  · intro t ht
    rcases (mem t).1 ht with ⟨ht, _⟩ | ⟨a, ha, _, rfl⟩ | ⟨_, rfl⟩
    · exact h.pidsOnce t ht
    · unfold TopicPids.addOnce
      split
      · exact h.pidsOnce a ha
      · rename_i hn
        show (a.partitions ++ [pid]).Nodup
        rw [List.nodup_append]
        exact ⟨h.pidsOnce a ha, by simp, fun x hx y hy => by simp only [List.mem_singleton] at hy; subst hy; rintro rfl; exact hn hx⟩
    · simp
  · intro tp q
    have hex := h.exact tp q
    simp only [List.mem_append, List.mem_singleton, Prod.mk.injEq]
    rw [← hex]
    constructor
    · rintro ⟨t, ht, rfl, hq⟩
      rcases (mem t).1 ht with ⟨ht, _⟩ | ⟨a, ha, hk, rfl⟩ | ⟨_, rfl⟩
      · exact .inl ⟨t, ht, rfl, hq⟩
      · rcases (TopicPids.mem_addOnce pid q a).1 hq with hq | rfl
        · exact .inl ⟨a, ha, (hf a).symm, hq⟩
        · exact .inr ⟨(hf a).trans hk, rfl⟩
      · simp only [List.mem_singleton] at hq
        exact .inr ⟨rfl, hq⟩
    · rintro (⟨t, ht, rfl, hq⟩ | ⟨rfl, rfl⟩)
      · by_cases hk : t.topic = topic
        · exact ⟨_, (mem _).2 (.inr (.inl ⟨t, ht, hk, rfl⟩)), hf t, (TopicPids.mem_addOnce pid q t).2 (.inl hq)⟩
        · exact ⟨t, (mem t).2 (.inl ⟨ht, hk⟩), rfl, hq⟩
      · by_cases hk : ∃ a ∈ topics, a.topic = tp
        · obtain ⟨a, ha, hk⟩ := hk
          exact ⟨_, (mem _).2 (.inr (.inl ⟨a, ha, hk, rfl⟩)), (hf a).trans hk, (TopicPids.mem_addOnce q q a).2 (.inr rfl)⟩
        · exact ⟨⟨tp, [q]⟩, (mem _).2 (.inr (.inr ⟨fun a ha e => hk ⟨a, ha, e⟩, rfl⟩)), rfl, by simp⟩

theorem ListsExactly.empty : ListsExactly [] [] := ⟨by simp, by simp, by simp⟩

theorem ListsExactly.adds (adds : List (Bytes × Int32)) : ∀ {topics : List TopicPids} {wanted : List (Bytes × Int32)},
    ListsExactly topics wanted →
    ListsExactly (adds.foldl (fun l a => inFirst (·.topic == a.1) (TopicPids.addOnce a.2) ⟨a.1, [a.2]⟩ l) topics) (wanted ++ adds) := by
  induction adds with
  | nil => intro _ _ h; simpa using h
  | cons a as ih =>
    intro topics wanted h
    have := ih (h.add a.1 a.2)
    simpa using this

/-- C75: an offset-fetch request to which partitions were added has one entry for each partition added.
Missing for the full statement: fetch requests (`C75_violated_fetch`); the others are below. -/
theorem C75_offset_fetch_partial (group : Bytes) (adds : List (Bytes × Int32)) :
    ListsExactly (adds.foldl (fun r a => r.addPartition a.1 a.2) ({ groupID := group } : OffsetFetchRequest)).topics adds := by
  have key : ∀ (adds : List (Bytes × Int32)) (r : OffsetFetchRequest), (adds.foldl (fun r a => r.addPartition a.1 a.2) r).topics =
      adds.foldl (fun l a => inFirst (·.topic == a.1) (TopicPids.addOnce a.2) ⟨a.1, [a.2]⟩ l) r.topics := by
    intro adds
    induction adds with
    | nil => intro r; rfl
    | cons a as ih => intro r; exact ih _
  rw [key]
  simpa using ListsExactly.empty.adds adds

/-- C75: the same for log-dirs requests.
Missing: fetch requests (`C75_violated_fetch`). -/
theorem C75_log_dirs_partial (adds : List (Bytes × Int32)) :
    ListsExactly (adds.foldl (fun l a => addLogDirsTopicPartition a.1 a.2 l) []) adds := by
  have := ListsExactly.empty.adds adds
  rwa [List.nil_append] at this

/-- C75: the same for list-reassignments requests.
Missing: fetch requests (`C75_violated_fetch`). -/
theorem C75_list_reassignments_partial (timeout : Int32) (adds : List (Bytes × Int32)) :
    ListsExactly ((adds.foldl (fun r a => r.addTP a.1 a.2) ({ timeoutMS := timeout } : ListReassignmentsRequest)).topics.getD []) adds := by
  have key : ∀ (adds : List (Bytes × Int32)) (r : ListReassignmentsRequest), (adds.foldl (fun r a => r.addTP a.1 a.2) r).topics.getD [] =
      adds.foldl (fun l a => inFirst (·.topic == a.1) (TopicPids.addOnce a.2) ⟨a.1, [a.2]⟩ l) (r.topics.getD []) := by
    intro adds
    induction adds with
    | nil => intro r; rfl
    | cons a as ih => intro r; exact ih _
  rw [key]
  simpa using ListsExactly.empty.adds adds

example : (([([1], 0), ([2], 5), ([1], 0), ([1], 3)] : List (Bytes × Int32)).foldl (fun r a => r.addPartition a.1 a.2)
    ({ groupID := [9] } : OffsetFetchRequest)).topics = [⟨[1], [0, 3]⟩, ⟨[2], [5]⟩] := by decide

/-! ## C75: offset commits -/

/-- An addition to an offset-commit request. -/
structure CommitAdd where
  topic : Bytes
  pid : Int32
  offset : Int64
  metadata : Bytes

/-- the position added last -/
def lastAdded (adds : List CommitAdd) (topic : Bytes) (pid : Int32) : Option (Int64 × Bytes) :=
  ((adds.filter fun a => a.topic = topic ∧ a.pid = pid).getLast?).map fun a => (a.offset, a.metadata)

structure CommitsExactly (topics : List OffsetCommitTopic) (adds : List CommitAdd) : Prop where
  topicsOnce : (topics.map OffsetCommitTopic.topic).Nodup
  pidsOnce : ∀ t ∈ topics, (t.partitions.map OffsetCommitPartition.partitionID).Nodup
  exact : ∀ topic pid offset metadata,
    (∃ t ∈ topics, t.topic = topic ∧ ⟨pid, offset, metadata⟩ ∈ t.partitions) ↔ lastAdded adds topic pid = some (offset, metadata)

theorem OffsetCommitTopic.mem_add {pid : Int32} {offset : Int64} {metadata : Bytes} {t : OffsetCommitTopic}
    (h : (t.partitions.map OffsetCommitPartition.partitionID).Nodup) (p : OffsetCommitPartition) :
    p ∈ (OffsetCommitTopic.add pid offset metadata t).partitions ↔ (p ∈ t.partitions ∧ p.partitionID ≠ pid) ∨ p = ⟨pid, offset, metadata⟩ := by
  unfold OffsetCommitTopic.add
  simp only
  rw [inFirst_mem OffsetCommitPartition.partitionID pid _ _ t.partitions h]
  constructor
  · rintro (h | ⟨a, _, rfl, rfl⟩ | ⟨_, rfl⟩)
    · exact .inl h
    · exact .inr rfl
    · exact .inr rfl
  · rintro (h | rfl)
    · exact .inl h
    · by_cases hk : ∃ a ∈ t.partitions, a.partitionID = pid
      · obtain ⟨a, ha, hk⟩ := hk
        exact .inr (.inl ⟨a, ha, hk, by rw [← hk]⟩)
      · exact .inr (.inr ⟨fun a ha e => hk ⟨a, ha, e⟩, rfl⟩)

theorem lastAdded_append (adds : List CommitAdd) (a : CommitAdd) (topic : Bytes) (pid : Int32) :
    lastAdded (adds ++ [a]) topic pid = if a.topic = topic ∧ a.pid = pid then some (a.offset, a.metadata) else lastAdded adds topic pid := by
  unfold lastAdded
  rw [List.filter_append]
  by_cases h : a.topic = topic ∧ a.pid = pid
  · simp [h]
  · simp only [if_neg h]
    have : List.filter (fun a : CommitAdd => decide (a.topic = topic ∧ a.pid = pid)) [a] = [] := by simp [h]
    rw [this, List.append_nil]

theorem CommitsExactly.add {topics : List OffsetCommitTopic} {adds : List CommitAdd} (h : CommitsExactly topics adds) (a : CommitAdd) :
    CommitsExactly (inFirst (·.topic == a.topic) (OffsetCommitTopic.add a.pid a.offset a.metadata)
      (OffsetCommitTopic.add a.pid a.offset a.metadata ⟨a.topic, []⟩) topics) (adds ++ [a]) := by
  have mem := inFirst_mem OffsetCommitTopic.topic a.topic (OffsetCommitTopic.add a.pid a.offset a.metadata)
    (OffsetCommitTopic.add a.pid a.offset a.metadata ⟨a.topic, []⟩) topics h.topicsOnce
  have hnd : ∀ t : OffsetCommitTopic, (t.partitions.map OffsetCommitPartition.partitionID).Nodup →
      ((OffsetCommitTopic.add a.pid a.offset a.metadata t).partitions.map OffsetCommitPartition.partitionID).Nodup := fun t ht =>
    inFirst_nodup OffsetCommitPartition.partitionID a.pid (fun p => { p with offset := a.offset, metadata := a.metadata })
      ⟨a.pid, a.offset, a.metadata⟩ (fun _ => rfl) rfl _ ht
  refine ⟨inFirst_nodup OffsetCommitTopic.topic a.topic (OffsetCommitTopic.add a.pid a.offset a.metadata)
    (OffsetCommitTopic.add a.pid a.offset a.metadata ⟨a.topic, []⟩) (fun _ => rfl) rfl topics h.topicsOnce, ?_, ?_⟩
  · intro t ht
    rcases (mem t).1 ht with ⟨ht, _⟩ | ⟨b, hb, _, rfl⟩ | ⟨_, rfl⟩
    · exact h.pidsOnce t ht
    · exact hnd b (h.pidsOnce b hb)
    · exact hnd _ (by simp)
  · intro topic pid offset metadata
    have hex := h.exact topic pid offset metadata
    rw [lastAdded_append]
    by_cases hcase : a.topic = topic ∧ a.pid = pid
    · rw [if_pos hcase]
      obtain ⟨rfl, rfl⟩ := hcase
      simp only [Option.some.injEq, Prod.mk.injEq]
      constructor
      · rintro ⟨t, ht, htp, hp⟩
        rcases (mem t).1 ht with ⟨_, hk⟩ | ⟨b, hb, _, rfl⟩ | ⟨_, rfl⟩
        · exact absurd htp hk
        · rcases (OffsetCommitTopic.mem_add (h.pidsOnce b hb) _).1 hp with ⟨_, hne⟩ | he
          · exact absurd rfl hne
          · cases he; exact ⟨rfl, rfl⟩
        · rcases (OffsetCommitTopic.mem_add (by simp) _).1 hp with ⟨hm, _⟩ | he
          · simp at hm
          · cases he; exact ⟨rfl, rfl⟩
      · rintro ⟨rfl, rfl⟩
        by_cases hk : ∃ b ∈ topics, b.topic = a.topic
        · obtain ⟨b, hb, hk⟩ := hk
          exact ⟨_, (mem _).2 (.inr (.inl ⟨b, hb, hk, rfl⟩)), hk, (OffsetCommitTopic.mem_add (h.pidsOnce b hb) _).2 (.inr rfl)⟩
        · exact ⟨_, (mem _).2 (.inr (.inr ⟨fun b hb e => hk ⟨b, hb, e⟩, rfl⟩)), rfl, (OffsetCommitTopic.mem_add (by simp) _).2 (.inr rfl)⟩
    · rw [if_neg hcase, ← hex]
      constructor
      · rintro ⟨t, ht, rfl, hp⟩
        rcases (mem t).1 ht with ⟨ht, _⟩ | ⟨b, hb, hk, rfl⟩ | ⟨_, rfl⟩
        · exact ⟨t, ht, rfl, hp⟩
        · rcases (OffsetCommitTopic.mem_add (h.pidsOnce b hb) _).1 hp with ⟨hp, _⟩ | he
          · exact ⟨b, hb, rfl, hp⟩
          · cases he
            exact absurd ⟨hk.symm, rfl⟩ hcase
        · rcases (OffsetCommitTopic.mem_add (by simp) _).1 hp with ⟨hm, _⟩ | he
          · simp at hm
          · cases he
            exact absurd ⟨rfl, rfl⟩ hcase
      · rintro ⟨t, ht, rfl, hp⟩
        by_cases hk : t.topic = a.topic
        · refine ⟨_, (mem _).2 (.inr (.inl ⟨t, ht, hk, rfl⟩)), rfl, (OffsetCommitTopic.mem_add (h.pidsOnce t ht) _).2 (.inl ⟨hp, ?_⟩)⟩
          intro e
          exact hcase ⟨hk.symm, e.symm⟩
        · exact ⟨t, (mem t).2 (.inl ⟨ht, hk⟩), rfl, hp⟩

/-- C75: an offset-commit request to which positions were added has one entry for each partition, with the position
added last.
Missing: fetch requests (`C75_violated_fetch`). -/
theorem C75_offset_commit_partial (r : OffsetCommitRequest) (hr : r.topics = []) (adds : List CommitAdd) :
    CommitsExactly (adds.foldl (fun r a => r.addPartition a.topic a.pid a.offset a.metadata) r).topics adds := by
  have key : ∀ (adds done : List CommitAdd) (r : OffsetCommitRequest), CommitsExactly r.topics done →
      CommitsExactly (adds.foldl (fun r a => r.addPartition a.topic a.pid a.offset a.metadata) r).topics (done ++ adds) := by
    intro adds
    induction adds with
    | nil => intro done r h; simpa using h
    | cons a as ih =>
      intro done r h
      have := ih (done ++ [a]) (r.addPartition a.topic a.pid a.offset a.metadata) (h.add a)
      simpa using this
  have := key adds [] r (by rw [hr]; exact ⟨by simp, by simp, by simp [lastAdded]⟩)
  simpa using this

example : (([⟨[1], 0, 10, []⟩, ⟨[2], 0, 7, []⟩, ⟨[1], 0, 12, [5]⟩] : List CommitAdd).foldl
    (fun r a => r.addPartition a.topic a.pid a.offset a.metadata) ({ groupID := [9] } : OffsetCommitRequest)).topics =
    [⟨[1], [⟨0, 12, [5]⟩]⟩, ⟨[2], [⟨0, 7, []⟩]⟩] := by decide

/-- a partition added to a fetch request -/
structure FetchAdd where
  topic : Bytes
  pid : Int32
  offset : Int64
  maxBytes : Int32
  epoch : Int32

/-- what should be asked for it -/
def FetchAdd.block (a : FetchAdd) : PartitionBlock :=
  { partition := a.pid, currentLeaderEpoch := a.epoch, fetchOffset := a.offset, logStartOffset := 0, maxBytes := a.maxBytes }

/-- C75 for fetch requests: each topic is listed once; its partitions are those added, with their offsets, sizes and epochs, in order;
and the size of the whole is the sum.
Missing for the full statement: that a partition added twice is listed once (`C75_violated_fetch`). -/
theorem C75_fetch_partial (r : FetchRequest) (hr : r.topics = []) (adds : List FetchAdd) :
    let q := adds.foldl (fun r a => r.addPartition a.topic a.pid a.offset a.maxBytes a.epoch) r
    (q.topics.map Prod.fst).Nodup ∧
      (∀ t, (∃ bs, (t, bs) ∈ q.topics) ↔ ∃ a ∈ adds, a.topic = t) ∧
      (∀ t bs, (t, bs) ∈ q.topics → bs = (adds.filter (·.topic = t)).map FetchAdd.block) ∧
      q.maxBytes = adds.foldl (fun n a => n + a.maxBytes) r.maxBytes := by
  have key : ∀ (adds done : List FetchAdd) (r : FetchRequest), (r.topics.map Prod.fst).Nodup →
      (∀ t, (∃ bs, (t, bs) ∈ r.topics) ↔ ∃ a ∈ done, a.topic = t) →
      (∀ t bs, (t, bs) ∈ r.topics → bs = (done.filter (·.topic = t)).map FetchAdd.block) →
      let q := adds.foldl (fun r a => r.addPartition a.topic a.pid a.offset a.maxBytes a.epoch) r
      (q.topics.map Prod.fst).Nodup ∧
        (∀ t, (∃ bs, (t, bs) ∈ q.topics) ↔ ∃ a ∈ done ++ adds, a.topic = t) ∧
        (∀ t bs, (t, bs) ∈ q.topics → bs = ((done ++ adds).filter (·.topic = t)).map FetchAdd.block) ∧
        q.maxBytes = adds.foldl (fun n a => n + a.maxBytes) r.maxBytes := by
    intro adds
    induction adds with
    | nil => intro done r h1 h2 h3; simpa using ⟨h1, h2, h3⟩
    | cons a as ih =>
      intro done r h1 h2 h3
      have mem := inFirst_mem (Prod.fst : Bytes × List PartitionBlock → Bytes) a.topic (fun e => (e.1, e.2 ++ [a.block])) (a.topic, [a.block]) r.topics h1
      have hn := inFirst_nodup (Prod.fst : Bytes × List PartitionBlock → Bytes) a.topic (fun e => (e.1, e.2 ++ [a.block])) (a.topic, [a.block])
        (fun _ => rfl) rfl r.topics h1
      have ht : (r.addPartition a.topic a.pid a.offset a.maxBytes a.epoch).topics =
        inFirst (·.1 == a.topic) (fun e => (e.1, e.2 ++ [a.block])) (a.topic, [a.block]) r.topics := rfl
      have := ih (done ++ [a]) (r.addPartition a.topic a.pid a.offset a.maxBytes a.epoch) (by rw [ht]; exact hn) ?_ ?_
      · simpa [FetchRequest.addPartition] using this
      · intro t
        rw [ht]
        constructor
        · rintro ⟨bs, hbs⟩
          rcases (mem _).1 hbs with ⟨h, -⟩ | ⟨e, he, hk, h⟩ | ⟨-, h⟩
          · obtain ⟨x, hx, hxt⟩ := (h2 t).1 ⟨bs, h⟩
            exact ⟨x, by simp [hx], hxt⟩
          · cases h; exact ⟨a, by simp, hk.symm⟩
          · cases h; exact ⟨a, by simp, rfl⟩
        · rintro ⟨x, hx, rfl⟩
          by_cases hxa : x.topic = a.topic
          · by_cases he : ∃ e ∈ r.topics, e.1 = a.topic
            · obtain ⟨e, he, hk⟩ := he
              exact ⟨_, (mem (x.topic, e.2 ++ [a.block])).2 (.inr (.inl ⟨e, he, hk, by rw [hxa, hk]⟩))⟩
            · exact ⟨_, (mem (x.topic, [a.block])).2 (.inr (.inr ⟨fun e h1 h2 => he ⟨e, h1, h2⟩, by rw [hxa]⟩))⟩
          · have hx' : x ∈ done := by
              rcases List.mem_append.1 hx with h | h
              · exact h
              · rw [List.mem_singleton] at h; exact absurd (by rw [h]) hxa
            obtain ⟨bs, hbs⟩ := (h2 x.topic).2 ⟨x, hx', rfl⟩
            exact ⟨bs, (mem _).2 (.inl ⟨hbs, hxa⟩)⟩
      · intro t bs hbs
        rw [ht] at hbs
        rw [List.filter_append, List.map_append]
        rcases (mem _).1 hbs with ⟨h, hne⟩ | ⟨e, he, hk, h⟩ | ⟨hno, h⟩
        · have : ¬ a.topic = t := fun e => hne e.symm
          simpa [this] using h3 t bs h
        · cases h
          have := h3 e.1 e.2 he
          simp [← hk, ← this]
        · cases h
          have : done.filter (fun x => decide (x.topic = a.topic)) = [] := by
            rw [List.filter_eq_nil_iff]
            intro x hx hxt
            obtain ⟨bs, hb⟩ := (h2 a.topic).2 ⟨x, hx, by simpa using hxt⟩
            exact hno _ hb rfl
          simp [this]
  have := key adds [] r (by simp [hr]) (by simp [hr]) (by simp [hr])
  simpa using this

example : (([⟨[1], 0, 10, 100, -1⟩, ⟨[2], 0, 7, 100, -1⟩, ⟨[1], 3, 12, 50, 2⟩] : List FetchAdd).foldl
    (fun r a => r.addPartition a.topic a.pid a.offset a.maxBytes a.epoch) ({ maxWaitTime := 0, minBytes := 0 } : FetchRequest)).topics.map Prod.fst =
    [[1], [2]] := by decide

/-- C75 does not hold for fetch requests: a partition added twice is listed twice. -/
theorem C75_violated_fetch : ∃ r : FetchRequest, r.topics = [] ∧
    ((r.addPartition [1] 0 10 100 (-1)).addPartition [1] 0 20 100 (-1)).topics.map (fun t => t.2.map PartitionBlock.partition) = [[0, 0]] :=
  ⟨{ maxWaitTime := 0, minBytes := 0 }, rfl, by decide⟩

/-! ## C112 -/

/-- C112 does not hold: a reassignment to which two targets for one partition are added contains both; so do leader
elections for the same partition, and partition counts for the same topic. -/
theorem C112_violated :
    ((({ timeoutMs := 0 } : AlterReassignmentsRequest).addAssignment [1] 0 (some [1, 2])).addAssignment [1] 0 (some [3])).topics =
      [⟨[1], [⟨0, some [1, 2]⟩, ⟨0, some [3]⟩]⟩] ∧
    addElectLeaders [1] 0 (addElectLeaders [1] 0 []) = [⟨[1], [0, 0]⟩] ∧
    ((({ timeoutMS := 0, validateOnly := false } : CreatePartitionsRequest).addTopic [1] 5 none).addTopic [1] 6 none).topics =
      [⟨[1], 5, none⟩, ⟨[1], 6, none⟩] := by decide

/-- What a reassignment request asks for the partitions of a topic. -/
def AlterReassignmentsRequest.asked (r : AlterReassignmentsRequest) (topic : Bytes) : List ReassignPartition :=
  (r.topics.filter (·.topicName = topic)).flatMap ReassignTopic.partitions

theorem AlterReassignmentsRequest.add_asked (r : AlterReassignmentsRequest) (topic t : Bytes) (pid : Int32) (replicas : Option (List Int32))
    (h : (r.topics.map ReassignTopic.topicName).Nodup) :
    (r.addAssignment topic pid replicas).asked t = r.asked t ++ (if topic = t then [⟨pid, replicas⟩] else []) ∧
    ((r.addAssignment topic pid replicas).topics.map ReassignTopic.topicName).Nodup := by
  refine ⟨?_, inFirst_nodup ReassignTopic.topicName topic (fun t => { t with partitions := t.partitions ++ [⟨pid, replicas⟩] })
    ⟨topic, [⟨pid, replicas⟩]⟩ (fun _ => rfl) rfl _ h⟩
  unfold AlterReassignmentsRequest.asked AlterReassignmentsRequest.addAssignment
  simp only
  generalize r.topics = l at h
  induction l with
  | nil => by_cases e : topic = t <;> simp [inFirst, e]
  | cons x xs ih =>
    simp only [List.map_cons, List.nodup_cons] at h
    unfold inFirst
    by_cases hx : x.topicName = topic
    · simp only [hx, beq_self_eq_true, if_true]
      by_cases e : topic = t
      · have hnone : xs.filter (fun y => y.topicName = t) = [] := by
          rw [List.filter_eq_nil_iff]
          intro y hy hyt
          simp only [decide_eq_true_eq] at hyt
          exact h.1 (List.mem_map.2 ⟨y, hy, by rw [hyt, hx, e]⟩)
        simp [List.filter_cons, hx, e, hnone]
      · simp [List.filter_cons, hx, e]
    · have ih := ih h.2
      simp only [beq_iff_eq, hx, if_false]
      by_cases e : x.topicName = t
      · simp only [List.filter_cons, e, decide_true, if_true, List.flatMap_cons, List.append_assoc]
        rw [ih]
      · simp only [List.filter_cons, e, decide_false, Bool.false_eq_true, if_false]
        rw [ih]

/-- C112: what is added to a reassignment request is asked for, in the order it was added, and nothing else.
Missing for the full statement: that there is only one target for each partition (`C112_violated`). -/
theorem C112_all_added_partial (timeout : Int32) (adds : List (Bytes × ReassignPartition)) (t : Bytes) :
    (adds.foldl (fun r a => r.addAssignment a.1 a.2.partitionID a.2.replicas) ({ timeoutMs := timeout } : AlterReassignmentsRequest)).asked t =
      (adds.filter (·.1 = t)).map Prod.snd := by
  have key : ∀ (adds : List (Bytes × ReassignPartition)) (r : AlterReassignmentsRequest), (r.topics.map ReassignTopic.topicName).Nodup →
      (adds.foldl (fun r a => r.addAssignment a.1 a.2.partitionID a.2.replicas) r).asked t = r.asked t ++ (adds.filter (·.1 = t)).map Prod.snd := by
    intro adds
    induction adds with
    | nil => intro r _; simp
    | cons a as ih =>
      intro r h
      obtain ⟨h1, h2⟩ := r.add_asked a.1 t a.2.partitionID a.2.replicas h
      rw [List.foldl_cons, ih _ h2, h1]
      by_cases e : a.1 = t <;> simp [List.filter_cons, e]
  simpa [AlterReassignmentsRequest.asked] using key adds { timeoutMs := timeout } (by simp)

example : (([([1], ⟨0, some [1]⟩), ([2], ⟨0, none⟩), ([1], ⟨4, some [2]⟩)] : List (Bytes × ReassignPartition)).foldl
    (fun r a => r.addAssignment a.1 a.2.partitionID a.2.replicas) ({ timeoutMs := 5 } : AlterReassignmentsRequest)).asked [1] =
    [⟨0, some [1]⟩, ⟨4, some [2]⟩] := by decide

/-- C112 for new partitions: the request asks for what was added, in order.
Missing: one target per topic (`C112_violated`). -/
theorem C112_create_partitions_partial (r : CreatePartitionsRequest) (adds : List (Bytes × Int32 × Option (List (List Int32)))) :
    ((adds.foldl (fun r a => r.addTopic a.1 a.2.1 a.2.2) r).topics.map fun t => (t.name, t.count, t.assignments)) =
      (r.topics.map fun t => (t.name, t.count, t.assignments)) ++ adds := by
  induction adds generalizing r with
  | nil => simp
  | cons a as ih => rw [List.foldl_cons, ih]; simp [CreatePartitionsRequest.addTopic]

/-! ## C77 -/

/-- C77: an assignment for an unknown topic is refused, and so is a topic added twice; an assignment for a partition
beyond those which have one already is added.
Missing for the full statement: replacing an assignment (`C77_violated`). -/
theorem C77_refused_partial (r : CreateTopicsRequest) (topic : Bytes) (pid : Int32) (replicas : List Int32) (n : Int32) (f : Int16) :
    ((∀ t ∈ r.createTopicRequests, t.topic ≠ topic) → ∃ e, r.addReplicaAssignment topic pid replicas = .error e) ∧
    ((∃ t ∈ r.createTopicRequests, t.topic = topic) → ∃ e, r.addTopic topic n f = .error e) ∧
    ((∀ t ∈ r.createTopicRequests, t.topic ≠ topic) → r.addTopic topic n f =
      .ok { r with createTopicRequests := r.createTopicRequests ++ [{ topic := topic, numPartitions := n, replicationFactor := f }] }) := by
  refine ⟨?_, ?_, ?_⟩
  · intro h
    unfold CreateTopicsRequest.addReplicaAssignment
    have key : ∀ l : List CreateTopicRequest, (∀ t ∈ l, t.topic ≠ topic) → ∃ e, addReplicasTo topic pid replicas l = .error e := by
      intro l
      induction l with
      | nil => intro _; exact ⟨_, rfl⟩
      | cons t ts ih =>
        intro hl
        obtain ⟨e, he⟩ := ih fun x hx => hl x (.tail _ hx)
        exact ⟨e, by simp only [addReplicasTo, if_neg (hl t (.head _)), he]; rfl⟩
    obtain ⟨e, he⟩ := key _ h
    exact ⟨e, by rw [he]; rfl⟩
  · rintro ⟨t, ht, hk⟩
    exact ⟨_, by unfold CreateTopicsRequest.addTopic; rw [if_pos (List.any_eq_true.2 ⟨t, ht, by simp [hk]⟩)]⟩
  · intro h
    unfold CreateTopicsRequest.addTopic
    rw [if_neg]
    rw [List.any_eq_true]
    rintro ⟨t, ht, hk⟩
    exact h t ht (by simpa using hk)

theorem addReplicas_ascending (pid : Int32) (replicas : List Int32) : ∀ (l : List ReplicaAssignment), (∀ ra ∈ l, ra.partition < pid) →
    addReplicas pid replicas l = .ok (l ++ [⟨pid, replicas⟩])
  | [], _ => rfl
  | ra :: ras, h => by
    have hra : ra.partition < pid := h ra (.head _)
    rw [Int32.lt_iff_toInt_lt] at hra
    have h1 : ¬ ra.partition ≥ pid := by show ¬ pid ≤ ra.partition; rw [Int32.le_iff_toInt_le]; omega
    have h2 : ra.partition ≠ pid := by intro e; rw [e] at hra; omega
    simp only [addReplicas, if_neg h1, if_neg h2, addReplicas_ascending pid replicas ras fun x hx => h x (.tail _ hx)]
    rfl

/-- C77: an assignment for a partition beyond those which have one is added to its topic.
Missing: replacing (`C77_violated`, `C77_violated_always`). -/
theorem C77_added_partial (r : CreateTopicsRequest) (before after : List CreateTopicRequest) (t : CreateTopicRequest) (pid : Int32) (replicas : List Int32)
    (hr : r.createTopicRequests = before ++ t :: after) (hb : ∀ x ∈ before, x.topic ≠ t.topic) (hp : ∀ ra ∈ t.replicaAssignments, ra.partition < pid) :
    r.addReplicaAssignment t.topic pid replicas =
      .ok { r with createTopicRequests := before ++ { t with replicaAssignments := t.replicaAssignments ++ [⟨pid, replicas⟩] } :: after } := by
  unfold CreateTopicsRequest.addReplicaAssignment
  have key : ∀ before : List CreateTopicRequest, (∀ x ∈ before, x.topic ≠ t.topic) → addReplicasTo t.topic pid replicas (before ++ t :: after) =
      .ok (before ++ { t with replicaAssignments := t.replicaAssignments ++ [⟨pid, replicas⟩] } :: after) := by
    intro before
    induction before with
    | nil =>
      intro _
      simp only [List.nil_append, addReplicasTo, if_true, addReplicas_ascending pid replicas _ hp]
      rfl
    | cons x xs ih =>
      intro hx
      simp only [List.cons_append, addReplicasTo, if_neg (hx x (.head _)), ih fun y hy => hx y (.tail _ hy)]
      rfl
  rw [hr, key before hb]
  rfl

/-- a request for one topic with an assignment for partition 0 -/
def sampleCreateTopics : CreateTopicsRequest :=
  { createTopicRequests := [{ topic := [1], numPartitions := -1, replicationFactor := -1, replicaAssignments := [⟨0, [1, 2]⟩] }], timeout := 0 }

example : (sampleCreateTopics.addReplicaAssignment [1] 1 [2, 3]).toOption.map (fun r => r.createTopicRequests.map CreateTopicRequest.replicaAssignments) =
    some [[⟨0, [1, 2]⟩, ⟨1, [2, 3]⟩]] := by decide

/-- C77 does not hold: an assignment for a partition which has one is refused; and so is one for an earlier partition. -/
theorem C77_violated :
    sampleCreateTopics.addReplicaAssignment [1] 0 [3] = .error (.other "partitionID in replica-assignment is out of range") ∧
    (∀ replicas, sampleCreateTopics.addReplicaAssignment [1] (-1) replicas = .error (.other "partitionID in replica-assignment is out of range")) :=
  ⟨rfl, fun _ => rfl⟩

/-- C77 does not hold at all: no assignment is ever replaced. -/
theorem C77_violated_always (r : CreateTopicsRequest) (before after : List CreateTopicRequest) (t : CreateTopicRequest) (pid : Int32)
    (old replicas : List Int32) (hr : r.createTopicRequests = before ++ t :: after) (hb : ∀ x ∈ before, x.topic ≠ t.topic)
    (hp : ⟨pid, old⟩ ∈ t.replicaAssignments) : ∃ e, r.addReplicaAssignment t.topic pid replicas = .error e := by
  have inner : ∀ l : List ReplicaAssignment, ⟨pid, old⟩ ∈ l → ∃ e, addReplicas pid replicas l = .error e := by
    intro l
    induction l with
    | nil => intro h; cases h
    | cons ra ras ih =>
      intro h
      unfold addReplicas
      by_cases h1 : ra.partition ≥ pid
      · exact ⟨_, if_pos h1⟩
      · rw [if_neg h1]
        have hne : ra.partition ≠ pid := by rintro rfl; exact h1 (by show ra.partition ≤ ra.partition; rw [Int32.le_iff_toInt_le]; omega)
        rw [if_neg hne]
        rcases List.mem_cons.1 h with h | h
        · rw [← h] at hne
          exact absurd rfl hne
        · obtain ⟨e, he⟩ := ih h
          exact ⟨e, by rw [he]; rfl⟩
  obtain ⟨e, he⟩ := inner _ hp
  have outer : ∀ before : List CreateTopicRequest, (∀ x ∈ before, x.topic ≠ t.topic) → ∃ e, addReplicasTo t.topic pid replicas (before ++ t :: after) = .error e := by
    intro before
    induction before with
    | nil => intro _; exact ⟨e, by simp only [List.nil_append, addReplicasTo, if_true, he]; rfl⟩
    | cons x xs ih =>
      intro hx
      obtain ⟨e, he⟩ := ih fun y hy => hx y (.tail _ hy)
      exact ⟨e, by simp only [List.cons_append, addReplicasTo, if_neg (hx x (.head _)), he]; rfl⟩
  obtain ⟨e, he⟩ := outer before hb
  exact ⟨e, by unfold CreateTopicsRequest.addReplicaAssignment; rw [hr, he]; rfl⟩

example : ∃ t, sampleCreateTopics.createTopicRequests = [] ++ t :: [] ∧ (⟨0, [1, 2]⟩ : ReplicaAssignment) ∈ t.replicaAssignments :=
  ⟨_, rfl, by decide⟩

end Healer
