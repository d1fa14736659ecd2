import Verif.Lemmas.Group

/-!
# C20–C26: range assignment, member assignment and subscription encodings
-/

namespace Healer

/-! ## Reading the outcome -/

/-- What the member receiving an entry of the leader's answer reads from it. -/
def learned (e : Bytes × Option Bytes) : List PartitionAssignment :=
  match e.2 with
  | none => []
  | some b => match newMemberAssignment b with
    | .ok a => a.partitionAssignments
    | _ => []

/-- The partitions of a topic that one list of assignments names. -/
def partitionsIn (topic : Bytes) (pas : List PartitionAssignment) : List Int32 :=
  pas.flatMap fun pa => if pa.topic = topic then pa.partitions else []

/-- The partitions of a topic that a member learns. -/
def share (g : List (Bytes × Option Bytes)) (topic member : Bytes) : List Int32 :=
  g.flatMap fun e => if e.1 = member then partitionsIn topic (learned e) else []

/-- A well-formed input of the leader: members with distinct ids whose metadata is readable and
holds the subscription `sub`, distinct topics, each with a subscriber, sizes within the format. -/
structure GroupInput (members : List Member) (topics : List TopicPartitions)
    (sub : Member → List Bytes) : Prop where
  readable : ∀ m ∈ members, ∃ v u, newProtocolMetadata m.memberMetadata = .ok ⟨v, sub m, u⟩
  distinctMembers : (members.map Member.memberID).Nodup
  distinctTopics : (topics.map TopicPartitions.topicName).Nodup
  subscribed : ∀ t ∈ topics, ∃ m ∈ members, t.topicName ∈ sub m
  topicCount : topics.length < 2 ^ 31
  topicSize : ∀ t ∈ topics, t.topicName.length < 2 ^ 16 ∧ t.partitionIDs.length < 2 ^ 32

/-! ## Auxiliary facts -/

theorem subscribers_ne_nil {members : List Member} {sub : Member → List Bytes} {topic : Bytes}
    (h : ∃ m ∈ members, topic ∈ sub m) : subscribers members sub topic ≠ [] := by
  obtain ⟨m, hm, ht⟩ := h
  intro hc
  have : m.memberID ∈ subscribers members sub topic :=
    List.mem_map.2 ⟨m, List.mem_filter.2 ⟨hm, by simpa using ht⟩, rfl⟩
  rw [hc] at this; simp at this

theorem encodeAssignments_eq (n : Nat) (r : AMap Bytes (List PartitionAssignment)) (hn : n = r.length) :
    encodeAssignments n r = .ok (r.map fun e => (e.1, some (Kafka.assignment 0
      (e.2.map fun p => (p.topic, p.partitions.map Int32.toInt)) []))) := by
  induction r generalizing n with
  | nil => subst hn; rfl
  | cons e r ih =>
    obtain ⟨m, pas⟩ := e
    subst hn
    simp only [encodeAssignments]
    rw [memberAssignment_encode_eq _ rfl]
    simp only [Out.bind_ok]
    rw [ih _ (by simp)]
    rfl

theorem filterMap_length_le (tpa : List (Bytes × AMap Bytes (List Int32))) (m : Bytes) :
    (tpa.flatMap (fun x => ((AMap.get x.2 m).map (fun ps => PartitionAssignment.mk x.1 ps)).toList)).length
      ≤ tpa.length := by
  induction tpa with
  | nil => simp
  | cons e l ih =>
    simp only [List.flatMap_cons, List.length_append, List.length_cons]
    have : ((AMap.get e.2 m).map (fun ps => PartitionAssignment.mk e.1 ps)).toList.length ≤ 1 := by
      cases AMap.get e.2 m <;> simp
    omega

theorem slice_mem_length (members : List Member) (sub : Member → List Bytes) (t : TopicPartitions)
    (m : Bytes) (ps : List Int32) (h : AMap.get (topicSlices members sub t) m = some ps) :
    ps.length ≤ t.partitionIDs.length := by
  have := AMap.mem_of_get_eq_some _ _ _ h
  unfold topicSlices at this
  simp only [List.mem_map] at this
  obtain ⟨x, _, hx⟩ := this
  cases hx
  unfold rangeSlice
  rw [List.length_drop, List.length_take, (sortPartitions_perm _).length_eq]
  omega

/-- All facts about a successful assignment, in terms of the bytes handed out. -/
theorem assign_readable (ord : MapOrders) (members : List Member) (topics : List TopicPartitions)
    (sub : Member → List Bytes) (hi : GroupInput members topics sub) :
    ∃ (g : List (Bytes × Option Bytes)) (tpa : List (Bytes × AMap Bytes (List Int32))),
      assign ord members topics = .ok g ∧
      tpa.Perm (topics.map (fun t => (t.topicName, topicSlices members sub t))) ∧
      (g.map Prod.fst).Perm (members.map Member.memberID) ∧
      ∀ e ∈ g, learned e = tpa.flatMap
          (fun x => ((AMap.get x.2 e.1).map (fun ps => PartitionAssignment.mk x.1 ps)).toList) ∧
        ∃ b a, e.2 = some b ∧ newMemberAssignment b = .ok a := by
  obtain ⟨r, tpa, h1, h2, h3, h4⟩ := assignStructs_spec ord members topics sub hi.readable
    hi.distinctMembers hi.distinctTopics (fun t ht => subscribers_ne_nil (hi.subscribed t ht))
  have hlen : members.length = r.length := by
    have := h3.length_eq
    simpa [AMap.keys] using this.symm
  refine ⟨r.map fun e => (e.1, some (Kafka.assignment 0
      (e.2.map fun p => (p.topic, p.partitions.map Int32.toInt)) [])), tpa, ?_, h2, ?_, ?_⟩
  · unfold assign
    rw [h1]
    exact encodeAssignments_eq members.length r hlen
  · rw [List.map_map]; exact h3
  · intro e he
    simp only [List.mem_map] at he
    obtain ⟨x, hx, rfl⟩ := he
    have hx2 := h4 x hx
    have hl : x.2.length < 2 ^ 31 := by
      rw [hx2]
      have h5 := filterMap_length_le tpa x.1
      have h6 := h2.length_eq
      have h7 := hi.topicCount
      simp only [List.length_map] at h6
      omega
    have hpa : ∀ p ∈ x.2, p.topic.length < 2 ^ 16 ∧ p.partitions.length < 2 ^ 32 := by
      intro p hp
      rw [hx2] at hp
      simp only [List.mem_flatMap] at hp
      obtain ⟨y, hy, hpy⟩ := hp
      have hy := h2.mem_iff.1 hy
      simp only [List.mem_map] at hy
      obtain ⟨t, ht, rfl⟩ := hy
      simp only at hpy
      cases hg : AMap.get (topicSlices members sub t) x.1 with
      | none => rw [hg] at hpy; simp at hpy
      | some ps =>
        rw [hg] at hpy
        simp only [Option.map_some, Option.toList_some, List.mem_singleton] at hpy
        subst hpy
        have := slice_mem_length members sub t x.1 ps hg
        have h8 := hi.topicSize t ht
        exact ⟨h8.1, by simp only; omega⟩
    have := newMemberAssignment_grammar 0 x.2 [] [] hl (by simp) hpa
    simp only [List.append_nil] at this
    rw [show ((0 : Int16).toInt) = 0 from rfl] at this
    refine ⟨?_, _, _, rfl, this⟩
    simp only [learned, this]
    exact hx2

/-- The same without the reading of the bytes. -/
theorem assign_spec (ord : MapOrders) (members : List Member) (topics : List TopicPartitions)
    (sub : Member → List Bytes) (hi : GroupInput members topics sub) :
    ∃ (g : List (Bytes × Option Bytes)) (tpa : List (Bytes × AMap Bytes (List Int32))),
      assign ord members topics = .ok g ∧
      tpa.Perm (topics.map (fun t => (t.topicName, topicSlices members sub t))) ∧
      (g.map Prod.fst).Perm (members.map Member.memberID) ∧
      ∀ e ∈ g, learned e = tpa.flatMap
        (fun x => ((AMap.get x.2 e.1).map (fun ps => PartitionAssignment.mk x.1 ps)).toList) := by
  obtain ⟨g, tpa, h1, h2, h3, h4⟩ := assign_readable ord members topics sub hi
  exact ⟨g, tpa, h1, h2, h3, fun e he => (h4 e he).1⟩

theorem topics_keys_nodup {members : List Member} {topics : List TopicPartitions}
    {sub : Member → List Bytes} (hi : GroupInput members topics sub)
    {tpa : List (Bytes × AMap Bytes (List Int32))}
    (hp : tpa.Perm (topics.map (fun t => (t.topicName, topicSlices members sub t)))) :
    (AMap.keys tpa).Nodup := by
  have := (hp.map Prod.fst).nodup_iff.2 (by rw [List.map_map]; exact hi.distinctTopics)
  exact this

theorem share_eq {members : List Member} {topics : List TopicPartitions} {sub : Member → List Bytes}
    (hi : GroupInput members topics sub) {g : List (Bytes × Option Bytes)}
    {tpa : List (Bytes × AMap Bytes (List Int32))}
    (h2 : tpa.Perm (topics.map (fun t => (t.topicName, topicSlices members sub t))))
    (h3 : (g.map Prod.fst).Perm (members.map Member.memberID))
    (h4 : ∀ e ∈ g, learned e = tpa.flatMap
        (fun x => ((AMap.get x.2 e.1).map (fun ps => PartitionAssignment.mk x.1 ps)).toList))
    (t : TopicPartitions) (ht : t ∈ topics) (m : Bytes) :
    share g t.topicName m = (AMap.get (topicSlices members sub t) m).getD [] := by
  have hmem : (t.topicName, topicSlices members sub t) ∈ tpa :=
    h2.mem_iff.2 (List.mem_map.2 ⟨t, ht, rfl⟩)
  have hl : ∀ e ∈ g, partitionsIn t.topicName (learned e)
      = (AMap.get (topicSlices members sub t) e.1).getD [] := by
    intro e he
    rw [h4 e he]
    exact listedFor_eq tpa e.1 t.topicName (topics_keys_nodup hi h2) _ hmem
  have hnd : (g.map Prod.fst).Nodup := h3.nodup_iff.2 hi.distinctMembers
  by_cases hm : m ∈ g.map Prod.fst
  · clear h3 h4
    induction g with
    | nil => simp at hm
    | cons e g ih =>
      simp only [List.map_cons, List.nodup_cons] at hnd
      have hs : share (e :: g) t.topicName m
          = (if e.1 = m then partitionsIn t.topicName (learned e) else []) ++ share g t.topicName m := rfl
      rw [hs]
      by_cases hem : e.1 = m
      · rw [if_pos hem, hl e (by simp), hem]
        have : share g t.topicName m = [] := by
          unfold share
          rw [List.flatMap_eq_nil_iff]
          intro x hx
          rw [if_neg (fun hc => hnd.1 (by rw [hem, ← hc]; exact List.mem_map.2 ⟨x, hx, rfl⟩))]
        rw [this, List.append_nil]
      · rw [if_neg hem, List.nil_append]
        simp only [List.map_cons, List.mem_cons] at hm
        exact ih (fun x hx => hl x (by simp [hx])) hnd.2 (hm.resolve_left (fun h => hem h.symm))
  · have h0 : share g t.topicName m = [] := by
      unfold share
      rw [List.flatMap_eq_nil_iff]
      intro x hx
      rw [if_neg (fun hc => hm (by rw [← hc]; exact List.mem_map.2 ⟨x, hx, rfl⟩))]
    rw [h0, (AMap.get_eq_none_iff _ _).2]
    · rfl
    · intro hk
      rw [topicSlices_keys] at hk
      have := subscribers_subset members sub t.topicName m ((sortMembers_perm _).mem_iff.1 hk)
      exact hm (h3.mem_iff.2 this)

theorem topicSlices_flat (members : List Member) (sub : Member → List Bytes) (t : TopicPartitions)
    (hs : subscribers members sub t.topicName ≠ []) :
    ((topicSlices members sub t).map Prod.snd).flatten = sortPartitions t.partitionIDs := by
  unfold topicSlices
  simp only
  rw [map_snd_zipIdx_slices, flatten_rangeSlice, rangeStart_last, List.take_length]
  exact List.length_pos_iff.2 (sortMembers_ne_nil hs)

theorem nodup_flatMap_unique {α β : Type} {f : α → List β} {l : List α} (h : (l.flatMap f).Nodup)
    {a b : α} (ha : a ∈ l) (hb : b ∈ l) {p : β} (hpa : p ∈ f a) (hpb : p ∈ f b) : a = b := by
  induction l with
  | nil => simp at ha
  | cons x l ih =>
    rw [List.flatMap_cons, List.nodup_append] at h
    rcases List.mem_cons.1 ha with rfl | ha' <;> rcases List.mem_cons.1 hb with rfl | hb'
    · rfl
    · exact absurd rfl (h.2.2 p hpa p (List.mem_flatMap.2 ⟨b, hb', hpb⟩))
    · exact absurd rfl (h.2.2 p hpb p (List.mem_flatMap.2 ⟨a, ha', hpa⟩))
    · exact ih h.2.1 ha' hb'

/-! ## C20 -/

/-- C20. The partitions of a topic that the members learn are, taken together, the topic's
partitions: none missing, none invented, none given twice. -/
theorem C20_every_partition_assigned (ord : MapOrders) (members : List Member)
    (topics : List TopicPartitions) (sub : Member → List Bytes) (hi : GroupInput members topics sub) :
    ∃ g, assign ord members topics = .ok g ∧
      ∀ t ∈ topics, (g.flatMap fun e => partitionsIn t.topicName (learned e)).Perm t.partitionIDs := by
  obtain ⟨g, tpa, h1, h2, h3, h4⟩ := assign_spec ord members topics sub hi
  refine ⟨g, h1, fun t ht => ?_⟩
  have hmem : (t.topicName, topicSlices members sub t) ∈ tpa :=
    h2.mem_iff.2 (List.mem_map.2 ⟨t, ht, rfl⟩)
  have hl : ∀ e ∈ g, partitionsIn t.topicName (learned e)
      = (AMap.get (topicSlices members sub t) e.1).getD [] := by
    intro e he
    rw [h4 e he]
    exact listedFor_eq tpa e.1 t.topicName (topics_keys_nodup hi h2) _ hmem
  have hcongr : (g.flatMap fun e => partitionsIn t.topicName (learned e))
      = (g.map Prod.fst).flatMap fun m => (AMap.get (topicSlices members sub t) m).getD [] := by
    rw [List.flatMap_map]
    clear h1 h3 h4
    induction g with
    | nil => rfl
    | cons e g ih =>
      simp only [List.flatMap_cons]
      rw [hl e (by simp), ih (fun x hx => hl x (by simp [hx]))]
  rw [hcongr]
  refine (flatMap_get_perm _ (topicSlices_nodup members sub t hi.distinctMembers) _
    (h3.nodup_iff.2 hi.distinctMembers) ?_).trans ?_
  · intro k hk
    rw [topicSlices_keys] at hk
    exact h3.mem_iff.2 (subscribers_subset members sub t.topicName k ((sortMembers_perm _).mem_iff.1 hk))
  · rw [List.flatMap_def, topicSlices_flat members sub t (subscribers_ne_nil (hi.subscribed t ht))]
    exact sortPartitions_perm _

/-- C20. Every partition of every topic is learned by exactly one entry of the leader's answer. -/
theorem C20_exactly_one_consumer (ord : MapOrders) (members : List Member)
    (topics : List TopicPartitions) (sub : Member → List Bytes) (hi : GroupInput members topics sub)
    (t : TopicPartitions) (ht : t ∈ topics) (hnd : t.partitionIDs.Nodup) (p : Int32)
    (hp : p ∈ t.partitionIDs) :
    ∃ g, assign ord members topics = .ok g ∧
      ∃ e ∈ g, p ∈ partitionsIn t.topicName (learned e) ∧
        ∀ e' ∈ g, p ∈ partitionsIn t.topicName (learned e') → e' = e := by
  obtain ⟨g, h1, h2⟩ := C20_every_partition_assigned ord members topics sub hi
  refine ⟨g, h1, ?_⟩
  have hperm := h2 t ht
  have hmem := hperm.mem_iff.2 hp
  obtain ⟨e, he, hpe⟩ := List.mem_flatMap.1 hmem
  exact ⟨e, he, hpe, fun e' he' hpe' => nodup_flatMap_unique (hperm.nodup_iff.2 hnd) he' he hpe' hpe⟩

/-! ## C21 -/

theorem get_of_nodup_zip (ms : List Bytes) (h : ms.Nodup) (f : Nat → List Int32) :
    ms.map (fun m => (AMap.get (ms.zipIdx.map (fun e => (e.1, f e.2))) m).getD [])
      = (List.range ms.length).map f := by
  apply List.ext_getElem
  · simp
  · intro i h1 h2
    simp only [List.length_map] at h1
    simp only [List.getElem_map, List.getElem_range]
    rw [AMap.get_eq_some_of_mem _ _ ms[i] (f i)]
    · rfl
    · refine List.mem_map.2 ⟨(ms[i], i), ?_, rfl⟩
      rw [List.mem_iff_getElem]
      exact ⟨i, by simpa using h1, by simp⟩
    · have : AMap.keys (ms.zipIdx.map (fun e => (e.1, f e.2))) = ms := by
        unfold AMap.keys
        rw [List.map_map]
        show List.map Prod.fst _ = _
        exact List.zipIdx_map_fst 0 ms
      rw [this]; exact h

/-- C21. List the subscribers of a topic in the order of their ids.  The shares of the topic they
learn, one after the other, are the topic's partitions in ascending order (so each share is a
contiguous run of the sorted ids); an earlier subscriber never has fewer than a later one, and at
most one more. -/
theorem C21_balanced_contiguous (ord : MapOrders) (members : List Member)
    (topics : List TopicPartitions) (sub : Member → List Bytes) (hi : GroupInput members topics sub)
    (t : TopicPartitions) (ht : t ∈ topics) (ms : List Bytes)
    (hms : ms.Perm ((members.filter fun m => decide (t.topicName ∈ sub m)).map Member.memberID))
    (hsorted : ms.Pairwise (· ≤ ·)) :
    ∃ g, assign ord members topics = .ok g ∧
      ((ms.map (share g t.topicName)).flatten.Perm t.partitionIDs ∧
       (ms.map (share g t.topicName)).flatten.Pairwise (· ≤ ·)) ∧
      (ms.map (share g t.topicName)).Pairwise
        (fun a b => b.length ≤ a.length ∧ a.length ≤ b.length + 1) := by
  obtain ⟨g, tpa, h1, h2, h3, h4⟩ := assign_spec ord members topics sub hi
  refine ⟨g, h1, ?_⟩
  have hms' : ms = sortMembers (subscribers members sub t.topicName) :=
    sorted_unique (hms.trans (sortMembers_perm _).symm) hsorted (sortMembers_pairwise _)
  have hne := subscribers_ne_nil (hi.subscribed t ht)
  have hpos : 0 < ms.length := by
    rw [hms']; exact List.length_pos_iff.2 (sortMembers_ne_nil hne)
  have hnd : ms.Nodup := by
    rw [hms']
    exact sortMembers_nodup (subscribers_nodup members sub t.topicName hi.distinctMembers)
  have hshares : ms.map (share g t.topicName)
      = (List.range ms.length).map (rangeSlice (sortPartitions t.partitionIDs) ms.length) := by
    rw [← get_of_nodup_zip ms hnd]
    apply List.map_congr_left
    intro m _
    rw [share_eq hi h2 h3 h4 t ht m]
    unfold topicSlices
    simp only
    rw [← hms']
  rw [hshares]
  refine ⟨?_, ?_⟩
  · rw [flatten_rangeSlice, rangeStart_last _ _ hpos, List.take_length]
    exact ⟨sortPartitions_perm _, sortPartitions_pairwise _⟩
  · rw [List.pairwise_map]
    apply List.Pairwise.imp_of_mem _ List.pairwise_lt_range
    intro a b ha hb hab
    simp only [List.mem_range] at ha hb
    rw [rangeSlice_length _ _ _ hpos ha, rangeSlice_length _ _ _ hpos hb]
    split <;> split <;> omega

/-! ## C22 -/

/-- C22. Every member has exactly one entry in the leader's answer, and an entry names only topics
to which its member subscribed. -/
theorem C22_only_subscribed (ord : MapOrders) (members : List Member)
    (topics : List TopicPartitions) (sub : Member → List Bytes) (hi : GroupInput members topics sub) :
    ∃ g, assign ord members topics = .ok g ∧
      (g.map Prod.fst).Perm (members.map Member.memberID) ∧
      ∀ e ∈ g, ∀ pa ∈ learned e, ∃ m ∈ members, m.memberID = e.1 ∧ pa.topic ∈ sub m := by
  obtain ⟨g, tpa, h1, h2, h3, h4⟩ := assign_spec ord members topics sub hi
  refine ⟨g, h1, h3, fun e he pa hpa => ?_⟩
  rw [h4 e he] at hpa
  obtain ⟨x, hx, hpx⟩ := List.mem_flatMap.1 hpa
  obtain ⟨t, ht, rfl⟩ := List.mem_map.1 (h2.mem_iff.1 hx)
  simp only at hpx
  cases hg : AMap.get (topicSlices members sub t) e.1 with
  | none => rw [hg] at hpx; simp at hpx
  | some ps =>
    rw [hg] at hpx
    simp only [Option.map_some, Option.toList_some, List.mem_singleton] at hpx
    subst hpx
    have hk : e.1 ∈ AMap.keys (topicSlices members sub t) := by
      apply Classical.byContradiction
      intro hc
      rw [(AMap.get_eq_none_iff _ _).2 hc] at hg
      cases hg
    rw [topicSlices_keys] at hk
    have := (sortMembers_perm _).mem_iff.1 hk
    unfold subscribers at this
    obtain ⟨m, hm, hid⟩ := List.mem_map.1 this
    obtain ⟨hm1, hm2⟩ := List.mem_filter.1 hm
    exact ⟨m, hm1, hid, by simpa using hm2⟩

/-! ## C23 -/

/-- C23. Two leaders given the same members in another order, and the same topics in another order
with their partitions in another order, hand every member the same partitions, whatever order the
Go runtime picks for iterating over maps. -/
theorem C23_order_independent (ord ord' : MapOrders) (members members' : List Member)
    (topics topics' : List TopicPartitions) (sub : Member → List Bytes)
    (hi : GroupInput members topics sub) (hi' : GroupInput members' topics' sub)
    (hm : members'.Perm members)
    (ht : ∀ t ∈ topics, ∃ t' ∈ topics', t'.topicName = t.topicName ∧ t'.partitionIDs.Perm t.partitionIDs)
    (ht' : ∀ t' ∈ topics', ∃ t ∈ topics, t.topicName = t'.topicName) :
    ∃ g g', assign ord members topics = .ok g ∧ assign ord' members' topics' = .ok g' ∧
      ∀ topic member, share g' topic member = share g topic member := by
  obtain ⟨g, tpa, h1, h2, h3, h4⟩ := assign_spec ord members topics sub hi
  obtain ⟨g', tpa', h1', h2', h3', h4'⟩ := assign_spec ord' members' topics' sub hi'
  refine ⟨g, g', h1, h1', fun topic member => ?_⟩
  have hnone : ∀ (members : List Member) (topics : List TopicPartitions)
      (g : List (Bytes × Option Bytes)) (tpa : List (Bytes × AMap Bytes (List Int32))),
      tpa.Perm (topics.map (fun t => (t.topicName, topicSlices members sub t))) →
      (∀ e ∈ g, learned e = tpa.flatMap
        (fun x => ((AMap.get x.2 e.1).map (fun ps => PartitionAssignment.mk x.1 ps)).toList)) →
      (∀ t ∈ topics, t.topicName ≠ topic) → share g topic member = [] := by
    intro members topics g tpa h2 h4 hno
    unfold share
    rw [List.flatMap_eq_nil_iff]
    intro e he
    split
    · unfold partitionsIn
      rw [List.flatMap_eq_nil_iff]
      intro pa hpa
      rw [h4 e he] at hpa
      obtain ⟨x, hx, hpx⟩ := List.mem_flatMap.1 hpa
      obtain ⟨t, htm, rfl⟩ := List.mem_map.1 (h2.mem_iff.1 hx)
      simp only at hpx
      cases hg : AMap.get (topicSlices members sub t) e.1 with
      | none => rw [hg] at hpx; simp at hpx
      | some ps =>
        rw [hg] at hpx
        simp only [Option.map_some, Option.toList_some, List.mem_singleton] at hpx
        subst hpx
        simp [hno t htm]
    · rfl
  by_cases hc : ∃ t ∈ topics, t.topicName = topic
  · obtain ⟨t, htm, rfl⟩ := hc
    obtain ⟨t', htm', hname, hperm⟩ := ht t htm
    rw [share_eq hi h2 h3 h4 t htm, ← hname, share_eq hi' h2' h3' h4' t' htm']
    have hs : topicSlices members' sub t' = topicSlices members sub t := by
      unfold topicSlices
      simp only
      rw [hname, sortPartitions_congr hperm]
      have : sortMembers (subscribers members' sub t.topicName)
          = sortMembers (subscribers members sub t.topicName) :=
        sortMembers_congr ((hm.filter _).map _)
      rw [this]
    rw [hs]
  · have hno : ∀ t ∈ topics, t.topicName ≠ topic := fun t htm hc' => hc ⟨t, htm, hc'⟩
    have hno' : ∀ t ∈ topics', t.topicName ≠ topic := fun t' htm hc' => by
      obtain ⟨t, h5, h6⟩ := ht' t' htm
      exact hno t h5 (h6.trans hc')
    rw [hnone members topics g tpa h2 h4 hno, hnone members' topics' g' tpa' h2' h4' hno']

/-! ### A concrete group for C20–C23 -/

/-- Iteration in insertion order. -/
def plainOrders : MapOrders :=
  ⟨id, id, id, fun _ => .refl _, fun _ => .refl _, fun _ => .refl _⟩

/-- Two members, "b" (topics "t", "u") and "a" (topic "t"); topic "t" has partitions 2, 0, 1. -/
def exMembers : List Member :=
  [⟨[98], [0, 0, 0, 0, 0, 2, 0, 1, 116, 0, 1, 117, 0, 0, 0, 0]⟩,
   ⟨[97], [0, 0, 0, 0, 0, 1, 0, 1, 116, 255, 255, 255, 255]⟩]
def exTopics : List TopicPartitions := [⟨[116], [2, 0, 1]⟩, ⟨[117], [0]⟩]
def exSub (m : Member) : List Bytes := if m.memberID = [98] then [[116], [117]] else [[116]]

theorem exInput : GroupInput exMembers exTopics exSub where
  readable := by
    intro m hm
    simp only [exMembers, List.mem_cons, List.not_mem_nil, or_false] at hm
    rcases hm with rfl | rfl
    · exact ⟨0, some [], by decide⟩
    · exact ⟨0, none, by decide⟩
  distinctMembers := by decide
  distinctTopics := by decide
  subscribed := by
    intro t ht
    simp only [exTopics, List.mem_cons, List.not_mem_nil, or_false] at ht
    rcases ht with rfl | rfl
    · exact ⟨_, List.mem_cons_self, by decide⟩
    · exact ⟨_, List.mem_cons_self, by decide⟩
  topicCount := by decide
  topicSize := by
    intro t ht
    simp only [exTopics, List.mem_cons, List.not_mem_nil, or_false] at ht
    rcases ht with rfl | rfl <;> decide

example : (assign plainOrders exMembers exTopics).okAnd (fun g =>
    decide (share g [116] [97] = [0, 1] ∧ share g [116] [98] = [2] ∧ share g [117] [98] = [0])) = true := by
  decide +kernel

/-! ## C24 -/

/-- C24, for assignments without user data (the only kind the leader produces): the encoding is
the protocol's, and the receiving member reads the same topics and partitions and no user data.
Missing for the full statement: user data, which is written without its length
(`C24_violated_user_data`). -/
theorem C24_assignment_partial (m : MemberAssignment) (hu : m.userData.getD [] = [])
    (hc : m.partitionAssignments.length < 2 ^ 31)
    (hp : ∀ p ∈ m.partitionAssignments, p.topic.length < 2 ^ 16 ∧ p.partitions.length < 2 ^ 32) :
    ∃ b, m.encode = .ok b ∧
      b = Kafka.assignment m.version.toInt
        (m.partitionAssignments.map fun p => (p.topic, p.partitions.map Int32.toInt)) [] ∧
      ∃ u, newMemberAssignment b = .ok ⟨m.version, m.partitionAssignments, u⟩ ∧ u.getD [] = [] := by
  refine ⟨_, memberAssignment_encode_eq m hu, rfl, some [], ?_, rfl⟩
  have := newMemberAssignment_grammar m.version m.partitionAssignments [] [] hc (by simp) hp
  simpa using this

example : ((MemberAssignment.mk 0 [⟨[116], [2, 0]⟩] none).encode
    = .ok [0, 0, 0, 0, 0, 1, 0, 1, 116, 0, 0, 0, 2, 0, 0, 0, 2, 0, 0, 0, 0, 0, 0, 0, 0]) := by decide

/-- C24, receiving side in full: an assignment in the protocol's encoding, user data included (as
another client's leader sends it), is read as sent. -/
theorem C24_receive (v : Int16) (pas : List PartitionAssignment) (u : Bytes)
    (hc : pas.length < 2 ^ 31) (hu : u.length < 2 ^ 31)
    (hp : ∀ p ∈ pas, p.topic.length < 2 ^ 16 ∧ p.partitions.length < 2 ^ 32) :
    newMemberAssignment (Kafka.assignment v.toInt
        (pas.map fun p => (p.topic, p.partitions.map Int32.toInt)) u) = .ok ⟨v, pas, some u⟩ := by
  have := newMemberAssignment_grammar v pas u [] hc hu hp
  simpa using this

example : newMemberAssignment [0, 1, 0, 0, 0, 1, 0, 1, 116, 0, 0, 0, 1, 0, 0, 0, 3, 0, 0, 0, 2, 8, 9]
    = .ok ⟨1, [⟨[116], [3]⟩], some [8, 9]⟩ := by decide

/-- C24 fails for user data: an assignment with user data is read back with other user data. -/
theorem C24_violated_user_data :
    ∃ m b, MemberAssignment.encode m = .ok b ∧ m.userData = some [0, 0, 0, 1, 7] ∧
      ∃ m', newMemberAssignment b = .ok m' ∧ m'.userData = some [7] :=
  ⟨⟨0, [⟨[116], [0]⟩], some [0, 0, 0, 1, 7]⟩, _, rfl, rfl, _, rfl, by decide⟩

/-! ## C25 -/

/-- C25. The subscription a member sends is the protocol's encoding and is read by the leader with
the same version, topics and user data. -/
theorem C25_subscription (m : ProtocolMetadata) (hc : m.subscription.length < 2 ^ 31)
    (hs : ∀ s ∈ m.subscription, s.length < 2 ^ 16) (hu : (m.userData.getD []).length < 2 ^ 31) :
    ∃ b, m.encode = .ok b ∧
      b = Kafka.subscription m.version.toNat m.subscription (m.userData.getD []) ∧
      newProtocolMetadata b = .ok ⟨m.version, m.subscription, some (m.userData.getD [])⟩ := by
  refine ⟨_, protocolMetadata_encode_eq m, rfl, ?_⟩
  have := newProtocolMetadata_grammar m.version m.subscription (m.userData.getD []) [] (by omega) hu hs
  simpa using this

example : (ProtocolMetadata.mk 1 [[116], [117, 118]] (some [5])).encode
    = .ok [0, 1, 0, 0, 0, 2, 0, 1, 116, 0, 2, 117, 118, 0, 0, 0, 1, 5] := by decide

/-! ## C26 -/

/-- C26 fails: a topic nobody subscribes to makes the leader divide by zero. -/
theorem C26_violated_no_subscriber (ord : MapOrders) :
    assign ord exMembers [⟨[118], [0, 1]⟩] = .panic := by
  have : topicAssignments exMembers [⟨[118], [0, 1]⟩] [] = .panic := by decide
  unfold assign assignStructs
  rw [this]
  rfl

/-- C26 fails: metadata too short to hold its own length fields makes the leader crash. -/
theorem C26_violated_short_metadata (ord : MapOrders) :
    assign ord [⟨[97], [0, 0]⟩] [⟨[116], [0]⟩] = .panic := by
  have : topicAssignments [⟨[97], [0, 0]⟩] [⟨[116], [0]⟩] [] = .panic := by decide
  unfold assign assignStructs
  rw [this]
  rfl

theorem assignLoop_ok (ps : List Int32) (n : Nat) (hn : 0 < n) (ms : List Bytes) (i : Nat)
    (hi : i + ms.length = n) (acc : AMap Bytes (List Int32)) :
    ∃ r, assignLoop ps (ps.length % n) (if ps.length % n > 0 then ps.length / n + 1 else ps.length / n)
      (ps.length / n) ms i (rangeStart ps.length n i) acc = .ok r ∧
      ∀ k ∈ AMap.keys r, k ∈ AMap.keys acc ∨ k ∈ ms := by
  induction ms generalizing i acc with
  | nil => exact ⟨acc, rfl, fun k hk => Or.inl hk⟩
  | cons m ms ih =>
    simp only [List.length_cons] at hi
    have hs := rangeStart_succ ps.length n i
    have hle := rangeStart_le ps.length n (i + 1) hn (by omega)
    have hmono := rangeStart_mono ps.length n i (i + 1) (by omega)
    simp only [assignLoop]
    rw [← hs]
    unfold sliceList
    rw [if_pos ⟨hmono, hle⟩]
    simp only
    obtain ⟨r, h1, h2⟩ := ih (i + 1) (by omega) (AMap.set acc m
      ((ps.take (rangeStart ps.length n (i + 1))).drop (rangeStart ps.length n i)))
    refine ⟨r, h1, fun k hk => ?_⟩
    rcases h2 k hk with h | h
    · rw [AMap.keys_set] at h
      split at h
      · exact Or.inl h
      · simp only [List.mem_append, List.mem_singleton] at h
        rcases h with h | h
        · exact Or.inl h
        · exact Or.inr (by simp [h])
    · exact Or.inr (by simp [h])

theorem topicAssignments_ok (members : List Member) (sub : Member → List Bytes)
    (hd : Decodes members sub) (ts : List TopicPartitions)
    (hs : ∀ t ∈ ts, subscribers members sub t.topicName ≠ [])
    (acc : AMap Bytes (AMap Bytes (List Int32)))
    (ha : ∀ e ∈ acc, ∀ k ∈ AMap.keys e.2, k ∈ members.map Member.memberID) :
    ∃ r, topicAssignments members ts acc = .ok r ∧
      ∀ e ∈ r, ∀ k ∈ AMap.keys e.2, k ∈ members.map Member.memberID := by
  induction ts generalizing acc with
  | nil => exact ⟨acc, rfl, ha⟩
  | cons t ts ih =>
    simp only [topicAssignments]
    rw [membersWithTopic_eq members sub t.topicName hd]
    simp only [Out.bind_ok]
    have hne := sortMembers_ne_nil (hs t (by simp))
    have hpos : 0 < (sortMembers (subscribers members sub t.topicName)).length :=
      List.length_pos_iff.2 hne
    obtain ⟨a, h1, h2⟩ := assignLoop_ok (sortPartitions t.partitionIDs) _ hpos
      (sortMembers (subscribers members sub t.topicName)) 0 (by simp) []
    have h3 : assignPartitions (sortMembers (subscribers members sub t.topicName))
        (sortPartitions t.partitionIDs) = .ok a := by
      unfold assignPartitions
      rw [if_neg (by omega)]
      simp only
      rw [show rangeStart (sortPartitions t.partitionIDs).length
        (sortMembers (subscribers members sub t.topicName)).length 0 = 0 from by simp [rangeStart]] at h1
      exact h1
    rw [h3]
    simp only [Out.bind_ok]
    apply ih (fun x hx => hs x (by simp [hx]))
    intro e he k hk
    have hset : ∀ (m : AMap Bytes (AMap Bytes (List Int32))) (x : Bytes) v,
        e ∈ AMap.set m x v → e ∈ m ∨ e.2 = v := by
      intro m x v
      induction m with
      | nil => intro h; simp [AMap.set] at h; exact Or.inr (by rw [h])
      | cons y m ihm =>
        obtain ⟨y1, y2⟩ := y
        intro h
        simp only [AMap.set] at h
        split at h
        · rcases List.mem_cons.1 h with h | h
          · exact Or.inr (by rw [h])
          · exact Or.inl (by simp [h])
        · rcases List.mem_cons.1 h with h | h
          · exact Or.inl (by simp [h])
          · rcases ihm h with h | h
            · exact Or.inl (by simp [h])
            · exact Or.inr h
    rcases hset _ _ _ he with h | h
    · exact ha e h k hk
    · rw [h] at hk
      rcases h2 k hk with h5 | h5
      · simp [AMap.keys] at h5
      · exact subscribers_subset members sub t.topicName k ((sortMembers_perm _).mem_iff.1 h5)

theorem appendAssignments_ok (topic : Bytes) (pa : AMap Bytes (List Int32))
    (acc : AMap Bytes (List PartitionAssignment)) (hsub : ∀ k ∈ AMap.keys pa, k ∈ AMap.keys acc) :
    ∃ r, appendAssignments topic pa acc = .ok r ∧ AMap.keys r = AMap.keys acc := by
  induction pa generalizing acc with
  | nil => exact ⟨acc, rfl, rfl⟩
  | cons e pa ih =>
    obtain ⟨k, ps⟩ := e
    have hk : k ∈ AMap.keys acc := hsub k (by simp [AMap.keys])
    simp only [appendAssignments]
    cases hg : AMap.get acc k with
    | none => exact absurd hk ((AMap.get_eq_none_iff acc k).1 hg)
    | some l =>
      obtain ⟨r, h1, h2⟩ := ih (AMap.set acc k (l ++ [⟨topic, ps⟩])) (fun x hx => by
        rw [keys_set_mem _ _ _ hk]
        exact hsub x (by simp only [AMap.keys, List.map_cons, List.mem_cons] at *; exact Or.inr hx))
      exact ⟨r, h1, by rw [h2, keys_set_mem _ _ _ hk]⟩

theorem initAssignments_mem (members : List Member) (acc : AMap Bytes (List PartitionAssignment))
    (k : Bytes) (h : k ∈ AMap.keys acc ∨ k ∈ members.map Member.memberID) :
    k ∈ AMap.keys (members.foldl (fun acc m => AMap.set acc m.memberID []) acc) := by
  induction members generalizing acc with
  | nil => simpa using h
  | cons m ms ih =>
    simp only [List.foldl_cons]
    apply ih
    simp only [List.map_cons, List.mem_cons] at h
    rw [AMap.keys_set]
    split
    · rename_i hm
      rcases h with h | h | h
      · exact Or.inl h
      · exact Or.inl (h ▸ hm)
      · exact Or.inr h
    · rcases h with h | h | h
      · exact Or.inl (by simp [h])
      · exact Or.inl (by simp [h])
      · exact Or.inr h

/-- C26, when every member's metadata is readable and every topic has a subscriber: the leader
neither crashes nor fails, even with no partitions, duplicated ids or oversized names.
Missing for the full statement: topics without subscriber and unreadable metadata, which crash
(`C26_violated_no_subscriber`, `C26_violated_short_metadata`). -/
theorem C26_no_crash_partial (ord : MapOrders) (members : List Member) (topics : List TopicPartitions)
    (sub : Member → List Bytes)
    (hd : ∀ m ∈ members, ∃ v u, newProtocolMetadata m.memberMetadata = .ok ⟨v, sub m, u⟩)
    (hs : ∀ t ∈ topics, ∃ m ∈ members, t.topicName ∈ sub m) :
    ∃ g, assign ord members topics = .ok g := by
  obtain ⟨tpa, h1, h2⟩ := topicAssignments_ok members sub hd topics
    (fun t ht => subscribers_ne_nil (hs t ht)) [] (by simp)
  have hspread : ∀ (l : AMap Bytes (AMap Bytes (List Int32))) (acc : AMap Bytes (List PartitionAssignment)),
      (∀ e ∈ l, ∀ k ∈ AMap.keys e.2, k ∈ AMap.keys acc) →
      ∃ r, spreadAssignments ord.inner l acc = .ok r := by
    intro l
    induction l with
    | nil => intro acc _; exact ⟨acc, rfl⟩
    | cons e l ih =>
      obtain ⟨t, pa⟩ := e
      intro acc ha
      obtain ⟨r, h3, h4⟩ := appendAssignments_ok t (ord.inner pa) acc (fun k hk =>
        ha (t, pa) (by simp) k (((ord.inner_perm pa).map Prod.fst).mem_iff.1 hk))
      simp only [spreadAssignments, h3, Out.bind_ok]
      exact ih r (fun x hx k hk => by rw [h4]; exact ha x (by simp [hx]) k hk)
  obtain ⟨ma, h3⟩ := hspread (ord.topics tpa) (initAssignments members) (fun e he k hk =>
    initAssignments_mem members [] k (Or.inr (h2 e ((ord.topics_perm tpa).mem_iff.1 he) k hk)))
  have henc : ∀ (l : AMap Bytes (List PartitionAssignment)) n, ∃ g, encodeAssignments n l = .ok g := by
    intro l
    induction l with
    | nil => intro n; exact ⟨_, rfl⟩
    | cons e l ih =>
      obtain ⟨m, pas⟩ := e
      intro n
      obtain ⟨g, hg⟩ := ih (n - 1)
      simp only [encodeAssignments]
      rw [memberAssignment_encode_eq _ rfl]
      simp only [Out.bind_ok, hg]
      exact ⟨_, rfl⟩
  obtain ⟨g, hg⟩ := henc (ord.members ma) members.length
  refine ⟨g, ?_⟩
  unfold assign assignStructs
  rw [h1]
  simp only [Out.bind_ok, h3]
  exact hg

example : (∀ m ∈ exMembers, ∃ v u, newProtocolMetadata m.memberMetadata = .ok ⟨v, exSub m, u⟩) ∧
    ∀ t ∈ [TopicPartitions.mk [116] []], ∃ m ∈ exMembers, t.topicName ∈ exSub m :=
  ⟨exInput.readable, fun t ht => by
    simp only [List.mem_singleton] at ht
    subst ht
    exact ⟨_, List.mem_cons_self, by decide⟩⟩

end Healer
