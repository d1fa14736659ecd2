import Verif.Model.Group

/-! # Helper lemmas about range assignment -/

namespace Healer

/-! ## Sorting -/

theorem sortMembers_perm (ms : List Bytes) : (sortMembers ms).Perm ms := goSort_perm _ _

theorem sortMembers_pairwise (ms : List Bytes) : (sortMembers ms).Pairwise (· ≤ ·) := by
  have := goSort_pairwise (le := fun a b : Bytes => decide (a ≤ b))
    (fun a b c h1 h2 => by simp at *; exact List.le_trans h1 h2)
    (fun a b => by simpa using List.le_total a b) ms
  simpa [sortMembers] using this

theorem sorted_unique {l₁ l₂ : List Bytes} (hp : l₁.Perm l₂) (h₁ : l₁.Pairwise (· ≤ ·))
    (h₂ : l₂.Pairwise (· ≤ ·)) : l₁ = l₂ :=
  hp.eq_of_pairwise (fun _ _ _ _ => List.le_antisymm) h₁ h₂

theorem sortMembers_congr {a b : List Bytes} (h : a.Perm b) : sortMembers a = sortMembers b :=
  sorted_unique ((sortMembers_perm a).trans (h.trans (sortMembers_perm b).symm))
    (sortMembers_pairwise a) (sortMembers_pairwise b)

theorem sortPartitions_perm (ps : List Int32) : (sortPartitions ps).Perm ps := goSort_perm _ _

theorem sortPartitions_pairwise (ps : List Int32) : (sortPartitions ps).Pairwise (· ≤ ·) := by
  have := goSort_pairwise (le := fun a b : Int32 => decide (a ≤ b))
    (fun a b c h1 h2 => by simp at *; exact Int32.le_trans h1 h2)
    (fun a b => by simpa using Int32.le_total a b) ps
  simpa [sortPartitions] using this

theorem sortPartitions_congr {a b : List Int32} (h : a.Perm b) :
    sortPartitions a = sortPartitions b :=
  ((sortPartitions_perm a).trans (h.trans (sortPartitions_perm b).symm)).eq_of_pairwise
    (fun _ _ _ _ => Int32.le_antisymm) (sortPartitions_pairwise a) (sortPartitions_pairwise b)

/-! ## Subscribers of a topic -/

/-- Every member's metadata decodes, with the given subscriptions. -/
def Decodes (members : List Member) (sub : Member → List Bytes) : Prop :=
  ∀ m ∈ members, ∃ v u, newProtocolMetadata m.memberMetadata = .ok ⟨v, sub m, u⟩

/-- Ids of the members subscribed to a topic, in member-list order. -/
def subscribers (members : List Member) (sub : Member → List Bytes) (topic : Bytes) : List Bytes :=
  (members.filter (fun m => decide (topic ∈ sub m))).map Member.memberID

theorem membersWithTopic_aux (members : List Member) (sub : Member → List Bytes) (topic : Bytes)
    (h : Decodes members sub) (acc : List Bytes) (hs : acc.Pairwise (· ≤ ·)) :
    ∃ r, membersWithTopic topic members acc = .ok r ∧ r.Perm (acc ++ subscribers members sub topic) ∧
      r.Pairwise (· ≤ ·) := by
  induction members generalizing acc with
  | nil => exact ⟨acc, rfl, by simp [subscribers], hs⟩
  | cons m ms ih =>
    obtain ⟨v, u, hm⟩ := h m (by simp)
    have hd : Decodes ms sub := fun x hx => h x (by simp [hx])
    simp only [membersWithTopic, hm]
    by_cases ht : topic ∈ sub m
    · rw [if_pos ht]
      obtain ⟨r, h1, h2, h3⟩ := ih hd (sortMembers (acc ++ [m.memberID])) (sortMembers_pairwise _)
      refine ⟨r, h1, ?_, h3⟩
      refine h2.trans ?_
      have : subscribers (m :: ms) sub topic = m.memberID :: subscribers ms sub topic := by
        simp [subscribers, ht]
      rw [this]
      refine ((sortMembers_perm _).append_right _).trans ?_
      simp
    · rw [if_neg ht]
      obtain ⟨r, h1, h2, h3⟩ := ih hd acc hs
      refine ⟨r, h1, ?_, h3⟩
      have : subscribers (m :: ms) sub topic = subscribers ms sub topic := by
        simp [subscribers, ht]
      rw [this]; exact h2

theorem membersWithTopic_eq (members : List Member) (sub : Member → List Bytes) (topic : Bytes)
    (h : Decodes members sub) :
    membersWithTopic topic members [] = .ok (sortMembers (subscribers members sub topic)) := by
  obtain ⟨r, h1, h2, h3⟩ := membersWithTopic_aux members sub topic h [] List.Pairwise.nil
  rw [h1]
  congr 1
  exact sorted_unique (h2.trans (sortMembers_perm _).symm) h3 (sortMembers_pairwise _)

/-! ## Slices -/

/-- First partition index of the `i`-th of `n` members. -/
def rangeStart (len n i : Nat) : Nat := i * (len / n) + min i (len % n)

/-- Partitions of the `i`-th of `n` members. -/
def rangeSlice (ps : List Int32) (n i : Nat) : List Int32 :=
  (ps.take (rangeStart ps.length n (i + 1))).drop (rangeStart ps.length n i)

theorem rangeStart_succ (len n i : Nat) :
    rangeStart len n (i + 1) = rangeStart len n i +
      (if i < len % n then (if len % n > 0 then len / n + 1 else len / n) else len / n) := by
  unfold rangeStart
  rw [Nat.succ_mul]
  split
  · rw [if_pos (by omega)]; omega
  · omega

theorem rangeStart_last (len n : Nat) (hn : 0 < n) : rangeStart len n n = len := by
  unfold rangeStart
  have h1 := Nat.mod_lt len hn
  have h2 := Nat.div_add_mod len n
  rw [Nat.min_eq_right (by omega)]
  exact h2

theorem rangeStart_mono (len n i j : Nat) (h : i ≤ j) : rangeStart len n i ≤ rangeStart len n j := by
  unfold rangeStart
  have : i * (len / n) ≤ j * (len / n) := Nat.mul_le_mul_right _ h
  omega

theorem rangeStart_le (len n i : Nat) (hn : 0 < n) (h : i ≤ n) : rangeStart len n i ≤ len := by
  have := rangeStart_mono len n i n h
  rwa [rangeStart_last len n hn] at this

theorem set_append_new {κ υ : Type} [DecidableEq κ] (m : AMap κ υ) (k : κ) (v : υ)
    (h : k ∉ AMap.keys m) : AMap.set m k v = m ++ [(k, v)] := by
  induction m with
  | nil => rfl
  | cons e m ih =>
    obtain ⟨a, b⟩ := e
    simp only [AMap.keys, List.map_cons, List.mem_cons, not_or] at h
    simp only [AMap.set]
    rw [if_neg (fun x => h.1 x.symm), ih (by simpa [AMap.keys] using h.2)]
    rfl

theorem assignLoop_eq (ps : List Int32) (n : Nat) (hn : 0 < n) (ms : List Bytes) (i : Nat)
    (hi : i + ms.length = n) (acc : AMap Bytes (List Int32))
    (hnd : (AMap.keys acc ++ ms).Nodup) :
    assignLoop ps (ps.length % n) (if ps.length % n > 0 then ps.length / n + 1 else ps.length / n)
      (ps.length / n) ms i (rangeStart ps.length n i) acc
      = .ok (acc ++ (ms.zipIdx i).map (fun e => (e.1, rangeSlice ps n e.2))) := by
  induction ms generalizing i acc with
  | nil => simp [assignLoop]
  | cons m ms ih =>
    simp only [List.length_cons] at hi
    have hs := rangeStart_succ ps.length n i
    have hle := rangeStart_le ps.length n (i + 1) hn (by omega)
    have hmono := rangeStart_mono ps.length n i (i + 1) (by omega)
    simp only [assignLoop]
    rw [← hs]
    unfold sliceList
    rw [if_pos ⟨hmono, hle⟩]
    simp only
    have hm : m ∉ AMap.keys acc := by
      intro hc
      rw [List.nodup_append] at hnd
      exact hnd.2.2 m hc m (by simp) rfl
    rw [set_append_new _ _ _ hm]
    rw [ih (i + 1) (by omega)]
    · simp [List.zipIdx_cons, rangeSlice]
    · simp only [AMap.keys, List.map_append, List.map_cons, List.map_nil, List.append_assoc,
        List.singleton_append] at hnd ⊢
      exact hnd

theorem assignPartitions_eq (ms : List Bytes) (ps : List Int32) (hne : ms ≠ []) (hnd : ms.Nodup) :
    assignPartitions ms ps
      = .ok (ms.zipIdx.map (fun e => (e.1, rangeSlice ps ms.length e.2))) := by
  have hn : 0 < ms.length := by
    cases ms with
    | nil => exact absurd rfl hne
    | cons a l => simp
  unfold assignPartitions
  rw [if_neg (by omega)]
  simp only
  have := assignLoop_eq ps ms.length hn ms 0 (by simp) [] (by simpa [AMap.keys] using hnd)
  rw [show rangeStart ps.length ms.length 0 = 0 from by simp [rangeStart]] at this
  rw [this]; simp

theorem flatten_rangeSlice (ps : List Int32) (n k : Nat) :
    ((List.range k).map (rangeSlice ps n)).flatten = ps.take (rangeStart ps.length n k) := by
  induction k with
  | zero => simp [rangeStart]
  | succ k ih =>
    rw [List.range_succ, List.map_append, List.flatten_append, ih]
    simp only [List.map_cons, List.map_nil, List.flatten_cons, List.flatten_nil, List.append_nil]
    unfold rangeSlice
    have hm := rangeStart_mono ps.length n k (k + 1) (by omega)
    have h1 := List.take_append_drop (rangeStart ps.length n k) (ps.take (rangeStart ps.length n (k + 1)))
    rw [List.take_take, Nat.min_eq_left hm] at h1
    exact h1

theorem rangeSlice_length (ps : List Int32) (n i : Nat) (hn : 0 < n) (hi : i < n) :
    (rangeSlice ps n i).length = ps.length / n + (if i < ps.length % n then 1 else 0) := by
  unfold rangeSlice
  have h1 := rangeStart_succ ps.length n i
  have h2 := rangeStart_le ps.length n (i + 1) hn (by omega)
  rw [List.length_drop, List.length_take, Nat.min_eq_left h2, h1, Nat.add_sub_cancel_left]
  split
  · rw [if_pos (by omega)]
  · rfl

theorem map_snd_zipIdx_slices (ms : List Bytes) (ps : List Int32) (n : Nat) :
    (ms.zipIdx.map (fun e => (e.1, rangeSlice ps n e.2))).map Prod.snd
      = (List.range ms.length).map (rangeSlice ps n) := by
  rw [List.map_map]
  show List.map ((rangeSlice ps n) ∘ Prod.snd) _ = _
  rw [← List.map_map, List.zipIdx_map_snd, List.range_eq_range']

theorem keys_zipIdx_slices (ms : List Bytes) (ps : List Int32) (n : Nat) :
    AMap.keys (ms.zipIdx.map (fun e => (e.1, rangeSlice ps n e.2))) = ms := by
  unfold AMap.keys
  rw [List.map_map]
  show List.map Prod.fst _ = _
  exact List.zipIdx_map_fst 0 ms

/-! ## Topic map -/

/-- What one topic contributes. -/
def topicSlices (members : List Member) (sub : Member → List Bytes) (t : TopicPartitions) :
    AMap Bytes (List Int32) :=
  let ms := sortMembers (subscribers members sub t.topicName)
  ms.zipIdx.map (fun e => (e.1, rangeSlice (sortPartitions t.partitionIDs) ms.length e.2))

theorem subscribers_nodup (members : List Member) (sub : Member → List Bytes) (topic : Bytes)
    (h : (members.map Member.memberID).Nodup) : (subscribers members sub topic).Nodup := by
  unfold subscribers
  exact h.sublist (List.Sublist.map _ List.filter_sublist)

theorem sortMembers_nodup {ms : List Bytes} (h : ms.Nodup) : (sortMembers ms).Nodup :=
  (sortMembers_perm ms).nodup_iff.2 h

theorem sortMembers_ne_nil {ms : List Bytes} (h : ms ≠ []) : sortMembers ms ≠ [] := by
  intro hc
  have := (sortMembers_perm ms).length_eq
  rw [hc] at this
  cases ms with
  | nil => exact h rfl
  | cons a l => simp at this

theorem topicAssignments_eq (members : List Member) (sub : Member → List Bytes)
    (hd : Decodes members sub) (hnd : (members.map Member.memberID).Nodup)
    (ts : List TopicPartitions) (hs : ∀ t ∈ ts, subscribers members sub t.topicName ≠ [])
    (acc : AMap Bytes (AMap Bytes (List Int32)))
    (hk : (AMap.keys acc ++ ts.map TopicPartitions.topicName).Nodup) :
    topicAssignments members ts acc
      = .ok (acc ++ ts.map (fun t => (t.topicName, topicSlices members sub t))) := by
  induction ts generalizing acc with
  | nil => simp [topicAssignments]
  | cons t ts ih =>
    simp only [topicAssignments]
    rw [membersWithTopic_eq members sub t.topicName hd]
    simp only [Out.bind_ok]
    rw [assignPartitions_eq _ _ (sortMembers_ne_nil (hs t (by simp)))
      (sortMembers_nodup (subscribers_nodup members sub t.topicName hnd))]
    simp only [Out.bind_ok]
    have hm : t.topicName ∉ AMap.keys acc := by
      intro hc
      rw [List.nodup_append] at hk
      exact hk.2.2 _ hc t.topicName (by simp) rfl
    rw [set_append_new _ _ _ hm, ih (fun x hx => hs x (by simp [hx]))]
    · simp [topicSlices]
    · simp only [AMap.keys, List.map_append, List.map_cons, List.map_nil, List.append_assoc,
        List.singleton_append] at hk ⊢
      exact hk

/-! ## Spreading over members -/

theorem initAssignments_aux (members : List Member) (acc : AMap Bytes (List PartitionAssignment))
    (hk : (AMap.keys acc ++ members.map Member.memberID).Nodup) :
    members.foldl (fun acc m => AMap.set acc m.memberID []) acc
      = acc ++ members.map (fun m => (m.memberID, [])) := by
  induction members generalizing acc with
  | nil => simp
  | cons m ms ih =>
    have hm : m.memberID ∉ AMap.keys acc := by
      intro hc
      rw [List.nodup_append] at hk
      exact hk.2.2 _ hc m.memberID (by simp) rfl
    simp only [List.foldl_cons]
    rw [set_append_new _ _ _ hm, ih]
    · simp
    · simp only [AMap.keys, List.map_append, List.map_cons, List.map_nil, List.append_assoc,
        List.singleton_append] at hk ⊢
      exact hk

theorem initAssignments_eq (members : List Member) (h : (members.map Member.memberID).Nodup) :
    initAssignments members = members.map (fun m => (m.memberID, [])) := by
  have := initAssignments_aux members [] (by simpa [AMap.keys] using h)
  simpa [initAssignments] using this

theorem keys_set_mem {κ υ : Type} [DecidableEq κ] (m : AMap κ υ) (k : κ) (v : υ)
    (h : k ∈ AMap.keys m) : AMap.keys (AMap.set m k v) = AMap.keys m := by
  rw [AMap.keys_set, if_pos h]

theorem appendAssignments_spec (topic : Bytes) (pa : AMap Bytes (List Int32))
    (acc : AMap Bytes (List PartitionAssignment)) (hsub : ∀ k ∈ AMap.keys pa, k ∈ AMap.keys acc)
    (hnd : (AMap.keys pa).Nodup) :
    ∃ r, appendAssignments topic pa acc = .ok r ∧ AMap.keys r = AMap.keys acc ∧
      ∀ m, AMap.get r m = (AMap.get acc m).map
        (fun l => l ++ ((AMap.get pa m).map (fun ps => PartitionAssignment.mk topic ps)).toList) := by
  induction pa generalizing acc with
  | nil =>
    refine ⟨acc, rfl, rfl, fun m => ?_⟩
    rw [AMap.get_nil]
    cases AMap.get acc m <;> simp
  | cons e pa ih =>
    obtain ⟨k, ps⟩ := e
    simp only [AMap.keys, List.map_cons, List.nodup_cons] at hnd
    have hk : k ∈ AMap.keys acc := hsub k (by simp [AMap.keys])
    cases hg : AMap.get acc k with
    | none => exact absurd hk ((AMap.get_eq_none_iff acc k).1 hg)
    | some l =>
      obtain ⟨r, h1, h2, h3⟩ := ih (AMap.set acc k (l ++ [⟨topic, ps⟩]))
        (fun x hx => by
          rw [keys_set_mem _ _ _ hk]
          exact hsub x (by simp only [AMap.keys, List.map_cons, List.mem_cons] at *; exact Or.inr hx))
        hnd.2
      refine ⟨r, ?_, ?_, ?_⟩
      · simp only [appendAssignments, hg]; exact h1
      · rw [h2, keys_set_mem _ _ _ hk]
      · intro m
        rw [h3, AMap.get_set, AMap.get_cons]
        by_cases hm : m = k
        · subst hm
          have : AMap.get pa m = none := (AMap.get_eq_none_iff pa m).2 hnd.1
          simp [hg, this]
        · simp [hm]

theorem spreadAssignments_spec (inner : AMap Bytes (List Int32) → AMap Bytes (List Int32))
    (hinner : ∀ m, (inner m).Perm m)
    (tpa : AMap Bytes (AMap Bytes (List Int32))) (acc : AMap Bytes (List PartitionAssignment))
    (hsub : ∀ e ∈ tpa, ∀ k ∈ AMap.keys e.2, k ∈ AMap.keys acc)
    (hnd : ∀ e ∈ tpa, (AMap.keys e.2).Nodup) :
    ∃ r, spreadAssignments inner tpa acc = .ok r ∧ AMap.keys r = AMap.keys acc ∧
      ∀ m, AMap.get r m = (AMap.get acc m).map (fun l => l ++ tpa.flatMap
        (fun e => ((AMap.get e.2 m).map (fun ps => PartitionAssignment.mk e.1 ps)).toList)) := by
  induction tpa generalizing acc with
  | nil =>
    refine ⟨acc, rfl, rfl, fun m => ?_⟩
    cases AMap.get acc m <;> simp
  | cons e tpa ih =>
    obtain ⟨t, pa⟩ := e
    have hp := hinner pa
    have hnd1 := hnd (t, pa) (by simp)
    have hkp : ((inner pa).map Prod.fst).Perm (pa.map Prod.fst) := hp.map _
    obtain ⟨r1, h1, h2, h3⟩ := appendAssignments_spec t (inner pa) acc
      (fun k hk => hsub (t, pa) (by simp) k (hkp.mem_iff.1 hk)) (hkp.nodup_iff.2 hnd1)
    obtain ⟨r, g1, g2, g3⟩ := ih r1
      (fun x hx k hk => by rw [h2]; exact hsub x (by simp [hx]) k hk)
      (fun x hx => hnd x (by simp [hx]))
    refine ⟨r, ?_, by rw [g2, h2], ?_⟩
    · simp only [spreadAssignments, h1, Out.bind_ok]; exact g1
    · intro m
      rw [g3, h3, ← AMap.get_perm _ _ hp.symm hnd1 m]
      cases AMap.get acc m <;> simp

/-! ## The whole assignment -/

/-- The partitions of topic `t` that the entry of one member lists. -/
def listedFor (t : Bytes) (pas : List PartitionAssignment) : List Int32 :=
  pas.flatMap fun pa => if pa.topic = t then pa.partitions else []

theorem topicSlices_keys (members : List Member) (sub : Member → List Bytes) (t : TopicPartitions) :
    AMap.keys (topicSlices members sub t) = sortMembers (subscribers members sub t.topicName) :=
  keys_zipIdx_slices _ _ _

theorem topicSlices_nodup (members : List Member) (sub : Member → List Bytes) (t : TopicPartitions)
    (h : (members.map Member.memberID).Nodup) : (AMap.keys (topicSlices members sub t)).Nodup := by
  rw [topicSlices_keys]
  exact sortMembers_nodup (subscribers_nodup members sub _ h)

theorem subscribers_subset (members : List Member) (sub : Member → List Bytes) (t : Bytes) :
    ∀ k ∈ subscribers members sub t, k ∈ members.map Member.memberID := by
  intro k hk
  unfold subscribers at hk
  simp only [List.mem_map, List.mem_filter] at hk ⊢
  obtain ⟨m, hm, rfl⟩ := hk
  exact ⟨m, hm.1, rfl⟩

/-- Everything known about the outcome of a successful assignment. -/
theorem assignStructs_spec (ord : MapOrders) (members : List Member) (topics : List TopicPartitions)
    (sub : Member → List Bytes) (hd : Decodes members sub)
    (hnd : (members.map Member.memberID).Nodup)
    (htn : (topics.map TopicPartitions.topicName).Nodup)
    (hs : ∀ t ∈ topics, subscribers members sub t.topicName ≠ []) :
    ∃ (r : List (Bytes × List PartitionAssignment)) (tpa : List (Bytes × AMap Bytes (List Int32))),
      assignStructs ord members topics = .ok r ∧
      tpa.Perm (topics.map (fun t => (t.topicName, topicSlices members sub t))) ∧
      (AMap.keys r).Perm (members.map Member.memberID) ∧
      ∀ e ∈ r, e.2 = tpa.flatMap
        (fun x => ((AMap.get x.2 e.1).map (fun ps => PartitionAssignment.mk x.1 ps)).toList) := by
  have h1 := topicAssignments_eq members sub hd hnd topics hs [] (by simpa [AMap.keys] using htn)
  simp only [List.nil_append] at h1
  have hp := ord.topics_perm (topics.map (fun t => (t.topicName, topicSlices members sub t)))
  have hinit := initAssignments_eq members hnd
  have hik : AMap.keys (initAssignments members) = members.map Member.memberID := by
    rw [hinit]; unfold AMap.keys; rw [List.map_map]; rfl
  obtain ⟨r, g1, g2, g3⟩ := spreadAssignments_spec ord.inner ord.inner_perm
    (ord.topics (topics.map (fun t => (t.topicName, topicSlices members sub t)))) (initAssignments members)
    (fun e he k hk => by
      rw [hik]
      have he := hp.mem_iff.1 he
      simp only [List.mem_map] at he
      obtain ⟨t, ht, rfl⟩ := he
      simp only at hk
      rw [topicSlices_keys] at hk
      exact subscribers_subset members sub t.topicName k ((sortMembers_perm _).mem_iff.1 hk))
    (fun e he => by
      have he := hp.mem_iff.1 he
      simp only [List.mem_map] at he
      obtain ⟨t, ht, rfl⟩ := he
      exact topicSlices_nodup members sub t hnd)
  refine ⟨ord.members r, _, ?_, hp, ?_, ?_⟩
  · unfold assignStructs
    rw [h1]; simp only [Out.bind_ok]; rw [g1]; rfl
  · have := (ord.members_perm r).map Prod.fst
    refine this.trans ?_
    show (AMap.keys r).Perm _
    rw [g2, hik]
  · intro e he
    have he := (ord.members_perm r).mem_iff.1 he
    have hget := AMap.get_eq_some_of_mem r (by rw [g2, hik]; exact hnd) e.1 e.2 he
    have h3 := g3 e.1
    rw [hget] at h3
    have hi : AMap.get (initAssignments members) e.1 = some [] := by
      cases hgi : AMap.get (initAssignments members) e.1 with
      | none =>
        rw [hgi] at h3; simp at h3
      | some l =>
        have := AMap.mem_of_get_eq_some _ _ _ hgi
        rw [hinit] at this
        simp only [List.mem_map, Prod.mk.injEq] at this
        obtain ⟨_, _, _, rfl⟩ := this
        rfl
    rw [hi] at h3
    simpa using h3

/-- What one member's entry lists for a topic is that topic's slice for it. -/
theorem listedFor_eq (tpa : AMap Bytes (AMap Bytes (List Int32))) (m t : Bytes)
    (hnd : (AMap.keys tpa).Nodup) (pa : AMap Bytes (List Int32)) (hmem : (t, pa) ∈ tpa) :
    listedFor t (tpa.flatMap
        (fun x => ((AMap.get x.2 m).map (fun ps => PartitionAssignment.mk x.1 ps)).toList))
      = (AMap.get pa m).getD [] := by
  induction tpa with
  | nil => simp at hmem
  | cons e tpa ih =>
    obtain ⟨t', pa'⟩ := e
    simp only [AMap.keys, List.map_cons, List.nodup_cons] at hnd
    have hother : ∀ (l : AMap Bytes (AMap Bytes (List Int32))), t ∉ l.map Prod.fst →
        listedFor t (l.flatMap
          (fun x => ((AMap.get x.2 m).map (fun ps => PartitionAssignment.mk x.1 ps)).toList)) = [] := by
      intro l hl
      unfold listedFor
      rw [List.flatMap_eq_nil_iff]
      intro p hp
      simp only [List.mem_flatMap] at hp
      obtain ⟨x, hx, hpx⟩ := hp
      have hne : x.1 ≠ t := fun hc => hl (List.mem_map.2 ⟨x, hx, hc⟩)
      cases hg : AMap.get x.2 m with
      | none => rw [hg] at hpx; simp at hpx
      | some ps =>
        rw [hg] at hpx
        simp only [Option.map_some, Option.toList_some, List.mem_singleton] at hpx
        subst hpx
        simp [hne]
    have happ : ∀ a b, listedFor t (a ++ b) = listedFor t a ++ listedFor t b := by
      intro a b; simp [listedFor]
    rw [List.flatMap_cons, happ]
    rcases List.mem_cons.1 hmem with h | h
    · cases h
      rw [hother tpa hnd.1, List.append_nil]
      cases AMap.get pa m <;> simp [listedFor]
    · have hne : t' ≠ t := by
        intro hc; subst hc
        exact hnd.1 (List.mem_map.2 ⟨(t', pa), h, rfl⟩)
      rw [ih hnd.2 h]
      cases AMap.get pa' m <;> simp [listedFor, hne]

/-- Collecting a map's values over any duplicate-free list covering its keys. -/
theorem flatMap_get_perm (pa : AMap Bytes (List Int32)) (hnd : (AMap.keys pa).Nodup)
    (ks : List Bytes) (hks : ks.Nodup) (hsub : ∀ k ∈ AMap.keys pa, k ∈ ks) :
    (ks.flatMap fun k => (AMap.get pa k).getD []).Perm (pa.flatMap Prod.snd) := by
  have h1 : ks.Perm (AMap.keys pa ++ ks.filter (fun k => decide (k ∉ AMap.keys pa))) := by
    rw [List.perm_ext_iff_of_nodup hks]
    · intro a
      simp only [List.mem_append, List.mem_filter, decide_eq_true_eq]
      constructor
      · intro h
        by_cases hc : a ∈ AMap.keys pa
        · exact Or.inl hc
        · exact Or.inr ⟨h, hc⟩
      · rintro (h | h)
        · exact hsub a h
        · exact h.1
    · rw [List.nodup_append]
      refine ⟨hnd, hks.sublist List.filter_sublist, ?_⟩
      intro a ha b hb hab
      subst hab
      simp only [List.mem_filter, decide_eq_true_eq] at hb
      exact hb.2 ha
  refine (h1.flatMap_right _).trans ?_
  rw [List.flatMap_append]
  have h2 : ((ks.filter (fun k => decide (k ∉ AMap.keys pa))).flatMap
      fun k => (AMap.get pa k).getD []) = [] := by
    rw [List.flatMap_eq_nil_iff]
    intro k hk
    simp only [List.mem_filter, decide_eq_true_eq] at hk
    rw [(AMap.get_eq_none_iff pa k).2 hk.2]; rfl
  rw [h2, List.append_nil]
  have h3 : ∀ l : AMap Bytes (List Int32), (∀ e ∈ l, e ∈ pa) →
      (l.map Prod.fst).flatMap (fun k => (AMap.get pa k).getD []) = l.flatMap Prod.snd := by
    intro l hl
    induction l with
    | nil => rfl
    | cons e l ih =>
      simp only [List.map_cons, List.flatMap_cons]
      rw [ih (fun x hx => hl x (by simp [hx]))]
      rw [AMap.get_eq_some_of_mem pa hnd e.1 e.2 (hl e (by simp))]
      rfl
  rw [AMap.keys, h3 pa (fun _ h => h)]

end Healer
