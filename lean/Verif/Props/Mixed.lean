import Verif.Spec.Mixed
import Verif.Props.Group

/-!
# C188: a group may have members that use Kafka's own clients
-/

namespace Healer

/-! ## Lemmas -/

theorem int32_minus : Kafka.int32 (-1) = Kafka.int32 (-1 : Int32).toInt := by decide

theorem newProtocolMetadata_null (v : UInt16) (ss : List Bytes) (rest : Bytes)
    (hc : ss.length < 2 ^ 32) (hs : ∀ s ∈ ss, s.length < 2 ^ 16) :
    newProtocolMetadata (Kafka.int16 v.toNat ++ Kafka.array Kafka.string ss ++ Kafka.nullableBytes none ++ rest) = .ok ⟨v, ss, none⟩ := by
  unfold newProtocolMetadata
  have hss : CReads (Cur.forN (UInt32.ofNat ss.length).toNat (do
      let l ← rdU16
      rdBytes l.toNat)) (ss.flatMap Kafka.string) ss := by
    rw [toNat_len32 _ hc]
    have := CReads.forN (c := (do
      let l ← rdU16
      rdBytes l.toNat)) (enc := Kafka.string) (g := id)
      ss (fun s hm => CReads.bind (creads_len16 s.length) (reads_rdBytes s _ (by rw [toNat_len16 _ (hs s hm)])))
    simpa using this
  have h := CReads.bind (m := rdU16) (f := fun v => do
    let c ← rdU32
    let ss ← Cur.forN c.toNat (do
      let l ← rdU16
      rdBytes l.toNat)
    let l ← rdI32
    if l = -1 then pure { version := v, subscription := ss, userData := none }
    else if l.toInt < 0 then Cur.crash
    else do
      let u ← rdBytes l.toInt
      pure ({ version := v, subscription := ss, userData := some u } : ProtocolMetadata))
    (creads_u16 v) (CReads.bind (creads_len32 ss.length) (CReads.bind hss
      (CReads.bind (creads_int32 (-1)) (e2 := []) (b := ⟨v, ss, none⟩) ?_)))
  · have := h [] rest
    have e : Kafka.int16 v.toNat ++ Kafka.array Kafka.string ss ++ Kafka.nullableBytes none ++ rest
        = Kafka.int16 v.toNat ++ (Kafka.int32 ss.length ++ (ss.flatMap Kafka.string ++
          (Kafka.int32 (-1 : Int32).toInt ++ []))) ++ rest := by
      simp [Kafka.array, Kafka.nullableBytes, int32_minus]
    rw [e]
    simp only [List.nil_append, List.length_nil] at this
    have e0 : ((0 : Nat) : Int) = 0 := rfl
    rw [e0] at this
    rw [this]
  · rw [if_pos rfl]
    exact CReads.pure _

/-- Every subscription of versions 0 to 3 is decoded. -/
theorem clientSubscription_read (v : Nat) (s : Kafka.Subscription) (hv : v < 2 ^ 16) (hc : s.topics.length < 2 ^ 32)
    (hu : ∀ u, s.userData = some u → u.length < 2 ^ 31) (hs : ∀ t ∈ s.topics, t.length < 2 ^ 16) :
    newProtocolMetadata (Kafka.clientSubscription v s) = .ok ⟨UInt16.ofNat v, s.topics, s.userData⟩ := by
  have hvn : ((UInt16.ofNat v).toNat : Int) = v := by
    rw [UInt16.toNat_ofNat_of_lt' hv]
  unfold Kafka.clientSubscription
  rw [← hvn]
  cases hd : s.userData with
  | none =>
    simp only [List.append_assoc]
    have := newProtocolMetadata_null (UInt16.ofNat v) s.topics
    simp only [List.append_assoc] at this
    exact this _ hc hs
  | some u =>
    have := newProtocolMetadata_grammar (UInt16.ofNat v) s.topics u
    simp only [Kafka.subscription, Kafka.bytes, List.append_assoc] at this
    simp only [Kafka.nullableBytes, List.append_assoc]
    exact this _ hc (hu u hd) hs

theorem newMemberAssignment_null (v : Int16) (pas : List PartitionAssignment) (rest : Bytes) (hc : pas.length < 2 ^ 31)
    (hp : ∀ p ∈ pas, p.topic.length < 2 ^ 16 ∧ p.partitions.length < 2 ^ 32) :
    newMemberAssignment (Kafka.int16 v.toInt ++ Kafka.array (fun t : Bytes × List Int => Kafka.string t.1 ++ Kafka.array Kafka.int32 t.2)
        (pas.map fun p => (p.topic, p.partitions.map Int32.toInt)) ++ Kafka.nullableBytes none ++ rest)
      = .ok ⟨v, pas, none⟩ := by
  unfold newMemberAssignment
  have hwire : Kafka.int16 v.toInt ++ Kafka.array (fun t : Bytes × List Int => Kafka.string t.1 ++ Kafka.array Kafka.int32 t.2)
        (pas.map fun p => (p.topic, p.partitions.map Int32.toInt)) ++ Kafka.nullableBytes none ++ rest
      = Kafka.int16 v.toInt ++ (Kafka.int32 pas.length ++ (pas.flatMap PartitionAssignment.wire ++
        (Kafka.int32 (-1 : Int32).toInt ++ rest))) := by
    rw [wire_flatMap, Kafka.array, Kafka.nullableBytes, int32_minus]
    simp only [List.length_map, List.append_assoc]
  rw [hwire]
  rw [if_neg (by simp)]
  have hpas : CReads (Cur.forInt (UInt32.ofNat pas.length).toInt32.toInt decodePartitionAssignment)
      (pas.flatMap PartitionAssignment.wire) pas := by
    have := CReads.forInt (c := decodePartitionAssignment) (enc := PartitionAssignment.wire) (g := id)
      pas _ (toInt_ilen32 _ hc) (fun p hpm => creads_partitionAssignment p (hp p hpm).1 (hp p hpm).2)
    simpa using this
  have h1 := creads_int16 v [] (Kafka.int32 pas.length ++ (pas.flatMap PartitionAssignment.wire ++
        (Kafka.int32 (-1 : Int32).toInt ++ rest)))
  have h2 := creads_ilen32 pas.length (Kafka.int16 v.toInt) (pas.flatMap PartitionAssignment.wire ++
        (Kafka.int32 (-1 : Int32).toInt ++ rest))
  have h3 := hpas (Kafka.int16 v.toInt ++ Kafka.int32 pas.length) (Kafka.int32 (-1 : Int32).toInt ++ rest)
  have h4 := creads_int32 (-1) (Kafka.int16 v.toInt ++ Kafka.int32 pas.length ++
    pas.flatMap PartitionAssignment.wire) rest
  simp only [List.nil_append, List.length_nil, List.append_assoc, List.length_append, int16_length, int32_length,
    Nat.zero_add, Nat.add_assoc] at h1 h2 h3 h4
  have e0 : ((0 : Nat) : Int) = 0 := rfl
  rw [e0] at h1
  simp only [Cur.bind_def, h1, h2, h3, h4]
  rw [if_pos trivial]
  simp only [Cur.pure_def]

theorem clientAssignment_read (v : Nat) (pas : List PartitionAssignment) (u : Option Bytes) (hv : v < 2 ^ 15) (hc : pas.length < 2 ^ 31)
    (hu : ∀ b, u = some b → b.length < 2 ^ 31) (hp : ∀ p ∈ pas, p.topic.length < 2 ^ 16 ∧ p.partitions.length < 2 ^ 32) :
    newMemberAssignment (Kafka.clientAssignment v (pas.map fun p => (p.topic, p.partitions.map Int32.toInt)) u)
      = .ok ⟨Int16.ofNat v, pas, u⟩ := by
  have hvn : (Int16.ofNat v).toInt = v := Int16.toInt_ofNat_of_lt hv
  unfold Kafka.clientAssignment
  rw [← hvn]
  cases u with
  | none => have := newMemberAssignment_null (Int16.ofNat v) pas [] hc hp; rwa [List.append_nil] at this
  | some b =>
    have := newMemberAssignment_grammar (Int16.ofNat v) pas b [] hc (hu b rfl) hp
    rwa [List.append_nil] at this

theorem sortPartitions_range (n : Nat) (hn : n < 2 ^ 31) (ps : List Int32) (hp : ps.Perm ((List.range n).map Int32.ofNat)) :
    sortPartitions ps = (List.range n).map Int32.ofNat := by
  refine ((sortPartitions_perm ps).trans hp).eq_of_pairwise (fun _ _ _ _ h1 h2 => Int32.le_antisymm h1 h2) (sortPartitions_pairwise ps) ?_
  rw [List.pairwise_map]
  apply List.Pairwise.imp_of_mem _ List.pairwise_lt_range
  intro a b ha hb hab
  simp only [List.mem_range] at ha hb
  rw [Int32.le_iff_toInt_le, Int32.toInt_ofNat_of_lt (by omega), Int32.toInt_ofNat_of_lt (by omega)]
  omega

theorem rangeSlice_range (n m i : Nat) (hm : 0 < m) (hi : i < m) :
    rangeSlice ((List.range n).map Int32.ofNat) m i = (Kafka.rangeAssignor n m i).map Int32.ofNat := by
  unfold rangeSlice Kafka.rangeAssignor
  rw [← List.map_take, ← List.map_drop]
  congr 1
  have hle := rangeStart_le n m (i + 1) hm hi
  have hs := rangeStart_succ n m i
  simp only [List.length_map, List.length_range]
  have h0 : rangeStart n m i = n / m * i + min i (n % m) := by rw [rangeStart, Nat.mul_comm]
  rw [← h0]
  have hl : rangeStart n m (i + 1) - rangeStart n m i = n / m + if i + 1 > n % m then 0 else 1 := by
    rw [hs]
    by_cases h : i < n % m
    · rw [if_pos h, if_pos (by omega), if_neg (by omega), Nat.add_sub_cancel_left]
    · rw [if_neg h, if_pos (by omega), Nat.add_sub_cancel_left, Nat.add_zero]
  rw [← hl]
  apply List.ext_getElem
  · simp; omega
  · intro k h1 h2
    simp

/-! ## The property -/

/-- C188, reading: every subscription that a member using Kafka's own clients sends, of any of the versions 0 to 3, with or without
user data, and every assignment that such a leader sends, is read as what it says. -/
theorem C188_read (v : Nat) (hv : v ≤ 3) (s : Kafka.Subscription) (hc : s.topics.length < 2 ^ 32)
    (hu : ∀ u, s.userData = some u → u.length < 2 ^ 31) (hs : ∀ t ∈ s.topics, t.length < 2 ^ 16)
    (pas : List PartitionAssignment) (u : Option Bytes) (hl : pas.length < 2 ^ 31) (hd : ∀ b, u = some b → b.length < 2 ^ 31)
    (hp : ∀ p ∈ pas, p.topic.length < 2 ^ 16 ∧ p.partitions.length < 2 ^ 32) :
    newProtocolMetadata (Kafka.clientSubscription v s) = .ok ⟨UInt16.ofNat v, s.topics, s.userData⟩ ∧
    newMemberAssignment (Kafka.clientAssignment v (pas.map fun p => (p.topic, p.partitions.map Int32.toInt)) u)
      = .ok ⟨Int16.ofNat v, pas, u⟩ :=
  ⟨clientSubscription_read v s (by omega) hc hu hs, clientAssignment_read v pas u (by omega) hl hd hp⟩

/-- C188, dividing: in a group of members that use Kafka's own clients or healer, a leader that uses healer gives each subscriber of a
topic with the partitions 0 to `n - 1` what Kafka's range assignor would give it. -/
theorem C188_same_shares (ord : MapOrders) (members : List Member) (topics : List TopicPartitions)
    (version : Member → Nat) (s : Member → Kafka.Subscription)
    (hv : ∀ m ∈ members, version m ≤ 3 ∧ m.memberMetadata = Kafka.clientSubscription (version m) (s m))
    (hsize : ∀ m ∈ members, (s m).topics.length < 2 ^ 32 ∧ (∀ u, (s m).userData = some u → u.length < 2 ^ 31) ∧ ∀ t ∈ (s m).topics, t.length < 2 ^ 16)
    (hdm : (members.map Member.memberID).Nodup) (hdt : (topics.map TopicPartitions.topicName).Nodup)
    (hsub : ∀ t ∈ topics, ∃ m ∈ members, t.topicName ∈ (s m).topics)
    (htc : topics.length < 2 ^ 31) (hts : ∀ t ∈ topics, t.topicName.length < 2 ^ 16 ∧ t.partitionIDs.length < 2 ^ 32)
    (t : TopicPartitions) (ht : t ∈ topics) (n : Nat) (hn : n < 2 ^ 31) (hps : t.partitionIDs.Perm ((List.range n).map Int32.ofNat))
    (ms : List Bytes) (hms : ms.Perm ((members.filter fun m => decide (t.topicName ∈ (s m).topics)).map Member.memberID))
    (hsorted : ms.Pairwise (· ≤ ·)) :
    ∃ g, assign ord members topics = .ok g ∧
      ms.map (share g t.topicName) = (List.range ms.length).map (fun i => (Kafka.rangeAssignor n ms.length i).map Int32.ofNat) := by
  have hi : GroupInput members topics (fun m => (s m).topics) := by
    refine ⟨fun m hm => ?_, hdm, hdt, hsub, htc, hts⟩
    obtain ⟨h1, h2, h3⟩ := hsize m hm
    obtain ⟨h4, h5⟩ := hv m hm
    exact ⟨_, _, by rw [h5]; exact clientSubscription_read _ _ (by omega) h1 h2 h3⟩
  obtain ⟨g, tpa, h1, h2, h3, h4⟩ := assign_spec ord members topics _ hi
  refine ⟨g, h1, ?_⟩
  have hms' : ms = sortMembers (subscribers members (fun m => (s m).topics) t.topicName) :=
    sorted_unique (hms.trans (sortMembers_perm _).symm) hsorted (sortMembers_pairwise _)
  have hne := subscribers_ne_nil (hi.subscribed t ht)
  have hpos : 0 < ms.length := by
    rw [hms']; exact List.length_pos_iff.2 (sortMembers_ne_nil hne)
  have hnd : ms.Nodup := by
    rw [hms']
    exact sortMembers_nodup (subscribers_nodup members _ t.topicName hi.distinctMembers)
  have hshares : ms.map (share g t.topicName)
      = (List.range ms.length).map (rangeSlice (sortPartitions t.partitionIDs) ms.length) := by
    rw [← get_of_nodup_zip ms hnd]
    apply List.map_congr_left
    intro m _
    rw [share_eq hi h2 h3 h4 t ht m]
    unfold topicSlices
    simp only
    rw [← hms']
  rw [hshares]
  apply List.map_congr_left
  intro i him
  rw [sortPartitions_range n hn _ hps, rangeSlice_range n ms.length i hpos (List.mem_range.1 him)]

/-- C188, sending: what a member using healer subscribes with, and what a leader using healer assigns, has the form that Kafka's own
clients read. -/
theorem C188_sent (topic : Bytes) (pas : List PartitionAssignment) :
    ProtocolMetadata.encode ⟨0, [topic], none⟩ = .ok (Kafka.clientSubscription 0 ⟨[topic], some [], [], 0, none⟩) ∧
    MemberAssignment.encode ⟨0, pas, none⟩ =
      .ok (Kafka.clientAssignment 0 (pas.map fun p => (p.topic, p.partitions.map Int32.toInt)) (some [])) := by
  refine ⟨?_, ?_⟩
  · rw [protocolMetadata_encode_eq]
    simp [Kafka.clientSubscription, Kafka.subscription, Kafka.bytes, Kafka.nullableBytes]
  · rw [memberAssignment_encode_eq _ rfl]
    rfl

/-- A member "a" of Java's version 3, with a partition owned, and a member "b" using healer, with a topic "t" of three partitions: "a" gets 0 and 1, "b" gets 2. -/
example : (assign plainOrders [⟨[98], [0, 0, 0, 0, 0, 1, 0, 1, 116, 0, 0, 0, 0]⟩,
      ⟨[97], [0, 3, 0, 0, 0, 1, 0, 1, 116, 255, 255, 255, 255, 0, 0, 0, 1, 0, 1, 116, 0, 0, 0, 1, 0, 0, 0, 2, 0, 0, 0, 5, 255, 255]⟩] [⟨[116], [1, 2, 0]⟩]).okAnd
        (fun g => [[97], [98]].map (share g [116]) = [[0, 1], [2]]) = true ∧ Kafka.rangeAssignor 3 2 0 = [0, 1] ∧ Kafka.rangeAssignor 3 2 1 = [2] ∧
    Kafka.clientSubscription 3 ⟨[[116]], none, [([116], [2])], 5, none⟩ =
      [0, 3, 0, 0, 0, 1, 0, 1, 116, 255, 255, 255, 255, 0, 0, 0, 1, 0, 1, 116, 0, 0, 0, 1, 0, 0, 0, 2, 0, 0, 0, 5, 255, 255] :=
  ⟨by decide +kernel, by decide, by decide, by decide +kernel⟩

end Healer
