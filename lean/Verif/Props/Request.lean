import Verif.Lemmas.Request

/-!
# C58, C59, C60: membership, offset, metadata and authentication requests

Every theorem says: the bytes `Encode` returns are the framed request of the grammar, for every field
value, correlation id and client id, and for every version the client may negotiate (`clientVersions`).
In particular the encoders neither panic nor truncate.
-/

namespace Healer

/-! ## C58 -/

theorem C58_heartbeat (r : HeartbeatRequest) (v : UInt16) (_ : v ∈ clientVersions API_Heartbeat) (corr : UInt32)
    (cid : Option Bytes) :
    r.encode (reqHeader API_Heartbeat v corr cid) = .ok (Kafka.request .heartbeat v.toNat corr.toNat cid
      (Kafka.heartbeatRequest r.groupID r.generationID.toInt r.memberID)) := by
  refine encodeSized_ok .heartbeat rfl (Writes.cast (Writes.all_cons (Writes.str16 _) (Writes.all_cons (Writes.i32 _)
    (Writes.all_cons (Writes.str16 _) Writes.all_nil))) ?_) ?_
  · simp only [Kafka.heartbeatRequest, List.append_nil, List.append_assoc]
  · simp [Kafka.heartbeatRequest]; omega

example : HeartbeatRequest.encode (reqHeader API_Heartbeat 0 7 (some [99])) ⟨[103], 5, [109]⟩ =
    .ok [0, 0, 0, 21, 0, 12, 0, 0, 0, 0, 0, 7, 0, 1, 99, 0, 1, 103, 0, 0, 0, 5, 0, 1, 109] := by decide +kernel

theorem C58_leaveGroup (r : LeaveGroupRequest) (v : UInt16) (_ : v ∈ clientVersions API_LeaveGroup) (corr : UInt32)
    (cid : Option Bytes) :
    r.encode (reqHeader API_LeaveGroup v corr cid) = .ok (Kafka.request .leaveGroup v.toNat corr.toNat cid
      (Kafka.leaveGroupRequest r.groupID r.memberID)) := by
  refine encodeSized_ok .leaveGroup rfl (Writes.cast (Writes.all_cons (Writes.str16 _)
    (Writes.all_cons (Writes.str16 _) Writes.all_nil)) ?_) ?_
  · simp only [Kafka.leaveGroupRequest, List.append_nil]
  · simp [Kafka.leaveGroupRequest]; omega

example : LeaveGroupRequest.encode (reqHeader API_LeaveGroup 0 7 (some [99])) ⟨[103], [109]⟩ =
    .ok [0, 0, 0, 17, 0, 13, 0, 0, 0, 0, 0, 7, 0, 1, 99, 0, 1, 103, 0, 1, 109] := by decide +kernel

/-- Member id or protocol name with its bytes. -/
theorem writes_pair (x : Bytes × Bytes) :
    Writes (Enc.all [.str16 x.1, .bytes32 x.2]) (Kafka.string x.1 ++ Kafka.bytes x.2) :=
  (Writes.all_cons (Writes.str16 _) (Writes.all1 (Writes.bytes32 _))).cast rfl

theorem pairs_length (xs : List (Bytes × Bytes)) (a : Nat) :
    xs.foldl (fun l x => l + (2 + x.1.length) + (4 + x.2.length)) a + 4 =
      a + (Kafka.array (fun x => Kafka.string x.1 ++ Kafka.bytes x.2) xs).length := by
  have := foldl_array (k := id) (g := fun x : Bytes × Bytes => Kafka.string x.1 ++ Kafka.bytes x.2) xs a
    (f := fun l x => l + (2 + x.1.length) + (4 + x.2.length)) (by intros; simp; omega)
  rwa [List.map_id] at this

theorem C58_syncGroup (r : SyncGroupRequest) (v : UInt16) (_ : v ∈ clientVersions API_SyncGroup) (corr : UInt32)
    (cid : Option Bytes) :
    r.encode (reqHeader API_SyncGroup v corr cid) = .ok (Kafka.request .syncGroup v.toNat corr.toNat cid
      (Kafka.syncGroupRequest r.groupID r.generationID.toInt r.memberID r.groupAssignment)) := by
  refine encodeSized_ok .syncGroup rfl (Writes.cast (Writes.all_cons (Writes.str16 _) (Writes.all_cons (Writes.i32 _)
    (Writes.all_cons (Writes.str16 _) (Writes.all1 (Writes.arr32' _ fun x _ => writes_pair x))))) ?_) ?_
  · simp only [Kafka.syncGroupRequest, List.append_assoc]
  · have := pairs_length r.groupAssignment (2 + r.groupID.length + 4 + 2 + r.memberID.length + 4)
    simp [Kafka.syncGroupRequest, SyncGroupRequest.length]; omega

example : SyncGroupRequest.encode (reqHeader API_SyncGroup 0 7 (some [99])) ⟨[103], 5, [109], [([109], [1, 2]),
      ([110], [])]⟩ =
    .ok [0, 0, 0, 41, 0, 14, 0, 0, 0, 0, 0, 7, 0, 1, 99, 0, 1, 103, 0, 0, 0, 5, 0, 1, 109, 0, 0, 0, 2, 0, 1, 109, 0,
      0, 0, 2, 1, 2, 0, 1, 110, 0, 0, 0, 0] := by decide +kernel

/-- Version 0 is the one negotiated; versions 1 and 2 are implemented by the encoder too. -/
theorem C58_joinGroup (r : JoinGroupRequest) (v : UInt16) (hv : v ∈ clientVersions API_JoinGroup ∨ v.toNat ≤ 2)
    (corr : UInt32) (cid : Option Bytes) :
    r.encode (reqHeader API_JoinGroup v corr cid) = .ok (Kafka.request .joinGroup v.toNat corr.toNat cid
      (Kafka.joinGroupRequest v.toNat r.groupID r.sessionTimeout.toInt r.rebalanceTimeout.toInt r.memberID
        r.protocolType r.groupProtocols)) := by
  have hv : v = 0 ∨ v = 1 ∨ v = 2 := by
    rcases hv with hv | hv
    · left; simpa [clientVersions, availableVersions, API_JoinGroup] using hv
    · have : v.toNat = 0 ∨ v.toNat = 1 ∨ v.toNat = 2 := by omega
      rcases this with h | h | h
      · exact .inl (UInt16.toNat_inj.mp h)
      · exact .inr (.inl (UInt16.toNat_inj.mp h))
      · exact .inr (.inr (UInt16.toNat_inj.mp h))
  have hc : decide (v = 1 ∨ v = 2) = decide (1 ≤ v.toNat) := by rcases hv with h | h | h <;> subst h <;> rfl
  refine encodeSized_ok .joinGroup rfl (Writes.cast (Writes.all_cons (Writes.str16 _) (Writes.all_cons (Writes.i32 _)
    (Writes.all_cons (Writes.when fun _ => Writes.i32 _) (Writes.all_cons (Writes.str16 _) (Writes.all_cons (Writes.str16 _)
    (Writes.all1 (Writes.arr32' _ fun x _ => writes_pair x))))))) ?_) ?_
  · simp only [decide_eq_decide] at hc
    simp only [Kafka.joinGroupRequest, List.append_assoc, reqHeader, decide_eq_true_eq, hc]
  · have := pairs_length r.groupProtocols (2 + r.groupID.length + 4 + 2 + r.memberID.length + 2 + r.protocolType.length +
      (if v = 1 ∨ v = 2 then 4 else 0) + 4)
    simp only [decide_eq_decide] at hc
    simp only [Kafka.joinGroupRequest, JoinGroupRequest.length, reqHeader, List.length_append, string_length, int32_length]
    simp only [hc] at this ⊢
    split at this <;> simp_all <;> omega

example : JoinGroupRequest.encode (reqHeader API_JoinGroup 1 7 (some [99])) ⟨[103], 30000, 60000, [], [99], [([114],
      [1, 2])]⟩ =
    .ok [0, 0, 0, 40, 0, 11, 0, 1, 0, 0, 0, 7, 0, 1, 99, 0, 1, 103, 0, 0, 117, 48, 0, 0, 234, 96, 0, 0, 0, 1, 99, 0,
      0, 0, 1, 0, 1, 114, 0, 0, 0, 2, 1, 2] := by decide +kernel

theorem C58_findCoordinator (group : Bytes) (v : UInt16) (_ : v ∈ clientVersions API_FindCoordinator) (corr : UInt32)
    (cid : Option Bytes) :
    encodeFindCoordinatorRequest (reqHeader API_FindCoordinator v corr cid) group =
      .ok (Kafka.request .findCoordinator v.toNat corr.toNat cid (Kafka.findCoordinatorRequest group)) :=
  encodeSized_ok .findCoordinator rfl (Writes.str16 _) (by simp [Kafka.findCoordinatorRequest])

example : encodeFindCoordinatorRequest (reqHeader API_FindCoordinator 0 7 (some [99])) [103] =
    .ok [0, 0, 0, 14, 0, 10, 0, 0, 0, 0, 0, 7, 0, 1, 99, 0, 1, 103] := by decide +kernel

theorem strings_length (xs : List Bytes) (a : Nat) :
    xs.foldl (fun l g => l + 2 + g.length) a + 4 = a + (Kafka.array Kafka.string xs).length := by
  have := foldl_array (k := id) (g := Kafka.string) xs a
    (f := fun l g => l + 2 + g.length) (by intros; simp; omega)
  rwa [List.map_id] at this

theorem C58_describeGroups (groups : List Bytes) (v : UInt16) (_ : v ∈ clientVersions API_DescribeGroups) (corr : UInt32)
    (cid : Option Bytes) :
    encodeDescribeGroupsRequest (reqHeader API_DescribeGroups v corr cid) groups =
      .ok (Kafka.request .describeGroups v.toNat corr.toNat cid (Kafka.describeGroupsRequest groups)) := by
  refine encodeSized_ok .describeGroups rfl (Writes.arr32' (g := Kafka.string) _ fun x _ =>
    (Writes.all_cons (Writes.put _) (Writes.all1 (Writes.put _))).cast (by rw [be16_ofNat]; rfl)) ?_
  have := strings_length groups 4
  unfold Kafka.describeGroupsRequest
  omega

example : encodeDescribeGroupsRequest (reqHeader API_DescribeGroups 0 7 (some [99])) [[103], [104, 105]] =
    .ok [0, 0, 0, 22, 0, 15, 0, 0, 0, 0, 0, 7, 0, 1, 99, 0, 0, 0, 2, 0, 1, 103, 0, 2, 104, 105] := by decide +kernel

theorem C58_deleteGroups (groups : List Bytes) (v : UInt16) (_ : v ∈ clientVersions API_Delete_Groups) (corr : UInt32)
    (cid : Option Bytes) :
    encodeDeleteGroupsRequest (reqHeader API_Delete_Groups v corr cid) groups =
      .ok (Kafka.request .deleteGroups v.toNat corr.toNat cid (Kafka.deleteGroupsRequest groups)) := by
  refine encodeSized_ok .deleteGroups rfl (Writes.arr32' _ fun x _ => Writes.str16 x) ?_
  have := strings_length groups 4
  unfold Kafka.deleteGroupsRequest
  omega

example : encodeDeleteGroupsRequest (reqHeader API_Delete_Groups 0 7 (some [99])) [[103], [104, 105]] =
    .ok [0, 0, 0, 22, 0, 42, 0, 0, 0, 0, 0, 7, 0, 1, 99, 0, 0, 0, 2, 0, 1, 103, 0, 2, 104, 105] := by decide +kernel

/-! ### List groups -/

theorem writes_filter (xs : List Bytes) (h : ∀ x ∈ xs, x.length < 2 ^ 63) (hn : xs.length < 2 ^ 63) :
    Writes (encodeFilter true (some xs)) (Kafka.compactArray Kafka.compactString xs) := by
  refine Writes.seq (Writes.cpyO (encodeCompactArrayLength_eq xs.length hn _ ?_))
    (Writes.each xs fun x hx => Writes.cpyO (encodeCompactString_eq x (h x hx)))
  exact Int64.toInt_ofNat_of_lt hn

theorem fits_listGroups (h : RequestHeader) (r : ListGroupsRequest) : Fits (Enc.withO h.isFlexible fun f => .all [
    .when (decide (h.apiVersion ≥ 4)) (encodeFilter f r.statesFilter),
    .when (decide (h.apiVersion ≥ 5)) (encodeFilter f r.typesFilter),
    .when f r.taggedFields.encodeTo]) := by
  refine Fits.withO fun f => ?_
  unfold encodeFilter TaggedFields.encodeTo TaggedField.enc
  fits

theorem compactStrings_length (xs : List Bytes) (a : Nat) (h : ∀ x ∈ xs, x.length < 16383) :
    a + (xs.flatMap Kafka.compactString).length ≤ xs.foldl (fun l v => l + 2 + v.length) a := by
  induction xs generalizing a with
  | nil => simp
  | cons x xs ih =>
    have hx := h x (by simp)
    have := uvarint_length_le 1 (x.length + 1) (by omega)
    have := ih (a + 2 + x.length) (fun y hy => h y (by simp [hy]))
    simp only [List.flatMap_cons, List.length_append, List.foldl_cons, Kafka.compactString]
    omega

theorem foldl_plus {α : Type} (f : α → Nat) (xs : List α) (a b : Nat) :
    xs.foldl (fun l v => l + 2 + f v) (a + b) = xs.foldl (fun l v => l + 2 + f v) a + b := by
  induction xs generalizing a with
  | nil => rfl
  | cons x xs ih =>
    simp only [List.foldl_cons]
    rw [show a + b + 2 + f x = a + 2 + f x + b by omega, ih]

/-- A list-groups request is encoded as the grammar says if it fits into the buffer. -/
theorem listGroups_fits (states types : List Bytes) (v : UInt16) (hv : v ∈ clientVersions API_ListGroups)
    (hs : ∀ x ∈ states, x.length < 2 ^ 63) (ht : ∀ x ∈ types, x.length < 2 ^ 63)
    (hns : states.length < 2 ^ 63) (hnt : types.length < 2 ^ 63)
    (hfit : (Kafka.listGroupsRequest v.toNat states types).length ≤
      ListGroupsRequest.length { statesFilter := some states, typesFilter := some types })
    (corr : UInt32) (cid : Option Bytes) :
    ListGroupsRequest.encode (reqHeader API_ListGroups v corr cid) { statesFilter := some states, typesFilter := some types } =
      .ok (Kafka.request .listGroups v.toNat corr.toNat cid (Kafka.listGroupsRequest v.toNat states types)) := by
  refine encodePatched_ok .listGroups rfl (Writes.withO (reqHeader_flexible .listGroups _ v corr cid rfl) ?_) hfit
  have tag : Writes (TaggedFields.encodeTo none) (Kafka.tagBuffer []) := by
    refine (Writes.seq (Writes.put _) (Writes.each (g := fun _ => []) _ (by simp))).cast ?_
    rw [putUvarint_eq]; simp [Kafka.tagBuffer]
  have hv' : v = 5 ∨ v = 4 ∨ v = 3 ∨ v = 2 ∨ v = 1 ∨ v = 0 := by
    simpa [clientVersions, availableVersions, API_ListGroups] using hv
  have wS := writes_filter states hs hns
  have wT := writes_filter types ht hnt
  rcases hv' with h | h | h | h | h | h <;> subst h
  · exact (Writes.all_cons wS (Writes.all_cons wT (Writes.all_cons tag Writes.all_nil))).cast
      (by simp [Kafka.listGroupsRequest])
  · exact (Writes.all_cons wS (Writes.all_cons Writes.nop (Writes.all_cons tag Writes.all_nil))).cast
      (by simp [Kafka.listGroupsRequest])
  · exact (Writes.all_cons Writes.nop (Writes.all_cons Writes.nop (Writes.all_cons tag Writes.all_nil))).cast
      (by simp [Kafka.listGroupsRequest])
  all_goals
    exact (Writes.all_cons Writes.nop (Writes.all_cons Writes.nop (Writes.all_cons Writes.nop Writes.all_nil))).cast
      (by simp [Kafka.listGroupsRequest])

/-- C58 for list-groups, with filter strings shorter than 16383 bytes and fewer than 2^28 of them.
Missing: longer filter strings, for which the buffer may be too small (`C58_violated_listGroups`). -/
theorem C58_listGroups_partial (states types : List Bytes) (v : UInt16) (hv : v ∈ clientVersions API_ListGroups)
    (hs : ∀ x ∈ states, x.length < 16383) (ht : ∀ x ∈ types, x.length < 16383)
    (hns : states.length + 1 < 2 ^ 28) (hnt : types.length + 1 < 2 ^ 28) (corr : UInt32) (cid : Option Bytes) :
    ListGroupsRequest.encode (reqHeader API_ListGroups v corr cid) { statesFilter := some states, typesFilter := some types } =
      .ok (Kafka.request .listGroups v.toNat corr.toNat cid (Kafka.listGroupsRequest v.toNat states types)) := by
  refine listGroups_fits states types v hv (fun x hx => by have := hs x hx; omega) (fun x hx => by have := ht x hx; omega)
    (by omega) (by omega) ?_ corr cid
  have l1 := compactStrings_length states 4 hs
  have l2 := compactStrings_length types
    (states.foldl (fun l v => l + 2 + v.length) 4 + 4) ht
  have u1 := uvarint_length_le 3 (states.length + 1) (by omega)
  have u2 := uvarint_length_le 3 (types.length + 1) (by omega)
  unfold ListGroupsRequest.length Kafka.listGroupsRequest
  simp only [Option.getD_some, TaggedFields.length, Option.getD_none, List.foldl_nil, List.length_append]
  have t0 : (Kafka.tagBuffer []).length = 1 := by decide
  split <;> split <;> split <;> simp only [Kafka.compactArray, List.length_append, List.length_nil, t0] <;> omega

example : ∃ r : Bytes, ListGroupsRequest.encode (reqHeader API_ListGroups 4 7 (some [99]))
    { statesFilter := some [[83, 116, 97, 98, 108, 101]] } = .ok r := ⟨_, rfl⟩

/-- Sixteen filter strings of 16383 bytes do not fit: the request is not encoded. -/
theorem C58_violated_listGroups (corr : UInt32) (cid : Option Bytes) :
    ListGroupsRequest.encode (reqHeader API_ListGroups 5 corr cid)
      { statesFilter := some (List.replicate 16 (List.replicate 16383 65)) } ≠
      .ok (Kafka.request .listGroups (5 : UInt16).toNat corr.toNat cid
        (Kafka.listGroupsRequest 5 (List.replicate 16 (List.replicate 16383 65)) [])) := by
  refine encodePatched_bad .listGroups rfl (fits_listGroups _ _) ?_
  have hu : (Kafka.uvarint 16384).length = 3 := by decide
  have hu2 : (Kafka.uvarint 17).length = 1 := by decide
  have hu1 : (Kafka.uvarint 1).length = 1 := by decide
  have hc : (Kafka.compactString (List.replicate 16383 65)).length = 16386 := by
    simp only [Kafka.compactString, List.length_append, List.length_replicate, hu]
  have hr : List.replicate 16 (List.replicate 16383 (65 : UInt8)) =
    (let a := List.replicate 16383 (65 : UInt8); [a, a, a, a, a, a, a, a, a, a, a, a, a, a, a, a]) := rfl
  have t0 : (Kafka.tagBuffer []).length = 1 := by decide
  simp only [ListGroupsRequest.length, Option.getD_some, TaggedFields.length, Option.getD_none, List.foldl_nil,
    Kafka.listGroupsRequest, List.length_append, Kafka.compactArray]
  rw [hr]
  simp only [List.foldl_cons, List.foldl_nil, List.length_replicate, List.flatMap_cons, List.flatMap_nil,
    List.length_append, List.length_cons, List.length_nil]
  rw [if_pos (by decide), if_pos (by decide), if_pos (by decide), t0]
  simp only [List.length_append, hc, hu1, hu2, List.length_nil]
  decide

/-! ## C59 -/

def OffsetCommitPartition.wire (p : OffsetCommitPartition) : Kafka.CommitPartition :=
  { partition := p.partitionID.toInt, offset := p.offset.toInt, metadata := p.metadata }

def OffsetCommitTopic.wire (t : OffsetCommitTopic) : Bytes × List Kafka.CommitPartition :=
  (t.topic, t.partitions.map OffsetCommitPartition.wire)

theorem foldl_congr_len {α : Type} {f : Nat → α → Nat} {len : α → Nat} (xs : List α) (a : Nat)
    (h : ∀ l, ∀ x ∈ xs, f l x = l + len x) : xs.foldl f a = a + (xs.map len).sum := by
  induction xs generalizing a with
  | nil => simp
  | cons x xs ih =>
    rw [List.foldl_cons, h a x (by simp), ih _ (fun l y hy => h l y (by simp [hy]))]
    simp; omega

theorem C59_offsetCommit (r : OffsetCommitRequest) (v : UInt16) (hv : v ∈ clientVersions API_OffsetCommitRequest)
    (corr : UInt32) (cid : Option Bytes) :
    r.encode (reqHeader API_OffsetCommitRequest v corr cid) = .ok (Kafka.request .offsetCommit v.toNat corr.toNat cid
      (Kafka.offsetCommitRequest v.toNat r.groupID r.generationID.toInt r.memberID r.retentionTime.toInt
        (r.topics.map OffsetCommitTopic.wire))) := by
  have hp : ∀ p : OffsetCommitPartition, Writes p.enc ((fun p : Kafka.CommitPartition =>
      Kafka.int32 p.partition ++ Kafka.int64 p.offset ++ Kafka.string p.metadata) p.wire) := by
    intro p
    refine Writes.cast writes![Writes.i32 _, Writes.i64 _, Writes.str16 _] ?_
    simp [OffsetCommitPartition.wire]
  have ht : ∀ t : OffsetCommitTopic, Writes (Enc.all [.str16 t.topic, .arr32 OffsetCommitPartition.enc t.partitions])
      ((fun t : Bytes × List Kafka.CommitPartition => Kafka.string t.1 ++ Kafka.array (fun p : Kafka.CommitPartition =>
      Kafka.int32 p.partition ++ Kafka.int64 p.offset ++ Kafka.string p.metadata) t.2) t.wire) := by
    intro t
    exact (Writes.all_cons (Writes.str16 _) (Writes.all1 (Writes.arr32 _ fun p _ => hp p))).cast rfl
  have hv' : v = 2 ∨ v = 0 := by
    simpa [clientVersions, availableVersions, API_OffsetCommitRequest] using hv
  have hl : ∀ a, r.topics.foldl (fun l t => t.partitions.foldl (fun l p => l + (4 + 8 + 2 + p.metadata.length))
      (l + (2 + t.topic.length) + 4)) a + 4 = a + (Kafka.array (fun t : Bytes × List Kafka.CommitPartition =>
      Kafka.string t.1 ++ Kafka.array (fun p : Kafka.CommitPartition =>
      Kafka.int32 p.partition ++ Kafka.int64 p.offset ++ Kafka.string p.metadata) t.2)
      (r.topics.map OffsetCommitTopic.wire)).length := by
    intro a
    refine foldl_array _ _ fun l t _ => ?_
    have := foldl_array (k := OffsetCommitPartition.wire) (g := fun p : Kafka.CommitPartition =>
      Kafka.int32 p.partition ++ Kafka.int64 p.offset ++ Kafka.string p.metadata) t.partitions (l + (2 + t.topic.length) + 4)
      (f := fun l p => l + (4 + 8 + 2 + p.metadata.length)) (by
        intros; simp [OffsetCommitPartition.wire]; omega)
    simp only [OffsetCommitTopic.wire, List.length_append, string_length]
    omega
  refine encodeSized_ok .offsetCommit rfl (Writes.cast writes![Writes.str16 _,
    Writes.when fun _ => writes![Writes.i32 _, Writes.str16 _, Writes.i64 _],
    Writes.arr32 (g := fun t : Bytes × List Kafka.CommitPartition => Kafka.string t.1 ++
      Kafka.array (fun p : Kafka.CommitPartition =>
      Kafka.int32 p.partition ++ Kafka.int64 p.offset ++ Kafka.string p.metadata) t.2)
      (k := OffsetCommitTopic.wire) _ fun t _ => ht t] ?_) ?_
  · rcases hv' with h | h <;> subst h <;> simp [Kafka.offsetCommitRequest, reqHeader]
  · rcases hv' with h | h <;> subst h <;>
      simp only [OffsetCommitRequest.length, reqHeader, Kafka.offsetCommitRequest, List.length_append, string_length]
    · have := hl (2 + r.groupID.length + (4 + 2 + r.memberID.length + 8) + 4)
      simp at *; omega
    · have := hl (2 + r.groupID.length + 4)
      simp at *; omega

example : OffsetCommitRequest.encode (reqHeader API_OffsetCommitRequest 2 7 (some [99])) ⟨[103], 5, [109], -1,
      [⟨[116], [⟨3, 42, []⟩]⟩]⟩ =
    .ok [0, 0, 0, 54, 0, 8, 0, 2, 0, 0, 0, 7, 0, 1, 99, 0, 1, 103, 0, 0, 0, 5, 0, 1, 109, 255, 255, 255, 255, 255,
      255, 255, 255, 0, 0, 0, 1, 0, 1, 116, 0, 0, 0, 1, 0, 0, 0, 3, 0, 0, 0, 0, 0, 0, 0, 42, 0, 0] := by decide +kernel

def TopicPids.wire (t : TopicPids) : Bytes × List Int := (t.topic, t.partitions.map Int32.toInt)

theorem TopicPids.writes (t : TopicPids) :
    Writes t.enc ((fun t : Bytes × List Int => Kafka.string t.1 ++ Kafka.array Kafka.int32 t.2) t.wire) :=
  (Writes.all_cons (Writes.str16 _) (Writes.all1 (Writes.arr32 _ fun p _ => Writes.i32 p))).cast rfl

theorem TopicPids.length_eq (t : TopicPids) :
    ((fun t : Bytes × List Int => Kafka.string t.1 ++ Kafka.array Kafka.int32 t.2) t.wire).length =
      (2 + t.topic.length) + (4 + 4 * t.partitions.length) := by
  simp [TopicPids.wire]

theorem C59_offsetFetch (r : OffsetFetchRequest) (v : UInt16) (_ : v ∈ clientVersions API_OffsetFetchRequest)
    (corr : UInt32) (cid : Option Bytes) :
    r.encode (reqHeader API_OffsetFetchRequest v corr cid) = .ok (Kafka.request .offsetFetch v.toNat corr.toNat cid
      (Kafka.offsetFetchRequest r.groupID (r.topics.map TopicPids.wire))) := by
  refine encodeSized_ok .offsetFetch rfl (Writes.cast (Writes.all_cons (Writes.str16 _)
    (Writes.all1 (Writes.arr32 _ fun t _ => t.writes))) rfl) ?_
  have := foldl_array (k := TopicPids.wire)
    (g := fun t : Bytes × List Int => Kafka.string t.1 ++ Kafka.array Kafka.int32 t.2)
    (f := fun l t => l + (2 + t.topic.length) + (4 + 4 * t.partitions.length)) r.topics (2 + r.groupID.length + 4)
    (by intro l t _; rw [TopicPids.length_eq]; omega)
  simp only [Kafka.offsetFetchRequest, List.length_append, string_length] at *
  omega

example : OffsetFetchRequest.encode (reqHeader API_OffsetFetchRequest 1 7 (some [99])) ⟨[103], [⟨[116], [0, 1]⟩]⟩ =
    .ok [0, 0, 0, 33, 0, 9, 0, 1, 0, 0, 0, 7, 0, 1, 99, 0, 1, 103, 0, 0, 0, 1, 0, 1, 116, 0, 0, 0, 2, 0, 0, 0, 0, 0,
      0, 0, 1] := by decide +kernel

def OffsetInfo.wire (p : OffsetInfo) : Kafka.ListOffsetsPartition :=
  { partition := p.partitionID.toInt, time := p.time.toInt, maxOffsets := p.maxNumberOfOffsets.toNat }

def offsetsTopicWire (t : Bytes × List OffsetInfo) : Bytes × List Kafka.ListOffsetsPartition :=
  (t.1, t.2.map OffsetInfo.wire)

/-- The client id is never nil: `NewOffsetsRequest` takes it as a string (offset_request.go:19-26). -/
theorem C59_listOffsets (r : OffsetsRequest) (v : UInt16) (hv : v ∈ clientVersions API_OffsetRequest)
    (corr : UInt32) (cid : Bytes) :
    r.encode (reqHeader API_OffsetRequest v corr (some cid)) v = .ok (Kafka.request .listOffsets v.toNat corr.toNat (some cid)
      (Kafka.listOffsetsRequest v.toNat r.replicaId.toInt (r.requestInfo.map offsetsTopicWire))) := by
  have hv' : v = 1 ∨ v = 0 := by
    simpa [clientVersions, availableVersions, API_OffsetRequest] using hv
  let gp := fun p : Kafka.ListOffsetsPartition => Kafka.int32 p.partition ++ Kafka.int64 p.time ++
    (if v.toNat = 0 then Kafka.int32 p.maxOffsets else [])
  let gt := fun t : Bytes × List Kafka.ListOffsetsPartition => Kafka.string t.1 ++ Kafka.array gp t.2
  have hp : ∀ p : OffsetInfo, Writes (p.enc v) (gp p.wire) := by
    intro p
    refine Writes.cast writes![Writes.i32 _, Writes.i64 _, Writes.when fun _ => Writes.u32 _] ?_
    rcases hv' with h | h <;> subst h <;> simp [OffsetInfo.wire, gp]
  have ht : ∀ t : Bytes × List OffsetInfo, Writes (Enc.all [.str16 t.1, .arr32 (OffsetInfo.enc v) t.2])
      (gt (offsetsTopicWire t)) := by
    intro t
    exact (Writes.all_cons (Writes.str16 _) (Writes.all1 (Writes.arr32 _ fun p _ => hp p))).cast rfl
  have hlp : ∀ p, (gp p).length ≤ 16 := by
    intro p; simp only [gp, List.length_append, int32_length, int64_length]; split <;> simp
  have hlt : ∀ t : Bytes × List OffsetInfo, (gt (offsetsTopicWire t)).length ≤ 2 + t.1.length + 4 + t.2.length * 16 := by
    intro t
    have : ∀ xs : List Kafka.ListOffsetsPartition, (xs.flatMap gp).length ≤ xs.length * 16 := by
      intro xs
      induction xs with
      | nil => simp
      | cons x xs ih => have := hlp x; rw [List.flatMap_cons, List.length_append, List.length_cons]; omega
    have := this (t.2.map OffsetInfo.wire)
    simp only [List.length_map] at this
    simp only [gt, offsetsTopicWire, List.length_append, string_length, array_length]
    omega
  have hl : ∀ (ts : List (Bytes × List OffsetInfo)) (a : Nat), a + ((ts.map offsetsTopicWire).flatMap gt).length ≤
      ts.foldl (fun l t => l + (2 + t.1.length + 4 + t.2.length * 16)) a := by
    intro ts
    induction ts with
    | nil => simp
    | cons t ts ih =>
      intro a
      have h1 := hlt t
      have h2 := ih (a + (2 + t.1.length + 4 + t.2.length * 16))
      simp only [List.map_cons, List.flatMap_cons, List.length_append, List.foldl_cons]
      omega
  have hb : Kafka.listOffsetsRequest v.toNat r.replicaId.toInt (r.requestInfo.map offsetsTopicWire) =
      Kafka.int32 r.replicaId.toInt ++ Kafka.array gt (r.requestInfo.map offsetsTopicWire) := by
    rcases hv' with h | h <;> subst h <;> simp [Kafka.listOffsetsRequest, gt, gp]
  have hh : (hdr .listOffsets v corr (some cid)).length = 10 + cid.length := by
    rcases hv' with h | h <;> subst h <;>
      simp [hdr, Kafka.requestHeader, Kafka.Api.requestHeaderVersion, Kafka.Api.flexible, Kafka.Api.firstFlexible,
        Kafka.nullableString] <;> omega
  unfold OffsetsRequest.encode
  simp only [reqHeader]
  have hw := Writes.all_cons (Writes.put [0, 0, 0, 0]) (Writes.all_cons
    (reqHeader_writes .listOffsets API_OffsetRequest v corr (some cid) rfl)
    (Writes.all_cons (Writes.i32 r.replicaId) (Writes.all1 (Writes.arr32 (g := gt) r.requestInfo fun t _ => ht t))))
  rw [show ({ apiKey := API_OffsetRequest, apiVersion := v, correlationID := corr, clientID := some cid } : RequestHeader)
    = reqHeader API_OffsetRequest v corr (some cid) from rfl]
  rw [encodeCut_of_writes hw]
  · simp only [Out.bind_ok]
    rw [patch_ok, ← hb]; rfl
  · have := hl r.requestInfo (8 + 2 + cid.length + 4 + 4)
    simp only [List.length_append, hh, int32_length, array_length, List.length_cons, List.length_nil]
    omega

example : OffsetsRequest.encode (reqHeader API_OffsetRequest 1 7 (some [99])) 1 ⟨-1, [([116], [⟨0, -2, 1⟩])]⟩ =
    .ok [0, 0, 0, 38, 0, 2, 0, 1, 0, 0, 0, 7, 0, 1, 99, 255, 255, 255, 255, 0, 0, 0, 1, 0, 1, 116, 0, 0, 0, 1, 0, 0,
      0, 0, 255, 255, 255, 255, 255, 255, 255, 254] := by decide +kernel

/-! ## C60 -/

theorem C60_metadata (r : MetadataRequest) (v : UInt16) (hv : v ∈ clientVersions API_MetadataRequest) (corr : UInt32)
    (cid : Option Bytes) :
    r.encode (reqHeader API_MetadataRequest v corr cid) v = .ok (Kafka.request .metadata v.toNat corr.toNat cid
      (Kafka.metadataRequest v.toNat r.topics r.allowAutoTopicCreation)) := by
  have hv' : v = 7 ∨ v = 4 ∨ v = 1 := by
    simpa [clientVersions, availableVersions, API_MetadataRequest] using hv
  have ht : Writes (Enc.i32 (match r.topics with | none => -1 | some ts => (UInt32.ofNat ts.length).toInt32))
      (Kafka.int32 (match r.topics with | none => -1 | some ts => ts.length)) := by
    cases r.topics with
    | none => exact Writes.i32 _
    | some ts => exact (Writes.put _).cast (be32_ofNat _)
  refine encodeSized_ok .metadata rfl (Writes.cast (Writes.all_cons ht (Writes.all_cons (Writes.each _ fun x _ => Writes.str16 x)
    (Writes.all1 (Writes.when fun _ => Writes.bool _)))) ?_) ?_
  · rcases hv' with h | h | h <;> subst h <;> cases r.topics <;>
      simp [Kafka.metadataRequest, Kafka.nullableArray, Kafka.array]
  · have := strings_length (r.topics.getD []) 4
    rcases hv' with h | h | h <;> subst h <;> cases ht : r.topics <;> simp only [ht, Option.getD] at this <;>
      simp [Kafka.metadataRequest, Kafka.nullableArray, Kafka.array, Kafka.boolean] at * <;> omega

example : MetadataRequest.encode (reqHeader API_MetadataRequest 7 7 (some [99])) 7 ⟨some [[116]], true⟩ =
    .ok [0, 0, 0, 19, 0, 3, 0, 7, 0, 0, 0, 7, 0, 1, 99, 0, 0, 0, 1, 0, 1, 116, 1] := by decide +kernel

theorem C60_apiVersions (v : UInt16) (_ : v ∈ clientVersions API_ApiVersions) (corr : UInt32) (cid : Option Bytes) :
    encodeApiVersionsRequest (reqHeader API_ApiVersions v corr cid) =
      .ok (Kafka.request .apiVersions v.toNat corr.toNat cid Kafka.apiVersionsRequest) :=
  encodeSized_ok .apiVersions rfl Writes.nop rfl

example : encodeApiVersionsRequest (reqHeader API_ApiVersions 0 7 (some [99])) =
    .ok [0, 0, 0, 11, 0, 18, 0, 0, 0, 0, 0, 7, 0, 1, 99] := by decide +kernel

theorem C60_saslHandshake (mechanism : Bytes) (v : UInt16) (_ : v ∈ clientVersions API_SaslHandshake) (corr : UInt32)
    (cid : Option Bytes) :
    encodeSaslHandshakeRequest (reqHeader API_SaslHandshake v corr cid) mechanism =
      .ok (Kafka.request .saslHandshake v.toNat corr.toNat cid (Kafka.saslHandshakeRequest mechanism)) :=
  encodeSized_ok .saslHandshake rfl (Writes.str16 _) (by simp [Kafka.saslHandshakeRequest])

example : encodeSaslHandshakeRequest (reqHeader API_SaslHandshake 0 7 (some [99])) [80, 76] =
    .ok [0, 0, 0, 15, 0, 17, 0, 0, 0, 0, 0, 7, 0, 1, 99, 0, 2, 80, 76] := by decide +kernel

theorem C60_saslAuthenticate (token : Bytes) (v : UInt16) (_ : v ∈ clientVersions API_SaslAuthenticate) (corr : UInt32)
    (cid : Option Bytes) :
    encodeSaslAuthenticateRequest (reqHeader API_SaslAuthenticate v corr cid) token =
      .ok (Kafka.request .saslAuthenticate v.toNat corr.toNat cid (Kafka.saslAuthenticateRequest token)) :=
  encodeSized_ok .saslAuthenticate rfl (Writes.bytes32 _) (by simp [Kafka.saslAuthenticateRequest])

example : encodeSaslAuthenticateRequest (reqHeader API_SaslAuthenticate 0 7 (some [99])) [0, 117, 0, 112] =
    .ok [0, 0, 0, 19, 0, 36, 0, 0, 0, 0, 0, 7, 0, 1, 99, 0, 0, 0, 4, 0, 117, 0, 112] := by decide +kernel

end Healer
