import Verif.Props.Client
import Verif.Props.Consumer2
import Verif.Props.Response
import Verif.Props.Response2
import Verif.Props.Response3

/-!
# Faults shown for all inputs: responses, the client's own calls, the size of fetches

As `Verif.Props.Always`, for further properties.
-/

namespace Healer

open Brokers

/-! ## C66: groups -/

/-- C66 fails for every error code a list-groups response carries: neither the decoder nor `Error()` reports it. -/
theorem C66_violated_every_listed_error (v : UInt16) (hv : v ∈ clientVersions API_ListGroups) (corr : UInt32)
    (htags : TaggedFields) (hht : htags.Fits) (throttle : Int32) (error : UInt16) (gs : List ListedGroup)
    (tags : TaggedFields) (htg : tags.Fits)
    (hg : ∀ g ∈ gs, Kafka.IsString g.groupID ∧ Kafka.IsString g.protocolType ∧ Kafka.IsString g.groupState ∧ Kafka.IsString g.groupType ∧
      g.taggedFields.Fits)
    (hl : (Kafka.response .listGroups v.toNat corr.toNat htags.wire (Kafka.listGroupsResponse v.toNat throttle.toInt
      error.toNat (gs.map ListedGroup.wire) tags.wire)).length < 2 ^ 31) :
    ∃ r, newListGroupsResponse v (Kafka.response .listGroups v.toNat corr.toNat htags.wire
        (Kafka.listGroupsResponse v.toNat throttle.toInt error.toNat (gs.map ListedGroup.wire) tags.wire)) = .ok (r, none) ∧
      r.errorCode = error ∧ r.error = none := by
  obtain ⟨r, h1, -, -, h2, -⟩ := C66_listGroups_partial v hv corr htags hht throttle error gs tags htg hg hl
  exact ⟨r, h1, h2, rfl⟩

/-- C66 fails for every subscription: a described member's metadata is never returned. -/
theorem C66_violated_every_metadata (r : DescribeGroupsResponse) (h : ∀ g ∈ r.groups, g.Sent)
    (hl : (Kafka.response .describeGroups 0 r.correlationID.toNat []
      (Kafka.describeGroupsResponse (r.groups.map GroupDetail.wire))).length < 2 ^ 31) :
    ∃ r' e, newDescribeGroupsResponse (Kafka.response .describeGroups 0 r.correlationID.toNat []
        (Kafka.describeGroupsResponse (r.groups.map GroupDetail.wire))) = .ok (r', e) ∧
      r'.groups.map (fun g => g.members.map MemberDetail.memberID) = r.groups.map (fun g => g.members.map MemberDetail.memberID) ∧
      ∀ g ∈ r'.groups, ∀ m ∈ g.members, m.memberMetadata = [] := by
  obtain ⟨r', e, h1, h2, -⟩ := C66_describeGroups_partial r h hl
  refine ⟨r', e, h1, ?_, ?_⟩
  · rw [h2]
    simp [GroupDetail.dropMetadata, MemberDetail.dropMetadata, Function.comp_def]
  · rw [h2]
    simp only [List.mem_map]
    rintro g ⟨g0, -, rfl⟩ m hm
    simp only [GroupDetail.dropMetadata, List.mem_map] at hm
    obtain ⟨m0, -, rfl⟩ := hm
    rfl

/-! ## C67: offsets -/

/-- C67 fails for every version-1 list-offsets response: the throttle time told, which the response does not have, is the number of topics. -/
theorem C67_violated_every_throttle (c : UInt32) (topics : AMap Bytes (List PartitionOffset)) (hd : (AMap.keys topics).Nodup)
    (h : ∀ t ∈ topics, Kafka.IsString t.1)
    (hl : (Kafka.response .listOffsets 1 c.toNat [] (Kafka.listOffsetsResponse 1
      (topics.map fun t => (t.1, t.2.map PartitionOffset.wire)))).length < 2 ^ 31) :
    ∃ r, newOffsetsResponse 1 (Kafka.response .listOffsets 1 c.toNat [] (Kafka.listOffsetsResponse 1
        (topics.map fun t => (t.1, t.2.map PartitionOffset.wire)))) = .ok (r, none) ∧
      r.throttleTimeMs.toInt = topics.length := by
  obtain ⟨r, h1, -, -, -, h2⟩ := C67_listOffsets_partial 1 (by decide) c topics hd h hl
  refine ⟨r, h1, ?_⟩
  rw [h2, if_pos (by decide)]
  suffices hn : topics.length < 2 ^ 31 by
    have e : (UInt32.ofNat topics.length).toInt32 = Int32.ofInt (topics.length : Int) := by
      rw [← Int32.toBitVec_inj]
      apply BitVec.eq_of_toNat_eq
      simp
    rw [e]
    exact toInt32_of_spec _ (by omega)
  have := flatMap_length_ge (enc := fun t : Bytes × List Kafka.ListedOffset => Kafka.string t.1 ++
    Kafka.array (fun p : Kafka.ListedOffset => Kafka.int32 p.partition ++ Kafka.int16 p.error ++
        (if 1 = 0 then Kafka.array Kafka.int64 p.oldOffsets else Kafka.int64 p.time ++ Kafka.int64 p.offset)) t.2)
    (topics.map fun t => (t.1, t.2.map PartitionOffset.wire)) (by nonempty)
  rw [List.length_map] at this
  rw [response_plain _ _ _ _ _ rfl] at hl
  unfold Kafka.frame Kafka.listOffsetsResponse Kafka.array at hl
  unfold Kafka.array at this
  simp only [List.length_append] at hl
  omega

theorem SPanics.forN {α β : Type} {c : Cur β} {enc : α → Bytes} {g : α → β} {rest : Bytes} (k : Nat) (hp : SPanics c rest) :
    ∀ pre : List α, (∀ x ∈ pre, SReads c (enc x) (g x)) → SPanics (Cur.forN (pre.length + 1 + k) c) (pre.flatMap enc ++ rest)
  | [], _ => by
    rw [show ([] : List α).length + 1 + k = k + 1 by simp; omega]
    exact SPanics.bind hp
  | x :: xs, h => by
    rw [show (x :: xs).length + 1 + k = (xs.length + 1 + k) + 1 by simp; omega, List.flatMap_cons, List.append_assoc]
    exact SReads.bind_panics (h x (by simp)) (SPanics.bind (SPanics.forN k hp xs fun y hy => h y (by simp [hy])))

/-- an array in which an element cannot be read -/
theorem SPanics.arr32 {α β γ : Type} {c : Cur β} {enc : γ → Bytes} (f : α → γ) {g : α → β} (pre : List α) (x : γ) (post : List γ) (tl : Bytes)
    (hn : (Kafka.array enc (pre.map f ++ x :: post)).length < 2 ^ 31) (h0 : ∀ x, 0 < (enc x).length)
    (hp : SPanics c (enc x ++ (post.flatMap enc ++ tl))) (h : ∀ y ∈ pre, SReads c (enc (f y)) (g y)) :
    SPanics (rdArr32 c) (Kafka.array enc (pre.map f ++ x :: post) ++ tl) := by
  unfold Kafka.array at hn ⊢
  have hge := flatMap_length_ge (pre.map f ++ x :: post) h0
  rw [List.length_append] at hn
  rw [List.append_assoc]
  refine SReads.bind_panics (creads_len32 _).s ?_
  rw [toNat_len32 _ (by omega)]
  rw [show (pre.map f ++ x :: post).length = pre.length + 1 + post.length by simp; omega, List.flatMap_append, List.flatMap_map,
    List.flatMap_cons, List.append_assoc, List.append_assoc]
  exact SPanics.forN _ hp pre h

theorem array_tail_le {α : Type} (enc : α → Bytes) (pre post : List α) (x : α) :
    (enc x).length + (post.flatMap enc).length ≤ (Kafka.array enc (pre ++ x :: post)).length := by
  unfold Kafka.array
  rw [List.flatMap_append, List.flatMap_cons]
  simp only [List.length_append]
  omega

theorem rdStr16_null {rest : Bytes} (h : rest.length < 65535) : SPanics rdStr16 (Kafka.nullableString none ++ rest) := by
  refine SReads.bind_panics (a := (65535 : UInt16)) (sreads_u16 65535) ?_
  intro _ pre
  simp only [rdBytes, sliceTo]
  rw [if_neg]
  simp only [List.length_append]
  have : (((65535 : UInt16).toNat : Nat) : Int) = 65535 := rfl
  omega

/-- C67 fails for every offset-fetch response with null metadata (and less than 64 KiB after it): the decoder crashes, whatever
else the response says. -/
theorem C67_violated_every_null_metadata (v : UInt16) (hv : v ∈ clientVersions API_OffsetFetchRequest) (corr : UInt32)
    (before : List (Bytes × List FetchedOffset)) (name : Bytes) (ps : List FetchedOffset) (pid : Int32) (offset : Int64) (error : Int)
    (ps' : List Kafka.FetchedOffset) (rest : List (Bytes × List Kafka.FetchedOffset)) (hname : Kafka.IsString name)
    (hb : ∀ t ∈ before, Kafka.IsString t.1 ∧ ∀ p ∈ t.2, Kafka.IsString p.metadata) (hps : ∀ p ∈ ps, Kafka.IsString p.metadata)
    (topics : List (Bytes × List Kafka.FetchedOffset)) (ht : topics = before.map (fun t => (t.1, t.2.map FetchedOffset.wire)) ++
      (name, ps.map FetchedOffset.wire ++ ⟨pid.toInt, offset.toInt, none, error⟩ :: ps') :: rest)
    (hl : (Kafka.response .offsetFetch v.toNat corr.toNat [] (Kafka.offsetFetchResponse topics)).length < 65535) :
    newOffsetFetchResponse (Kafka.response .offsetFetch v.toNat corr.toNat [] (Kafka.offsetFetchResponse topics)) = .panic := by
  have hr : Kafka.Api.responseHeaderVersion .offsetFetch v.toNat = 0 := by
    have : v = 1 ∨ v = 0 := by simpa [clientVersions, availableVersions, API_OffsetFetchRequest] using hv
    rcases this with rfl | rfl <;> rfl
  rw [response_plain _ _ _ _ _ hr] at hl ⊢
  have one : ∀ q : FetchedOffset, Kafka.IsString q.metadata → SReads rdFetchedOffset
      (Kafka.int32 q.wire.partition ++ Kafka.int64 q.wire.offset ++ Kafka.nullableString q.wire.metadata ++ Kafka.int16 q.wire.error) q := by
    intro q hq
    simp only [List.append_assoc]
    exact .bind (sreads_i32 _) <| .bind (sreads_i64 _) <| .bind (sreads_str16 hq) <|
        .bind_pure (g := fun x => FetchedOffset.mk _ _ _ x) (sreads_i16 _)
  have hf : (Kafka.frame (Kafka.int32 corr.toNat ++ Kafka.offsetFetchResponse topics)).length =
      8 + (Kafka.offsetFetchResponse topics).length := by
    simp only [Kafka.frame, List.length_append, int32_length]
    omega
  refine respond_panics (SReads.bind_panics (sreads_u32 _) ?_) (by omega)
  refine SPanics.bind ?_
  have hl : (Kafka.offsetFetchResponse topics).length < 65535 := by omega
  subst ht
  unfold Kafka.offsetFetchResponse at hl ⊢
  rw [← List.append_nil (Kafka.array _ _)]
  refine SPanics.arr32 (fun t : Bytes × List FetchedOffset => (t.1, t.2.map FetchedOffset.wire)) (g := id) _ _ _ _ (by omega) (by nonempty) ?_ ?_
  · have h1 := Nat.lt_of_le_of_lt (array_tail_le _ _ _ _) hl
    simp only [List.length_append] at h1
    simp only [List.append_assoc]
    refine SReads.bind_panics (sreads_str16 hname) (SPanics.bind ?_)
    refine SPanics.arr32 (enc := fun p : Kafka.FetchedOffset => Kafka.int32 p.partition ++ (Kafka.int64 p.offset ++ (Kafka.nullableString p.metadata ++ Kafka.int16 p.error)))
      FetchedOffset.wire (g := id) _ _ _ _ ?_ (by nonempty) ?_ ?_
    · simp only [List.append_assoc] at h1
      omega
    · have h2 := array_tail_le (fun p : Kafka.FetchedOffset => Kafka.int32 p.partition ++ Kafka.int64 p.offset ++ Kafka.nullableString p.metadata ++ Kafka.int16 p.error)
        (ps.map FetchedOffset.wire) ps' ⟨pid.toInt, offset.toInt, none, error⟩
      simp only [List.append_assoc, List.append_nil, List.length_append] at h1 h2 ⊢
      refine SReads.bind_panics (sreads_i32 _) <| SReads.bind_panics (sreads_i64 _) <| SPanics.bind <| rdStr16_null ?_
      simp only [List.length_append]
      omega
    · intro p hp
      have := one p (hps p hp)
      simp only [List.append_assoc] at this
      exact this
  · intro t ht
    refine .bind (sreads_str16 (hb t ht).1) (.bind_pure (g := fun x => (_, x)) ?_)
    exact sreads_arr32 FetchedOffset.wire _ (by nonempty) fun p hp => one p ((hb t ht).2 p hp)

example : newOffsetFetchResponse (Kafka.response .offsetFetch 1 7 [] (Kafka.offsetFetchResponse
    [([116], [⟨0, 5, some [], 0⟩, ⟨1, -1, none, 3⟩]), ([117], [])])) = .panic := by decide +kernel

/-! ## C70 to C74: answers to admin requests -/

/-- C70 fails for every describe-log-dirs response: the number told in place of the correlation id is the length of the response, whichever
request it answers. -/
theorem C70_violated_every_logDirs (corr : UInt32) (throttle : Int32) (results : List LogDirResult)
    (h : ∀ d ∈ results, Kafka.IsString d.logDir ∧ ∀ t ∈ d.topics, Kafka.IsString t.1)
    (hl : (Kafka.response .describeLogDirs 0 corr.toNat [] (Kafka.describeLogDirsResponse throttle.toInt
      (results.map LogDirResult.wire))).length < 2 ^ 31) :
    ∃ r, newDescribeLogDirsResponse (Kafka.response .describeLogDirs 0 corr.toNat [] (Kafka.describeLogDirsResponse
        throttle.toInt (results.map LogDirResult.wire))) = .ok (r, none) ∧
      r.coordinatorID.toNat + 4 = (Kafka.response .describeLogDirs 0 corr.toNat [] (Kafka.describeLogDirsResponse throttle.toInt
        (results.map LogDirResult.wire))).length := by
  obtain ⟨r, h1, -, -, -, h2⟩ := C70_describeLogDirs_partial corr throttle results h hl
  refine ⟨r, h1, ?_⟩
  rw [h2]
  rw [response_plain _ _ _ _ _ rfl] at hl ⊢
  simp only [Kafka.frame, List.length_append, int32_length] at hl ⊢
  rw [UInt32.toNat_ofNat']
  omega

/-- C70 fails for every create-partitions response whose first failure has no message: asking for the error crashes the client. -/
theorem C70_violated_every_unexplained (r : CreatePartitionsResponse)
    (hl : (Kafka.response .createPartitions 2 r.correlationID.toNat [] (Kafka.createPartitionsResponse 2
      r.throttleTimeMS.toInt (r.results.map CreatePartitionsResult.wire))).length < 2 ^ 31)
    (before rest : List CreatePartitionsResult) (x : CreatePartitionsResult) (hr : r.results = before ++ x :: rest)
    (hb : ∀ y ∈ before, y.errorCode = 0) (hx : x.errorCode ≠ 0) (hm : x.errorMessage = none) :
    newCreatePartitionsResponse 2 (Kafka.response .createPartitions 2 r.correlationID.toNat []
      (Kafka.createPartitionsResponse 2 r.throttleTimeMS.toInt (r.results.map CreatePartitionsResult.wire))) = .ok (r, none) ∧
    r.error = .panic := by
  refine ⟨C70_createPartitions_v2 r hl, ?_⟩
  unfold CreatePartitionsResponse.error
  have hf : r.results.find? (fun x => decide (x.errorCode ≠ 0)) = some x := by
    rw [hr, List.find?_append, List.find?_eq_none.2 (by simpa using hb)]
    simp [hx]
  rw [hf]
  simp only [hm]

/-- C71 fails for incremental alter configs as well, for every response: the client sees the first result as often as there are
resources, and no error if the first one succeeded. -/
theorem C71_violated_every_incremental (corr throttle : UInt32) (null : Bool) (r : AlteredResource) (h : r.Fits)
    (hnull : null = true → r.errorMessage = []) (rest : List Kafka.AlteredConfig)
    (hl : (Kafka.response .incrementalAlterConfigs 0 corr.toNat [] (Kafka.alterConfigsResponse throttle.toNat
      (r.wire null :: rest))).length < 2 ^ 31) :
    newIncrementalAlterConfigsResponse (Kafka.response .incrementalAlterConfigs 0 corr.toNat []
      (Kafka.alterConfigsResponse throttle.toNat (r.wire null :: rest))) =
        .ok (⟨corr, throttle, List.replicate (rest.length + 1) r⟩, none) ∧
    (r.errorCode = 0 → (AlterConfigsResponse.mk corr throttle (List.replicate (rest.length + 1) r)).error = none) := by
  refine ⟨?_, ?_⟩
  · refine alter_replicate rfl rfl corr throttle _ rest r ?_ hl
    have hm : SReads rdStrPos (Kafka.nullableString (if null then none else some r.errorMessage)) r.errorMessage := by
      refine (sreads_strPos (s := if null then none else some r.errorMessage) ?_).cast rfl ?_
      · intro b hb
        cases null <;> simp at hb
        subst hb; exact h.message
      · cases null
        · rfl
        · simp [hnull rfl]
    refine (SReads.bind (sreads_i16 _) <| .bind hm <| .bind (sreads_u8 _) <|
      .bind_pure (g := fun n => AlteredResource.mk _ _ _ n) ((sreads_strPos (s := some r.resourceName) ?_).cast
        (e' := Kafka.string r.resourceName) rfl rfl)).cast ?_ rfl
    · intro b hb; cases hb; exact h.name
    simp [alteredResourceWire, AlteredResource.wire]
  · intro h0
    simp [AlterConfigsResponse.error, (C55_first_error _).1, h0]

/-- C71 fails for every alter-configs response (of less than 64 KiB) whose first resource has no message, as on success: the decoder crashes. -/
theorem C71_violated_every_null (corr throttle : UInt32) (error : Int16) (type : UInt8) (name : Bytes) (rest : List Kafka.AlteredConfig)
    (hl : (Kafka.response .alterConfigs 0 corr.toNat [] (Kafka.alterConfigsResponse throttle.toNat
      (⟨error.toInt, none, type, name⟩ :: rest))).length < 65535) :
    newAlterConfigsResponse (Kafka.response .alterConfigs 0 corr.toNat [] (Kafka.alterConfigsResponse throttle.toNat
      (⟨error.toInt, none, type, name⟩ :: rest))) = .panic := by
  have e : Kafka.response .alterConfigs 0 corr.toNat [] (Kafka.alterConfigsResponse throttle.toNat (⟨error.toInt, none, type, name⟩ :: rest)) =
      Kafka.frame (Kafka.int32 corr.toNat ++ (Kafka.int32 throttle.toNat ++ (Kafka.int32 (rest.length + 1 : Nat) ++
        (Kafka.int16 error.toInt ++ (Kafka.nullableString none ++ ([type] ++ Kafka.string name ++ rest.flatMap alteredResourceWire)))))) := by
    rw [response_plain _ _ _ _ _ rfl]
    change Kafka.frame (_ ++ (_ ++ (_ ++ (_ :: rest).flatMap alteredResourceWire))) = _
    simp only [List.flatMap_cons, List.length_cons, alteredResourceWire, List.append_assoc]
  rw [e] at hl ⊢
  simp only [Kafka.frame, List.length_append] at hl
  have hn : rest.length ≤ (rest.flatMap alteredResourceWire).length :=
    flatMap_length_ge (enc := alteredResourceWire) rest (by unfold alteredResourceWire; nonempty)
  refine respond_panics (SReads.bind_panics (sreads_u32 _) <| SReads.bind_panics (sreads_u32 _) <| SPanics.bind ?_) ?_
  · refine SReads.bind_panics (creads_len32 _).s ?_
    rw [toNat_len32 _ (by omega)]
    refine SPanics.bind (SPanics.keep ?_)
    refine SReads.bind_panics (sreads_i16 _) <| SPanics.bind <| rdStr16_null ?_
    simp only [List.length_append]
    omega
  · simp only [Kafka.frame, List.length_append]
    omega

theorem firstDeref_panic (before rest : List (Int16 × Option Bytes)) (e : Int16) (hb : ∀ y ∈ before, y.1 = 0) (he : e ≠ 0) :
    firstDeref (before ++ (e, none) :: rest) = .panic := by
  unfold firstDeref
  have hf : (before ++ (e, (none : Option Bytes)) :: rest).find? (fun x => decide (x.1 ≠ 0)) = some (e, none) := by
    rw [List.find?_append, List.find?_eq_none.2 (by simpa using hb)]
    simp [he]
  rw [hf]
  rfl

/-- C72 fails for every reassignment whose failure has no message: if the first failing partition is such a one, asking for
the error crashes the client, whatever the response says otherwise. -/
theorem C72_violated_every_unexplained (r : AlterPartitionReassignmentsResponse)
    (before rest : List ReassignedTopic) (t : ReassignedTopic) (ps ps' : List ReassignedPartition) (p : ReassignedPartition)
    (hr : r.responses = before ++ t :: rest) (ht : t.partitions = ps ++ p :: ps') (h0 : r.errorCode = 0)
    (hb : ∀ u ∈ before, ∀ q ∈ u.partitions, q.errorCode = 0) (hps : ∀ q ∈ ps, q.errorCode = 0)
    (hp : p.errorCode ≠ 0) (hm : p.errorMsg = none) : r.error = .panic := by
  unfold AlterPartitionReassignmentsResponse.error
  have e : (r.errorCode, r.errorMsg) :: r.responses.flatMap (fun t => t.partitions.map fun p => (p.errorCode, p.errorMsg)) =
      ((r.errorCode, r.errorMsg) :: (before.flatMap (fun t => t.partitions.map fun p => (p.errorCode, p.errorMsg)) ++
        ps.map fun p => (p.errorCode, p.errorMsg))) ++ (p.errorCode, none) ::
          (ps'.map (fun p => (p.errorCode, p.errorMsg)) ++ rest.flatMap (fun t => t.partitions.map fun p => (p.errorCode, p.errorMsg))) := by
    rw [hr, List.flatMap_append, List.flatMap_cons, ht, ← hm]
    simp
  rw [e]
  refine firstDeref_panic _ _ _ ?_ hp
  intro y hy
  rcases List.mem_cons.1 hy with rfl | hy
  · exact h0
  · rcases List.mem_append.1 hy with hy | hy
    · obtain ⟨u, hu, hy⟩ := List.mem_flatMap.1 hy
      obtain ⟨q, hq, rfl⟩ := List.mem_map.1 hy
      exact hb u hu q hq
    · obtain ⟨q, hq, rfl⟩ := List.mem_map.1 hy
      exact hps q hq

/-- … and so does every response whose own error has no message. -/
theorem C72_violated_every_unexplained_error (r : AlterPartitionReassignmentsResponse) (h0 : r.errorCode ≠ 0) (hm : r.errorMsg = none) :
    r.error = .panic := by
  unfold AlterPartitionReassignmentsResponse.error
  rw [hm]
  exact firstDeref_panic [] _ _ (by simp) h0

/-- C74 fails for every filter refused without a message: asking for the error crashes the client. -/
theorem C74_violated_every_unexplained (r : DeleteAclsResponse) (before rest : List AclFilterResult) (f : AclFilterResult)
    (hr : r.filterResults = before ++ f :: rest) (hb : ∀ g ∈ before, g.errorCode = 0 ∧ ∀ m ∈ g.matchingAcls, m.errorCode = 0)
    (hf : f.errorCode ≠ 0) (hm : f.errorMessage = none) : r.error = .panic := by
  unfold DeleteAclsResponse.error
  rw [hr, List.flatMap_append, List.flatMap_cons, hm, List.cons_append]
  refine firstDeref_panic _ _ _ ?_ hf
  intro y hy
  obtain ⟨g, hg, hy⟩ := List.mem_flatMap.1 hy
  rcases List.mem_cons.1 hy with rfl | hy
  · exact (hb g hg).1
  · obtain ⟨q, hq, rfl⟩ := List.mem_map.1 hy
    exact (hb g hg).2 q hq

/-! ## C41: the size of fetches -/

/-- C41: what the size of the fetches is after any run: the size at the start, doubled for each too-small answer in 32-bit arithmetic. -/
theorem C41_exact_size (env : ConsumerEnv) (as : List ConsumerAct) (s s' : SC) (h : s.run env as = some s') :
    s'.fetchMaxBytes = Int32.ofInt (s.fetchMaxBytes.toInt * 2 ^ tooSmalls env as s) := by
  induction as generalizing s with
  | nil =>
    simp only [SC.run, Option.some.injEq] at h
    cases h
    simp [tooSmalls]
  | cons a as ih =>
    simp only [SC.run] at h
    cases h1 : s.step env a with
    | none => rw [h1] at h; cases h
    | some s1 =>
      rw [h1] at h
      obtain ⟨hsz, -⟩ := step_size env a s s1 h1
      rw [ih s1 h, tooSmalls, h1, hsz]
      simp only [Option.elim]
      cases ht : tooSmallNow a s with
      | false => simp
      | true =>
        simp only [if_true]
        rw [Int.pow_add, Int.pow_one, ← Int.mul_assoc]
        have e1 : Int32.ofInt ((s.fetchMaxBytes * 2).toInt * 2 ^ tooSmalls env as s1) =
            s.fetchMaxBytes * 2 * Int32.ofInt (2 ^ tooSmalls env as s1) := by
          rw [Int32.ofInt_mul, Int32.ofInt_toInt]
        have e2 : Int32.ofInt (s.fetchMaxBytes.toInt * 2 * 2 ^ tooSmalls env as s1) =
            s.fetchMaxBytes * 2 * Int32.ofInt (2 ^ tooSmalls env as s1) := by
          rw [Int32.ofInt_mul, Int32.ofInt_mul, Int32.ofInt_toInt]
          rfl
        rw [e1, e2]

/-- C41 fails for every size asked for at the start: once the doubled size does not fit 31 bits it is negative, and after 32 too-small
answers nothing is asked for any more. -/
theorem C41_violated_always (env : ConsumerEnv) (as : List ConsumerAct) (s s' : SC) (h : s.run env as = some s') :
    (2 ^ 31 ≤ s.fetchMaxBytes.toInt * 2 ^ tooSmalls env as s → s.fetchMaxBytes.toInt * 2 ^ tooSmalls env as s < 2 ^ 32 →
      s'.fetchMaxBytes < 0) ∧
    (32 ≤ tooSmalls env as s → s'.fetchMaxBytes = 0) := by
  rw [C41_exact_size env as s s' h]
  constructor
  · intro h1 h2
    rw [Int32.lt_iff_toInt_lt, Int32.toInt_ofInt]
    generalize s.fetchMaxBytes.toInt * 2 ^ tooSmalls env as s = x at h1 h2
    rw [show Int32.size = 4294967296 from rfl, show (0 : Int32).toInt = 0 from rfl, Int.bmod_def]
    split <;> omega
  · intro hn
    obtain ⟨k, hk⟩ := Nat.exists_eq_add_of_le hn
    rw [hk, Int.pow_add]
    have e : Int32.ofInt (2 ^ 32) = 0 := by decide
    rw [Int32.ofInt_mul, Int32.ofInt_mul, e, Int32.zero_mul, Int32.mul_zero]

/-! ## C79, C113, C115: the client's own calls -/

variable {W : Type} (net : Net W)

/-- C113 fails for every change of controller: after any use of the client, also when a broker has just named another controller (in
`r`), admin requests go to the broker object kept for the node named when the client was made. -/
theorem C113_violated_always (bootstrap : List Bytes) (a : Bytes) (h : Nat) (w : W) (b : Brokers W)
    (hb : fromOne net bootstrap a h w = .ok b) (ops : List BOp) (topics : List Bytes) (r : MetadataResponse) (b' : Brokers W)
    (hm : requestMetaData net topics (runOps net ops b) = ((r, none), b')) (k : Nat × Int32) (b'' : Brokers W)
    (hc : Client.getController net b' = (.ok k, b'')) :
    ∃ first w', net.metadata h [] w = ((first, none), w') ∧ b''.cache.get first.controllerID = some k := by
  obtain ⟨first, w', h1, h2, h3⟩ := C113_first_controller_partial net bootstrap a h w b hb (ops ++ [.metadata topics])
  have hb' : runOps net (ops ++ [.metadata topics]) b = b' := by
    simp only [runOps, List.foldl_append, List.foldl_cons, List.foldl_nil, BOp.run]
    show (requestMetaData net topics (runOps net ops b)).2 = b'
    rw [hm]
  rw [hb'] at h3
  refine ⟨first, w', h1, ?_⟩
  have := (getBroker_spec net first.controllerID b').2
  rw [← h3, hc] at this
  exact this k rfl

theorem deleteGroupsLoop_acc (ask : Nat → Bytes → W → Except Err DeleteGroupsResponse × W) :
    ∀ (gs : List Bytes) (results : List (Bytes × Int16)) (log : List Client.GroupDone) (b : Brokers W),
    Client.deleteGroupsLoop net ask gs results log b =
      (((Client.deleteGroupsLoop net ask gs [] [] b).1.1.map (results ++ ·), log ++ (Client.deleteGroupsLoop net ask gs [] [] b).1.2),
        (Client.deleteGroupsLoop net ask gs [] [] b).2)
  | [], results, log, b => by simp [Client.deleteGroupsLoop, Except.map]
  | g :: gs, results, log, b => by
    unfold Client.deleteGroupsLoop
    rcases findCoordinator net g b with ⟨e | c, b1⟩
    · simp [Except.map]
    · simp only
      rcases getBroker net c.nodeID b1 with ⟨e | k, b2⟩
      · simp [Except.map]
      · simp only
        rcases answerOf DeleteGroupsResponse.error (ask k.1 g b2.world).1 with ⟨_ | r, _ | e⟩
        · simp [Except.map]
        · simp [Except.map]
        · simp only
          rw [deleteGroupsLoop_acc ask gs (results ++ r.results), deleteGroupsLoop_acc ask gs ([] ++ r.results)]
          cases (Client.deleteGroupsLoop net ask gs [] [] _).1.1 <;> simp [Except.map]
        · simp [Except.map]

theorem deleteGroups_append (ask : Nat → Bytes → W → Except Err DeleteGroupsResponse × W) :
    ∀ (pre post : List Bytes) (b b1 : Brokers W) (rs : List (Bytes × Int16)) (log : List Client.GroupDone),
    Client.deleteGroups net ask pre b = ((.ok rs, log), b1) →
    Client.deleteGroups net ask (pre ++ post) b = Client.deleteGroupsLoop net ask post rs log b1 := by
  unfold Client.deleteGroups
  suffices H : ∀ (pre post : List Bytes) (acc : List (Bytes × Int16)) (log0 : List Client.GroupDone) (b b1 : Brokers W) (rs : List (Bytes × Int16))
      (log : List Client.GroupDone), Client.deleteGroupsLoop net ask pre acc log0 b = ((.ok rs, log), b1) →
      Client.deleteGroupsLoop net ask (pre ++ post) acc log0 b = Client.deleteGroupsLoop net ask post rs log b1 from
    fun pre post b b1 rs log h => H pre post [] [] b b1 rs log h
  intro pre
  induction pre with
  | nil => intro post acc log0 b b1 rs log h; cases h; rfl
  | cons g gs ih =>
    intro post acc log0 b b1 rs log h
    revert h
    rw [List.cons_append, Client.deleteGroupsLoop, Client.deleteGroupsLoop]
    rcases findCoordinator net g b with ⟨e | c, b1⟩
    · intro h; cases h
    · simp only
      rcases getBroker net c.nodeID b1 with ⟨e | k, b2⟩
      · intro h; cases h
      · simp only
        rcases answerOf DeleteGroupsResponse.error (ask k.1 g b2.world).1 with ⟨_ | r, _ | e⟩
        · intro h; cases h
        · intro h; cases h
        · exact ih _ _ _ _ _ _ _
        · intro h; cases h

/-- C79 fails for every group which cannot be deleted: if the groups before it are deleted, with results `rs`, and deleting it then fails, the call
returns the error alone, and the groups after it are not tried: what is done is what was done for those before it and for it. -/
theorem C79_violated_always (ask : Nat → Bytes → W → Except Err DeleteGroupsResponse × W) (before rest : List Bytes) (g : Bytes)
    (b b1 b2 : Brokers W) (rs : List (Bytes × Int16)) (log1 log2 : List Client.GroupDone) (e : Err)
    (h1 : Client.deleteGroups net ask before b = ((.ok rs, log1), b1))
    (h2 : Client.deleteGroups net ask [g] b1 = ((.error e, log2), b2)) :
    Client.deleteGroups net ask (before ++ g :: rest) b = ((.error e, log1 ++ log2), b2) := by
  rw [deleteGroups_append net ask before (g :: rest) b b1 rs log1 h1]
  unfold Client.deleteGroups at h2
  rw [deleteGroupsLoop_acc]
  suffices H : Client.deleteGroupsLoop net ask (g :: rest) [] [] b1 = ((.error e, log2), b2) by rw [H]; rfl
  revert h2
  rw [Client.deleteGroupsLoop, Client.deleteGroupsLoop]
  rcases findCoordinator net g b1 with ⟨e | c, b1⟩
  · exact id
  · simp only
    rcases getBroker net c.nodeID b1 with ⟨e | k, b2⟩
    · exact id
    · simp only
      rcases answerOf DeleteGroupsResponse.error (ask k.1 g b2.world).1 with ⟨_ | r, _ | e⟩
      · exact id
      · exact id
      · intro h2; cases h2
      · exact id

example : (Client.deleteGroups goodNet demoDelete [[49]] (demoBrokers goodNet)).1.1.toOption = some [([49], 0)] ∧
    (Client.deleteGroups goodNet demoDelete [[50]] (Client.deleteGroups goodNet demoDelete [[49]] (demoBrokers goodNet)).2).1.1.toOption = none := by
  decide +kernel

theorem logDirsLoop_others (ask : Nat → List TopicPids → W → Except Err DescribeLogDirsResponse × W) (topics : List Bytes) (n : Int32) :
    ∀ (l : List (Int32 × List (Bytes × Int32))) (acc m : AMap Int32 DescribeLogDirsResponse) (b b' : Brokers W),
    n ∉ l.map Prod.fst → Client.logDirsLoop net ask topics l acc b = (.ok m, b') → m.get n = acc.get n
  | [], acc, m, b, b', _, h => by cases h; rfl
  | (x, tps) :: rest, acc, m, b, b', hn, h => by
    simp only [List.map_cons, List.mem_cons, not_or] at hn
    revert h
    rw [Client.logDirsLoop]
    rcases getBroker net x b with ⟨e | k, b1⟩
    · intro h; cases h
    · simp only
      rcases answerOf DescribeLogDirsResponse.error (ask k.1 (Client.logDirsRequest tps) b1.world).1 with ⟨_ | r, _ | e⟩
      · exact logDirsLoop_others ask topics n rest _ _ _ _ hn.2
      · exact logDirsLoop_others ask topics n rest _ _ _ _ hn.2
      · intro h
        rw [logDirsLoop_others ask topics n rest _ _ _ _ hn.2 h, AMap.get_set, if_neg hn.1]
      · exact logDirsLoop_others ask topics n rest _ _ _ _ hn.2

theorem logDirsLoop_append (ask : Nat → List TopicPids → W → Except Err DescribeLogDirsResponse × W) (topics : List Bytes) :
    ∀ (pre post : List (Int32 × List (Bytes × Int32))) (acc acc' : AMap Int32 DescribeLogDirsResponse) (b b' : Brokers W),
    Client.logDirsLoop net ask topics pre acc b = (.ok acc', b') →
    Client.logDirsLoop net ask topics (pre ++ post) acc b = Client.logDirsLoop net ask topics post acc' b'
  | [], post, acc, acc', b, b', h => by cases h; rfl
  | (x, tps) :: pre, post, acc, acc', b, b', h => by
    revert h
    rw [List.cons_append, Client.logDirsLoop, Client.logDirsLoop]
    rcases getBroker net x b with ⟨e | k, b1⟩
    · intro h; cases h
    · simp only
      rcases answerOf DescribeLogDirsResponse.error (ask k.1 (Client.logDirsRequest tps) b1.world).1 with ⟨_ | r, _ | e⟩ <;>
        exact logDirsLoop_append ask topics pre post _ _ _ _

/-- C115 fails for every broker which does not answer, or answers with an error: the node has a replica (it is among those asked, `before`,
`node`, `rest`), yet the call may succeed, and then the node is missing. -/
theorem C115_violated_always (ask : Nat → List TopicPids → W → Except Err DescribeLogDirsResponse × W) (topics : List Bytes) (b b1 b2 b3 b4 : Brokers W)
    (r : MetadataResponse) (before rest : List (Int32 × List (Bytes × Int32))) (node : Int32) (tps : List (Bytes × Int32))
    (acc : AMap Int32 DescribeLogDirsResponse) (k : Nat × Int32)
    (hm : requestMetaData net topics b = ((r, none), b1))
    (ho : order net (Client.brokerPartitions r.topics) b1 = (before ++ (node, tps) :: rest, b2))
    (hb : Client.logDirsLoop net ask topics before [] b2 = (.ok acc, b3)) (hk : getBroker net node b3 = (.ok k, b4))
    (hfail : ∀ a, (ask k.1 (Client.logDirsRequest tps) b4.world).1 = .ok a → a.error ≠ none) :
    Client.describeLogDirs net ask topics b = Client.logDirsLoop net ask topics rest acc { b4 with world := (ask k.1 (Client.logDirsRequest tps) b4.world).2 } ∧
    ∀ m, (Client.describeLogDirs net ask topics b).1 = .ok m → m.get node = none := by
  have hnd : (before.map Prod.fst ++ node :: rest.map Prod.fst).Nodup := by
    have h1 := (C116_asked r.topics).1
    have h2 : (before ++ (node, tps) :: rest).Perm (Client.brokerPartitions r.topics) := by
      have : (order net (Client.brokerPartitions r.topics) b1).1 = before ++ (node, tps) :: rest := by rw [ho]
      rw [← this]
      exact net.shuffle_perm _ _
    have h3 := (h2.map Prod.fst).nodup_iff.2 h1
    simpa using h3
  have hd : Client.describeLogDirs net ask topics b =
      Client.logDirsLoop net ask topics rest acc { b4 with world := (ask k.1 (Client.logDirsRequest tps) b4.world).2 } := by
    unfold Client.describeLogDirs
    rw [hm]
    simp only
    rw [ho]
    simp only
    rw [logDirsLoop_append net ask topics before _ _ _ _ _ hb, Client.logDirsLoop, hk]
    simp only
    rcases ha : (ask k.1 (Client.logDirsRequest tps) b4.world).1 with e | a
    · simp only [answerOf]
    · rcases he : a.error with _ | e
      · exact absurd he (hfail a ha)
      · simp only [answerOf, he]
  refine ⟨hd, fun m h => ?_⟩
  rw [hd] at h
  have hn := List.nodup_append.1 hnd
  rw [logDirsLoop_others net ask topics node rest acc m _ _ (List.nodup_cons.1 hn.2.1).1 (Prod.ext h rfl),
    logDirsLoop_others net ask topics node before [] acc _ _ (fun hx => hn.2.2 node hx node (by simp) rfl) hb]
  rfl

end Healer
