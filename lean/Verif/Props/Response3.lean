import Verif.Model.Response3
import Verif.Spec.Response3
import Verif.Props.Response2

/-!
# C72, C73, C74: reassignment, produce and ACL responses
-/

namespace Healer
open Kafka (IsString)

/-! ## Lengths compared as int32 -/

theorem rdU32_zero (p : Bytes) : (rdU32 p 0 = .panic) ∨ ∃ n o, rdU32 p 0 = .ok (n, o) ∧ 4 ≤ p.length := by
  by_cases h : 4 ≤ p.length
  · right
    simp only [rdU32, Cur.bind_def, Cur.call, Cur.pure_def, sliceFrom, beGet]
    rw [if_pos (by omega)]
    simp [h]
  · left
    simp only [rdU32, Cur.bind_def, Cur.call, Cur.pure_def, sliceFrom, beGet]
    rw [if_pos (by omega)]
    simp [h]

/-- The comparisons as int32 make no difference below 2 GiB. -/
theorem respondI32_eq {α : Type} (c : Cur α) (p : Bytes) (h : p.length < 2 ^ 31) : respondI32 c p = respond c p := by
  unfold respondI32 respond openFrame rdI32
  rcases rdU32_zero p with hp | ⟨n, o, hn, h4⟩
  · simp only [Cur.bind_def, hp]
  · simp only [Cur.bind_def, Cur.pure_def, hn, Cur.payloadLen]
    have hlt : n.toNat < 2 ^ 32 := n.toNat_lt
    have e : n.toInt32.toInt + 4 = (p.length : Int) ↔ n.toNat + 4 = p.length := by
      have : n.toInt32.toInt = (n.toNat : Int).bmod (2 ^ 32) := by
        have := @Int32.toInt_ofNat' n.toNat
        rwa [← UInt32.toInt32_ofNat', UInt32.ofNat_toNat] at this
      rw [this]
      by_cases hs : n.toNat < 2 ^ 31
      · rw [Int.bmod_eq_of_le (by omega) (by omega)]; omega
      · have e1 : (n.toNat : Int).bmod (2 ^ 32) < 0 := by
          rw [Int.bmod_def]
          split <;> omega
        omega
    by_cases hm : n.toNat + 4 = p.length
    · rw [if_pos (e.2 hm), if_pos hm]; rfl
    · rw [if_neg (fun hx => hm (e.1 hx)), if_neg hm]; rfl

theorem respondWrap_eq {α : Type} (c : Cur α) (p : Bytes) (h : p.length < 2 ^ 31) : respondWrap c p = respond c p := by
  unfold respondWrap respond openFrame
  rcases rdU32_zero p with hp | ⟨n, o, hn, h4⟩
  · simp only [Cur.bind_def, hp]
  · simp only [Cur.bind_def, Cur.pure_def, hn, Cur.payloadLen]
    have hlt : n.toNat < 2 ^ 32 := n.toNat_lt
    have e : n + 4 = UInt32.ofNat p.length ↔ n.toNat + 4 = p.length := by
      rw [← UInt32.toNat_inj, UInt32.toNat_add, UInt32.toNat_ofNat']
      have : (4 : UInt32).toNat = 4 := rfl
      omega
    by_cases hm : n.toNat + 4 = p.length
    · rw [if_pos (e.2 hm), if_pos hm]; rfl
    · rw [if_neg (fun hx => hm (e.1 hx)), if_neg hm]; rfl

/-! ## C72 -/

/-- A compact array read with a count and a loop. -/
theorem sreads_compactArr {α β γ δ : Type} {c : Cur β} {enc : α → Bytes} {body : Int32 → Cur γ} {tail : Bytes} {out : γ}
    (w : δ → α) (k : δ → β) (xs : List δ) (h0 : ∀ x, 0 < (enc x).length)
    (h : ∀ x ∈ xs, SReads c (enc (w x)) (k x))
    (hb : ∀ n : Int32, n.toInt = xs.length →
      SReads (Cur.forN xs.length c) ((xs.map w).flatMap enc) (xs.map k) →
        SReads (body n) ((xs.map w).flatMap enc ++ tail) out) :
    SReads (Cur.call compactArrayLength >>= body) (Kafka.compactArray enc (xs.map w) ++ tail) out :=
  sreads_flexArr (f := true) w k xs h0 h hb

def ReassignedPartition.wire (p : ReassignedPartition) : Kafka.ReassignedPartition :=
  ⟨p.partitionID.toInt, p.errorCode.toInt, p.errorMsg, p.taggedFields.wire⟩
def ReassignedTopic.wire (t : ReassignedTopic) : Kafka.ReassignedTopic :=
  ⟨t.name, t.partitions.map ReassignedPartition.wire, t.taggedFields.wire⟩

/-- What is kept of a partition and a topic: everything, an empty tag list being nil. -/
def ReassignedPartition.norm (p : ReassignedPartition) : ReassignedPartition :=
  { p with taggedFields := p.taggedFields.norm }
def ReassignedTopic.norm (t : ReassignedTopic) : ReassignedTopic :=
  { t with partitions := t.partitions.map ReassignedPartition.norm, taggedFields := t.taggedFields.norm }

structure ReassignedTopic.Fits (t : ReassignedTopic) : Prop where
  tags : t.taggedFields.Fits
  partitions : ∀ p ∈ t.partitions, p.taggedFields.Fits

/-- The decoder on an alter-partition-reassignments response. -/
theorem alter_decoded (corr : UInt32) (htags tags : TaggedFields) (hht : htags.Fits) (htg : tags.Fits)
    (throttle : Int32) (error : Int16) (message : Option Bytes) (topics : List ReassignedTopic)
    (ht : ∀ t ∈ topics, t.Fits)
    (hl : (Kafka.response .alterPartitionReassignments 0 corr.toNat htags.wire
      (Kafka.alterPartitionReassignmentsResponse throttle.toInt error.toInt message (topics.map ReassignedTopic.wire)
        tags.wire)).length < 2 ^ 31) :
    newAlterPartitionReassignmentsResponse 0 (Kafka.response .alterPartitionReassignments 0 corr.toNat htags.wire
      (Kafka.alterPartitionReassignmentsResponse throttle.toInt error.toInt message (topics.map ReassignedTopic.wire)
        tags.wire)) = .ok (⟨⟨API_AlterPartitionReassignments, 0, 1, corr, htags.norm⟩, throttle, error, message,
          topics.map ReassignedTopic.norm, tags.norm⟩, none) := by
  unfold newAlterPartitionReassignmentsResponse
  rw [respondI32_eq _ _ hl]
  refine respond_header (hv := 1) rfl rfl hht ?_ hl
  unfold Kafka.alterPartitionReassignmentsResponse
  simp only [List.append_assoc]
  refine .bind (sreads_i32 _) <| .bind (sreads_i16 _) <| .bind (sreads_compactNullableString _) ?_
  refine sreads_compactArr (c := rdReassignedTopic) ReassignedTopic.wire ReassignedTopic.norm topics
    (fun t => by have := flexString_pos true t.name; simp [Kafka.flexString] at this ⊢; omega) ?_ ?_
  · intro t hm
    refine .bind (sreads_compactString _) ?_
    refine sreads_compactArr (c := Cur.call decodeReassignedPartition) ReassignedPartition.wire
      ReassignedPartition.norm t.partitions (by nonempty) ?_ ?_
    · intro p hp
      exact .call_run <| .bind (sreads_i32 _) <| .bind (sreads_i16 _) <| .bind (sreads_compactNullableString _) <|
        .bind_pure (g := fun x => ReassignedPartition.mk _ _ _ x) (sreads_tags ((ht t hm).partitions p hp))
    · intro n hn hr
      exact .bind (sreads_forInt hn hr) (.bind_pure (g := fun x => ReassignedTopic.mk _ _ x) (sreads_tags (ht t hm).tags))
  · intro n hn hr
    exact .bind (sreads_condN hn hr)
      (.bind_pure (g := fun x => (AlterPartitionReassignmentsResponse.mk _ _ _ _ _ x, none)) (sreads_tags htg))

/-- C72, alter partition reassignments: every field is read. -/
theorem C72_alter (corr : UInt32) (htags tags : TaggedFields) (hht : htags.Fits) (htg : tags.Fits)
    (throttle : Int32) (error : Int16) (message : Option Bytes) (topics : List ReassignedTopic)
    (ht : ∀ t ∈ topics, t.Fits)
    (hl : (Kafka.response .alterPartitionReassignments 0 corr.toNat htags.wire
      (Kafka.alterPartitionReassignmentsResponse throttle.toInt error.toInt message (topics.map ReassignedTopic.wire)
        tags.wire)).length < 2 ^ 31) :
    ∃ r, newAlterPartitionReassignmentsResponse 0 (Kafka.response .alterPartitionReassignments 0 corr.toNat htags.wire
      (Kafka.alterPartitionReassignmentsResponse throttle.toInt error.toInt message (topics.map ReassignedTopic.wire)
        tags.wire)) = .ok (r, none) ∧
      r.header.correlationID = corr ∧ r.header.taggedFields = htags.norm ∧ r.throttleTimeMs = throttle ∧
      r.errorCode = error ∧ r.errorMsg = message ∧ r.responses = topics.map ReassignedTopic.norm ∧
      r.taggedFields = tags.norm := by
  exact ⟨_, alter_decoded corr htags tags hht htg throttle error message topics ht hl, rfl, rfl, rfl, rfl, rfl, rfl, rfl⟩

example : newAlterPartitionReassignmentsResponse 0 (Kafka.response .alterPartitionReassignments 0 7 []
      (Kafka.alterPartitionReassignmentsResponse 5 0 none [⟨[116], [⟨0, 0, none, []⟩, ⟨1, 85, some [110], []⟩], []⟩]
      [])) =
    .ok (⟨⟨45, 0, 1, 7, none⟩, 5, 0, none, [⟨[116], [⟨0, 0, none, none⟩, ⟨1, 85, some [110], none⟩], none⟩], none⟩,
      none) := by decide +kernel

/-- What `Error()` of these responses finds: nothing iff all codes are 0, otherwise one of the codes, as long as
every failure carries a message. -/
theorem firstDeref_spec (xs : List (Int16 × Option Bytes)) (h : ∀ x ∈ xs, x.1 ≠ 0 → x.2 ≠ none) :
    (firstDeref xs = .ok none ↔ ∀ x ∈ xs, x.1 = 0) ∧ (∃ e, firstDeref xs = .ok e) ∧
      ∀ e, firstDeref xs = .ok (some e) → ∃ x ∈ xs, x.1 ≠ 0 ∧ Err.is e (.kafka x.1) = true := by
  unfold firstDeref
  cases hf : xs.find? fun x => x.1 ≠ 0 with
  | none =>
    rw [List.find?_eq_none] at hf
    refine ⟨?_, ⟨_, rfl⟩, ?_⟩
    · simp at hf
      simp
      exact hf
    · intro e he; simp at he
  | some x =>
    have hm := List.mem_of_find?_eq_some hf
    have hx := List.find?_some hf
    simp only [ne_eq, decide_eq_true_eq] at hx
    cases hmsg : x.2 with
    | none => exact absurd hmsg (h x hm hx)
    | some m =>
      simp only [derefError, hmsg, Out.ok.injEq, reduceCtorEq, false_iff, Option.some.injEq]
      refine ⟨fun hall => hx (hall x hm), ⟨_, rfl⟩, ?_⟩
      intro e he
      subst he
      exact ⟨x, hm, hx, by simp [Err.is]⟩

/-- C72, errors of alter partition reassignments: reported iff a code is not 0.  Missing: failures without a message
(`C72_violated_alter_error`). -/
theorem C72_alter_error_partial (r : AlterPartitionReassignmentsResponse)
    (h1 : r.errorCode ≠ 0 → r.errorMsg ≠ none)
    (h2 : ∀ t ∈ r.responses, ∀ p ∈ t.partitions, p.errorCode ≠ 0 → p.errorMsg ≠ none) :
    (r.error = .ok none ↔ r.errorCode = 0 ∧ ∀ t ∈ r.responses, ∀ p ∈ t.partitions, p.errorCode = 0) ∧
    ∃ e, r.error = .ok e := by
  have := firstDeref_spec ((r.errorCode, r.errorMsg) ::
    r.responses.flatMap fun t => t.partitions.map fun p => (p.errorCode, p.errorMsg)) (by
      intro x hx
      simp only [List.mem_cons, List.mem_flatMap, List.mem_map] at hx
      rcases hx with rfl | ⟨t, ht, p, hp, rfl⟩
      · exact h1
      · exact h2 t ht p hp)
  refine ⟨this.1.trans ?_, this.2.1⟩
  constructor
  · intro h
    refine ⟨h _ (List.mem_cons_self ..), ?_⟩
    intro t ht p hp
    exact h (p.errorCode, p.errorMsg) (by
      simp only [List.mem_cons, List.mem_flatMap, List.mem_map]
      exact .inr ⟨t, ht, p, hp, rfl⟩)
  · rintro ⟨ha, hb⟩ x hx
    simp only [List.mem_cons, List.mem_flatMap, List.mem_map] at hx
    rcases hx with rfl | ⟨t, ht, p, hp, rfl⟩
    · exact ha
    · exact hb t ht p hp

example : (⟨⟨45, 0, 1, 7, none⟩, 0, 0, none, [⟨[116], [⟨0, 0, none, none⟩, ⟨1, 85, some [110], none⟩], none⟩], none⟩ :
      AlterPartitionReassignmentsResponse).error =
    .ok (some (Err.wrapped (Err.kafka 85))) := by decide +kernel

/-- C72 fails for the error of alter partition reassignments: a failure whose message is null crashes the client. -/
theorem C72_violated_alter_error :
    ∃ r, newAlterPartitionReassignmentsResponse 0 (Kafka.response .alterPartitionReassignments 0 7 []
        (Kafka.alterPartitionReassignmentsResponse 0 0 none [⟨[116], [⟨0, 85, none, []⟩], []⟩] [])) = .ok (r, none) ∧
      r.error = .panic :=
  ⟨⟨⟨45, 0, 1, 7, none⟩, 0, 0, none, [⟨[116], [⟨0, 85, none, none⟩], none⟩], none⟩, by decide +kernel, by decide⟩

/-- The tag count of the header, the throttle time and the error code, as the decoder groups their bytes. -/
theorem list_shift (t e : Nat) (ht : t < 2 ^ 32) (he : e < 2 ^ 16) :
    [0] ++ (Kafka.int32 t ++ Kafka.int16 e) =
      Kafka.int32 ((t / 256 : Nat) : Int) ++ (Kafka.int16 ((t % 256 * 256 + e / 256 : Nat) : Int) ++ [UInt8.ofNat e]) := by
  unfold Kafka.int16 Kafka.int32 Kafka.be
  have e1 : ((t : Int) % 2 ^ 32).toNat = t := by omega
  have e2 : ((e : Int) % 2 ^ 16).toNat = e := by omega
  have e3 : (((t / 256 : Nat) : Int) % 2 ^ 32).toNat = t / 256 := by omega
  have e4 : (((t % 256 * 256 + e / 256 : Nat) : Int) % 2 ^ 16).toNat = t % 256 * 256 + e / 256 := by omega
  rw [e1, e2, e3, e4]
  simp only [List.range, List.range.loop, List.reverse_cons, List.reverse_nil, List.nil_append, List.cons_append,
    List.map_cons, List.map_nil]
  have z : (0 : UInt8) = UInt8.ofNat 0 := rfl
  rw [z]
  congr 1
  · apply u8_congr; omega
  congr 1
  · apply u8_congr; omega
  congr 1
  · apply u8_congr; omega
  congr 1
  · apply u8_congr; omega
  congr 1
  · apply u8_congr; omega
  congr 1
  · apply u8_congr; omega
  congr 1
  apply u8_congr; omega

theorem sreads_rdCompactArr {α β δ : Type} {c : Cur β} {enc : α → Bytes} (w : δ → α) (k : δ → β) (xs : List δ)
    (h0 : ∀ x, 0 < (enc x).length) (h : ∀ x ∈ xs, SReads c (enc (w x)) (k x)) :
    SReads (rdCompactArr c) (Kafka.compactArray enc (xs.map w)) (xs.map k) := by
  have := sreads_compactArr (c := c) (body := fun n => Cur.cond (0 < n.toInt) (Cur.forN n.toInt.toNat c) []) (tail := [])
    (out := xs.map k) w k xs h0 h (by
      intro n hn hr
      rw [List.append_nil]
      exact sreads_condPos hn hr)
  rwa [List.append_nil] at this

theorem sreads_compactInt32s (xs : List Int32) :
    SReads (rdCompactArr rdI32) (Kafka.compactArray Kafka.int32 (xs.map Int32.toInt)) xs := by
  have := sreads_rdCompactArr (c := rdI32) (enc := Kafka.int32) Int32.toInt id xs (by intro x; rw [int32_length]; omega)
    (fun x _ => sreads_i32 x)
  rwa [List.map_id] at this

theorem sreads_skipTagCount : SReads skipTagCount [0] () :=
  (CReads.bind_pure (g := fun _ => ()) (creads_uvarint 0 (by decide))).s

def OngoingPartition.wire (p : OngoingPartition) : Kafka.OngoingPartition :=
  ⟨p.pid.toInt, p.replicas.map Int32.toInt, p.addingReplicas.map Int32.toInt, p.removingReplicas.map Int32.toInt⟩
def OngoingTopic.wire (t : OngoingTopic) : Kafka.OngoingTopic := ⟨t.name, t.partitions.map OngoingPartition.wire⟩

/-- What the decoder makes of any response. -/
theorem list_reads (corr throttle : UInt32) (error : UInt16) (message : Option Bytes) (topics : List OngoingTopic)
    (hl : (Kafka.response .listPartitionReassignments 0 corr.toNat [] (Kafka.listPartitionReassignmentsResponse
      throttle.toNat error.toNat message (topics.map OngoingTopic.wire))).length < 2 ^ 31) :
    newListPartitionReassignmentsResponse (Kafka.response .listPartitionReassignments 0 corr.toNat []
        (Kafka.listPartitionReassignmentsResponse throttle.toNat error.toNat message (topics.map OngoingTopic.wire))) =
      .ok (⟨corr, (UInt32.ofNat (throttle.toNat / 256)).toInt32,
        (UInt16.ofNat (throttle.toNat % 256 * 256 + error.toNat / 256)).toInt16, message, topics⟩, none) := by
  have e : Kafka.response .listPartitionReassignments 0 corr.toNat [] (Kafka.listPartitionReassignmentsResponse
      throttle.toNat error.toNat message (topics.map OngoingTopic.wire)) =
      Kafka.frame (Kafka.int32 corr.toNat ++ (Kafka.int32 (throttle.toNat / 256 : Nat) ++
        (Kafka.int16 (throttle.toNat % 256 * 256 + error.toNat / 256 : Nat) ++ ([UInt8.ofNat error.toNat] ++
        (Kafka.compactNullableString message ++ (Kafka.compactArray (fun t : Kafka.OngoingTopic =>
          Kafka.compactString t.name ++ (Kafka.compactArray (fun p : Kafka.OngoingPartition => Kafka.int32 p.index ++
            (Kafka.compactArray Kafka.int32 p.replicas ++ (Kafka.compactArray Kafka.int32 p.adding ++
              (Kafka.compactArray Kafka.int32 p.removing ++ [0])))) t.partitions ++ [0])) (topics.map OngoingTopic.wire) ++
          [0])))))) := by
    have := list_shift throttle.toNat error.toNat throttle.toNat_lt error.toNat_lt
    simp only [Kafka.response, Kafka.responseHeader, Kafka.listPartitionReassignmentsResponse,
      show Kafka.Api.responseHeaderVersion .listPartitionReassignments 0 = 1 from rfl, Nat.le_refl, if_true,
      tagBuffer_nil, List.append_assoc]
    congr 2
    rw [← List.append_assoc, ← List.append_assoc, List.append_assoc [0], this]
    simp only [List.append_assoc]
  rw [e] at hl ⊢
  refine respond_frame (.bind (sreads_u32 _) <| .bind (creads_ilen32 _).s <| .bind (creads_ilen16 _).s <|
    .bind (reads_advance [_] 1 rfl).s <| .bind (sreads_compactNullableString _) <| .bind (a := topics) ?_ <|
      .bind_pure (g := fun _ => (_, none)) sreads_skipTagCount) hl
  have := sreads_rdCompactArr (c := Cur.call decodeOngoingTopic) (enc := fun t : Kafka.OngoingTopic =>
          Kafka.compactString t.name ++ (Kafka.compactArray (fun p : Kafka.OngoingPartition => Kafka.int32 p.index ++
            (Kafka.compactArray Kafka.int32 p.replicas ++ (Kafka.compactArray Kafka.int32 p.adding ++
              (Kafka.compactArray Kafka.int32 p.removing ++ [0])))) t.partitions ++ [0])) OngoingTopic.wire id topics
    (by nonempty) ?_
  · rwa [List.map_id] at this
  · intro t _
    refine .call_run <| .bind (sreads_compactString _) <| .bind (a := t.partitions) ?_ <|
      .bind_pure (g := fun _ => t) sreads_skipTagCount
    have := sreads_rdCompactArr (c := Cur.call decodeOngoingPartition) (enc := fun p : Kafka.OngoingPartition =>
      Kafka.int32 p.index ++ (Kafka.compactArray Kafka.int32 p.replicas ++ (Kafka.compactArray Kafka.int32 p.adding ++
              (Kafka.compactArray Kafka.int32 p.removing ++ [0])))) OngoingPartition.wire id t.partitions (by nonempty) ?_
    · rwa [List.map_id] at this
    · intro p _
      exact .call_run <| .bind (sreads_i32 _) <| .bind (sreads_compactInt32s _) <| .bind (sreads_compactInt32s _) <|
        .bind (sreads_compactInt32s _) <| .bind_pure (g := fun _ => p) sreads_skipTagCount

/-- C72, list partition reassignments: the correlation id, the message and all topics are read.
Missing: the throttle time and the error code (`C72_violated_list_error`). -/
theorem C72_list_partial (corr throttle : UInt32) (error : UInt16) (message : Option Bytes) (topics : List OngoingTopic)
    (hl : (Kafka.response .listPartitionReassignments 0 corr.toNat [] (Kafka.listPartitionReassignmentsResponse
      throttle.toNat error.toNat message (topics.map OngoingTopic.wire))).length < 2 ^ 31) :
    ∃ r, newListPartitionReassignmentsResponse (Kafka.response .listPartitionReassignments 0 corr.toNat []
        (Kafka.listPartitionReassignmentsResponse throttle.toNat error.toNat message (topics.map OngoingTopic.wire))) =
        .ok (r, none) ∧
      r.correlationID = corr ∧ r.errorMessage = message ∧ r.topics = topics :=
  ⟨_, list_reads corr throttle error message topics hl, rfl, rfl, rfl⟩

example : newListPartitionReassignmentsResponse (Kafka.response .listPartitionReassignments 0 7 []
      (Kafka.listPartitionReassignmentsResponse 0 0 none [⟨[116], [⟨3, [1, 2, 3], [3], [1]⟩]⟩])) =
    .ok (⟨7, 0, 0, none, [⟨[116], [⟨3, [1, 2, 3], [3], [1]⟩]⟩]⟩, none) := by decide +kernel

/-- C72 fails for list partition reassignments: whatever error code below 256 (all codes Kafka defines) the broker
answers with, no error is reported as long as the broker does not throttle. -/
theorem C72_violated_list_error (corr : UInt32) (error : UInt16) (herr : error < 256) (message : Option Bytes)
    (topics : List OngoingTopic)
    (hl : (Kafka.response .listPartitionReassignments 0 corr.toNat [] (Kafka.listPartitionReassignmentsResponse
      0 error.toNat message (topics.map OngoingTopic.wire))).length < 2 ^ 31) :
    ∃ r, newListPartitionReassignmentsResponse (Kafka.response .listPartitionReassignments 0 corr.toNat []
        (Kafka.listPartitionReassignmentsResponse 0 error.toNat message (topics.map OngoingTopic.wire))) = .ok (r, none) ∧
      r.error = none := by
  refine ⟨_, list_reads corr 0 error message topics hl, ?_⟩
  have h : error.toNat / 256 = 0 := by
    have : error.toNat < 256 := herr
    omega
  unfold ListPartitionReassignmentsResponse.error
  simp only [h, show (0 : UInt32).toNat = 0 from rfl]
  rfl

/-! ## C73 -/

def ProduceRecordError.wire (e : ProduceRecordError) : Kafka.ProducedRecordError := ⟨e.batchIndex.toInt, e.message⟩
def ProducedPartition.wire (p : ProducedPartition) : Kafka.ProducedPartition :=
  ⟨p.partitionID.toInt, p.errorCode.toInt, p.baseOffset.toInt, p.logAppendTimeMs.toInt, p.logStartOffset.toInt,
   p.recordErrors.map ProduceRecordError.wire, p.errorMessage⟩

/-- Kafka defines no tagged fields for this response. -/
def ProducedPartition.Plain (p : ProducedPartition) : Prop := ∀ e ∈ p.recordErrors, e.taggedField = none

/-- The part of a version 9 partition that the decoder reads: all but the tag count. -/
def partition9 (p : Kafka.ProducedPartition) : Bytes :=
  Kafka.int32 p.index ++ (Kafka.int16 p.error ++ (Kafka.int64 p.baseOffset ++ (Kafka.int64 p.logAppendTime ++
    (Kafka.int64 p.logStartOffset ++ (Kafka.compactArray (fun e : Kafka.ProducedRecordError => Kafka.int32 e.index ++
      (Kafka.compactNullableString e.message ++ [0])) p.recordErrors ++ Kafka.compactNullableString p.message)))))

theorem cond_true {α : Type} {c : Prop} [Decidable c] (h : c) (m : Cur α) (d : α) : Cur.cond c m d = m := if_pos h

theorem sreads_noTags : SReads (Cur.call decodeTaggedFields) [0] none := by
  have := sreads_tags (t := none) taggedFields_fits_none
  exact this.cast (by decide) rfl

theorem sreads_makeCount (n : Nat) (h : n < 2 ^ 31) : SReads (rdMakeCount true) (Kafka.uvarint (n + 1)) (n : Int) := by
  have := CReads.bind_pure (g := Int32.toInt) (CReads.call (reads_compactArrayLength n h))
  rw [toInt32_of_spec _ (by omega)] at this
  exact this.s

theorem sreads_partition9 (p : ProducedPartition) (h : p.Plain) :
    SReads (rdProducedPartition 9 true) (partition9 p.wire) p := by
  unfold rdProducedPartition partition9
  rw [cond_true (by decide), cond_true (by decide), cond_true (by decide), cond_true (by decide)]
  refine .bind (sreads_i32 _) <| .bind (sreads_i16 _) <| .bind (sreads_i64 _) <| .bind (sreads_i64 _) <|
    .bind (sreads_i64 _) <| .bind (a := p.recordErrors) ?_ <|
      .bind_pure (g := fun x => ProducedPartition.mk _ _ _ _ _ _ x) (sreads_compactNullableString _)
  intro hl
  have hn : p.recordErrors.length < 2 ^ 31 := by
    simp only [Kafka.compactArray, List.length_append] at hl
    have := flatMap_length_ge (enc := fun e : Kafka.ProducedRecordError => Kafka.int32 e.index ++
      (Kafka.compactNullableString e.message ++ [0])) p.wire.recordErrors (by nonempty)
    simp only [ProducedPartition.wire, List.length_map] at this hl
    omega
  refine SReads.cast (e := Kafka.uvarint (p.recordErrors.length + 1) ++ p.recordErrors.flatMap fun e =>
    Kafka.int32 e.batchIndex.toInt ++ (Kafka.compactNullableString e.message ++ [0])) (.bind (sreads_makeCount _ hn)
      (sreads_forInt rfl ?_)) ?_ rfl hl
  · have := SReads.forN (c := rdProduceRecordError true) (enc := fun e : ProduceRecordError =>
      Kafka.int32 e.batchIndex.toInt ++ (Kafka.compactNullableString e.message ++ [0])) (g := id) p.recordErrors ?_
    · rwa [List.map_id] at this
    · intro e he
      refine .bind (sreads_i32 _) <| .bind (sreads_compactNullableString _) <| ?_
      refine (SReads.bind_pure (g := fun x => ProduceRecordError.mk _ _ x) sreads_noTags).cast rfl ?_
      rw [← h e he]; rfl
  · simp [Kafka.compactArray, ProducedPartition.wire, ProduceRecordError.wire, List.flatMap_map]

/-- The first byte of a small partition id is 0. -/
theorem int32_small (i : Int) (h : 0 ≤ i ∧ i < 2 ^ 24) : ∃ t, Kafka.int32 i = [0] ++ t := by
  unfold Kafka.int32 Kafka.be
  simp only [List.range, List.range.loop, List.reverse_cons, List.reverse_nil, List.nil_append, List.cons_append,
    List.map_cons, List.map_nil]
  refine ⟨_, congrArg (· :: _) ?_⟩
  have z : (0 : UInt8) = UInt8.ofNat 0 := rfl
  rw [z]
  apply u8_congr
  omega

/-- What the decoder makes of a topic with at least one partition. -/
theorem topic9 (name : Bytes) (p : ProducedPartition) (h : p.Plain)
    (hid : 0 ≤ p.partitionID.toInt ∧ p.partitionID.toInt < 2 ^ 24) (n : Nat) (post : Bytes)
    (hl : (Kafka.compactString name ++ (Kafka.uvarint (n + 1) ++ (partition9 p.wire ++ post))).length < 2 ^ 31)
    (hn : n < 2 ^ 31) :
    ∃ k, decodeProducedTopic 9 true (Kafka.compactString name ++ (Kafka.uvarint (n + 1) ++ (partition9 p.wire ++ post))) =
      .ok (⟨name, List.replicate n p, none⟩, k) := by
  simp only [List.length_append] at hl
  obtain ⟨t, ht⟩ := int32_small _ hid
  have h1 := sreads_compactString name (by omega) [] (Kafka.uvarint (n + 1) ++ (partition9 p.wire ++ post))
  have h2 := sreads_makeCount n hn (by omega) (Kafka.compactString name) (partition9 p.wire ++ post)
  have h3 := call_keepOffset (sreads_partition9 p h (by omega)) (Kafka.compactString name ++ Kafka.uvarint (n + 1)) post
  have h4 := forN_keep h3 n
  have hp : ∃ t', partition9 p.wire ++ post = [0] ++ t' := by
    obtain ⟨x, hx⟩ : ∃ x, partition9 p.wire = Kafka.int32 p.partitionID.toInt ++ x := ⟨_, rfl⟩
    exact ⟨t ++ (x ++ post), by rw [hx, ht]; simp⟩
  obtain ⟨t', ht'⟩ := hp
  have h5 := sreads_noTags (by decide) (Kafka.compactString name ++ Kafka.uvarint (n + 1)) t'
  simp only [List.nil_append, List.append_assoc, List.length_append, List.length_nil, Int.natCast_add] at h1 h2 h3 h4 h5
  refine ⟨(Kafka.compactString name).length + (Kafka.uvarint (n + 1)).length + 1, ?_⟩
  have e1 : rdFlexString true = Cur.call compactString := rfl
  have z : ((0 : Nat) : Int) = 0 := rfl
  simp only [z, Int.zero_add] at h1
  simp only [decodeProducedTopic, Cur.run, e1, Cur.bind_def, h1, h2, Cur.forInt, Int.toNat_natCast,
    show ¬ ((n : Int) < 0) by omega, if_false, decodeProducedPartition, h4]
  rw [ht']
  simp only [h5, Cur.pure_def]
  rfl

/-- What the decoder makes of a version 9 response about one topic. -/
theorem produce9 (corr : UInt32) (name : Bytes) (p : ProducedPartition) (h : p.Plain)
    (hid : 0 ≤ p.partitionID.toInt ∧ p.partitionID.toInt < 2 ^ 24) (rest : List Kafka.ProducedPartition) (throttle : Int)
    (hl : (Kafka.response .produce 9 corr.toNat [] (Kafka.produceResponse 9 [(name, p.wire :: rest)]
      throttle)).length < 2 ^ 31) :
    newProduceResponse 9 (Kafka.response .produce 9 corr.toNat [] (Kafka.produceResponse 9 [(name, p.wire :: rest)]
      throttle)) =
      .ok (⟨⟨API_DeleteAcls, 9, 1, corr, none⟩, [⟨name, List.replicate (rest.length + 1) p, none⟩]⟩, none) := by
  have e : Kafka.response .produce 9 corr.toNat [] (Kafka.produceResponse 9 [(name, p.wire :: rest)] throttle) =
      Kafka.frame ((Kafka.int32 corr.toNat ++ [0]) ++ (Kafka.uvarint (1 + 1) ++ (Kafka.compactString name ++
        (Kafka.uvarint (rest.length + 1 + 1) ++ (partition9 p.wire ++ ([0] ++
          (rest.flatMap (fun q => partition9 q ++ [0]) ++ ([0] ++ (Kafka.int32 throttle ++ [0]))))))))) := by
    simp only [Kafka.response, Kafka.responseHeader, Kafka.produceResponse, partition9,
      show Kafka.Api.responseHeaderVersion .produce 9 = 1 from rfl, show Kafka.Api.flexible .produce 9 = true from rfl,
      Nat.le_refl, if_true, tagBuffer_nil, List.append_assoc, Kafka.flexArray, Kafka.compactArray, Kafka.flexString,
      Kafka.flexNullable, Kafka.flexTags, List.flatMap_cons, List.flatMap_nil, List.length_cons, List.length_nil,
      show (2 : Nat) ≤ 9 by decide, show (5 : Nat) ≤ 9 by decide, show (8 : Nat) ≤ 9 by decide,
      show (1 : Nat) ≤ 9 by decide, List.nil_append]
  rw [e] at hl ⊢
  have hn : rest.length + 1 < 2 ^ 31 := by
    unfold Kafka.frame at hl
    simp only [List.length_append] at hl
    have := flatMap_length_ge (enc := fun q => partition9 q ++ [0]) rest (by nonempty)
    simp only [List.length_cons] at hl
    omega
  have hh := (CReads.call (reads_responseHeader API_DeleteAcls 9 1 rfl corr none taggedFields_fits_none)).s
  have hh' : SReads (Cur.call (decodeResponseHeader API_DeleteAcls 9)) (Kafka.int32 corr.toNat ++ [0])
      ⟨API_DeleteAcls, 9, 1, corr, none⟩ := hh.cast rfl rfl
  refine respond_ends (SReads.bind_ends hh' ?_) hl
  rw [show ResponseHeader.isFlexible ⟨API_DeleteAcls, 9, 1, corr, none⟩ = true from rfl]
  refine SReads.bind_ends (sreads_makeCount 1 (by decide)) ?_
  intro h31 pre
  obtain ⟨k, hk⟩ := topic9 name p h hid (rest.length + 1) ([0] ++
          (rest.flatMap (fun q => partition9 q ++ [0]) ++ ([0] ++ (Kafka.int32 throttle ++ [0])))) h31 hn
  refine ⟨pre.length + k, ?_⟩
  simp only [Cur.forInt, show ¬ (((1 : Nat) : Int) < 0) by decide, if_false, show ((1 : Nat) : Int).toNat = 1 from rfl,
    Cur.forN, Cur.bind_def, Cur.pure_def, Cur.call, sliceFrom_append, hk]

/-- C73, one topic with one partition, version 9: the partition's own result is read and its error reported.
Missing: several partitions (`C73_violated_partitions`), several topics (`C73_violated_topics`), version 0
(`C73_violated_version0`), the throttle time, partition ids from 2²⁴ on. -/
theorem C73_single_partial (corr : UInt32) (name : Bytes) (p : ProducedPartition) (h : p.Plain)
    (hid : 0 ≤ p.partitionID.toInt ∧ p.partitionID.toInt < 2 ^ 24) (throttle : Int)
    (hl : (Kafka.response .produce 9 corr.toNat [] (Kafka.produceResponse 9 [(name, [p.wire])] throttle)).length < 2 ^ 31) :
    ∃ r, newProduceResponse 9 (Kafka.response .produce 9 corr.toNat [] (Kafka.produceResponse 9 [(name, [p.wire])]
        throttle)) = .ok (r, none) ∧
      r.header.correlationID = corr ∧ r.produceResponses = [⟨name, [p], none⟩] ∧ r.error = firstCode [p.errorCode] := by
  refine ⟨_, produce9 corr name p h hid [] throttle hl, rfl, rfl, ?_⟩
  rw [← firstKafkaErr_eq]
  rfl

example : newProduceResponse 9 (Kafka.response .produce 9 7 [] (Kafka.produceResponse 9 [([116], [⟨3, 6, 100, -1, 5,
      [], none⟩])] 0)) =
    .ok (⟨⟨31, 9, 1, 7, none⟩, [⟨[116], [⟨3, 6, 100, -1, 5, [], none⟩], none⟩]⟩, none) := by decide +kernel

/-- C73 fails for several partitions, version 9: whatever the others report, the client sees the first partition's
result repeated, so if the first succeeded no error is reported. -/
theorem C73_violated_partitions (corr : UInt32) (name : Bytes) (p : ProducedPartition) (h : p.Plain)
    (hid : 0 ≤ p.partitionID.toInt ∧ p.partitionID.toInt < 2 ^ 24) (rest : List Kafka.ProducedPartition) (throttle : Int)
    (hl : (Kafka.response .produce 9 corr.toNat [] (Kafka.produceResponse 9 [(name, p.wire :: rest)]
      throttle)).length < 2 ^ 31) :
    ∃ r, newProduceResponse 9 (Kafka.response .produce 9 corr.toNat [] (Kafka.produceResponse 9 [(name, p.wire :: rest)]
        throttle)) = .ok (r, none) ∧
      r.produceResponses = [⟨name, List.replicate (rest.length + 1) p, none⟩] ∧ (p.errorCode = 0 → r.error = none) := by
  refine ⟨_, produce9 corr name p h hid rest throttle hl, rfl, ?_⟩
  intro h0
  unfold ProduceResponse.error
  rw [(C55_first_error _).1]
  simp [h0]

example : newProduceResponse 9 (Kafka.response .produce 9 7 [] (Kafka.produceResponse 9 [([116], [⟨3, 0, 100, -1, 5,
      [], none⟩, ⟨4, 6, -1, -1, -1, [], none⟩])] 0)) =
    .ok (⟨⟨31, 9, 1, 7, none⟩, [⟨[116], [⟨3, 0, 100, -1, 5, [], none⟩, ⟨3, 0, 100, -1, 5, [], none⟩], none⟩]⟩, none)
      := by decide +kernel

/-- C73 fails for several topics, version 9: the second topic is read from inside the first, and the client
crashes. -/
theorem C73_violated_topics :
    newProduceResponse 9 (Kafka.response .produce 9 7 [] (Kafka.produceResponse 9
      [([97], [⟨0, 0, 5, -1, 0, [], none⟩]), ([98], [⟨0, 1, 6, -1, 0, [], none⟩])] 0)) = .panic := by decide +kernel

/-- A read that crashes at the end of a payload. -/
def SPanics {α : Type} (c : Cur α) (enc : Bytes) : Prop :=
  enc.length < 2 ^ 31 → ∀ pre, c (pre ++ enc) pre.length = .panic

theorem SReads.bind_panics {α β : Type} {m : Cur α} {f : α → Cur β} {e1 e2 : Bytes} {a : α}
    (h1 : SReads m e1 a) (h2 : SPanics (f a) e2) : SPanics (m >>= f) (e1 ++ e2) := by
  intro hl pre
  rw [List.length_append] at hl
  have h1 := h1 (by omega) pre e2
  have h2 := h2 (by omega) (pre ++ e1)
  rw [List.length_append] at h2
  rw [Cur.bind_def, h1]
  simpa using h2

theorem SPanics.bind {α β : Type} {m : Cur α} {f : α → Cur β} {e : Bytes} (h : SPanics m e) : SPanics (m >>= f) e := by
  intro hl pre
  rw [Cur.bind_def, h hl pre]

theorem SPanics.call_run {α : Type} {c : Cur α} {e : Bytes} (h : SPanics c e) : SPanics (Cur.call (Cur.run c)) e := by
  intro hl pre
  have := h hl []
  simp only [List.nil_append, List.length_nil] at this
  have z : ((0 : Nat) : Int) = 0 := rfl
  rw [z] at this
  simp only [Cur.call, sliceFrom_append, Cur.run, this]

theorem SPanics.keep {α : Type} {c : Cur α} {e : Bytes} (h : SPanics c e) :
    SPanics (Cur.call (keepOffset (Cur.run c))) e := by
  intro hl pre
  have := h hl []
  simp only [List.nil_append, List.length_nil] at this
  have z : ((0 : Nat) : Int) = 0 := rfl
  rw [z] at this
  simp only [Cur.call, sliceFrom_append, Cur.run, keepOffset, this]

theorem SPanics.forInt_one {α : Type} {c : Cur α} {e : Bytes} (h : SPanics c e) :
    SPanics (Cur.forInt ((1 : UInt32).toNat : Int) c) e := SPanics.bind h

theorem respond_panics {α : Type} {c : Cur α} {body : Bytes} (h : SPanics c body)
    (hl : (Kafka.frame body).length < 2 ^ 31) : respond c (Kafka.frame body) = .panic := by
  unfold respond
  have hb : body.length < 2 ^ 31 := by
    unfold Kafka.frame at hl; rw [List.length_append] at hl; omega
  rw [Cur.bind_def, openFrame_ok _ (by omega)]
  have := h hb (Kafka.int32 body.length)
  rw [int32_length] at this
  have e : ((4 : Nat) : Int) = 4 := rfl
  rw [e] at this
  unfold Kafka.frame
  simp only [this]

theorem rdI64_panics : SPanics rdI64 [] := by
  intro _ pre
  have h := sliceFrom_append pre []
  simp only [rdI64, rdU64, Cur.bind_def, Cur.call, h, beGet]
  rfl

/-- C73 fails for version 0: the decoder crashes on every answer about one partition, because it looks for a
timestamp that version 0 does not have. -/
theorem C73_violated_version0 (corr : UInt32) (name : Bytes) (hs : IsString name) (p : ProducedPartition) (throttle : Int)
    (hl : (Kafka.response .produce 0 corr.toNat [] (Kafka.produceResponse 0 [(name, [p.wire])] throttle)).length < 2 ^ 31) :
    newProduceResponse 0 (Kafka.response .produce 0 corr.toNat [] (Kafka.produceResponse 0 [(name, [p.wire])]
      throttle)) = .panic := by
  have e : Kafka.response .produce 0 corr.toNat [] (Kafka.produceResponse 0 [(name, [p.wire])] throttle) =
      Kafka.frame (Kafka.int32 corr.toNat ++ (Kafka.int32 (1 : UInt32).toNat ++ (Kafka.string name ++
        (Kafka.int32 (1 : UInt32).toNat ++ (Kafka.int32 p.partitionID.toInt ++ (Kafka.int16 p.errorCode.toInt ++
          (Kafka.int64 p.baseOffset.toInt ++ []))))))) := by
    simp [Kafka.response, Kafka.responseHeader, Kafka.produceResponse, ProducedPartition.wire,
      show Kafka.Api.responseHeaderVersion .produce 0 = 0 from rfl, show Kafka.Api.flexible .produce 0 = false from rfl,
      Kafka.flexArray, Kafka.array, Kafka.flexString, Kafka.flexNullable, Kafka.flexTags]
  rw [e] at hl ⊢
  have hh := (CReads.call (reads_responseHeader API_DeleteAcls 0 0 rfl corr none taggedFields_fits_none)).s
  have hh' : SReads (Cur.call (decodeResponseHeader API_DeleteAcls 0)) (Kafka.int32 corr.toNat)
      ⟨API_DeleteAcls, 0, 0, corr, none⟩ := hh.cast (by simp [Kafka.responseHeader]) rfl
  refine respond_panics (SReads.bind_panics hh' ?_) hl
  rw [show ResponseHeader.isFlexible ⟨API_DeleteAcls, 0, 0, corr, none⟩ = false from rfl]
  have h1 : SReads (rdMakeCount false) (Kafka.int32 (1 : UInt32).toNat) ((1 : UInt32).toNat : Int) :=
    (CReads.bind_pure (g := fun n : UInt32 => (n.toNat : Int)) (creads_u32 1)).s
  refine SReads.bind_panics h1 (.bind (.forInt_one (.call_run ?_)))
  refine SReads.bind_panics (sreads_flexString (f := false) fun _ => hs) ?_
  refine SReads.bind_panics h1 (.bind (.forInt_one (.keep ?_)))
  unfold rdProducedPartition
  rw [cond_true (by decide)]
  exact SReads.bind_panics (sreads_i32 _) <| SReads.bind_panics (sreads_i16 _) <| SReads.bind_panics (sreads_i64 _) <|
    .bind rdI64_panics

/-! ## C74 -/

/-- `respond_header` when the final offset does not matter. -/
theorem respond_header_ends {α : Type} {f : ResponseHeader → Cur α} {api : Kafka.Api} {key v hv : UInt16} {corr : UInt32}
    {tags : TaggedFields} {body : Bytes} {a : α} (hh : responseHeaderVersion key v = some hv)
    (hv' : api.responseHeaderVersion v.toNat = hv.toNat) (ht : tags.Fits)
    (h : SEnds (f { apiKey := key, apiVersion := v, headerVersion := hv, correlationID := corr,
                    taggedFields := if 1 ≤ hv.toNat then tags.norm else none }) body a)
    (hl : (Kafka.response api v.toNat corr.toNat tags.wire body).length < 2 ^ 31) :
    respond (Cur.call (decodeResponseHeader key v) >>= f) (Kafka.response api v.toNat corr.toNat tags.wire body) = .ok a := by
  unfold Kafka.response at hl ⊢
  rw [hv'] at hl ⊢
  exact respond_ends (SReads.bind_ends (CReads.call (reads_responseHeader key v hv hh corr tags ht)).s h) hl

/-- The three ACL requests are flexible from version 2 on, and the client's table agrees. -/
theorem acl_headers (v : UInt16) (hv : v = 3 ∨ v = 2 ∨ v = 1 ∨ v = 0) :
    ∃ hv' : UInt16, responseHeaderVersion API_CreateAcls v = some hv' ∧ responseHeaderVersion API_DeleteAcls v = some hv' ∧
      Kafka.Api.responseHeaderVersion .createAcls v.toNat = hv'.toNat ∧
      Kafka.Api.responseHeaderVersion .deleteAcls v.toNat = hv'.toNat ∧
      Kafka.Api.flexible .createAcls v.toNat = decide (hv' ≥ 1) ∧ Kafka.Api.flexible .deleteAcls v.toNat = decide (hv' ≥ 1) ∧
      decide (hv' ≥ 1) = decide (v ≥ 2) := by
  rcases hv with rfl | rfl | rfl | rfl
  · exact ⟨1, by decide⟩
  · exact ⟨1, by decide⟩
  · exact ⟨0, by decide⟩
  · exact ⟨0, by decide⟩

theorem sreads_count0 (f : Bool) (a : CreateAclsResponse) (hf : f = a.header.isFlexible) (hr : a.results = [])
    (ht : a.taggedFields = none) (rest : Bytes) :
    SEnds (rdFlexCount f >>= fun n => Cur.cond (0 ≤ n.toInt) (Cur.forN n.toInt.toNat (rdAclCreationResult f)) [] >>=
      fun rs => Cur.cond (f = true) (Cur.call decodeTaggedFields) none >>= fun t =>
        pure (CreateAclsResponse.mk a.header rs t, (none : Option Err))) (Kafka.int32 0 ++ rest) (a, none) := by
  have ea : a = ⟨a.header, [], none⟩ := by rw [← hr, ← ht]
  rw [ea]
  cases f with
  | false =>
    refine SReads.bind_ends (sreads_i32 0) ?_
    intro _ pre
    exact ⟨_, rfl⟩
  | true =>
    have e : Kafka.int32 0 ++ rest = [0] ++ ([0] ++ ([0, 0] ++ rest)) := rfl
    rw [e]
    refine SReads.bind_ends (a := (-1 : Int32)) (CReads.call reads_compactArrayLength_null).s ?_
    refine SReads.bind_ends (e1 := []) (a := []) (CReads.pure _).s ?_
    refine SReads.bind_ends (a := none) sreads_noTags ?_
    intro _ pre
    exact ⟨_, rfl⟩

/-- C74 fails for create ACLs, in every version: the throttle time is taken for the number of results, so that
without throttling no result is seen and no error is ever reported. -/
theorem C74_violated_createAcls (v : UInt16) (hv : v ∈ clientVersions API_CreateAcls) (corr : UInt32)
    (htags : TaggedFields) (hht : htags.Fits) (results : List Kafka.AclCreated) (tags : List (Nat × Bytes))
    (hl : (Kafka.response .createAcls v.toNat corr.toNat htags.wire (Kafka.createAclsResponse v.toNat 0 results
      tags)).length < 2 ^ 31) :
    ∃ r, decodeCreateAclsResponse v (Kafka.response .createAcls v.toNat corr.toNat htags.wire
        (Kafka.createAclsResponse v.toNat 0 results tags)) = .ok (r, none) ∧
      r.header.correlationID = corr ∧ r.results = [] ∧ r.error = none := by
  have hv' : v = 3 ∨ v = 2 ∨ v = 1 ∨ v = 0 := by
    simpa [clientVersions, availableVersions, API_CreateAcls] using hv
  obtain ⟨hv', hh, -, ha, -⟩ := acl_headers v hv'
  refine ⟨⟨⟨API_CreateAcls, v, hv', corr, if 1 ≤ hv'.toNat then htags.norm else none⟩, [], none⟩,
    respond_header_ends hh ha hht ?_ hl, rfl, rfl, rfl⟩
  unfold Kafka.createAclsResponse
  rw [List.append_assoc]
  exact sreads_count0 _ ⟨⟨API_CreateAcls, v, hv', corr, if 1 ≤ hv'.toNat then htags.norm else none⟩, [], none⟩ rfl rfl rfl _

example : decodeCreateAclsResponse 3 (Kafka.response .createAcls 3 7 [] (Kafka.createAclsResponse 3 0 [⟨31, some
      [110], []⟩] [])) =
    .ok (⟨⟨30, 3, 1, 7, none⟩, [], none⟩, none) := by decide +kernel

/-! ### Delete ACLs -/

def MatchingAcl.wire (m : MatchingAcl) : Kafka.AclDeleted :=
  ⟨m.errorCode.toInt, m.errorMessage, m.resourceType.toInt, m.resourceName, m.patternType.toInt, m.principal, m.host,
   m.operation.toInt, m.permissionType.toInt, m.taggedFields.wire⟩
def AclFilterResult.wire (f : AclFilterResult) : Kafka.AclFilterResult :=
  ⟨f.errorCode.toInt, f.errorMessage, f.matchingAcls.map MatchingAcl.wire, f.taggedFields.wire⟩

/-- What version `v` carries of a matching ACL: the pattern type from version 1, tagged fields from version 2. -/
def MatchingAcl.seen (v : UInt16) (m : MatchingAcl) : MatchingAcl :=
  { m with patternType := if 1 ≤ v.toNat then m.patternType else 0,
           taggedFields := if v ≥ 2 then m.taggedFields.norm else none }
def AclFilterResult.seen (v : UInt16) (f : AclFilterResult) : AclFilterResult :=
  { f with matchingAcls := f.matchingAcls.map (MatchingAcl.seen v),
           taggedFields := if v ≥ 2 then f.taggedFields.norm else none }

structure MatchingAcl.Fits (m : MatchingAcl) : Prop where
  message : ∀ b, m.errorMessage = some b → IsString b
  name : IsString m.resourceName
  principal : IsString m.principal
  host : IsString m.host
  tags : m.taggedFields.Fits
structure AclFilterResult.Fits (f : AclFilterResult) : Prop where
  message : ∀ b, f.errorMessage = some b → IsString b
  matching : ∀ m ∈ f.matchingAcls, m.Fits
  tags : f.taggedFields.Fits

theorem sreads_i8 (x : Int8) : SReads rdI8 (Kafka.int8 x.toInt) x := (creads_int8 x).s

theorem sreads_matchingAcl (v : UInt16) (f : Bool) (hf : Kafka.Api.flexible .deleteAcls v.toNat = f)
    (hf2 : f = decide (v ≥ 2)) (m : MatchingAcl) (h : m.Fits) :
    SReads (Cur.call (decodeMatchingAcl v f)) (Kafka.aclDeleted v.toNat m.wire) (m.seen v) := by
  unfold Kafka.aclDeleted
  simp only [hf, List.append_assoc]
  refine .call_run <| .bind (sreads_i16 _) <| .bind (sreads_flexNullable fun _ => h.message) <| .bind (sreads_i8 _) <|
    .bind (sreads_flexString fun _ => h.name) <|
    .bind (.cond' (decide_eq_decide.1 (ge1 v)) fun _ => sreads_i8 _) <|
    .bind (sreads_flexString fun _ => h.principal) <| .bind (sreads_flexString fun _ => h.host) <|
    .bind (sreads_i8 _) <| .bind (sreads_i8 _) <|
    (SReads.bind_pure (g := fun x => MatchingAcl.mk _ _ _ _ _ _ _ _ _ x) (sreads_flexTags h.tags)).cast rfl ?_
  simp only [MatchingAcl.seen, hf2, decide_eq_true_eq]
  rfl

theorem aclDeleted_pos (v : Nat) (m : Kafka.AclDeleted) : 0 < (Kafka.aclDeleted v m).length := by
  unfold Kafka.aclDeleted
  nonempty

/-- C74, delete ACLs: in versions 2 and 3 every field of every result is read. -/
theorem C74_deleteAcls_flexible (v : UInt16) (hv : v = 2 ∨ v = 3) (corr : UInt32) (htags tags : TaggedFields)
    (hht : htags.Fits) (htg : tags.Fits) (throttle : Int32) (results : List AclFilterResult) (h : ∀ r ∈ results, r.Fits)
    (hl : (Kafka.response .deleteAcls v.toNat corr.toNat htags.wire (Kafka.deleteAclsResponse v.toNat throttle.toInt
      (results.map AclFilterResult.wire) tags.wire)).length < 2 ^ 31) :
    ∃ r, decodeDeleteAclsResponse v (Kafka.response .deleteAcls v.toNat corr.toNat htags.wire
        (Kafka.deleteAclsResponse v.toNat throttle.toInt (results.map AclFilterResult.wire) tags.wire)) = .ok (r, none) ∧
      r.header.correlationID = corr ∧ r.header.taggedFields = htags.norm ∧ r.throttleTimeMs = throttle ∧
      r.filterResults = results.map (AclFilterResult.seen v) ∧ r.taggedFields = tags.norm := by
  obtain ⟨hh, ha, hf, hge, hg2⟩ : responseHeaderVersion API_DeleteAcls v = some 1 ∧
      Kafka.Api.responseHeaderVersion .deleteAcls v.toNat = (1 : UInt16).toNat ∧
      Kafka.Api.flexible .deleteAcls v.toNat = true ∧ v ≥ 2 ∧ decide (v ≥ 2) = true := by
    rcases hv with rfl | rfl <;> decide
  clear hv
  refine ⟨⟨⟨API_DeleteAcls, v, 1, corr, htags.norm⟩, throttle, results.map (AclFilterResult.seen v), tags.norm⟩, ?_,
    rfl, rfl, rfl, rfl, rfl⟩
  unfold decodeDeleteAclsResponse
  rw [respondWrap_eq _ _ hl]
  refine respond_header (hv := 1) hh ha hht ?_ hl
  unfold Kafka.deleteAclsResponse
  simp only [hf, List.append_assoc]
  refine .bind (sreads_i32 _) ?_
  refine sreads_flexArr (c := rdAclFilterResult v true) true AclFilterResult.wire (AclFilterResult.seen v) results
    (by nonempty) ?_ ?_
  · intro r hr
    refine .bind (sreads_i16 _) <| .bind (sreads_flexNullable fun _ => (h r hr).message) ?_
    refine sreads_flexArr (c := Cur.call (decodeMatchingAcl v true)) true MatchingAcl.wire (MatchingAcl.seen v)
      r.matchingAcls (aclDeleted_pos _) ?_ ?_
    · intro m hm
      exact sreads_matchingAcl v true hf hg2.symm m ((h r hr).matching m hm)
    · intro n hn hr'
      refine .bind (sreads_forInt hn hr') <|
        (SReads.bind_pure (g := fun x => AclFilterResult.mk _ _ _ x) (sreads_tags (h r hr).tags)).cast rfl ?_
      simp only [AclFilterResult.seen, hge, if_true]
      rfl
  · intro n hn hr
    exact .bind (sreads_forInt hn hr)
      (.bind_pure (g := fun x => (DeleteAclsResponse.mk _ _ _ x, none)) (sreads_tags htg))

example : decodeDeleteAclsResponse 3 (Kafka.response .deleteAcls 3 7 [] (Kafka.deleteAclsResponse 3 5 [⟨0, none, [⟨0,
      none, 2, [116], 3, [85], [42], 3, 3, []⟩], []⟩, ⟨54, some [110], [], []⟩] [])) =
    .ok (⟨⟨31, 3, 1, 7, none⟩, 5, [⟨0, none, [⟨0, none, 2, [116], 3, [85], [42], 3, 3, none⟩], none⟩, ⟨54, some [110],
      [], none⟩], none⟩, none) := by decide +kernel

/-- Reading at the very end of the payload. -/
def SLast {α : Type} (c : Cur α) (enc : Bytes) (a : α) : Prop :=
  enc.length < 2 ^ 31 → ∀ pre, c (pre ++ enc) pre.length = .ok (a, pre.length + enc.length)

theorem SReads.last {α : Type} {c : Cur α} {enc : Bytes} {a : α} (h : SReads c enc a) : SLast c enc a := by
  intro hl pre
  have := h hl pre []
  rwa [List.append_nil] at this

theorem SLast.ends {α : Type} {c : Cur α} {enc : Bytes} {a : α} (h : SLast c enc a) : SEnds c enc a :=
  fun hl pre => ⟨_, h hl pre⟩

theorem SReads.bind_last {α β : Type} {m : Cur α} {f : α → Cur β} {e1 e2 : Bytes} {a : α} {b : β}
    (h1 : SReads m e1 a) (h2 : SLast (f a) e2 b) : SLast (m >>= f) (e1 ++ e2) b := by
  intro hl pre
  rw [List.length_append] at hl
  have h1 := h1 (by omega) pre e2
  have h2 := h2 (by omega) (pre ++ e1)
  rw [List.length_append] at h2
  rw [Cur.bind_def, h1]
  simpa [Int.add_assoc] using h2

theorem SLast.bind {α β : Type} {m : Cur α} {f : α → Cur β} {e : Bytes} {a : α} {b : β}
    (h1 : SLast m e a) (h2 : SLast (f a) [] b) : SLast (m >>= f) e b := by
  intro hl pre
  have h1 := h1 hl pre
  have h2 := h2 (by decide) (pre ++ e)
  rw [List.append_nil, List.length_append] at h2
  rw [Cur.bind_def, h1]
  simpa using h2

/-- At the end of the payload there are no tagged fields. -/
theorem slast_noTags : SLast (Cur.call decodeTaggedFields) [] none := by
  intro _ pre
  simp only [Cur.call, sliceFrom_append]
  rfl

theorem SLast.forInt_one {α : Type} {c : Cur α} {e : Bytes} {a : α} (h : SLast c e a) :
    SLast (Cur.forInt (1 : Int) c) e [a] :=
  SLast.bind h (SLast.bind (a := []) (SReads.last (CReads.pure _).s) (SReads.last (CReads.pure _).s))

theorem SLast.forInt_zero {α : Type} {c : Cur α} : SLast (Cur.forInt (0 : Int) c) [] [] :=
  SReads.last (CReads.pure _).s

/-- C74, delete ACLs in versions 0 and 1, answer to one filter: every field is read.
Missing: answers to several filters (`C74_violated_deleteAcls_two`). -/
theorem C74_deleteAcls_old_partial (v : UInt16) (hv : v = 0 ∨ v = 1) (corr : UInt32) (throttle : Int32)
    (x : AclFilterResult) (h : x.Fits)
    (hl : (Kafka.response .deleteAcls v.toNat corr.toNat [] (Kafka.deleteAclsResponse v.toNat throttle.toInt
      [x.wire] [])).length < 2 ^ 31) :
    ∃ r, decodeDeleteAclsResponse v (Kafka.response .deleteAcls v.toNat corr.toNat []
        (Kafka.deleteAclsResponse v.toNat throttle.toInt [x.wire] [])) = .ok (r, none) ∧
      r.header.correlationID = corr ∧ r.throttleTimeMs = throttle ∧ r.filterResults = [x.seen v] := by
  obtain ⟨hh, ha, hf, hge, hg2⟩ : responseHeaderVersion API_DeleteAcls v = some 0 ∧
      Kafka.Api.responseHeaderVersion .deleteAcls v.toNat = (0 : UInt16).toNat ∧
      Kafka.Api.flexible .deleteAcls v.toNat = false ∧ ¬ v ≥ 2 ∧ decide (v ≥ 2) = false := by
    rcases hv with rfl | rfl <;> decide
  clear hv
  refine ⟨⟨⟨API_DeleteAcls, v, 0, corr, none⟩, throttle, [x.seen v], none⟩, ?_, rfl, rfl, rfl⟩
  unfold decodeDeleteAclsResponse
  rw [respondWrap_eq _ _ hl]
  refine respond_header_ends (hv := 0) (tags := none) hh ha taggedFields_fits_none (SLast.ends ?_) hl
  unfold Kafka.deleteAclsResponse
  have e : Kafka.int32 throttle.toInt ++ Kafka.flexArray false (fun r : Kafka.AclFilterResult => Kafka.int16 r.error ++
      Kafka.flexNullable false r.message ++ Kafka.flexArray false (Kafka.aclDeleted v.toNat) r.matching ++
        Kafka.flexTags false r.tags) [x.wire] ++ Kafka.flexTags false [] = Kafka.int32 throttle.toInt ++
      (Kafka.int32 (1 : Int32).toInt ++ (Kafka.int16 x.errorCode.toInt ++ (Kafka.flexNullable false x.errorMessage ++
        (Kafka.flexArray false (Kafka.aclDeleted v.toNat) (x.matchingAcls.map MatchingAcl.wire) ++ [])))) := by
    simp [Kafka.flexArray, Kafka.array, Kafka.flexTags, AclFilterResult.wire]
  simp only [hf]
  rw [e]
  refine SReads.bind_last (sreads_i32 _) <| SReads.bind_last (sreads_i32 _) <| SLast.bind (SLast.forInt_one
    (a := x.seen v) ?_) (SLast.bind slast_noTags (SReads.last (CReads.pure _).s))
  refine SReads.bind_last (sreads_i16 _) <| SReads.bind_last (sreads_flexNullable fun _ => h.message) ?_
  have hm : SReads (rdFlexCount false >>= fun n => Cur.forInt n.toInt (Cur.call (decodeMatchingAcl v false)))
      (Kafka.flexArray false (Kafka.aclDeleted v.toNat) (x.matchingAcls.map MatchingAcl.wire))
      (x.matchingAcls.map (MatchingAcl.seen v)) := by
    refine (sreads_flexArr (c := Cur.call (decodeMatchingAcl v false)) (tail := [])
      (out := x.matchingAcls.map (MatchingAcl.seen v)) false MatchingAcl.wire (MatchingAcl.seen v)
      x.matchingAcls (aclDeleted_pos _) ?_ ?_).cast (List.append_nil _) rfl
    · intro m hm
      exact sreads_matchingAcl v false hf hg2.symm m (h.matching m hm)
    · intro n hn hr'
      rw [List.append_nil]
      exact sreads_forInt hn hr'
  have hx : x.seen v = ⟨x.errorCode, x.errorMessage, x.matchingAcls.map (MatchingAcl.seen v), none⟩ := by
    simp only [AclFilterResult.seen, hge, if_false]
  rw [hx]
  have hb := SReads.bind_last (f := fun ms => Cur.call decodeTaggedFields >>= fun t =>
    pure (AclFilterResult.mk x.errorCode x.errorMessage ms t)) hm (SLast.bind slast_noTags (SReads.last (CReads.pure _).s))
  have ha : ∀ f : List MatchingAcl → Cur AclFilterResult,
      ((rdFlexCount false >>= fun n => Cur.forInt n.toInt (Cur.call (decodeMatchingAcl v false))) >>= f) =
      (rdFlexCount false >>= fun n => Cur.forInt n.toInt (Cur.call (decodeMatchingAcl v false)) >>= f) := by
    intro f
    funext p o
    simp only [Cur.bind_def]
    cases rdFlexCount false p o <;> rfl
  rw [ha] at hb
  exact hb

example : decodeDeleteAclsResponse 1 (Kafka.response .deleteAcls 1 7 [] (Kafka.deleteAclsResponse 1 5 [⟨0, none, [⟨0,
      none, 2, [116], 3, [85], [42], 3, 3, []⟩], []⟩] [])) =
    .ok (⟨⟨31, 1, 0, 7, none⟩, 5, [⟨0, none, [⟨0, none, 2, [116], 3, [85], [42], 3, 3, none⟩], none⟩], none⟩, none) :=
      by decide +kernel

/-- C74 fails for delete ACLs in versions 0 and 1 with two filters: a tag count that is not there is read after the
first result, and the client crashes. -/
theorem C74_violated_deleteAcls_two :
    decodeDeleteAclsResponse 1 (Kafka.response .deleteAcls 1 7 [] (Kafka.deleteAclsResponse 1 0
      [⟨0, none, [], []⟩, ⟨0, none, [], []⟩] [])) = .panic := by decide +kernel

/-- C74, errors of delete ACLs: reported iff a code is not 0.  Missing: failures without a message
(`C74_violated_deleteAcls_error`). -/
theorem C74_deleteAcls_error_partial (r : DeleteAclsResponse)
    (h : ∀ f ∈ r.filterResults, (f.errorCode ≠ 0 → f.errorMessage ≠ none) ∧
      ∀ m ∈ f.matchingAcls, m.errorCode ≠ 0 → m.errorMessage ≠ none) :
    (r.error = .ok none ↔ ∀ f ∈ r.filterResults, f.errorCode = 0 ∧ ∀ m ∈ f.matchingAcls, m.errorCode = 0) ∧
    ∃ e, r.error = .ok e := by
  have := firstDeref_spec (r.filterResults.flatMap fun f =>
    (f.errorCode, f.errorMessage) :: f.matchingAcls.map fun m => (m.errorCode, m.errorMessage)) (by
      intro x hx
      simp only [List.mem_cons, List.mem_flatMap, List.mem_map] at hx
      rcases hx with ⟨f, hf, rfl | ⟨m, hm, rfl⟩⟩
      · exact (h f hf).1
      · exact (h f hf).2 m hm)
  refine ⟨this.1.trans ?_, this.2.1⟩
  simp only [List.mem_cons, List.mem_flatMap, List.mem_map]
  constructor
  · intro hx f hf
    exact ⟨hx (f.errorCode, f.errorMessage) ⟨f, hf, .inl rfl⟩,
      fun m hm => hx (m.errorCode, m.errorMessage) ⟨f, hf, .inr ⟨m, hm, rfl⟩⟩⟩
  · rintro hx x ⟨f, hf, rfl | ⟨m, hm, rfl⟩⟩
    · exact (hx f hf).1
    · exact (hx f hf).2 m hm

example : (⟨⟨31, 2, 1, 7, none⟩, 0, [⟨0, none, [], none⟩, ⟨54, some [110], [], none⟩], none⟩ :
      DeleteAclsResponse).error =
    .ok (some (Err.wrapped (Err.kafka 54))) := by decide +kernel

/-- C74 fails for the error of delete ACLs: a failure whose message is null crashes the client. -/
theorem C74_violated_deleteAcls_error :
    ∃ r, decodeDeleteAclsResponse 2 (Kafka.response .deleteAcls 2 7 []
        (Kafka.deleteAclsResponse 2 0 [⟨54, none, [], []⟩] [])) = .ok (r, none) ∧ r.error = .panic :=
  ⟨⟨⟨31, 2, 1, 7, none⟩, 0, [⟨54, none, [], none⟩], none⟩, by decide +kernel, by decide⟩

/-! ### Describe ACLs -/

def Acl.wire (a : Acl) : Kafka.AclEntry :=
  ⟨a.principal, a.host, a.operation.toInt, a.permissionType.toInt, a.taggedFields.wire⟩
def AclResource.wire (r : AclResource) : Kafka.AclResource :=
  ⟨r.resourceType.toInt, r.resourceName, r.patternType.toInt, r.acls.map Acl.wire, r.taggedFields.wire⟩

/-- What version `v` carries: the pattern type from version 1, tagged fields from version 2. -/
def Acl.seen (v : UInt16) (a : Acl) : Acl :=
  { a with taggedFields := if decide (v ≥ 2) then a.taggedFields.norm else none }
def AclResource.seen (v : UInt16) (r : AclResource) : AclResource :=
  { r with patternType := if 1 ≤ v.toNat then r.patternType else 0, acls := r.acls.map (Acl.seen v),
           taggedFields := if decide (v ≥ 2) then r.taggedFields.norm else none }

structure Acl.Fits (a : Acl) : Prop where
  principal : IsString a.principal
  host : IsString a.host
  tags : a.taggedFields.Fits
structure AclResource.Fits (r : AclResource) : Prop where
  name : IsString r.resourceName
  acls : ∀ a ∈ r.acls, a.Fits
  tags : r.taggedFields.Fits

theorem sreads_acl (v : UInt16) (a : Acl) (h : a.Fits) :
    SReads (rdAcl (decide (v ≥ 2))) (Kafka.flexString (decide (v ≥ 2)) a.wire.principal ++
      (Kafka.flexString (decide (v ≥ 2)) a.wire.host ++ (Kafka.int8 a.wire.operation ++ (Kafka.int8 a.wire.permission ++
        Kafka.flexTags (decide (v ≥ 2)) a.wire.tags)))) (a.seen v) :=
  .bind (sreads_flexString fun _ => h.principal) <| .bind (sreads_flexString fun _ => h.host) <|
    .bind (sreads_i8 _) <| .bind (sreads_i8 _) <|
      .bind_pure (g := fun x => Acl.mk _ _ _ _ x) (sreads_flexTags h.tags)

theorem sreads_aclResource (v : UInt16) (r : AclResource) (h : r.Fits) :
    SReads (rdAclResource v) (Kafka.int8 r.wire.type ++ (Kafka.flexString (decide (v ≥ 2)) r.wire.name ++
      ((if 1 ≤ v.toNat then Kafka.int8 r.wire.patternType else []) ++ (Kafka.flexArray (decide (v ≥ 2)) (fun a =>
        Kafka.flexString (decide (v ≥ 2)) a.principal ++ (Kafka.flexString (decide (v ≥ 2)) a.host ++
          (Kafka.int8 a.operation ++ (Kafka.int8 a.permission ++ Kafka.flexTags (decide (v ≥ 2)) a.tags)))) r.wire.acls ++
        Kafka.flexTags (decide (v ≥ 2)) r.wire.tags)))) (r.seen v) := by
  refine .bind (sreads_i8 _) <| .bind (sreads_flexString fun _ => h.name) <|
    .bind (.cond' (decide_eq_decide.1 (ge1 v)) fun _ => sreads_i8 _) ?_
  refine sreads_flexArr (c := rdAcl (decide (v ≥ 2))) (decide (v ≥ 2)) Acl.wire (Acl.seen v) r.acls
    (fun a => by have := flexString_pos (decide (v ≥ 2)) a.principal; simp only [List.length_append]; omega)
    (fun a ha => sreads_acl v a (h.acls a ha)) ?_
  intro n hn hr
  have e : n.toUInt32.toNat = r.acls.length := by
    rw [Int32.toNat_toUInt32_of_le (by rw [Int32.le_iff_toInt_le, hn]; exact Int.natCast_nonneg _), Int32.toNatClampNeg, hn]
    rfl
  rw [e]
  exact .bind hr (.bind_pure (g := fun x => AclResource.mk _ _ _ _ x) (sreads_flexTags h.tags))

/-- What the decoder reads behind the length of an answer, whatever the length says. -/
theorem sreads_describeAcls (v : UInt16) (hv : v = 0 ∨ v = 2) (corr : UInt32) (htags tags : TaggedFields)
    (hht : htags.Fits) (htg : tags.Fits) (throttle : Int32) (error : Int16) (message : Option Bytes)
    (hm : ∀ b, message = some b → IsString b) (resources : List AclResource) (h : ∀ r ∈ resources, r.Fits) :
    ∃ body, Kafka.response .describeAcls v.toNat corr.toNat htags.wire (Kafka.describeAclsResponse v.toNat throttle.toInt
        error.toInt message (resources.map AclResource.wire) tags.wire) = Kafka.frame body ∧
      SReads (rdDescribeAcls v) body ⟨corr, throttle, error, message, resources.map (AclResource.seen v),
        if decide (v ≥ 2) then tags.norm else none⟩ := by
  obtain ⟨ha, hf, hc⟩ : Kafka.Api.responseHeaderVersion .describeAcls v.toNat = (if decide (v ≥ 2) then 1 else 0) ∧
      Kafka.Api.flexible .describeAcls v.toNat = decide (v ≥ 2) ∧ (v ≥ 1 ↔ decide (v ≥ 2) = true) := by
    rcases hv with rfl | rfl <;> decide
  clear hv
  refine ⟨Kafka.int32 corr.toNat ++ (Kafka.flexTags (decide (v ≥ 2)) htags.wire ++
    (Kafka.describeAclsResponse v.toNat throttle.toInt error.toInt message (resources.map AclResource.wire) tags.wire)), ?_, ?_⟩
  · simp only [Kafka.response, Kafka.responseHeader, ha, List.append_assoc]
    congr 3
    cases decide (v ≥ 2) <;> rfl
  · unfold Kafka.describeAclsResponse
    simp only [hf, List.append_assoc]
    refine .bind (sreads_u32 _) <| .bind (a := if decide (v ≥ 2) then htags.norm else none) ?_ <|
      .bind (sreads_i32 _) <| .bind (sreads_i16 _) <| .bind (sreads_flexNullable fun _ => hm) ?_
    · have := SReads.cond' (d := (none : TaggedFields)) hc fun _ => sreads_tags hht
      exact this.cast (by cases decide (v ≥ 2) <;> rfl) rfl
    refine sreads_flexArr (c := rdAclResource v) (decide (v ≥ 2)) AclResource.wire (AclResource.seen v) resources
      (fun r => by simp only [List.length_append, int8_length]; omega) (fun r hr => sreads_aclResource v r (h r hr)) ?_
    intro n hn hr
    refine .bind (a := resources.map (AclResource.seen v)) ?_ <|
      .bind_pure (g := fun x => DescribeAclsResponse.mk _ _ _ _ _ x) (sreads_flexTags htg)
    rw [cond_true (by omega)]
    exact sreads_forInt hn hr

theorem newDescribeAcls_prefixed {v : UInt16} {body : Bytes} {r : DescribeAclsResponse} (h : SReads (rdDescribeAcls v) body r)
    (hl : body.length < 2 ^ 31) (p : Bytes) (hp : p.length = 4) : newDescribeAclsResponse v (p ++ body) = .ok (r, none) := by
  have := h hl p []
  rw [List.append_nil, hp] at this
  simp only [newDescribeAclsResponse, Cur.bind_def, Cur.advance]
  have z : (0 : Int) + 4 = ((4 : Nat) : Int) := rfl
  rw [z, this]

/-- C74, describe ACLs: in versions 0 and 2 every field is read, and a non-zero error code is reported.
Missing: version 1 (`C74_violated_describeAcls`). -/
theorem C74_describeAcls_partial (v : UInt16) (hv : v = 0 ∨ v = 2) (corr : UInt32) (htags tags : TaggedFields)
    (hht : htags.Fits) (htg : tags.Fits) (throttle : Int32) (error : Int16) (message : Option Bytes)
    (hm : ∀ b, message = some b → IsString b) (resources : List AclResource) (h : ∀ r ∈ resources, r.Fits)
    (hl : (Kafka.response .describeAcls v.toNat corr.toNat htags.wire (Kafka.describeAclsResponse v.toNat throttle.toInt
      error.toInt message (resources.map AclResource.wire) tags.wire)).length < 2 ^ 31) :
    ∃ r, newDescribeAclsResponse v (Kafka.response .describeAcls v.toNat corr.toNat htags.wire
        (Kafka.describeAclsResponse v.toNat throttle.toInt error.toInt message (resources.map AclResource.wire)
          tags.wire)) = .ok (r, none) ∧
      r.correlationID = corr ∧ r.throttleTimeMs = throttle ∧ r.errorCode = error ∧ r.errorMessage = message ∧
      r.resources = resources.map (AclResource.seen v) ∧ r.taggedFields = (if decide (v ≥ 2) then tags.norm else none) ∧
      (r.error = none ↔ error = 0) := by
  refine ⟨⟨corr, throttle, error, message, resources.map (AclResource.seen v),
    if decide (v ≥ 2) then tags.norm else none⟩, ?_, rfl, rfl, rfl, rfl, rfl, rfl, ?_⟩
  · obtain ⟨body, e, hb⟩ := sreads_describeAcls v hv corr htags tags hht htg throttle error message hm resources h
    rw [e] at hl ⊢
    unfold Kafka.frame at hl ⊢
    rw [List.length_append] at hl
    exact newDescribeAcls_prefixed hb (by omega) _ (int32_length _)
  · unfold DescribeAclsResponse.error
    rw [(C55_first_error _).1]
    simp

example : newDescribeAclsResponse 2 (Kafka.response .describeAcls 2 7 [] (Kafka.describeAclsResponse 2 5 0 none [⟨2,
      [116], 3, [⟨[85], [42], 3, 3, []⟩, ⟨[86], [42], 4, 2, []⟩], []⟩] [])) =
    .ok (⟨7, 5, 0, none, [⟨2, [116], 3, [⟨[85], [42], 3, 3, none⟩, ⟨[86], [42], 4, 2, none⟩], none⟩], none⟩, none) :=
      by decide +kernel

/-- C74 fails for describe ACLs in version 1: a tag count that is not there is read after the correlation id, and the
client crashes on every one of these answers. -/
theorem C74_violated_describeAcls :
    newDescribeAclsResponse 1 (Kafka.response .describeAcls 1 7 [] (Kafka.describeAclsResponse 1 0 31 none [] [])) =
      .panic ∧
    newDescribeAclsResponse 1 (Kafka.response .describeAcls 1 7 [] (Kafka.describeAclsResponse 1 0 0 none
      [⟨2, [116], 3, [⟨[85], [42], 3, 3, []⟩], []⟩] [])) = .panic := by decide +kernel

end Healer
