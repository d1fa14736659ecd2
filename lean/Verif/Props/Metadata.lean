import Verif.Model.Metadata
import Verif.Spec.Response2
import Verif.Lemmas.Response
import Verif.Lemmas.Assign
import Verif.Props.Error

/-!
# C68: metadata responses
-/

namespace Healer

open Kafka (IsString)

/-- A broker as the cluster reports it. -/
structure SentBroker where
  nodeID : Int32
  host : Bytes
  port : Int32
  rack : Option Bytes

def SentBroker.wire (b : SentBroker) : Kafka.Broker := ⟨b.nodeID.toInt, b.host, b.port.toInt, b.rack⟩
def SentBroker.seen (b : SentBroker) : BrokerInfo := ⟨b.nodeID, b.host, b.port, b.rack.getD []⟩

structure SentBroker.Fits (b : SentBroker) : Prop where
  host : IsString b.host
  rack : ∀ s, b.rack = some s → IsString s

def PartitionMetadataInfo.wire (p : PartitionMetadataInfo) : Kafka.MetaPartition :=
  ⟨p.errorCode.toInt, p.partitionID.toInt, p.leader.toInt, p.leaderEpoch.toInt, p.replicas.map Int32.toInt,
    p.isr.map Int32.toInt, p.offlineReplicas.map Int32.toInt⟩

def TopicMetadata.wire (t : TopicMetadata) : Kafka.MetaTopic :=
  ⟨t.errorCode.toInt, t.name, t.isInternal, t.partitions.map PartitionMetadataInfo.wire⟩

/-- Before version 7 there is neither a leader epoch nor a list of offline replicas. -/
def PartitionMetadataInfo.seen (v : UInt16) (p : PartitionMetadataInfo) : PartitionMetadataInfo :=
  if 7 ≤ v.toNat then p else { p with leaderEpoch := 0, offlineReplicas := [] }

def TopicMetadata.seen (v : UInt16) (t : TopicMetadata) : TopicMetadata :=
  { t with partitions := t.partitions.map (PartitionMetadataInfo.seen v) }

/-- Same topics in the same order, with the same partitions in any order. -/
def SameTopics : List TopicMetadata → List TopicMetadata → Prop
  | [], [] => True
  | t :: ts, u :: us => t.errorCode = u.errorCode ∧ t.name = u.name ∧ t.isInternal = u.isInternal ∧
      t.partitions.Perm u.partitions ∧ SameTopics ts us
  | _, _ => False

/-- `us` lists the topics `ts`, ordered by name, each with its partitions ordered by number. -/
structure SortedTopics (ts us : List TopicMetadata) : Prop where
  names : us.Pairwise fun a b => a.name ≤ b.name
  partitions : ∀ u ∈ us, u.partitions.Pairwise fun a b => a.partitionID ≤ b.partitionID
  same : ∃ xs, xs.Perm ts ∧ SameTopics xs us

theorem goSort_partitions (ps : List PartitionMetadataInfo) :
    (goSort (fun a b : PartitionMetadataInfo => decide (a.partitionID ≤ b.partitionID)) ps).Pairwise
      fun a b => a.partitionID ≤ b.partitionID := by
  have := goSort_pairwise (le := fun a b : PartitionMetadataInfo => decide (a.partitionID ≤ b.partitionID))
    (by intro a b c; simp only [decide_eq_true_eq, Int32.le_iff_toInt_le]; omega)
    (by intro a b; simp only [Bool.or_eq_true, decide_eq_true_eq, Int32.le_iff_toInt_le]; omega) ps
  simpa using this

theorem goSort_topics (ts : List TopicMetadata) :
    (goSort (fun a b : TopicMetadata => decide (a.name ≤ b.name)) ts).Pairwise fun a b => a.name ≤ b.name := by
  have := goSort_pairwise (le := fun a b : TopicMetadata => decide (a.name ≤ b.name))
    (by intro a b c; simp only [decide_eq_true_eq]; exact List.le_trans)
    (by intro a b; simp only [Bool.or_eq_true, decide_eq_true_eq]; exact List.le_total _ _) ts
  simpa using this

theorem sortTopics_sorted (ts : List TopicMetadata) : SortedTopics ts (sortTopics ts) := by
  have hp := goSort_perm (fun a b : TopicMetadata => decide (a.name ≤ b.name)) ts
  have hs := goSort_topics ts
  unfold sortTopics
  generalize goSort (fun a b : TopicMetadata => decide (a.name ≤ b.name)) ts = xs at hp hs
  refine ⟨?_, ?_, xs, hp, ?_⟩
  · rw [List.pairwise_map]; exact hs
  · intro u hu
    obtain ⟨t, _, rfl⟩ := List.mem_map.1 hu
    exact goSort_partitions _
  · clear hp hs
    induction xs with
    | nil => trivial
    | cons x xs ih => exact ⟨rfl, rfl, rfl, (goSort_perm _ _).symm, ih⟩

theorem SameTopics.codes {xs us : List TopicMetadata} (h : SameTopics xs us) :
    (∀ t ∈ us, t.errorCode = 0 ∧ ∀ p ∈ t.partitions, p.errorCode = 0) ↔
      ∀ t ∈ xs, t.errorCode = 0 ∧ ∀ p ∈ t.partitions, p.errorCode = 0 := by
  induction xs generalizing us with
  | nil => cases us with
    | nil => rfl
    | cons _ _ => exact h.elim
  | cons x xs ih =>
    cases us with
    | nil => exact h.elim
    | cons u us =>
      obtain ⟨h1, _, _, h2, h3⟩ := h
      simp only [List.forall_mem_cons]
      rw [ih h3, h1]
      have : (∀ p ∈ u.partitions, p.errorCode = 0) ↔ ∀ p ∈ x.partitions, p.errorCode = 0 :=
        ⟨fun h p hp => h p (h2.mem_iff.1 hp), fun h p hp => h p (h2.mem_iff.2 hp)⟩
      rw [this]

theorem metadata_error (r : MetadataResponse) :
    r.error = none ↔ ∀ t ∈ r.topics, t.errorCode = 0 ∧ ∀ p ∈ t.partitions, p.errorCode = 0 := by
  unfold MetadataResponse.error
  rw [Option.map_eq_none_iff, (C55_first_error _).1]
  constructor
  · intro h t ht
    exact ⟨h _ (List.mem_flatMap.2 ⟨t, ht, by simp⟩),
      fun p hp => h _ (List.mem_flatMap.2 ⟨t, ht, List.mem_cons_of_mem _ (List.mem_map_of_mem hp)⟩)⟩
  · intro h c hc
    obtain ⟨t, ht, hc⟩ := List.mem_flatMap.1 hc
    rcases List.mem_cons.1 hc with rfl | hc
    · exact (h t ht).1
    · obtain ⟨p, hp, rfl⟩ := List.mem_map.1 hc
      exact (h t ht).2 p hp

theorem sreads_int32s (xs : List Int32) : SReads (rdArr32 rdI32) (Kafka.array Kafka.int32 (xs.map Int32.toInt)) xs :=
  sreads_arr32 Int32.toInt xs (by intros; simp) fun x _ => sreads_i32 x

theorem sreads_clusterID {s : Bytes} (h : IsString s) :
    SReads rdClusterID (Kafka.string s) ((Kafka.string s).take s.length) := by
  intro _ pre post
  unfold IsString at h
  unfold rdClusterID
  rw [Cur.bind_def]
  unfold Cur.peekRest
  rw [sliceFrom_append]
  simp only
  have h1 := creads_len16 s.length pre (s ++ post)
  rw [Cur.bind_def]
  have e : pre ++ (Kafka.string s ++ post) = pre ++ (Kafka.int16 s.length ++ (s ++ post)) := by
    unfold Kafka.string; simp
  rw [e, h1]
  simp only [toNat_len16 _ (show s.length < 2 ^ 16 by omega)]
  have e2 : sliceTo (Kafka.string s ++ post) 0 (s.length : Int) = .ok ((Kafka.string s).take s.length) := by
    unfold sliceTo
    rw [if_pos (by rw [List.length_append, string_length]; omega)]
    simp only [Int.toNat_natCast, Int.toNat_zero, List.drop_zero]
    rw [List.take_append_of_le_length (by rw [string_length]; omega)]
  rw [e2]
  simp only [Cur.bind_def, Cur.advance, Cur.pure_def]
  rw [string_length, int16_length]
  simp only [Out.ok.injEq, Prod.mk.injEq, true_and]
  omega

/-- C68: brokers, controller, topics and partitions are read as sent, the topics sorted; `Error()` is nil exactly when
no topic and no partition has an error; and the cluster id reported begins with its own length.  Missing: the cluster id
(`C68_violated_cluster_id`, `C68_violated_every_cluster_id`), and responses with a null
cluster id (`C68_violated_null_cluster_id`). -/
theorem C68_metadata_partial (v : UInt16) (hv : v ∈ clientVersions API_MetadataRequest) (corr : UInt32)
    (throttle controller : Int32) (brokers : List SentBroker) (cluster : Bytes) (topics : List TopicMetadata)
    (hb : ∀ b ∈ brokers, b.Fits) (hc : IsString cluster) (ht : ∀ t ∈ topics, IsString t.name)
    (hl : (Kafka.response .metadata v.toNat corr.toNat [] (Kafka.metadataResponse v.toNat throttle.toInt
      (brokers.map SentBroker.wire) (some cluster) controller.toInt (topics.map TopicMetadata.wire))).length < 2 ^ 31) :
    ∃ r, newMetadataResponse v (Kafka.response .metadata v.toNat corr.toNat [] (Kafka.metadataResponse v.toNat
        throttle.toInt (brokers.map SentBroker.wire) (some cluster) controller.toInt (topics.map TopicMetadata.wire))) =
        .ok (r, none) ∧
      r.correlationID = corr ∧ r.throttleTimeMs = (if 3 ≤ v.toNat then throttle else 0) ∧
      r.brokers = brokers.map SentBroker.seen ∧ r.controllerID = controller ∧
      SortedTopics (topics.map (TopicMetadata.seen v)) r.topics ∧
      (r.error = none ↔ ∀ t ∈ topics, t.errorCode = 0 ∧ ∀ p ∈ t.partitions, p.errorCode = 0) ∧
      r.clusterID = (if 2 ≤ v.toNat then (Kafka.string cluster).take cluster.length else []) := by
  have hv' : v = 7 ∨ v = 4 ∨ v = 1 := by simpa [clientVersions, availableVersions, API_MetadataRequest] using hv
  have hhv : Kafka.Api.responseHeaderVersion .metadata v.toNat = 0 := by rcases hv' with rfl | rfl | rfl <;> rfl
  have i3 : v ≥ 4 ↔ 3 ≤ v.toNat := by rcases hv' with rfl | rfl | rfl <;> decide
  have i2 : v ≥ 4 ↔ 2 ≤ v.toNat := by rcases hv' with rfl | rfl | rfl <;> decide
  have i7 : v ≥ 7 ↔ 7 ≤ v.toNat := by rcases hv' with rfl | rfl | rfl <;> decide
  have i5 : v ≥ 7 ↔ 5 ≤ v.toNat := by rcases hv' with rfl | rfl | rfl <;> decide
  have i57 : 5 ≤ v.toNat ↔ 7 ≤ v.toNat := i5.symm.trans i7
  have i32 : 3 ≤ v.toNat ↔ 2 ≤ v.toNat := i3.symm.trans i2
  clear hv hv'
  have hseen : ∀ p : PartitionMetadataInfo, (p.seen v).errorCode = p.errorCode := by
    intro p; unfold PartitionMetadataInfo.seen; split <;> rfl
  refine ⟨⟨corr, if 3 ≤ v.toNat then throttle else 0, brokers.map SentBroker.seen,
    if 2 ≤ v.toNat then (Kafka.string cluster).take cluster.length else [], controller,
    sortTopics (topics.map (TopicMetadata.seen v))⟩, ?_, rfl, rfl, rfl, rfl, sortTopics_sorted _, ?_, rfl⟩
  · refine respond_plain hhv ?_ hl
    unfold Kafka.metadataResponse
    simp only [List.append_assoc]
    refine .bind (.cond' i3 fun _ => sreads_i32 _) <| .bind ?_ <| .bind (.cond' i2 fun _ => sreads_clusterID hc) <|
      .bind (sreads_i32 _) <| .bind_pure (g := fun x => (MetadataResponse.mk _ _ _ _ _ (sortTopics x), none)) ?_
    · have := sreads_arr32' (c := Cur.call decodeToBrokerInfo) (enc := fun b : SentBroker =>
        Kafka.int32 b.wire.node ++ (Kafka.string b.wire.host ++ (Kafka.int32 b.wire.port ++
        Kafka.nullableString b.wire.rack))) SentBroker.seen brokers (by nonempty) ?_
      · refine this.cast ?_ rfl
        simp [Kafka.array, List.flatMap_map]
      · intro b h
        refine .call_run ?_
        exact .bind (sreads_i32 _) <| .bind (sreads_strI16 (hb b h).host) <| .bind (sreads_i32 _) <|
          .bind_pure (g := fun x => BrokerInfo.mk _ _ _ x) (sreads_strPos (hb b h).rack)
    · have := sreads_arr32' (c := Cur.call (decodeToTopicMetadata v)) (enc := fun t : TopicMetadata =>
        Kafka.int16 t.wire.error ++ (Kafka.string t.wire.name ++ (Kafka.boolean t.wire.internal ++
        Kafka.array (fun p : Kafka.MetaPartition => Kafka.int16 p.error ++ (Kafka.int32 p.index ++
          (Kafka.int32 p.leader ++ ((if 7 ≤ v.toNat then Kafka.int32 p.leaderEpoch else []) ++
          (Kafka.array Kafka.int32 p.replicas ++ (Kafka.array Kafka.int32 p.isr ++
          (if 5 ≤ v.toNat then Kafka.array Kafka.int32 p.offline else []))))))) t.wire.partitions)))
        (TopicMetadata.seen v) topics (by nonempty) ?_
      · refine this.cast ?_ rfl
        simp [Kafka.array, List.flatMap_map]
      · intro t h
        refine .call_run ?_
        refine .bind (sreads_i16 _) <| .bind (sreads_str16 (ht t h)) <| .bind (sreads_bool _) <|
          .bind_pure (g := fun x => TopicMetadata.mk _ _ _ x) ?_
        have := sreads_arr32' (c := Cur.call (decodeToPartitionMetadataInfo v)) (enc := fun p : PartitionMetadataInfo =>
          Kafka.int16 p.wire.error ++ (Kafka.int32 p.wire.index ++
          (Kafka.int32 p.wire.leader ++ ((if 7 ≤ v.toNat then Kafka.int32 p.wire.leaderEpoch else []) ++
          (Kafka.array Kafka.int32 p.wire.replicas ++ (Kafka.array Kafka.int32 p.wire.isr ++
          (if 5 ≤ v.toNat then Kafka.array Kafka.int32 p.wire.offline else [])))))))
          (PartitionMetadataInfo.seen v) t.partitions (by nonempty) ?_
        · refine this.cast ?_ rfl
          simp [Kafka.array, List.flatMap_map, TopicMetadata.wire]
        · intro p _
          refine .call_run ?_
          refine .cast (.bind (sreads_i16 _) <| .bind (sreads_i32 _) <| .bind (sreads_i32 _) <|
            .bind (.cond' i7 fun _ => sreads_i32 p.leaderEpoch) <| .bind (sreads_int32s p.replicas) <|
            .bind (sreads_int32s p.isr) <|
            .bind_pure (g := fun x => PartitionMetadataInfo.mk p.errorCode p.partitionID p.leader _ _ _ x)
              (.cond' i5 fun _ => sreads_int32s p.offlineReplicas)) rfl ?_
          unfold PartitionMetadataInfo.seen
          by_cases h7 : 7 ≤ v.toNat
          · rw [if_pos h7, if_pos h7, if_pos (i57.2 h7)]
          · rw [if_neg h7, if_neg h7, if_neg (fun x => h7 (i57.1 x))]
  · rw [metadata_error]
    obtain ⟨xs, hp, hs⟩ := (sortTopics_sorted (topics.map (TopicMetadata.seen v))).same
    rw [hs.codes]
    constructor
    · intro h t ht
      have := h (t.seen v) (hp.mem_iff.2 (List.mem_map_of_mem ht))
      refine ⟨this.1, fun p hp => ?_⟩
      rw [← hseen p]
      exact this.2 _ (List.mem_map_of_mem hp)
    · intro h x hx
      obtain ⟨t, ht, rfl⟩ := List.mem_map.1 (hp.mem_iff.1 hx)
      refine ⟨(h t ht).1, fun p hp => ?_⟩
      obtain ⟨q, hq, rfl⟩ := List.mem_map.1 hp
      rw [hseen q]
      exact (h t ht).2 q hq

example : newMetadataResponse 7 (Kafka.response .metadata 7 7 [] (Kafka.metadataResponse 7 5 [⟨1, [104], 9092, none⟩,
      ⟨2, [105], 9093, some [114]⟩] (some [99]) 2 [⟨0, [117], false, [⟨0, 1, 2, 9, [1, 2], [2], [1]⟩, ⟨5, 0, 1, 3,
      [1], [1], []⟩]⟩, ⟨3, [116], true, []⟩])) =
    .ok (⟨7, 5, [⟨1, [104], 9092, []⟩, ⟨2, [105], 9093, [114]⟩], [0], 2, [⟨3, [116], true, []⟩, ⟨0, [117], false, [⟨5,
      0, 1, 3, [1], [1], []⟩, ⟨0, 1, 2, 9, [1, 2], [2], [1]⟩]⟩]⟩, none) := by decide +kernel

/-- C68 fails: the cluster id "abc" is reported as the two length bytes and "a". -/
theorem C68_violated_cluster_id :
    ∃ r, newMetadataResponse 7 (Kafka.response .metadata 7 9 [] (Kafka.metadataResponse 7 0 [] (some [97, 98, 99]) 1 [])) =
      .ok (r, none) ∧ r.clusterID = [0, 3, 97] := ⟨⟨9, 0, [], [0, 3, 97], 1, []⟩, by decide +kernel, rfl⟩

/-- C68 fails: a null cluster id, which the protocol allows, crashes the decoder. -/
theorem C68_violated_null_cluster_id :
    newMetadataResponse 7 (Kafka.response .metadata 7 9 [] (Kafka.metadataResponse 7 0 [] none 1 [])) = .panic := by
  decide +kernel

end Healer
