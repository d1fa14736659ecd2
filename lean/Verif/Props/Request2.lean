import Verif.Lemmas.Request2
import Verif.Props.Request

/-!
# C61: topic administration requests
-/

namespace Healer

def ReplicaAssignment.wire (a : ReplicaAssignment) : Int × List Int := (a.partition.toInt, a.replicas.map Int32.toInt)

def CreateTopicRequest.wire (t : CreateTopicRequest) : Kafka.NewTopic :=
  { name := t.topic, partitions := t.numPartitions.toInt, replicationFactor := t.replicationFactor.toInt,
    assignments := t.replicaAssignments.map ReplicaAssignment.wire, configs := t.configEntries }

/-- Name and value. -/
theorem writes_config (c : Bytes × Bytes) : Writes (Enc.all [.str16 c.1, .str16 c.2])
    (Kafka.string c.1 ++ Kafka.nullableString (some c.2)) :=
  Writes.cast writes![Writes.str16 _, Writes.str16 _] rfl

theorem ReplicaAssignment.writes (a : ReplicaAssignment) : Writes a.enc
    ((fun a : Int × List Int => Kafka.int32 a.1 ++ Kafka.array Kafka.int32 a.2) a.wire) :=
  Writes.cast writes![Writes.i32 _, Writes.arr32 _ fun x _ => Writes.i32 x] rfl

def newTopicWire (t : Kafka.NewTopic) : Bytes :=
  Kafka.string t.name ++ Kafka.int32 t.partitions ++ Kafka.int16 t.replicationFactor ++
    Kafka.array (fun a => Kafka.int32 a.1 ++ Kafka.array Kafka.int32 a.2) t.assignments ++
    Kafka.array (fun c => Kafka.string c.1 ++ Kafka.nullableString (some c.2)) t.configs

theorem CreateTopicRequest.writes (t : CreateTopicRequest) : Writes t.enc (newTopicWire t.wire) := by
  refine Writes.cast writes![Writes.str16 _, Writes.i32 _, Writes.i16 _, Writes.arr32
    (g := fun a : Int × List Int => Kafka.int32 a.1 ++ Kafka.array Kafka.int32 a.2) _ fun x _ => x.writes,
    Writes.arr32' _ fun x _ => writes_config x] ?_
  simp only [newTopicWire, CreateTopicRequest.wire, List.append_assoc]

theorem CreateTopicRequest.length_eq (t : CreateTopicRequest) : t.length = (newTopicWire t.wire).length := by
  have h1 := foldl_array (k := ReplicaAssignment.wire)
    (g := fun a : Int × List Int => Kafka.int32 a.1 ++ Kafka.array Kafka.int32 a.2)
    (f := fun l ra => l + 4 + 4 + 4 * ra.replicas.length) t.replicaAssignments (2 + t.topic.length + (4 + 2) + 4)
    (by intro l x _; simp [ReplicaAssignment.wire]; omega)
  have h2 := foldl_array (k := id)
    (g := fun c : Bytes × Bytes => Kafka.string c.1 ++ Kafka.nullableString (some c.2))
    (f := fun l c => l + (2 + c.1.length + 2 + c.2.length)) t.configEntries
    (t.replicaAssignments.foldl (fun l ra => l + 4 + 4 + 4 * ra.replicas.length) (2 + t.topic.length + (4 + 2) + 4) + 4)
    (by intro l x _; simp [optLen]; omega)
  rw [List.map_id] at h2
  simp only [CreateTopicRequest.length, newTopicWire, CreateTopicRequest.wire, List.length_append, string_length,
    int32_length, int16_length]
  omega

theorem C61_createTopics (r : CreateTopicsRequest) (v : UInt16) (_ : v ∈ clientVersions API_CreateTopics) (corr : UInt32)
    (cid : Option Bytes) :
    r.encode (reqHeader API_CreateTopics v corr cid) = .ok (Kafka.request .createTopics v.toNat corr.toNat cid
      (Kafka.createTopicsRequest (r.createTopicRequests.map CreateTopicRequest.wire) r.timeout.toNat)) := by
  refine encodeSized_ok .createTopics rfl (Writes.cast writes![Writes.arr32 _ fun x _ => x.writes, Writes.u32 _] rfl) ?_
  have := foldl_array (k := CreateTopicRequest.wire) (g := newTopicWire) (f := fun l t => l + t.length)
    r.createTopicRequests 4 (by intro l x _; rw [x.length_eq])
  show _ = (Kafka.array newTopicWire (r.createTopicRequests.map CreateTopicRequest.wire) ++ Kafka.int32 r.timeout.toNat).length
  rw [List.length_append, int32_length]
  omega

example : CreateTopicsRequest.encode (reqHeader API_CreateTopics 0 7 (some [99])) ⟨[⟨[116], 2, 1, [⟨0, [1, 2]⟩],
      [([97], [98])]⟩], 1000⟩ =
    .ok [0, 0, 0, 58, 0, 19, 0, 0, 0, 0, 0, 7, 0, 1, 99, 0, 0, 0, 1, 0, 1, 116, 0, 0, 0, 2, 0, 1, 0, 0, 0, 1, 0, 0, 0,
      0, 0, 0, 0, 2, 0, 0, 0, 1, 0, 0, 0, 2, 0, 0, 0, 1, 0, 1, 97, 0, 1, 98, 0, 0, 3, 232] := by decide +kernel

theorem C61_deleteTopics (topics : List Bytes) (timeout : Int32) (v : UInt16) (_ : v ∈ clientVersions API_DeleteTopics)
    (corr : UInt32) (cid : Option Bytes) :
    encodeDeleteTopicsRequest (reqHeader API_DeleteTopics v corr cid) topics timeout =
      .ok (Kafka.request .deleteTopics v.toNat corr.toNat cid (Kafka.deleteTopicsRequest topics timeout.toInt)) := by
  refine encodeSized_ok .deleteTopics rfl (Writes.cast writes![Writes.arr32' _ fun x _ => Writes.str16 x, Writes.i32 _] rfl) ?_
  have := foldl_array (k := id) (g := Kafka.string) (f := fun l g => l + (2 + g.length)) topics 4 (by intros; simp)
  rw [List.map_id] at this
  simp only [Kafka.deleteTopicsRequest, List.length_append, int32_length]
  omega

example : encodeDeleteTopicsRequest (reqHeader API_DeleteTopics 0 7 (some [99])) [[116], [117]] 1000 =
    .ok [0, 0, 0, 25, 0, 20, 0, 0, 0, 0, 0, 7, 0, 1, 99, 0, 0, 0, 2, 0, 1, 116, 0, 1, 117, 0, 0, 3, 232] := by decide +kernel

/-! ### Create partitions -/

def CreatePartitionsTopic.wire (t : CreatePartitionsTopic) : Kafka.MorePartitions :=
  { name := t.name, count := t.count.toInt, assignments := t.assignments.map (List.map (List.map Int32.toInt)) }

def morePartitionsWire (version : Nat) (t : Kafka.MorePartitions) : Bytes :=
  if 2 ≤ version then
    Kafka.compactString t.name ++ Kafka.int32 t.count ++ Kafka.compactNullableArray
      (fun a => Kafka.compactArray Kafka.int32 a ++ Kafka.tagBuffer []) t.assignments ++ Kafka.tagBuffer []
  else Kafka.string t.name ++ Kafka.int32 t.count ++ Kafka.nullableArray (fun a => Kafka.array Kafka.int32 a) t.assignments

/-- Sizes for which the computed buffer is large enough in version 2.  (Topic names have at most 249 bytes.) -/
structure CreatePartitionsTopic.Moderate (t : CreatePartitionsTopic) : Prop where
  name : t.name.length < 16383
  count : (t.assignments.getD []).length + 1 < 2 ^ 21
  ids : ∀ a ∈ t.assignments.getD [], a.length + 1 < 2 ^ 28

theorem each_i32_writes (xs : List Int32) : Writes (Enc.each .i32 xs) ((xs.map Int32.toInt).flatMap Kafka.int32) :=
  (Writes.each xs fun x _ => Writes.i32 x).cast (by rw [List.flatMap_map])

theorem assignment2_writes (ids : List Int32) (h : ids.length < 2 ^ 63) : Writes (encodeAssignment 2 ids)
    ((fun a => Kafka.compactArray Kafka.int32 a ++ Kafka.tagBuffer []) (ids.map Int32.toInt)) := by
  refine Writes.cast writes![Writes.put _, Writes.nop, each_i32_writes ids, Writes.noTags] ?_
  simp [Kafka.compactArray, putUvarint_eq, lenPlus1_eq _ h]

theorem assignment0_writes (ids : List Int32) :
    Writes (encodeAssignment 0 ids) (Kafka.array Kafka.int32 (ids.map Int32.toInt)) := by
  refine Writes.cast writes![Writes.nop, Writes.put _, each_i32_writes ids, Writes.nop] ?_
  simp [Kafka.array, be32_ofNat]

theorem createPartitionsTopic2_writes (t : CreatePartitionsTopic) (h : t.Moderate) :
    Writes (t.enc 2) (morePartitionsWire 2 t.wire) := by
  have hn := h.name
  have hc := h.count
  have he : Writes (Enc.each (encodeAssignment 2) (t.assignments.getD []))
      (((t.assignments.getD []).map (List.map Int32.toInt)).flatMap
        fun a => Kafka.compactArray Kafka.int32 a ++ Kafka.tagBuffer []) :=
    (Writes.each _ fun x hx => assignment2_writes x (by have := h.ids x hx; omega)).cast (by rw [List.flatMap_map])
  have hm : Writes (match t.assignments with
      | none => Enc.put (putUvarint 0)
      | some xs => Enc.put (putUvarint (lenPlus1 xs.length)))
      (Kafka.uvarint (match t.assignments with | none => 0 | some xs => xs.length + 1)) := by
    cases ha : t.assignments with
    | none => exact (Writes.put _).cast (putUvarint_eq _)
    | some xs =>
      rw [ha] at hc
      exact (Writes.put _).cast (by rw [putUvarint_eq, lenPlus1_eq _ (by simp at hc; omega)])
  refine Writes.cast writes![Writes.put _, Writes.nop, Writes.cpy _, Writes.i32 _, hm, Writes.nop, he, Writes.noTags] ?_
  cases ha : t.assignments <;>
    simp [morePartitionsWire, CreatePartitionsTopic.wire, ha, Kafka.compactString, Kafka.compactNullableArray, Kafka.compactArray,
      putUvarint_eq, lenPlus1_eq t.name.length (by omega)]

theorem createPartitionsTopic0_writes (t : CreatePartitionsTopic) (h : t.assignments ≠ none) :
    Writes (t.enc 0) (morePartitionsWire 0 t.wire) := by
  have he : Writes (Enc.each (encodeAssignment 0) (t.assignments.getD []))
      (((t.assignments.getD []).map (List.map Int32.toInt)).flatMap fun a => Kafka.array Kafka.int32 a) :=
    (Writes.each _ fun x _ => assignment0_writes x).cast (by rw [List.flatMap_map])
  refine Writes.cast writes![Writes.nop, Writes.put _, Writes.cpy _, Writes.i32 _, Writes.nop, Writes.put _, he, Writes.nop] ?_
  cases ha : t.assignments with
  | none => exact absurd ha h
  | some xs =>
    simp [morePartitionsWire, CreatePartitionsTopic.wire, ha, Kafka.string, Kafka.nullableArray, Kafka.array,
      be16_ofNat, be32_ofNat]

theorem morePartitions2_length (t : CreatePartitionsTopic) (h : t.Moderate) (l : Nat) :
    l + (morePartitionsWire 2 t.wire).length ≤
      (t.assignments.getD []).foldl (fun l a => l + 4 + 4 * a.length + 1) (l + (2 + t.name.length) + 4 + 4) := by
  have u1 := uvarint_length_le 1 (t.name.length + 1) (by have := h.name; omega)
  have hle := foldl_ge (k := List.map Int32.toInt) (g := fun a => Kafka.compactArray Kafka.int32 a ++ Kafka.tagBuffer [])
    (f := fun l a => l + 4 + 4 * a.length + 1) (t.assignments.getD []) (l + (2 + t.name.length) + 4 + 4) (by
      intro l a ha
      have := uvarint_length_le 3 (a.length + 1) (by have := h.ids a ha; omega)
      rw [List.length_append, compactArray_length, int32s_length, tagBuffer_nil_length, List.length_map]
      omega)
  have hc := h.count
  unfold morePartitionsWire CreatePartitionsTopic.wire
  rw [if_pos (by decide)]
  cases ha : t.assignments with
  | none =>
    rw [ha] at hle
    simp only [Option.getD_none, List.map_nil, List.flatMap_nil, List.length_nil] at hle
    simp only [Option.map_none, Kafka.compactNullableArray, List.length_append, compactString_length, int32_length,
      tagBuffer_nil_length, uvarint_zero, List.length_cons, List.length_nil, Option.getD_none]
    omega
  | some xs =>
    rw [ha] at hle hc
    have := uvarint_length_le 2 (xs.length + 1) (by simpa using hc)
    simp only [Option.getD_some] at hle
    simp only [Option.map_some, Kafka.compactNullableArray, List.length_append, compactString_length, int32_length,
      tagBuffer_nil_length, compactArray_length, List.length_map, Option.getD_some]
    omega

/-- C61, version 2 of create-partitions, for sizes within `Moderate` (far beyond what brokers accept); for larger ones
the computed buffer may be too small. -/
theorem C61_createPartitions_v2 (r : CreatePartitionsRequest) (hr : ∀ t ∈ r.topics, t.Moderate)
    (hn : r.topics.length + 1 < 2 ^ 28) (corr : UInt32) (cid : Option Bytes) :
    r.encode (reqHeader API_CreatePartitions 2 corr cid) 2 = .ok (Kafka.request .createPartitions (2 : UInt16).toNat
      corr.toNat cid (Kafka.createPartitionsRequest 2 (r.topics.map CreatePartitionsTopic.wire) r.timeoutMS.toInt
        r.validateOnly)) := by
  have he : Writes (Enc.each (CreatePartitionsTopic.enc 2) r.topics)
      ((r.topics.map CreatePartitionsTopic.wire).flatMap (morePartitionsWire 2)) :=
    (Writes.each _ fun t ht => createPartitionsTopic2_writes t (hr t ht)).cast (by rw [List.flatMap_map])
  refine encodePatched_ok .createPartitions rfl (Writes.cast writes![Writes.put _, Writes.nop, he, Writes.i32 _,
    Writes.bool _, Writes.noTags] ?_) ?_
  · show _ = Kafka.compactArray (morePartitionsWire 2) _ ++ _ ++ _ ++ _
    simp [Kafka.compactArray, putUvarint_eq, lenPlus1_eq r.topics.length (by omega)]
  · have u := uvarint_length_le 3 (r.topics.length + 1) (by omega)
    have := foldl_ge (k := CreatePartitionsTopic.wire) (g := morePartitionsWire 2)
      (f := fun l t => (t.assignments.getD []).foldl (fun l a => l + 4 + 4 * a.length + 1)
        (l + (2 + t.name.length) + 4 + 4)) r.topics 4 (fun l t ht => morePartitions2_length t (hr t ht) l)
    show (Kafka.compactArray (morePartitionsWire 2) _ ++ _ ++ _ ++ _).length ≤ _
    simp only [List.length_append, compactArray_length, List.length_map, int32_length, boolean_length,
      tagBuffer_nil_length, CreatePartitionsRequest.length, if_pos]
    omega

example : CreatePartitionsRequest.encode (reqHeader API_CreatePartitions 2 7 (some [99])) 2 ⟨[⟨[116], 3, some [[1],
      [2]]⟩], 1000, false⟩ =
    .ok [0, 0, 0, 39, 0, 37, 0, 2, 0, 0, 0, 7, 0, 1, 99, 0, 2, 2, 116, 0, 0, 0, 3, 3, 2, 0, 0, 0, 1, 0, 2, 0, 0, 0, 2,
      0, 0, 0, 0, 3, 232, 0, 0] := by decide +kernel

theorem morePartitions0_length (t : CreatePartitionsTopic) (h : t.assignments ≠ none) (l : Nat) :
    l + (morePartitionsWire 0 t.wire).length ≤
      (t.assignments.getD []).foldl (fun l a => l + 4 + 4 * a.length + 1) (l + (2 + t.name.length) + 4 + 4) := by
  have hle := foldl_ge (k := List.map Int32.toInt) (g := fun a => Kafka.array Kafka.int32 a)
    (f := fun l a => l + 4 + 4 * a.length + 1) (t.assignments.getD []) (l + (2 + t.name.length) + 4 + 4) (by
      intro l a _
      rw [array_int32_length, List.length_map]; omega)
  cases ha : t.assignments with
  | none => exact absurd ha h
  | some xs =>
    rw [ha] at hle
    simp only [Option.getD_some] at hle
    simp [morePartitionsWire, CreatePartitionsTopic.wire, ha, Kafka.nullableArray, array_length] at *
    omega

/-- C61, version 0 of create-partitions, when every topic has explicit assignments.  Missing: topics without
(`C61_violated_createPartitions`). -/
theorem C61_createPartitions_v0_partial (r : CreatePartitionsRequest) (hr : ∀ t ∈ r.topics, t.assignments ≠ none)
    (corr : UInt32) (cid : Option Bytes) :
    r.encode (reqHeader API_CreatePartitions 0 corr cid) 0 = .ok (Kafka.request .createPartitions (0 : UInt16).toNat
      corr.toNat cid (Kafka.createPartitionsRequest 0 (r.topics.map CreatePartitionsTopic.wire) r.timeoutMS.toInt
        r.validateOnly)) := by
  have he : Writes (Enc.each (CreatePartitionsTopic.enc 0) r.topics)
      ((r.topics.map CreatePartitionsTopic.wire).flatMap (morePartitionsWire 0)) :=
    (Writes.each _ fun t ht => createPartitionsTopic0_writes t (hr t ht)).cast (by rw [List.flatMap_map])
  refine encodePatched_ok .createPartitions rfl (Writes.cast writes![Writes.nop, Writes.put _, he, Writes.i32 _,
    Writes.bool _, Writes.nop] ?_) ?_
  · show _ = Kafka.array (morePartitionsWire 0) _ ++ _ ++ _
    simp [Kafka.array, be32_ofNat]
  · have := foldl_ge (k := CreatePartitionsTopic.wire) (g := morePartitionsWire 0)
      (f := fun l t => (t.assignments.getD []).foldl (fun l a => l + 4 + 4 * a.length + 1)
        (l + (2 + t.name.length) + 4 + 4)) r.topics 4 (fun l t ht => morePartitions0_length t (hr t ht) l)
    show (Kafka.array (morePartitionsWire 0) _ ++ _ ++ _).length ≤ _
    simp only [List.length_append, array_length, int32_length, boolean_length, CreatePartitionsRequest.length]
    omega

example : CreatePartitionsRequest.encode (reqHeader API_CreatePartitions 0 7 (some [99])) 0 ⟨[⟨[116], 3, some [[1],
      [2]]⟩], 1000, false⟩ =
    .ok [0, 0, 0, 47, 0, 37, 0, 0, 0, 0, 0, 7, 0, 1, 99, 0, 0, 0, 1, 0, 1, 116, 0, 0, 0, 3, 0, 0, 0, 2, 0, 0, 0, 1, 0,
      0, 0, 1, 0, 0, 0, 1, 0, 0, 0, 2, 0, 0, 3, 232, 0] := by decide +kernel

/-- Without explicit assignments version 0 carries an empty array where the grammar wants null: the broker
is told to give no replicas to the new partitions instead of choosing them itself. -/
theorem C61_violated_createPartitions :
    let r : CreatePartitionsRequest := { topics := [⟨[116], 3, none⟩], timeoutMS := 1000, validateOnly := false }
    r.encode (reqHeader API_CreatePartitions 0 1 (some [99])) 0 ≠ .ok (Kafka.request .createPartitions 0 1 (some [99])
      (Kafka.createPartitionsRequest 0 (r.topics.map CreatePartitionsTopic.wire) 1000 false)) ∧
    r.encode (reqHeader API_CreatePartitions 0 1 (some [99])) 0 = .ok (Kafka.request .createPartitions 0 1 (some [99])
      (Kafka.createPartitionsRequest 0 [{ name := [116], count := 3, assignments := some [] }] 1000 false)) := by decide +kernel

/-! ### Configuration -/

def DescribeConfigsResource.wire (r : DescribeConfigsResource) : Kafka.ConfigQuery :=
  { resourceType := r.resourceType.toNat, resourceName := r.resourceName, names := r.configNames }

def configQueryWire (r : Kafka.ConfigQuery) : Bytes :=
  Kafka.int8 r.resourceType ++ Kafka.string r.resourceName ++ Kafka.nullableArray Kafka.string r.names

theorem DescribeConfigsResource.writes (r : DescribeConfigsResource) : Writes r.enc (configQueryWire r.wire) := by
  refine Writes.cast writes![Writes.u8 _, Writes.str16 _, Writes.put _, Writes.each _ fun x _ => Writes.str16 x] ?_
  cases h : r.configNames with
  | none =>
    have : be32 0xffffffff = Kafka.int32 (-1) := by decide
    simp [configQueryWire, DescribeConfigsResource.wire, h, Kafka.nullableArray, this]
  | some xs => simp [configQueryWire, DescribeConfigsResource.wire, h, Kafka.nullableArray, Kafka.array, be32_ofNat]

theorem DescribeConfigsResource.length_eq (r : DescribeConfigsResource) (l : Nat) :
    (r.configNames.getD []).foldl (fun l c => l + (2 + c.length)) (l + 1 + (2 + r.resourceName.length) + 4) =
      l + (configQueryWire r.wire).length := by
  have := foldl_array (k := id) (g := Kafka.string) (f := fun l c => l + (2 + c.length)) (r.configNames.getD [])
    (l + 1 + (2 + r.resourceName.length) + 4) (by intros; simp)
  rw [List.map_id, array_length] at this
  cases h : r.configNames <;> rw [h] at this <;>
    simp [configQueryWire, DescribeConfigsResource.wire, h, Kafka.nullableArray, array_length] at * <;> omega

theorem C61_describeConfigs (rs : List DescribeConfigsResource) (v : UInt16) (_ : v ∈ clientVersions API_DescribeConfigs)
    (corr : UInt32) (cid : Option Bytes) :
    encodeDescribeConfigsRequest (reqHeader API_DescribeConfigs v corr cid) rs = .ok (Kafka.request .describeConfigs
      v.toNat corr.toNat cid (Kafka.describeConfigsRequest (rs.map DescribeConfigsResource.wire))) := by
  refine encodeSized_ok .describeConfigs rfl (Writes.arr32 (g := configQueryWire) _ fun x _ => x.writes) ?_
  have := foldl_array (k := DescribeConfigsResource.wire) (g := configQueryWire)
    (f := fun l r => (r.configNames.getD []).foldl (fun l c => l + (2 + c.length))
      (l + 1 + (2 + r.resourceName.length) + 4)) rs 4 (fun l r _ => r.length_eq l)
  show _ = (Kafka.array configQueryWire _).length
  omega

example : encodeDescribeConfigsRequest (reqHeader API_DescribeConfigs 0 7 (some [99])) [⟨2, [116], some [[97]]⟩] =
    .ok [0, 0, 0, 26, 0, 32, 0, 0, 0, 0, 0, 7, 0, 1, 99, 0, 0, 0, 1, 2, 0, 1, 116, 0, 0, 0, 1, 0, 1, 97] := by decide +kernel

def AlterConfigsResource.wire (r : AlterConfigsResource) : Kafka.ConfigChange :=
  { resourceType := r.resourceType.toNat, resourceName := r.resourceName, entries := r.configEntries }

def configChangeWire (r : Kafka.ConfigChange) : Bytes :=
  Kafka.int8 r.resourceType ++ Kafka.string r.resourceName ++
    Kafka.array (fun e => Kafka.string e.1 ++ Kafka.nullableString (some e.2)) r.entries

theorem AlterConfigsResource.writes (r : AlterConfigsResource) : Writes r.enc (configChangeWire r.wire) := by
  refine Writes.cast writes![Writes.u8 _, Writes.str16 _, Writes.arr32' _ fun x _ => writes_config x] ?_
  simp [configChangeWire, AlterConfigsResource.wire]

theorem AlterConfigsResource.length_eq (r : AlterConfigsResource) (l : Nat) :
    r.configEntries.foldl (fun l c => l + (2 + c.1.length) + (2 + c.2.length)) (l + 1 + (2 + r.resourceName.length) + 4) =
      l + (configChangeWire r.wire).length := by
  have := foldl_array (k := id) (g := fun c : Bytes × Bytes => Kafka.string c.1 ++ Kafka.nullableString (some c.2))
    (f := fun l c => l + (2 + c.1.length) + (2 + c.2.length)) r.configEntries
    (l + 1 + (2 + r.resourceName.length) + 4) (by intros; simp [optLen]; omega)
  rw [List.map_id] at this
  simp only [configChangeWire, AlterConfigsResource.wire, List.length_append, int8_length, string_length]
  omega

theorem C61_alterConfigs (r : AlterConfigsRequest) (v : UInt16) (_ : v ∈ clientVersions API_AlterConfigs) (corr : UInt32)
    (cid : Option Bytes) :
    r.encode (reqHeader API_AlterConfigs v corr cid) = .ok (Kafka.request .alterConfigs v.toNat corr.toNat cid
      (Kafka.alterConfigsRequest (r.resources.map AlterConfigsResource.wire) r.validateOnly)) := by
  refine encodeSized_ok .alterConfigs rfl (Writes.cast writes![Writes.arr32 (g := configChangeWire) _ fun x _ => x.writes,
    Writes.bool _] rfl) ?_
  have := foldl_array (k := AlterConfigsResource.wire) (g := configChangeWire)
    (f := fun l x => x.configEntries.foldl (fun l c => l + (2 + c.1.length) + (2 + c.2.length))
      (l + 1 + (2 + x.resourceName.length) + 4)) r.resources 4 (fun l r _ => r.length_eq l)
  show _ = (Kafka.array configChangeWire _ ++ Kafka.boolean _).length
  rw [List.length_append, boolean_length]
  omega

example : AlterConfigsRequest.encode (reqHeader API_AlterConfigs 0 7 (some [99])) ⟨[⟨2, [116], [([97], [98])]⟩], true⟩
      =
    .ok [0, 0, 0, 30, 0, 33, 0, 0, 0, 0, 0, 7, 0, 1, 99, 0, 0, 0, 1, 2, 0, 1, 116, 0, 0, 0, 1, 0, 1, 97, 0, 1, 98, 1]
      := by decide +kernel

def IncrementalEntry.wire (e : IncrementalEntry) : Kafka.ConfigOp :=
  { name := e.name, operation := e.operation.toInt, value := e.value }

def IncrementalResource.wire (r : IncrementalResource) : Kafka.ConfigOps :=
  { resourceType := r.resourceType.toNat, resourceName := r.resourceName, entries := r.entries.map IncrementalEntry.wire }

def configOpWire (e : Kafka.ConfigOp) : Bytes :=
  Kafka.string e.name ++ Kafka.int8 e.operation ++ Kafka.nullableString (some e.value)

def configOpsWire (r : Kafka.ConfigOps) : Bytes :=
  Kafka.int8 r.resourceType ++ Kafka.string r.resourceName ++ Kafka.array configOpWire r.entries

theorem IncrementalEntry.writes (e : IncrementalEntry) : Writes e.enc (configOpWire e.wire) := by
  refine Writes.cast writes![Writes.str16 _, Writes.i8 _, Writes.str16 _] ?_
  simp [configOpWire, IncrementalEntry.wire, Kafka.nullableString, Kafka.string]

theorem IncrementalResource.writes (r : IncrementalResource) : Writes r.enc (configOpsWire r.wire) := by
  refine Writes.cast writes![Writes.u8 _, Writes.str16 _, Writes.arr32 _ fun x _ => x.writes] ?_
  simp [configOpsWire, IncrementalResource.wire]

theorem IncrementalResource.length_eq (r : IncrementalResource) (l : Nat) :
    r.entries.foldl (fun l c => l + (2 + c.name.length) + 1 + (2 + c.value.length)) (l + 1 + (2 + r.resourceName.length) + 4) =
      l + (configOpsWire r.wire).length := by
  have := foldl_array (k := IncrementalEntry.wire) (g := configOpWire)
    (f := fun l c => l + (2 + c.name.length) + 1 + (2 + c.value.length)) r.entries
    (l + 1 + (2 + r.resourceName.length) + 4) (by intros; simp [optLen, configOpWire, IncrementalEntry.wire]; omega)
  simp only [configOpsWire, IncrementalResource.wire, List.length_append, int8_length, string_length]
  omega

theorem C61_incrementalAlterConfigs (r : IncrementalAlterConfigsRequest) (v : UInt16)
    (_ : v ∈ clientVersions API_IncrementalAlterConfigs) (corr : UInt32) (cid : Option Bytes) :
    r.encode (reqHeader API_IncrementalAlterConfigs v corr cid) = .ok (Kafka.request .incrementalAlterConfigs v.toNat
      corr.toNat cid (Kafka.incrementalAlterConfigsRequest (r.resources.map IncrementalResource.wire) r.validateOnly)) := by
  refine encodeSized_ok .incrementalAlterConfigs rfl (Writes.cast
    writes![Writes.arr32 (g := configOpsWire) _ fun x _ => x.writes, Writes.bool _] rfl) ?_
  have := foldl_array (k := IncrementalResource.wire) (g := configOpsWire)
    (f := fun l x => x.entries.foldl (fun l c => l + (2 + c.name.length) + 1 + (2 + c.value.length))
      (l + 1 + (2 + x.resourceName.length) + 4)) r.resources 4 (fun l r _ => r.length_eq l)
  show _ = (Kafka.array configOpsWire _ ++ Kafka.boolean _).length
  rw [List.length_append, boolean_length]
  omega

example : IncrementalAlterConfigsRequest.encode (reqHeader API_IncrementalAlterConfigs 0 7 (some [99])) ⟨[⟨2, [116],
      [⟨[97], 0, [98]⟩]⟩], true⟩ =
    .ok [0, 0, 0, 31, 0, 44, 0, 0, 0, 0, 0, 7, 0, 1, 99, 0, 0, 0, 1, 2, 0, 1, 116, 0, 0, 0, 1, 0, 1, 97, 0, 0, 1, 98,
      1] := by decide +kernel

/-! ### Log directories and elections -/

def topicPidsWire (t : Bytes × List Int) : Bytes := Kafka.string t.1 ++ Kafka.array Kafka.int32 t.2

theorem topicPids_foldl (topics : List TopicPids) (a : Nat) :
    topics.foldl (fun l t => l + (2 + t.topic.length) + 4 + 4 * t.partitions.length) a + 4 =
      a + (Kafka.array topicPidsWire (topics.map TopicPids.wire)).length :=
  foldl_array topics a fun l t _ => by
    have := t.length_eq
    show _ = l + ((fun t : Bytes × List Int => Kafka.string t.1 ++ Kafka.array Kafka.int32 t.2) t.wire).length
    omega

theorem C61_describeLogDirs (topics : List TopicPids) (v : UInt16) (_ : v ∈ clientVersions API_DescribeLogDirs) (corr : UInt32)
    (cid : Option Bytes) :
    encodeDescribeLogDirsRequest (reqHeader API_DescribeLogDirs v corr cid) topics = .ok (Kafka.request .describeLogDirs
      v.toNat corr.toNat cid (Kafka.describeLogDirsRequest (topics.map TopicPids.wire))) := by
  have hw : Writes (Enc.arr32 TopicPids.enc topics) (Kafka.describeLogDirsRequest (topics.map TopicPids.wire)) :=
    Writes.arr32 (g := topicPidsWire) _ fun t _ => t.writes
  have hl := topicPids_foldl topics 4
  have hb : (Kafka.describeLogDirsRequest (topics.map TopicPids.wire)).length =
    (Kafka.array topicPidsWire (topics.map TopicPids.wire)).length := rfl
  unfold encodeDescribeLogDirsRequest
  rw [reqHeader_length .describeLogDirs API_DescribeLogDirs v corr cid rfl]
  simp only [Out.bind_ok]
  rw [encodeCut_of_writes writes![Writes.put _, reqHeader_writes .describeLogDirs API_DescribeLogDirs v corr cid rfl, hw]]
  · rw [show topics.foldl (fun l t => l + (2 + t.topic.length) + 4 + 4 * t.partitions.length) 4 =
      (Kafka.describeLogDirsRequest (topics.map TopicPids.wire)).length by omega, be32_ofNat, ← List.length_append]
    rfl
  · simp only [List.length_append, be32_ofNat, int32_length]
    omega

example : encodeDescribeLogDirsRequest (reqHeader API_DescribeLogDirs 0 7 (some [99])) [⟨[116], [0, 1]⟩] =
    .ok [0, 0, 0, 30, 0, 35, 0, 0, 0, 0, 0, 7, 0, 1, 99, 0, 0, 0, 1, 0, 1, 116, 0, 0, 0, 2, 0, 0, 0, 0, 0, 0, 0, 1] :=
      by decide +kernel

theorem C61_electLeaders (topics : List TopicPids) (timeout : Int32) (v : UInt16) (_ : v ∈ clientVersions API_ElectLeaders)
    (corr : UInt32) (cid : Option Bytes) :
    encodeElectLeadersRequest (reqHeader API_ElectLeaders v corr cid) topics timeout = .ok (Kafka.request .electLeaders
      v.toNat corr.toNat cid (Kafka.electLeadersRequest (topics.map TopicPids.wire) timeout.toInt)) := by
  refine encodePatched_ok .electLeaders rfl (Writes.cast writes![Writes.arr32 (g := topicPidsWire) _ fun t _ => t.writes,
    Writes.i32 _] rfl) ?_
  have hl := topicPids_foldl topics (4 + 1 + 4)
  show (Kafka.array topicPidsWire _ ++ Kafka.int32 _).length ≤ _
  rw [List.length_append, int32_length]
  omega

example : encodeElectLeadersRequest (reqHeader API_ElectLeaders 0 7 (some [99])) [⟨[116], [0, 1]⟩] 1000 =
    .ok [0, 0, 0, 34, 0, 43, 0, 0, 0, 0, 0, 7, 0, 1, 99, 0, 0, 0, 1, 0, 1, 116, 0, 0, 0, 2, 0, 0, 0, 0, 0, 0, 0, 1, 0,
      0, 3, 232] := by decide +kernel

end Healer
