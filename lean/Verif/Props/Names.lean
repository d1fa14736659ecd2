import Verif.Model.Names
import Verif.Spec.Names

/-!
# C56, C57, C109: names and codes
-/

namespace Healer

deriving instance DecidableEq for Except

/-! ## C56 -/

/-- C56: the codes are Kafka's, and printing and parsing are inverse to each other: the name of a codec parses to
its code; and a name that parses is, in lower case, the name of the code it parses to. -/
theorem C56_names (c : Int8) (s : String) :
    (∀ n, (c.toInt, n) ∈ Kafka.codecs ↔ (parseCompressType n = .ok c ∧ compressName c = n)) ∧
    (parseCompressType s = .ok c → compressName c = s.toLower ∧ (c.toInt, s.toLower) ∈ Kafka.codecs) := by
  constructor
  · intro n
    constructor
    · intro h
      simp only [Kafka.codecs, List.mem_cons, Prod.mk.injEq, List.not_mem_nil, or_false] at h
      rcases h with ⟨h, rfl⟩ | ⟨h, rfl⟩ | ⟨h, rfl⟩ | ⟨h, rfl⟩
      · cases Int8.toInt_inj.1 (show c.toInt = (0 : Int8).toInt from h); decide +kernel
      · cases Int8.toInt_inj.1 (show c.toInt = (1 : Int8).toInt from h); decide +kernel
      · cases Int8.toInt_inj.1 (show c.toInt = (2 : Int8).toInt from h); decide +kernel
      · cases Int8.toInt_inj.1 (show c.toInt = (3 : Int8).toInt from h); decide +kernel
    · rintro ⟨h1, rfl⟩
      unfold parseCompressType at h1
      simp only at h1
      repeat' split at h1
      all_goals first | (cases h1; done) | (cases h1; decide +kernel)
  · intro h
    unfold parseCompressType at h
    simp only at h
    repeat' split at h
    all_goals first | (cases h; done) | skip
    all_goals (rename_i hs; cases h; rw [hs]; decide +kernel)

/-- what a codec is called -/
def Compressor.called : Compressor → String
  | .none => "none"
  | .gzip => "gzip"
  | .snappy => "snappy"
  | .lz4 => "lz4"

/-- C56: the code placed in the batches of a producer is the one of the configured codec, and encoding such a batch
uses that codec. -/
theorem C56_produced (s : String) (cfg : ProducerCfg) (ts : Int64) (rs : List Record) (h : producerCodec s = .ok cfg.compression) :
    (cfg.compression.toInt, s) ∈ Kafka.codecs ∧ (createRecordBatch cfg ts rs).attributes.toInt = cfg.compression.toInt ∧
    ∃ c : Compressor, c.called = s ∧ newCompressor s = some c ∧ batchCompressor (createRecordBatch cfg ts rs).attributes = some c := by
  unfold producerCodec at h
  repeat' split at h
  all_goals first | (cases h; done) | skip
  all_goals
    (rename_i hs; simp only [Except.ok.injEq] at h; subst hs; simp only [createRecordBatch, ← h]
     refine ⟨by decide +kernel, by decide +kernel, ?_⟩
     first
     | exact ⟨.none, by decide +kernel⟩ | exact ⟨.gzip, by decide +kernel⟩
     | exact ⟨.snappy, by decide +kernel⟩ | exact ⟨.lz4, by decide +kernel⟩)

example : producerCodec "lz4" = .ok 3 := by decide +kernel
example : parseCompressType "Snappy" = .ok 2 := by decide +kernel

/-! ## C57 -/

/-- C57: for resource and pattern types, and for operations and permissions other than "unknown", writing and reading
back gives the same value.
Missing for the full statement: "unknown" of operations and permissions (`C57_violated`). -/
theorem C57_roundtrip_partial (t : Int8) :
    (0 ≤ t ∧ t ≤ 7 → parseResourceType (resourceTypeName t) = .ok t) ∧
    (0 ≤ t ∧ t ≤ 4 → parsePatternType (patternTypeName t) = .ok t) ∧
    (1 ≤ t ∧ t ≤ 12 → parseOperation (operationName t) = .ok t) ∧
    (1 ≤ t ∧ t ≤ 3 → parsePermission (permissionName t) = .ok t) := by
  have key : 0 ≤ t ∧ t ≤ 12 → t = 0 ∨ t = 1 ∨ t = 2 ∨ t = 3 ∨ t = 4 ∨ t = 5 ∨ t = 6 ∨ t = 7 ∨ t = 8 ∨ t = 9 ∨ t = 10 ∨ t = 11 ∨ t = 12 := by
    simp only [← Int8.toInt_inj, Int8.le_iff_toInt_le]
    intro h
    have h1 : (0 : Int) ≤ t.toInt := h.1
    have h2 : t.toInt ≤ 12 := h.2
    have e : ∀ n : Nat, n < 13 → (Int8.ofNat n).toInt = n := by decide
    show t.toInt = 0 ∨ t.toInt = 1 ∨ t.toInt = 2 ∨ t.toInt = 3 ∨ t.toInt = 4 ∨ t.toInt = 5 ∨ t.toInt = 6 ∨ t.toInt = 7 ∨ t.toInt = 8 ∨
      t.toInt = 9 ∨ t.toInt = 10 ∨ t.toInt = 11 ∨ t.toInt = 12
    omega
  have hle : ∀ a b : Int8, a ≤ b ↔ a.toInt ≤ b.toInt := fun a b => Int8.le_iff_toInt_le
  refine ⟨fun h => ?_, fun h => ?_, fun h => ?_, fun h => ?_⟩
  all_goals
    have h' : 0 ≤ t ∧ t ≤ 12 := by
      rw [hle, hle] at h ⊢
      have e0 : (0 : Int8).toInt = 0 := rfl
      have e1 : (1 : Int8).toInt = 1 := rfl
      have e3 : (3 : Int8).toInt = 3 := rfl
      have e4 : (4 : Int8).toInt = 4 := rfl
      have e7 : (7 : Int8).toInt = 7 := rfl
      have e12 : (12 : Int8).toInt = 12 := rfl
      omega
    rcases key h' with rfl | rfl | rfl | rfl | rfl | rfl | rfl | rfl | rfl | rfl | rfl | rfl | rfl
    all_goals first | (exact absurd h (by decide)) | decide +kernel

/-- C57 does not hold: an unknown operation or permission is read back as "any", which in a filter matches everything. -/
theorem C57_violated : parseOperation (operationName 0) = .ok 1 ∧ parsePermission (permissionName 0) = .ok 1 := by decide +kernel

/-! ## C109 -/

/-- C109: pattern types and permissions are written with Kafka's names; so are resource types other than "cluster",
and operations other than the two concerning tokens.
Missing for the full statement: these three (`C109_violated`). -/
theorem C109_kafka_names_partial :
    (∀ p ∈ Kafka.resourceTypes, p.1 ≠ 4 → resourceTypeName (Int8.ofInt p.1) = p.2) ∧
    (∀ p ∈ Kafka.patternTypes, patternTypeName (Int8.ofInt p.1) = p.2) ∧
    (∀ p ∈ Kafka.operations, p.1 ≤ 12 → operationName (Int8.ofInt p.1) = p.2) ∧
    (∀ p ∈ Kafka.permissions, permissionName (Int8.ofInt p.1) = p.2) := by decide +kernel

/-- C109: all names of resource types, pattern types and permissions of Kafka are understood; "unknown" permissions
are not.
Missing: ACLs on the cluster and on tokens (`C109_violated`). -/
theorem C109_kafka_names_read_partial :
    (∀ p ∈ Kafka.resourceTypes, parseResourceType p.2 = .ok (Int8.ofInt p.1)) ∧
    (∀ p ∈ Kafka.patternTypes, parsePatternType p.2 = .ok (Int8.ofInt p.1)) ∧
    (∀ p ∈ Kafka.operations, 1 ≤ p.1 → p.1 ≤ 12 → parseOperation p.2 = .ok (Int8.ofInt p.1)) ∧
    (∀ p ∈ Kafka.permissions, 1 ≤ p.1 → parsePermission p.2 = .ok (Int8.ofInt p.1)) := by decide +kernel

/-- C109: Kafka's numbers, written as text, are understood as well.
Missing for the full statement: resource type 4, which is refused, "unknown" operations and permissions, and the operations concerning tokens. -/
theorem C109_numbers_read_partial :
    (∀ p ∈ Kafka.resourceTypes, p.1 ≠ 4 → parseResourceType (toString p.1) = .ok (Int8.ofInt p.1)) ∧
    (∀ p ∈ Kafka.patternTypes, parsePatternType (toString p.1) = .ok (Int8.ofInt p.1)) ∧
    (∀ p ∈ Kafka.operations, 1 ≤ p.1 → p.1 ≤ 12 → parseOperation (toString p.1) = .ok (Int8.ofInt p.1)) ∧
    (∀ p ∈ Kafka.permissions, 1 ≤ p.1 → parsePermission (toString p.1) = .ok (Int8.ofInt p.1)) := by decide +kernel

/-- C109 does not hold: an ACL on the cluster is shown as one on a broker, and ACLs on tokens are shown as errors,
which cannot be read back. -/
theorem C109_violated : resourceTypeName 4 = "BROKER" ∧ operationName 13 = "ERROR" ∧ operationName 14 = "ERROR" ∧
    (parseOperation "CREATE_TOKENS").toOption = none ∧ (parseOperation (operationName 13)).toOption = none := by decide +kernel

end Healer
