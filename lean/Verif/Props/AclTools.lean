import Verif.Model.AclTools
import Verif.Props.Names

/-!
# C164: the ACL tools
-/

namespace Healer

/-- no quotes, backslashes or control characters -/
def PlainText (l : List Char) : Prop := ∀ c ∈ l, c ≠ '"' ∧ c ≠ '\\' ∧ 32 ≤ c.toNat

/-- `s` is, in upper case, the name Kafka has for `code` -/
def NamesCode (table : List (Int × String)) (s : String) (code : Int) : Prop := (code, s.toUpper) ∈ table ∧ PlainText s.toList

theorem jsonChars_plain (a b : List Char) (ha : PlainText a) : jsonChars (a ++ b) = (jsonChars b).map (a ++ ·) := by
  induction a with
  | nil => simp
  | cons c a ih =>
    have hc := ha c (by simp)
    have := ih fun x hx => ha x (by simp [hx])
    rw [List.cons_append, jsonChars.eq_def]
    split
    · rename_i h; cases h
    · rename_i h; exact absurd (List.cons.inj h).1 hc.2.1
    · rename_i h; exact absurd (List.cons.inj h).1 hc.2.1
    · rename_i h; exact absurd (List.cons.inj h).1 hc.2.1
    · rename_i x r _ _ _ h
      cases h
      rw [if_neg (by
        rintro (h | h)
        · exact hc.1 h
        · omega), this, Option.map_map]
      rfl

theorem unquoted_plain (s : String) (h : PlainText s.toList) : unquoted s = some s := by
  unfold unquoted
  have := jsonChars_plain s.toList [] h
  rw [List.append_nil] at this
  rw [this]
  simp [jsonChars]

theorem enumFlag_names (parse : String → Except Err Int8) (hu : ∀ s t : String, s.toUpper = t.toUpper → parse s = parse t) (table : List (Int × String))
    (s : String) (code : Int) (h : NamesCode table s code) (ht : ∀ p ∈ table, p.2.toUpper = p.2)
    (hp : parse s.toUpper = .ok (Int8.ofInt code)) : enumFlag parse s = Int8.ofInt code := by
  unfold enumFlag
  rw [unquoted_plain s h.2]
  have : parse s = .ok (Int8.ofInt code) := by
    rw [hu s s.toUpper (ht _ h.1).symm, hp]
  simp only [this]

theorem upper_resource : ∀ s t : String, s.toUpper = t.toUpper → parseResourceType s = parseResourceType t := fun s t h => by unfold parseResourceType; rw [h]
theorem upper_pattern : ∀ s t : String, s.toUpper = t.toUpper → parsePatternType s = parsePatternType t := fun s t h => by unfold parsePatternType; rw [h]
theorem upper_operation : ∀ s t : String, s.toUpper = t.toUpper → parseOperation s = parseOperation t := fun s t h => by unfold parseOperation; rw [h]
theorem upper_permission : ∀ s t : String, s.toUpper = t.toUpper → parsePermission s = parsePermission t := fun s t h => by unfold parsePermission; rw [h]

theorem flags_named {f : AclFlags} {rt pt op pm : Int} (h1 : NamesCode Kafka.resourceTypes f.resourceType rt) (h2 : NamesCode Kafka.patternTypes f.patternType pt)
    (h3 : NamesCode Kafka.operations f.operation op) (hop : 1 ≤ op ∧ op ≤ 12) (h4 : NamesCode Kafka.permissions f.permissionType pm) (hpm : 1 ≤ pm) :
    enumFlag parseResourceType f.resourceType = Int8.ofInt rt ∧ enumFlag parsePatternType f.patternType = Int8.ofInt pt ∧
      enumFlag parseOperation f.operation = Int8.ofInt op ∧ enumFlag parsePermission f.permissionType = Int8.ofInt pm := by
  obtain ⟨k1, k2, k3, k4⟩ := C109_kafka_names_read_partial
  exact ⟨enumFlag_names _ upper_resource _ _ _ h1 (by decide +kernel) (k1 _ h1.1), enumFlag_names _ upper_pattern _ _ _ h2 (by decide +kernel) (k2 _ h2.1),
    enumFlag_names _ upper_operation _ _ _ h3 (by decide +kernel) (k3 _ h3.1 hop.1 hop.2), enumFlag_names _ upper_permission _ _ _ h4 (by decide +kernel) (k4 _ h4.1 hpm)⟩

/-- C164, describe-acls and delete-acls: with the names Kafka has, in any case, and a resource of ordinary characters, if any, the request holds exactly what was given; what was not given is
left open.
Missing for the full statement: values which are not understood, and other resource names (`C164_violated_every_unknown`, `C164_violated_every_quote`, `C164_violated_every_backslash`). -/
theorem C164_filter_partial (f : AclFlags) (rt pt op pm : Int) (h1 : NamesCode Kafka.resourceTypes f.resourceType rt) (h2 : NamesCode Kafka.patternTypes f.patternType pt)
    (h3 : NamesCode Kafka.operations f.operation op) (hop : 1 ≤ op ∧ op ≤ 12) (h4 : NamesCode Kafka.permissions f.permissionType pm) (hpm : 1 ≤ pm)
    (hr : ∀ r, f.resource = some r → PlainText r.toList) :
    aclFilterCmd f = .ok ⟨Int8.ofInt rt, f.resource, Int8.ofInt pt, f.principal, f.host, Int8.ofInt op, Int8.ofInt pm⟩ := by
  obtain ⟨e1, e2, e3, e4⟩ := flags_named h1 h2 h3 hop h4 hpm
  have hb : f.resource.bind unquoted = f.resource := by
    cases hf : f.resource with
    | none => rfl
    | some r => exact unquoted_plain r (hr r hf)
  unfold aclFilterCmd aclFilterOf
  rw [e1, e2, e3, e4, hb]

/-- C164, create-acls, in the same way.
Missing for the full statement: as for `C164_filter_partial`, and flags left out (`C164_violated_every_default`). -/
theorem C164_creation_partial (f : AclFlags) (rt pt op pm : Int) (h1 : NamesCode Kafka.resourceTypes f.resourceType rt) (h2 : NamesCode Kafka.patternTypes f.patternType pt)
    (h3 : NamesCode Kafka.operations f.operation op) (hop : 1 ≤ op ∧ op ≤ 12) (h4 : NamesCode Kafka.permissions f.permissionType pm) (hpm : 1 ≤ pm)
    (r p h : String) (hr : f.resource = some r) (hrp : PlainText r.toList) (hp : f.principal = some p) (hh : f.host = some h) :
    aclCreationCmd f = .ok ⟨Int8.ofInt rt, r, Int8.ofInt pt, p, h, Int8.ofInt op, Int8.ofInt pm⟩ := by
  obtain ⟨e1, e2, e3, e4⟩ := flags_named h1 h2 h3 hop h4 hpm
  unfold aclCreationCmd aclCreationOf
  rw [e1, e2, e3, e4, hr, hp, hh]
  simp [unquoted_plain r hrp]

example : NamesCode Kafka.operations "describe_Configs" 10 := ⟨by decide +kernel, by unfold PlainText; decide +kernel⟩

example : aclFilterCmd { resourceType := "topic", resource := some "logs", patternType := "literal", principal := some "User:ann", operation := "read", permissionType := "Allow" } =
    .ok ⟨2, some "logs", 3, some "User:ann", none, 3, 3⟩ := by decide +kernel

/-- C164 does not hold for values that are not understood: for every operation, type, pattern or permission which is refused when it is read, the tools go on and ask with 0, which is
Kafka's "unknown". -/
theorem C164_violated_every_unknown (f : AclFlags) :
    (∀ e, PlainText f.resourceType.toList → parseResourceType f.resourceType = .error e → ∃ a, aclFilterCmd f = .ok a ∧ a.resourceType = 0) ∧
    (∀ e, PlainText f.patternType.toList → parsePatternType f.patternType = .error e → ∃ a, aclFilterCmd f = .ok a ∧ a.patternType = 0) ∧
    (∀ e, PlainText f.operation.toList → parseOperation f.operation = .error e → ∃ a, aclFilterCmd f = .ok a ∧ a.operation = 0) ∧
    (∀ e, PlainText f.permissionType.toList → parsePermission f.permissionType = .error e → ∃ a, aclFilterCmd f = .ok a ∧ a.permissionType = 0) := by
  refine ⟨fun e hp h => ⟨_, rfl, ?_⟩, fun e hp h => ⟨_, rfl, ?_⟩, fun e hp h => ⟨_, rfl, ?_⟩, fun e hp h => ⟨_, rfl, ?_⟩⟩ <;>
    simp [aclFilterOf, enumFlag, unquoted_plain _ hp, h]

/-- the operations the help texts list: describe-acls.go:95, delete-acls.go:95, create-acls.go:81 -/
def listedOperations : List String :=
  ["any", "read", "write", "create", "delete", "alter", "describe", "clusteraction", "describeconfigs", "alterconfigs", "idempotentwrite"]

/-- C164 does not hold for four of the operations the help texts list: whatever the other flags, "unknown" is asked for. -/
theorem C164_violated_every_listed (f : AclFlags) (s : String) (hs : s ∈ listedOperations) (hw : s ∈ ["clusteraction", "describeconfigs", "alterconfigs", "idempotentwrite"]) :
    ∃ a, aclFilterCmd { f with operation := s } = .ok a ∧ a.operation = 0 := by
  refine ⟨_, rfl, ?_⟩
  show enumFlag parseOperation s = 0
  revert s
  decide +kernel

/-- The other ones are understood. -/
example : ∀ s ∈ listedOperations.take 7, enumFlag parseOperation s ≠ 0 := by decide +kernel

/-- C164 does not hold for resources holding a quote: whatever the other flags, the resource is left out of the request, and so what is described or deleted are the ACLs of all resources. -/
theorem C164_violated_every_quote (f : AclFlags) (a b : String) (ha : PlainText a.toList) :
    aclFilterCmd { f with resource := some (a ++ "\"" ++ b) } = aclFilterCmd { f with resource := none } := by
  have : unquoted (a ++ "\"" ++ b) = none := by
    unfold unquoted
    rw [String.toList_append, String.toList_append, List.append_assoc, jsonChars_plain _ _ ha]
    rfl
  unfold aclFilterCmd aclFilterOf
  simp only [Option.bind_some, this, Option.bind_none]

/-- C164 does not hold for resources holding a backslash: before an "n", say, it becomes a line feed, and another resource is asked for. -/
theorem C164_violated_every_backslash (f : AclFlags) (a b : String) (ha : PlainText a.toList) (hb : PlainText b.toList) :
    ∃ x, aclFilterCmd { f with resource := some (a ++ "\\n" ++ b) } = .ok x ∧ x.resourceName = some (a ++ "\n" ++ b) := by
  refine ⟨_, rfl, ?_⟩
  show unquoted (a ++ "\\n" ++ b) = some (a ++ "\n" ++ b)
  unfold unquoted
  rw [String.toList_append, String.toList_append, List.append_assoc, jsonChars_plain _ _ ha]
  have h2 := jsonChars_plain b.toList [] hb
  rw [List.append_nil] at h2
  have : jsonChars ("\\n".toList ++ b.toList) = some ('\n' :: b.toList) := by
    show jsonChars ('\\' :: 'n' :: b.toList) = _
    have he : jsonEscape 'n' = some '\n' := by decide
    have hj : jsonChars b.toList = some b.toList := by
      rw [h2]
      simp [jsonChars]
    rw [jsonChars.eq_def]
    split
    · rename_i h; cases h
    · rename_i h; exact absurd (List.cons.inj (List.cons.inj h).2).1 (by decide)
    · rename_i c rest _ h
      obtain ⟨-, h⟩ := List.cons.inj h
      obtain ⟨rfl, rfl⟩ := List.cons.inj h
      simp [he, hj]
    · rename_i h; cases h
    · rename_i hx _ _ h
      obtain ⟨rfl, rfl⟩ := List.cons.inj h
      simp_all
  rw [this]
  simp only [Option.map_some, Option.some.injEq]
  rw [← String.toList_inj]
  simp

/-- C164 does not hold for create-acls without `--patterntype`: whatever the other flags, the pattern is "match", which no ACL can have. -/
theorem C164_violated_every_default (f : AclFlags) (hf : f.patternType = ({} : AclFlags).patternType) :
    ∃ a, aclCreationCmd f = .ok a ∧ a.patternType = 2 := by
  refine ⟨_, rfl, ?_⟩
  show enumFlag parsePatternType f.patternType = 2
  rw [hf]
  decide +kernel

end Healer
