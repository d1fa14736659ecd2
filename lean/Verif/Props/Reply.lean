import Verif.Model.Reply
import Verif.Props.Response3
import Verif.Props.ReadBack2

/-!
# Responses written and read back (C137)
-/

namespace Healer

open Kafka (IsString)

/-! ## Pieces -/

theorem encodeFlexString_eq (f : Bool) (s : Bytes) (h : s.length < 2 ^ 63) : encodeFlexString f s = .ok (Kafka.flexString f s) := by
  cases f
  · exact encodeString_eq s
  · exact encodeCompactString_eq s h

theorem encodeFlexNullable_eq (f : Bool) (s : Option Bytes) (h : ∀ b, s = some b → b.length + 1 < 2 ^ 21) :
    encodeFlexNullable f s = .ok (Kafka.flexNullable f s) := by
  cases f
  · exact encodeNullableString_eq s
  · exact encodeCompactNullableString_eq s h

theorem tags_encode_eq {ts : TaggedFields} (h : ts.Fits) : ts.encode = .ok (Kafka.tagBuffer ts.wire) :=
  taggedFields_encode_eq ts h.2 (by have := h.1; omega)

theorem encodeFlexTags_eq (f : Bool) {ts : TaggedFields} (h : ts.Fits) : encodeFlexTags f ts = .ok (Kafka.flexTags f ts.wire) := by
  cases f
  · rfl
  · exact tags_encode_eq h

theorem isString_lt {s : Bytes} (h : IsString s) : s.length < 2 ^ 63 := by
  unfold IsString at h; omega

theorem isString_opt {s : Option Bytes} (h : ∀ b, s = some b → IsString b) : ∀ b, s = some b → b.length + 1 < 2 ^ 21 := by
  intro b hb
  have := h b hb
  unfold IsString at this; omega

/-- The bytes of a response header. -/
def ResponseHeader.bytes (h : ResponseHeader) : Bytes :=
  Kafka.responseHeader h.headerVersion.toNat h.correlationID.toNat h.taggedFields.wire

/-- The header belongs to a response of this type and version. -/
structure ResponseHeader.Of (h : ResponseHeader) (key version : UInt16) : Prop where
  api : h.apiKey = key
  ver : h.apiVersion = version
  header : responseHeaderVersion key version = some h.headerVersion
  tags : h.taggedFields.Fits

/-- What is read back of a header: tagged fields if the version has them, an empty list of them being nil. -/
def ResponseHeader.back (h : ResponseHeader) : ResponseHeader :=
  { h with taggedFields := if 1 ≤ h.headerVersion.toNat then h.taggedFields.norm else none }

theorem ge_one16 (v : UInt16) : (v ≥ 1) ↔ (1 ≤ v.toNat) := decide_eq_decide.1 (ge1 v)

theorem header_encode_eq (h : ResponseHeader) (ht : h.taggedFields.Fits) : h.encode = .ok h.bytes := by
  unfold ResponseHeader.encode ResponseHeader.bytes Kafka.responseHeader
  by_cases hv : h.headerVersion ≥ 1
  · rw [if_pos hv, if_pos ((ge_one16 _).1 hv), tags_encode_eq ht, ← be32_toNat]
    rfl
  · rw [if_neg hv, if_neg (fun c => hv ((ge_one16 _).2 c)), ← be32_toNat, List.append_nil]

theorem header_back {h : ResponseHeader} {key v : UInt16} (hh : h.Of key v) :
    SReads (Cur.call (decodeResponseHeader key v)) h.bytes h.back := by
  obtain ⟨rfl, rfl, hv, ht⟩ := hh
  exact (CReads.call (reads_responseHeader _ _ _ hv h.correlationID h.taggedFields ht)).s

theorem compactLength_eq (n : Nat) (h : n < 2 ^ 31) : encodeCompactArrayLength (Int64.ofNat n) = .ok (Kafka.uvarint (n + 1)) :=
  encodeCompactArrayLength_eq n (by omega) _ (by rw [Int64.toInt_ofNat_of_lt (by omega)])

/-! ## Alter partition reassignments -/

def reassignedPWire (p : Kafka.ReassignedPartition) : Bytes :=
  Kafka.int32 p.index ++ Kafka.int16 p.error ++ Kafka.compactNullableString p.message ++ Kafka.tagBuffer p.tags

def reassignedTWire (t : Kafka.ReassignedTopic) : Bytes :=
  Kafka.compactString t.name ++ Kafka.compactArray reassignedPWire t.partitions ++ Kafka.tagBuffer t.tags

structure ReassignedTopic.Counted (t : ReassignedTopic) : Prop where
  name : t.name.length < 2 ^ 31
  partitions : t.partitions.length < 2 ^ 31
  messages : ∀ p ∈ t.partitions, ∀ b, p.errorMsg = some b → b.length < 2 ^ 31

theorem reassignedPartition_encode {p : ReassignedPartition} (ht : p.taggedFields.Fits)
    (hm : ∀ b, p.errorMsg = some b → b.length < 2 ^ 31) :
    p.encode = .ok (reassignedPWire p.wire) := by
  unfold ReassignedPartition.encode
  rw [writeCompactNullableString_eq _ fun b hb => by have := hm b hb; omega, tags_encode_eq ht]
  simp only [Out.bind_ok, be32_eq, be16_eq]
  rfl

theorem reassignedTopic_encode {t : ReassignedTopic} (ht : t.Fits) (hc : t.Counted) :
    t.encode = .ok (reassignedTWire t.wire) := by
  unfold ReassignedTopic.encode
  rw [writeCompactString_eq _ (by have := hc.name; omega), tags_encode_eq ht.tags,
    compactLength_eq _ hc.partitions, encodeEach_eq (g := reassignedPWire) (k := ReassignedPartition.wire) t.partitions fun p hp => reassignedPartition_encode (ht.partitions p hp) (hc.messages p hp)]
  simp [Out.bind_ok, reassignedTWire, ReassignedTopic.wire, Kafka.compactArray]

/-- C137, alter partition reassignments: written, the response is what the protocol says, and it is read back unchanged (an
empty list of tagged fields being nil). -/
theorem C137_alter (r : AlterPartitionReassignmentsResponse) (hh : r.header.Of API_AlterPartitionReassignments 0)
    (ht : ∀ t ∈ r.responses, t.Fits ∧ t.Counted) (htg : r.taggedFields.Fits) (hn : r.responses.length < 2 ^ 31)
    (hm : ∀ b, r.errorMsg = some b → b.length < 2 ^ 31) :
    ∃ bs, r.encode = .ok bs ∧
      bs = Kafka.response .alterPartitionReassignments 0 r.header.correlationID.toNat r.header.taggedFields.wire
        (Kafka.alterPartitionReassignmentsResponse r.throttleTimeMs.toInt r.errorCode.toInt r.errorMsg
          (r.responses.map ReassignedTopic.wire) r.taggedFields.wire) ∧
      (bs.length < 2 ^ 31 → newAlterPartitionReassignmentsResponse 0 bs = .ok ({ r with
        header := r.header.back, responses := r.responses.map ReassignedTopic.norm, taggedFields := r.taggedFields.norm }, none)) := by
  have hv : r.header.headerVersion = 1 := by
    have := hh.header
    rw [show responseHeaderVersion API_AlterPartitionReassignments 0 = some 1 from by decide] at this
    exact (Option.some.inj this).symm
  refine ⟨_, ?_, rfl, fun hl => ?_⟩
  · unfold AlterPartitionReassignmentsResponse.encode
    rw [header_encode_eq _ hh.tags, writeCompactNullableString_eq _ fun b hb => by have := hm b hb; omega, tags_encode_eq htg,
      compactLength_eq _ hn, encodeEach_eq (g := reassignedTWire) (k := ReassignedTopic.wire) r.responses fun t h => reassignedTopic_encode (ht t h).1 (ht t h).2]
    simp only [Out.bind_ok]
    rw [patch_ok]
    have e : Kafka.alterPartitionReassignmentsResponse r.throttleTimeMs.toInt r.errorCode.toInt r.errorMsg
        (r.responses.map ReassignedTopic.wire) r.taggedFields.wire = Kafka.int32 r.throttleTimeMs.toInt ++
        Kafka.int16 r.errorCode.toInt ++ Kafka.compactNullableString r.errorMsg ++
        Kafka.compactArray reassignedTWire (r.responses.map ReassignedTopic.wire) ++ Kafka.tagBuffer r.taggedFields.wire := rfl
    rw [e]
    simp only [Kafka.response, ResponseHeader.bytes, hv, be32_eq, be16_eq, Kafka.compactArray, List.length_map, List.append_assoc]
    rfl
  · rw [alter_decoded _ _ _ hh.tags htg _ _ _ _ (fun t h => (ht t h).1) hl]
    have : r.header.back = ⟨API_AlterPartitionReassignments, 0, 1, r.header.correlationID, r.header.taggedFields.norm⟩ := by
      obtain ⟨h1, h2, -, -⟩ := hh
      unfold ResponseHeader.back
      rw [hv, ← h1, ← h2]
      rfl
    rw [this]

def someReassigned : AlterPartitionReassignmentsResponse :=
  ⟨⟨API_AlterPartitionReassignments, 0, 1, 7, some [⟨3, [1, 2]⟩]⟩, 5, 0, none,
    [⟨[116], [⟨0, 0, none, none⟩, ⟨1, 37, some [110, 111], some [⟨1, [5]⟩]⟩], none⟩, ⟨[117], [], none⟩], none⟩

example : (someReassigned.encode).okAnd (fun bs =>
    decide (newAlterPartitionReassignmentsResponse 0 bs = .ok (someReassigned, none))) = true := by decide +kernel

/-! ## Delete ACLs -/

/-- What is read back of a filter's result: the tagged fields in every version. -/
def AclFilterResult.back (v : UInt16) (f : AclFilterResult) : AclFilterResult :=
  { f with matchingAcls := f.matchingAcls.map (MatchingAcl.seen v), taggedFields := f.taggedFields.norm }

theorem matchingAcl_encode (v : UInt16) (f : Bool) (hf : Kafka.Api.flexible .deleteAcls v.toNat = f) {m : MatchingAcl} (h : m.Fits) :
    m.encode v f = .ok (Kafka.aclDeleted v.toNat m.wire) := by
  unfold MatchingAcl.encode Kafka.aclDeleted
  rw [encodeFlexNullable_eq _ _ (isString_opt h.message), encodeFlexString_eq _ _ (isString_lt h.name),
    encodeFlexString_eq _ _ (isString_lt h.principal), encodeFlexString_eq _ _ (isString_lt h.host), encodeFlexTags_eq _ h.tags]
  simp only [Out.bind_ok, hf, be16_eq, int8_eq, MatchingAcl.wire]
  by_cases hv : v ≥ 1
  · rw [if_pos hv, if_pos ((ge_one16 v).1 hv)]; rfl
  · rw [if_neg hv, if_neg (fun c => hv ((ge_one16 v).2 c))]; rfl

/-- the bytes of a filter's result -/
def aclFilterWire (v : UInt16) (f : Bool) (x : AclFilterResult) : Bytes :=
  Kafka.int16 x.errorCode.toInt ++ (Kafka.flexNullable f x.errorMessage ++
    (Kafka.flexArray f (Kafka.aclDeleted v.toNat) (x.matchingAcls.map MatchingAcl.wire) ++ Kafka.tagBuffer x.taggedFields.wire))

theorem aclFilterResult_encode (v : UInt16) (f : Bool) (hf : Kafka.Api.flexible .deleteAcls v.toNat = f) {x : AclFilterResult}
    (h : x.Fits) (hn : x.matchingAcls.length < 2 ^ 31) : x.encode v f = .ok (aclFilterWire v f x) := by
  unfold AclFilterResult.encode aclFilterWire
  rw [encodeFlexNullable_eq _ _ (isString_opt h.message), writeCount_eq _ _ hn, tags_encode_eq h.tags,
    encodeEach_eq (g := Kafka.aclDeleted v.toNat) (k := MatchingAcl.wire) x.matchingAcls fun m hm => matchingAcl_encode v f hf (h.matching m hm)]
  simp only [Out.bind_ok, be16_eq, flexArray_eq, List.length_map, List.append_assoc]
  rfl

/-- C137, delete ACLs: in every version, what is written is read back.  (In versions 0 and 1 it is not what the protocol says:
tagged fields are written, and read, that are not there.) -/
theorem C137_deleteAcls (v : UInt16) (hv : v ∈ clientVersions API_DeleteAcls) (r : DeleteAclsResponse)
    (hh : r.header.Of API_DeleteAcls v) (h : ∀ x ∈ r.filterResults, x.Fits ∧ x.matchingAcls.length < 2 ^ 31)
    (htg : r.taggedFields.Fits) (hn : r.filterResults.length < 2 ^ 31) :
    ∃ bs, r.encode = .ok bs ∧ (bs.length < 2 ^ 31 → decodeDeleteAclsResponse v bs = .ok ({ r with
      header := r.header.back, filterResults := r.filterResults.map (AclFilterResult.back v),
      taggedFields := r.taggedFields.norm }, none)) := by
  have hv' : v = 3 ∨ v = 2 ∨ v = 1 ∨ v = 0 := by
    simpa [clientVersions, availableVersions, API_DeleteAcls] using hv
  obtain ⟨hv', -, hd, -, -, -, hfl, hf2⟩ := acl_headers v hv'
  have e1 : r.header.headerVersion = hv' := by
    have := hh.header
    rw [hd] at this
    exact (Option.some.inj this).symm
  have e2 : r.header.isFlexible = decide (hv' ≥ 1) := by unfold ResponseHeader.isFlexible; rw [e1]
  generalize hf : decide (hv' ≥ 1) = f at *
  refine ⟨Kafka.frame (r.header.bytes ++ (Kafka.int32 r.throttleTimeMs.toInt ++ (Kafka.flexArray f (aclFilterWire v f)
    (r.filterResults.map id) ++ Kafka.tagBuffer r.taggedFields.wire))), ?_, fun hl => ?_⟩
  · unfold DeleteAclsResponse.encode
    rw [header_encode_eq _ hh.tags, e2, hh.ver, writeCount_eq _ _ hn, tags_encode_eq htg,
      encodeEach_eq (f := AclFilterResult.encode v f) (g := aclFilterWire v f) (k := id) r.filterResults fun x hx => aclFilterResult_encode v f hfl (h x hx).1 (h x hx).2]
    simp only [Out.bind_ok]
    rw [patch_ok]
    simp only [be32_eq, flexArray_eq, List.length_map, List.append_assoc]
  · unfold decodeDeleteAclsResponse
    rw [respondWrap_eq _ _ hl]
    refine respond_frame (.bind (header_back hh) ?_) hl
    have e3 : r.header.back.isFlexible = f := e2
    have e4 : r.header.back.apiVersion = v := hh.ver
    refine .bind (sreads_i32 _) ?_
    rw [e3, e4]
    refine sreads_flexArr (c := rdAclFilterResult v f) f id (AclFilterResult.back v) r.filterResults (by unfold aclFilterWire; nonempty) ?_ ?_
    · intro x hx
      refine .bind (sreads_i16 _) <| .bind (sreads_flexNullable fun _ => (h x hx).1.message) ?_
      refine sreads_flexArr (c := Cur.call (decodeMatchingAcl v f)) f MatchingAcl.wire (MatchingAcl.seen v)
        x.matchingAcls (aclDeleted_pos _) ?_ ?_
      · intro m hm
        exact sreads_matchingAcl v f hfl hf2 m ((h x hx).1.matching m hm)
      · intro n hn hr'
        exact .bind (sreads_forInt hn hr') (.bind_pure (g := fun y => AclFilterResult.mk _ _ _ y) (sreads_tags (h x hx).1.tags))
    · intro n hn hr
      exact .bind (sreads_forInt hn hr)
        (.bind_pure (g := fun x => (DeleteAclsResponse.mk _ _ _ x, none)) (sreads_tags htg))

def someDeleted (v hv : UInt16) (p : Int8) : DeleteAclsResponse :=
  ⟨⟨API_DeleteAcls, v, hv, 7, none⟩, 5, [⟨0, none, [⟨0, none, 2, [116], p, [117], [42], 2, 3, none⟩], none⟩,
    ⟨31, some [110, 111], [], none⟩], none⟩

example : ∀ x ∈ [((0 : UInt16), (0 : UInt16), (0 : Int8)), (1, 0, 3), (2, 1, 3), (3, 1, 3)],
    ((someDeleted x.1 x.2.1 x.2.2).encode).okAnd (fun bs =>
      decide (decodeDeleteAclsResponse x.1 bs = .ok (someDeleted x.1 x.2.1 x.2.2, none))) = true := by decide +kernel

/-! ## Describe ACLs -/

theorem writeByVersion_eq (v : UInt16) (f : Bool) (hf' : (!decide (v ≤ 1)) = f) (s : Bytes) (h : s.length < 2 ^ 63) :
    writeByVersion v s = .ok (Kafka.flexString f s) := by
  unfold writeByVersion
  by_cases hv : v ≤ 1
  · have : f = false := by rw [← hf']; simp [hv]
    rw [if_pos hv, writeString_eq, this]; rfl
  · have : f = true := by rw [← hf']; simp [hv]
    rw [if_neg hv, writeCompactString_eq _ h, this]; rfl

/-- the bytes of an ACL and of a resource with its ACLs -/
def aclWire (f : Bool) (a : Kafka.AclEntry) : Bytes :=
  Kafka.flexString f a.principal ++ (Kafka.flexString f a.host ++ (Kafka.int8 a.operation ++ (Kafka.int8 a.permission ++ Kafka.flexTags f a.tags)))

def aclResourceWire (v : Nat) (f : Bool) (r : Kafka.AclResource) : Bytes :=
  Kafka.int8 r.type ++ (Kafka.flexString f r.name ++ ((if 1 ≤ v then Kafka.int8 r.patternType else []) ++
    (Kafka.flexArray f (aclWire f) r.acls ++ Kafka.flexTags f r.tags)))

theorem acl_encode (v : UInt16) (f : Bool) (hf : decide (v ≥ 2) = f) (hf' : (!decide (v ≤ 1)) = f) {a : Acl} (h : a.Fits) :
    a.encode v = .ok (aclWire f a.wire) := by
  unfold Acl.encode
  rw [writeByVersion_eq v f hf' _ (isString_lt h.principal), writeByVersion_eq v f hf' _ (isString_lt h.host), hf, encodeFlexTags_eq _ h.tags]
  simp only [Out.bind_ok, int8_eq, aclWire, Acl.wire, List.append_assoc]
  rfl

theorem aclResource_encode (v : UInt16) (f : Bool) (hf : decide (v ≥ 2) = f) (hf' : (!decide (v ≤ 1)) = f) {r : AclResource} (h : r.Fits)
    (hn : r.acls.length < 2 ^ 31) : r.encode v = .ok (aclResourceWire v.toNat f r.wire) := by
  unfold AclResource.encode
  rw [writeByVersion_eq v f hf' _ (isString_lt h.name), hf, hf', encodeFlexTags_eq _ h.tags, writeCount_eq _ _ hn,
    encodeEach_eq (g := aclWire f) (k := Acl.wire) r.acls fun a ha => acl_encode v f hf hf' (h.acls a ha)]
  simp only [Out.bind_ok, int8_eq, aclResourceWire, AclResource.wire, List.append_assoc, flexArray_eq, List.length_map]
  by_cases hv : v ≥ 1
  · rw [if_pos hv, if_pos ((ge_one16 v).1 hv)]; rfl
  · rw [if_neg hv, if_neg (fun c => hv ((ge_one16 v).2 c))]; rfl

/-- C137, describe ACLs: in every version, what is written is read back.  (In version 1 it is not what the protocol says.) -/
theorem C137_describeAcls (v : UInt16) (hv : v ∈ clientVersions API_DescribeAcls) (r : DescribeAclsResponse)
    (h : ∀ x ∈ r.resources, x.Fits ∧ x.acls.length < 2 ^ 31) (htg : r.taggedFields.Fits) (hn : r.resources.length < 2 ^ 31)
    (hm : ∀ b, r.errorMessage = some b → IsString b) :
    ∃ bs, r.encode v = .ok bs ∧ (bs.length < 2 ^ 31 → newDescribeAclsResponse v bs = .ok ({ r with
      resources := r.resources.map (AclResource.seen v),
      taggedFields := if decide (v ≥ 2) then r.taggedFields.norm else none }, none)) := by
  have hv' : v = 2 ∨ v = 1 ∨ v = 0 := by
    simpa [clientVersions, availableVersions, API_DescribeAcls] using hv
  obtain ⟨f, hf, hf'⟩ : ∃ f, decide (v ≥ 2) = f ∧ (!decide (v ≤ 1)) = f := by
    rcases hv' with rfl | rfl | rfl
    · exact ⟨true, by decide⟩
    · exact ⟨false, by decide⟩
    · exact ⟨false, by decide⟩
  have hmsg : writeNullableByVersion v r.errorMessage = .ok (Kafka.flexNullable f r.errorMessage) := by
    unfold writeNullableByVersion
    by_cases hv : v ≤ 1
    · have : f = false := by rw [← hf']; simp [hv]
      rw [if_pos hv, writeNullableString_eq, this]; rfl
    · have : f = true := by rw [← hf']; simp [hv]
      rw [if_neg hv, writeCompactNullableString_eq _ fun b hb => isString_lt (hm b hb), this]; rfl
  refine ⟨Kafka.frame (Kafka.int32 r.correlationID.toNat ++ (Kafka.flexTags (decide (v ≥ 1)) r.taggedFields.wire ++
    (Kafka.int32 r.throttleTimeMs.toInt ++ (Kafka.int16 r.errorCode.toInt ++ (Kafka.flexNullable f r.errorMessage ++
      (Kafka.flexArray f (aclResourceWire v.toNat f) (r.resources.map AclResource.wire) ++ Kafka.flexTags f r.taggedFields.wire)))))), ?_, fun hl => ?_⟩
  · unfold DescribeAclsResponse.encode
    rw [hmsg, encodeFlexTags_eq _ htg, hf, hf', encodeFlexTags_eq _ htg, writeCount_eq _ _ hn,
      encodeEach_eq (g := aclResourceWire v.toNat f) (k := AclResource.wire) r.resources fun x hx => aclResource_encode v f hf hf' (h x hx).1 (h x hx).2]
    simp only [Out.bind_ok]
    rw [patch_ok]
    rw [be32_eq r.throttleTimeMs, be32_toNat r.correlationID, be16_eq]
    simp only [flexArray_eq, List.length_map, List.append_assoc]
  · subst hf
    have hb : SReads (rdDescribeAcls v) (Kafka.int32 r.correlationID.toNat ++ (Kafka.flexTags (decide (v ≥ 1)) r.taggedFields.wire ++
        (Kafka.int32 r.throttleTimeMs.toInt ++ (Kafka.int16 r.errorCode.toInt ++ (Kafka.flexNullable (decide (v ≥ 2)) r.errorMessage ++
          (Kafka.flexArray (decide (v ≥ 2)) (aclResourceWire v.toNat (decide (v ≥ 2))) (r.resources.map AclResource.wire) ++
            Kafka.flexTags (decide (v ≥ 2)) r.taggedFields.wire)))))) { r with
      resources := r.resources.map (AclResource.seen v),
      taggedFields := if decide (v ≥ 2) then r.taggedFields.norm else none } := by
      refine .bind (sreads_u32 _) <| .bind (a := if decide (v ≥ 1) then r.taggedFields.norm else none) ?_ <|
        .bind (sreads_i32 _) <| .bind (sreads_i16 _) <| .bind (sreads_flexNullable fun _ => hm) ?_
      · have := SReads.cond' (c := v ≥ 1) (c' := decide (v ≥ 1) = true) (d := (none : TaggedFields)) (by simp) fun _ => sreads_tags htg
        exact this.cast (by cases decide (v ≥ 1) <;> rfl) rfl
      refine sreads_flexArr (c := rdAclResource v) (decide (v ≥ 2)) AclResource.wire (AclResource.seen v) r.resources
        (fun r => by unfold aclResourceWire; simp only [List.length_append, int8_length]; omega) (fun x hx => sreads_aclResource v x (h x hx).1) ?_
      intro n hn hr
      refine .bind (a := r.resources.map (AclResource.seen v)) ?_ <|
        .bind_pure (g := fun x => DescribeAclsResponse.mk _ _ _ _ _ x) (sreads_flexTags htg)
      rw [cond_true (by omega)]
      exact sreads_forInt hn hr
    unfold Kafka.frame at hl ⊢
    rw [List.length_append] at hl
    have := hb (by omega) (Kafka.int32 (Kafka.int32 r.correlationID.toNat ++ (Kafka.flexTags (decide (v ≥ 1)) r.taggedFields.wire ++
        (Kafka.int32 r.throttleTimeMs.toInt ++ (Kafka.int16 r.errorCode.toInt ++ (Kafka.flexNullable (decide (v ≥ 2)) r.errorMessage ++
          (Kafka.flexArray (decide (v ≥ 2)) (aclResourceWire v.toNat (decide (v ≥ 2))) (r.resources.map AclResource.wire) ++
            Kafka.flexTags (decide (v ≥ 2)) r.taggedFields.wire)))))).length) []
    rw [List.append_nil, int32_length] at this
    simp only [newDescribeAclsResponse, Cur.bind_def, Cur.advance]
    have z : (0 : Int) + 4 = ((4 : Nat) : Int) := rfl
    rw [z, this]

def someDescribed (p : Int8) : DescribeAclsResponse :=
  ⟨7, 5, 0, none, [⟨2, [116], p, [⟨[117], [42], 2, 3, none⟩, ⟨[118], [43], 4, 1, none⟩], none⟩, ⟨3, [], p, [], none⟩], none⟩

example : ∀ x ∈ [((0 : UInt16), (0 : Int8)), (1, 3), (2, 3)], ((someDescribed x.2).encode x.1).okAnd (fun bs =>
    decide (newDescribeAclsResponse x.1 bs = .ok (someDescribed x.2, none))) = true := by decide +kernel

/-! ## List groups -/

/-- A group whose strings and tagged fields can be written. -/
structure ListedGroup.Sent (g : ListedGroup) : Prop where
  id : IsString g.groupID
  type : IsString g.protocolType
  state : IsString g.groupState
  kind : IsString g.groupType
  tags : g.taggedFields.Fits
  count : (g.taggedFields.getD []).length < 2 ^ 31

theorem tagBuffer_room {ts : TaggedFields} (h : ts.Fits) (hn : (ts.getD []).length < 2 ^ 31) :
    (Kafka.tagBuffer ts.wire).length + 5 ≤ ts.length := by
  have a := taggedFields_length_aux (ts.getD []) h.2 10
  have b := uvarint_len_le5 (ts.getD []).length (by omega)
  unfold TaggedFields.length Kafka.tagBuffer TaggedFields.wire
  simp only [List.length_append, List.length_map]
  omega

theorem flexString_room (f : Bool) {s : Bytes} (h : IsString s) :
    (Kafka.flexString f s).length ≤ s.length + 2 + (if f then 1 else 0) := by
  unfold IsString at h
  cases f
  · simp [Kafka.flexString, Kafka.string]; omega
  · have := uvarint_len_le3 (s.length + 1) (by omega)
    simp [Kafka.flexString, Kafka.compactString]; omega

theorem flexTags_room (f : Bool) {ts : TaggedFields} (h : ts.Fits) (hn : (ts.getD []).length < 2 ^ 31) :
    (Kafka.flexTags f ts.wire).length + 5 ≤ ts.length := by
  have := tagBuffer_room h hn
  cases f
  · simp only [Kafka.flexTags, Bool.false_eq_true, if_false, List.length_nil]
    omega
  · exact this

/-- the bytes of a group -/
def groupWire (v : Nat) (f : Bool) (g : Kafka.ListedGroup) : Bytes :=
  Kafka.flexString f g.id ++ Kafka.flexString f g.protocolType ++ (if 4 ≤ v then Kafka.flexString f g.state else []) ++
    (if 5 ≤ v then Kafka.flexString f g.type else []) ++ Kafka.flexTags f g.tags

theorem groupWire_room (v : Nat) (f : Bool) {g : ListedGroup} (h : g.Sent) : (groupWire v f g.wire).length ≤ g.room := by
  have a := flexString_room f h.id
  have b := flexString_room f h.type
  have c := flexString_room f h.state
  have d := flexString_room f h.kind
  have e := flexTags_room f h.tags h.count
  have i : ∀ (p : Prop) [Decidable p] (l : Bytes), (if p then l else []).length ≤ l.length := by
    intro p _ l; split <;> simp
  have i4 := i (4 ≤ v) (Kafka.flexString f g.groupState)
  have i5 := i (5 ≤ v) (Kafka.flexString f g.groupType)
  have j : (if f then 1 else 0 : Nat) ≤ 1 := by split <;> omega
  unfold groupWire ListedGroup.room
  simp only [List.length_append, ListedGroup.wire]
  omega

theorem writes_cpyO {x : Out Bytes} {bs : Bytes} (h : x = .ok bs) : Writes (.cpyO x) bs := by
  subst h
  exact Writes.cpy bs

theorem writes_tags (f : Bool) {ts : TaggedFields} (h : ts.Fits) : Writes (.when f ts.encodeTo) (Kafka.flexTags f ts.wire) :=
  (Writes.when fun _ => taggedFields_writes ts h.2).cast (by cases f <;> rfl)

theorem writes_group (v : UInt16) (f : Bool) {g : ListedGroup} (h : g.Sent) :
    Writes (g.encodeTo f v) (groupWire v.toNat f g.wire) := by
  have w4 : Writes (.when (decide (v ≥ 4)) (.cpyO (encodeFlexString f g.groupState))) (if 4 ≤ v.toNat then Kafka.flexString f g.groupState else []) := by
    rw [show decide (v ≥ 4) = decide (4 ≤ v.toNat) from UInt16.ge_iff v 4 (by omega)]
    exact (Writes.when fun _ => writes_cpyO (encodeFlexString_eq f _ (isString_lt h.state))).cast (by simp)
  have w5 : Writes (.when (decide (v ≥ 5)) (.cpyO (encodeFlexString f g.groupType))) (if 5 ≤ v.toNat then Kafka.flexString f g.groupType else []) := by
    rw [show decide (v ≥ 5) = decide (5 ≤ v.toNat) from UInt16.ge_iff v 5 (by omega)]
    exact (Writes.when fun _ => writes_cpyO (encodeFlexString_eq f _ (isString_lt h.kind))).cast (by simp)
  refine (Writes.all_cons (writes_cpyO (encodeFlexString_eq f _ (isString_lt h.id))) <|
    Writes.all_cons (writes_cpyO (encodeFlexString_eq f _ (isString_lt h.type))) <| Writes.all_cons w4 <| Writes.all_cons w5 <|
    Writes.all_cons (writes_tags f h.tags) Writes.all_nil).cast ?_
  simp [groupWire, ListedGroup.wire]

/-- the bytes of the number of groups -/
def groupCountWire (f isNil : Bool) (n : Nat) : Bytes :=
  if f then Kafka.uvarint (if isNil then 0 else n + 1) else Kafka.int32 n

theorem writes_groupCount (f isNil : Bool) (n : Nat) (h : n < 2 ^ 31) : Writes (listGroupsCount f isNil n) (groupCountWire f isNil n) := by
  unfold listGroupsCount groupCountWire
  cases f
  · exact (Writes.put _).cast (by simp [be32_ofNat])
  · cases isNil
    · exact writes_cpyO (compactLength_eq n h)
    · exact writes_cpyO (show encodeCompactArrayLength (-1) = .ok (Kafka.uvarint 0) by decide)

theorem groupCount_room (f isNil : Bool) (n : Nat) (h : n < 2 ^ 31) : (groupCountWire f isNil n).length ≤ 5 := by
  unfold groupCountWire
  cases f
  · simp
  · have := uvarint_len_le5 (if isNil then 0 else n + 1) (by split <;> omega)
    simpa using this

theorem writes_header (h : ResponseHeader) (ht : h.taggedFields.Fits) : Writes h.encodeTo h.bytes := by
  unfold ResponseHeader.encodeTo ResponseHeader.bytes Kafka.responseHeader
  refine (Writes.seq (Writes.put _) (Writes.when fun _ => writes_cpyO (tags_encode_eq ht))).cast ?_
  rw [be32_toNat, ge1]
  simp

theorem header_room (h : ResponseHeader) (ht : h.taggedFields.Fits) : h.bytes.length ≤ h.length := by
  unfold ResponseHeader.bytes ResponseHeader.length Kafka.responseHeader ResponseHeader.isFlexible
  have := taggedFields_length_ok h.taggedFields ht.2 (by have := ht.1; omega)
  rw [ge1]
  simp only [List.length_append, int32_length, TaggedFields.wire] at this ⊢
  by_cases hv : 1 ≤ h.headerVersion.toNat
  · simp [hv]; exact this
  · simp [hv]

theorem sum_room {α : Type} (w : α → Bytes) (room : α → Nat) (xs : List α) (h : ∀ x ∈ xs, (w x).length ≤ room x) :
    (xs.flatMap w).length ≤ (xs.map room).sum := by
  induction xs with
  | nil => simp
  | cons x xs ih =>
    have := h x (by simp)
    have := ih fun y hy => h y (by simp [hy])
    simp only [List.flatMap_cons, List.length_append, List.map_cons, List.sum_cons]
    omega

/-- the bytes after the length -/
def listGroupsWire (v : Nat) (f isNil : Bool) (r : ListGroupsResponse) : Bytes :=
  r.header.bytes ++ ((if 1 ≤ v then Kafka.int32 r.throttleTimeMS.toInt else []) ++ (Kafka.int16 r.errorCode.toNat ++
    (groupCountWire f isNil r.groups.length ++ ((r.groups.map ListedGroup.wire).flatMap (groupWire v f) ++
      Kafka.flexTags f r.taggedFields.wire))))

theorem listGroupsWire_room (v : Nat) (f isNil : Bool) (r : ListGroupsResponse) (hh : r.header.taggedFields.Fits)
    (hg : ∀ g ∈ r.groups, g.Sent) (htg : r.taggedFields.Fits) (htn : (r.taggedFields.getD []).length < 2 ^ 31)
    (hn : r.groups.length < 2 ^ 31) : 4 + (listGroupsWire v f isNil r).length ≤ r.length := by
  have a := header_room r.header hh
  have b := groupCount_room f isNil r.groups.length hn
  have c := flexTags_room f htg htn
  have d : ((r.groups.map ListedGroup.wire).flatMap (groupWire v f)).length ≤ (r.groups.map ListedGroup.room).sum := by
    rw [List.flatMap_map]
    exact sum_room _ _ _ fun g h => groupWire_room v f (hg g h)
  have e : (if 1 ≤ v then Kafka.int32 r.throttleTimeMS.toInt else []).length ≤ 4 := by split <;> simp
  have i : (Kafka.int16 r.errorCode.toNat).length = 2 := int16_length _
  unfold ListGroupsResponse.length listGroupsWire
  simp only [List.length_append]
  omega

theorem listGroups_encode (v : UInt16) (f isNil : Bool) (r : ListGroupsResponse) (hf : r.header.isFlexible = f)
    (hh : r.header.taggedFields.Fits) (hg : ∀ g ∈ r.groups, g.Sent) (htg : r.taggedFields.Fits)
    (htn : (r.taggedFields.getD []).length < 2 ^ 31) (hn : r.groups.length < 2 ^ 31) :
    r.encode v isNil = .ok (Kafka.frame (listGroupsWire v.toNat f isNil r)) := by
  have wt : Writes (.when (decide (v ≥ 1)) (.put (be32 r.throttleTimeMS.toUInt32))) (if 1 ≤ v.toNat then Kafka.int32 r.throttleTimeMS.toInt else []) := by
    rw [ge1]
    exact (Writes.when fun _ => Writes.put _).cast (by rw [be32_eq]; simp)
  have we : Writes (.each (ListedGroup.encodeTo f v) r.groups) ((r.groups.map ListedGroup.wire).flatMap (groupWire v.toNat f)) := by
    have h := Writes.each (f := ListedGroup.encodeTo f v) (g := fun g => groupWire v.toNat f g.wire) r.groups
      fun g h => writes_group v f (hg g h)
    rwa [← List.flatMap_map] at h
  have w := Writes.all_cons (Writes.put [0, 0, 0, 0]) <| Writes.all_cons (writes_header r.header hh) <| Writes.all_cons wt <|
    Writes.all_cons ((Writes.put (be16 r.errorCode)).cast (be16_toNat _)) <| Writes.all_cons (writes_groupCount f isNil r.groups.length hn) <|
    Writes.all_cons we <| Writes.all_cons (writes_tags f htg) Writes.all_nil
  rw [List.append_nil] at w
  have w' : Writes _ ([0, 0, 0, 0] ++ listGroupsWire v.toNat f isNil r) := w
  unfold ListGroupsResponse.encode
  rw [hf, encodeCut_of_writes w' (by
    have := listGroupsWire_room v.toNat f isNil r hh hg htg htn hn
    simp only [List.length_append, List.length_cons, List.length_nil]
    omega)]
  exact patch_ok _

theorem listGroups_back (v : UInt16) (f isNil : Bool) (r : ListGroupsResponse) (hf : r.header.isFlexible = f)
    (hfe : f = decide (3 ≤ v.toNat)) (hnil : isNil = true → r.groups = []) (hh : r.header.Of API_ListGroups v)
    (hg : ∀ g ∈ r.groups, g.Sent) (htg : r.taggedFields.Fits) (hl : (Kafka.frame (listGroupsWire v.toNat f isNil r)).length < 2 ^ 31) :
    newListGroupsResponse v (Kafka.frame (listGroupsWire v.toNat f isNil r)) = .ok ({ r with
      header := r.header.back, throttleTimeMS := if 1 ≤ v.toNat then r.throttleTimeMS else 0,
      groups := r.groups.map (ListedGroup.seen v), taggedFields := if f then r.taggedFields.norm else none }, none) := by
  refine respond_frame (.bind (header_back hh) ?_) hl
  have e3 : r.header.back.isFlexible = f := hf
  rw [e3]
  refine .bind (.cond' (ge_one16 v) fun _ => sreads_i32 _) <| .bind (sreads_u16 _) <| ?_
  have last := SReads.bind_pure (g := fun x => (ListGroupsResponse.mk r.header.back (if 1 ≤ v.toNat then r.throttleTimeMS else 0) r.errorCode
    (r.groups.map (ListedGroup.seen v)) x, (none : Option Err))) (sreads_flexTags (f := f) htg)
  by_cases hx : f = true ∧ isNil = true
  · obtain ⟨rfl, rfl⟩ := hx
    have hr := hnil rfl
    rw [hr] at last ⊢
    refine .bind (a := (-1 : Int32)) (fun _ => CReads.call reads_compactArrayLength_null) ?_
    exact .bind (a := []) ((CReads.pure _).s) last
  · have e : groupCountWire f isNil r.groups.length ++ ((r.groups.map ListedGroup.wire).flatMap (groupWire v.toNat f) ++
        Kafka.flexTags f r.taggedFields.wire) = Kafka.flexArray f (groupWire v.toNat f) (r.groups.map ListedGroup.wire) ++
        Kafka.flexTags f r.taggedFields.wire := by
      rw [flexArray_eq, List.append_assoc, List.length_map]
      congr 1
      unfold groupCountWire
      cases f
      · rfl
      · cases isNil
        · rfl
        · exact absurd ⟨rfl, rfl⟩ hx
    rw [e]
    refine sreads_flexArr (c := Cur.call (decodeToGroup v f)) f ListedGroup.wire (ListedGroup.seen v) r.groups ?_ ?_ ?_
    · intro x
      unfold groupWire
      simp only [List.length_append]
      have := flexString_pos f x.id
      omega
    · intro g hm
      have h := hg g hm
      exact sreads_group v f g hfe h.id h.type h.state h.kind h.tags
    · intro n hn hr
      exact .bind (sreads_condN hn hr) last

/-- C137, list groups: in every version, what is written is read back; a nil list of groups too. -/
theorem C137_listGroups (v : UInt16) (hv : v ∈ clientVersions API_ListGroups) (r : ListGroupsResponse) (isNil : Bool)
    (hnil : isNil = true → r.groups = []) (hh : r.header.Of API_ListGroups v) (hg : ∀ g ∈ r.groups, g.Sent)
    (htg : r.taggedFields.Fits) (htn : (r.taggedFields.getD []).length < 2 ^ 31) (hn : r.groups.length < 2 ^ 31) :
    ∃ bs, r.encode v isNil = .ok bs ∧ (bs.length < 2 ^ 31 → newListGroupsResponse v bs = .ok ({ r with
      header := r.header.back, throttleTimeMS := if 1 ≤ v.toNat then r.throttleTimeMS else 0,
      groups := r.groups.map (ListedGroup.seen v),
      taggedFields := if 3 ≤ v.toNat then r.taggedFields.norm else none }, none)) := by
  have hv' : v = 5 ∨ v = 4 ∨ v = 3 ∨ v = 2 ∨ v = 1 ∨ v = 0 := by
    simpa [clientVersions, availableVersions, API_ListGroups] using hv
  have hf : r.header.isFlexible = decide (3 ≤ v.toNat) := by
    have := hh.header
    unfold ResponseHeader.isFlexible
    revert this
    generalize r.header.headerVersion = hv
    rcases hv' with rfl | rfl | rfl | rfl | rfl | rfl
    · rw [show responseHeaderVersion API_ListGroups 5 = some 1 from by decide]; rintro h; cases h; decide
    · rw [show responseHeaderVersion API_ListGroups 4 = some 1 from by decide]; rintro h; cases h; decide
    · rw [show responseHeaderVersion API_ListGroups 3 = some 1 from by decide]; rintro h; cases h; decide
    · rw [show responseHeaderVersion API_ListGroups 2 = some 0 from by decide]; rintro h; cases h; decide
    · rw [show responseHeaderVersion API_ListGroups 1 = some 0 from by decide]; rintro h; cases h; decide
    · rw [show responseHeaderVersion API_ListGroups 0 = some 0 from by decide]; rintro h; cases h; decide
  refine ⟨_, listGroups_encode v _ isNil r hf hh.tags hg htg htn hn, fun hl => ?_⟩
  rw [listGroups_back v _ isNil r hf rfl hnil hh hg htg hl]
  simp only [decide_eq_true_eq]

def someGroups (v hv : UInt16) (throttle : Int32) (state kind : Bytes) : ListGroupsResponse :=
  ⟨⟨API_ListGroups, v, hv, 7, none⟩, throttle, 0, [⟨[103], [112], state, kind, none⟩, ⟨[104], [], state, kind, none⟩], none⟩

example : ((someGroups 5 1 9 [115] [116]).encode 5 false).okAnd (fun bs =>
    decide (newListGroupsResponse 5 bs = .ok (someGroups 5 1 9 [115] [116], none))) = true ∧
  ((someGroups 0 0 9 [115] [116]).encode 0 false).okAnd (fun bs =>
    decide (newListGroupsResponse 0 bs = .ok (someGroups 0 0 0 [] [], none))) = true := by decide +kernel

/-! ## Create ACLs -/

def AclCreationResult.Sent (x : AclCreationResult) : Prop := ∀ b, x.errorMessage = some b → IsString b

/-- the bytes of a result; the tagged fields are empty -/
def aclCreationWire (f : Bool) (x : AclCreationResult) : Bytes :=
  Kafka.int16 x.errorCode.toNat ++ (Kafka.flexNullable f x.errorMessage ++ Kafka.flexTags f [])

/-- the bytes after the length -/
def createAclsWire (f : Bool) (r : CreateAclsResponse) : Bytes :=
  r.header.bytes ++ (Kafka.flexArray f (aclCreationWire f) (r.results.map id) ++ Kafka.flexTags f [])

theorem aclCreation_room (f : Bool) {x : AclCreationResult} (h : x.Sent) :
    (aclCreationWire f x).length + (if f then 0 else if x.errorMessage.isSome then 2 else 0) ≤ x.room := by
  obtain ⟨c, m, t⟩ := x
  unfold aclCreationWire AclCreationResult.room
  cases f
  · cases m <;> simp [Kafka.flexNullable, Kafka.nullableString, Kafka.flexTags]
    omega
  · cases m with
    | none => simp [Kafka.flexNullable, Kafka.compactNullableString, Kafka.flexTags, Kafka.tagBuffer, uvarint_zero]
    | some b =>
      have hb := h b rfl
      unfold IsString at hb
      have := uvarint_len_le3 (b.length + 1) (by omega)
      simp [Kafka.flexNullable, Kafka.compactNullableString, Kafka.flexTags, Kafka.tagBuffer, uvarint_zero]
      omega

theorem createAcls_sum (f : Bool) (xs : List AclCreationResult) (h : ∀ x ∈ xs, x.Sent) :
    (xs.flatMap (aclCreationWire f)).length + (if f then 0 else 2 * (xs.filter (·.errorMessage.isSome)).length) ≤
      (xs.map AclCreationResult.room).sum := by
  induction xs with
  | nil => simp
  | cons x xs ih =>
    have a := aclCreation_room f (h x (by simp))
    have b := ih fun y hy => h y (by simp [hy])
    simp only [List.flatMap_cons, List.length_append, List.map_cons, List.sum_cons, List.filter_cons]
    cases f
    · simp only [Bool.false_eq_true, if_false] at a b ⊢
      by_cases hs : x.errorMessage.isSome = true
      · simp only [hs, if_true, List.length_cons] at a ⊢; omega
      · simp only [hs, Bool.false_eq_true, if_false] at a ⊢; omega
    · simp only [if_true] at a b ⊢; omega

/-- There is room for the response: always in the flexible versions, and in the others if at least two results carry a
message. -/
theorem createAcls_room (r : CreateAclsResponse) (hh : r.header.taggedFields.Fits) (hc : (r.header.taggedFields.getD []).length < 2 ^ 31)
    (hs : ∀ x ∈ r.results, x.Sent) (hn : r.results.length < 2 ^ 27)
    (h2 : r.header.isFlexible = false → 2 ≤ (r.results.filter (·.errorMessage.isSome)).length) :
    4 + (createAclsWire r.header.isFlexible r).length ≤ r.length := by
  have d := createAcls_sum r.header.isFlexible r.results hs
  have hb : r.header.bytes.length + (if r.header.isFlexible then 5 else 0) ≤ r.header.length := by
    have := tagBuffer_room hh hc
    unfold ResponseHeader.bytes ResponseHeader.length Kafka.responseHeader ResponseHeader.isFlexible
    rw [ge1]
    simp only [List.length_append, int32_length]
    by_cases hv : 1 ≤ r.header.headerVersion.toNat
    · simp [hv]; omega
    · simp [hv]
  unfold CreateAclsResponse.length createAclsWire
  rw [flexArray_eq, List.map_id]
  simp only [List.length_append]
  generalize r.header.isFlexible = f at *
  cases f
  · have := h2 rfl
    simp [Kafka.flexTags] at d hb ⊢
    omega
  · have := uvarint_length_le 3 (r.results.length + 1) (by
      have : (128 : Nat) ^ (3 + 1) = 2 ^ 28 := by decide
      omega)
    simp [Kafka.flexTags, Kafka.tagBuffer, uvarint_zero] at d hb this ⊢
    omega

theorem writes_aclCreation (f : Bool) (ts : TaggedFields) (ht : ts.getD [] = []) {x : AclCreationResult} (h : x.Sent) :
    Writes (x.encodeTo f ts) (aclCreationWire f x) := by
  have hw : ts.wire = [] := by unfold TaggedFields.wire; rw [ht]; rfl
  have hf : ts.Fits := by constructor <;> simp [ht]
  have wt := writes_tags f hf
  rw [hw] at wt
  refine (Writes.all_cons ((Writes.put (be16 x.errorCode)).cast (be16_toNat _)) <|
    Writes.all_cons (writes_cpyO (encodeFlexNullable_eq f _ (isString_opt h))) <| Writes.all_cons wt Writes.all_nil).cast ?_
  simp [aclCreationWire]

theorem createAcls_encode (r : CreateAclsResponse) (hh : r.header.taggedFields.Fits) (hs : ∀ x ∈ r.results, x.Sent)
    (ht : r.taggedFields.getD [] = []) (hn : r.results.length < 2 ^ 27)
    (room : 4 + (createAclsWire r.header.isFlexible r).length ≤ r.length) :
    r.encode = .ok (Kafka.frame (createAclsWire r.header.isFlexible r)) := by
  have hw : r.taggedFields.wire = [] := by unfold TaggedFields.wire; rw [ht]; rfl
  have hf : r.taggedFields.Fits := by constructor <;> simp [ht]
  unfold CreateAclsResponse.encode
  generalize he : r.header.isFlexible = f at *
  have we : Writes (.each (AclCreationResult.encodeTo f r.taggedFields) r.results) (r.results.flatMap (aclCreationWire f)) :=
    Writes.each (f := AclCreationResult.encodeTo f r.taggedFields) (g := aclCreationWire f) r.results
      fun x h => writes_aclCreation f r.taggedFields ht (hs x h)
  have wc : Writes (if f then .cpyO (encodeCompactArrayLength (Int64.ofNat r.results.length)) else .put (be32 (UInt32.ofNat r.results.length)))
      (if f then Kafka.uvarint (r.results.length + 1) else Kafka.int32 r.results.length) := by
    cases f
    · exact (Writes.put _).cast (by simp [be32_ofNat])
    · exact writes_cpyO (compactLength_eq _ (by omega))
  have wt : Writes (.when f (.cpyO r.taggedFields.encode)) (Kafka.flexTags f []) := by
    have := tags_encode_eq hf
    rw [hw] at this
    exact (Writes.when fun _ => writes_cpyO this).cast (by cases f <;> rfl)
  have w := Writes.all_cons (Writes.put [0, 0, 0, 0]) <| Writes.all_cons (writes_header r.header hh) <| Writes.all_cons wc <|
    Writes.all_cons we <| Writes.all_cons wt Writes.all_nil
  have e : createAclsWire f r = r.header.bytes ++ ((if f then Kafka.uvarint (r.results.length + 1) else Kafka.int32 r.results.length) ++
      (r.results.flatMap (aclCreationWire f) ++ (Kafka.flexTags f [] ++ []))) := by
    unfold createAclsWire
    rw [flexArray_eq, List.map_id, List.append_nil, List.append_assoc]
  rw [← e] at w
  rw [encodeCut_of_writes w (by simp only [List.length_append, List.length_cons, List.length_nil]; omega)]
  exact patch_ok _

/-- C137, create ACLs: what is written is read back if there are no tagged fields beside the header's and, in versions 0 and 1,
at least two results carry a message.  Missing: all other responses (`C137_violated_createAcls`). -/
theorem C137_createAcls_partial (v : UInt16) (hv : v ∈ clientVersions API_CreateAcls) (r : CreateAclsResponse)
    (hh : r.header.Of API_CreateAcls v) (hc : (r.header.taggedFields.getD []).length < 2 ^ 31)
    (hs : ∀ x ∈ r.results, x.Sent ∧ x.taggedFields.getD [] = []) (ht : r.taggedFields.getD [] = [])
    (hn : r.results.length < 2 ^ 27) (h2 : v < 2 → 2 ≤ (r.results.filter (·.errorMessage.isSome)).length) :
    ∃ bs, r.encode = .ok bs ∧ (bs.length < 2 ^ 31 → decodeCreateAclsResponse v bs = .ok ({ r with
      header := r.header.back, results := r.results.map fun x => { x with taggedFields := none }, taggedFields := none }, none)) := by
  have hv' : v = 3 ∨ v = 2 ∨ v = 1 ∨ v = 0 := by
    simpa [clientVersions, availableVersions, API_CreateAcls] using hv
  obtain ⟨hv', hd, -, -, -, -, -, hf2⟩ := acl_headers v hv'
  have e1 : r.header.isFlexible = decide (v ≥ 2) := by
    have := hh.header
    rw [hd] at this
    unfold ResponseHeader.isFlexible
    rw [← Option.some.inj this, hf2]
  have e2 : r.header.isFlexible = false → v < 2 := by
    intro h
    rw [e1, decide_eq_false_iff_not] at h
    rw [UInt16.lt_iff_toNat_lt]
    rw [ge_iff_le, UInt16.le_iff_toNat_le] at h
    omega
  have room := createAcls_room r hh.tags hc (fun x hx => (hs x hx).1) hn fun h => h2 (e2 h)
  refine ⟨_, createAcls_encode r hh.tags (fun x hx => (hs x hx).1) ht hn room, fun hl => ?_⟩
  refine respond_frame (.bind (header_back hh) ?_) hl
  have e3 : r.header.back.isFlexible = r.header.isFlexible := rfl
  rw [e3]
  generalize r.header.isFlexible = f at *
  have nt : SReads (Cur.cond (f = true) (Cur.call decodeTaggedFields) none) (Kafka.flexTags f []) none := by
    refine (sreads_flexTags (f := f) taggedFields_fits_none).cast rfl ?_
    cases f <;> rfl
  refine sreads_flexArr (c := rdAclCreationResult f) f id (fun x => { x with taggedFields := none }) r.results
    (by intro x; unfold aclCreationWire; simp only [List.length_append, int16_length]; omega) ?_ ?_
  · intro x hx
    exact .bind (sreads_u16 _) <| .bind (sreads_flexNullable fun _ => (hs x hx).1) <|
      .bind_pure (g := fun y => AclCreationResult.mk _ _ y) nt
  · intro n hn hr
    exact .bind (sreads_condN hn hr) (.bind_pure (g := fun y => (CreateAclsResponse.mk _ _ y, none)) nt)

/-- Two refused rules, in every version. -/
def twoRefused (v hv : UInt16) : CreateAclsResponse :=
  ⟨⟨API_CreateAcls, v, hv, 7, none⟩, [⟨31, some [110, 111], none⟩, ⟨0, none, none⟩, ⟨1, some [], none⟩], none⟩

example : ∀ x ∈ [((0 : UInt16), (0 : UInt16)), (1, 0), (2, 1), (3, 1)], ((twoRefused x.1 x.2).encode).okAnd (fun bs =>
    decide (decodeCreateAclsResponse x.1 bs = .ok (twoRefused x.1 x.2, none))) = true := by decide +kernel

/-- Why `C137_createAcls_partial` asks for two messages before version 2, and for no tagged fields: the buffer of
create_acls_response.go:86-98 has no room for the length of the frame, which only spare bytes counted for messages hide;
and lines 120-133 write the tagged fields of the response in place of those of a result.  The answer that one rule was
created cannot be written at all; the answer that one rule was refused loses its message, and reading it panics; the tagged
field of a result is lost. -/
theorem C137_violated_createAcls :
    (CreateAclsResponse.mk ⟨API_CreateAcls, 0, 0, 7, none⟩ [⟨0, none, none⟩] none).encode = .panic ∧
    (∃ bs, (CreateAclsResponse.mk ⟨API_CreateAcls, 0, 0, 7, none⟩ [⟨31, some [110, 111], none⟩] none).encode = .ok bs ∧
      decodeCreateAclsResponse 0 bs = .panic) ∧
    (∃ bs, (CreateAclsResponse.mk ⟨API_CreateAcls, 2, 1, 7, none⟩ [⟨0, none, some [⟨1, [5]⟩]⟩] none).encode = .ok bs ∧
      decodeCreateAclsResponse 2 bs = .ok (⟨⟨API_CreateAcls, 2, 1, 7, none⟩, [⟨0, none, none⟩], none⟩, none)) := by
  refine ⟨by decide +kernel, ⟨[0, 0, 0, 12, 0, 0, 0, 7, 0, 0, 0, 1, 0, 31, 0, 2], by decide +kernel, by decide +kernel⟩,
    ⟨[0, 0, 0, 11, 0, 0, 0, 7, 0, 2, 0, 0, 0, 0, 0], by decide +kernel, by decide +kernel⟩⟩

end Healer
