import Verif.Model.Transmit
import Verif.Props.Request3

/-!
# C36: a request object sent to several brokers
-/

namespace Healer

/-- A header whose cached version, if any, is the one for its API version. -/
structure RequestHeader.Fresh (h : RequestHeader) : Prop where
  hv : ∀ v, h.hv = some v → requestHeaderVersion h.apiKey h.apiVersion = some v

namespace RequestHeader

/-- The header without its cache. -/
def forget (h : RequestHeader) : RequestHeader := { h with hv := none }

theorem Fresh.headerVersion {h : RequestHeader} (hf : h.Fresh) : h.headerVersion = h.forget.headerVersion := by
  unfold RequestHeader.headerVersion
  cases hv : h.hv with
  | none => rfl
  | some v => simp only [forget]; rw [hf.hv v hv]

theorem Fresh.isFlexible {h : RequestHeader} (hf : h.Fresh) : h.isFlexible = h.forget.isFlexible := by
  unfold RequestHeader.isFlexible
  rw [hf.headerVersion]

theorem Fresh.length {h : RequestHeader} (hf : h.Fresh) : h.length = h.forget.length := by
  unfold RequestHeader.length
  rw [hf.isFlexible]
  rfl

theorem Fresh.encodeTo {h : RequestHeader} (hf : h.Fresh) : h.encodeTo = h.forget.encodeTo := by
  unfold RequestHeader.encodeTo
  rw [hf.isFlexible, hf.headerVersion]
  rfl

theorem Fresh.writeTo {h : RequestHeader} (hf : h.Fresh) : h.writeTo = h.forget.writeTo := by
  unfold RequestHeader.writeTo
  rw [hf.isFlexible, hf.headerVersion]
  rfl

theorem Fresh.sized {h : RequestHeader} (hf : h.Fresh) (n : Nat) (b : Enc) :
    encodeSized h n b = encodeSized h.forget n b := by
  unfold encodeSized
  rw [hf.length, hf.encodeTo]

theorem Fresh.patched {h : RequestHeader} (hf : h.Fresh) (n : Nat) (b : Enc) :
    encodePatched h n b = encodePatched h.forget n b := by
  unfold encodePatched
  rw [hf.length, hf.encodeTo]

end RequestHeader

/-- Every encoder looks at the cached header version only through `headerVersion`. -/
theorem encode_forget (r : AnyRequest) {h : RequestHeader} (hf : h.Fresh) (hv : h.apiVersion = version) :
    r.encode h version = r.encode h.forget version := by
  cases r with
  | produce c r => 
    simp only [AnyRequest.encode, ProduceRequest.encode]
    rw [hf.isFlexible, hf.writeTo]
  | fetch r => 
    subst hv
    simp only [AnyRequest.encode, FetchRequest.encode]
    rw [show { h with apiVersion := h.apiVersion } = h from rfl, hf.length, hf.encodeTo]
    rfl
  | describeAcls r =>
    simp only [AnyRequest.encode, encodeDescribeAclsRequest]
    rw [hf.length, hf.encodeTo]
  | describeLogDirs ts =>
    simp only [AnyRequest.encode, encodeDescribeLogDirsRequest]
    rw [hf.length, hf.encodeTo]
  | createAcls cs =>
    simp only [AnyRequest.encode, encodeCreateAclsRequest]
    simp only [hf.patched]
    rw [hf.headerVersion]
    rfl
  | deleteAcls cs =>
    simp only [AnyRequest.encode, encodeDeleteAclsRequest]
    simp only [hf.patched]
    rw [hf.isFlexible]
    rfl
  | listGroups r =>
    simp only [AnyRequest.encode, ListGroupsRequest.encode]
    rw [hf.patched, hf.isFlexible]
    rfl
  | offsets r =>
    simp only [AnyRequest.encode, OffsetsRequest.encode]
    rw [hf.encodeTo]
    rfl
  | metadata r => exact hf.sized _ _
  | offsetCommit r => exact hf.sized _ _
  | offsetFetch r => exact hf.sized _ _
  | findCoordinator r => exact hf.sized _ _
  | joinGroup r => exact hf.sized _ _
  | heartbeat r => exact hf.sized _ _
  | leaveGroup r => exact hf.sized _ _
  | syncGroup r => exact hf.sized _ _
  | describeGroups r => exact hf.sized _ _
  | saslHandshake r => exact hf.sized _ _
  | apiVersions => exact hf.sized _ _
  | createTopics r => exact hf.sized _ _
  | deleteTopics r => exact hf.sized _ _
  | describeConfigs r => exact hf.sized _ _
  | alterConfigs r => exact hf.sized _ _
  | saslAuthenticate r => exact hf.sized _ _
  | createPartitions r => exact hf.patched _ _
  | deleteGroups r => exact hf.sized _ _
  | electLeaders r => exact hf.patched _ _
  | incrementalAlterConfigs r => exact hf.sized _ _
  | alterPartitionReassignments r => exact hf.patched _ _
  | listPartitionReassignments r => exact hf.patched _ _

/-- The object's header after any transmission at versions with header version `hv`. -/
structure Between (key hv : UInt16) (cid : Option Bytes) (h : RequestHeader) : Prop where
  key : h.apiKey = key
  cid : h.clientID = cid
  tags : h.taggedFields = none
  hv : h.hv = none ∨ h.hv = some hv

theorem transmissions_eq (r : AnyRequest) (cid : Option Bytes) (hv : UInt16) (seq : List (UInt16 × UInt32))
    (hseq : ∀ x ∈ seq, requestHeaderVersion r.key x.1 = some hv) (h : RequestHeader) (hb : Between r.key hv cid h) :
    r.transmissions h seq = seq.map fun x => r.encode (reqHeader r.key x.1 x.2 cid) x.1 := by
  induction seq generalizing h with
  | nil => rfl
  | cons x seq ih =>
    obtain ⟨v, c⟩ := x
    have hx := hseq (v, c) (.head _)
    have hfresh : RequestHeader.Fresh { h with correlationID := c, apiVersion := v } := by
      refine ⟨fun w hw => ?_⟩
      change requestHeaderVersion h.apiKey v = some w
      rw [hb.key, hx]
      rcases hb.hv with h0 | h0
      · exact absurd (h0.symm.trans hw) (by simp)
      · exact h0.symm.trans hw
    have hforget : RequestHeader.forget { h with correlationID := c, apiVersion := v } = reqHeader r.key v c cid := by
      simp [RequestHeader.forget, reqHeader, hb.key, hb.cid, hb.tags]
    have hnext : Between r.key hv cid (r.transmit h v c).2 := by
      have hver : RequestHeader.headerVersion { h with correlationID := c, apiVersion := v } = .ok hv := by
        rw [hfresh.headerVersion, hforget]
        change (match requestHeaderVersion r.key v with | some v => Out.ok v | none => .panic) = _
        rw [hx]
      simp only [AnyRequest.transmit, RequestHeader.remember, hver]
      exact ⟨hb.key, hb.cid, hb.tags, .inr rfl⟩
    have hbytes : (r.transmit h v c).1 = r.encode (reqHeader r.key v c cid) v := by
      simp only [AnyRequest.transmit]
      rw [encode_forget r hfresh rfl, hforget]
    simp only [AnyRequest.transmissions, List.map_cons]
    rw [hbytes, ih (fun y hy => hseq y (.tail _ hy)) _ hnext]

/-- C36 (part): for every API of which all versions the client knows use the same header layout, a request object
sent to any number of brokers is encoded each time exactly as a new object would be for the version negotiated
with that broker (for which see C58-C65).  Missing: produce, list groups, the three ACL requests and create
partitions, of which the client knows both flexible and non-flexible versions; for these the claim is false
(`C36_violated_listGroups` and following) except for sequences within one kind (`C36_same_kind_partial`). -/
theorem C36_unmixed_partial (r : AnyRequest) (hr : [0, 16, 29, 30, 31, 37].contains r.key = false) (cid : Option Bytes)
    (seq : List (UInt16 × UInt32)) (hseq : ∀ x ∈ seq, x.1 ∈ clientVersions r.key) :
    r.transmissions (reqHeader r.key 0 0 cid) seq = seq.map fun x => r.encode (reqHeader r.key x.1 x.2 cid) x.1 := by
  have hb (hv : UInt16) : Between r.key hv cid (reqHeader r.key 0 0 cid) := ⟨rfl, rfl, rfl, .inl rfl⟩
  have hall : ∃ hv, ∀ v ∈ clientVersions r.key, requestHeaderVersion r.key v = some hv := by
    cases r <;> simp only [AnyRequest.key] at hr ⊢ <;> first
      | exact absurd hr (by decide)
      | exact ⟨1, by decide⟩
      | exact ⟨2, by decide⟩
  obtain ⟨hv, hall⟩ := hall
  exact transmissions_eq r cid hv seq (fun x hx => hall _ (hseq x hx)) _ (hb hv)

example : (AnyRequest.metadata ⟨some [[116]], true⟩).transmissions (reqHeader 3 0 0 (some [99])) [(7, 5), (1, 9)] =
    [.ok [0, 0, 0, 19, 0, 3, 0, 7, 0, 0, 0, 5, 0, 1, 99, 0, 0, 0, 1, 0, 1, 116, 1],
     .ok [0, 0, 0, 18, 0, 3, 0, 1, 0, 0, 0, 9, 0, 1, 99, 0, 0, 0, 1, 0, 1, 116]] := by decide +kernel

/-- C36 (part): for every API, sequences of versions with the same header layout.
Missing: versions with different layouts (`C36_violated_listGroups` and the others). -/
theorem C36_same_kind_partial (r : AnyRequest) (cid : Option Bytes) (hv : UInt16) (seq : List (UInt16 × UInt32))
    (hseq : ∀ x ∈ seq, requestHeaderVersion r.key x.1 = some hv) :
    r.transmissions (reqHeader r.key 0 0 cid) seq = seq.map fun x => r.encode (reqHeader r.key x.1 x.2 cid) x.1 :=
  transmissions_eq r cid hv seq hseq _ ⟨rfl, rfl, rfl, .inl rfl⟩

example : (AnyRequest.createAcls []).transmissions (reqHeader 30 0 0 (some [99])) [(3, 5), (2, 9)] =
    [.ok [0, 0, 0, 14, 0, 30, 0, 3, 0, 0, 0, 5, 0, 1, 99, 0, 1, 0],
     .ok [0, 0, 0, 14, 0, 30, 0, 2, 0, 0, 0, 9, 0, 1, 99, 0, 1, 0]] := by decide +kernel

/-- C36 fails: a list-groups request sent to a broker at version 3 (flexible), then to one at version 0, ends the
second time with two bytes (the tags of flexible header and body) that version 0 does not have. -/
theorem C36_violated_listGroups :
    (AnyRequest.listGroups ⟨none, none, none⟩).transmissions (reqHeader 16 0 0 (some [99])) [(3, 5), (0, 9)] =
      [.ok (Kafka.request .listGroups 3 5 (some [99]) [0]), .ok [0, 0, 0, 13, 0, 16, 0, 0, 0, 0, 0, 9, 0, 1, 99, 0, 0]] ∧
    Kafka.request .listGroups 0 9 (some [99]) [] = [0, 0, 0, 11, 0, 16, 0, 0, 0, 0, 0, 9, 0, 1, 99] := by
  decide +kernel

/-- C36 fails: a create-partitions request sent at version 2, then at version 0, has a stray byte between header
and body. -/
theorem C36_violated_createPartitions :
    (AnyRequest.createPartitions ⟨[⟨[116], 3, none⟩], 5, false⟩).transmissions (reqHeader 37 0 0 (some [99]))
      [(2, 5), (0, 9)] = [
        .ok [0, 0, 0, 27, 0, 37, 0, 2, 0, 0, 0, 5, 0, 1, 99, 0, 2, 2, 116, 0, 0, 0, 3, 0, 0, 0, 0, 0, 5, 0, 0],
        .ok [0, 0, 0, 32, 0, 37, 0, 0, 0, 0, 0, 9, 0, 1, 99, 0, 0, 0, 0, 1, 0, 1, 116, 0, 0, 0, 3, 0, 0, 0, 0, 0, 0, 0, 5, 0]] ∧
    (AnyRequest.createPartitions ⟨[⟨[116], 3, none⟩], 5, false⟩).encode (reqHeader 37 0 9 (some [99])) 0 =
        .ok [0, 0, 0, 31, 0, 37, 0, 0, 0, 0, 0, 9, 0, 1, 99, 0, 0, 0, 1, 0, 1, 116, 0, 0, 0, 3, 0, 0, 0, 0, 0, 0, 0, 5, 0] := by
  decide +kernel

/-- C36 fails: a produce request sent at version 0, then at version 9, is laid out for version 0 both times. -/
theorem C36_violated_produce :
    (AnyRequest.produce (fun _ b => .ok b) ⟨none, 1, 2, []⟩).transmissions (reqHeader 0 0 0 (some [99])) [(0, 5), (9, 9)] = [
        .ok [0, 0, 0, 23, 0, 0, 0, 0, 0, 0, 0, 5, 0, 1, 99, 255, 255, 0, 1, 0, 0, 0, 2, 0, 0, 0, 0],
        .ok [0, 0, 0, 23, 0, 0, 0, 9, 0, 0, 0, 9, 0, 1, 99, 255, 255, 0, 1, 0, 0, 0, 2, 0, 0, 0, 0]] ∧
    (AnyRequest.produce (fun _ b => .ok b) ⟨none, 1, 2, []⟩).encode (reqHeader 0 9 9 (some [99])) 9 =
        .ok [0, 0, 0, 21, 0, 0, 0, 9, 0, 0, 0, 9, 0, 1, 99, 0, 0, 0, 1, 0, 0, 0, 2, 1, 0] := by
  decide +kernel

/-- C36 fails for the three ACL requests. -/
theorem C36_violated_acls :
    (AnyRequest.describeAcls ⟨2, none, 1, none, none, 1, 1⟩).transmissions (reqHeader 29 0 0 none) [(2, 5), (0, 9)] ≠
      [(2, 5), (0, 9)].map (fun x => (AnyRequest.describeAcls ⟨2, none, 1, none, none, 1, 1⟩).encode (reqHeader 29 x.1 x.2 none) x.1) ∧
    (AnyRequest.createAcls []).transmissions (reqHeader 30 0 0 none) [(0, 5), (3, 9)] ≠
      [(0, 5), (3, 9)].map (fun x => (AnyRequest.createAcls []).encode (reqHeader 30 x.1 x.2 none) x.1) ∧
    (AnyRequest.deleteAcls []).transmissions (reqHeader 31 0 0 none) [(0, 5), (3, 9)] ≠
      [(0, 5), (3, 9)].map (fun x => (AnyRequest.deleteAcls []).encode (reqHeader 31 x.1 x.2 none) x.1) := by
  decide +kernel

end Healer
