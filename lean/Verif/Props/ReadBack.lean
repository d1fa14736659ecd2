import Verif.Model.ReadBack
import Verif.Props.Request3
import Verif.Props.Response3

/-!
# Requests read back (C133)
-/

namespace Healer

/-- What identifies a request: the API, the version, the correlation id and the client. -/
def SameRequest (a b : RequestHeader) : Prop :=
  a.apiKey = b.apiKey ∧ a.apiVersion = b.apiVersion ∧ a.correlationID = b.correlationID ∧ a.clientID = b.clientID

/-- A client id is a Kafka string. -/
def ShortId (cid : Option Bytes) : Prop := ∀ b, cid = some b → b.length ≤ 32767

/-- the header after reading -/
def readHeader (api : Kafka.Api) (key v : UInt16) (corr : UInt32) (cid : Option Bytes) : RequestHeader :=
  { reqHeader key v corr cid with hv := some (UInt16.ofNat (api.requestHeaderVersion v.toNat)) }

theorem readHeader_same (api : Kafka.Api) (key v : UInt16) (corr : UInt32) (cid : Option Bytes) :
    SameRequest (readHeader api key v corr cid) (reqHeader key v corr cid) := ⟨rfl, rfl, rfl, rfl⟩

theorem readHeader_flex (api : Kafka.Api) (key v : UInt16) (corr : UInt32) (cid : Option Bytes) :
    (readHeader api key v corr cid).flexCached = api.flexible v.toNat := by
  unfold readHeader RequestHeader.flexCached Kafka.Api.requestHeaderVersion
  cases api.flexible v.toNat <;> rfl

theorem sreads_reqHeader (api : Kafka.Api) (key v : UInt16) (hk : key = UInt16.ofNat api.key) (corr : UInt32)
    (cid : Option Bytes) (hc : ShortId cid) :
    SReads (Cur.call decodeRequestHeader)
      (Kafka.requestHeader (api.requestHeaderVersion v.toNat) api.key v.toNat corr.toNat cid [])
      (readHeader api key v corr cid) := by
  have hv12 : api.requestHeaderVersion v.toNat = 1 ∨ api.requestHeaderVersion v.toNat = 2 := by
    unfold Kafka.Api.requestHeaderVersion; split <;> simp
  have hvn : (UInt16.ofNat (api.requestHeaderVersion v.toNat)).toNat = api.requestHeaderVersion v.toNat := by
    rcases hv12 with h | h <;> rw [h] <;> rfl
  have hkn : (UInt16.ofNat api.key).toNat = api.key := by cases api <;> rfl
  have htab := (C08_header_versions api v).1
  rw [← hk] at htab
  have hf : TaggedFields.Fits none := ⟨by simp, by simp⟩
  have := reads_requestHeader (reqHeader key v corr cid) _ htab (fun b hb => by have := hc b hb; omega) hf
  have hw : (reqHeader key v corr cid).wire (UInt16.ofNat (api.requestHeaderVersion v.toNat)) =
      Kafka.requestHeader (api.requestHeaderVersion v.toNat) api.key v.toNat corr.toNat cid [] := by
    unfold RequestHeader.wire reqHeader
    rw [hvn, hk]
    simp only [hkn]
    rfl
  rw [hw] at this
  refine ((CReads.call this).s).cast rfl ?_
  unfold readHeader
  simp only [hvn]
  rw [if_pos (by omega)]
  have e : (reqHeader key v corr cid).taggedFields.norm = none := rfl
  rw [e]
  simp [reqHeader]

/-- Reads a request whose length is checked. -/
theorem respond_request {α : Type} {f : RequestHeader → Cur α} {api : Kafka.Api} {key v : UInt16} {corr : UInt32}
    {cid : Option Bytes} {body : Bytes} {a : α} (hk : key = UInt16.ofNat api.key) (hc : ShortId cid)
    (h : SReads (f (readHeader api key v corr cid)) body a)
    (hl : (Kafka.request api v.toNat corr.toNat cid body).length < 2 ^ 31) :
    respond (Cur.call decodeRequestHeader >>= f) (Kafka.request api v.toNat corr.toNat cid body) = .ok a := by
  unfold Kafka.request at hl ⊢
  exact respond_frame (SReads.bind (sreads_reqHeader api key v hk corr cid hc) h) hl

/-- Reads a request whose length is checked, leaving the end unread. -/
theorem respond_request' {α : Type} {f : RequestHeader → Cur α} {api : Kafka.Api} {key v : UInt16} {corr : UInt32}
    {cid : Option Bytes} {body rest : Bytes} {a : α} (hk : key = UInt16.ofNat api.key) (hc : ShortId cid)
    (h : SReads (f (readHeader api key v corr cid)) body a)
    (hl : (Kafka.request api v.toNat corr.toNat cid (body ++ rest)).length < 2 ^ 31) :
    respond (Cur.call decodeRequestHeader >>= f) (Kafka.request api v.toNat corr.toNat cid (body ++ rest)) = .ok a := by
  unfold Kafka.request at hl ⊢
  have hl' := hl
  unfold Kafka.frame at hl'
  simp only [List.length_append] at hl'
  unfold respond
  rw [Cur.bind_def, openFrame_ok _ (by simp only [List.length_append]; omega)]
  have hb := SReads.bind (sreads_reqHeader api key v hk corr cid hc) h
  have := hb (by rw [List.length_append]; omega) (Kafka.int32 (Kafka.requestHeader (api.requestHeaderVersion v.toNat) api.key v.toNat corr.toNat cid [] ++ (body ++ rest)).length) rest
  rw [int32_length] at this
  have e : ((4 : Nat) : Int) = 4 := rfl
  rw [e] at this
  simp only [List.append_assoc] at this
  unfold Kafka.frame
  simp only [this]

/-- Reads a request whose length is not checked. -/
theorem readBack_request {α β : Type} {m : Cur β} {f : RequestHeader → Cur α} {api : Kafka.Api} {key v : UInt16} {corr : UInt32}
    {cid : Option Bytes} {body rest : Bytes} {a : α} (hk : key = UInt16.ofNat api.key) (hc : ShortId cid)
    (hm : ∀ b : Bytes, ∃ x, m (Kafka.frame b) 0 = .ok (x, 4))
    (h : SReads (f (readHeader api key v corr cid)) body a)
    (hl : (Kafka.request api v.toNat corr.toNat cid (body ++ rest)).length < 2 ^ 31) :
    readBack (m >>= fun _ => Cur.call decodeRequestHeader >>= f) (Kafka.request api v.toNat corr.toNat cid (body ++ rest)) =
      .ok a := by
  unfold Kafka.request at hl ⊢
  unfold readBack
  obtain ⟨x, hx⟩ := hm (Kafka.requestHeader (api.requestHeaderVersion v.toNat) api.key v.toNat corr.toNat cid [] ++ (body ++ rest))
  rw [Cur.bind_def, hx]
  have hb := SReads.bind (sreads_reqHeader api key v hk corr cid hc) h
  have hl' := hl
  unfold Kafka.frame at hl'
  simp only [List.length_append] at hl'
  have := hb (by rw [List.length_append]; omega) (Kafka.int32 (Kafka.requestHeader (api.requestHeaderVersion v.toNat) api.key v.toNat corr.toNat cid [] ++ (body ++ rest)).length) rest
  rw [int32_length] at this
  have e : ((4 : Nat) : Int) = 4 := rfl
  rw [e] at this
  simp only [List.append_assoc] at this
  unfold Kafka.frame
  simp only [this]

theorem skipU32 (b : Bytes) : ∃ x, rdU32 (Kafka.frame b) 0 = .ok (x, 4) := by
  have := creads_len32 b.length [] b
  simp only [List.nil_append, List.length_nil] at this
  have e : ((0 : Nat) : Int) = 0 := rfl
  rw [e] at this
  exact ⟨_, this⟩

theorem skip4 (b : Bytes) : ∃ x, Cur.advance 4 (Kafka.frame b) 0 = .ok (x, 4) := ⟨(), rfl⟩

theorem sreads_one (b : Bool) : SReads rdOne (Kafka.boolean b) b := by
  cases b
  · exact (sreads_u8 0).bind_pure (g := fun x => x == 1)
  · exact (sreads_u8 1).bind_pure (g := fun x => x == 1)

theorem sreads_int8u (v : UInt8) : SReads rdU8 (Kafka.int8 v.toNat) v :=
  (sreads_u8 v).cast (by
    have : (v.toNat : Int) % 256 = v.toNat := by have := v.toNat_lt; omega
    simp [Kafka.int8, Kafka.be, this]) rfl

/-! ## Metadata -/

/-- What a request of the version carries: before version 4 the flag is not sent and reads as false. -/
def MetadataRequest.sent (v : UInt16) (r : MetadataRequest) : MetadataRequest :=
  { r with allowAutoTopicCreation := if 4 ≤ v.toNat then r.allowAutoTopicCreation else false }

theorem u16_ge (v : UInt16) (n : Nat) (h : n < 2 ^ 16) : v ≥ UInt16.ofNat n ↔ n ≤ v.toNat := by
  rw [ge_iff_le, UInt16.le_iff_toNat_le, UInt16.toNat_ofNat', Nat.mod_eq_of_lt h]

/-- C133, metadata requests naming their topics.
Missing: requests for all topics (`C133_violated_metadata_all`). -/
theorem C133_metadata_partial (ts : List Bytes) (auto : Bool) (hs : ∀ t ∈ ts, Kafka.IsString t) (v : UInt16)
    (hv : v ∈ clientVersions API_MetadataRequest) (corr : UInt32) (cid : Option Bytes) (hc : ShortId cid) (bs : Bytes)
    (he : (MetadataRequest.mk (some ts) auto).encode (reqHeader API_MetadataRequest v corr cid) v = .ok bs)
    (hl : bs.length < 2 ^ 31) :
    ∃ h, decodeMetadataRequest bs = .ok (h, (MetadataRequest.mk (some ts) auto).sent v) ∧
      SameRequest h (reqHeader API_MetadataRequest v corr cid) := by
  rw [C60_metadata _ v hv] at he
  cases he
  refine ⟨_, ?_, readHeader_same .metadata API_MetadataRequest v corr cid⟩
  have hv8 : ¬ 8 ≤ v.toNat := by
    have : v = 7 ∨ v = 4 ∨ v = 1 := by simpa [clientVersions, availableVersions, API_MetadataRequest] using hv
    rcases this with h | h | h <;> subst h <;> decide
  have e : Kafka.metadataRequest v.toNat (some ts) auto =
      Kafka.array Kafka.string (ts.map id) ++ (if 4 ≤ v.toNat then Kafka.boolean auto else []) ++ [] := by
    unfold Kafka.metadataRequest Kafka.nullableArray Kafka.array
    rw [if_neg hv8, List.map_id]
  simp only at hl ⊢
  rw [e] at hl ⊢
  exact readBack_request (api := .metadata) (key := API_MetadataRequest) rfl hc skipU32
    (.bind (sreads_arr32 id ts (by nonempty) fun t ht => sreads_str16 (hs t ht)) <|
      .bind_pure (g := fun a => (readHeader .metadata API_MetadataRequest v corr cid, (⟨some ts, a⟩ : MetadataRequest)))
        (SReads.cond' (c' := 4 ≤ v.toNat) (u16_ge v 4 (by decide)) fun _ => sreads_one auto)) hl

example : decodeMetadataRequest [0, 0, 0, 22, 0, 3, 0, 4, 0, 0, 0, 7, 0, 1, 99, 0, 0, 0, 1, 0, 3, 116, 111, 112, 1] =
    .ok ({ hv := some 1, apiKey := 3, apiVersion := 4, correlationID := 7, clientID := some [99] },
      ⟨some [[116, 111, 112]], true⟩) := by decide +kernel

/-- Code that panics at the end of what was read. -/
theorem SReads.then_panic {α β : Type} {m : Cur α} {f : α → Cur β} {e rest : Bytes} {a : α} (h : SReads m e a) (he : e.length < 2 ^ 31)
    (hp : ∀ pre : Bytes, f a (pre ++ rest) pre.length = .panic) (pre : Bytes) :
    (m >>= f) (pre ++ (e ++ rest)) pre.length = .panic := by
  have h2 := hp (pre ++ e)
  rw [List.length_append, List.append_assoc] at h2
  rw [Cur.bind_def, h he pre rest]
  exact h2

theorem str16_short (rest : Bytes) (h : rest.length < 2) (pre : Bytes) : rdStr16 (pre ++ rest) pre.length = .panic := by
  unfold rdStr16 rdU16
  simp only [Cur.bind_def, Cur.call, sliceFrom_append, beGet]
  rw [if_neg (by omega)]

theorem forN_panic {α : Type} {c : Cur α} {p : Bytes} {off : Int} (h : c p off = .panic) (n : Nat) (hn : 0 < n) :
    Cur.forN n c p off = .panic := by
  cases n with
  | zero => omega
  | succ n => unfold Cur.forN; rw [Cur.bind_def, h]

theorem sreads_minus1 : SReads rdU32 (Kafka.int32 (-1)) 4294967295 := (sreads_u32 4294967295).cast (by decide +kernel) rfl

theorem array_minus1 (rest : Bytes) (hr : rest.length < 2) (pre : Bytes) :
    rdArr32 rdStr16 (pre ++ (Kafka.int32 (-1) ++ rest)) pre.length = .panic :=
  SReads.then_panic sreads_minus1 (by rw [int32_length]; decide) (fun pre =>
    forN_panic (str16_short rest hr pre) _ (by decide +kernel)) pre

/-- C133 fails for a metadata request for all topics: the count −1 is taken for 4294967295 topics. -/
theorem C133_violated_metadata_all (auto : Bool) (v : UInt16) (hv : v ∈ clientVersions API_MetadataRequest) (corr : UInt32)
    (cid : Option Bytes) (hc : ShortId cid) :
    ∃ bs, (MetadataRequest.mk none auto).encode (reqHeader API_MetadataRequest v corr cid) v = .ok bs ∧
      decodeMetadataRequest bs = .panic := by
  refine ⟨_, C60_metadata _ v hv corr cid, ?_⟩
  have hv8 : ¬ 8 ≤ v.toNat := by
    have : v = 7 ∨ v = 4 ∨ v = 1 := by simpa [clientVersions, availableVersions, API_MetadataRequest] using hv
    rcases this with h | h | h <;> subst h <;> decide
  unfold Kafka.metadataRequest Kafka.nullableArray
  rw [if_neg hv8, List.append_nil]
  have hr : ∀ rest : Bytes, rest.length < 2 → decodeMetadataRequest (Kafka.request .metadata v.toNat corr.toNat cid
      (Kafka.int32 (-1) ++ rest)) = .panic := by
    intro rest hrest
    unfold Kafka.request
    obtain ⟨x, hx⟩ := skipU32 (Kafka.requestHeader (Kafka.Api.metadata.requestHeaderVersion v.toNat) Kafka.Api.metadata.key
      v.toNat corr.toNat cid [] ++ (Kafka.int32 (-1) ++ rest))
    unfold decodeMetadataRequest readBack
    rw [Cur.bind_def, hx]
    have hhl : (Kafka.requestHeader (Kafka.Api.metadata.requestHeaderVersion v.toNat) Kafka.Api.metadata.key
        v.toNat corr.toNat cid []).length < 2 ^ 31 := by
      have hcl : (Kafka.nullableString cid).length ≤ 2 + 32767 := by
        cases cid with
        | none => decide
        | some b => have := hc b rfl; simp only [Kafka.nullableString, List.length_append, int16_length]; omega
      have h1 : (if 1 ≤ Kafka.Api.metadata.requestHeaderVersion v.toNat then Kafka.nullableString cid else []).length ≤ 2 + 32767 := by
        split
        · exact hcl
        · simp
      have h2 : (if 2 ≤ Kafka.Api.metadata.requestHeaderVersion v.toNat then Kafka.tagBuffer [] else []).length ≤ 1 := by
        split <;> simp
      unfold Kafka.requestHeader
      simp only [List.length_append, int16_length, int32_length]
      omega
    have := SReads.then_panic (rest := Kafka.int32 (-1) ++ rest) (f := fun h => (do
        let ts ← rdArr32 rdStr16
        let a ← Cur.cond (h.apiVersion ≥ 4) rdOne false
        pure (h, (⟨some ts, a⟩ : MetadataRequest)) : Cur (RequestHeader × MetadataRequest)))
      (sreads_reqHeader .metadata API_MetadataRequest v rfl corr cid hc) hhl (fun pre => by
        rw [Cur.bind_def]
        rw [array_minus1 rest hrest pre])
      (Kafka.int32 (Kafka.requestHeader (Kafka.Api.metadata.requestHeaderVersion v.toNat) Kafka.Api.metadata.key
      v.toNat corr.toNat cid [] ++ (Kafka.int32 (-1) ++ rest)).length)
    unfold Kafka.frame
    rw [int32_length] at this
    have e : ((4 : Nat) : Int) = 4 := rfl
    rw [e] at this
    simp only [this]
  exact hr _ (by split <;> simp [Kafka.boolean])

/-! ## List groups -/

/-- What a request of the version carries: filters the version does not have are left out. -/
def listFiltersSent (v : UInt16) (states types : List Bytes) : ListGroupsRequest :=
  ⟨if 4 ≤ v.toNat then some states else none, if 5 ≤ v.toNat then some types else none, none⟩

theorem sreads_filter (xs : List Bytes) :
    SReads (rdFilter true) (Kafka.compactArray Kafka.compactString xs) (some xs) := by
  have := sreads_flexArr (c := rdFlexString true) (enc := Kafka.compactString) (tail := []) (out := some xs)
    (body := fun n => Cur.cond (0 ≤ n.toInt) (do let xs ← Cur.forN n.toInt.toNat (rdFlexString true); pure (some xs)) none)
    true id id xs (fun s => by rw [compactString_length]; have := uvarint_length_pos (s.length + 1); omega)
    (fun x _ => sreads_compactString x) fun n hn h => by
      rw [List.append_nil, hn]
      unfold Cur.cond
      rw [if_pos (by omega)]
      rw [List.map_id] at h ⊢
      exact h.bind_pure (g := some)
  rw [List.append_nil, List.map_id] at this
  exact this

/-- C133, list-groups requests, with filters for which the request can be written (`C58_listGroups_partial`).
Missing: the other requests (`C133_violated_deleteAcls`, `C133_violated_metadata_all`, `C133_violated_produce_compressed`). -/
theorem C133_listGroups_partial (states types : List Bytes) (v : UInt16) (hv : v ∈ clientVersions API_ListGroups)
    (hs : ∀ x ∈ states, x.length < 16383) (ht : ∀ x ∈ types, x.length < 16383)
    (hns : states.length + 1 < 2 ^ 28) (hnt : types.length + 1 < 2 ^ 28) (corr : UInt32) (cid : Option Bytes) (hc : ShortId cid)
    (bs : Bytes) (he : ListGroupsRequest.encode (reqHeader API_ListGroups v corr cid)
      { statesFilter := some states, typesFilter := some types } = .ok bs) (hl : bs.length < 2 ^ 31) :
    ∃ h, decodeListGroupsRequest bs = .ok (h, listFiltersSent v states types) ∧
      SameRequest h (reqHeader API_ListGroups v corr cid) := by
  rw [C58_listGroups_partial states types v hv hs ht hns hnt] at he
  cases he
  refine ⟨_, ?_, readHeader_same .listGroups API_ListGroups v corr cid⟩
  refine respond_request (api := .listGroups) (key := API_ListGroups) rfl hc ?_ hl
  rw [readHeader_flex]
  have hf : Kafka.Api.flexible .listGroups v.toNat = decide (3 ≤ v.toNat) := rfl
  rw [hf]
  unfold Kafka.listGroupsRequest
  rw [List.append_assoc]
  have hcond : ∀ (n : Nat) (xs : List Bytes), 4 ≤ n → n < 2 ^ 16 →
      SReads (Cur.cond (v ≥ UInt16.ofNat n) (rdFilter (decide (3 ≤ v.toNat))) none)
        (if n ≤ v.toNat then Kafka.compactArray Kafka.compactString xs else []) (if n ≤ v.toNat then some xs else none) := by
    intro n xs h4 hn
    refine SReads.cond' (u16_ge v n hn) fun h => ?_
    have : 3 ≤ v.toNat := by have := (u16_ge v n hn).1 h; omega
    rw [decide_eq_true this]
    exact sreads_filter xs
  refine .bind (hcond 4 states (by omega) (by omega)) <| .bind (hcond 5 types (by omega) (by omega)) <|
    .bind_pure (g := fun tf => (readHeader .listGroups API_ListGroups v corr cid, (⟨_, _, tf⟩ : ListGroupsRequest))) ?_
  have := sreads_flexTags (f := decide (3 ≤ v.toNat)) (t := none) ⟨by simp, by simp⟩
  refine this.cast ?_ ?_
  · by_cases h : 3 ≤ v.toNat <;> simp [h, Kafka.flexTags, TaggedFields.wire]
  · split <;> rfl

example : (ListGroupsRequest.encode (reqHeader API_ListGroups 5 7 (some [99]))
      { statesFilter := some [[69], []], typesFilter := some [[99]] }).okAnd
    (fun bs => (decodeListGroupsRequest bs).okAnd fun x => decide (x.2 = ⟨some [[69], []], some [[99]], none⟩)) = true := by
  decide +kernel

example : decodeListGroupsRequest [0, 0, 0, 25, 0, 16, 0, 4, 0, 0, 0, 7, 0, 1, 99, 0, 2, 12, 80, 114, 101, 112, 97, 114, 105, 110, 103, 33, 33,
    0] = .err .lengthMismatch := by decide +kernel

/-! ## ACLs -/

/-- What a request of the version carries: version 0 has no pattern type. -/
def AclFilter.sent (v : UInt16) (f : AclFilter) : AclFilter := { f with patternType := if 1 ≤ v.toNat then f.patternType else 0 }

def AclCreation.sent (v : UInt16) (f : AclCreation) : AclCreation := { f with patternType := if 1 ≤ v.toNat then f.patternType else 0 }

theorem sreads_emptyTags {β : Type} {x : β} : SReads (Cur.call decodeTaggedFields >>= fun _ => pure x) (Kafka.tagBuffer []) x :=
  (sreads_tags (t := none) ⟨by simp, by simp⟩).bind_pure (g := fun _ => x)

theorem sreads_aclCreation (v : UInt16) (h2 : 2 ≤ v.toNat) (f : AclCreation) :
    SReads (rdAclCreation v true) (creationWire v.toNat f.wire) (f.sent v) := by
  unfold creationWire Kafka.aclCreation AclCreation.wire
  simp only [if_pos h2, List.append_assoc]
  exact .bind (sreads_int8u _) <| .bind (sreads_flexString (f := true) (by simp)) <|
    .bind (SReads.cond' (u16_ge v 1 (by decide)) fun _ => sreads_int8u _) <|
    .bind (sreads_flexString (f := true) (by simp)) <| .bind (sreads_flexString (f := true) (by simp)) <|
    .bind (sreads_int8u _) <| .bind (sreads_int8u _) <| sreads_emptyTags

theorem sreads_aclFilter (v : UInt16) (h2 : 2 ≤ v.toNat) (f : AclFilter) :
    SReads (rdAclFilter v true) (filterWire v.toNat f.wire) (f.sent v) := by
  unfold filterWire Kafka.aclFilter AclFilter.wire
  simp only [if_pos h2, List.append_assoc]
  exact .bind (sreads_int8u _) <| .bind (sreads_flexNullable (f := true) (by simp)) <|
    .bind (SReads.cond' (u16_ge v 1 (by decide)) fun _ => sreads_int8u _) <|
    .bind (sreads_flexNullable (f := true) (by simp)) <| .bind (sreads_flexNullable (f := true) (by simp)) <|
    .bind (sreads_int8u _) <| .bind (sreads_int8u _) <| sreads_emptyTags


/-- C133, creating ACLs in the flexible version 2; versions 0 and 1 follow. -/
theorem C133_createAcls (fs : List AclCreation) (hs : ∀ f ∈ fs, f.Small) (hn : fs.length < 2 ^ 31) (v : UInt16)
    (hv : v ∈ clientVersions API_CreateAcls) (h2 : 2 ≤ v.toNat) (corr : UInt32) (cid : Option Bytes) (hc : ShortId cid) (bs : Bytes)
    (he : encodeCreateAclsRequest (reqHeader API_CreateAcls v corr cid) fs = .ok bs) (hl : bs.length < 2 ^ 31) :
    ∃ h, decodeCreateAclsRequest bs = .ok (h, fs.map (AclCreation.sent v)) ∧ SameRequest h (reqHeader API_CreateAcls v corr cid) := by
  rw [C65_createAcls_partial fs hs hn v hv h2] at he
  cases he
  refine ⟨_, ?_, readHeader_same .createAcls API_CreateAcls v corr cid⟩
  have hf : Kafka.Api.flexible .createAcls v.toNat = true := by
    have : Kafka.Api.flexible .createAcls v.toNat = decide (2 ≤ v.toNat) := rfl
    rw [this, decide_eq_true h2]
  unfold decodeCreateAclsRequest
  rw [respondWrap_eq _ _ hl]
  refine respond_request (api := .createAcls) (key := API_CreateAcls) rfl hc ?_ hl
  rw [readHeader_flex, hf]
  unfold Kafka.createAclsRequest
  rw [if_pos h2]
  refine sreads_flexArr (c := rdAclCreation v true) (enc := creationWire v.toNat) true AclCreation.wire (AclCreation.sent v) fs
    (by intro x; unfold creationWire Kafka.aclCreation; simp only [List.length_append, int8_length]; omega)
    (fun f _ => sreads_aclCreation v h2 f) fun n hn h => ?_
  exact .bind (sreads_forInt hn h) sreads_emptyTags

example : decodeCreateAclsRequest [0, 0, 0, 25, 0, 30, 0, 2, 0, 0, 0, 7, 0, 1, 99, 0, 2, 2, 2, 116, 3, 2, 117, 2, 42, 3, 3, 0, 0] =
    .ok ({ hv := some 2, apiKey := 30, apiVersion := 2, correlationID := 7, clientID := some [99] },
      [⟨2, [116], 3, [117], [42], 3, 3⟩]) := by decide +kernel

/-- Names Kafka has room for. -/
structure AclCreation.Named (f : AclCreation) : Prop where
  name : Kafka.IsString f.resourceName
  principal : Kafka.IsString f.principal
  host : Kafka.IsString f.host

theorem createAcls_bytes (fs : List AclCreation) (v : UInt16) (h2 : ¬ 2 ≤ v.toNat) (corr : UInt32) (cid : Option Bytes) :
    encodeCreateAclsRequest (reqHeader API_CreateAcls v corr cid) fs = .ok (Kafka.request .createAcls v.toNat corr.toNat cid
      (Kafka.array (creationWire v.toNat) (fs.map AclCreation.wire) ++ Kafka.tagBuffer [])) := by
  have hf := reqHeader_version .createAcls API_CreateAcls v corr cid rfl
  have hfl : Kafka.Api.requestHeaderVersion .createAcls v.toNat = 1 := by
    have : Kafka.Api.flexible .createAcls v.toNat = decide (2 ≤ v.toNat) := rfl
    simp [Kafka.Api.requestHeaderVersion, this, h2]
  rw [hfl] at hf
  have hstr : ∀ s : Bytes, Writes (encodeAclString 1 s) (Kafka.string s) := by
    intro s
    unfold encodeAclString
    rw [if_pos (by decide)]
    exact Writes.cpyO (encodeString_eq s)
  have hc : ∀ f : AclCreation, Writes (f.enc v 1) (creationWire v.toNat f.wire) := by
    intro f
    unfold AclCreation.enc
    refine Writes.cast writes![Writes.u8 _, hstr _, Writes.when fun _ => Writes.u8 _, hstr _, hstr _, Writes.u8 _, Writes.u8 _,
      Writes.noTags] ?_
    rw [ge_one]
    simp only [decide_eq_true_eq, creationWire, Kafka.aclCreation, AclCreation.wire, List.append_assoc, h2, if_false]
  have hlen : ∀ f : AclCreation, (creationWire v.toNat f.wire).length ≤ f.length := by
    intro f
    have h4 : (if 1 ≤ v.toNat then Kafka.int8 f.patternType.toNat else []).length ≤ 1 := by split <;> simp
    unfold creationWire Kafka.aclCreation AclCreation.wire AclCreation.length
    simp only [h2, if_false, List.length_append, int8_length, noTagsLength_eq, string_length, tagBuffer_nil_length]
    omega
  unfold encodeCreateAclsRequest
  rw [hf, Out.bind_ok]
  refine encodePatched_ok .createAcls rfl (Writes.cast (x := be32 (UInt32.ofNat fs.length) ++ (fs.flatMap (fun f =>
    creationWire v.toNat f.wire) ++ (Kafka.tagBuffer [] ++ []))) ?_ ?_) ?_
  · have hd : (UInt16.ofNat 1) < 2 := by decide
    rw [if_pos hd]
    exact writes![Writes.put _, Writes.each fs fun f _ => hc f, Writes.noTags]
  · unfold Kafka.array
    rw [be32_ofNat, List.flatMap_map, List.length_map]
    simp only [List.append_assoc, List.append_nil]
  · have h1 := foldl_ge (k := AclCreation.wire) (g := creationWire v.toNat) (f := fun l f => l + f.length) fs 4
      (fun l f _ => by have := hlen f; omega)
    unfold Kafka.array
    simp only [List.length_append, noTagsLength_eq, tagBuffer_nil_length, int32_length]
    omega

theorem sreads_aclCreation' (v : UInt16) (h2 : ¬ 2 ≤ v.toNat) (f : AclCreation) (h : f.Named) :
    SReads (rdAclCreation v false) (creationWire v.toNat f.wire) (f.sent v) := by
  unfold creationWire Kafka.aclCreation AclCreation.wire
  simp only [if_neg h2, List.append_assoc]
  exact .bind (sreads_int8u _) <| .bind (sreads_flexString (f := false) fun _ => h.name) <|
    .bind (SReads.cond' (u16_ge v 1 (by decide)) fun _ => sreads_int8u _) <|
    .bind (sreads_flexString (f := false) fun _ => h.principal) <| .bind (sreads_flexString (f := false) fun _ => h.host) <|
    .bind (sreads_int8u _) <| .bind (sreads_int8u _) <| sreads_emptyTags

/-- C133, creating ACLs in versions 0 and 1.  What is written is not Kafka's format (C65) but is read back all the same. -/
theorem C133_createAcls_old (fs : List AclCreation) (hs : ∀ f ∈ fs, f.Named) (v : UInt16)
    (h2 : ¬ 2 ≤ v.toNat) (corr : UInt32) (cid : Option Bytes) (hc : ShortId cid) (bs : Bytes)
    (he : encodeCreateAclsRequest (reqHeader API_CreateAcls v corr cid) fs = .ok bs) (hl : bs.length < 2 ^ 31) :
    ∃ h, decodeCreateAclsRequest bs = .ok (h, fs.map (AclCreation.sent v)) ∧ SameRequest h (reqHeader API_CreateAcls v corr cid) := by
  rw [createAcls_bytes fs v h2] at he
  cases he
  refine ⟨_, ?_, readHeader_same .createAcls API_CreateAcls v corr cid⟩
  have hf : Kafka.Api.flexible .createAcls v.toNat = false := by
    have : Kafka.Api.flexible .createAcls v.toNat = decide (2 ≤ v.toNat) := rfl
    rw [this, decide_eq_false h2]
  unfold decodeCreateAclsRequest
  rw [respondWrap_eq _ _ hl]
  refine respond_request (api := .createAcls) (key := API_CreateAcls) rfl hc ?_ hl
  rw [readHeader_flex, hf]
  refine sreads_flexArr (c := rdAclCreation v false) (enc := creationWire v.toNat) false AclCreation.wire (AclCreation.sent v) fs
    (by intro x; unfold creationWire Kafka.aclCreation; simp only [List.length_append, int8_length]; omega)
    (fun f hf => sreads_aclCreation' v h2 f (hs f hf)) fun n hn h => ?_
  exact .bind (sreads_forInt hn h) sreads_emptyTags

example : decodeCreateAclsRequest [0, 0, 0, 29, 0, 30, 0, 0, 0, 0, 0, 7, 0, 1, 99, 0, 0, 0, 1, 2, 0, 1, 116, 0, 1, 117, 0, 1, 42, 3, 3, 0,
      0] =
    .ok ({ hv := some 1, apiKey := 30, apiVersion := 0, correlationID := 7, clientID := some [99] },
      [⟨2, [116], 0, [117], [42], 3, 3⟩]) := by decide +kernel

/-- C133, deleting ACLs in the flexible version 2.
Missing: the other versions (`C133_violated_deleteAcls`). -/
theorem C133_deleteAcls_partial (fs : List AclFilter) (hs : ∀ f ∈ fs, f.Small) (hn : fs.length < 2 ^ 31) (v : UInt16)
    (hv : v ∈ clientVersions API_DeleteAcls) (h2 : 2 ≤ v.toNat) (corr : UInt32) (cid : Option Bytes) (hc : ShortId cid) (bs : Bytes)
    (he : encodeDeleteAclsRequest (reqHeader API_DeleteAcls v corr cid) fs = .ok bs) (hl : bs.length < 2 ^ 31) :
    ∃ h, decodeDeleteAclsRequest bs = .ok (h, fs.map (AclFilter.sent v)) ∧ SameRequest h (reqHeader API_DeleteAcls v corr cid) := by
  rw [C65_deleteAcls fs hs hn v hv] at he
  cases he
  refine ⟨_, ?_, readHeader_same .deleteAcls API_DeleteAcls v corr cid⟩
  have hf : Kafka.Api.flexible .deleteAcls v.toNat = true := by
    have : Kafka.Api.flexible .deleteAcls v.toNat = decide (2 ≤ v.toNat) := rfl
    rw [this, decide_eq_true h2]
  unfold decodeDeleteAclsRequest
  rw [respondWrap_eq _ _ hl]
  unfold Kafka.deleteAclsRequest at hl ⊢
  rw [if_pos h2] at hl ⊢
  refine respond_request' (api := .deleteAcls) (key := API_DeleteAcls) rfl hc ?_ hl
  rw [readHeader_flex, hf]
  have := sreads_flexArr (c := rdAclFilter v true) (enc := filterWire v.toNat) (tail := []) (out := (readHeader .deleteAcls
      API_DeleteAcls v corr cid, fs.map (AclFilter.sent v)))
    (body := fun n => (do
      let fs ← Cur.cond (0 ≤ n.toInt) (Cur.forN n.toInt.toNat (rdAclFilter v true)) []
      pure (readHeader .deleteAcls API_DeleteAcls v corr cid, fs))) true AclFilter.wire (AclFilter.sent v) fs
    (by intro x; unfold filterWire Kafka.aclFilter; simp only [List.length_append, int8_length]; omega)
    (fun f _ => sreads_aclFilter v h2 f) fun n hn h => by
      rw [List.append_nil]
      exact .bind_pure (g := fun fs => (readHeader .deleteAcls API_DeleteAcls v corr cid, fs)) (sreads_condN hn h)
  rw [List.append_nil] at this
  refine this.cast ?_ rfl
  unfold Kafka.flexArray
  rw [if_pos rfl]
  unfold filterWire
  simp only [if_pos h2]

example : decodeDeleteAclsRequest [0, 0, 0, 23, 0, 31, 0, 2, 0, 0, 0, 7, 0, 1, 99, 0, 2, 2, 2, 116, 3, 0, 0, 1, 1, 0, 0] =
    .ok ({ hv := some 2, apiKey := 31, apiVersion := 2, correlationID := 7, clientID := some [99] },
      [⟨2, some [116], 3, none, none, 1, 1⟩]) := by decide +kernel

/-- C133 fails for deleting ACLs in versions 0 and 1: the reader expects tagged fields after each filter, which those
versions do not have, takes the next filter for them and runs off the end. -/
theorem C133_violated_deleteAcls :
    let fs : List AclFilter := [⟨2, some [116], 3, none, none, 1, 1⟩, ⟨2, some [117], 3, none, none, 1, 1⟩]
    ∀ v ∈ [(0 : UInt16), 1], v ∈ clientVersions API_DeleteAcls ∧
      ∃ bs, encodeDeleteAclsRequest (reqHeader API_DeleteAcls v 7 (some [99])) fs = .ok bs ∧
        decodeDeleteAclsRequest bs = .panic := by
  intro f v hv
  simp only [List.mem_cons, List.not_mem_nil, or_false] at hv
  rcases hv with rfl | rfl
  · exact ⟨by decide, [0, 0, 0, 35, 0, 31, 0, 0, 0, 0, 0, 7, 0, 1, 99, 0, 0, 0, 2, 2, 0, 1, 116, 255, 255, 255, 255, 1, 1,
      2, 0, 1, 117, 255, 255, 255, 255, 1, 1], by decide +kernel, by decide +kernel⟩
  · exact ⟨by decide, [0, 0, 0, 37, 0, 31, 0, 1, 0, 0, 0, 7, 0, 1, 99, 0, 0, 0, 2, 2, 0, 1, 116, 3, 255, 255, 255, 255, 1, 1,
      2, 0, 1, 117, 3, 255, 255, 255, 255, 1, 1], by decide +kernel, by decide +kernel⟩

/-- Names Kafka has room for, and for which the buffers are large enough. -/
structure AclFilter.Named (f : AclFilter) : Prop where
  name : ∀ b, f.resourceName = some b → Kafka.IsString b
  principal : ∀ b, f.principal = some b → Kafka.IsString b
  host : ∀ b, f.host = some b → Kafka.IsString b

/-- Describing ACLs in every version: the filter and tagged fields (which versions 0 and 1 should not have, C65). -/
theorem describeAcls_bytes (f : AclFilter) (hs : f.Named) (v : UInt16) (corr : UInt32) (cid : Option Bytes) :
    encodeDescribeAclsRequest (reqHeader API_DescribeAcls v corr cid) v f = .ok (Kafka.request .describeAcls v.toNat corr.toNat cid
      (Kafka.aclFilter v.toNat f.wire ++ Kafka.tagBuffer [])) := by
  have hs1 : ∀ b, f.resourceName = some b → b.length < 2 ^ 63 := fun b h => by
    have := hs.name b h; unfold Kafka.IsString at this; omega
  have hs2 : ∀ b, f.principal = some b → b.length < 2 ^ 63 := fun b h => by
    have := hs.principal b h; unfold Kafka.IsString at this; omega
  have hs3 : ∀ b, f.host = some b → b.length < 2 ^ 63 := fun b h => by
    have := hs.host b h; unfold Kafka.IsString at this; omega
  have u8 : ∀ b : UInt8, [b] = Kafka.int8 b.toNat := by
    intro b
    have : (b.toNat : Int) % 256 = b.toNat := by have := b.toNat_lt; omega
    simp [Kafka.int8, Kafka.be, this]
  have hw : ∀ s : Option Bytes, (∀ b, s = some b → b.length < 2 ^ 63) → writeAclString v s =
      .ok ((if 2 ≤ v.toNat then Kafka.compactNullableString else Kafka.nullableString) s) := by
    intro s h
    unfold writeAclString
    have : v < 2 ↔ ¬ 2 ≤ v.toNat := by rw [UInt16.lt_iff_toNat_lt, Nat.not_le]; rfl
    by_cases h2 : 2 ≤ v.toNat
    · rw [if_neg (by rw [this]; omega), if_pos h2]; exact writeCompactNullableString_eq s h
    · rw [if_pos (this.2 h2), if_neg h2, writeNullableString_eq]
  unfold encodeDescribeAclsRequest
  rw [reqHeader_length .describeAcls API_DescribeAcls v corr cid rfl]
  rw [Out.bind_ok, encodeCut_of_writes (reqHeader_writes .describeAcls API_DescribeAcls v corr cid rfl) (Nat.le_refl _)]
  have h1 : (if v ≥ 1 then [f.patternType] else []) = if 1 ≤ v.toNat then Kafka.int8 f.patternType.toNat else [] := by
    have : v ≥ 1 ↔ 1 ≤ v.toNat := u16_ge v 1 (by decide)
    by_cases h : 1 ≤ v.toNat
    · rw [if_pos (this.2 h), if_pos h, u8]
    · rw [if_neg (fun hh => h (this.1 hh)), if_neg h]
  simp only [Out.bind_ok, hw _ hs1, hw _ hs2, hw _ hs3, noTags_encode, h1, List.append_assoc]
  rw [patch_ok]
  simp only [Kafka.request, Kafka.aclFilter, AclFilter.wire, u8, List.append_assoc, hdr]

/-- C133, describing ACLs, every version. -/
theorem C133_describeAcls (f : AclFilter) (hs : f.Named) (v : UInt16) (corr : UInt32) (cid : Option Bytes) (hc : ShortId cid)
    (bs : Bytes) (he : encodeDescribeAclsRequest (reqHeader API_DescribeAcls v corr cid) v f = .ok bs) (hl : bs.length < 2 ^ 31) :
    ∃ h, decodeDescribeAclsRequest v bs = .ok (h, f.sent v) ∧ SameRequest h (reqHeader API_DescribeAcls v corr cid) := by
  rw [describeAcls_bytes f hs] at he
  cases he
  refine ⟨_, ?_, readHeader_same .describeAcls API_DescribeAcls v corr cid⟩
  refine readBack_request (api := .describeAcls) (key := API_DescribeAcls) rfl hc skipU32 ?_ hl
  unfold Kafka.aclFilter AclFilter.wire
  simp only [List.append_assoc]
  have hstr : ∀ s : Option Bytes, (∀ b, s = some b → Kafka.IsString b) → SReads (rdFlexNullable (decide (v ≥ 2)))
      ((if 2 ≤ v.toNat then Kafka.compactNullableString else Kafka.nullableString) s) s := by
    intro s h
    have := sreads_flexNullable (f := decide (v ≥ 2)) (s := s) fun _ => h
    refine this.cast ?_ rfl
    have h2 : v ≥ 2 ↔ 2 ≤ v.toNat := u16_ge v 2 (by decide)
    by_cases hv : 2 ≤ v.toNat
    · rw [decide_eq_true (h2.2 hv), if_pos hv]; rfl
    · rw [decide_eq_false (fun hh => hv (h2.1 hh)), if_neg hv]; rfl
  exact .bind (sreads_int8u _) <| .bind (hstr _ hs.name) <|
    .bind (SReads.cond' (c' := 1 ≤ v.toNat) (d := 0) (u16_ge v 1 (by decide)) fun _ => sreads_int8u _) <|
    .bind (hstr _ hs.principal) <| .bind (hstr _ hs.host) <|
    .bind (sreads_int8u _) <| .bind_pure (g := fun pm => (readHeader .describeAcls API_DescribeAcls v corr cid,
      (⟨_, _, _, _, _, _, pm⟩ : AclFilter))) (sreads_int8u _)

example : decodeDescribeAclsRequest 2 [0, 0, 0, 21, 0, 29, 0, 2, 0, 0, 0, 7, 0, 1, 99, 0, 2, 2, 116, 3, 0, 0, 1, 1, 0] =
    .ok ({ hv := some 2, apiKey := 29, apiVersion := 2, correlationID := 7, clientID := some [99] },
      ⟨2, some [116], 3, none, none, 1, 1⟩) := by decide +kernel

/-! ## Configurations -/

/-- Names and values are Kafka strings. -/
structure IncrementalResource.Strings (r : IncrementalResource) : Prop where
  name : Kafka.IsString r.resourceName
  entries : ∀ e ∈ r.entries, Kafka.IsString e.name ∧ Kafka.IsString e.value

theorem sreads_incrementalEntry (e : IncrementalEntry) (h : Kafka.IsString e.name ∧ Kafka.IsString e.value) :
    SReads rdIncrementalEntry (configOpWire e.wire) e := by
  unfold configOpWire IncrementalEntry.wire
  rw [List.append_assoc]
  exact .bind (sreads_str16 h.1) <| .bind (sreads_i8 _) <| .bind_pure (g := fun v => IncrementalEntry.mk _ _ v) (sreads_str16 h.2)

theorem sreads_incrementalResource (r : IncrementalResource) (h : r.Strings) :
    SReads rdIncrementalResource (configOpsWire r.wire) r := by
  unfold configOpsWire IncrementalResource.wire
  rw [List.append_assoc]
  exact .bind (sreads_int8u _) <| .bind (sreads_str16 h.name) <| .bind_pure (g := fun v => IncrementalResource.mk _ _ v)
    (sreads_arr32 IncrementalEntry.wire r.entries (by unfold configOpWire; nonempty) fun e he => sreads_incrementalEntry e (h.entries e he))

/-- C133, changing configurations. -/
theorem C133_incrementalAlterConfigs (r : IncrementalAlterConfigsRequest) (hr : ∀ x ∈ r.resources, x.Strings) (v : UInt16)
    (hv : v ∈ clientVersions API_IncrementalAlterConfigs) (corr : UInt32) (cid : Option Bytes) (hc : ShortId cid) (bs : Bytes)
    (he : r.encode (reqHeader API_IncrementalAlterConfigs v corr cid) = .ok bs) (hl : bs.length < 2 ^ 31) :
    ∃ h, decodeIncrementalAlterConfigsRequest bs = .ok (h, r) ∧
      SameRequest h (reqHeader API_IncrementalAlterConfigs v corr cid) := by
  rw [C61_incrementalAlterConfigs r v hv] at he
  cases he
  refine ⟨_, ?_, readHeader_same .incrementalAlterConfigs API_IncrementalAlterConfigs v corr cid⟩
  rw [← List.append_nil (Kafka.incrementalAlterConfigsRequest _ _)] at hl ⊢
  refine readBack_request (api := .incrementalAlterConfigs) (key := API_IncrementalAlterConfigs) rfl hc skip4 ?_ hl
  exact .bind (sreads_arr32 (enc := configOpsWire) IncrementalResource.wire r.resources (by unfold configOpsWire; nonempty)
      fun x hx => sreads_incrementalResource x (hr x hx)) <|
    .bind_pure (g := fun b => (readHeader .incrementalAlterConfigs API_IncrementalAlterConfigs v corr cid,
      (⟨r.resources, b⟩ : IncrementalAlterConfigsRequest))) (sreads_one _)

example : decodeIncrementalAlterConfigsRequest [0, 0, 0, 33, 0, 44, 0, 0, 0, 0, 0, 7, 0, 1, 99, 0, 0, 0, 1, 2, 0, 1, 116, 0, 0, 0, 1,
      0, 1, 97, 0, 0, 2, 49, 50, 1] =
    .ok ({ hv := some 1, apiKey := 44, apiVersion := 0, correlationID := 7, clientID := some [99] },
      ⟨[⟨2, [116], [⟨[97], 0, [49, 50]⟩]⟩], true⟩) := by decide +kernel

/-! ## Reassignments -/

/-- What a request carries: nil replicas are sent as an empty list (C88). -/
def ReassignTopic.sent (t : ReassignTopic) : ReassignTopic :=
  { t with partitions := t.partitions.map fun p => { p with replicas := some (p.replicas.getD []) } }

theorem sreads_reassignPartition (p : ReassignPartition) :
    SReads rdReassignPartition (reassignmentWire p.wire) { p with replicas := some (p.replicas.getD []) } := by
  unfold reassignmentWire ReassignPartition.wire Kafka.compactNullableArray
  rw [List.append_assoc]
  refine .bind (sreads_i32 _) ?_
  refine sreads_compactArr (c := rdI32) (enc := Kafka.int32) Int32.toInt id (p.replicas.getD []) (by simp) (fun x _ => sreads_i32 x)
    fun n hn h => ?_
  rw [List.map_id] at h
  have hc : SReads (Cur.cond (0 ≤ n.toInt) (do let xs ← Cur.forN n.toInt.toNat rdI32; pure (some xs)) none)
      (((p.replicas.getD []).map Int32.toInt).flatMap Kafka.int32) (some (p.replicas.getD [])) := by
    unfold Cur.cond
    rw [hn, if_pos (by omega)]
    exact h.bind_pure (g := some)
  exact .bind hc sreads_emptyTags

theorem sreads_reassignTopic (t : ReassignTopic) : SReads rdReassignTopic (reassignTopicWire t.wire) t.sent := by
  unfold reassignTopicWire ReassignTopic.wire
  rw [List.append_assoc]
  refine .bind (sreads_compactString _) ?_
  refine sreads_compactArr (c := rdReassignPartition) (enc := reassignmentWire) ReassignPartition.wire _ t.partitions
    (by unfold reassignmentWire; nonempty) (fun x _ => sreads_reassignPartition x) fun n hn h => ?_
  exact .bind (sreads_condN hn h) sreads_emptyTags

/-- C133, changing replicas: exactly what was sent comes back. -/
theorem C133_alterPartitionReassignments (r : AlterReassignmentsRequest) (hr : ∀ t ∈ r.topics, t.Real)
    (hn : r.topics.length < 2 ^ 48) (v : UInt16) (hv : v ∈ clientVersions API_AlterPartitionReassignments) (corr : UInt32)
    (cid : Option Bytes) (hc : ShortId cid) (bs : Bytes)
    (he : r.encode (reqHeader API_AlterPartitionReassignments v corr cid) = .ok bs) (hl : bs.length < 2 ^ 31) :
    ∃ h, decodeAlterReassignmentsRequest bs = .ok (h, ⟨r.timeoutMs, r.topics.map ReassignTopic.sent⟩) ∧
      SameRequest h (reqHeader API_AlterPartitionReassignments v corr cid) := by
  rw [C62_alterPartitionReassignments r hr hn v hv] at he
  cases he
  refine ⟨_, ?_, readHeader_same .alterPartitionReassignments API_AlterPartitionReassignments v corr cid⟩
  unfold decodeAlterReassignmentsRequest
  rw [respondWrap_eq _ _ hl]
  refine respond_request (api := .alterPartitionReassignments) (key := API_AlterPartitionReassignments) rfl hc ?_ hl
  unfold Kafka.alterPartitionReassignmentsRequest
  rw [List.append_assoc]
  refine .bind (sreads_i32 _) ?_
  refine sreads_compactArr (c := rdReassignTopic) (enc := reassignTopicWire) ReassignTopic.wire _ r.topics
    (by intro x; unfold reassignTopicWire; simp only [List.length_append, tagBuffer_nil_length]; omega) (fun x _ => sreads_reassignTopic x) fun n hn h => ?_
  exact .bind (sreads_condN hn h) sreads_emptyTags

example : (AlterReassignmentsRequest.encode (reqHeader API_AlterPartitionReassignments 0 7 (some [99]))
      ⟨3000, [⟨[116], [⟨0, some [1, 2]⟩, ⟨1, none⟩]⟩]⟩).okAnd
    (fun bs => (decodeAlterReassignmentsRequest bs).okAnd fun x =>
      decide (x.2 = ⟨3000, [⟨[116], [⟨0, some [1, 2]⟩, ⟨1, some []⟩]⟩]⟩)) = true := by decide +kernel

end Healer
