import Verif.Lemmas.Header

/-!
# C07, C08, C27: request headers, header versions, version negotiation
-/

namespace Healer

/-- C08. For every API the client uses and every version number, the header versions used for the
request and for parsing the response are the ones Kafka's message definitions give. -/
theorem C08_header_versions (a : Kafka.Api) (version : UInt16) :
    requestHeaderVersion (UInt16.ofNat a.key) version
        = some (UInt16.ofNat (a.requestHeaderVersion version.toNat)) ∧
    responseHeaderVersion (UInt16.ofNat a.key) version
        = some (UInt16.ofNat (a.responseHeaderVersion version.toNat)) := by
  have ge : ∀ n : Nat, n < 65536 → ((version ≥ UInt16.ofNat n) ↔ n ≤ version.toNat) := fun n hn =>
    decide_eq_decide.1 (UInt16.ge_iff version n hn)
  have g1 := ge 1 (by omega)
  have g2 := ge 2 (by omega)
  have g3 := ge 3 (by omega)
  have g4 := ge 4 (by omega)
  have g5 := ge 5 (by omega)
  have g6 := ge 6 (by omega)
  have g8 := ge 8 (by omega)
  have g9 := ge 9 (by omega)
  have g12 := ge 12 (by omega)
  simp only [show UInt16.ofNat 1 = 1 from rfl, show UInt16.ofNat 2 = 2 from rfl,
    show UInt16.ofNat 3 = 3 from rfl, show UInt16.ofNat 4 = 4 from rfl,
    show UInt16.ofNat 5 = 5 from rfl, show UInt16.ofNat 6 = 6 from rfl,
    show UInt16.ofNat 8 = 8 from rfl, show UInt16.ofNat 9 = 9 from rfl,
    show UInt16.ofNat 12 = 12 from rfl] at g1 g2 g3 g4 g5 g6 g8 g9 g12
  cases a <;>
    simp only [requestHeaderVersion, responseHeaderVersion, Kafka.Api.key,
      Kafka.Api.requestHeaderVersion, Kafka.Api.responseHeaderVersion, Kafka.Api.flexible,
      Kafka.Api.firstFlexible, UInt16.toNat_ofNat', g1, g2, g3, g4, g5, g6, g8, g9, g12] <;>
    (try simp) <;> (try (constructor <;> split <;> rfl)) <;> (try (split <;> rfl))

example : requestHeaderVersion 3 9 = some 2 ∧ responseHeaderVersion 18 3 = some 0 := by decide

set_option maxHeartbeats 1000000 in
/-- C08, for the whole table (also APIs the client does not send): a request version has a
response version exactly when the table knows the API, and outside ApiVersions the response
header is flexible exactly when the request header is. -/
theorem C08_tables_agree (key version : UInt16) :
    ((requestHeaderVersion key version).isSome = (responseHeaderVersion key version).isSome) ∧
    ∀ q r, requestHeaderVersion key version = some q → responseHeaderVersion key version = some r →
      key ≠ 18 → (2 ≤ q.toNat ↔ 1 ≤ r.toNat) := by
  have hk : key = UInt16.ofNat key.toNat := UInt16.ofNat_toNat.symm
  have n18 : key ≠ 18 → key.toNat ≠ 18 := by
    intro h hc; apply h; rw [hk, hc]; rfl
  constructor
  · unfold requestHeaderVersion responseHeaderVersion
    split <;> simp_all
  · intro q r hq hr hne
    have hne := n18 hne
    revert hq hr hne
    unfold requestHeaderVersion responseHeaderVersion
    generalize key.toNat = k
    intro hq hr hne
    split at hq
    all_goals (try (exfalso; exact hne rfl))
    all_goals (try (cases hq; done))
    all_goals (
      injection hq with hq
      injection hr with hr
      rw [← hq, ← hr])
    all_goals (first | decide | (split <;> first | decide | (split <;> first | decide | (subst version; contradiction) | (rename_i h1 h2; exfalso; rw [h1] at h2; revert h2; decide))))

/-- C07. For every API and version the client can send, the header written into a buffer of the
reserved size, and the header written to a stream, are exactly Kafka's header for that version,
and reading it back gives the same key, version, correlation id, client id and tagged fields. -/
theorem C07_request_header (a : Kafka.Api) (version : UInt16) (corr : UInt32) (cid : Option Bytes)
    (tf : TaggedFields) (rest : Bytes) (hc : ∀ b, cid = some b → b.length ≤ 32767)
    (hn : (tf.getD []).length < 2 ^ 63)
    (ht : ∀ t ∈ tf.getD [], 0 ≤ t.tag.toInt ∧ t.tag.toInt < 2 ^ 32 ∧ t.data.length < 2 ^ 32) :
    let h : RequestHeader := { apiKey := UInt16.ofNat a.key, apiVersion := version,
                               correlationID := corr, clientID := cid, taggedFields := tf }
    let w := Kafka.requestHeader (a.requestHeaderVersion version.toNat) a.key version.toNat
      corr.toNat cid ((tf.getD []).map fun t => (t.tag.toInt.toNat, t.data))
    (∃ n, h.length = .ok n ∧ encodeCut n h.encodeTo = .ok w) ∧
    h.writeTo = .ok (w, w.length) ∧
    ∃ h', decodeRequestHeader (w ++ rest) = .ok (h', (w.length : Int)) ∧
      h'.apiKey = h.apiKey ∧ h'.apiVersion = version ∧ h'.correlationID = corr ∧
      h'.clientID = cid ∧
      (a.flexible version.toNat = true → h'.taggedFields.getD [] = tf.getD []) := by
  intro h w
  have hf : tf.Fits := ⟨hn, fun t h1 => by
    obtain ⟨x, y, z⟩ := ht t h1
    exact ⟨x, by omega, by omega⟩⟩
  have hv12 : a.requestHeaderVersion version.toNat = 1 ∨ a.requestHeaderVersion version.toNat = 2 := by
    unfold Kafka.Api.requestHeaderVersion; split <;> simp
  have hvn : (UInt16.ofNat (a.requestHeaderVersion version.toNat)).toNat
      = a.requestHeaderVersion version.toNat := by
    rcases hv12 with h | h <;> rw [h] <;> rfl
  have hkn : (UInt16.ofNat a.key).toNat = a.key := by cases a <;> rfl
  have htab := (C08_header_versions a version).1
  have hh : h.headerVersion = .ok (UInt16.ofNat (a.requestHeaderVersion version.toNat)) := by
    simp only [RequestHeader.headerVersion, h, htab]
  have hw : h.wire (UInt16.ofNat (a.requestHeaderVersion version.toNat)) = w := by
    simp only [RequestHeader.wire, h, w, hvn, hkn, TaggedFields.wire]
    rfl
  have hwr := requestHeader_writes h _ hh hf
  obtain ⟨n, hlen, hle⟩ := requestHeader_length h _ hh hf
  rw [hw] at hwr hle
  refine ⟨⟨n, hlen, encodeCut_of_writes hwr hle⟩, ?_, ?_⟩
  · have htag := taggedFields_encode_eq tf hf.2 (by have := hf.1; omega)
    unfold RequestHeader.writeTo
    rw [isFlexible_ok hh, hh]
    simp only [Out.bind_ok, h, hvn, htag, writeNullableString_eq, be16_toNat, be32_toNat, hkn]
    have i1 : (UInt16.ofNat (a.requestHeaderVersion version.toNat) ≥ 1) := by
      rcases hv12 with h | h <;> rw [h] <;> decide
    have i2 : 1 ≤ a.requestHeaderVersion version.toNat := by omega
    rw [if_pos i1]
    simp only [w, Kafka.requestHeader, if_pos i2, decide_eq_true_eq]
    by_cases h2 : 2 ≤ a.requestHeaderVersion version.toNat
    · simp only [if_pos h2]; rfl
    · simp only [if_neg h2, List.append_nil]; rfl
  · have := reads_requestHeader h _ htab (fun b hb => by have := hc b hb; omega) hf rest
    rw [hw] at this
    refine ⟨_, this, rfl, rfl, rfl, ?_, ?_⟩
    · simp only [hvn]; rw [if_pos (by omega)]
    · intro hfl
      simp only [hvn]
      rw [if_pos (by simp [Kafka.Api.requestHeaderVersion, hfl])]
      simp only [h, TaggedFields.norm]
      split
      · rename_i h0; simp [h0]
      · rfl

example : (RequestHeader.mk none 3 9 7 (some [99]) none).writeTo
    = .ok ([0, 3, 0, 9, 0, 0, 0, 7, 0, 1, 99, 0], 12) := by decide

/-- C07, response side: a response header in the layout Kafka uses is read back as sent. -/
theorem C07_response_header (a : Kafka.Api) (version : UInt16) (corr : UInt32) (tf : TaggedFields)
    (rest : Bytes) (hn : (tf.getD []).length < 2 ^ 63)
    (ht : ∀ t ∈ tf.getD [], 0 ≤ t.tag.toInt ∧ t.tag.toInt < 2 ^ 32 ∧ t.data.length < 2 ^ 32) :
    let w := Kafka.responseHeader (a.responseHeaderVersion version.toNat) corr.toNat
      ((tf.getD []).map fun t => (t.tag.toInt.toNat, t.data))
    ∃ h', decodeResponseHeader (UInt16.ofNat a.key) version (w ++ rest) = .ok (h', (w.length : Int)) ∧
      h'.correlationID = corr ∧
      (1 ≤ a.responseHeaderVersion version.toNat → h'.taggedFields.getD [] = tf.getD []) := by
  intro w
  have hf : tf.Fits := ⟨hn, fun t h1 => by
    obtain ⟨x, y, z⟩ := ht t h1
    exact ⟨x, by omega, by omega⟩⟩
  have hvn : (UInt16.ofNat (a.responseHeaderVersion version.toNat)).toNat
      = a.responseHeaderVersion version.toNat := by
    unfold Kafka.Api.responseHeaderVersion; split
    · rfl
    · split <;> rfl
  have := reads_responseHeader _ version _ (C08_header_versions a version).2 corr tf hf rest
  rw [hvn] at this
  refine ⟨_, this, rfl, ?_⟩
  intro h1
  simp only [if_pos h1, TaggedFields.norm]
  split
  · rename_i h0; simp [h0]
  · rfl

example : decodeResponseHeader 45 0 [0, 0, 0, 5, 0, 99]
    = .ok ({ apiKey := 45, apiVersion := 0, headerVersion := 1, correlationID := 5 }, 5) := by decide

/-! ## Version negotiation -/

/-- The versions of an API that the client implements: the table's entry, or version 0. -/
def clientVersions (key : UInt16) : List UInt16 := (availableVersions key).getD [0]

/-- The broker advertises this version of this API. -/
def BrokerSupports (broker : List APIVersion) (key version : UInt16) : Prop :=
  ∃ b ∈ broker, b.apiKey = key ∧ b.minVersion ≤ version ∧ version ≤ b.maxVersion

theorem versionListed_iff (broker : List APIVersion) (key version : UInt16) :
    versionListed broker key version = true ↔ BrokerSupports broker key version := by
  unfold versionListed BrokerSupports
  simp [List.any_eq_true, and_assoc]

theorem availableVersions_sorted (key : UInt16) (vs : List UInt16) (h : availableVersions key = some vs) :
    vs.Pairwise (fun a b => b < a) := by
  unfold availableVersions at h
  split at h <;> (first | (simp at h; subst h; decide) | simp at h)

theorem find?_descending {vs : List UInt16} (hs : vs.Pairwise (fun a b => b < a)) (p : UInt16 → Bool)
    (v : UInt16) (h : vs.find? p = some v) : ∀ u ∈ vs, p u = true → u ≤ v := by
  induction vs with
  | nil => simp at h
  | cons x xs ih =>
    rw [List.find?_cons] at h
    rw [List.pairwise_cons] at hs
    intro u hu hp
    split at h
    · cases h
      rcases List.mem_cons.1 hu with rfl | hu
      · exact UInt16.le_refl _
      · exact UInt16.le_of_lt (hs.1 u hu)
    · rename_i hx
      rcases List.mem_cons.1 hu with rfl | hu
      · rw [hp] at hx; cases hx
      · exact ih hs.2 h u hu hp

/-- C27. If the client and the broker have a common version of an API, the negotiated version is
implemented by the client, advertised by the broker, and the highest such version. -/
theorem C27_negotiation (broker : List APIVersion) (key v : UInt16) (hv : v ∈ clientVersions key)
    (hb : BrokerSupports broker key v) :
    getHighestAvailableAPIVersion broker key ∈ clientVersions key ∧
    BrokerSupports broker key (getHighestAvailableAPIVersion broker key) ∧
    ∀ u ∈ clientVersions key, BrokerSupports broker key u →
      u ≤ getHighestAvailableAPIVersion broker key := by
  unfold getHighestAvailableAPIVersion
  unfold clientVersions at *
  cases ha : availableVersions key with
  | none =>
    rw [ha] at hv
    simp only [Option.getD_none, List.mem_singleton] at hv
    subst hv
    refine ⟨by simp, hb, ?_⟩
    intro u hu _
    simp only [Option.getD_none, List.mem_singleton] at hu
    subst hu; exact UInt16.le_refl _
  | some vs =>
    rw [ha] at hv
    simp only [Option.getD_some] at hv ⊢
    cases hf : vs.find? (versionListed broker key) with
    | none =>
      rw [List.find?_eq_none] at hf
      exact absurd ((versionListed_iff ..).2 hb) (hf v hv)
    | some w =>
      simp only
      refine ⟨List.mem_of_find?_eq_some hf, ?_, ?_⟩
      · have h1 := List.find?_some hf
        exact (versionListed_iff ..).1 h1
      · intro u hu hbu
        exact find?_descending (availableVersions_sorted key vs ha) _ w hf u hu ((versionListed_iff ..).2 hbu)

example : getHighestAvailableAPIVersion [⟨1, 4, 8⟩, ⟨0, 0, 11⟩] 1 = 7 ∧
    (7 : UInt16) ∈ clientVersions 1 ∧ BrokerSupports [⟨1, 4, 8⟩, ⟨0, 0, 11⟩] 1 7 :=
  ⟨by decide, by decide, ⟨⟨1, 4, 8⟩, by decide, by decide, by decide, by decide⟩⟩

/-- C27, no common version: the client falls back to version 0, which is then advertised by the
broker only if the client does not implement it. -/
theorem C27_no_common_version (broker : List APIVersion) (key : UInt16)
    (h : ∀ v ∈ clientVersions key, ¬ BrokerSupports broker key v) :
    getHighestAvailableAPIVersion broker key = 0 := by
  unfold getHighestAvailableAPIVersion
  unfold clientVersions at h
  cases ha : availableVersions key with
  | none => rfl
  | some vs =>
    rw [ha] at h
    have : vs.find? (versionListed broker key) = none := by
      rw [List.find?_eq_none]
      intro x hx hc
      exact h x hx ((versionListed_iff ..).1 hc)
    simp only [this]

example : ∀ v ∈ clientVersions 3, ¬ BrokerSupports [⟨3, 8, 12⟩] 3 v := by
  intro v hv ⟨b, hb, h1, h2, h3⟩
  simp only [List.mem_singleton] at hb
  subst hb
  have : ∀ v ∈ clientVersions 3, ¬ (8 : UInt16) ≤ v := by decide
  exact this v hv h2

end Healer
