import Verif.Model.Storage
import Verif.Spec.Storage
import Verif.Props.Header
import Verif.Props.Request

/-!
C179: positions are kept where `offsets.storage` says.
-/

namespace Healer

/-- what the setting means (config.go:100, 174): 0 is ZooKeeper, 1 is Kafka -/
def storageSetting (storage : Int64) : Option Kafka.Storage :=
  if storage = 0 then some .zookeeper else if storage = 1 then some .kafka else none

theorem storageOf_request (a : Kafka.Api) (v corr : Nat) (cid : Option Bytes) (body : Bytes) :
    Kafka.storageOf (Kafka.request a v corr cid body) = if Kafka.int16 v = Kafka.int16 0 then .zookeeper else .kafka := by
  have : Kafka.versionBytes (Kafka.request a v corr cid body) = Kafka.int16 v := by
    unfold Kafka.versionBytes Kafka.request Kafka.frame Kafka.requestHeader
    simp only [List.append_assoc]
    rw [show ∀ (n : Int) (k : Int) (l : Bytes), List.drop 6 (Kafka.int32 n ++ (Kafka.int16 k ++ l)) = l from fun _ _ _ => rfl]
    rfl
  unfold Kafka.storageOf
  rw [this]

theorem negotiated_first {apis : List APIVersion} {key v : UInt16} {vs : List UInt16} (ha : availableVersions key = some (v :: vs))
    (h : BrokerSupports apis key v) : getHighestAvailableAPIVersion apis key = v := by
  have hl : versionListed apis key v = true := by
    obtain ⟨b, hb, h1, h2, h3⟩ := h
    unfold versionListed
    rw [List.any_eq_true]
    exact ⟨b, hb, by simp [h1, h2, h3]⟩
  unfold getHighestAvailableAPIVersion
  rw [ha]
  simp only [List.find?_cons, hl]

theorem negotiated_none {apis : List APIVersion} {key v : UInt16} (ha : availableVersions key = some [v, 0])
    (h : ¬ BrokerSupports apis key v) : getHighestAvailableAPIVersion apis key = 0 := by
  have hl : versionListed apis key v = false := by
    rw [Bool.eq_false_iff]
    intro hl
    unfold versionListed at hl
    rw [List.any_eq_true] at hl
    obtain ⟨b, hb, h1⟩ := hl
    simp at h1
    exact h ⟨b, hb, h1.1.1, h1.1.2, h1.2⟩
  unfold getHighestAvailableAPIVersion
  rw [ha]
  simp only [List.find?_cons, hl]
  cases versionListed apis key 0 <;> rfl

/-- the place that a commit goes to, by what the broker has announced -/
theorem commit_storage (storage : Int64) (cid : Bytes) (r : OffsetCommitRequest) (apis : List APIVersion) (corr : UInt32) :
    ∃ p, sendCommit storage cid r apis corr = .ok p ∧
      (BrokerSupports apis API_OffsetCommitRequest 2 → Kafka.storageOf p = .kafka) ∧
      (¬ BrokerSupports apis API_OffsetCommitRequest 2 → Kafka.storageOf p = .zookeeper) := by
  have hm : getHighestAvailableAPIVersion apis API_OffsetCommitRequest ∈ clientVersions API_OffsetCommitRequest := by
    by_cases h : BrokerSupports apis API_OffsetCommitRequest 2
    · rw [negotiated_first rfl h]; decide
    · rw [negotiated_none rfl h]; decide
  refine ⟨_, C59_offsetCommit r _ hm corr (some cid), fun h => ?_, fun h => ?_⟩
  · rw [storageOf_request, negotiated_first rfl h]; decide
  · rw [storageOf_request, negotiated_none rfl h]; decide

/-- the place that a position is read from, by what the broker has announced -/
theorem position_storage (storage : Int64) (cid : Bytes) (r : OffsetFetchRequest) (apis : List APIVersion) (corr : UInt32) (hs : storage = 0 ∨ storage = 1) :
    ∃ p, sendPositionRequest storage cid r apis corr = .ok (.ok p) ∧
      (BrokerSupports apis API_OffsetFetchRequest 1 → Kafka.storageOf p = .kafka) ∧
      (¬ BrokerSupports apis API_OffsetFetchRequest 1 → Kafka.storageOf p = .zookeeper) := by
  have hm : getHighestAvailableAPIVersion apis API_OffsetFetchRequest ∈ clientVersions API_OffsetFetchRequest := by
    by_cases h : BrokerSupports apis API_OffsetFetchRequest 1
    · rw [negotiated_first rfl h]; decide
    · rw [negotiated_none rfl h]; decide
  have he : sendPositionRequest storage cid r apis corr =
      .ok (r.encode (reqHeader API_OffsetFetchRequest (getHighestAvailableAPIVersion apis API_OffsetFetchRequest) corr (some cid))) := by
    rcases hs with rfl | rfl <;> rfl
  refine ⟨_, by rw [he, C59_offsetFetch r _ hm corr (some cid)], fun h => ?_, fun h => ?_⟩
  · rw [storageOf_request, negotiated_first rfl h]; decide
  · rw [storageOf_request, negotiated_none rfl h]; decide

/-- C179 holds where the setting is what the brokers announced: Kafka, with brokers that have the later versions, or ZooKeeper, with brokers that have not; with other settings
nothing is read.
Missing: the other combinations (`C179_violated_every_zookeeper`, `C179_violated_every_old`, `C179_violated_every_other`). -/
theorem C179_agreed_partial (storage : Int64) (cid group member topic : Bytes) (generation pid : Int32) (offset : Int64) (apis : List APIVersion) (corr : UInt32) :
    (∀ s, storageSetting storage = some s → (s = .kafka ↔ BrokerSupports apis API_OffsetCommitRequest 2) →
      ∃ p, sendCommit storage cid (commitRequestOf group member topic generation pid offset) apis corr = .ok p ∧ Kafka.storageOf p = s) ∧
    (∀ s, storageSetting storage = some s → (s = .kafka ↔ BrokerSupports apis API_OffsetFetchRequest 1) →
      ∃ p, sendPositionRequest storage cid (positionRequestOf group topic pid) apis corr = .ok (.ok p) ∧ Kafka.storageOf p = s) ∧
    (storageSetting storage = none → ∃ e, sendPositionRequest storage cid (positionRequestOf group topic pid) apis corr = .error e) := by
  refine ⟨fun s hs hb => ?_, fun s hs hb => ?_, fun hs => ?_⟩
  · obtain ⟨p, hp, h1, h2⟩ := commit_storage storage cid (commitRequestOf group member topic generation pid offset) apis corr
    refine ⟨p, hp, ?_⟩
    cases s with
    | kafka => exact h1 (hb.1 rfl)
    | zookeeper => exact h2 fun h => by cases hb.2 h
  · have h01 : storage = 0 ∨ storage = 1 := by
      unfold storageSetting at hs
      by_cases h0 : storage = 0
      · exact .inl h0
      · by_cases h1 : storage = 1
        · exact .inr h1
        · simp [h0, h1] at hs
    obtain ⟨p, hp, h1, h2⟩ := position_storage storage cid (positionRequestOf group topic pid) apis corr h01
    refine ⟨p, hp, ?_⟩
    cases s with
    | kafka => exact h1 (hb.1 rfl)
    | zookeeper => exact h2 fun h => by cases hb.2 h
  · unfold storageSetting at hs
    unfold sendPositionRequest positionVersion
    by_cases h0 : storage = 0
    · simp [h0] at hs
    · by_cases h1 : storage = 1
      · simp [h1] at hs
      · simp only [if_neg h0, if_neg h1]
        exact ⟨_, rfl⟩

example : BrokerSupports [⟨8, 0, 7⟩, ⟨9, 0, 6⟩] API_OffsetCommitRequest 2 ∧ storageSetting 1 = some .kafka ∧
    sendCommit 1 [99] (commitRequestOf [103] [109] [116] 3 0 17) [⟨8, 0, 7⟩, ⟨9, 0, 6⟩] 5 =
      .ok [0, 0, 0, 54, 0, 8, 0, 2, 0, 0, 0, 5, 0, 1, 99, 0, 1, 103, 0, 0, 0, 3, 0, 1, 109, 255, 255, 255, 255, 255, 255, 255, 255, 0, 0, 0, 1, 0, 1, 116,
        0, 0, 0, 1, 0, 0, 0, 0, 0, 0, 0, 0, 0, 0, 0, 17, 0, 0] :=
  ⟨⟨⟨8, 0, 7⟩, by decide, by decide, by decide, by decide⟩, by decide, by decide +kernel⟩

/-- C179, what a commit says wherever it goes: the group, the generation, the member, no retention of its own, and the one position; what a request for a position says:
the group, the topic and the partition. -/
theorem C179_says_partial (storage : Int64) (cid group member topic : Bytes) (generation pid : Int32) (offset : Int64) (apis : List APIVersion) (corr : UInt32) :
    (∃ v, (v = 0 ∨ v = 2) ∧ sendCommit storage cid (commitRequestOf group member topic generation pid offset) apis corr =
      .ok (Kafka.request .offsetCommit v corr.toNat (some cid)
        (Kafka.offsetCommitRequest v group generation.toInt member (-1) [(topic, [⟨pid.toInt, offset.toInt, []⟩])]))) ∧
    (storageSetting storage ≠ none → ∃ v, (v = 0 ∨ v = 1) ∧ sendPositionRequest storage cid (positionRequestOf group topic pid) apis corr =
      .ok (.ok (Kafka.request .offsetFetch v corr.toNat (some cid) (Kafka.offsetFetchRequest group [(topic, [pid.toInt])])))) := by
  refine ⟨?_, fun hs => ?_⟩
  · by_cases h : BrokerSupports apis API_OffsetCommitRequest 2
    · exact ⟨2, .inr rfl, by
        have := C59_offsetCommit (commitRequestOf group member topic generation pid offset) 2 (by decide) corr (some cid)
        have he := negotiated_first (vs := [0]) rfl h
        unfold sendCommit
        rw [he]
        exact this⟩
    · exact ⟨0, .inl rfl, by
        have := C59_offsetCommit (commitRequestOf group member topic generation pid offset) 0 (by decide) corr (some cid)
        have he := negotiated_none rfl h
        unfold sendCommit
        rw [he]
        exact this⟩
  · have hs01 : storage = 0 ∨ storage = 1 := by
      unfold storageSetting at hs
      by_cases h0 : storage = 0
      · exact .inl h0
      · by_cases h1 : storage = 1
        · exact .inr h1
        · simp [h0, h1] at hs
    have he : sendPositionRequest storage cid (positionRequestOf group topic pid) apis corr =
        .ok ((positionRequestOf group topic pid).encode
          (reqHeader API_OffsetFetchRequest (getHighestAvailableAPIVersion apis API_OffsetFetchRequest) corr (some cid))) := by
      rcases hs01 with rfl | rfl <;> rfl
    by_cases h : BrokerSupports apis API_OffsetFetchRequest 1
    · refine ⟨1, .inr rfl, ?_⟩
      rw [he, negotiated_first (vs := [0]) rfl h, C59_offsetFetch _ 1 (by decide) corr (some cid)]
      rfl
    · refine ⟨0, .inl rfl, ?_⟩
      rw [he, negotiated_none rfl h, C59_offsetFetch _ 0 (by decide) corr (some cid)]
      rfl

/-- C179 fails with `offsets.storage` 0 at every coordinator that has the later versions: positions are read from Kafka and committed to Kafka. -/
theorem C179_violated_every_zookeeper (cid group member topic : Bytes) (generation pid : Int32) (offset : Int64) (apis : List APIVersion) (corr : UInt32)
    (hc : BrokerSupports apis API_OffsetCommitRequest 2) (hf : BrokerSupports apis API_OffsetFetchRequest 1) :
    (∃ p, sendCommit 0 cid (commitRequestOf group member topic generation pid offset) apis corr = .ok p ∧ Kafka.storageOf p = .kafka) ∧
    (∃ p, sendPositionRequest 0 cid (positionRequestOf group topic pid) apis corr = .ok (.ok p) ∧ Kafka.storageOf p = .kafka) := by
  obtain ⟨p, hp, h1, _⟩ := commit_storage 0 cid (commitRequestOf group member topic generation pid offset) apis corr
  obtain ⟨q, hq, h2, _⟩ := position_storage 0 cid (positionRequestOf group topic pid) apis corr (.inl rfl)
  exact ⟨⟨p, hp, h1 hc⟩, ⟨q, hq, h2 hf⟩⟩

/-- C179 fails with `offsets.storage` 1 at every coordinator that has not the later versions, without an error: positions are read from ZooKeeper and committed there. -/
theorem C179_violated_every_old (cid group member topic : Bytes) (generation pid : Int32) (offset : Int64) (apis : List APIVersion) (corr : UInt32)
    (hc : ¬ BrokerSupports apis API_OffsetCommitRequest 2) (hf : ¬ BrokerSupports apis API_OffsetFetchRequest 1) :
    (∃ p, sendCommit 1 cid (commitRequestOf group member topic generation pid offset) apis corr = .ok p ∧ Kafka.storageOf p = .zookeeper) ∧
    (∃ p, sendPositionRequest 1 cid (positionRequestOf group topic pid) apis corr = .ok (.ok p) ∧ Kafka.storageOf p = .zookeeper) := by
  obtain ⟨p, hp, _, h1⟩ := commit_storage 1 cid (commitRequestOf group member topic generation pid offset) apis corr
  obtain ⟨q, hq, _, h2⟩ := position_storage 1 cid (positionRequestOf group topic pid) apis corr (.inr rfl)
  exact ⟨⟨p, hp, h1 hc⟩, ⟨q, hq, h2 hf⟩⟩

/-- C179 fails with every setting that is neither 0 nor 1, which only `NewGroupConsumer` refuses: nothing is read, but positions are committed. -/
theorem C179_violated_every_other (storage : Int64) (hs : storageSetting storage = none) (cid group member topic : Bytes) (generation pid : Int32) (offset : Int64)
    (apis : List APIVersion) (corr : UInt32) :
    (∃ e, sendPositionRequest storage cid (positionRequestOf group topic pid) apis corr = .error e) ∧
    ∃ p, sendCommit storage cid (commitRequestOf group member topic generation pid offset) apis corr = .ok p := by
  obtain ⟨p, hp, _⟩ := commit_storage storage cid (commitRequestOf group member topic generation pid offset) apis corr
  exact ⟨(C179_agreed_partial storage cid group member topic generation pid offset apis corr).2.2 hs, p, hp⟩

example : storageSetting 2 = none ∧ ¬ BrokerSupports [⟨8, 0, 1⟩, ⟨9, 0, 0⟩] API_OffsetCommitRequest 2 := by
  refine ⟨by decide, ?_⟩
  rintro ⟨b, hb, h1, _, h3⟩
  simp at hb
  rcases hb with rfl | rfl
  · exact absurd h3 (by decide)
  · exact absurd h1 (by decide)

end Healer
