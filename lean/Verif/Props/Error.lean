import Verif.Model.Error
import Verif.Spec.Error
import Verif.Go.Map

/-!
# C55: error codes
-/

namespace Healer

/-- C55: a code is reported as an error exactly when it is not zero — by `getErrorFromErrorCode`, by the direct
conversion to `KafkaError`, and when the first error of a list of codes is wanted.  The error identifies the code. -/
theorem C55_nonzero_is_error (code : Int16) :
    (getErrorFromErrorCode code = none ↔ code = 0) ∧ (kafkaErr code = none ↔ code = 0) ∧
    (code ≠ 0 → getErrorFromErrorCode code = some (.kafka code) ∨ getErrorFromErrorCode code = some (.unknownCode code)) ∧
    (code ≠ 0 → kafkaErr code = some (.kafka code)) := by
  unfold getErrorFromErrorCode kafkaErr
  by_cases h : code = 0
  · simp [h]
  · by_cases h' : (AMap.get allError code).isSome = true <;> simp [h, h']

theorem C55_first_error (codes : List Int16) :
    (firstKafkaErr codes = none ↔ ∀ c ∈ codes, c = 0) ∧
    (∀ e, firstKafkaErr codes = some e → ∃ c ∈ codes, c ≠ 0 ∧ e = .kafka c) := by
  induction codes with
  | nil => simp [firstKafkaErr]
  | cons c cs ih =>
    unfold firstKafkaErr
    by_cases h : c = 0
    · simp [h, ih]
      exact ih.2
    · simp [h]

example : firstKafkaErr [0, 3, 0, 6] = some (.kafka 3) := by decide

/-- The codes for which the table of the client is that of the protocol. -/
def goodCode (c : Int) : Bool := c ≠ 118 && c ≠ 119

/-- C55, for every code of the protocol but 118 and 119: it is reported under its own name and retriability.
Missing: codes 118 and 119 (`C55_violated_code_118_119`). -/
theorem C55_known_codes_partial : ∀ row ∈ Kafka.errorCodes, goodCode row.code →
    ∀ c : Int16, c.toInt = row.code →
      getErrorFromErrorCode c = some (.kafka c) ∧ KafkaError.name c = some row.name ∧
      KafkaError.isRetriable c = row.retriable := by
  have h : ∀ row ∈ Kafka.errorCodes, goodCode row.code →
      getErrorFromErrorCode (Int16.ofInt row.code) = some (.kafka (Int16.ofInt row.code)) ∧
      KafkaError.name (Int16.ofInt row.code) = some row.name ∧
      KafkaError.isRetriable (Int16.ofInt row.code) = row.retriable := by decide +kernel
  intro row hr hg c hc
  have := h row hr hg
  rw [← hc, Int16.ofInt_toInt] at this
  exact this

/-- C55: a code outside the protocol's table is reported as unknown with its number, and is not retriable. -/
theorem C55_unlisted_codes (c : Int16) (h0 : c ≠ 0) (h : ∀ row ∈ Kafka.errorCodes, row.code ≠ c.toInt) :
    getErrorFromErrorCode c = some (.unknownCode c) ∧ KafkaError.name c = none ∧ KafkaError.isRetriable c = false := by
  have hk : (AMap.keys allError).all (fun k => (Kafka.errorCodes.map (·.code)).contains k.toInt) = true := by
    decide +kernel
  have hn : AMap.get allError c = none := by
    rw [AMap.get_eq_none_iff]
    intro hc
    have := List.all_eq_true.1 hk c hc
    rw [List.contains_iff_mem, List.mem_map] at this
    obtain ⟨row, hr, hc'⟩ := this
    exact h row hr hc'
  unfold getErrorFromErrorCode KafkaError.name KafkaError.isRetriable
  rw [hn, if_neg h0, if_neg h0]
  exact ⟨rfl, rfl, rfl⟩

/-- C55 fails for two codes: 118 (TELEMETRY_TOO_LARGE) is reported as INVALID_REGISTRATION, and 119
(INVALID_REGISTRATION) as unknown: errorcode.go assigns the row of 119 to key 118. -/
theorem C55_violated_code_118_119 :
    (⟨118, "TELEMETRY_TOO_LARGE", false⟩ : Kafka.ErrorCode) ∈ Kafka.errorCodes ∧
    KafkaError.name 118 = some "INVALID_REGISTRATION" ∧
    (⟨119, "INVALID_REGISTRATION", false⟩ : Kafka.ErrorCode) ∈ Kafka.errorCodes ∧
    getErrorFromErrorCode 119 = some (.unknownCode 119) := by decide +kernel

example : KafkaError.name 27 = some "REBALANCE_IN_PROGRESS" ∧ KafkaError.isRetriable 27 = false ∧
    KafkaError.isRetriable 6 = true ∧ getErrorFromErrorCode 300 = some (.unknownCode 300) := by decide +kernel

end Healer
