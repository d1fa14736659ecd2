import Verif.Props.Response2

/-!
# C89: an answer to the authentication that announces more than it holds
-/

namespace Healer

theorem authBytes_short (s : Bytes) (m : Nat) (hm : s.length ≤ m) (h : m < 2 ^ 32) (pre : Bytes) :
    ∃ i, rdAuthBytes (pre ++ (Kafka.int32 m ++ s)) (pre.length : Int) = .ok (s ++ List.replicate (m - s.length) 0, i) := by
  have h1 := creads_len32 m pre s
  unfold rdAuthBytes
  simp only [Cur.bind_def, h1, Cur.pure_def]
  unfold Cur.peekRest
  have e2 : pre ++ (Kafka.int32 m ++ s) = (pre ++ Kafka.int32 m) ++ s := by simp
  rw [e2, show pre.length + (Kafka.int32 m).length = (pre ++ Kafka.int32 m).length by simp, sliceFrom_append]
  simp only [toNat_len32 _ h, Cur.advance]
  rw [List.take_of_length_le hm]
  exact ⟨_, rfl⟩

/-- **C89 is violated by every answer to the authentication that announces more bytes than it holds**: it is not an error, and the
bytes that are missing are zeros. -/
theorem C89_violated_every_auth (corr : UInt32) (code : Int16) (message : Option Bytes) (auth : Bytes) (m : Nat)
    (hm : auth.length ≤ m) (h : ∀ b, message = some b → Kafka.IsString b)
    (hl : (Kafka.response .saslAuthenticate 0 corr.toNat []
      (Kafka.int16 code.toInt ++ (Kafka.nullableString message ++ (Kafka.int32 m ++ auth)))).length + m < 2 ^ 31) :
    newSaslAuthenticateResponse (Kafka.response .saslAuthenticate 0 corr.toNat []
      (Kafka.int16 code.toInt ++ (Kafka.nullableString message ++ (Kafka.int32 m ++ auth)))) =
      .ok (⟨corr, code, message.getD [], auth ++ List.replicate (m - auth.length) 0⟩, none) := by
  rw [response_plain _ _ _ _ _ rfl] at hl ⊢
  have hlen := hl
  unfold Kafka.frame at hlen
  simp only [List.length_append, int32_length, int16_length] at hlen
  unfold newSaslAuthenticateResponse respond
  rw [Cur.bind_def, openFrame_ok _ (by simp only [List.length_append, int32_length, int16_length]; omega)]
  unfold Kafka.frame
  generalize hb : Kafka.int32 (Kafka.int32 corr.toNat ++ (Kafka.int16 code.toInt ++
    (Kafka.nullableString message ++ (Kafka.int32 m ++ auth)))).length = frame
  have hf : frame.length = 4 := by rw [← hb]; simp
  have h1 := (sreads_u32 corr) (by simp) frame (Kafka.int16 code.toInt ++ (Kafka.nullableString message ++ (Kafka.int32 m ++ auth)))
  have h2 := (sreads_i16 code) (by simp) (frame ++ Kafka.int32 corr.toNat) (Kafka.nullableString message ++ (Kafka.int32 m ++ auth))
  have h3 := (sreads_strPos h) (by omega) (frame ++ Kafka.int32 corr.toNat ++ Kafka.int16 code.toInt) (Kafka.int32 m ++ auth)
  obtain ⟨i, h4⟩ := authBytes_short auth m hm (by omega) (frame ++ Kafka.int32 corr.toNat ++ Kafka.int16 code.toInt ++ Kafka.nullableString message)
  simp only [List.append_assoc, List.length_append, hf, int32_length, int16_length] at h1 h2 h3 h4
  simp only [Cur.bind_def, Cur.pure_def]
  have e4 : ((4 : Nat) : Int) = 4 := rfl
  rw [← e4, h1]
  simp only
  rw [h2]
  simp only
  simp only [Nat.add_assoc] at h3 h4 ⊢
  rw [h3]
  simp only
  rw [h4]

/-- three bytes announced, one there -/
example : newSaslAuthenticateResponse (Kafka.frame (Kafka.int32 7 ++ (Kafka.int16 0 ++ (Kafka.nullableString none ++ (Kafka.int32 3 ++ [9]))))) =
    .ok (⟨7, 0, [], [9, 0, 0]⟩, none) := by decide +kernel

/-- C69 fails for every error: whatever error code, and whatever mechanisms (fewer than 65536), the answer that rejects the handshake is read as one that accepts it. -/
theorem C69_violated_every_error (v : UInt16) (hv : v ∈ clientVersions API_SaslHandshake) (corr : UInt32) (code : UInt16) (_hc : code ≠ 0)
    (mechanisms : List Bytes) (h : ∀ m ∈ mechanisms, Kafka.IsString m) (hn : mechanisms.length < 2 ^ 16)
    (hl : (Kafka.response .saslHandshake v.toNat corr.toNat [] (Kafka.saslHandshakeResponse code.toNat mechanisms)).length < 2 ^ 31) :
    ∃ r, newSaslHandshakeResponse (Kafka.response .saslHandshake v.toNat corr.toNat [] (Kafka.saslHandshakeResponse code.toNat mechanisms)) = .ok (r, none) ∧
      r.error = none :=
  ⟨_, C69_saslHandshake_partial v hv corr code mechanisms h hn hl, rfl⟩

example : (33 : UInt16) ≠ 0 ∧ (1 : UInt16) ∈ clientVersions API_SaslHandshake ∧
    newSaslHandshakeResponse (Kafka.response .saslHandshake 1 7 [] (Kafka.saslHandshakeResponse 33 [[80, 76]])) = .ok (⟨7, 0, [[80, 76]]⟩, none) := by
  decide +kernel

end Healer
