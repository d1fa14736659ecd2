import Verif.Model.Response2
import Verif.Spec.Response2
import Verif.Lemmas.Response
import Verif.Props.Response
import Verif.Props.Error

/-!
# C69 to C71: version, authentication and topic administration responses
-/

namespace Healer

open Kafka (IsString)

/-! ## C69 -/

def APIVersion.wire (a : APIVersion) : Int × Int × Int := (a.apiKey.toNat, a.minVersion.toNat, a.maxVersion.toNat)

/-- C69, API versions: the table is read as sent and an error code is reported by `Error()`. -/
theorem C69_apiVersions (r : APIVersionsResponse)
    (hl : (Kafka.response .apiVersions 0 r.correlationID.toNat [] (Kafka.apiVersionsResponse r.errorCode.toInt
      (r.apiVersions.map APIVersion.wire))).length < 2 ^ 31) :
    newAPIVersionsResponse (Kafka.response .apiVersions 0 r.correlationID.toNat []
      (Kafka.apiVersionsResponse r.errorCode.toInt (r.apiVersions.map APIVersion.wire))) = .ok (r, none) ∧
    r.error = codeError r.errorCode := by
  refine ⟨respond_plain rfl ?_ hl, rfl⟩
  refine .bind (sreads_i16 _) <| .bind_pure (g := fun x => (APIVersionsResponse.mk _ _ x, none)) ?_
  refine sreads_arr32 APIVersion.wire _ (by nonempty) fun a _ => ?_
  simp only [List.append_assoc]
  exact .bind (sreads_u16 _) <| .bind (sreads_u16 _) <| .bind_pure (g := fun x => APIVersion.mk _ _ x) (sreads_u16 _)

example : newAPIVersionsResponse (Kafka.response .apiVersions 0 7 [] (Kafka.apiVersionsResponse 0 [(0, 0, 9), (1, 4,
      10)])) =
    .ok (⟨7, 0, [⟨0, 0, 9⟩, ⟨1, 4, 10⟩]⟩, none) := by decide +kernel

theorem u8_congr {a b : Nat} (h : a % 256 = b % 256) : UInt8.ofNat a = UInt8.ofNat b := by
  rw [← UInt8.toNat_inj, UInt8.toNat_ofNat', UInt8.toNat_ofNat']
  exact h

/-- four bytes read from an INT16 followed by an INT32 -/
theorem int16_int32 (x y : Nat) (hx : x < 2 ^ 16) (hy : y < 2 ^ 32) :
    Kafka.int16 x ++ Kafka.int32 y = Kafka.int32 ((x * 65536 + y / 65536 : Nat) : Int) ++ Kafka.int16 ((y % 65536 : Nat) : Int) := by
  unfold Kafka.int16 Kafka.int32 Kafka.be
  have e1 : ((x : Int) % 2 ^ 16).toNat = x := by omega
  have e2 : ((y : Int) % 2 ^ 32).toNat = y := by omega
  have e3 : (((x * 65536 + y / 65536 : Nat) : Int) % 2 ^ 32).toNat = x * 65536 + y / 65536 := by omega
  have e4 : (((y % 65536 : Nat) : Int) % 2 ^ 16).toNat = y % 65536 := by omega
  rw [e1, e2, e3, e4]
  simp only [List.range, List.range.loop, List.reverse_cons, List.reverse_nil, List.nil_append, List.cons_append,
    List.map_cons, List.map_nil]
  congr 1
  · apply u8_congr; omega
  congr 1
  · apply u8_congr; omega
  congr 1
  · apply u8_congr; omega
  congr 1
  · apply u8_congr; omega
  congr 1
  · apply u8_congr; omega
  congr 1
  apply u8_congr; omega

/-- The error code is taken from the upper half of the number of mechanisms. -/
theorem sreads_handshakeError (x : UInt16) (n : Nat) {β : Type} {f : Int16 → Cur β} {rest : Bytes} {b : β}
    (hn : n < 2 ^ 32)
    (h : SReads (f (UInt16.ofNat (n / 65536)).toInt16) (Kafka.int32 n ++ rest) b) :
    SReads (rdHandshakeError >>= f) (Kafka.int16 x.toNat ++ (Kafka.int32 n ++ rest)) b := by
  intro hl pre post
  rw [List.length_append] at hl
  have hx := x.toNat_lt
  have e : Kafka.int16 x.toNat ++ (Kafka.int32 n ++ rest) ++ post =
      Kafka.int32 (UInt32.ofNat (x.toNat * 65536 + n / 65536)).toNat ++
        (Kafka.int16 ((n % 65536 : Nat) : Int) ++ (rest ++ post)) := by
    rw [← List.append_assoc (Kafka.int16 _), int16_int32 _ _ hx hn, UInt32.toNat_ofNat_of_lt' (by
      simp only [UInt32.size]; omega)]
    simp only [List.append_assoc]
  have hr := creads_u32 (UInt32.ofNat (x.toNat * 65536 + n / 65536)) []
    (Kafka.int16 ((n % 65536 : Nat) : Int) ++ (rest ++ post))
  rw [← e] at hr
  simp only [List.nil_append, List.length_nil, int32_length] at hr
  have e0 : ((0 : Nat) : Int) = 0 := rfl
  rw [e0] at hr
  have hp : rdHandshakeError (pre ++ (Kafka.int16 x.toNat ++ (Kafka.int32 n ++ rest) ++ post)) pre.length =
      .ok ((UInt16.ofNat (n / 65536)).toInt16, (pre.length : Int) + 2) := by
    unfold rdHandshakeError
    rw [Cur.bind_def]
    unfold Cur.peekRest
    rw [sliceFrom_append]
    simp only
    rw [hr]
    simp only [Cur.bind_def, Cur.advance, Cur.pure_def, Out.ok.injEq, Prod.mk.injEq, and_true]
    congr 1
    rw [← UInt16.toNat_inj, UInt32.toNat_toUInt16, UInt32.toNat_ofNat', UInt16.toNat_ofNat']
    omega
  rw [Cur.bind_def, hp]
  simp only
  have := h (by omega) (pre ++ Kafka.int16 x.toNat) post
  rw [List.length_append, int16_length] at this
  have e3 : ((pre.length + 2 : Nat) : Int) = (pre.length : Int) + 2 := by omega
  rw [e3] at this
  have e4 : pre ++ (Kafka.int16 x.toNat ++ (Kafka.int32 n ++ rest) ++ post) =
      pre ++ Kafka.int16 x.toNat ++ (Kafka.int32 n ++ rest ++ post) := by simp
  rw [e4, this]
  simp only [List.length_append, int16_length, Out.ok.injEq, Prod.mk.injEq, true_and]
  omega

/-- C69, SASL handshake: whatever error code the broker sends, the client sees the upper half of the number of
mechanisms instead.  So an accepted handshake with fewer than 65536 mechanisms is read as sent.  Missing: rejected
handshakes (`C69_violated_handshake_error`). -/
theorem C69_saslHandshake_partial (v : UInt16) (hv : v ∈ clientVersions API_SaslHandshake) (corr : UInt32) (code : UInt16)
    (mechanisms : List Bytes) (h : ∀ m ∈ mechanisms, IsString m) (hn : mechanisms.length < 2 ^ 16)
    (hl : (Kafka.response .saslHandshake v.toNat corr.toNat []
      (Kafka.saslHandshakeResponse code.toNat mechanisms)).length < 2 ^ 31) :
    newSaslHandshakeResponse (Kafka.response .saslHandshake v.toNat corr.toNat []
      (Kafka.saslHandshakeResponse code.toNat mechanisms)) = .ok (⟨corr, 0, mechanisms⟩, none) := by
  refine respond_plain rfl ?_ hl
  unfold Kafka.saslHandshakeResponse
  have : SReads (rdArr32 rdStr16) (Kafka.array Kafka.string mechanisms) mechanisms := by
    have := sreads_arr32 (c := rdStr16) (enc := Kafka.string) id mechanisms (by nonempty) fun m hm => sreads_str16 (h m hm)
    rwa [List.map_id] at this
  refine sreads_handshakeError code mechanisms.length (by omega) ?_
  rw [Nat.div_eq_of_lt (by omega)]
  exact .bind_pure (g := fun x => (SaslHandshakeResponse.mk corr 0 x, none)) this

example : newSaslHandshakeResponse (Kafka.response .saslHandshake 1 7 [] (Kafka.saslHandshakeResponse 0 [[80, 76],
      [83]])) =
    .ok (⟨7, 0, [[80, 76], [83]]⟩, none) := by decide +kernel

/-- C69 fails: a handshake the broker rejects with UNSUPPORTED_SASL_MECHANISM (33) is reported as a success. -/
theorem C69_violated_handshake_error :
    ∃ r, newSaslHandshakeResponse (Kafka.response .saslHandshake 1 7 [] (Kafka.saslHandshakeResponse 33 [[80]])) =
      .ok (r, none) ∧ r.error = none := ⟨⟨7, 0, [[80]]⟩, by decide +kernel, rfl⟩

theorem sreads_authBytes (s : Bytes) : SReads rdAuthBytes (Kafka.bytes s) s := by
  intro hs pre post
  rw [bytes_length] at hs
  have h1 := creads_len32 s.length pre (s ++ post)
  have e : pre ++ (Kafka.bytes s ++ post) = pre ++ (Kafka.int32 s.length ++ (s ++ post)) := by
    unfold Kafka.bytes; simp
  unfold rdAuthBytes
  rw [e]
  simp only [Cur.bind_def, h1, Cur.pure_def]
  unfold Cur.peekRest
  have e2 : pre ++ (Kafka.int32 s.length ++ (s ++ post)) = (pre ++ Kafka.int32 s.length) ++ (s ++ post) := by simp
  rw [e2, show pre.length + (Kafka.int32 s.length).length = (pre ++ Kafka.int32 s.length).length by simp, sliceFrom_append]
  simp only [toNat_len32 _ (show s.length < 2 ^ 32 by omega), Cur.advance, List.length_append, int32_length, bytes_length]
  rw [Nat.sub_eq_zero_of_le (by omega), List.replicate_zero, List.append_nil, List.take_left']
  · simp only [Out.ok.injEq, Prod.mk.injEq, true_and]; omega
  · rfl

/-- C69, SASL authentication: the result is read as sent; an error code is reported by `Error()`. -/
theorem C69_saslAuthenticate (corr : UInt32) (code : Int16) (message : Option Bytes) (auth : Bytes)
    (h : ∀ m, message = some m → IsString m)
    (hl : (Kafka.response .saslAuthenticate 0 corr.toNat []
      (Kafka.saslAuthenticateResponse code.toInt message auth)).length < 2 ^ 31) :
    ∃ r, newSaslAuthenticateResponse (Kafka.response .saslAuthenticate 0 corr.toNat []
        (Kafka.saslAuthenticateResponse code.toInt message auth)) = .ok (r, none) ∧
      r = ⟨corr, code, message.getD [], auth⟩ ∧ (r.error = none ↔ code = 0) := by
  refine ⟨_, respond_plain rfl ?_ hl, rfl, (C55_nonzero_is_error code).1⟩
  unfold Kafka.saslAuthenticateResponse
  simp only [List.append_assoc]
  exact .bind (sreads_i16 _) <| .bind (sreads_strPos h) <|
    .bind_pure (g := fun x => (SaslAuthenticateResponse.mk _ _ _ x, none)) (sreads_authBytes _)

example : newSaslAuthenticateResponse (Kafka.response .saslAuthenticate 0 7 [] (Kafka.saslAuthenticateResponse 58
      (some [98, 97, 100]) [1, 2])) =
    .ok (⟨7, 58, [98, 97, 100], [1, 2]⟩, none) := by decide +kernel

/-! ## C70 -/

/-- `Error()` of the two responses with topic errors. -/
theorem C70_topic_errors (r : TopicErrorsResponse) :
    r.createError = firstCode (r.topicErrors.map Prod.snd) ∧
    (r.deleteError = none ↔ ∀ t ∈ r.topicErrors, t.2 = 0) := by
  refine ⟨firstKafkaErr_eq _, ?_⟩
  unfold TopicErrorsResponse.deleteError
  rw [Option.map_eq_none_iff, (C55_first_error _).1]
  simp only [List.forall_mem_map]

example : (⟨7, [([97], 0), ([98], 36), ([99], 3)]⟩ : TopicErrorsResponse).createError =
    some (Err.kafka 36) := by decide +kernel

/-- An array whose count the code treats as an int32. -/
theorem sreads_arrI32 {α β : Type} {c : Cur β} {enc : α → Bytes} (k : β → α) (xs : List β)
    (h0 : ∀ x, 0 < (enc x).length) (h : ∀ x ∈ xs, SReads c (enc (k x)) x) :
    SReads (rdArrI32 c) (Kafka.array enc (xs.map k)) xs := by
  intro hl
  have hl' := hl
  unfold Kafka.array at hl ⊢
  rw [List.length_append, int32_length] at hl
  have := flatMap_length_ge (xs.map k) h0
  refine CReads.bind (creads_ilen32 _) ?_
  rw [toInt_ilen32 _ (by omega)]
  have := SReads.forN (c := c) (enc := fun x => enc (k x)) (g := id) xs h
  rw [List.map_id] at this
  rw [List.flatMap_map, List.length_map]
  exact sreads_forInt rfl this (by rw [← List.flatMap_map]; omega)

/-- C70, create topics. -/
theorem C70_createTopics (r : TopicErrorsResponse) (h : ∀ t ∈ r.topicErrors, IsString t.1)
    (hl : (Kafka.response .createTopics 0 r.correlationID.toNat [] (Kafka.createTopicsResponse
      (r.topicErrors.map fun t => (t.1, t.2.toInt)))).length < 2 ^ 31) :
    newCreateTopicsResponse (Kafka.response .createTopics 0 r.correlationID.toNat [] (Kafka.createTopicsResponse
      (r.topicErrors.map fun t => (t.1, t.2.toInt)))) = .ok (r, none) := by
  refine respond_plain rfl ?_ hl
  refine .bind_pure (g := fun x => (TopicErrorsResponse.mk _ x, none)) ?_
  refine sreads_arrI32 _ _ (by nonempty) fun t ht => ?_
  exact .bind (sreads_strI16 (h t ht)) (.bind_pure (g := fun x => (_, x)) (sreads_i16 _))

example : newCreateTopicsResponse (Kafka.response .createTopics 0 7 [] (Kafka.createTopicsResponse [([97], 0), ([98],
      36)])) =
    .ok (⟨7, [([97], 0), ([98], 36)]⟩, none) := by decide +kernel

/-- C70, delete topics. -/
theorem C70_deleteTopics (r : TopicErrorsResponse) (h : ∀ t ∈ r.topicErrors, IsString t.1)
    (hl : (Kafka.response .deleteTopics 0 r.correlationID.toNat [] (Kafka.deleteTopicsResponse
      (r.topicErrors.map fun t => (t.1, t.2.toInt)))).length < 2 ^ 31) :
    newDeleteTopicsResponse (Kafka.response .deleteTopics 0 r.correlationID.toNat [] (Kafka.deleteTopicsResponse
      (r.topicErrors.map fun t => (t.1, t.2.toInt)))) = .ok (r, none) := by
  refine respond_plain rfl ?_ hl
  refine .bind_pure (g := fun x => (TopicErrorsResponse.mk _ x, none)) ?_
  refine sreads_arr32 _ _ (by nonempty) fun t ht => ?_
  exact .bind (sreads_str16 (h t ht)) (.bind_pure (g := fun x => (_, x)) (sreads_i16 _))

example : newDeleteTopicsResponse (Kafka.response .deleteTopics 0 7 [] (Kafka.deleteTopicsResponse [([97], 0), ([98],
      3)])) =
    .ok (⟨7, [([97], 0), ([98], 3)]⟩, none) := by decide +kernel

def PartitionResult.wire (p : Int32 × Int16 × Option Bytes) : Kafka.Election := ⟨p.1.toInt, p.2.1.toInt, p.2.2⟩
def PartitionResult.seen (p : Int32 × Int16 × Option Bytes) : PartitionResult := ⟨p.1, p.2.1, p.2.2.getD []⟩

/-- C70, elect leaders; a null message is read as the empty one. -/
theorem C70_electLeaders (corr : UInt32) (throttle : Int32) (results : List (Bytes × List (Int32 × Int16 × Option Bytes)))
    (h : ∀ t ∈ results, IsString t.1 ∧ ∀ p ∈ t.2, ∀ m, p.2.2 = some m → IsString m)
    (hl : (Kafka.response .electLeaders 0 corr.toNat [] (Kafka.electLeadersResponse throttle.toInt
      (results.map fun t => (t.1, t.2.map PartitionResult.wire)))).length < 2 ^ 31) :
    ∃ r, newElectLeadersResponse (Kafka.response .electLeaders 0 corr.toNat [] (Kafka.electLeadersResponse throttle.toInt
        (results.map fun t => (t.1, t.2.map PartitionResult.wire)))) = .ok (r, none) ∧
      r = ⟨corr, throttle, results.map fun t => (t.1, t.2.map PartitionResult.seen)⟩ ∧
      r.error = (firstCode (results.flatMap fun t => t.2.map fun p => p.2.1)).map .wrapped := by
  refine ⟨_, respond_plain rfl ?_ hl, rfl, ?_⟩
  · unfold Kafka.electLeadersResponse
    refine .bind (sreads_i32 _) <| .bind_pure (g := fun x => (ElectLeadersResponse.mk _ _ x, none)) ?_
    have := sreads_arr32' (c := rdElectionResult) (enc := fun t : Bytes × List (Int32 × Int16 × Option Bytes) =>
      Kafka.string t.1 ++ Kafka.array (fun p : Kafka.Election => Kafka.int32 p.partition ++ Kafka.int16 p.error ++
        Kafka.nullableString p.message) (t.2.map PartitionResult.wire))
      (fun t => (t.1, t.2.map PartitionResult.seen)) results (by nonempty) ?_
    · refine this.cast ?_ rfl
      simp [Kafka.array, List.flatMap_map]
    · intro t ht
      refine .bind (sreads_str16 (h t ht).1) (.bind_pure (g := fun x => (_, x)) ?_)
      have := sreads_arr32' (c := rdPartitionResult) (enc := fun p : Int32 × Int16 × Option Bytes =>
        Kafka.int32 p.1.toInt ++ (Kafka.int16 p.2.1.toInt ++ Kafka.nullableString p.2.2))
        PartitionResult.seen t.2 (by nonempty) ?_
      · refine this.cast ?_ rfl
        simp [Kafka.array, List.flatMap_map, PartitionResult.wire]
      · intro p hp
        exact .bind (sreads_i32 _) <| .bind (sreads_i16 _) <|
          .bind_pure (g := fun x => PartitionResult.mk _ _ x) (sreads_strPos ((h t ht).2 p hp))
  · rw [ElectLeadersResponse.error, firstKafkaErr_eq]
    simp [List.flatMap_map, Function.comp_def, PartitionResult.seen]

example : newElectLeadersResponse (Kafka.response .electLeaders 0 7 [] (Kafka.electLeadersResponse 5 [([116], [⟨0, 0,
      none⟩, ⟨1, 84, some [110]⟩]), ([117], [])])) =
    .ok (⟨7, 5, [([116], [⟨0, 0, []⟩, ⟨1, 84, [110]⟩]), ([117], [])]⟩, none) := by decide +kernel

def LogDirPartition.wire (p : LogDirPartition) : Kafka.LogDirPartition :=
  ⟨p.partitionID.toInt, p.size.toInt, p.offsetLag.toInt, p.isFutureKey⟩
def LogDirResult.wire (d : LogDirResult) : Kafka.LogDir :=
  ⟨d.errorCode.toInt, d.logDir, d.topics.map fun t => (t.1, t.2.map LogDirPartition.wire)⟩

/-- The decoder's first field is the length of the response. -/
theorem respond_coordinatorID {α : Type} {f : UInt32 → Cur α} {corr : UInt32} {body : Bytes} {a : α}
    (h : SReads (f (UInt32.ofNat (4 + body.length))) body a)
    (hl : (Kafka.frame (Kafka.int32 corr.toNat ++ body)).length < 2 ^ 31) :
    respond (rdCoordinatorID >>= f) (Kafka.frame (Kafka.int32 corr.toNat ++ body)) = .ok a := by
  have hb : (Kafka.int32 corr.toNat ++ body).length < 2 ^ 31 := by
    unfold Kafka.frame at hl; rw [List.length_append] at hl; omega
  rw [List.length_append, int32_length] at hb
  unfold respond
  rw [Cur.bind_def, openFrame_ok _ (by rw [List.length_append, int32_length]; omega)]
  simp only
  have hr : rdCoordinatorID (Kafka.frame (Kafka.int32 corr.toNat ++ body)) 4 =
      .ok (UInt32.ofNat (4 + body.length), 8) := by
    unfold rdCoordinatorID Kafka.frame
    have := creads_len32 (Kafka.int32 corr.toNat ++ body).length [] (Kafka.int32 corr.toNat ++ body)
    simp only [List.nil_append, List.length_nil] at this
    have e : ((0 : Nat) : Int) = 0 := rfl
    rw [e] at this
    rw [this]
    simp only [List.length_append, int32_length]
    rfl
  rw [Cur.bind_def, hr]
  simp only
  have := h (by omega) (Kafka.int32 (Kafka.int32 corr.toNat ++ body).length ++ Kafka.int32 corr.toNat) []
  simp only [List.length_append, int32_length, List.append_nil, List.append_assoc] at this
  have e : (((4 + 4 : Nat)) : Int) = 8 := rfl
  rw [e] at this
  unfold Kafka.frame
  rw [List.length_append, int32_length, this]

/-- C70, describe log dirs: everything but the correlation id.  Missing: the correlation id
(`C70_violated_logDirs_correlation`). -/
theorem C70_describeLogDirs_partial (corr : UInt32) (throttle : Int32) (results : List LogDirResult)
    (h : ∀ d ∈ results, IsString d.logDir ∧ ∀ t ∈ d.topics, IsString t.1)
    (hl : (Kafka.response .describeLogDirs 0 corr.toNat [] (Kafka.describeLogDirsResponse throttle.toInt
      (results.map LogDirResult.wire))).length < 2 ^ 31) :
    ∃ r, newDescribeLogDirsResponse (Kafka.response .describeLogDirs 0 corr.toNat [] (Kafka.describeLogDirsResponse
        throttle.toInt (results.map LogDirResult.wire))) = .ok (r, none) ∧
      r.throttleTimeMS = throttle ∧ r.results = results ∧ r.error = firstCode (results.map LogDirResult.errorCode) ∧
      r.coordinatorID = UInt32.ofNat (4 + (Kafka.describeLogDirsResponse throttle.toInt (results.map LogDirResult.wire)).length) := by
  rw [response_plain _ _ _ _ _ rfl] at hl ⊢
  refine ⟨⟨UInt32.ofNat (4 + (Kafka.describeLogDirsResponse throttle.toInt (results.map LogDirResult.wire)).length),
    throttle, results⟩, respond_coordinatorID ?_ hl, rfl, rfl, ?_, rfl⟩
  · generalize UInt32.ofNat (4 + _) = c
    unfold Kafka.describeLogDirsResponse
    refine .bind (sreads_i32 _) <| .bind_pure (g := fun x => (DescribeLogDirsResponse.mk _ _ x, none)) ?_
    refine sreads_arr32 _ _ (by nonempty) fun d hd => ?_
    simp only [List.append_assoc]
    refine .bind (sreads_i16 _) <| .bind (sreads_str16 (h d hd).1) <|
      .bind_pure (g := fun x => LogDirResult.mk _ _ x) ?_
    refine sreads_arr32 _ _ (by nonempty) fun t ht => .call_run ?_
    refine .bind (sreads_str16 ((h d hd).2 t ht)) <| .bind_pure (g := fun x => (_, x)) ?_
    refine sreads_arr32 _ _ (by nonempty) fun p _ => .call_run ?_
    exact .bind (sreads_i32 _) <| .bind (sreads_i64 _) <| .bind (sreads_i64 _) <|
      .bind_pure (g := fun x => LogDirPartition.mk _ _ _ x) (sreads_bool _)
  · exact firstKafkaErr_eq _

example : newDescribeLogDirsResponse (Kafka.response .describeLogDirs 0 7 [] (Kafka.describeLogDirsResponse 5 [⟨0,
      [47, 100], [([116], [⟨0, 10, 0, false⟩, ⟨1, 20, 3, true⟩])]⟩])) =
    .ok (⟨71, 5, [⟨0, [47, 100], [([116], [⟨0, 10, 0, false⟩, ⟨1, 20, 3, true⟩])]⟩]⟩, none) := by decide +kernel

/-- C70 fails: the response to request 7 is reported with its own length, 12, in place of the correlation id. -/
theorem C70_violated_logDirs_correlation :
    ∃ r, newDescribeLogDirsResponse (Kafka.response .describeLogDirs 0 7 [] (Kafka.describeLogDirsResponse 0 [])) =
      .ok (r, none) ∧ r.coordinatorID = 12 := ⟨⟨12, 0, []⟩, by decide +kernel, rfl⟩

/-- A described resource as sent. -/
structure SentResource where
  errorCode : Int16
  message : Option Bytes
  type : UInt8
  name : Bytes
  /-- name, value, read-only, default, sensitive -/
  entries : List (Bytes × Option Bytes × Bool × Bool × Bool)

def sentEntry (e : Bytes × Option Bytes × Bool × Bool × Bool) : Kafka.ConfigEntry := ⟨e.1, e.2.1, e.2.2.1, e.2.2.2.1, e.2.2.2.2⟩
def seenEntry (e : Bytes × Option Bytes × Bool × Bool × Bool) : ConfigEntry :=
  ⟨e.1, e.2.1.getD [], e.2.2.1, e.2.2.2.1, e.2.2.2.2⟩

def SentResource.wire (r : SentResource) : Kafka.DescribedConfig :=
  ⟨r.errorCode.toInt, r.message, r.type, r.name, r.entries.map sentEntry⟩
def SentResource.seen (r : SentResource) : DescribedResource :=
  ⟨r.errorCode, r.message.getD [], r.type, r.name, r.entries.map seenEntry⟩

structure SentResource.Fits (r : SentResource) : Prop where
  message : ∀ m, r.message = some m → IsString m
  /-- a message comes with an error only -/
  noMessage : r.errorCode = 0 → r.message.getD [] = []
  name : IsString r.name
  entries : ∀ e ∈ r.entries, IsString e.1 ∧ ∀ v, e.2.1 = some v → IsString v

theorem sreads_errorMessage (r : SentResource) (h : r.Fits) :
    SReads (rdErrorMessage r.errorCode) (Kafka.nullableString r.message) (r.message.getD []) := by
  unfold rdErrorMessage
  by_cases h0 : r.errorCode = 0
  · rw [if_neg (by simp [h0]), h.noMessage h0]
    have hl : (Kafka.nullableString r.message).length = 2 := by
      have := h.noMessage h0
      cases hm : r.message with
      | none => rfl
      | some m => rw [hm] at this; simp only [Option.getD_some] at this; subst this; rfl
    exact (CReads.bind_pure (g := fun _ => ([] : Bytes)) (reads_advance _ 2 (by rw [hl]; rfl))).s
  · rw [if_pos h0]
    exact sreads_strPos h.message

theorem sreads_strNonneg {s : Bytes} (h : IsString s) : SReads rdStrNonneg (Kafka.string s) s := by
  refine (CReads.bind (creads_ilen16 _) ?_).s
  rw [toInt_ilen16 _ h]
  unfold Cur.cond
  rw [if_pos (by omega)]
  exact reads_rdBytes s _ rfl

/-- C70, describe configs; null texts are read as empty ones.  Responses that carry a message although there is no error
are excluded by `Fits`; the protocol would allow them.
Missing: `C70_violated_describeConfigs_message`. -/
theorem C70_describeConfigs_partial (corr throttle : UInt32) (resources : List SentResource) (h : ∀ r ∈ resources, r.Fits)
    (hl : (Kafka.response .describeConfigs 0 corr.toNat [] (Kafka.describeConfigsResponse throttle.toNat
      (resources.map SentResource.wire))).length < 2 ^ 31) :
    ∃ r, newDescribeConfigsResponse (Kafka.response .describeConfigs 0 corr.toNat [] (Kafka.describeConfigsResponse
        throttle.toNat (resources.map SentResource.wire))) = .ok (r, none) ∧
      r = ⟨corr, throttle, resources.map SentResource.seen⟩ ∧
      (r.error = none ↔ ∀ x ∈ resources, x.errorCode = 0) := by
  refine ⟨_, respond_plain rfl ?_ hl, rfl, ?_⟩
  · unfold Kafka.describeConfigsResponse
    refine .bind (sreads_u32 _) <| .bind_pure (g := fun x => (DescribeConfigsResponse.mk _ _ x, none)) ?_
    have := sreads_arr32' (c := Cur.call decodeDescribedResource) (enc := fun r : SentResource =>
      Kafka.int16 r.errorCode.toInt ++ (Kafka.nullableString r.message ++ ([r.type] ++ (Kafka.string r.name ++
        Kafka.array (fun e : Kafka.ConfigEntry => Kafka.string e.name ++ (Kafka.nullableString e.value ++
          (Kafka.boolean e.readOnly ++ (Kafka.boolean e.isDefault ++ Kafka.boolean e.isSensitive))))
          (r.entries.map sentEntry))))) SentResource.seen resources (by nonempty) ?_
    · refine this.cast ?_ rfl
      simp [Kafka.array, List.flatMap_map, SentResource.wire]
    · intro r hr
      refine .call_run ?_
      refine .bind (sreads_i16 _) <| .bind (sreads_errorMessage r (h r hr)) <| .bind (sreads_u8 _) <|
        .bind (sreads_strNonneg (h r hr).name) <| .bind_pure (g := fun x => DescribedResource.mk _ _ _ _ x) ?_
      have := sreads_arr32' (c := Cur.call decodeConfigEntry)
        (enc := fun e : Bytes × Option Bytes × Bool × Bool × Bool => Kafka.string e.1 ++ (Kafka.nullableString e.2.1 ++
          (Kafka.boolean e.2.2.1 ++ (Kafka.boolean e.2.2.2.1 ++ Kafka.boolean e.2.2.2.2))))
        seenEntry r.entries (by nonempty) ?_
      · refine this.cast ?_ rfl
        simp [Kafka.array, List.flatMap_map, sentEntry]
      · intro e he
        refine .call_run ?_
        exact .bind (sreads_strI16 ((h r hr).entries e he).1) <| .bind (sreads_strPos ((h r hr).entries e he).2) <|
          .bind (sreads_bool _) <| .bind (sreads_bool _) <|
          .bind_pure (g := fun x => ConfigEntry.mk _ _ _ _ x) (sreads_bool _)
  · unfold DescribeConfigsResponse.error
    rw [Option.map_eq_none_iff, (C55_first_error _).1]
    simp only [List.map_map, List.forall_mem_map]
    rfl

example : newDescribeConfigsResponse (Kafka.response .describeConfigs 0 7 [] (Kafka.describeConfigsResponse 5 [⟨0,
      some [], 2, [116], [⟨[107], some [118], true, false, false⟩]⟩])) =
    .ok (⟨7, 5, [⟨0, [], 2, [116], [⟨[107], [118], true, false, false⟩]⟩]⟩, none) := by decide +kernel

/-- Without the restriction in `SentResource.Fits` C70 fails: a message ("ok") without an error shifts all fields after
it. -/
theorem C70_violated_describeConfigs_message :
    newDescribeConfigsResponse (Kafka.response .describeConfigs 0 7 [] (Kafka.describeConfigsResponse 0
      [⟨0, some [111, 107], 2, [116], []⟩])) = .panic := by decide +kernel

/-- Like `SReads` for the last part of a response, where the final offset does not matter. -/
def SEnds {α : Type} (c : Cur α) (enc : Bytes) (a : α) : Prop :=
  enc.length < 2 ^ 31 → ∀ pre, ∃ o, c (pre ++ enc) pre.length = .ok (a, o)

theorem SReads.ends {α : Type} {c : Cur α} {enc : Bytes} {a : α} (h : SReads c enc a) : SEnds c enc a := by
  intro hl pre
  have := h hl pre []
  rw [List.append_nil] at this
  exact ⟨_, this⟩

theorem SReads.bind_ends {α β : Type} {m : Cur α} {f : α → Cur β} {e1 e2 : Bytes} {a : α} {b : β}
    (h1 : SReads m e1 a) (h2 : SEnds (f a) e2 b) : SEnds (m >>= f) (e1 ++ e2) b := by
  intro hl pre
  rw [List.length_append] at hl
  have h1 := h1 (by omega) pre e2
  obtain ⟨o, h2⟩ := h2 (by omega) (pre ++ e1)
  rw [List.length_append] at h2
  refine ⟨o, ?_⟩
  rw [Cur.bind_def, h1]
  simpa using h2

theorem respond_ends {α : Type} {c : Cur α} {body : Bytes} {a : α} (h : SEnds c body a)
    (hl : (Kafka.frame body).length < 2 ^ 31) : respond c (Kafka.frame body) = .ok a := by
  unfold respond
  have hb : body.length < 2 ^ 31 := by
    unfold Kafka.frame at hl; rw [List.length_append] at hl; omega
  rw [Cur.bind_def, openFrame_ok _ (by omega)]
  obtain ⟨o, this⟩ := h hb (Kafka.int32 body.length)
  rw [int32_length] at this
  have e : ((4 : Nat) : Int) = 4 := rfl
  rw [e] at this
  unfold Kafka.frame
  simp only [this]

def CreatePartitionsResult.wire (r : CreatePartitionsResult) : Kafka.CreatedPartitions :=
  ⟨r.topicName, r.errorCode.toInt, r.errorMessage⟩

structure CreatePartitionsResult.Fits (r : CreatePartitionsResult) : Prop where
  name : IsString r.topicName
  message : ∀ m, r.errorMessage = some m → IsString m

theorem tagBuffer_nil : Kafka.tagBuffer [] = [0] := by decide

/-- C70, create partitions, version 2. -/
theorem C70_createPartitions_v2 (r : CreatePartitionsResponse)
    (hl : (Kafka.response .createPartitions 2 r.correlationID.toNat [] (Kafka.createPartitionsResponse 2
      r.throttleTimeMS.toInt (r.results.map CreatePartitionsResult.wire))).length < 2 ^ 31) :
    newCreatePartitionsResponse 2 (Kafka.response .createPartitions 2 r.correlationID.toNat []
      (Kafka.createPartitionsResponse 2 r.throttleTimeMS.toInt (r.results.map CreatePartitionsResult.wire))) =
      .ok (r, none) := by
  have e : Kafka.response .createPartitions 2 r.correlationID.toNat [] (Kafka.createPartitionsResponse 2
      r.throttleTimeMS.toInt (r.results.map CreatePartitionsResult.wire)) =
      Kafka.frame (Kafka.int32 r.correlationID.toNat ++ ([0] ++ (Kafka.int32 r.throttleTimeMS.toInt ++
        (Kafka.uvarint (r.results.length + 1) ++ (r.results.flatMap (fun x => Kafka.compactString x.topicName ++
          (Kafka.int16 x.errorCode.toInt ++ (Kafka.compactNullableString x.errorMessage ++ [0]))) ++ [0]))))) := by
    simp only [Kafka.response, Kafka.responseHeader, Kafka.createPartitionsResponse,
      show Kafka.Api.responseHeaderVersion .createPartitions 2 = 1 from rfl,
      show Kafka.Api.flexible .createPartitions 2 = true from rfl, Kafka.flexArray, Kafka.flexString, Kafka.flexNullable,
      Kafka.flexTags, if_true, Kafka.compactArray, List.flatMap_map, tagBuffer_nil, CreatePartitionsResult.wire,
      List.length_map, List.append_assoc, Nat.le_refl]
  rw [e] at hl ⊢
  refine respond_frame (.bind (sreads_u32 _) <| .bind (e1 := [0]) (a := ()) ?_ <| .bind (sreads_i32 _) <|
    .bind (a := (r.results.length : Int)) ?_ <| .bind (a := r.results) ?_ <|
      .bind_pure (g := fun _ => (r, none)) (reads_advance [0] 1 rfl).s) hl
  · exact (reads_advance [0] 1 rfl).s
  · have hn : r.results.length < 2 ^ 31 := by
      unfold Kafka.frame at hl
      simp only [List.length_append] at hl
      have := flatMap_length_ge (enc := fun x : CreatePartitionsResult => Kafka.compactString x.topicName ++
          (Kafka.int16 x.errorCode.toInt ++ (Kafka.compactNullableString x.errorMessage ++ [0]))) r.results (by nonempty)
      omega
    have := CReads.bind_pure (g := Int32.toInt) (CReads.call (reads_compactArrayLength _ hn))
    rw [toInt32_of_spec _ (by omega)] at this
    exact this.s
  · refine sreads_forInt rfl ?_
    have := SReads.forN (c := rdCreatePartitionsResult 2) (enc := fun x : CreatePartitionsResult =>
      Kafka.compactString x.topicName ++ (Kafka.int16 x.errorCode.toInt ++ (Kafka.compactNullableString x.errorMessage ++
        [0]))) (g := id) r.results ?_
    · rwa [List.map_id] at this
    · intro x _
      exact .bind (sreads_compactString _) <| .bind (sreads_i16 _) <| .bind (sreads_compactNullableString _) <|
        .bind_pure (g := fun _ => x) (reads_advance [0] 1 rfl).s

example : newCreatePartitionsResponse 2 (Kafka.response .createPartitions 2 7 [] (Kafka.createPartitionsResponse 2 5
      [⟨[97], 0, none⟩, ⟨[98], 37, some [110]⟩])) =
    .ok (⟨7, 5, [⟨[97], 0, none⟩, ⟨[98], 37, some [110]⟩]⟩, none) := by decide +kernel

/-- C70, create partitions, version 0, one topic.  Missing: several topics (`C70_violated_createPartitions_v0`). -/
theorem C70_createPartitions_v0_partial (corr : UInt32) (throttle : Int32) (x : CreatePartitionsResult) (h : x.Fits)
    (hl : (Kafka.response .createPartitions 0 corr.toNat [] (Kafka.createPartitionsResponse 0
      throttle.toInt [x.wire])).length < 2 ^ 31) :
    newCreatePartitionsResponse 0 (Kafka.response .createPartitions 0 corr.toNat []
      (Kafka.createPartitionsResponse 0 throttle.toInt [x.wire])) = .ok (⟨corr, throttle, [x]⟩, none) := by
  have e : Kafka.response .createPartitions 0 corr.toNat [] (Kafka.createPartitionsResponse 0
      throttle.toInt [x.wire]) =
      Kafka.frame (Kafka.int32 corr.toNat ++ ([] ++ (Kafka.int32 throttle.toInt ++ (Kafka.int32 (1 : UInt32).toNat ++
        (Kafka.string x.topicName ++ (Kafka.int16 x.errorCode.toInt ++ Kafka.nullableString x.errorMessage)))))) := by
    simp [Kafka.response, Kafka.responseHeader, Kafka.createPartitionsResponse,
      show Kafka.Api.responseHeaderVersion .createPartitions 0 = 0 from rfl,
      show Kafka.Api.flexible .createPartitions 0 = false from rfl, Kafka.flexArray, Kafka.flexString, Kafka.flexNullable,
      Kafka.flexTags, Kafka.array, CreatePartitionsResult.wire]
  rw [e] at hl ⊢
  refine respond_ends (SReads.bind_ends (sreads_u32 _) <| SReads.bind_ends (e1 := []) (CReads.pure ()).s <|
    SReads.bind_ends (sreads_i32 _) <| SReads.bind_ends (a := (1 : Int)) (CReads.bind_pure (g := fun n : UInt32 => (n.toNat : Int)) (creads_u32 1)).s ?_) hl
  intro h31 pre
  rw [List.length_append, List.length_append] at h31
  have h1 := sreads_str16 h.name (by omega) pre (Kafka.int16 x.errorCode.toInt ++ Kafka.nullableString x.errorMessage)
  have h2 := sreads_i16 x.errorCode (by omega) (pre ++ Kafka.string x.topicName) (Kafka.nullableString x.errorMessage)
  have h3 := sreads_nullableString h.message (by omega)
    (pre ++ Kafka.string x.topicName ++ Kafka.int16 x.errorCode.toInt) []
  simp only [List.append_nil, List.append_assoc, List.length_append, Int.natCast_add] at h1 h2 h3
  refine ⟨pre.length + (Kafka.string x.topicName).length + (Kafka.int16 x.errorCode.toInt).length +
    (Kafka.nullableString x.errorMessage).length + 1 + 1, ?_⟩
  have e1 : rdFlexStr16 (decide ((0 : UInt16) ≥ 2)) = rdStr16 := rfl
  have e2 : rdFlexNullable (decide ((0 : UInt16) ≥ 2)) = Cur.call nullableString := rfl
  simp only [Cur.forInt, show ¬ ((1 : Int) < 0) by decide, if_false, show (1 : Int).toNat = 1 from rfl, Cur.forN,
    rdCreatePartitionsResult, e1, e2, Cur.bind_def, Cur.pure_def, Cur.advance, h1, h2, ← Int.add_assoc, h3]
  rw [← Int.add_assoc] at h3
  simp only [h3]

example : newCreatePartitionsResponse 0 (Kafka.response .createPartitions 0 7 [] (Kafka.createPartitionsResponse 0 5
      [⟨[98], 37, some [110]⟩])) =
    .ok (⟨7, 5, [⟨[98], 37, some [110]⟩]⟩, none) := by decide +kernel

/-- C70 does not hold for version 0 with two topics: the byte skipped after each result shifts the second one. -/
theorem C70_violated_createPartitions_v0 :
    newCreatePartitionsResponse 0 (Kafka.response .createPartitions 0 1 [] (Kafka.createPartitionsResponse 0 0
      [⟨[97], 0, none⟩, ⟨[98], 37, none⟩])) ≠ .ok (⟨1, 0, [⟨[97], 0, none⟩, ⟨[98], 37, none⟩]⟩, none) ∧
    newCreatePartitionsResponse 0 (Kafka.response .createPartitions 0 1 [] (Kafka.createPartitionsResponse 0 0
      [⟨[97], 0, none⟩, ⟨[98], 37, none⟩])) = .panic := by decide +kernel

/-- C70, the error of create partitions, when every failed topic carries a message.  Missing: messages may be null
(`C70_violated_createPartitions_error`). -/
theorem C70_createPartitions_error_partial (r : CreatePartitionsResponse)
    (h : ∀ x ∈ r.results, x.errorCode ≠ 0 → x.errorMessage ≠ none) :
    (r.error = .ok none ↔ ∀ x ∈ r.results, x.errorCode = 0) ∧
      ∀ e, r.error = .ok (some e) → ∃ x ∈ r.results, x.errorCode ≠ 0 ∧ Err.is e (.kafka x.errorCode) = true := by
  unfold CreatePartitionsResponse.error
  cases hf : r.results.find? fun x => x.errorCode ≠ 0 with
  | none =>
    rw [List.find?_eq_none] at hf
    simp at hf
    simp
    exact hf
  | some x =>
    have hm := List.mem_of_find?_eq_some hf
    have hx := List.find?_some hf
    simp only [ne_eq, decide_eq_true_eq] at hx
    cases hmsg : x.errorMessage with
    | none => exact absurd hmsg (h x hm hx)
    | some m =>
      simp only [hmsg, Out.ok.injEq, reduceCtorEq, false_iff, Option.some.injEq]
      refine ⟨fun hall => hx (hall x hm), ?_⟩
      intro e he
      subst he
      exact ⟨x, hm, hx, by simp [Err.is]⟩

example : (⟨7, 0, [⟨[97], 0, none⟩, ⟨[98], 37, some [110]⟩]⟩ : CreatePartitionsResponse).error =
    .ok (some (Err.wrapped (Err.kafka 37))) := by decide +kernel

/-- C70 does not hold for the error of a failed topic without a message: reporting it crashes. -/
theorem C70_violated_createPartitions_error :
    newCreatePartitionsResponse 2 (Kafka.response .createPartitions 2 1 [] (Kafka.createPartitionsResponse 2 0
      [⟨[97], 37, none⟩])) = .ok (⟨1, 0, [⟨[97], 37, none⟩]⟩, none) ∧
    (CreatePartitionsResponse.mk 1 0 [⟨[97], 37, none⟩]).error = .panic := by decide +kernel

/-! ### Altered configurations -/

/-- A read that leaves the offset where it was, so that repeating it gives the same value again. -/
theorem forN_keep {α : Type} {c : Cur α} {p : Bytes} {o : Int} {a : α} (h : c p o = .ok (a, o)) (n : Nat) :
    Cur.forN n c p o = .ok (List.replicate n a, o) := by
  induction n with
  | zero => rfl
  | succ n ih => simp [Cur.forN, Cur.bind_def, Cur.pure_def, h, ih, List.replicate_succ]

theorem call_keepOffset {α : Type} {c : Cur α} {enc : Bytes} {a : α} (h : CReads c enc a) (pre post : Bytes) :
    Cur.call (keepOffset (Cur.run c)) (pre ++ (enc ++ post)) pre.length = .ok (a, pre.length) := by
  have := h [] (post)
  simp only [List.nil_append, List.length_nil] at this
  simp only [Cur.call, sliceFrom_append, keepOffset, Cur.run]
  have e : c (enc ++ post) 0 = .ok (a, 0 + enc.length) := by simpa using this
  simp [e]

/-- A resource as sent: the client keeps a missing message as the empty one. -/
def AlteredResource.wire (r : AlteredResource) (null : Bool) : Kafka.AlteredConfig :=
  ⟨r.errorCode.toInt, if null then none else some r.errorMessage, r.resourceType, r.resourceName⟩

structure AlteredResource.Fits (r : AlteredResource) : Prop where
  message : IsString r.errorMessage
  name : IsString r.resourceName

def alteredResourceWire (r : Kafka.AlteredConfig) : Bytes :=
  Kafka.int16 r.error ++ Kafka.nullableString r.message ++ [r.type] ++ Kafka.string r.name

/-- What the two decoders do with any response: the first resource, repeated. -/
theorem alter_replicate {api : Kafka.Api} (hv : api.responseHeaderVersion 0 = 0) {d : GoDec AlteredResource}
    {c : Cur AlteredResource} (hd : d = keepOffset (Cur.run c))
    (corr throttle : UInt32) (w : Kafka.AlteredConfig) (rest : List Kafka.AlteredConfig) (r : AlteredResource)
    (hw : SReads c (alteredResourceWire w) r)
    (hl : (Kafka.response api 0 corr.toNat [] (Kafka.alterConfigsResponse throttle.toNat
      (w :: rest))).length < 2 ^ 31) :
    respond (do
      let c ← rdU32
      let t ← rdU32
      let rs ← rdArr32 (Cur.call d)
      pure (AlterConfigsResponse.mk c t rs, (none : Option Err)))
      (Kafka.response api 0 corr.toNat [] (Kafka.alterConfigsResponse throttle.toNat (w :: rest))) =
      .ok (⟨corr, throttle, List.replicate (rest.length + 1) r⟩, none) := by
  have e : Kafka.response api 0 corr.toNat [] (Kafka.alterConfigsResponse throttle.toNat (w :: rest)) =
      Kafka.frame (Kafka.int32 corr.toNat ++ (Kafka.int32 throttle.toNat ++ (Kafka.int32 (rest.length + 1 : Nat) ++
        (alteredResourceWire w ++ rest.flatMap alteredResourceWire)))) := by
    rw [response_plain _ _ _ _ _ hv]
    change Kafka.frame (_ ++ (_ ++ (_ ++ (w :: rest).flatMap alteredResourceWire))) = _
    simp only [List.flatMap_cons, List.length_cons]
  rw [e] at hl ⊢
  have hn : rest.length + 1 < 2 ^ 31 := by
    unfold Kafka.frame at hl
    simp only [List.length_append] at hl
    have h1 := flatMap_length_ge (enc := alteredResourceWire) rest (by unfold alteredResourceWire; nonempty)
    have h2 : 0 < (alteredResourceWire w).length := by 
      unfold alteredResourceWire; simp only [List.length_append, List.length_cons]; omega
    omega
  refine respond_ends (SReads.bind_ends (sreads_u32 _) <| SReads.bind_ends (sreads_u32 _) ?_) hl
  subst hd
  have hcount : CReads rdU32 (Kafka.int32 (rest.length + 1 : Nat)) _ := creads_len32 (rest.length + 1)
  unfold rdArr32
  have : ∀ f : List AlteredResource → Cur (AlterConfigsResponse × Option Err), ((do
      let n ← rdU32
      Cur.forN n.toNat (Cur.call (keepOffset (Cur.run c)))) >>= f) =
      (rdU32 >>= fun n => Cur.forN n.toNat (Cur.call (keepOffset (Cur.run c))) >>= f) := by
    intro f
    funext p o
    simp only [Cur.bind_def]
    cases rdU32 p o <;> rfl
  rw [this]
  refine SReads.bind_ends hcount.s ?_
  rw [toNat_len32 _ (by omega)]
  intro h31 pre
  rw [List.length_append] at h31
  refine ⟨pre.length, ?_⟩
  simp only [Cur.bind_def, forN_keep (call_keepOffset (hw (by omega)) pre _), Cur.pure_def]

/-- C71, alter configs: with one resource whose message is present, the result is that resource's.
Missing: several resources (`C71_violated_alterConfigs`), no message (`C71_violated_alterConfigs_null`). -/
theorem C71_alterConfigs_partial (corr throttle : UInt32) (r : AlteredResource) (h : r.Fits)
    (hl : (Kafka.response .alterConfigs 0 corr.toNat [] (Kafka.alterConfigsResponse throttle.toNat
      [r.wire false])).length < 2 ^ 31) :
    newAlterConfigsResponse (Kafka.response .alterConfigs 0 corr.toNat [] (Kafka.alterConfigsResponse throttle.toNat
      [r.wire false])) = .ok (⟨corr, throttle, [r]⟩, none) ∧
    ((AlterConfigsResponse.mk corr throttle [r]).error = none ↔ r.errorCode = 0) := by
  refine ⟨?_, ?_⟩
  · refine alter_replicate rfl rfl corr throttle _ [] r ?_ hl
    refine (SReads.bind (sreads_i16 _) <| .bind (sreads_str16 h.message) <| .bind (sreads_u8 _) <|
      .bind_pure (g := fun n => AlteredResource.mk _ _ _ n) (sreads_str16 h.name)).cast ?_ rfl
    simp [alteredResourceWire, AlteredResource.wire, Kafka.nullableString, Kafka.string]
  · simp [AlterConfigsResponse.error, (C55_first_error _).1]

example : newAlterConfigsResponse (Kafka.response .alterConfigs 0 7 [] (Kafka.alterConfigsResponse 5 [⟨40, some [110],
      2, [116]⟩])) =
    .ok (⟨7, 5, [⟨40, [110], 2, [116]⟩]⟩, none) := by decide +kernel

/-- C71, incremental alter configs: with one resource, the result is that resource's.
Missing: several resources (`C71_violated_incrementalAlterConfigs`). -/
theorem C71_incrementalAlterConfigs_partial (corr throttle : UInt32) (null : Bool) (r : AlteredResource) (h : r.Fits)
    (hnull : null = true → r.errorMessage = [])
    (hl : (Kafka.response .incrementalAlterConfigs 0 corr.toNat [] (Kafka.alterConfigsResponse throttle.toNat
      [r.wire null])).length < 2 ^ 31) :
    newIncrementalAlterConfigsResponse (Kafka.response .incrementalAlterConfigs 0 corr.toNat []
      (Kafka.alterConfigsResponse throttle.toNat [r.wire null])) = .ok (⟨corr, throttle, [r]⟩, none) ∧
    ((AlterConfigsResponse.mk corr throttle [r]).error = none ↔ r.errorCode = 0) := by
  refine ⟨?_, ?_⟩
  · refine alter_replicate rfl rfl corr throttle _ [] r ?_ hl
    have hm : SReads rdStrPos (Kafka.nullableString (if null then none else some r.errorMessage)) r.errorMessage := by
      refine (sreads_strPos (s := if null then none else some r.errorMessage) ?_).cast rfl ?_
      · intro b hb
        cases null <;> simp at hb
        subst hb; exact h.message
      · cases null
        · rfl
        · simp [hnull rfl]
    refine (SReads.bind (sreads_i16 _) <| .bind hm <| .bind (sreads_u8 _) <|
      .bind_pure (g := fun n => AlteredResource.mk _ _ _ n) ((sreads_strPos (s := some r.resourceName) ?_).cast
        (e' := Kafka.string r.resourceName) rfl rfl)).cast ?_ rfl
    · intro b hb; cases hb; exact h.name
    simp [alteredResourceWire, AlteredResource.wire]
  · simp [AlterConfigsResponse.error, (C55_first_error _).1]

example : newIncrementalAlterConfigsResponse (Kafka.response .incrementalAlterConfigs 0 7 []
      (Kafka.alterConfigsResponse 5 [⟨40, none, 2, [116]⟩])) =
    .ok (⟨7, 5, [⟨40, [], 2, [116]⟩]⟩, none) := by decide +kernel

/-- C71 does not hold for alter configs: whatever the other resources report, the client sees the first result
repeated, so if the first succeeded no error is ever reported. -/
theorem C71_violated_alterConfigs (corr throttle : UInt32) (r : AlteredResource) (h : r.Fits)
    (rest : List Kafka.AlteredConfig)
    (hl : (Kafka.response .alterConfigs 0 corr.toNat [] (Kafka.alterConfigsResponse throttle.toNat
      (r.wire false :: rest))).length < 2 ^ 31) :
    newAlterConfigsResponse (Kafka.response .alterConfigs 0 corr.toNat [] (Kafka.alterConfigsResponse throttle.toNat
      (r.wire false :: rest))) = .ok (⟨corr, throttle, List.replicate (rest.length + 1) r⟩, none) ∧
    (r.errorCode = 0 → (AlterConfigsResponse.mk corr throttle (List.replicate (rest.length + 1) r)).error = none) := by
  refine ⟨?_, ?_⟩
  · refine alter_replicate rfl rfl corr throttle _ rest r ?_ hl
    refine (SReads.bind (sreads_i16 _) <| .bind (sreads_str16 h.message) <| .bind (sreads_u8 _) <|
      .bind_pure (g := fun n => AlteredResource.mk _ _ _ n) (sreads_str16 h.name)).cast ?_ rfl
    simp [alteredResourceWire, AlteredResource.wire, Kafka.nullableString, Kafka.string]
  · intro h0
    simp [AlterConfigsResponse.error, (C55_first_error _).1, h0]

example : newAlterConfigsResponse (Kafka.response .alterConfigs 0 7 [] (Kafka.alterConfigsResponse 5 [⟨0, some [], 2,
      [116]⟩, ⟨40, some [110], 2, [117]⟩])) =
    .ok (⟨7, 5, [⟨0, [], 2, [116]⟩, ⟨0, [], 2, [116]⟩]⟩, none) := by decide +kernel

/-- C71 does not hold for incremental alter configs: the second resource failed, and no error is reported. -/
theorem C71_violated_incrementalAlterConfigs :
    newIncrementalAlterConfigsResponse (Kafka.response .incrementalAlterConfigs 0 1 [] (Kafka.alterConfigsResponse 0
      [⟨0, none, 2, [97]⟩, ⟨40, none, 2, [98]⟩])) = .ok (⟨1, 0, [⟨0, [], 2, [97]⟩, ⟨0, [], 2, [97]⟩]⟩, none) ∧
    (AlterConfigsResponse.mk 1 0 [⟨0, [], 2, [97]⟩, ⟨0, [], 2, [97]⟩]).error = none := by decide +kernel

/-- C71 does not hold for alter configs when the message is absent, as it is on success: the decoder crashes. -/
theorem C71_violated_alterConfigs_null :
    newAlterConfigsResponse (Kafka.response .alterConfigs 0 1 [] (Kafka.alterConfigsResponse 0
      [⟨0, none, 2, [97]⟩])) = .panic := by decide +kernel

end Healer
