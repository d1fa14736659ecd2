import Verif.Props.Frame

/-!
# C89: what every cut of an answer does
-/

namespace Healer

/-- Code that reads forwards: from data on which it succeeds it needs the first `m` bytes and moves on by `n`; on the
data cut anywhere it does the same if it gets these bytes, and otherwise panics. -/
def Forward {α : Type} (c : Cur α) : Prop :=
  ∀ (pre s : Bytes) (a : α) (off : Int), c (pre ++ s) pre.length = .ok (a, off) →
    ∃ m n : Nat, n ≤ m ∧ m ≤ s.length ∧ off = pre.length + n ∧
      ∀ (pre' : Bytes) (k : Nat), k ≤ s.length →
        c (pre' ++ s.take k) pre'.length = if m ≤ k then .ok (a, (pre'.length : Int) + n) else .panic

theorem Forward.pure {α : Type} (a : α) : Forward (Pure.pure a : Cur α) := by
  intro pre s b off h
  cases h
  exact ⟨0, 0, by omega, by omega, by simp, fun pre' k _ => by simp [Cur.pure_def]⟩

theorem Forward.bind {α β : Type} {c : Cur α} {f : α → Cur β} (hc : Forward c) (hf : ∀ a, Forward (f a)) : Forward (c >>= f) := by
  intro pre s b off h
  rw [Cur.bind_def] at h
  rcases hx : c (pre ++ s) pre.length with ⟨a, off1⟩ | _ | _
  · rw [hx] at h
    simp only at h
    obtain ⟨m1, n1, h1, h2, rfl, h4⟩ := hc _ _ _ _ hx
    have hsplit : pre ++ s = (pre ++ s.take n1) ++ s.drop n1 := by rw [List.append_assoc, List.take_append_drop]
    have hlen : ((pre ++ s.take n1).length : Int) = pre.length + n1 := by
      rw [List.length_append, List.length_take, Nat.min_eq_left (by omega)]; simp
    rw [hsplit, ← hlen] at h
    obtain ⟨m2, n2, g1, g2, rfl, g4⟩ := hf a _ _ _ _ h
    rw [List.length_drop] at g2
    refine ⟨max m1 (n1 + m2), n1 + n2, by omega, by omega, by rw [hlen]; omega, fun pre' k hk => ?_⟩
    rw [Cur.bind_def, h4 pre' k hk]
    by_cases hm : m1 ≤ k
    · rw [if_pos hm]
      simp only
      have hs' : pre' ++ s.take k = (pre' ++ s.take n1) ++ (s.drop n1).take (k - n1) := by
        rw [List.append_assoc]
        congr 1
        have h0 := (List.take_append_drop n1 (s.take k)).symm
        rw [List.take_take, Nat.min_eq_left (by omega), List.drop_take] at h0
        exact h0
      have hl' : ((pre' ++ s.take n1).length : Int) = pre'.length + n1 := by
        rw [List.length_append, List.length_take, Nat.min_eq_left (by omega)]; simp
      have := g4 (pre' ++ s.take n1) (k - n1) (by rw [List.length_drop]; omega)
      rw [hs', ← hl', this, hl']
      by_cases hm2 : n1 + m2 ≤ k
      · rw [if_pos (by omega), if_pos (by omega)]
        congr 2
        omega
      · rw [if_neg (by omega), if_neg (by omega)]
    · rw [if_neg hm, if_neg (by omega)]
  · rw [hx] at h; cases h
  · rw [hx] at h; cases h

/-- A decoding function that does the same when called on a part of a payload. -/
theorem Forward.call {α : Type} {f : GoDec α}
    (hf : ∀ (s : Bytes) (a : α) (o : Int), f s = .ok (a, o) → ∃ m n : Nat, n ≤ m ∧ m ≤ s.length ∧ o = n ∧
      ∀ k ≤ s.length, f (s.take k) = if m ≤ k then .ok (a, (n : Int)) else .panic) : Forward (Cur.call f) := by
  intro pre s a off h
  unfold Cur.call at h
  rw [sliceFrom_append] at h
  rcases hx : f s with ⟨b, o⟩ | _ | _
  · simp only [hx] at h
    cases h
    obtain ⟨m, n, h1, h2, rfl, h4⟩ := hf s a o hx
    refine ⟨m, n, h1, h2, rfl, fun pre' k hk => ?_⟩
    unfold Cur.call
    rw [sliceFrom_append]
    simp only [h4 k hk]
    by_cases hm : m ≤ k
    · simp only [if_pos hm]
    · simp only [if_neg hm]
  · simp only [hx] at h; cases h
  · simp only [hx] at h; cases h

theorem Forward.run {α : Type} {c : Cur α} (hc : Forward c) : Forward (Cur.call (Cur.run c)) := by
  refine Forward.call fun s a o h => ?_
  obtain ⟨m, n, h1, h2, h3, h4⟩ := hc [] s a o h
  refine ⟨m, n, h1, h2, by simpa using h3, fun k hk => ?_⟩
  have := h4 [] k hk
  simpa [Cur.run] using this

theorem Forward.keepOffset {α : Type} {c : Cur α} (hc : Forward c) : Forward (Cur.call (keepOffset (Cur.run c))) := by
  refine Forward.call fun s a o h => ?_
  unfold Healer.keepOffset at h
  rcases hx : Cur.run c s with ⟨b, o'⟩ | _ | _
  · rw [hx] at h
    cases h
    obtain ⟨m, n, h1, h2, h3, h4⟩ := hc [] s a o' hx
    refine ⟨m, 0, by omega, h2, rfl, fun k hk => ?_⟩
    have := h4 [] k hk
    unfold Healer.keepOffset Cur.run
    simp only [List.nil_append, List.length_nil, Int.natCast_zero] at this
    rw [this]
    by_cases hm : m ≤ k
    · simp only [if_pos hm]; rfl
    · simp only [if_neg hm]
  · rw [hx] at h; cases h
  · rw [hx] at h; cases h

theorem forward_beGet (w : Nat) : Forward (Cur.call (beGet w)) := by
  refine Forward.call fun s a o h => ?_
  unfold beGet at h
  split at h
  · rename_i hw
    cases h
    refine ⟨w, w, by omega, hw, rfl, fun k hk => ?_⟩
    unfold beGet
    rw [List.length_take, Nat.min_eq_left hk]
    by_cases hm : w ≤ k
    · rw [if_pos hm, if_pos hm, List.take_take, Nat.min_eq_left hm]
    · rw [if_neg hm, if_neg hm]
  · cases h

theorem forward_rdU8 : Forward rdU8 := (forward_beGet 1).bind fun _ => .pure _
theorem forward_rdU16 : Forward rdU16 := (forward_beGet 2).bind fun _ => .pure _
theorem forward_rdU32 : Forward rdU32 := (forward_beGet 4).bind fun _ => .pure _
theorem forward_rdU64 : Forward rdU64 := (forward_beGet 8).bind fun _ => .pure _
theorem forward_rdI8 : Forward rdI8 := forward_rdU8.bind fun _ => .pure _
theorem forward_rdI16 : Forward rdI16 := forward_rdU16.bind fun _ => .pure _
theorem forward_rdI32 : Forward rdI32 := forward_rdU32.bind fun _ => .pure _
theorem forward_rdI64 : Forward rdI64 := forward_rdU64.bind fun _ => .pure _

theorem forward_rdBytes (l : Int) : Forward (rdBytes l) := by
  intro pre s a off h
  unfold rdBytes sliceTo at h
  by_cases hl : (0 : Int) ≤ pre.length ∧ (pre.length : Int) ≤ pre.length + l ∧ (pre.length : Int) + l ≤ (pre ++ s).length
  · rw [if_pos hl] at h
    simp only [Out.ok.injEq, Prod.mk.injEq] at h
    obtain ⟨ha, ho⟩ := h
    obtain ⟨n, rfl⟩ : ∃ n : Nat, l = n := ⟨l.toNat, by omega⟩
    rw [List.length_append] at hl
    refine ⟨n, n, by omega, by omega, ho.symm, fun pre' k hk => ?_⟩
    unfold rdBytes sliceTo
    by_cases hm : n ≤ k
    · rw [if_pos hm, if_pos ⟨by omega, by omega, by rw [List.length_append, List.length_take, Nat.min_eq_left hk]; omega⟩]
      simp only [Out.ok.injEq, Prod.mk.injEq, and_true]
      rw [← ha]
      have e1 : ((pre'.length : Int) + (n : Int)).toNat = pre'.length + n := by omega
      have e2 : ((pre.length : Int) + (n : Int)).toNat = pre.length + n := by omega
      rw [e1, e2, Int.toNat_natCast, Int.toNat_natCast, List.take_length_add_append, List.take_length_add_append, List.drop_left, List.drop_left,
        List.take_take, Nat.min_eq_left hm]
    · rw [if_neg hm, if_neg (by rw [List.length_append, List.length_take, Nat.min_eq_left hk]; omega)]
  · rw [if_neg hl] at h; cases h

theorem Forward.cond {α : Type} {p : Prop} [Decidable p] {c : Cur α} {d : α} (hc : Forward c) : Forward (Cur.cond p c d) := by
  unfold Cur.cond
  split
  · exact hc
  · exact .pure d

theorem Forward.forN {α : Type} {c : Cur α} (hc : Forward c) : ∀ n, Forward (Cur.forN n c)
  | 0 => .pure []
  | n + 1 => hc.bind fun _ => (Forward.forN hc n).bind fun _ => .pure _

theorem Forward.forInt {α : Type} {c : Cur α} (n : Int) (hc : Forward c) : Forward (Cur.forInt n c) := by
  unfold Cur.forInt
  split
  · intro pre s a off h; cases h
  · exact hc.forN _

theorem Forward.arr32 {α : Type} {c : Cur α} (hc : Forward c) : Forward (rdArr32 c) := forward_rdU32.bind fun _ => hc.forN _

theorem Forward.arrI32 {α : Type} {c : Cur α} (hc : Forward c) : Forward (rdArrI32 c) := forward_rdI32.bind fun _ => hc.forInt _

theorem forward_rdStr16 : Forward rdStr16 := forward_rdU16.bind fun _ => forward_rdBytes _
theorem forward_rdStrI16 : Forward rdStrI16 := forward_rdI16.bind fun _ => forward_rdBytes _
theorem forward_rdStrPos : Forward rdStrPos := forward_rdI16.bind fun _ => (forward_rdBytes _).cond
theorem forward_rdBytes32 : Forward rdBytes32 := forward_rdU32.bind fun _ => forward_rdBytes _

theorem Forward.topic {α : Type} {c : Cur α} (hc : Forward c) : Forward (rdTopic c) :=
  forward_rdStr16.bind fun _ => hc.arr32.bind fun _ => .pure _

theorem forward_rdNameError : Forward rdNameError := forward_rdStr16.bind fun _ => forward_rdI16.bind fun _ => .pure _

theorem rdU32_start (s : Bytes) : rdU32 s 0 = if 4 ≤ s.length then .ok (UInt32.ofNat (beVal (s.take 4)), 4) else .panic := by
  unfold rdU32
  rw [Cur.bind_def]
  unfold Cur.call sliceFrom
  rw [if_pos ⟨by omega, by omega⟩]
  simp only [Int.toNat_zero, List.drop_zero, beGet]
  by_cases h : 4 ≤ s.length
  · rw [if_pos h, if_pos h]; rfl
  · rw [if_neg h, if_neg h]

/-- The four bytes at the current place are looked at; the place moves by `j` of them. -/
theorem forward_look {α : Type} (j : Nat) (hj : j ≤ 4) (g : UInt32 → α) (c : Cur α)
    (hc : ∀ p s, c (p ++ s) p.length = if 4 ≤ s.length then .ok (g (UInt32.ofNat (beVal (s.take 4))), (p.length : Int) + j) else .panic) :
    Forward c := by
  intro pre s a off h
  rw [hc] at h
  split at h
  · rename_i h4
    cases h
    refine ⟨4, j, hj, h4, rfl, fun pre' k hk => ?_⟩
    rw [hc, List.length_take, Nat.min_eq_left hk]
    by_cases hm : 4 ≤ k
    · rw [if_pos hm, if_pos hm, List.take_take, Nat.min_eq_left hm]
    · rw [if_neg hm, if_neg hm]
  · cases h

theorem forward_rdHandshakeError : Forward rdHandshakeError := by
  refine forward_look 2 (by omega) (fun v => v.toUInt16.toInt16) _ fun p s => ?_
  unfold rdHandshakeError
  rw [Cur.bind_def]
  unfold Cur.peekRest
  rw [sliceFrom_append]
  simp only [rdU32_start]
  by_cases h : 4 ≤ s.length
  · simp only [if_pos h]; rfl
  · simp only [if_neg h]; rfl

theorem forward_peekI32 : Forward peekI32 := by
  refine forward_look 0 (by omega) (fun v => v.toInt32) _ fun p s => ?_
  unfold peekI32
  rw [Cur.bind_def]
  unfold Cur.peekRest
  rw [sliceFrom_append]
  simp only [rdI32, Cur.bind_def, rdU32_start]
  by_cases h : 4 ≤ s.length
  · simp only [if_pos h, Cur.pure_def]; rfl
  · simp only [if_neg h]; rfl

/-! ## Answers -/

theorem rdU32_at (p s : Bytes) :
    rdU32 (p ++ s) p.length = if 4 ≤ s.length then .ok (UInt32.ofNat (beVal (s.take 4)), (p.length : Int) + 4) else .panic := by
  unfold rdU32
  rw [Cur.bind_def]
  unfold Cur.call
  rw [sliceFrom_append]
  simp only [beGet]
  by_cases h : 4 ≤ s.length
  · rw [if_pos h, if_pos h]; rfl
  · rw [if_neg h, if_neg h]

/-- A decoder that reads forwards: from an answer on which it succeeds it needs at least its first four bytes, and
every cut of the answer, correctly framed, makes it panic if these are not all there, and gives the same if they are. -/
theorem respond_cuts {α : Type} {c : UInt32 → Cur α} (hc : ∀ x, Forward (c x)) (body : Bytes) (hb : body.length < 2 ^ 32) (a : α)
    (h : respond (rdU32 >>= c) (Kafka.frame body) = .ok a) :
    ∃ n : Nat, 4 ≤ n ∧ n ≤ body.length ∧ ∀ k ≤ body.length,
      respond (rdU32 >>= c) (Kafka.frame (body.take k)) = if k < n then .panic else .ok a := by
  have hx : ∃ off, (rdU32 >>= c) (Kafka.int32 body.length ++ body) (Kafka.int32 body.length).length = .ok (a, off) := by
    unfold respond at h
    rw [Cur.bind_def, openFrame_ok _ hb] at h
    simp only at h
    rw [int32_length]
    unfold Kafka.frame at h
    rcases hx : (rdU32 >>= c) (Kafka.int32 body.length ++ body) 4 with ⟨b, off⟩ | _ | _
    · rw [hx] at h; cases h; exact ⟨off, rfl⟩
    · rw [hx] at h; cases h
    · rw [hx] at h; cases h
  obtain ⟨off, hx⟩ := hx
  obtain ⟨m, n, h1, h2, -, h4⟩ := (forward_rdU32.bind hc) _ _ _ _ hx
  have hm : 4 ≤ m := by
    rcases Nat.lt_or_ge m 4 with hlt | hge
    · have := h4 [] m h2
      rw [if_pos (Nat.le_refl m), Cur.bind_def, rdU32_at, List.length_take, Nat.min_eq_left h2, if_neg (by omega)] at this
      cases this
    · exact hge
  refine ⟨m, hm, h2, fun k hk => ?_⟩
  have := h4 (Kafka.int32 (body.take k).length) k hk
  rw [int32_length] at this
  unfold respond
  rw [Cur.bind_def, openFrame_ok _ (by rw [List.length_take]; omega)]
  simp only
  unfold Kafka.frame
  rw [show ((4 : Nat) : Int) = 4 from rfl] at this
  rw [this]
  by_cases hk' : m ≤ k
  · rw [if_pos hk', if_neg (by omega)]
  · rw [if_neg hk', if_pos (by omega)]

/-- What C89 says of an answer, turned round: there are at least four bytes that count, and every cut before their
end, correctly framed, crashes the client. -/
def CrashesCut (api version : UInt16) : Prop :=
  ∀ (body : Bytes), body.length < 2 ^ 32 → ∀ r, parse api version (Kafka.frame body) = .ok r →
    ∃ n : Nat, 4 ≤ n ∧ n ≤ body.length ∧ ∀ k ≤ body.length,
      parse api version (Kafka.frame (body.take k)) = if k < n then .panic else .ok r

theorem crashesCut {α : Type} {api version : UInt16} {k : α → Response} {c : UInt32 → Cur (α × Option Err)} (hc : ∀ x, Forward (c x))
    (hp : ∀ data, parse api version data = asResponse k (respond (rdU32 >>= c) data)) : CrashesCut api version := by
  intro body hb r h
  rw [hp] at h
  rcases hx : respond (rdU32 >>= c) (Kafka.frame body) with a | _ | _
  · obtain ⟨n, h1, h2, h3⟩ := respond_cuts hc body hb a hx
    refine ⟨n, h1, h2, fun j hj => ?_⟩
    rw [hp, h3 j hj]
    rw [hx] at h
    by_cases hjn : j < n
    · rw [if_pos hjn, if_pos hjn]; rfl
    · rw [if_neg hjn, if_neg hjn]; exact h
  · rw [hx] at h; cases h
  · rw [hx] at h; cases h

/-- the kinds of answers the theorem below is about -/
def forwardApis : List UInt16 :=
  [API_Heartbeat, API_LeaveGroup, API_JoinGroup, API_SyncGroup, API_FindCoordinator, API_Delete_Groups, API_OffsetCommitRequest,
    API_OffsetFetchRequest, API_OffsetRequest, API_ApiVersions, API_SaslHandshake, API_CreateTopics, API_DeleteTopics,
    API_ElectLeaders, API_AlterConfigs, API_IncrementalAlterConfigs]

theorem forward_rdMember : Forward rdMember := forward_rdStr16.bind fun _ => forward_rdBytes32.bind fun _ => .pure _
theorem forward_rdCommitted : Forward rdCommitted := forward_rdU32.bind fun _ => forward_rdI16.bind fun _ => .pure _
theorem forward_rdFetchedOffset : Forward rdFetchedOffset :=
  forward_rdI32.bind fun _ => forward_rdI64.bind fun _ => forward_rdStr16.bind fun _ => forward_rdI16.bind fun _ => .pure _
theorem forward_rdPartitionOffset (v : UInt16) : Forward (rdPartitionOffset v) :=
  forward_rdI32.bind fun _ => forward_rdI16.bind fun _ => forward_rdI64.arr32.cond.bind fun _ => forward_rdI64.cond.bind fun _ =>
    forward_rdI64.cond.bind fun _ => .pure _
theorem forward_rdAPIVersion : Forward rdAPIVersion :=
  forward_rdU16.bind fun _ => forward_rdU16.bind fun _ => forward_rdU16.bind fun _ => .pure _
theorem forward_rdTopicError : Forward rdTopicError := forward_rdStrI16.bind fun _ => forward_rdI16.bind fun _ => .pure _
theorem forward_rdPartitionResult : Forward rdPartitionResult :=
  forward_rdI32.bind fun _ => forward_rdI16.bind fun _ => forward_rdStrPos.bind fun _ => .pure _

/-- C89 fails for every answer of these 16 kinds, in every version: no cut of an answer is ever reported as an error.
Of an answer the client can read, the first bytes count, at least four; cut anywhere before their end and correctly framed,
it crashes the client. -/
theorem C89_violated_every_cut (api version : UInt16) (hapi : api ∈ forwardApis) : CrashesCut api version := by
  simp only [forwardApis, List.mem_cons, List.not_mem_nil, or_false] at hapi
  rcases hapi with rfl | rfl | rfl | rfl | rfl | rfl | rfl | rfl | rfl | rfl | rfl | rfl | rfl | rfl | rfl | rfl
  · exact crashesCut (fun _ => forward_rdI16.bind fun _ => .pure _) fun _ => rfl
  · exact crashesCut (fun _ => forward_rdI16.bind fun _ => .pure _) fun _ => rfl
  · exact crashesCut (fun _ => forward_rdI16.bind fun _ => forward_rdI32.bind fun _ => forward_rdStr16.bind fun _ => forward_rdStr16.bind fun _ =>
      forward_rdStr16.bind fun _ => forward_rdMember.arr32.bind fun _ => .pure _) fun _ => rfl
  · exact crashesCut (fun _ => forward_rdI16.bind fun _ => forward_rdBytes32.bind fun _ => .pure _) fun _ => rfl
  · exact crashesCut (fun _ => forward_rdI16.bind fun _ => forward_rdI32.bind fun _ => forward_rdStr16.bind fun _ => forward_rdI32.bind fun _ =>
      .pure _) fun _ => rfl
  · exact crashesCut (fun _ => forward_rdI32.bind fun _ => forward_rdNameError.arr32.bind fun _ => .pure _) fun _ => rfl
  · exact crashesCut (fun _ => forward_rdCommitted.topic.arr32.bind fun _ => .pure _) fun _ => rfl
  · exact crashesCut (fun _ => forward_rdFetchedOffset.topic.arr32.bind fun _ => .pure _) fun _ => rfl
  · exact crashesCut (fun _ => forward_peekI32.cond.bind fun _ => (forward_rdPartitionOffset _).topic.arr32.bind fun _ => .pure _) fun _ => rfl
  · exact crashesCut (fun _ => forward_rdI16.bind fun _ => forward_rdAPIVersion.arr32.bind fun _ => .pure _) fun _ => rfl
  · exact crashesCut (fun _ => forward_rdHandshakeError.bind fun _ => forward_rdStr16.arr32.bind fun _ => .pure _) fun _ => rfl
  · exact crashesCut (fun _ => forward_rdTopicError.arrI32.bind fun _ => .pure _) fun _ => rfl
  · exact crashesCut (fun _ => forward_rdNameError.arr32.bind fun _ => .pure _) fun _ => rfl
  · exact crashesCut (fun _ => forward_rdI32.bind fun _ => (forward_rdStr16.bind fun _ => forward_rdPartitionResult.arr32.bind fun _ =>
      .pure _ : Forward rdElectionResult).arr32.bind fun _ => .pure _) fun _ => rfl
  · exact crashesCut (fun _ => forward_rdU32.bind fun _ => (Forward.keepOffset (forward_rdI16.bind fun _ => forward_rdStr16.bind fun _ =>
      forward_rdU8.bind fun _ => forward_rdStr16.bind fun _ => .pure _) : Forward (Cur.call decodeAlteredResource)).arr32.bind fun _ => .pure _)
      fun _ => rfl
  · exact crashesCut (fun _ => forward_rdU32.bind fun _ => (Forward.keepOffset (forward_rdI16.bind fun _ => forward_rdStrPos.bind fun _ =>
      forward_rdU8.bind fun _ => forward_rdStrPos.bind fun _ => .pure _) : Forward (Cur.call decodeIncrementalResource)).arr32.bind fun _ =>
      .pure _) fun _ => rfl

/-- an answer to a join-group request with one member: all its 32 bytes count -/
example : let body : Bytes := [0, 0, 0, 7, 0, 0, 0, 0, 0, 1, 0, 1, 112, 0, 1, 108, 0, 1, 109, 0, 0, 0, 1, 0, 1, 109, 0, 0, 0, 2, 5, 6]
    API_JoinGroup ∈ forwardApis ∧
    parse API_JoinGroup 0 (Kafka.frame body) = .ok (.joinGroup ⟨7, 0, 1, [112], [108], [109], [⟨[109], [5, 6]⟩]⟩, none) ∧
    parse API_JoinGroup 0 (Kafka.frame (body.take 31)) = .panic := by
  decide +kernel

end Healer
