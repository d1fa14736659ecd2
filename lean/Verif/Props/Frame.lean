import Verif.Model.Parse
import Verif.Props.Response3

/-!
# C28, C81, C89: framing of responses
-/

namespace Healer

theorem eq_append_drop {c l : Bytes} {n : Nat} (h : c = l.take n) : l = c ++ l.drop n := by
  rw [h, List.take_append_drop]

/-- Reading from chunks that hold enough data takes exactly the bytes asked for, wherever the chunk
boundaries are. -/
theorem connRead_data (want extra : Bytes) (tail : List Ev) :
    ∀ (chunks : List Bytes), chunks.flatten = want ++ extra →
      ∃ left : List Bytes, left.flatten = extra ∧
        connRead want.length (chunks.map .data ++ tail) = (.ok want, left.map .data ++ tail) := by
  intro chunks
  induction chunks generalizing want with
  | nil =>
    intro h
    simp only [List.flatten_nil, List.nil_eq, List.append_eq_nil_iff] at h
    obtain ⟨rfl, rfl⟩ := h
    exact ⟨[], rfl, by simp only [List.length_nil, connRead]⟩
  | cons c cs ih =>
    intro h
    rw [List.flatten_cons] at h
    cases want with
    | nil => exact ⟨c :: cs, by rw [List.flatten_cons, h]; rfl, rfl⟩
    | cons b bs =>
      simp only [List.length_cons, List.map_cons, List.cons_append, connRead]
      by_cases hlt : bs.length + 1 < c.length
      · rw [if_pos hlt]
        have h1 : c.take (bs.length + 1) = b :: bs := by
          have := congrArg (List.take (bs.length + 1)) h
          rw [List.take_append_of_le_length (by omega)] at this
          rw [this]
          exact List.take_left' rfl
        have h2 : c.drop (bs.length + 1) ++ cs.flatten = extra := by
          have := congrArg (List.drop (bs.length + 1)) h
          rw [List.drop_append_of_le_length (by omega)] at this
          rw [this]
          exact List.drop_left' rfl
        exact ⟨c.drop (bs.length + 1) :: cs, by rw [List.flatten_cons, h2], by rw [h1]; rfl⟩
      · rw [if_neg hlt]
        have hw : ∃ w, b :: bs = c ++ w := by
          have := congrArg (List.take c.length) h
          rw [List.take_left' rfl, List.take_append_of_le_length (by simp only [List.length_cons]; omega)] at this
          exact ⟨(b :: bs).drop c.length, eq_append_drop this⟩
        obtain ⟨w, hw⟩ := hw
        rw [hw, List.append_assoc] at h
        obtain ⟨left, hl, hr⟩ := ih w (List.append_cancel_left h)
        have hlen : bs.length + 1 - c.length = w.length := by
          have := congrArg List.length hw
          rw [List.length_cons, List.length_append] at this
          omega
        rw [hlen, hr]
        exact ⟨left, hl, by rw [hw]⟩

/-- Reading more than the chunks hold ends with the failure that follows them, or with end of file. -/
theorem connRead_short (need : Nat) (tail : List Ev) (e : Err)
    (ht : tail = [] ∧ e = .eof ∨ ∃ t, tail = .fail e :: t) :
    ∀ (chunks : List Bytes), chunks.flatten.length < need →
      (connRead need (chunks.map .data ++ tail)).1 = .err e := by
  intro chunks
  induction chunks generalizing need with
  | nil =>
    intro h
    obtain ⟨n, rfl⟩ : ∃ n, need = n + 1 := ⟨need - 1, by simp at h; omega⟩
    rcases ht with ⟨rfl, rfl⟩ | ⟨t, rfl⟩ <;> rfl
  | cons c cs ih =>
    intro h
    rw [List.flatten_cons, List.length_append] at h
    obtain ⟨n, rfl⟩ : ∃ n, need = n + 1 := ⟨need - 1, by omega⟩
    simp only [List.map_cons, List.cons_append, connRead]
    rw [if_neg (by omega)]
    have := ih (n + 1 - c.length) (by omega)
    revert this
    generalize connRead (n + 1 - c.length) (cs.map .data ++ tail) = x
    obtain ⟨o, l⟩ := x
    intro h
    subst h
    rfl

theorem toNat_u32 (n : Nat) (h : n < 2 ^ 32) : (UInt32.ofNat n).toNat = n :=
  UInt32.toNat_ofNat_of_lt' h

theorem rdU32_int32 (n : Nat) (h : n < 2 ^ 32) : rdU32 (Kafka.int32 n) 0 = .ok (UInt32.ofNat n, 4) := by
  have := creads_u32 (UInt32.ofNat n) [] []
  rw [toNat_u32 _ h] at this
  simpa using this

/-- C28: wherever the network splits the stream, and whatever follows, reading a response hands the
decoder exactly the next frame and leaves exactly the bytes after it.  Missing: frames shorter than four
bytes (see `C28_violated_short`) and the separate reader used for fetches (see `C28_violated_fetch`). -/
theorem C28_chunking_partial (body extra : Bytes) (chunks : List Bytes) (tail : List Ev)
    (h4 : 4 ≤ body.length) (hl : body.length < 2 ^ 32)
    (h : chunks.flatten = Kafka.frame body ++ extra) :
    ∃ left : List Bytes, left.flatten = extra ∧
      readFrame (chunks.map .data ++ tail) = (.ok (Kafka.frame body), left.map .data ++ tail) := by
  unfold Kafka.frame at *
  rw [List.append_assoc] at h
  obtain ⟨l1, h1, r1⟩ := connRead_data _ _ tail chunks h
  rw [int32_length] at r1
  obtain ⟨l2, h2, r2⟩ := connRead_data _ _ tail l1 h1
  refine ⟨l2, h2, ?_⟩
  unfold readFrame
  rw [r1]
  simp only [rdU32_int32 _ hl]
  rw [toNat_u32 _ hl, r2]
  simp only [logFrame]
  rw [if_neg (by omega)]

example : readFrame [.data [0], .data [0, 0], .data [5, 0, 0], .data [], .data [0, 7, 1, 9], .fail .timeout] =
    (Out.ok [0, 0, 0, 5, 0, 0, 0, 7, 1], [Ev.data [9], Ev.fail (Err.timeout)]) := by decide +kernel

/-- C28: a connection that fails or ends before the frame is complete never yields a truncated frame. -/
theorem C28_incomplete (body part : Bytes) (chunks : List Bytes) (tail : List Ev) (e : Err)
    (hl : body.length < 2 ^ 32)
    (hp : ∃ missing, missing ≠ [] ∧ part ++ missing = Kafka.frame body)
    (h : chunks.flatten = part)
    (ht : tail = [] ∧ e = .eof ∨ ∃ t, tail = .fail e :: t) :
    (readFrame (chunks.map .data ++ tail)).1 = .err e := by
  obtain ⟨missing, hm, hp⟩ := hp
  have hm' : 0 < missing.length := List.length_pos_iff.mpr hm
  unfold Kafka.frame at hp
  by_cases h4 : part.length < 4
  · unfold readFrame
    have := connRead_short 4 tail e ht chunks (by rw [h]; exact h4)
    revert this
    generalize connRead 4 (chunks.map .data ++ tail) = x
    obtain ⟨o, l⟩ := x
    intro h
    subst h
    rfl
  · have hpre : part = Kafka.int32 body.length ++ part.drop 4 := by
      have := congrArg (List.take 4) hp
      rw [List.take_append_of_le_length (by omega), List.take_left' (int32_length _)] at this
      exact eq_append_drop this.symm
    have hlen := congrArg List.length hp
    simp only [List.length_append, int32_length] at hlen
    obtain ⟨l1, h1, r1⟩ := connRead_data _ _ tail chunks (h.trans hpre)
    rw [int32_length] at r1
    unfold readFrame
    rw [r1]
    simp only [rdU32_int32 _ hl]
    rw [toNat_u32 _ hl]
    have := connRead_short body.length tail e ht l1 (by rw [h1, List.length_drop]; omega)
    revert this
    generalize connRead body.length (l1.map .data ++ tail) = x
    obtain ⟨o, l⟩ := x
    intro h
    subst h
    rfl

example : readFrame [.data [0], .data [0, 0, 5, 0, 0], .fail .timeout] =
    (Out.err (Err.timeout), []) := by decide +kernel

/-- C28 fails for frames of fewer than four bytes: the broker announces a frame of 2 bytes, delivers it
completely, and reading it crashes instead of handing it to the decoder. -/
theorem C28_violated_short : readFrame [.data (Kafka.frame [7, 7])] = (.panic, []) := by decide +kernel

theorem ite_err {α : Type} {c : Prop} [Decidable c] {a b : Out α} (h1 : c → ∃ e, a = .err e)
    (h2 : ¬c → ∃ e, b = .err e) : ∃ e, (if c then a else b) = .err e := by
  by_cases h : c
  · rw [if_pos h]; exact h1 h
  · rw [if_neg h]; exact h2 h

/-- C81: for every API except describe-ACLs and every version, bytes whose length prefix differs from
the number of bytes that follow are rejected with an error.  The decoders of alter-reassignments and
delete-ACLs compare in 32 bits, so for them the payload has to be shorter than 2 GB.
Missing: describe-ACLs (`C81_violated_describeAcls`). -/
theorem C81_rejects_partial (api version : UInt16) (n : UInt32) (rest : Bytes)
    (hn : n.toNat ≠ rest.length) (hapi : api ≠ API_DescribeAcls)
    (hl : api = API_DeleteAcls ∨ api = API_AlterPartitionReassignments → rest.length + 4 < 2 ^ 31) :
    ∃ e, parse api version (Kafka.int32 n.toNat ++ rest) = .err e := by
  have hr : ∀ {α : Type} (c : Cur α), respond c (Kafka.int32 n.toNat ++ rest) = .err .lengthMismatch :=
    fun c => respond_mismatch c n rest hn
  have hlen : rest.length + 4 < 2 ^ 31 → (Kafka.int32 n.toNat ++ rest).length < 2 ^ 31 := by
    rw [List.length_append, int32_length]; omega
  unfold parse
  refine ite_err (fun _ => ⟨_, congrArg _ (hr _)⟩) fun _ => ?_
  refine ite_err (fun _ => ⟨_, congrArg _ (hr _)⟩) fun _ => ?_
  refine ite_err (fun _ => ⟨_, congrArg _ (hr _)⟩) fun _ => ?_
  refine ite_err (fun _ => ⟨_, congrArg _ (hr _)⟩) fun _ => ?_
  refine ite_err (fun _ => ⟨_, congrArg _ (hr _)⟩) fun _ => ?_
  refine ite_err (fun _ => ⟨_, congrArg _ (hr _)⟩) fun _ => ?_
  refine ite_err (fun _ => ⟨_, congrArg _ (hr _)⟩) fun _ => ?_
  refine ite_err (fun _ => ⟨_, congrArg _ (hr _)⟩) fun _ => ?_
  refine ite_err (fun _ => ⟨_, congrArg _ (hr _)⟩) fun _ => ?_
  refine ite_err (fun _ => ⟨_, congrArg _ (hr _)⟩) fun _ => ?_
  refine ite_err (fun _ => ⟨_, congrArg _ (hr _)⟩) fun _ => ?_
  refine ite_err (fun _ => ⟨_, congrArg _ (hr _)⟩) fun _ => ?_
  refine ite_err (fun _ => ⟨.lengthMismatch, by unfold newDescribeGroupsResponse; rw [hr]; rfl⟩) fun _ => ?_
  refine ite_err (fun _ => ⟨_, congrArg _ (hr _)⟩) fun _ => ?_
  refine ite_err (fun _ => ⟨_, congrArg _ (hr _)⟩) fun _ => ?_
  refine ite_err (fun h => ?_) fun _ => ?_
  · exact ⟨.lengthMismatch, by
      unfold newAlterPartitionReassignmentsResponse
      rw [respondI32_eq _ _ (hlen (hl (.inr h))), hr]; rfl⟩
  refine ite_err (fun _ => ⟨_, congrArg _ (hr _)⟩) fun _ => ?_
  refine ite_err (fun _ => ⟨_, congrArg _ (hr _)⟩) fun _ => ?_
  refine ite_err (fun _ => ⟨_, congrArg _ (hr _)⟩) fun _ => ?_
  refine ite_err (fun _ => ⟨_, congrArg _ (hr _)⟩) fun _ => ?_
  refine ite_err (fun _ => ⟨_, congrArg _ (hr _)⟩) fun _ => ?_
  refine ite_err (fun h => absurd h hapi) fun _ => ?_
  refine ite_err (fun _ => ⟨_, congrArg _ (hr _)⟩) fun _ => ?_
  refine ite_err (fun h => ?_) fun _ => ?_
  · exact ⟨.lengthMismatch, by
      unfold decodeDeleteAclsResponse
      rw [respondWrap_eq _ _ (hlen (hl (.inl h))), hr]; rfl⟩
  refine ite_err (fun _ => ⟨_, congrArg _ (hr _)⟩) fun _ => ?_
  refine ite_err (fun _ => ⟨_, congrArg _ (hr _)⟩) fun _ => ?_
  refine ite_err (fun _ => ⟨_, congrArg _ (hr _)⟩) fun _ => ?_
  refine ite_err (fun _ => ⟨_, congrArg _ (hr _)⟩) fun _ => ?_
  refine ite_err (fun _ => ⟨_, congrArg _ (hr _)⟩) fun _ => ?_
  exact ⟨_, rfl⟩

example : parse API_Heartbeat 0 (Kafka.int32 5 ++ [0, 0, 0, 7, 0, 0]) =
    .err (Err.lengthMismatch) := by decide +kernel

/-- C81 fails for describe-ACLs: the length prefix is skipped unread, so a payload announcing 16909060
bytes but holding 16 is decoded as a response. -/
theorem C81_violated_describeAcls :
    parse API_DescribeAcls 0 ([1, 2, 3, 4] ++
      (Kafka.int32 9 ++ Kafka.int32 0 ++ Kafka.int16 0 ++ Kafka.int16 (-1) ++ Kafka.int32 0)) =
      .ok (.describeAcls ⟨9, 0, 0, none, [], none⟩, none) := by decide +kernel

/-- C89 fails: a heartbeat answer that ends after its correlation id is correctly framed, and decoding it
crashes. -/
theorem C89_violated_truncated : parse API_Heartbeat 0 (Kafka.frame (Kafka.int32 7)) = .panic := by decide +kernel

/-- C89 fails: a sync-group answer announcing an assignment of 100 bytes but holding 1. -/
theorem C89_violated_count :
    parse API_SyncGroup 0 (Kafka.frame (Kafka.int32 7 ++ Kafka.int16 0 ++ Kafka.int32 100 ++ [1])) = .panic := by
  decide +kernel

end Healer
