import Verif.Props.Late

/-! C28: every fetch whose length arrives in pieces fails. -/

namespace Healer

/-- C28 fails for every fetch, every length of the answer and every way to cut it: when the first piece that arrives has at
most three of the four bytes of the length, the request is reported as failed and the connection is closed, though
the rest of the answer is there to be read.  When the same bytes arrive together the request succeeds, see
`C28_fetch_partial`. -/
theorem C28_violated_every_split_length {b : Broker} {c : Conn} (hb : b.Ready c) (r : Req) {payload : Bytes}
    (henc : r.encode (getHighestAvailableAPIVersion b.apiVersions API_FetchRequest) (b.correlationID + 1) = .ok payload) (hlen : 12 ≤ payload.length)
    (n k : Nat) (hk : k < 4) (rest : Bytes) (evs : List Ev)
    (hreads : c.reads = .data ((Kafka.int32 n).take k) :: .data ((Kafka.int32 n).drop k ++ rest) :: evs) :
    (requestFetchStreamingly r b).1 = .err (.other "short read") ∧ (requestFetchStreamingly r b).2.conn = none := by
  have h4 : (Kafka.int32 n).length = 4 := int32_length _
  have hl : readLength c.reads = (.err (.other "short read"), .data ((Kafka.int32 n).drop k ++ rest) :: evs) := by
    rw [hreads]
    unfold readLength
    simp only
    rw [if_pos (by simp only [List.length_take, h4]; omega)]
  have ho : ensureOpen b = (.ok (), b) := by
    simp only [ensureOpen, ensureOpenWith, hb.conn]
  unfold requestFetchStreamingly
  change (B.bind _ _ _).1 = _ ∧ (B.bind _ _ _).2.conn = _
  unfold B.bind
  rw [ho]
  simp only [locked, hb.free, Bool.false_eq_true, if_false]
  simp only [bind, B.bind, nextCorrelationID, negotiated, B.lift, henc, requestStreamingly, send, hb.conn, Nat.not_lt.mpr hlen, if_false,
    hb.writes, awaitLength, hl, closeBroker]
  simp

/-- the same bytes in two pieces and in one -/
example : let r : Req := ⟨1, fun _ _ => .ok (List.replicate 12 0)⟩
    (requestFetchStreamingly r (askBroker [.data [0, 0], .data [0, 9, 1]])).1 = .err (.other "short read") ∧
    (requestFetchStreamingly r (askBroker [.data [0, 0, 0, 9, 1]])).1 = .ok 9 := by decide +kernel

end Healer
