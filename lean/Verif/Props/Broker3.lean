import Verif.Props.Broker2

/-!
# C117, C118: reconnecting
-/

namespace Healer

/-- What code that opens no connection may do: the connection stays the same or is closed, and requests are written on
this connection only. -/
structure Stay (b b' : Broker) : Prop where
  versions : b'.apiVersions = b.apiVersions
  dials : b'.dials = b.dials
  dialed : b'.dialed = b.dialed
  conn : ∀ c', b'.conn = some c' → ∃ c, b.conn = some c ∧ c.id = c'.id
  log : ∃ ext, b'.log = b.log ++ ext ∧ ∀ id p, .send id p ∈ ext → ∃ c, b.conn = some c ∧ c.id = id

theorem Stay.refl (b : Broker) : Stay b b := ⟨rfl, rfl, rfl, fun c h => ⟨c, h, rfl⟩, [], by simp, by simp⟩

theorem Stay.trans {b b' b'' : Broker} (h : Stay b b') (h' : Stay b' b'') : Stay b b'' := by
  refine ⟨h'.versions.trans h.versions, h'.dials.trans h.dials, h'.dialed.trans h.dialed, fun c'' hc => ?_, ?_⟩
  · obtain ⟨c', hc', e'⟩ := h'.conn c'' hc
    obtain ⟨c, hc, e⟩ := h.conn c' hc'
    exact ⟨c, hc, e.trans e'⟩
  · obtain ⟨x, hx, hx'⟩ := h.log
    obtain ⟨y, hy, hy'⟩ := h'.log
    refine ⟨x ++ y, by rw [hy, hx, List.append_assoc], fun id p hm => ?_⟩
    rcases List.mem_append.1 hm with hm | hm
    · exact hx' id p hm
    · obtain ⟨c', hc', e'⟩ := hy' id p hm
      obtain ⟨c, hc, e⟩ := h.conn c' hc'
      exact ⟨c, hc, e.trans e'⟩

/-- Code that opens no connection. -/
def Stays {α : Type} (m : B α) : Prop := ∀ b, Stay b (m b).2

theorem Stays.bind {α β : Type} {m : B α} {f : α → B β} (hm : Stays m) (hf : ∀ a, Stays (f a)) : Stays (m >>= f) := by
  intro b
  have h1 := hm b
  change Stay b (B.bind m f b).2
  unfold B.bind
  rcases hmb : m b with ⟨x, b'⟩
  rw [hmb] at h1
  cases x with
  | ok a => exact h1.trans (hf a b')
  | err e => exact h1
  | panic => exact h1
  | hang => exact h1

theorem Stays.pure {α : Type} (a : α) : Stays (Pure.pure a : B α) := fun b => .refl b

theorem Stays.wrap {α : Type} {m : B α} (h : Stays m) : Stays (B.wrap m) := by
  intro b
  have h1 := h b
  unfold B.wrap
  rcases hmb : m b with ⟨x, b'⟩
  rw [hmb] at h1
  cases x <;> exact h1

theorem stays_lift {α : Type} (o : Out α) : Stays (B.lift o) := by
  intro b
  unfold B.lift
  cases o <;> exact .refl b

theorem stays_close : Stays closeBroker := by
  intro b
  unfold closeBroker
  rcases hb : b.conn with _ | c
  · exact .refl b
  · exact ⟨rfl, rfl, rfl, by simp, [.close c.id], rfl, by simp⟩

theorem stays_send (p : Bytes) : Stays (send p) := by
  intro b
  unfold send
  rcases hb : b.conn with _ | c
  · exact .refl b
  · simp only
    split
    · exact .refl b
    · cases c.writes c.written with
      | none =>
        refine ⟨rfl, rfl, rfl, fun c' hc' => ?_, [.send c.id p], rfl, fun id q hq => ?_⟩
        · cases hc'; exact ⟨c, hb, rfl⟩
        · simp only [List.mem_singleton, Act.send.injEq] at hq
          exact ⟨c, hb, hq.1.symm⟩
      | some e =>
        refine ⟨rfl, rfl, rfl, fun c' hc' => ?_, [.sendFailed c.id p], rfl, by simp⟩
        cases hc'; exact ⟨c, hb, rfl⟩

theorem stays_corr : Stays nextCorrelationID := fun b => ⟨rfl, rfl, rfl, fun c h => ⟨c, h, rfl⟩, [], by simp [nextCorrelationID], by simp⟩

theorem stays_negotiated (api : UInt16) : Stays (negotiated api) := fun b => .refl b

theorem stays_request (r : Req) : Stays (request r) :=
  stays_corr.bind fun _ => (stays_negotiated _).bind fun _ => (stays_lift _).bind fun _ => (stays_send _).wrap.bind fun _ => .pure _

theorem Stay.reads {b : Broker} {c : Conn} (hb : b.conn = some c) (evs : List Ev) : Stay b { b with conn := some { c with reads := evs } } :=
  ⟨rfl, rfl, rfl, fun c' hc' => by cases hc'; exact ⟨c, hb, rfl⟩, [], by simp, by simp⟩

theorem stays_readParse (api v : UInt16) : Stays (readParse api v) := by
  intro b
  unfold readParse
  rcases hb : b.conn with _ | c
  · exact .refl b
  · simp only
    rcases readAndParse api v c.reads with ⟨_ | _ | _, evs⟩ <;> exact .reads hb evs

theorem stays_checkError (r : Response) : Stays (checkError r) := by
  intro b
  unfold checkError
  rcases r.error with (_ | _) | _ | _ <;> exact .refl b

theorem stays_exchangeBody (r : Req) : Stays (exchangeBody r) :=
  (stays_request r).bind fun _ => (stays_readParse _ _).bind fun x => (stays_checkError x).bind fun _ => .pure _

theorem stays_exchange (r : Req) : Stays (exchange r) := by
  intro b
  have h1 := stays_exchangeBody r b
  rw [exchange_eq]
  rcases hx : exchangeBody r b with ⟨x, b'⟩
  rw [hx] at h1
  cases x with
  | err e =>
    simp only
    split
    · exact h1.trans (stays_close b')
    · exact h1
  | ok a => exact h1
  | panic => exact h1
  | hang => exact h1

theorem Stay.mux {b b' : Broker} (h : Stay b b') (x y : Bool) : Stay { b with mux := x } { b' with mux := y } := ⟨h.1, h.2, h.3, h.4, h.5⟩

theorem Stays.locked {α : Type} {m : B α} (h : Stays m) : Stays (locked m) := by
  intro b
  have h1 := h { b with mux := true }
  unfold Healer.locked
  split
  · exact .refl b
  · rcases hmb : m { b with mux := true } with ⟨x, b'⟩
    rw [hmb] at h1
    cases x <;> exact ⟨h1.1, h1.2, h1.3, h1.4, h1.5⟩

theorem stays_requestAndGetInner (r : Req) : Stays (requestAndGetInner r) := by
  refine Stays.locked (Stays.bind (fun b => ?_) fun _ => stays_exchange r)
  unfold ensureOpenWith
  cases b.conn <;> exact .refl b

theorem stays_requestAndGetOpt (o : Option Req) : Stays (requestAndGetOpt o) := by
  cases o with
  | some r => exact stays_requestAndGetInner r
  | none =>
    refine Stays.locked (Stays.bind (fun b => ?_) fun _ => stays_corr.bind fun _ => fun b => .refl b)
    unfold ensureOpenWith
    cases b.conn <;> exact .refl b

theorem stays_sasl (s : SaslConfig) : Stays (sendSaslAuthenticate s) :=
  (stays_requestAndGetInner _).bind fun _ => (stays_requestAndGetOpt _).bind fun _ => .pure _

theorem stays_asAPIVersions (r : Response) : Stays (asAPIVersions r) := by
  intro b
  unfold asAPIVersions
  split <;> exact .refl b

theorem stays_requestAPIVersions : Stays requestAPIVersions :=
  (stays_request _).bind fun _ => (stays_readParse _ _).bind fun x => (stays_checkError x).bind fun _ => stays_asAPIVersions x

theorem stays_awaitLength : Stays awaitLength := by
  intro b
  unfold awaitLength
  rcases hb : b.conn with _ | c
  · exact .refl b
  · simp only
    rcases readLength c.reads with ⟨_ | _ | _, evs⟩
    · exact .reads hb evs
    · exact (Stay.reads hb evs).trans (stays_close _)
    · exact .reads hb evs

theorem stays_requestStreamingly (p : Bytes) : Stays (requestStreamingly p) := by
  intro b
  have h1 := stays_send p b
  unfold requestStreamingly
  rcases hs : send p b with ⟨x, b'⟩
  rw [hs] at h1
  cases x with
  | panic => exact h1
  | ok a => exact h1.trans (stays_awaitLength b')
  | err e => exact h1.trans (stays_awaitLength b')
  | hang => exact h1.trans (stays_awaitLength b')

/-! ## C117: a connection given up is not used again -/

/-- The open connection, and those opened from now on, have numbers not below `n`. -/
structure Fresh (n : Nat) (b : Broker) : Prop where
  conn : ∀ c, b.conn = some c → n ≤ c.id
  dialed : n ≤ b.dialed

/-- Code that leaves the connections below `n` alone if they are not in use. -/
def Leaves (n : Nat) {α : Type} (m : B α) : Prop :=
  ∀ b, Fresh n b → Fresh n (m b).2 ∧ ∀ id, id < n → sendsOn (m b).2.log id = sendsOn b.log id

theorem Leaves.bind {n : Nat} {α β : Type} {m : B α} {f : α → B β} (hm : Leaves n m) (hf : ∀ a, Leaves n (f a)) : Leaves n (m >>= f) := by
  intro b hb
  have h1 := hm b hb
  change Fresh n (B.bind m f b).2 ∧ ∀ id, id < n → sendsOn (B.bind m f b).2.log id = sendsOn b.log id
  unfold B.bind
  rcases hmb : m b with ⟨x, b'⟩
  rw [hmb] at h1
  cases x with
  | ok a =>
    have h2 := hf a b' h1.1
    exact ⟨h2.1, fun id hid => (h2.2 id hid).trans (h1.2 id hid)⟩
  | err e => exact h1
  | panic => exact h1
  | hang => exact h1

theorem Stays.leaves {n : Nat} {α : Type} {m : B α} (h : Stays m) : Leaves n m := by
  intro b hb
  have hs := h b
  refine ⟨⟨fun c' hc' => ?_, by rw [hs.dialed]; exact hb.dialed⟩, fun id hid => ?_⟩
  · obtain ⟨c, hc, e⟩ := hs.conn c' hc'
    rw [← e]
    exact hb.conn c hc
  · obtain ⟨ext, he, hx⟩ := hs.log
    have : sendsOn ext id = [] := by
      unfold sendsOn
      rw [List.filterMap_eq_nil_iff]
      intro a ha
      cases a with
      | send i p =>
        obtain ⟨c, hc, e⟩ := hx i p ha
        have := hb.conn c hc
        simp only
        rw [if_neg (by omega)]
      | _ => rfl
    rw [he, sendsOn, List.filterMap_append]
    change sendsOn b.log id ++ sendsOn ext id = _
    rw [this, List.append_nil]

theorem leaves_createConn (n : Nat) : Leaves n createConn := by
  have hd : ∀ b, Fresh n b → ∀ c, (dial b).1 = .ok c → n ≤ c.id := by
    intro b hb c h
    unfold dial at h
    rcases hx : b.dials with _ | ⟨_ | s, ds⟩ <;> rw [hx] at h <;> simp only at h <;> cases h
    exact hb.dialed
  intro b hb
  have key : Fresh n (dial b).2 ∧ ∀ id, id < n → sendsOn (dial b).2.log id = sendsOn b.log id := by
    unfold dial
    rcases b.dials with _ | ⟨_ | s, ds⟩
    · exact ⟨⟨hb.conn, Nat.le_succ_of_le hb.dialed⟩, fun _ _ => rfl⟩
    · exact ⟨⟨hb.conn, Nat.le_succ_of_le hb.dialed⟩, fun _ _ => rfl⟩
    · exact ⟨⟨hb.conn, Nat.le_succ_of_le hb.dialed⟩, fun id _ => by simp [sendsOn]⟩
  have hd := hd b hb
  change Fresh n (B.bind dial _ b).2 ∧ ∀ id, id < n → sendsOn (B.bind dial _ b).2.log id = sendsOn b.log id
  unfold B.bind
  rcases hdb : dial b with ⟨x, b'⟩
  rw [hdb] at key hd
  cases x with
  | ok c => exact ⟨⟨fun c' hc' => by cases hc'; exact hd c rfl, key.1.dialed⟩, key.2⟩
  | err e => exact key
  | panic => exact key
  | hang => exact key

theorem leaves_createConnAndAuth (n : Nat) : Leaves n createConnAndAuth := by
  refine (leaves_createConn n).bind fun _ => stays_requestAPIVersions.wrap.leaves.bind fun vs => ?_
  intro b hb
  have hb' : Fresh n { b with apiVersions := vs } := ⟨hb.conn, hb.dialed⟩
  simp only
  split
  · exact (stays_sasl b.sasl).leaves _ hb'
  · exact ⟨hb', fun _ _ => rfl⟩

theorem leaves_ensureOpen (n : Nat) : Leaves n ensureOpen := by
  intro b hb
  unfold ensureOpen ensureOpenWith
  cases hc : b.conn with
  | some c => exact ⟨hb, fun _ _ => rfl⟩
  | none => exact leaves_createConnAndAuth n b hb

theorem Leaves.locked {n : Nat} {α : Type} {m : B α} (h : Leaves n m) : Leaves n (locked m) := by
  intro b hb
  have h1 := h { b with mux := true } ⟨hb.conn, hb.dialed⟩
  unfold Healer.locked
  split
  · exact ⟨hb, fun _ _ => rfl⟩
  · rcases hmb : m { b with mux := true } with ⟨x, b'⟩
    rw [hmb] at h1
    cases x <;> exact ⟨⟨h1.1.conn, h1.1.dialed⟩, h1.2⟩

theorem leaves_get (n : Nat) (r : Req) : Leaves n (requestAndGet r) :=
  Leaves.locked ((leaves_ensureOpen n).bind fun _ => (stays_exchange r).leaves)

theorem stays_fetchBody (r : Req) : Stays (do
    let corr ← nextCorrelationID
    let version ← negotiated API_FetchRequest
    let payload ← B.lift (r.encode version corr)
    requestStreamingly payload) :=
  stays_corr.bind fun _ => (stays_negotiated _).bind fun _ => (stays_lift _).bind fun _ => stays_requestStreamingly _

theorem leaves_fetch (n : Nat) (r : Req) : Leaves n (requestFetchStreamingly r) :=
  (leaves_ensureOpen n).bind fun _ => (stays_fetchBody r).locked.leaves

theorem leaves_runCalls (n : Nat) (cs : List Call) : ∀ b, Fresh n b → Fresh n (runCalls cs b).2 ∧
    ∀ id, id < n → sendsOn (runCalls cs b).2.log id = sendsOn b.log id := by
  induction cs with
  | nil => exact fun b hb => ⟨hb, fun _ _ => rfl⟩
  | cons c cs ih =>
    intro b hb
    have hc : Leaves n c.run := by
      cases c with
      | get r => exact (leaves_get n r).bind fun _ => (Stays.pure _).leaves
      | fetch r => exact (leaves_fetch n r).bind fun _ => (Stays.pure _).leaves
      | close => exact stays_close.leaves.bind fun _ => (Stays.pure _).leaves
    have h1 := hc b hb
    unfold runCalls
    rcases hx : c.run b with ⟨x, b'⟩
    rw [hx] at h1
    cases x with
    | panic => exact h1
    | hang => exact h1
    | ok a => exact ⟨(ih b' h1.1).1, fun id hid => ((ih b' h1.1).2 id hid).trans (h1.2 id hid)⟩
    | err e => exact ⟨(ih b' h1.1).1, fun id hid => ((ih b' h1.1).2 id hid).trans (h1.2 id hid)⟩

/-- what a failed exchange on an open connection leaves behind -/
theorem exchange_failed (r : Req) (b b' : Broker) (e : Err) (h : exchange r b = (.err e, b')) (he : e.is .eof = true ∨ e.is .epipe = true) :
    b'.conn = none := by
  rw [exchange_eq] at h
  rcases hx : exchangeBody r b with ⟨x, b1⟩
  rw [hx] at h
  cases x with
  | err e1 =>
    simp only at h
    have hcl : closesConn e1 = true → b'.conn = none := by
      intro hc
      rw [if_pos hc] at h
      simp only [Prod.mk.injEq] at h
      rw [← h.2]
      unfold closeBroker
      rcases hb : b1.conn with _ | c
      · exact hb
      · rfl
    have : e1 = e := by split at h <;> (cases h; rfl)
    apply hcl
    subst this
    unfold closesConn
    rcases he with he | he <;> simp [he]
  | ok a => cases h
  | panic => cases h
  | hang => cases h

/-- C117: if a request on an open connection fails because the other side has closed the connection (the read meets the
end, or the write a broken pipe), then the connection is closed, and whatever is done later, nothing more is sent on it or
on any connection opened before.
Missing for the full statement: other failures (`C117_violated_reset`, `C29_violated_timeout`), and failures while the
connection is opened (`C117_violated_opening`). -/
theorem C117_not_reused_partial (b b' : Broker) (hb : b.conn ≠ none) (r : Req) (e : Err) (h : requestAndGet r b = (.err e, b'))
    (he : e.is .eof = true ∨ e.is .epipe = true) (cs : List Call) :
    b'.conn = none ∧ ∀ id, id < b'.dialed → sendsOn (runCalls cs b').2.log id = sendsOn b'.log id := by
  have hn : b'.conn = none := by
    unfold requestAndGet requestAndGetWith locked at h
    split at h
    · cases h
    · rcases hm : (do ensureOpenWith createConnAndAuth; exchange r : B Response) { b with mux := true } with ⟨x, b1⟩
      rw [hm] at h
      cases x with
      | err e1 =>
        simp only [Prod.mk.injEq, Ret.err.injEq] at h
        obtain ⟨rfl, rfl⟩ := h
        have hx : exchange r { b with mux := true } = (.err e1, b1) := by
          change B.bind _ _ _ = _ at hm
          unfold B.bind ensureOpenWith at hm
          rcases hc : b.conn with _ | c
          · exact absurd hc hb
          · simp only [hc] at hm
            exact hm
        exact exchange_failed r _ b1 e1 hx he
      | ok a => cases h
      | panic => cases h
      | hang => cases h
  refine ⟨hn, (leaves_runCalls b'.dialed cs b' ⟨fun c hc => ?_, Nat.le_refl _⟩).2⟩
  rw [hn] at hc
  cases hc

example : (requestAndGet hbReq (newBroker noSasl [.ok ⟨[.data (verAnswer 1)], fun n => if n = 1 then some .epipe else none⟩]).2).1 =
    .err (.wrapped .epipe) := by decide +kernel

/-- C117: the same for fetches, and for any failure to get the length of the answer.
Missing: `C117_violated_reset`, `C117_violated_opening`. -/
theorem C117_fetch_partial (b b' : Broker) (hb : b.conn ≠ none) (r : Req) (hr : ∀ v c, ∃ p, r.encode v c = .ok p) (e : Err)
    (h : requestFetchStreamingly r b = (.err e, b')) (cs : List Call) :
    b'.conn = none ∧ ∀ id, id < b'.dialed → sendsOn (runCalls cs b').2.log id = sendsOn b'.log id := by
  have hn : b'.conn = none := by
    unfold requestFetchStreamingly at h
    change B.bind _ _ _ = _ at h
    unfold B.bind ensureOpen ensureOpenWith at h
    rcases hc : b.conn with _ | c
    · exact absurd hc hb
    · simp only [hc] at h
      unfold locked at h
      split at h
      · cases h
      · obtain ⟨p, hp⟩ := hr (getHighestAvailableAPIVersion b.apiVersions API_FetchRequest) (b.correlationID + 1)
        have hbody : (do
            let corr ← nextCorrelationID
            let version ← negotiated API_FetchRequest
            let payload ← B.lift (r.encode version corr)
            requestStreamingly payload : B UInt32) { b with mux := true } =
            requestStreamingly p { b with mux := true, correlationID := b.correlationID + 1 } := by
          simp only [bind, B.bind, nextCorrelationID, negotiated, B.lift, hp]
        rw [hbody] at h
        rcases hs : requestStreamingly p { b with mux := true, correlationID := b.correlationID + 1 } with ⟨x, b1⟩
        rw [hs] at h
        cases x with
        | err e1 =>
          simp only [Prod.mk.injEq, Ret.err.injEq] at h
          obtain ⟨rfl, rfl⟩ := h
          show b1.conn = none
          have key : ∀ b0 : Broker, ∀ e1 b1, awaitLength b0 = (.err e1, b1) → b1.conn = none := by
            intro b0 e1 b1 h
            unfold awaitLength at h
            rcases hc : b0.conn with _ | c
            · rw [hc] at h; cases h
            · rw [hc] at h
              simp only at h
              rcases hl : readLength c.reads with ⟨_ | _ | _, evs⟩
              · rw [hl] at h; cases h
              · rw [hl] at h; cases h; rfl
              · rw [hl] at h; cases h
          unfold requestStreamingly at hs
          split at hs
          · cases hs
          · exact key _ _ _ hs
        | ok a => cases h
        | panic => cases h
        | hang => cases h
  refine ⟨hn, (leaves_runCalls b'.dialed cs b' ⟨fun c hc => ?_, Nat.le_refl _⟩).2⟩
  rw [hn] at hc
  cases hc

example : (requestFetchStreamingly hbReq (newBroker noSasl [reading [.data (verAnswer 1), .fail (.other "connection reset by peer")]]).2).1 =
    .err (.other "connection reset by peer") := by decide +kernel

/-- C117 does not hold when the connection is reset: the second request is sent on the connection (number 0) whose
reset the first has met, and fails too, though a new connection could be opened. -/
theorem C117_violated_reset :
    let b := (newBroker noSasl [reading [.data (verAnswer 1), .fail (.other "connection reset by peer"), .fail .eof],
      reading [.data (verAnswer 4), .data (hbAnswer 5 0)]]).2
    let x := runCalls [.get hbReq, .get hbReq] b
    x.1 = [.err (.wrapped (.other "connection reset by peer")), .err (.wrapped .eof)] ∧ (sendsOn x.2.log 0).length = 3 := by decide +kernel

/-- C117 does not hold for failures while the connection is opened: the second connection is closed by the broker before it
has told its versions, and yet the next request is sent on it. -/
theorem C117_violated_opening :
    let b := (newBroker noSasl [reading [.data (verAnswer 1), .fail .eof], reading [.fail .eof, .fail .eof], reading [.data (verAnswer 4)]]).2
    let x := runCalls [.get hbReq, .get hbReq, .get hbReq] b
    x.1 = [.err (.wrapped .eof), .err (.wrapped (.wrapped .eof)), .err (.wrapped .eof)] ∧ (sendsOn x.2.log 1).length = 2 := by decide +kernel

/-! ## C118: the version used is the one negotiated on the connection -/

/-- What the broker says about its versions on a connection when it is asked first. -/
structure Greets (s : Script) (g : APIVersionsResponse) : Prop where
  write : s.writes 0 = none
  answer : ∀ v, ∃ evs, readAndParse API_ApiVersions v s.reads = (.ok (.apiVersions g), evs)
  noError : g.errorCode = 0

/-- The versions a broker object has are those told on its connection. -/
structure Current (greeting : Nat → APIVersionsResponse) (b : Broker) : Prop where
  versions : ∀ c, b.conn = some c → b.apiVersions = (greeting c.id).apiVersions
  dials : ∀ j s, b.dials[j]? = some (.ok s) → Greets s (greeting (b.dialed + j))

theorem Current.stay {greeting : Nat → APIVersionsResponse} {b b' : Broker} (h : Current greeting b) (hs : Stay b b') : Current greeting b' := by
  refine ⟨fun c' hc' => ?_, fun j s hj => ?_⟩
  · obtain ⟨c, hc, e⟩ := hs.conn c' hc'
    rw [hs.versions, ← e]
    exact h.versions c hc
  · rw [hs.dials] at hj
    rw [hs.dialed]
    exact h.dials j s hj

/-- the request for the versions is always laid out, and long enough to be logged -/
theorem apiVersions_encodes (v : UInt16) (c : UInt32) : ∃ p, apiVersionsReq.encode v c = .ok p ∧ ¬ p.length < 12 := by
  have h : apiVersionsReq.encode v c = .ok (Kafka.request .apiVersions v.toNat c.toNat (some initClient) []) :=
    encodeSized_ok .apiVersions rfl Writes.nop rfl
  refine ⟨_, h, ?_⟩
  simp [Kafka.request, Kafka.frame, Kafka.requestHeader, Kafka.int32, Kafka.int16, Kafka.be]
  omega

theorem current_afterAuth {greeting : Nat → APIVersionsResponse} {b : Broker} (h : Current greeting b) (sasl : SaslConfig) :
    Current greeting (if sasl.mechanism ≠ [] then sendSaslAuthenticate sasl b else (.ok (), b)).2 := by
  split
  · exact h.stay (stays_sasl _ b)
  · exact h

theorem current_createConnAndAuth {greeting : Nat → APIVersionsResponse} {b : Broker} (h : Current greeting b) (hc : b.conn = none) :
    Current greeting (createConnAndAuth b).2 := by
  unfold createConnAndAuth createConn
  simp only [bind, B.bind, dial]
  rcases hd : b.dials with _ | ⟨e | s, ds⟩
  · simp only
    exact ⟨by simp [hc], fun j s hj => by simp [hd] at hj⟩
  · simp only
    refine ⟨by simp [hc], fun j s hj => ?_⟩
    have := h.dials (j + 1) s (by rw [hd]; exact hj)
    rwa [Nat.add_assoc, Nat.add_comm 1 j]
  · simp only
    have hg := h.dials 0 s (by rw [hd]; rfl)
    rw [Nat.add_zero] at hg
    obtain ⟨p, hp, hlen⟩ := apiVersions_encodes (getHighestAvailableAPIVersion b.apiVersions API_ApiVersions) (b.correlationID + 1)
    obtain ⟨evs, hans⟩ := hg.answer (getHighestAvailableAPIVersion b.apiVersions API_ApiVersions)
    have hapi : apiVersionsReq.api = API_ApiVersions := rfl
    have herr : (Response.apiVersions (greeting b.dialed)).error = .ok none := by
      simp [Response.error, APIVersionsResponse.error, kafkaErr, hg.noError]
    simp only [B.wrap, requestAPIVersions, request, bind, B.bind, nextCorrelationID, negotiated, B.lift, hapi, hp, send, if_neg hlen,
      hg.write, pure, B.pure, readParse, hans, checkError, herr, asAPIVersions]
    refine current_afterAuth ⟨fun c hc => by cases hc; rfl, fun j s hj => ?_⟩ _
    have := h.dials (j + 1) s (by rw [hd]; exact hj)
    rw [Nat.add_comm j 1, ← Nat.add_assoc] at this
    exact this

theorem current_ensureOpen {greeting : Nat → APIVersionsResponse} {b : Broker} (h : Current greeting b) : Current greeting (ensureOpen b).2 := by
  unfold ensureOpen ensureOpenWith
  cases hc : b.conn with
  | some c => exact h
  | none => exact current_createConnAndAuth h hc

/-- Code under which versions stay those of the connection. -/
def KeepsCurrent (greeting : Nat → APIVersionsResponse) {α : Type} (m : B α) : Prop := ∀ b, Current greeting b → Current greeting (m b).2

theorem KeepsCurrent.bind {greeting : Nat → APIVersionsResponse} {α β : Type} {m : B α} {f : α → B β} (hm : KeepsCurrent greeting m)
    (hf : ∀ a, KeepsCurrent greeting (f a)) : KeepsCurrent greeting (m >>= f) := by
  intro b hb
  have h1 := hm b hb
  change Current greeting (B.bind m f b).2
  unfold B.bind
  rcases hmb : m b with ⟨x, b'⟩
  rw [hmb] at h1
  cases x with
  | ok a => exact hf a b' h1
  | err e => exact h1
  | panic => exact h1
  | hang => exact h1

theorem Stays.keepsCurrent {greeting : Nat → APIVersionsResponse} {α : Type} {m : B α} (h : Stays m) : KeepsCurrent greeting m :=
  fun b hb => hb.stay (h b)

theorem KeepsCurrent.locked {greeting : Nat → APIVersionsResponse} {α : Type} {m : B α} (h : KeepsCurrent greeting m) :
    KeepsCurrent greeting (locked m) := by
  intro b hb
  have h1 := h { b with mux := true } ⟨hb.versions, hb.dials⟩
  unfold Healer.locked
  split
  · exact hb
  · rcases hmb : m { b with mux := true } with ⟨x, b'⟩
    rw [hmb] at h1
    cases x <;> exact ⟨h1.versions, h1.dials⟩

theorem current_runCalls {greeting : Nat → APIVersionsResponse} (cs : List Call) : ∀ b, Current greeting b → Current greeting (runCalls cs b).2 := by
  induction cs with
  | nil => exact fun b hb => hb
  | cons c cs ih =>
    intro b hb
    have hc : KeepsCurrent greeting c.run := by
      cases c with
      | get r =>
        exact KeepsCurrent.bind (KeepsCurrent.locked (KeepsCurrent.bind (fun b hb => current_ensureOpen hb) fun _ => (stays_exchange r).keepsCurrent))
          fun _ => (Stays.pure _).keepsCurrent
      | fetch r =>
        exact KeepsCurrent.bind (KeepsCurrent.bind (fun b hb => current_ensureOpen hb) fun _ => (stays_fetchBody r).locked.keepsCurrent)
          fun _ => (Stays.pure _).keepsCurrent
      | close => exact stays_close.keepsCurrent.bind fun _ => (Stays.pure _).keepsCurrent
    have h1 := hc b hb
    unfold runCalls
    rcases hx : c.run b with ⟨x, b'⟩
    rw [hx] at h1
    cases x with
    | panic => exact h1
    | hang => exact h1
    | ok a => exact ih b' h1
    | err e => exact ih b' h1

/-- what a successful `exchange` sent -/
theorem exchange_sent {r : Req} {b b' : Broker} {x : Response} (h : exchange r b = (.ok x, b')) :
    ∃ c p evs, b.conn = some c ∧ r.encode (getHighestAvailableAPIVersion b.apiVersions r.api) (b.correlationID + 1) = .ok p ∧
      readAndParse r.api (getHighestAvailableAPIVersion b.apiVersions r.api) c.reads = (.ok x, evs) ∧ b'.log = b.log ++ [.send c.id p] := by
  have hx : exchangeBody r b = (.ok x, b') := by
    rw [exchange_eq] at h
    rcases hx : exchangeBody r b with ⟨x, b''⟩
    rw [hx] at h
    cases x with
    | err e => simp only at h; split at h <;> cases h
    | ok a => exact h
    | panic => exact h
    | hang => exact h
  obtain ⟨v, b1, h1, hx⟩ := B.bind_ok hx
  obtain ⟨y, b2, h2, hx⟩ := B.bind_ok hx
  obtain ⟨u, b3, h3, hx⟩ := B.bind_ok hx
  cases hx
  have hv : v = getHighestAvailableAPIVersion b.apiVersions r.api := by
    simp only [request, bind, B.bind, nextCorrelationID, negotiated, B.lift, B.wrap, pure, B.pure] at h1
    rcases he : r.encode (getHighestAvailableAPIVersion b.apiVersions r.api) (b.correlationID + 1) with p | e | _
    · rw [he] at h1
      simp only at h1
      rcases hs : send p { b with correlationID := b.correlationID + 1 } with ⟨_ | _ | _ | _, b9⟩ <;> rw [hs] at h1 <;> simp only at h1 <;> cases h1
      rfl
    · rw [he] at h1; cases h1
    · rw [he] at h1; cases h1
  obtain ⟨c, p, hc, he, rfl⟩ := request_ok h1
  obtain ⟨rfl, -⟩ := checkError_ok h3
  have hr : ∃ evs, readAndParse r.api v c.reads = (.ok x, evs) ∧ b'.log = b.log ++ [.send c.id p] := by
    unfold readParse at h2
    simp only at h2
    rcases hr : readAndParse r.api v c.reads with ⟨_ | _ | _, evs⟩
    · rw [hr] at h2; cases h2; exact ⟨evs, rfl, rfl⟩
    · rw [hr] at h2; cases h2
    · rw [hr] at h2; cases h2
  obtain ⟨evs, hr, hl⟩ := hr
  subst hv
  exact ⟨c, p, evs, hc, he, hr, hl⟩

/-- C118: let the broker tell its versions without error whenever a connection is opened.  Then after any history, a request that
succeeds was laid out for, and its answer decoded by, the version chosen from those told on the very connection it was
sent on; if there is a version known to both sides, this is the highest such version.
Missing for the full statement: connections on which the versions could not be got (`C118_violated`). -/
theorem C118_negotiated_partial (greeting : Nat → APIVersionsResponse) (sasl : SaslConfig) (dials : List (Except Err Script))
    (hg : ∀ j s, dials[j]? = some (.ok s) → Greets s (greeting j)) (cs : List Call) (r : Req) (resp : Response) (b' : Broker)
    (h : requestAndGet r (runCalls cs (newBroker sasl dials).2).2 = (.ok resp, b')) :
    ∃ id pre payload corr version evs evs', b'.log = pre ++ [.send id payload] ∧ r.encode version corr = .ok payload ∧
      readAndParse r.api version evs = (.ok resp, evs') ∧
      ((∃ v ∈ clientVersions r.api, BrokerSupports (greeting id).apiVersions r.api v) →
        version ∈ clientVersions r.api ∧ BrokerSupports (greeting id).apiVersions r.api version ∧
        ∀ u ∈ clientVersions r.api, BrokerSupports (greeting id).apiVersions r.api u → u ≤ version) := by
  have h0 : Current greeting (newBroker sasl dials).2 :=
    current_createConnAndAuth ⟨(by intro c hc; cases hc), fun j s hj => by simpa using hg j s hj⟩ rfl
  have h1 := current_runCalls cs _ h0
  generalize (runCalls cs (newBroker sasl dials).2).2 = b at h h1
  obtain ⟨b2, h2, rfl⟩ := locked_ok h
  obtain ⟨u, b3, h3, hx⟩ := B.bind_ok h2
  have h4 : Current greeting b3 := by
    have := current_ensureOpen (b := { b with mux := true }) ⟨h1.versions, h1.dials⟩
    unfold ensureOpen at this
    rw [h3] at this
    exact this
  obtain ⟨c, p, evs, hc, he, hr, hl⟩ := exchange_sent hx
  refine ⟨c.id, b3.log, p, _, _, c.reads, evs, hl, he, hr, ?_⟩
  rintro ⟨v, hv, hs⟩
  rw [← h4.versions c hc] at hs ⊢
  exact C27_negotiation _ _ v hv hs

/-- an ApiVersions answer: heartbeat 0 to 0, metadata 0 to 7 -/
def verAnswer2 (corr : UInt8) : Bytes := [0, 0, 0, 22, 0, 0, 0, corr, 0, 0, 0, 0, 0, 2, 0, 12, 0, 0, 0, 0, 0, 3, 0, 0, 0, 7]

example : Greets ⟨[.data (verAnswer2 1)], fun _ => none⟩ ⟨1, 0, [⟨12, 0, 0⟩, ⟨3, 0, 7⟩]⟩ := by
  refine ⟨rfl, fun v => ⟨[], ?_⟩, rfl⟩
  have : ∀ d, parse API_ApiVersions v d = parse API_ApiVersions 0 d := fun d => rfl
  unfold readAndParse
  simp only [this]
  decide +kernel

/-- the metadata request for all topics -/
def mdReq : Req := ⟨3, fun v c => MetadataRequest.encode (reqHeader 3 v c (some [99])) v { topics := none, allowAutoTopicCreation := false }⟩

/-- C118 does not hold when the versions could not be got on a new connection: the broker has been replaced by one which
knows version 1 at most, as it would say on the second connection; asking it runs into a timeout; the next request is sent
on that connection in version 7. -/
theorem C118_violated :
    let b := (newBroker noSasl [reading [.data (verAnswer2 1), .fail .eof], reading [.fail .timeout]]).2
    let x := runCalls [.get mdReq, .get mdReq, .get mdReq] b
    (sendsOn x.2.log 1).map (fun p => (p.drop 4).take 4) = [[0, 18, 0, 0], [0, 3, 0, 7]] := by decide +kernel

end Healer
