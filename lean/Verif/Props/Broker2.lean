import Verif.Props.Broker
import Verif.Model.Request2

/-!
# C28-C32, C78: one broker, continued: authentication, deadlock, and what goes wrong
-/

namespace Healer

/-! ## Concrete brokers and answers -/

/-- An API-versions answer: no error, Heartbeat (12) at version 0 only. -/
def verAnswer (corr : UInt8) : Bytes := [0, 0, 0, 16, 0, 0, 0, corr, 0, 0, 0, 0, 0, 1, 0, 12, 0, 0, 0, 0]

/-- A heartbeat answer. -/
def hbAnswer (corr code : UInt8) : Bytes := [0, 0, 0, 6, 0, 0, 0, corr, 0, code]

/-- A SASL handshake answer without mechanisms. -/
def shAnswer (corr : UInt8) : Bytes := [0, 0, 0, 10, 0, 0, 0, corr, 0, 0, 0, 0, 0, 0]

/-- A SASL authenticate answer. -/
def saAnswer (corr code : UInt8) : Bytes := [0, 0, 0, 12, 0, 0, 0, corr, 0, code, 255, 255, 0, 0, 0, 0]

/-- A heartbeat request: client "c", group "g", generation 1, member "m". -/
def hbReq : Req :=
  ⟨API_Heartbeat, fun v c => HeartbeatRequest.encode (reqHeader API_Heartbeat v c (some [99])) ⟨[103], 1, [109]⟩⟩

def noSasl : SaslConfig := ⟨[], [], []⟩

/-- mechanism "plain", user "u", password "p" -/
def withSasl : SaslConfig := ⟨[112, 108, 97, 105, 110], [117], [112]⟩

/-- A connection whose writes succeed. -/
def reading (evs : List Ev) : Except Err Script := .ok ⟨evs, fun _ => none⟩

/-- The API keys of the requests sent on a connection. -/
def sentApis (log : List Act) (id : Nat) : List Bytes := log.filterMap fun
  | .send i p => if i = id then some ((p.drop 4).take 2) else none
  | _ => none

/-- C29 fails when an answer comes late: the first heartbeat runs into the read timeout; `os.IsTimeout` does not
recognise the wrapped error, the connection stays open, and the second heartbeat gets the answer to the first
(correlation id 2) although its own (correlation id 3, error 27 = rebalance in progress) follows. -/
theorem C29_violated_timeout :
    (runCalls [.get hbReq, .get hbReq] (newBroker noSasl [reading [.data (verAnswer 1), .fail .timeout,
      .data (hbAnswer 2 0), .data (hbAnswer 3 27)]]).2).1 =
      [.err (.wrapped .timeout), .ok (some (.heartbeat ⟨2, 0⟩))] := by decide +kernel

/-- A history for `C30_consecutive`, `C30_distinct` and `C29_own_partial`: two requests, the connection breaks, a
third fails, a fourth reconnects.  The answers arrive in pieces. -/
def goodDials : List (Except Err Script) :=
  [reading [.data ((verAnswer 1).take 7), .data ((verAnswer 1).drop 7 ++ hbAnswer 2 0 ++ [0, 0]), .data ((hbAnswer 3 27).drop 2), .fail .eof],
   reading [.data (verAnswer 5 ++ (hbAnswer 6 0).take 5), .data ((hbAnswer 6 0).drop 5)]]

example : (runCalls [.get hbReq, .get hbReq, .get hbReq, .get hbReq] (newBroker noSasl goodDials).2).1 =
    [.ok (some (.heartbeat ⟨2, 0⟩)), .err (.wrapped (.kafka 27)), .err (.wrapped .eof), .ok (some (.heartbeat ⟨6, 0⟩))] := by
  decide +kernel

example : (attempts (runCalls [.get hbReq, .get hbReq, .get hbReq, .get hbReq] (newBroker noSasl goodDials).2).2.log).map
    corrField = [[0, 0, 0, 1], [0, 0, 0, 2], [0, 0, 0, 3], [0, 0, 0, 4], [0, 0, 0, 5], [0, 0, 0, 6]] := by decide +kernel

example : hbReq.Lawful :=
  lawful_of (api := .heartbeat) (cid := some [99]) (body := fun _ => Kafka.heartbeatRequest [103] 1 [109]) fun v c =>
    encodeSized_ok .heartbeat rfl (Writes.cast (Writes.all_cons (Writes.str16 _) (Writes.all_cons (Writes.i32 _)
      (Writes.all_cons (Writes.str16 _) Writes.all_nil))) rfl) rfl

/-- The answers of the broker to that history, for the hypotheses of `C29_own_partial`. -/
def goodAnswers : Nat → List Bytes
  | 0 => [(verAnswer 1).drop 4, (hbAnswer 2 0).drop 4, (hbAnswer 3 27).drop 4]
  | 1 => [(verAnswer 5).drop 4, (hbAnswer 6 0).drop 4]
  | _ => []

example : ∀ i, ∀ a ∈ goodAnswers i, AnswerOk a := by
  intro i a ha
  unfold goodAnswers at ha
  split at ha <;> simp only [List.mem_cons, List.not_mem_nil, or_false] at ha
  · rcases ha with rfl | rfl | rfl <;> exact ⟨by decide, by decide⟩
  · rcases ha with rfl | rfl <;> exact ⟨by decide, by decide⟩

example : ∀ j s, goodDials[j]? = some (.ok s) → Delivers s.reads (goodAnswers j) := by
  intro j s h
  match j with
  | 0 =>
    cases h
    exact ⟨[(verAnswer 1).take 7, (verAnswer 1).drop 7 ++ hbAnswer 2 0 ++ [0, 0], (hbAnswer 3 27).drop 2], [.fail .eof], [],
      rfl, by simp, by decide +kernel⟩
  | 1 =>
    cases h
    exact ⟨[verAnswer 5 ++ (hbAnswer 6 0).take 5, (hbAnswer 6 0).drop 5], [], [], rfl, by simp, by decide +kernel⟩
  | j + 2 => cases h

/-- C28 fails for fetches: the length prefix is taken from a single `Read`; when it arrives in two pieces the
request fails, when it arrives in one it succeeds. -/
theorem C28_violated_fetch :
    (requestFetchStreamingly hbReq (newBroker noSasl [reading [.data (verAnswer 1), .data [0, 0, 0], .data [6, 0, 0, 0, 2, 0, 0]]]).2).1 =
      .err (.other "short read") ∧
    (requestFetchStreamingly hbReq (newBroker noSasl [reading [.data (verAnswer 1), .data [0, 0, 0, 6, 0, 0, 0, 2, 0, 0]]]).2).1 =
      .ok 6 := by decide +kernel

/-! ## C31 -/

/-- What a successful `request` did. -/
theorem request_ok {r : Req} {b b' : Broker} {v : UInt16} (h : request r b = (.ok v, b')) :
    ∃ c p, b.conn = some c ∧ r.encode v (b.correlationID + 1) = .ok p ∧
      b' = { b with correlationID := b.correlationID + 1, conn := some { c with written := c.written + 1 }
                    log := b.log ++ [.send c.id p] } := by
  simp only [request, bind, B.bind, nextCorrelationID, negotiated, B.lift, B.wrap, send, pure, B.pure] at h
  generalize getHighestAvailableAPIVersion b.apiVersions r.api = w at h
  cases he : r.encode w (b.correlationID + 1) with
  | err e => rw [he] at h; cases h
  | panic => rw [he] at h; cases h
  | ok p =>
    rw [he] at h
    cases hb : b.conn with
    | none => rw [hb] at h; cases h
    | some c =>
      rw [hb] at h
      simp only at h
      by_cases hp : p.length < 12
      · simp only [if_pos hp] at h; cases h
      · simp only [if_neg hp] at h
        cases hw : c.writes c.written with
        | some e => rw [hw] at h; cases h
        | none =>
          rw [hw] at h
          simp only [Prod.mk.injEq, Ret.ok.injEq] at h
          obtain ⟨rfl, rfl⟩ := h
          exact ⟨c, p, rfl, he, rfl⟩

theorem readParse_ok {api v : UInt16} {b b' : Broker} {x : Response} (h : readParse api v b = (.ok x, b')) :
    ∃ c evs, b.conn = some c ∧ b' = { b with conn := some { c with reads := evs } } := by
  unfold readParse at h
  cases hb : b.conn with
  | none => rw [hb] at h; cases h
  | some c =>
    rw [hb] at h
    simp only at h
    rcases hr : readAndParse api v c.reads with ⟨_ | _ | _, evs⟩
    · rw [hr] at h
      cases h
      exact ⟨c, evs, rfl, rfl⟩
    · rw [hr] at h; cases h
    · rw [hr] at h; cases h

theorem checkError_ok {x : Response} {b b' : Broker} (h : checkError x b = (.ok (), b')) :
    b' = b ∧ x.error = .ok none := by
  unfold checkError at h
  rcases hx : x.error with (_ | _) | _ | _ <;> rw [hx] at h <;> cases h
  exact ⟨rfl, rfl⟩

/-- What a successful exchange did: one request on the connection, one answer without error. -/
theorem exchange_ok {r : Req} {b b' : Broker} {x : Response} (h : exchange r b = (.ok x, b')) :
    ∃ c p v evs, b.conn = some c ∧ r.encode v (b.correlationID + 1) = .ok p ∧ x.error = .ok none ∧
      b' = { b with correlationID := b.correlationID + 1
                    conn := some { c with written := c.written + 1, reads := evs }
                    log := b.log ++ [.send c.id p] } := by
  have hx : exchangeBody r b = (.ok x, b') := by
    rw [exchange_eq] at h
    rcases hx : exchangeBody r b with ⟨x, b''⟩
    rw [hx] at h
    cases x with
    | err e => simp only at h; split at h <;> cases h
    | ok a => exact h
    | panic => exact h
    | hang => exact h
  obtain ⟨v, b1, h1, hx⟩ := B.bind_ok hx
  obtain ⟨y, b2, h2, hx⟩ := B.bind_ok hx
  obtain ⟨u, b3, h3, hx⟩ := B.bind_ok hx
  cases hx
  obtain ⟨c, p, hc, he, rfl⟩ := request_ok h1
  obtain ⟨c', evs, hc', rfl⟩ := readParse_ok h2
  cases hc'
  obtain ⟨rfl, hxe⟩ := checkError_ok h3
  exact ⟨c, p, v, evs, hc, he, hxe, rfl⟩

theorem requestAndGetInner_ok {r : Req} {b b' : Broker} {x : Response} (h : requestAndGetInner r b = (.ok x, b')) :
    ∃ c p v evs, b.conn = some c ∧ r.encode v (b.correlationID + 1) = .ok p ∧ x.error = .ok none ∧
      b' = { b with correlationID := b.correlationID + 1, mux := false
                    conn := some { c with written := c.written + 1, reads := evs }
                    log := b.log ++ [.send c.id p] } := by
  obtain ⟨b2, h1, rfl⟩ := locked_ok h
  obtain ⟨u, b1, he, hx⟩ := B.bind_ok h1
  unfold ensureOpenWith at he
  rcases hc : b.conn with _ | c
  · simp only [hc] at he; cases he
  · simp only [hc] at he
    cases he
    obtain ⟨c', p, v, evs, hc', he, hxe, rfl⟩ := exchange_ok hx
    cases hc'
    exact ⟨c, p, v, evs, rfl, he, hxe, rfl⟩

/-- The connection is open when `sendSaslAuthenticate` makes its calls to `RequestAndGet`: after the API
versions were obtained … -/
theorem apiVersions_open {b b' : Broker} {vs : List APIVersion}
    (h : (createConn >>= fun _ => B.wrap requestAPIVersions) b = (.ok vs, b')) :
    ∃ c p v, b'.conn = some c ∧ c.id = b.dialed ∧ apiVersionsReq.encode v (b.correlationID + 1) = .ok p ∧
      b'.log = b.log ++ [.dial b.dialed, .send b.dialed p] ∧ b'.correlationID = b.correlationID + 1 ∧
      b'.mux = b.mux ∧ b'.sasl = b.sasl := by
  obtain ⟨_, b1, h1, h2⟩ := B.bind_ok h
  obtain ⟨c, b0, h0, h1⟩ := B.bind_ok h1
  cases h1
  have h3 : requestAPIVersions { b0 with conn := some c } = (.ok vs, b') := by
    unfold B.wrap at h2
    rcases hq : requestAPIVersions { b0 with conn := some c } with ⟨x, b''⟩
    rw [hq] at h2
    cases x with
    | err e => cases h2
    | ok a => exact h2
    | panic => exact h2
    | hang => exact h2
  obtain ⟨v, b2, h4, h3⟩ := B.bind_ok h3
  obtain ⟨y, b3, h5, h3⟩ := B.bind_ok h3
  obtain ⟨u, b4, h6, h3⟩ := B.bind_ok h3
  have h7 : b' = b4 := by
    unfold asAPIVersions at h3
    split at h3 <;> cases h3
    rfl
  obtain ⟨c', p, hc', he, rfl⟩ := request_ok h4
  cases hc'
  obtain ⟨c'', evs, hc'', rfl⟩ := readParse_ok h5
  cases hc''
  obtain ⟨rfl, -⟩ := checkError_ok h6
  unfold dial at h0
  rcases hd : b.dials with _ | ⟨_ | s, ds⟩
  · rw [hd] at h0; cases h0
  · rw [hd] at h0; cases h0
  · rw [hd] at h0
    simp only [Prod.mk.injEq, Ret.ok.injEq] at h0
    obtain ⟨rfl, rfl⟩ := h0
    subst h7
    exact ⟨_, p, v, rfl, rfl, he, by simp, rfl, rfl, rfl⟩

/-- … and after a successful handshake. -/
theorem saslConn_open {s : SaslConfig} {b b' : Broker} {x : Response}
    (h : requestAndGetInner (saslHandshakeReq s.mechanism) b = (.ok x, b')) : b'.conn.isSome = true := by
  obtain ⟨c, p, v, evs, -, -, -, rfl⟩ := requestAndGetInner_ok h
  rfl

/-- C31 (part): a broker object with authentication configured is handed out only after, on its first
connection, API versions, handshake and authentication were requested in this order, the last request carrying
the credentials, and the broker's answers to the latter two carried no error.  Missing: connections opened
later, for which the claim is false (`C31_violated_get`, `C31_violated_fetch`). -/
theorem C31_new_partial (answers : Nat → List Bytes) (ha : ∀ i, ∀ a ∈ answers i, AnswerOk a) (s : SaslConfig)
    (dials : List (Except Err Script)) (hd : ∀ j sc, dials[j]? = some (.ok sc) → Delivers sc.reads (answers j))
    (hs : s.mechanism ≠ []) (b : Broker) (h : newBroker s dials = (.ok (), b)) :
    ∃ p1 p2 p3 v1 v2 v3 r, b.log = [.dial 0, .send 0 p1, .send 0 p2, .send 0 p3] ∧
      apiVersionsReq.encode v1 1 = .ok p1 ∧ (saslHandshakeReq s.mechanism).encode v2 2 = .ok p2 ∧
      saslAuthenticateReq s.user s.password s.mechanism = some r ∧ r.encode v3 3 = .ok p3 ∧
      (∃ x, Own answers (saslHandshakeReq s.mechanism) (b.log.take 3) x ∧ x.error = .ok none) ∧
      (∃ x, Own answers r b.log x ∧ x.error = .ok none) := by
  have h0 := inOrder_start (answers := answers) s dials hd
  obtain ⟨u, b1, h1, h⟩ := B.bind_ok h
  obtain ⟨vs, b2, h2, h⟩ := B.bind_ok h
  have hv : KeepsOrder answers requestAPIVersions :=
    keepsOrder_talk ha apiVersionsReq fun x => (keepsOrder_checkError _ x).bind fun _ => keepsOrder_asAPIVersions _ x
  have hk := ((keepsOrder_createConn answers).bind fun _ => hv.wrap).keeps _ h0
  have hq : (createConn >>= fun _ => B.wrap requestAPIVersions) ⟨s, none, [], 0, false, dials, 0, []⟩ = (.ok vs, b2) := by
    change B.bind _ _ _ = _
    unfold B.bind
    rw [h1]
    exact h2
  rw [hq] at hk
  obtain ⟨c, p1, v1, hc, hid, he1, hlog, hcorr, hmux, hsasl⟩ := apiVersions_open hq
  have hb2 : b2.sasl = s := hsasl
  simp only at h
  rw [hb2, if_pos hs] at h
  obtain ⟨x, b3, h3, h⟩ := B.bind_ok h
  obtain ⟨y, b4, h4, h⟩ := B.bind_ok h
  cases h
  have hk2 : InOrder answers 0 { b2 with apiVersions := vs, sasl := s } := InOrder.same hk rfl rfl rfl rfl
  have hf : KeepsOrder answers (B.fail (.other "unreachable") : B Unit) := keepsOrder_pure _
  have hown := requestAndGetWith_own ha hf hk2 h3
  have hk3 := (keepsOrder_requestAndGetWith ha hf (saslHandshakeReq s.mechanism)).keeps _ hk2
  unfold requestAndGetInner at h3
  rw [h3] at hk3
  obtain ⟨c', p2, v2, evs, hc', he2, hx, rfl⟩ := requestAndGetInner_ok h3
  simp only [hc, Option.some.injEq] at hc'
  subst hc'
  rw [show b2.correlationID = 1 from hcorr] at he2
  cases ho : saslAuthenticateReq s.user s.password s.mechanism with
  | none =>
    rw [ho] at h4
    simp only [requestAndGetOpt] at h4
    obtain ⟨b5, h5, -⟩ := locked_ok h4
    obtain ⟨_, _, _, h5⟩ := B.bind_ok h5
    obtain ⟨_, _, _, h5⟩ := B.bind_ok h5
    cases h5
  | some r =>
    rw [ho] at h4
    have hown2 := requestAndGetWith_own ha hf hk3 h4
    obtain ⟨c', p3, v3, evs', hc', he3, hy, rfl⟩ := requestAndGetInner_ok h4
    simp only [Option.some.injEq] at hc'
    subst hc'
    have hc1 : b2.correlationID = 1 := hcorr
    simp only [hc1] at he3
    simp only [hlog, hid] at hown hown2 ⊢
    exact ⟨p1, p2, p3, v1, v2, v3, r, rfl, he1, he2, rfl, he3, ⟨x, hown, hx⟩, ⟨y, hown2, hy⟩⟩

/-- A broker with authentication, opened: the connection carries the answers expected in `C31_new_partial`. -/
example :
    let x := newBroker withSasl [reading [.data (verAnswer 1), .data (shAnswer 2), .data (saAnswer 3 0)]]
    x.1 = .ok () ∧ sentApis x.2.log 0 = [[0, 18], [0, 17], [0, 36]] := by decide +kernel

/-- Rejected credentials: no broker. -/
example : (newBroker withSasl [reading [.data (verAnswer 1), .data (shAnswer 2), .data (saAnswer 3 58)]]).1 =
    .err (.kafka 58) := by decide +kernel

/-- C31 fails on reconnection: the second connection breaks while API versions are read; it stays in use, and
the next request is sent on it although neither handshake (17) nor authentication (36) took place. -/
theorem C31_violated_get :
    let b := (newBroker withSasl [reading [.data (verAnswer 1), .data (shAnswer 2), .data (saAnswer 3 0), .fail .eof],
      reading [.fail .timeout, .data (hbAnswer 6 0)]]).2
    let x := runCalls [.get hbReq, .get hbReq, .get hbReq] b
    sentApis b.log 0 = [[0, 18], [0, 17], [0, 36]] ∧
      x.1 = [.err (.wrapped .eof), .err (.wrapped (.wrapped .timeout)), .ok (some (.heartbeat ⟨6, 0⟩))] ∧
      sentApis x.2.log 1 = [[0, 18], [0, 12]] := by decide +kernel

/-- C31 fails for fetches: on reconnection the broker rejects the credentials (58); the connection stays in use
and the next fetch is sent on it. -/
theorem C31_violated_fetch :
    let b := (newBroker withSasl [reading [.data (verAnswer 1), .data (shAnswer 2), .data (saAnswer 3 0)],
      reading [.data (verAnswer 4), .data (shAnswer 5), .data (saAnswer 6 58), .data [0, 0, 0, 6, 0, 0]]]).2
    let fetchReq : Req := ⟨1, fun v c => HeartbeatRequest.encode (reqHeader 1 v c (some [99])) ⟨[103], 1, [109]⟩⟩
    let x := runCalls [.close, .fetch fetchReq, .fetch fetchReq] b
    x.1 = [.ok none, .err (.kafka 58), .ok none] ∧
      sentApis x.2.log 1 = [[0, 18], [0, 17], [0, 36], [0, 1]] := by decide +kernel

/-! ## C32: the lock -/

/-- Code that does not block, and leaves lock and configuration as they were. -/
structure Quiet {α : Type} (m : B α) : Prop where
  step : ∀ b, (m b).1 ≠ .hang ∧ (m b).2.mux = b.mux ∧ (m b).2.sasl = b.sasl

/-- Code that does not block when started without the lock, and gives it back. -/
structure Frees {α : Type} (m : B α) : Prop where
  step : ∀ b, b.mux = false → (m b).1 ≠ .hang ∧ (m b).2.mux = false ∧ (m b).2.sasl = b.sasl

theorem Quiet.frees {α : Type} {m : B α} (h : Quiet m) : Frees m :=
  ⟨fun b hb => ⟨(h.step b).1, (h.step b).2.1.trans hb, (h.step b).2.2⟩⟩

theorem Quiet.bind {α β : Type} {m : B α} {f : α → B β} (hm : Quiet m) (hf : ∀ a, Quiet (f a)) : Quiet (m >>= f) := by
  refine ⟨fun b => ?_⟩
  have h1 := hm.step b
  change (B.bind m f b).1 ≠ _ ∧ (B.bind m f b).2.mux = _ ∧ (B.bind m f b).2.sasl = _
  unfold B.bind
  rcases hmb : m b with ⟨x, b'⟩
  rw [hmb] at h1
  cases x with
  | ok a =>
    have h2 := (hf a).step b'
    exact ⟨h2.1, h2.2.1.trans h1.2.1, h2.2.2.trans h1.2.2⟩
  | err e => exact ⟨by simp, h1.2⟩
  | panic => exact ⟨by simp, h1.2⟩
  | hang => exact absurd rfl h1.1

theorem Frees.bind {α β : Type} {m : B α} {f : α → B β} (hm : Frees m) (hf : ∀ a, Frees (f a)) : Frees (m >>= f) := by
  refine ⟨fun b hb => ?_⟩
  have h1 := hm.step b hb
  change (B.bind m f b).1 ≠ _ ∧ (B.bind m f b).2.mux = _ ∧ (B.bind m f b).2.sasl = _
  unfold B.bind
  rcases hmb : m b with ⟨x, b'⟩
  rw [hmb] at h1
  cases x with
  | ok a =>
    have h2 := (hf a).step b' h1.2.1
    exact ⟨h2.1, h2.2.1, h2.2.2.trans h1.2.2⟩
  | err e => exact ⟨by simp, h1.2⟩
  | panic => exact ⟨by simp, h1.2⟩
  | hang => exact absurd rfl h1.1

theorem quiet_pure {α : Type} (a : α) : Quiet (Pure.pure a : B α) := ⟨fun _ => ⟨by simp [Pure.pure, B.pure], rfl, rfl⟩⟩

theorem quiet_fail {α : Type} (e : Err) : Quiet (B.fail e : B α) := ⟨fun _ => ⟨by simp [B.fail], rfl, rfl⟩⟩

theorem Quiet.wrap {α : Type} {m : B α} (h : Quiet m) : Quiet (B.wrap m) := by
  refine ⟨fun b => ?_⟩
  have h1 := h.step b
  unfold B.wrap
  rcases hmb : m b with ⟨x, b'⟩
  rw [hmb] at h1
  cases x with
  | hang => exact absurd rfl h1.1
  | ok a => exact ⟨by simp, h1.2⟩
  | err e => exact ⟨by simp, h1.2⟩
  | panic => exact ⟨by simp, h1.2⟩

theorem quiet_lift {α : Type} (o : Out α) : Quiet (B.lift o) := by
  refine ⟨fun b => ?_⟩
  unfold B.lift
  cases o <;> exact ⟨by simp, rfl, rfl⟩

theorem quiet_close : Quiet closeBroker := by
  refine ⟨fun b => ?_⟩
  unfold closeBroker
  cases b.conn <;> exact ⟨by simp, rfl, rfl⟩

theorem quiet_createConn : Quiet createConn := by
  refine Quiet.bind ⟨fun b => ?_⟩ fun c => ⟨fun b => ⟨by simp, rfl, rfl⟩⟩
  unfold dial
  rcases b.dials with _ | ⟨_ | _, _⟩ <;> exact ⟨by simp, rfl, rfl⟩

theorem quiet_send (p : Bytes) : Quiet (send p) := by
  refine ⟨fun b => ?_⟩
  unfold send
  cases hc : b.conn with
  | none => exact ⟨by simp, rfl, rfl⟩
  | some c =>
    simp only
    split
    · exact ⟨by simp, rfl, rfl⟩
    · cases c.writes c.written <;> exact ⟨by simp, rfl, rfl⟩

theorem quiet_request (r : Req) : Quiet (request r) :=
  .bind ⟨fun _ => ⟨by simp [nextCorrelationID], rfl, rfl⟩⟩ fun _ => .bind ⟨fun _ => ⟨by simp [negotiated], rfl, rfl⟩⟩ fun _ =>
    (quiet_lift _).bind fun _ => (quiet_send _).wrap.bind fun _ => quiet_pure _

theorem quiet_readParse (api v : UInt16) : Quiet (readParse api v) := by
  refine ⟨fun b => ?_⟩
  unfold readParse
  cases hc : b.conn with
  | none => exact ⟨by simp, rfl, rfl⟩
  | some c =>
    simp only
    split <;> exact ⟨by simp, rfl, rfl⟩

theorem quiet_checkError (r : Response) : Quiet (checkError r) := by
  unfold checkError
  rcases r.error with (_ | _) | _ | _ <;> exact ⟨fun b => ⟨by simp [Pure.pure, B.pure, B.fail], rfl, rfl⟩⟩

theorem quiet_exchange (r : Req) : Quiet (exchange r) := by
  refine ⟨fun b => ?_⟩
  have hq : Quiet (exchangeBody r) := (quiet_request r).bind fun v => (quiet_readParse _ v).bind fun x =>
    (quiet_checkError x).bind fun _ => quiet_pure _
  have h := hq.step b
  rw [exchange_eq]
  rcases hx : exchangeBody r b with ⟨x, b'⟩
  rw [hx] at h
  cases x with
  | err e =>
    simp only
    split
    · have h2 := quiet_close.step b'
      exact ⟨by simp, h2.2.1.trans h.2.1, h2.2.2.trans h.2.2⟩
    · exact ⟨by simp, h.2⟩
  | ok a => exact ⟨by simp, h.2⟩
  | panic => exact ⟨by simp, h.2⟩
  | hang => exact absurd rfl h.1

theorem Quiet.locked {α : Type} {m : B α} (h : Quiet m) : Frees (locked m) := by
  refine ⟨fun b hb => ?_⟩
  have h1 := h.step { b with mux := true }
  unfold Healer.locked
  rw [if_neg (by rw [hb]; simp)]
  rcases hmb : m { b with mux := true } with ⟨x, b'⟩
  rw [hmb] at h1
  cases x with
  | hang => exact absurd rfl h1.1
  | ok a => exact ⟨by simp, rfl, h1.2.2⟩
  | err e => exact ⟨by simp, rfl, h1.2.2⟩
  | panic => exact ⟨by simp, rfl, h1.2.2⟩

theorem quiet_ensureOpenWith {m : B Unit} (h : Quiet m) : Quiet (ensureOpenWith m) := by
  refine ⟨fun b => ?_⟩
  unfold ensureOpenWith
  cases b.conn with
  | some c => exact ⟨by simp, rfl, rfl⟩
  | none => exact h.step b

theorem frees_sasl (s : SaslConfig) : Frees (sendSaslAuthenticate s) := by
  have h1 (r : Req) : Frees (requestAndGetInner r) :=
    ((quiet_ensureOpenWith (quiet_fail _)).bind fun _ => quiet_exchange r).locked
  refine (h1 _).bind fun _ => Frees.bind ?_ fun _ => (quiet_pure _).frees
  cases saslAuthenticateReq s.user s.password s.mechanism with
  | some r => exact h1 r
  | none =>
    exact ((quiet_ensureOpenWith (quiet_fail _)).bind fun _ =>
      Quiet.bind ⟨fun _ => ⟨by simp [nextCorrelationID], rfl, rfl⟩⟩ fun _ => ⟨fun _ => ⟨by simp, rfl, rfl⟩⟩).locked

theorem quiet_requestAPIVersions : Quiet requestAPIVersions :=
  (quiet_request _).bind fun v => (quiet_readParse _ v).bind fun x => (quiet_checkError x).bind fun _ => by
    unfold asAPIVersions
    split
    · exact quiet_pure _
    · exact ⟨fun _ => ⟨by simp, rfl, rfl⟩⟩

theorem frees_createConnAndAuth : Frees createConnAndAuth := by
  refine quiet_createConn.frees.bind fun _ => quiet_requestAPIVersions.wrap.frees.bind fun vs => ⟨fun b hb => ?_⟩
  simp only
  split
  · exact (frees_sasl b.sasl).step _ hb
  · exact ⟨by simp, hb, rfl⟩

/-- Without authentication, opening a connection does not touch the lock. -/
theorem quiet_createConnAndAuth (b : Broker) (hs : b.sasl.mechanism = []) :
    (createConnAndAuth b).1 ≠ .hang ∧ (createConnAndAuth b).2.mux = b.mux ∧ (createConnAndAuth b).2.sasl = b.sasl := by
  have hq := (quiet_createConn.bind fun _ => quiet_requestAPIVersions.wrap).step b
  have he : createConnAndAuth b = ((createConn >>= fun _ => B.wrap requestAPIVersions) >>= fun vs => (fun b =>
      let b := { b with apiVersions := vs }
      if b.sasl.mechanism ≠ [] then sendSaslAuthenticate b.sasl b else (.ok (), b) : B Unit)) b := by
    unfold createConnAndAuth
    change B.bind _ _ b = B.bind (B.bind _ _) _ b
    unfold B.bind
    rcases createConn b with ⟨x, b1⟩
    cases x <;> rfl
  rw [he]
  generalize (createConn >>= fun _ => B.wrap requestAPIVersions) = m at hq
  change (B.bind _ _ b).1 ≠ _ ∧ (B.bind _ _ b).2.mux = _ ∧ (B.bind _ _ b).2.sasl = _
  unfold B.bind
  rcases hmb : m b with ⟨x, b'⟩
  rw [hmb] at hq
  cases x with
  | ok vs =>
    have : b'.sasl = b.sasl := hq.2.2
    simp only
    rw [this, if_neg (by rw [hs]; simp)]
    exact ⟨by simp, hq.2.1, hq.2.2.symm ▸ rfl⟩
  | err e => exact ⟨by simp, hq.2⟩
  | panic => exact ⟨by simp, hq.2⟩
  | hang => exact absurd rfl hq.1

/-- A request made without the lock held returns and gives the lock back, if the connection is open or no
authentication is configured. -/
theorem requestAndGet_frees (r : Req) (b : Broker) (hb : b.mux = false)
    (h : b.conn.isSome = true ∨ b.sasl.mechanism = []) :
    (requestAndGet r b).1 ≠ .hang ∧ (requestAndGet r b).2.mux = false ∧ (requestAndGet r b).2.sasl = b.sasl := by
  unfold requestAndGet requestAndGetWith locked
  rw [if_neg (by rw [hb]; simp)]
  have hq : (ensureOpenWith createConnAndAuth { b with mux := true }).1 ≠ .hang ∧
      (ensureOpenWith createConnAndAuth { b with mux := true }).2.sasl = b.sasl := by
    unfold ensureOpenWith
    rcases hc : b.conn with _ | c
    · rw [hc] at h
      have hs : b.sasl.mechanism = [] := by simpa using h
      have := quiet_createConnAndAuth { b with mux := true } hs
      simp only [hc] at this ⊢
      exact ⟨this.1, this.2.2⟩
    · exact ⟨by simp, rfl⟩
  have he : ∀ {α : Type} (m : B Unit) (n : B α), (do m; n) = B.bind m (fun _ => n) := fun _ _ => rfl
  rw [he]
  unfold B.bind
  rcases hm : ensureOpenWith createConnAndAuth { b with mux := true } with ⟨x, b1⟩
  rw [hm] at hq
  cases x with
  | ok u =>
    have h2 := (quiet_exchange r).step b1
    simp only
    rcases hx : exchange r b1 with ⟨y, b2⟩
    rw [hx] at h2
    cases y with
    | hang => exact absurd rfl h2.1
    | ok a => exact ⟨by simp, rfl, h2.2.2.trans hq.2⟩
    | err e => exact ⟨by simp, rfl, h2.2.2.trans hq.2⟩
    | panic => exact ⟨by simp, rfl, h2.2.2.trans hq.2⟩
  | err e => exact ⟨by simp, rfl, hq.2⟩
  | panic => exact ⟨by simp, rfl, hq.2⟩
  | hang => exact absurd rfl hq.1

theorem quiet_awaitLength : Quiet awaitLength := by
  refine ⟨fun b => ?_⟩
  unfold awaitLength
  cases hc : b.conn with
  | none => exact ⟨by simp, rfl, rfl⟩
  | some c =>
    simp only
    split
    · exact ⟨by simp, rfl, rfl⟩
    · exact ⟨by simp, rfl, rfl⟩
    · exact ⟨by simp, rfl, rfl⟩

theorem frees_fetch (r : Req) : Frees (requestFetchStreamingly r) := by
  have h1 : Frees ensureOpen := by
    refine ⟨fun b hb => ?_⟩
    unfold ensureOpen ensureOpenWith
    cases b.conn with
    | some c => exact ⟨by simp, hb, rfl⟩
    | none => exact frees_createConnAndAuth.step b hb
  refine h1.bind fun _ => Quiet.locked (.bind ⟨fun _ => ⟨by simp [nextCorrelationID], rfl, rfl⟩⟩ fun _ =>
    .bind ⟨fun _ => ⟨by simp [negotiated], rfl, rfl⟩⟩ fun _ => (quiet_lift _).bind fun p => ⟨fun b => ?_⟩)
  have h2 := (quiet_send p).step b
  unfold requestStreamingly
  rcases hs : send p b with ⟨x, b'⟩
  rw [hs] at h2
  have h3 := quiet_awaitLength.step b'
  cases x with
  | panic => exact ⟨by simp, h2.2⟩
  | ok a => exact ⟨h3.1, h3.2.1.trans h2.2.1, h3.2.2.trans h2.2.2⟩
  | err e => exact ⟨h3.1, h3.2.1.trans h2.2.1, h3.2.2.trans h2.2.2⟩
  | hang => exact absurd rfl h2.1

/-- C32 (part): without authentication no sequence of requests, fetches and closes ever blocks on the broker's
lock, whatever the network does.
Missing: reconnecting with authentication (`C32_violated_reconnect`). -/
theorem C32_noauth_partial (s : SaslConfig) (dials : List (Except Err Script)) (hs : s.mechanism = []) (cs : List Call) :
    (newBroker s dials).1 ≠ .hang ∧ Ret.hang ∉ (runCalls cs (newBroker s dials).2).1 := by
  have h0 : ∀ (cs : List Call) (b : Broker), b.mux = false → b.sasl.mechanism = [] → Ret.hang ∉ (runCalls cs b).1 := by
    intro cs
    induction cs with
    | nil => intro b _ _; simp [runCalls]
    | cons c cs ih =>
      intro b hb hm
      have h1 : (c.run b).1 ≠ .hang ∧ (c.run b).2.mux = false ∧ (c.run b).2.sasl = b.sasl := by
        cases c with
        | get r =>
          have := requestAndGet_frees r b hb (.inr hm)
          change (B.bind _ _ b).1 ≠ _ ∧ (B.bind _ _ b).2.mux = _ ∧ (B.bind _ _ b).2.sasl = _
          unfold B.bind
          rcases hx : requestAndGet r b with ⟨x, b'⟩
          rw [hx] at this
          cases x with
          | ok a => exact ⟨by simp [Pure.pure, B.pure], this.2⟩
          | err e => exact ⟨by simp, this.2⟩
          | panic => exact ⟨by simp, this.2⟩
          | hang => exact absurd rfl this.1
        | fetch r => exact ((frees_fetch r).bind fun _ => (quiet_pure _).frees).step b hb
        | close => exact (quiet_close.bind fun _ => quiet_pure _).frees.step b hb
      revert h1
      simp only [runCalls]
      rcases c.run b with ⟨x, b'⟩
      intro h1
      have h2 := ih b' h1.2.1 ((congrArg SaslConfig.mechanism h1.2.2).trans hm)
      cases x with
      | ok a => simpa using h2
      | err e => simpa using h2
      | panic => simp
      | hang => exact absurd rfl h1.1
  have h1 := frees_createConnAndAuth.step ⟨s, none, [], 0, false, dials, 0, []⟩ rfl
  exact ⟨h1.1, h0 cs _ h1.2.1 (by rw [show (newBroker s dials).2.sasl = s from h1.2.2]; exact hs)⟩

example : (runCalls [.get hbReq, .close, .get hbReq, .get hbReq] (newBroker noSasl goodDials).2).1 =
    [.ok (some (.heartbeat ⟨2, 0⟩)), .ok none, .ok (some (.heartbeat ⟨6, 0⟩)), .err (.wrapped .eof)] := by decide +kernel

/-- C32 (part): a request on a broker whose connection is open returns and releases the lock, also with
authentication; so do fetches in any case (they reconnect before taking the lock), and opening a broker.
Missing: reconnecting with authentication (`C32_violated_reconnect`). -/
theorem C32_open_partial (b : Broker) (hb : b.mux = false) (r : Req) :
    (b.conn.isSome = true → (requestAndGet r b).1 ≠ .hang ∧ (requestAndGet r b).2.mux = false) ∧
    (requestFetchStreamingly r b).1 ≠ .hang ∧ (requestFetchStreamingly r b).2.mux = false :=
  ⟨fun h => ⟨(requestAndGet_frees r b hb (.inl h)).1, (requestAndGet_frees r b hb (.inl h)).2.1⟩,
    ((frees_fetch r).step b hb).1, ((frees_fetch r).step b hb).2.1⟩

/-- C32 fails: with authentication configured, *every* request on a closed broker that reconnects and obtains the
API versions blocks for ever on the lock it holds itself, and so does every request after it. -/
theorem C32_violated_reconnect (b : Broker) (hb : b.mux = false) (hc : b.conn = none) (hs : b.sasl.mechanism ≠ [])
    (vs : List APIVersion) (b' : Broker)
    (h : (createConn >>= fun _ => B.wrap requestAPIVersions) { b with mux := true } = (.ok vs, b')) (r r' : Req) :
    (requestAndGet r b).1 = .hang ∧ (requestAndGet r' (requestAndGet r b).2).1 = .hang := by
  obtain ⟨-, -, -, -, -, -, -, -, hmux, hsasl⟩ := apiVersions_open h
  obtain ⟨u, b1, h1, h2⟩ := B.bind_ok h
  have hauth : createConnAndAuth { b with mux := true } = (.hang, { b' with apiVersions := vs }) := by
    unfold createConnAndAuth
    change B.bind _ _ _ = _
    unfold B.bind
    rw [h1]
    change B.bind _ _ _ = _
    unfold B.bind
    rw [h2]
    simp only
    have h3 : b'.sasl = b.sasl := hsasl
    have h4 : b'.mux = true := hmux
    rw [if_pos (by rw [h3]; exact hs)]
    unfold sendSaslAuthenticate
    change B.bind _ _ _ = _
    unfold B.bind requestAndGetInner requestAndGetWith locked
    simp only [h4, if_true]
  have he : requestAndGet r b = (.hang, { b' with apiVersions := vs }) := by
    unfold requestAndGet requestAndGetWith locked
    rw [if_neg (by rw [hb]; simp)]
    have he : ∀ {α : Type} (m : B Unit) (n : B α), (do m; n) = B.bind m (fun _ => n) := fun _ _ => rfl
    rw [he]
    unfold B.bind ensureOpenWith
    simp only [hc] at hauth ⊢
    rw [hauth]
  rw [he]
  refine ⟨rfl, ?_⟩
  unfold requestAndGet requestAndGetWith locked
  rw [if_pos (show b'.mux = true from hmux)]

/-- The case occurs: a broker with authentication is opened, works, loses its connection, and the next request
hangs. -/
example : (runCalls [.get hbReq, .get hbReq, .get hbReq] (newBroker withSasl [reading [.data (verAnswer 1),
      .data (shAnswer 2), .data (saAnswer 3 0), .data (hbAnswer 4 0), .fail .eof],
      reading [.data (verAnswer 6), .data (shAnswer 7), .data (saAnswer 8 0), .data (hbAnswer 9 0)]]).2).1 =
    [.ok (some (.heartbeat ⟨4, 0⟩)), .err (.wrapped .eof), .hang] := by decide +kernel

/-! ## C78 -/

/-- RFC 4616: message = [authzid] NUL authcid NUL passwd, here without authzid. -/
def Kafka.plainToken (user password : Bytes) : Bytes := 0 :: user ++ 0 :: password

/-- C78: the authentication request carries NUL user NUL password. -/
theorem C78_token (user password mechanism : Bytes) (r : Req) (h : saslAuthenticateReq user password mechanism = some r)
    (v : UInt16) (c : UInt32) :
    r.encode v c = .ok (Kafka.request .saslAuthenticate v.toNat c.toNat (some saslClient)
      (Kafka.saslAuthenticateRequest (Kafka.plainToken user password))) := by
  unfold saslAuthenticateReq at h
  split at h
  · cases h
    have : plainSasl user password = Kafka.plainToken user password := by simp [plainSasl, Kafka.plainToken]
    simp only [this]
    exact encodeSized_ok .saslAuthenticate rfl (Writes.bytes32 _) (by simp [Kafka.saslAuthenticateRequest])
  · cases h

example : ((saslAuthenticateReq [117] [112, 119] [80, 76, 65, 73, 78]).map fun r => r.encode 0 3) =
    some (.ok ([0, 0, 0, 43, 0, 36, 0, 0, 0, 0, 0, 3, 0, 24] ++ saslClient ++ [0, 0, 0, 5, 0, 117, 0, 112, 119])) := by
  decide +kernel

/-- C78: different credentials give different tokens, when the user names hold no NUL. -/
theorem C78_injective (u u' p p' : Bytes) (hu : 0 ∉ u) (hu' : 0 ∉ u') (h : plainSasl u p = plainSasl u' p') :
    u = u' ∧ p = p' := by
  simp only [plainSasl, List.append_assoc, List.cons_append, List.nil_append, List.cons.injEq, true_and] at h
  induction u generalizing u' with
  | nil =>
    cases u' with
    | nil => simpa using h
    | cons x u' =>
      simp only [List.nil_append, List.cons_append, List.cons.injEq] at h
      exact absurd (h.1 ▸ List.mem_cons_self) hu'
  | cons x u ih =>
    cases u' with
    | nil =>
      simp only [List.nil_append, List.cons_append, List.cons.injEq] at h
      exact absurd (h.1 ▸ List.mem_cons_self) hu
    | cons y u' =>
      simp only [List.cons_append, List.cons.injEq] at h
      have := ih u' (fun hx => hu (.tail _ hx)) (fun hx => hu' (.tail _ hx)) h.2
      exact ⟨by rw [h.1, this.1], this.2⟩

example : plainSasl [117] [112] ≠ plainSasl [117, 112] [] := by decide

/-! ## C90, C91: opening a broker -/

/-- C90 fails: when the API versions cannot be read, `NewBroker` returns an error, and the connection it opened
is not closed. -/
theorem C90_violated_leak :
    let x := newBroker noSasl [reading [.fail .timeout]]
    x.1 = .err (.wrapped (.wrapped .timeout)) ∧ x.2.log.contains (.dial 0) = true ∧ x.2.log.contains (.close 0) = false := by
  decide +kernel

/-- C91 (part): a broker configured with a mechanism other than PLAIN is never handed out.  Missing: that the
attempt ends with an error; it may crash (`C91_violated_mechanism`). -/
theorem C91_rejected_partial (s : SaslConfig) (dials : List (Except Err Script)) (hs : s.mechanism ≠ [])
    (hp : toLower s.mechanism ≠ [112, 108, 97, 105, 110]) (b : Broker) : newBroker s dials ≠ (.ok (), b) := by
  intro h
  obtain ⟨u, b1, h1, h⟩ := B.bind_ok h
  obtain ⟨vs, b2, h2, h⟩ := B.bind_ok h
  have hq : (createConn >>= fun _ => B.wrap requestAPIVersions) ⟨s, none, [], 0, false, dials, 0, []⟩ = (.ok vs, b2) := by
    change B.bind _ _ _ = _
    unfold B.bind
    rw [h1]
    exact h2
  obtain ⟨-, -, -, -, -, -, -, -, -, hsasl⟩ := apiVersions_open hq
  have hb2 : b2.sasl = s := hsasl
  simp only at h
  rw [hb2, if_pos hs] at h
  obtain ⟨x, b3, h3, h⟩ := B.bind_ok h
  obtain ⟨y, b4, h4, h⟩ := B.bind_ok h
  rw [saslAuthenticateReq, if_neg hp] at h4
  simp only [requestAndGetOpt] at h4
  obtain ⟨b5, h5, -⟩ := locked_ok h4
  obtain ⟨_, _, _, h5⟩ := B.bind_ok h5
  obtain ⟨_, _, _, h5⟩ := B.bind_ok h5
  cases h5

/-- C91 fails: with a mechanism other than PLAIN (here "SCRAM"), opening a broker that accepts the handshake
panics. -/
theorem C91_violated_mechanism :
    (newBroker ⟨[83, 67, 82, 65, 77], [117], [112]⟩ [reading [.data (verAnswer 1), .data (shAnswer 2)]]).1 = .panic := by
  decide +kernel

end Healer
