import Verif.Props.Always
import Verif.Props.Ask
import Verif.Props.Broker3
import Verif.Props.Follow
import Verif.Props.MultiConsumer
import Verif.Props.Config

/-!
# Late answers, and steps that mutation tests showed to be unguarded

C28, C29, C45, C54, C126 and C151.
-/

namespace Healer

/-! ## C29: every read timeout -/

/-- C29 fails after every read timeout: whatever the request and the state of the connection, a call whose answer is not there in time reports the timeout and leaves the connection
open; and when the call is repeated, the late answer to the first (it carries the first's correlation id), in whatever pieces it arrives, is
returned as the answer to the second. -/
theorem C29_violated_every_timeout {b : Broker} {c : Conn} (hb : b.Ready c) (hw : c.writes (c.written + 1) = none) (a a' : Kafka.Api)
    (R : AnyRequest) (client : Bytes) {v : UInt16} (hv : getHighestAvailableAPIVersion b.apiVersions R.key = v)
    {cid : Option Bytes} {content : Bytes}
    (henc : ∀ corr : UInt32, R.encode (reqHeader R.key v corr (some client)) v = .ok (Kafka.request a' v.toNat corr.toNat cid content))
    {tags : List (Nat × Bytes)} {body : Bytes} {resp : Response} {e : Option Err}
    (hp : parse R.key v (Kafka.response a v.toNat (b.correlationID + 1).toNat tags body) = .ok (resp, e))
    (hl : (Kafka.response a v.toNat (b.correlationID + 1).toNat tags body).length < 2 ^ 32)
    {chunks : List Bytes} {extra : Bytes} {tail : List Ev}
    (hreads : c.reads = .fail .timeout :: (chunks.map .data ++ tail))
    (hbytes : chunks.flatten = Kafka.response a v.toNat (b.correlationID + 1).toNat tags body ++ extra)
    (he : ∀ x, e = some x → closesConn (.wrapped x) = false)
    (hresp : e = none → ∃ x, resp.error = .ok x ∧ ∀ y, x = some y → closesConn y = false) :
    ∃ b1 b2, requestBoth (R.by client) b = (.ok (none, some (.wrapped .timeout)), b1) ∧ b1.conn ≠ none ∧
      b1.log = b.log ++ [.send c.id (Kafka.request a' v.toNat (b.correlationID + 1).toNat cid content)] ∧
      requestBoth (R.by client) b1 = (.ok (given resp e), b2) ∧
      b2.log = b1.log ++ [.send c.id (Kafka.request a' v.toNat (b.correlationID + 1 + 1).toNat cid content)] := by
  have hlen : ∀ corr : UInt32, 12 ≤ (Kafka.request a' v.toNat corr.toNat cid content).length := by
    intro corr
    simp [Kafka.request, Kafka.frame, Kafka.requestHeader]
    omega
  have hread : readAndParse (R.by client).api v c.reads =
      (match some Err.timeout with | none => .ok resp | some e => .err (.wrapped e), chunks.map .data ++ tail) := by
    rw [hreads]
    rfl
  have h1 := requestBoth_answer hb.conn hb.free hb.writes (R.by client) hv (henc (b.correlationID + 1)) (hlen _) (e := some .timeout) (resp := resp) hread
    (by intro x hx; cases hx; rfl) (by intro hx; cases hx)
  have hready : (b.after c (Kafka.request a' v.toNat (b.correlationID + 1).toNat cid content) (chunks.map .data ++ tail)).Ready
      { c with written := c.written + 1, reads := chunks.map .data ++ tail } := ⟨rfl, hb.free, hw⟩
  obtain ⟨left, -, h2⟩ := askAnswer hready a a' R client hv (henc _) hp hl ⟨rfl, hbytes⟩ he hresp
  exact ⟨_, _, h1, by simp [Broker.after], rfl, h2, rfl⟩

/-- The same for heartbeats, with the requests and the answer spelt out: after a timeout, the late answer to the first heartbeat (say: all is well) is taken for that to the second. -/
theorem C29_violated_every_heartbeat {b : Broker} {c : Conn} (hb : b.Ready c) (hw : c.writes (c.written + 1) = none) (client group : Bytes) (generation : Int32)
    (member : Bytes) (code : Int16) {chunks : List Bytes} {extra : Bytes} {tail : List Ev}
    (hreads : c.reads = .fail .timeout :: (chunks.map .data ++ tail))
    (hbytes : chunks.flatten = Kafka.response .heartbeat 0 (b.correlationID + 1).toNat [] (Kafka.heartbeatResponse code.toInt) ++ extra) :
    ∃ b1 b2, requestHeartbeat client group generation member b = (.ok (⟨0, 0⟩, some (.wrapped .timeout)), b1) ∧
      requestHeartbeat client group generation member b1 = (.ok (answeredWith ⟨b.correlationID + 1, code⟩ ⟨0, 0⟩ code), b2) ∧
      b2.log = b.log ++ [
        .send c.id (Kafka.request .heartbeat 0 (b.correlationID + 1).toNat (some client) (Kafka.heartbeatRequest group generation.toInt member)),
        .send c.id (Kafka.request .heartbeat 0 (b.correlationID + 1 + 1).toNat (some client) (Kafka.heartbeatRequest group generation.toInt member))] := by
  obtain ⟨b1, b2, h1, -, h3, h4, h5⟩ := C29_violated_every_timeout hb hw .heartbeat .heartbeat (.heartbeat ⟨group, generation, member⟩) client (v := 0) rfl
    (fun corr => C58_heartbeat ⟨group, generation, member⟩ 0 (by decide) corr (some client)) (C119_heartbeat ⟨b.correlationID + 1, code⟩)
    (short_heartbeat ..) hreads hbytes codeError_calm (codeError_fine (heartbeat_fine _))
  refine ⟨b1, b2, ?_, ?_, ?_⟩
  · unfold requestHeartbeat
    simp only [askBind, B.bind, h1]
    rfl
  · unfold requestHeartbeat
    simp only [askBind, B.bind, h4, askPure, B.pure, given_code _ _ (heartbeat_fine _), answeredWith]
    split <;> rfl
  · rw [h5, h3]; simp

/-- the second heartbeat should learn of the rebalance (27), and is told that all is well -/
example : let b := askBroker [.fail .timeout, .data [0, 0, 0], .data [6, 0, 0, 0, 7, 0, 0], .data [0, 0, 0, 6, 0, 0, 0, 8, 0, 27]]
    let x := requestHeartbeat [99] [103] 3 [109] b
    x.1 = .ok (⟨0, 0⟩, some (.wrapped .timeout)) ∧ (requestHeartbeat [99] [103] 3 [109] x.2).1 = .ok (⟨7, 0⟩, none) := by decide +kernel

/-! ## C31, C117, C118: connections that failed -/

theorem request_sends {b : Broker} {c : Conn} (hc : b.conn = some c) (hw : c.writes c.written = none) (r : Req) {p : Bytes}
    (henc : r.encode (getHighestAvailableAPIVersion b.apiVersions r.api) (b.correlationID + 1) = .ok p) (hlen : ¬ p.length < 12) :
    request r b = (.ok (getHighestAvailableAPIVersion b.apiVersions r.api),
      { b with correlationID := b.correlationID + 1, conn := some { c with written := c.written + 1 }, log := b.log ++ [.send c.id p] }) := by
  show B.bind nextCorrelationID (fun corr => B.bind (negotiated r.api) fun version =>
    B.bind (B.lift (r.encode version corr)) fun payload => B.bind (B.wrap (send payload)) fun _ => B.pure version) _ = _
  simp only [B.bind, nextCorrelationID, negotiated, B.lift, henc, B.wrap, send, hc, if_neg hlen, hw, B.pure]

/-- whatever happens afterwards, a request on an open connection is written to that connection, in the version agreed on before -/
theorem sends_first {b : Broker} {c : Conn} (hb : b.Ready c) (r : Req) {p : Bytes}
    (henc : r.encode (getHighestAvailableAPIVersion b.apiVersions r.api) (b.correlationID + 1) = .ok p) (hlen : 12 ≤ p.length) :
    ∃ ext, (requestAndGet r b).2.log = b.log ++ .send c.id p :: ext := by
  have hq : request r { b with mux := true } =
      (.ok (getHighestAvailableAPIVersion b.apiVersions r.api), { b with mux := true, correlationID := b.correlationID + 1, conn := some { c with written := c.written + 1 }, log := b.log ++ [.send c.id p] }) := by
    exact request_sends (b := { b with mux := true }) hb.conn hb.writes r henc (Nat.not_lt.mpr hlen)
  have hx : ∃ ext, (exchange r { b with mux := true }).2.log = b.log ++ .send c.id p :: ext := by
    unfold exchange
    simp only [askBind, B.bind, hq, readParse]
    rcases readAndParse r.api (getHighestAvailableAPIVersion b.apiVersions r.api) c.reads with ⟨_ | _ | _, evs⟩
    · rename_i resp
      simp only
      unfold checkError
      rcases resp.error with (_ | e) | e | _
      · exact ⟨[], rfl⟩
      · simp only [B.fail]
        split
        · exact ⟨[.close c.id], by simp [closeBroker]⟩
        · exact ⟨[], rfl⟩
      · simp only [B.fail]
        split
        · exact ⟨[.close c.id], by simp [closeBroker]⟩
        · exact ⟨[], rfl⟩
      · exact ⟨[], rfl⟩
    · simp only
      split
      · exact ⟨[.close c.id], by simp [closeBroker]⟩
      · exact ⟨[], rfl⟩
    · exact ⟨[], rfl⟩
  have ho : ensureOpenWith createConnAndAuth { b with mux := true } = (.ok (), { b with mux := true }) := by
    simp only [ensureOpenWith, hb.conn]
  unfold requestAndGet requestAndGetWith locked
  simp only [hb.free, Bool.false_eq_true, if_false]
  simp only [askBind, B.bind, ho]
  rcases he : exchange r { b with mux := true } with ⟨_ | _ | _ | _, b'⟩ <;> rw [he] at hx <;> exact hx

/-- C117 fails for every failure of a connection that is neither an end of file nor a broken pipe (a reset, a timeout, any other): the call fails, and the next
request, whatever it is, is written to the same connection. -/
theorem C117_violated_every_failure {b : Broker} {c : Conn} (hb : b.Ready c) (r : Req) {p : Bytes}
    (henc : r.encode (getHighestAvailableAPIVersion b.apiVersions r.api) (b.correlationID + 1) = .ok p) (hlen : 12 ≤ p.length)
    {e : Err} {evs : List Ev} (hreads : c.reads = .fail e :: evs) (h1 : e.is .eof = false) (h2 : e.is .epipe = false)
    (r' : Req) {p' : Bytes} (henc' : r'.encode (getHighestAvailableAPIVersion b.apiVersions r'.api) (b.correlationID + 1 + 1) = .ok p') (hlen' : 12 ≤ p'.length)
    (hw : c.writes (c.written + 1) = none) :
    ∃ b1 ext, requestAndGet r b = (.err (.wrapped e), b1) ∧ (requestAndGet r' b1).2.log = b.log ++ [.send c.id p, .send c.id p'] ++ ext := by
  have hcl : closesConn (.wrapped e) = false := by simp [closesConn, isTimeout, Err.is, h1, h2]
  have hread : readAndParse r.api (getHighestAvailableAPIVersion b.apiVersions r.api) c.reads =
      (match some e with | none => .ok (.heartbeat ⟨0, 0⟩) | some e => .err (.wrapped e), evs) := by
    rw [hreads]
    rfl
  have hf := requestBoth_answer hb.conn hb.free hb.writes r rfl henc hlen (e := some e) (resp := .heartbeat ⟨0, 0⟩) hread (by intro x hx; cases hx; exact hcl) (by intro hx; cases hx)
  have hready : (b.after c p evs).Ready { c with written := c.written + 1, reads := evs } := ⟨rfl, hb.free, hw⟩
  obtain ⟨ext, hs⟩ := sends_first hready r' (by exact henc') hlen'
  refine ⟨b.after c p evs, ext, ?_, ?_⟩
  · rw [requestBoth_eq, hf]
    rfl
  · rw [hs]
    simp [Broker.after]

/-- the broker after a connection was opened on which the versions could not be got: the connection is kept, and the versions of the one before -/
def Broker.leftOpen (b : Broker) (s : Script) (ds : List (Except Err Script)) (evs : List Ev) (p : Bytes) : Broker :=
  { b with conn := some ⟨b.dialed, evs, s.writes, 1⟩, dials := ds, dialed := b.dialed + 1, correlationID := b.correlationID + 1
           log := b.log ++ [.dial b.dialed, .send b.dialed p] }

theorem createConn_dials {b : Broker} {s : Script} {ds : List (Except Err Script)} (hd : b.dials = .ok s :: ds) :
    createConn b = (.ok (), { b with conn := some ⟨b.dialed, s.reads, s.writes, 0⟩, dials := ds, dialed := b.dialed + 1, log := b.log ++ [.dial b.dialed] }) := by
  unfold createConn
  simp only [askBind, B.bind, dial, hd]

theorem apiVersions_fails {b : Broker} {c : Conn} (hc : b.conn = some c) (hw : c.writes c.written = none) {e : Err} {evs : List Ev} (hreads : c.reads = .fail e :: evs) :
    ∃ v p, apiVersionsReq.encode v (b.correlationID + 1) = .ok p ∧ requestAPIVersions b = (.err (.wrapped e),
      { b with correlationID := b.correlationID + 1, conn := some { c with written := c.written + 1, reads := evs }, log := b.log ++ [.send c.id p] }) := by
  obtain ⟨p, hp, hlen⟩ := apiVersions_encodes (getHighestAvailableAPIVersion b.apiVersions API_ApiVersions) (b.correlationID + 1)
  refine ⟨_, p, hp, ?_⟩
  have hq := request_sends hc hw apiVersionsReq hp hlen
  have hread : ∀ v, readAndParse API_ApiVersions v c.reads = (.err (.wrapped e), evs) := by
    intro v
    rw [hreads]
    rfl
  unfold requestAPIVersions
  change B.bind _ _ _ = _
  unfold B.bind
  rw [hq]
  change B.bind _ _ _ = _
  unfold B.bind readParse
  simp only [hread]

theorem createConnAndAuth_fails {b : Broker} {s : Script} {ds : List (Except Err Script)} (hd : b.dials = .ok s :: ds)
    (hw : s.writes 0 = none) {e : Err} {evs : List Ev} (hreads : s.reads = .fail e :: evs) :
    ∃ v p, apiVersionsReq.encode v (b.correlationID + 1) = .ok p ∧ createConnAndAuth b = (.err (.wrapped (.wrapped e)), b.leftOpen s ds evs p) := by
  obtain ⟨v, p, hp, h⟩ := apiVersions_fails
    (b := { b with conn := some ⟨b.dialed, s.reads, s.writes, 0⟩, dials := ds, dialed := b.dialed + 1, log := b.log ++ [.dial b.dialed] }) rfl hw hreads
  refine ⟨v, p, hp, ?_⟩
  unfold createConnAndAuth
  change B.bind _ _ _ = _
  unfold B.bind
  rw [createConn_dials hd]
  change B.bind _ _ _ = _
  unfold B.bind B.wrap
  rw [h]
  simp [Broker.leftOpen]

theorem reopen_fails {b : Broker} (hc : b.conn = none) (hm : b.mux = false) {s : Script} {ds : List (Except Err Script)} (hd : b.dials = .ok s :: ds)
    (hw : s.writes 0 = none) {e : Err} {evs : List Ev} (hreads : s.reads = .fail e :: evs) (r : Req) :
    ∃ v p, apiVersionsReq.encode v (b.correlationID + 1) = .ok p ∧ requestAndGet r b = (.err (.wrapped (.wrapped e)), b.leftOpen s ds evs p) := by
  obtain ⟨v, p, hp, h⟩ := createConnAndAuth_fails (b := { b with mux := true }) hd hw hreads
  refine ⟨v, p, hp, ?_⟩
  have ho : ensureOpenWith createConnAndAuth { b with mux := true } = createConnAndAuth { b with mux := true } := by
    unfold ensureOpenWith
    split
    · rename_i h0
      have : b.conn = some _ := h0
      rw [hc] at this
      cases this
    · rfl
  unfold requestAndGet requestAndGetWith locked
  rw [hm]
  simp only [Bool.false_eq_true, if_false]
  rw [askBind]
  unfold B.bind
  rw [ho, h]
  simp only [Broker.leftOpen]
  have : b = { b with mux := false } := by cases b; simp_all
  rw [this]

/-- C117 and C118 fail for every connection on which the versions could not be got, whatever went wrong (an end of file included): the call fails, and the next request, whatever it is, is written to that same connection,
laid out for the version agreed with the broker at the end of the connection before. -/
theorem C118_violated_every_reopening {b : Broker} (hc : b.conn = none) (hm : b.mux = false) {s : Script} {ds : List (Except Err Script)} (hd : b.dials = .ok s :: ds)
    (hw : s.writes 0 = none) (hw' : s.writes 1 = none) {e : Err} {evs : List Ev} (hreads : s.reads = .fail e :: evs) (r r' : Req) {p' : Bytes}
    (henc' : r'.encode (getHighestAvailableAPIVersion b.apiVersions r'.api) (b.correlationID + 1 + 1) = .ok p') (hlen' : 12 ≤ p'.length) :
    ∃ b1 p ext, requestAndGet r b = (.err (.wrapped (.wrapped e)), b1) ∧
      (requestAndGet r' b1).2.log = b.log ++ [.dial b.dialed, .send b.dialed p, .send b.dialed p'] ++ ext := by
  obtain ⟨v, p, -, h1⟩ := reopen_fails hc hm hd hw hreads r
  have hready : (b.leftOpen s ds evs p).Ready ⟨b.dialed, evs, s.writes, 1⟩ := ⟨rfl, hm, hw'⟩
  obtain ⟨ext, hs⟩ := sends_first hready r' (by exact henc') hlen'
  refine ⟨_, p, ext, h1, ?_⟩
  rw [hs]
  simp [Broker.leftOpen]

/-- C117, the same. -/
theorem C117_violated_every_reopening {b : Broker} (hc : b.conn = none) (hm : b.mux = false) {s : Script} {ds : List (Except Err Script)} (hd : b.dials = .ok s :: ds)
    (hw : s.writes 0 = none) (hw' : s.writes 1 = none) {e : Err} {evs : List Ev} (hreads : s.reads = .fail e :: evs) (r r' : Req) {p' : Bytes}
    (henc' : r'.encode (getHighestAvailableAPIVersion b.apiVersions r'.api) (b.correlationID + 1 + 1) = .ok p') (hlen' : 12 ≤ p'.length) :
    ∃ b1 p ext, requestAndGet r b = (.err (.wrapped (.wrapped e)), b1) ∧
      (requestAndGet r' b1).2.log = b.log ++ [.dial b.dialed, .send b.dialed p, .send b.dialed p'] ++ ext :=
  C118_violated_every_reopening hc hm hd hw hw' hreads r r' henc' hlen'

/-- C31 fails for every such connection: with authentication configured, the request is written to it though only the versions were asked for on it (the two requests that precede it on that connection are the
dial and the request for versions): no handshake, no authentication. -/
theorem C31_violated_every_reopening {b : Broker} (hs : b.sasl.mechanism ≠ []) (hc : b.conn = none) (hm : b.mux = false) {s : Script} {ds : List (Except Err Script)} (hd : b.dials = .ok s :: ds)
    (hold : ∀ p, .send b.dialed p ∉ b.log)
    (hw : s.writes 0 = none) (hw' : s.writes 1 = none) {e : Err} {evs : List Ev} (hreads : s.reads = .fail e :: evs) (r r' : Req) {p' : Bytes}
    (henc' : r'.encode (getHighestAvailableAPIVersion b.apiVersions r'.api) (b.correlationID + 1 + 1) = .ok p') (hlen' : 12 ≤ p'.length) :
    ∃ b1 v p ext, (requestAndGet r b).2 = b1 ∧ b1.sasl.mechanism ≠ [] ∧ apiVersionsReq.encode v (b.correlationID + 1) = .ok p ∧
      sendsOn b1.log b.dialed = [p] ∧ (requestAndGet r' b1).2.log = b1.log ++ .send b.dialed p' :: ext := by
  obtain ⟨v, p, hp, h1⟩ := reopen_fails hc hm hd hw hreads r
  have hready : (b.leftOpen s ds evs p).Ready ⟨b.dialed, evs, s.writes, 1⟩ := ⟨rfl, hm, hw'⟩
  obtain ⟨ext, h2⟩ := sends_first hready r' (by exact henc') hlen'
  refine ⟨b.leftOpen s ds evs p, v, p, ext, by rw [h1], hs, hp, ?_, h2⟩
  have : sendsOn b.log b.dialed = [] := by
    unfold sendsOn
    rw [List.filterMap_eq_nil_iff]
    intro a ha
    cases a with
    | send i q => 
      have : i ≠ b.dialed := by rintro rfl; exact hold q ha
      simp [this]
    | _ => rfl
  simp only [Broker.leftOpen]
  simp only [sendsOn] at this ⊢
  rw [List.filterMap_append, this]
  simp

/-- a case that meets the hypotheses: a broker that has lost its connection, and whose new one fails at once -/
example : let b : Broker := { askBroker [] with sasl := ⟨[112], [], []⟩, conn := none, dials := [reading [.fail .timeout, .data (hbAnswer 8 0)]] }
    b.sasl.mechanism ≠ [] ∧ b.mux = false ∧ (match hbReq.encode (getHighestAvailableAPIVersion b.apiVersions hbReq.api) (b.correlationID + 1 + 1) with | .ok p => decide (12 ≤ p.length) | _ => false) = true ∧
    (requestAndGet hbReq b).1 = .err (.wrapped (.wrapped .timeout)) ∧ (requestAndGet hbReq (requestAndGet hbReq b).2).1 = .ok (.heartbeat ⟨8, 0⟩) :=
  ⟨by decide, rfl, by decide +kernel, by decide +kernel, by decide +kernel⟩

/-- and one for a reset -/
example : Err.is (.other "connection reset by peer") .eof = false ∧ Err.is (.other "connection reset by peer") .epipe = false ∧
    (requestAndGet hbReq (askBroker [.fail (.other "connection reset by peer"), .fail .eof])).1 = .err (.wrapped (.other "connection reset by peer")) := by decide +kernel

/-! ## C28: the length of a fetch response -/

/-- C28 for fetches, as long as the four bytes of the length arrive in one piece: the length is returned, and the connection is left at the first byte after it, whatever that piece contains besides.
Missing: a length that arrives in several pieces (`C28_violated_fetch`). -/
theorem C28_fetch_partial {b : Broker} {c : Conn} (hb : b.Ready c) (r : Req) {payload : Bytes}
    (henc : r.encode (getHighestAvailableAPIVersion b.apiVersions API_FetchRequest) (b.correlationID + 1) = .ok payload) (hlen : 12 ≤ payload.length)
    (n : Nat) (hn : n < 2 ^ 32) (rest : Bytes) (evs : List Ev) (hreads : c.reads = .data (Kafka.int32 n ++ rest) :: evs) :
    requestFetchStreamingly r b = (.ok (UInt32.ofNat n), b.after c payload (if rest = [] then evs else .data rest :: evs)) := by
  have h4 : (Kafka.int32 n).length = 4 := int32_length _
  have hl : readLength c.reads = (.ok (UInt32.ofNat n), if rest = [] then evs else .data rest :: evs) := by
    rw [hreads]
    unfold readLength
    simp only
    rw [if_neg (by simp only [List.length_append, h4]; omega), List.take_left' h4, List.drop_left' h4, rdU32_int32 _ hn]
    by_cases hr : rest = []
    · subst hr; simp [h4]
    · have : rest.length ≠ 0 := by simpa using hr
      simp [h4, hr]
  have ho : ensureOpen b = (.ok (), b) := by
    simp only [ensureOpen, ensureOpenWith, hb.conn]
  unfold requestFetchStreamingly
  change B.bind _ _ _ = _
  unfold B.bind
  rw [ho]
  simp only [locked, hb.free, Bool.false_eq_true, if_false]
  simp only [bind, B.bind, nextCorrelationID, negotiated, B.lift, henc, requestStreamingly, send, hb.conn, Nat.not_lt.mpr hlen, if_false,
    hb.writes, awaitLength, hl]
  have hf := hb.free
  obtain ⟨⟩ := b
  simp only at hf
  subst hf
  rfl

example : (requestFetchStreamingly ⟨1, fun _ _ => .ok (List.replicate 12 0)⟩ (askBroker [.data [0, 0, 0, 9], .data [1]])).1 = .ok 9 := by decide +kernel

/-! ## C45: nothing known yet -/

/-- C45 when one of the listings is missing: no change is reported only if both are. -/
theorem C45_nil (a : Option (List TopicMetadata)) : (ifTopicMetadatasSame none a = true ↔ a = none) ∧ (ifTopicMetadatasSame a none = true ↔ a = none) := by
  cases a <;> simp [ifTopicMetadatasSame]

example : ifTopicMetadatasSame none (some []) = false := by decide

/-! ## C54: producers -/

/-- C54 for producers: making a producer leaves all other configurations as they are, the default one and the arrays of read timeouts included; it adds its own if it is accepted. -/
theorem C54_producer (input : ConfigInput ProducerConfig) (w w' : Clients) (h : w.step (.producer input) = .ok w') :
    w'.arrays = w.arrays ∧ w'.dflt = w.dflt ∧ w'.consumers = w.consumers ∧
    w'.producers = w.producers ++ (match createProducerConfig input with | .ok c => [c] | .error _ => []) := by
  unfold Clients.step at h
  simp only at h
  split at h <;> rename_i hc <;> cases h <;> simp [hc]

example : (match Clients.init.step (.producer (.config { defaultProducerConfig with bootstrapServers := "b:9092" })) with
    | .ok w => w.producers.length | _ => 0) = 1 := by decide +kernel

/-! ## C126: AwaitClose returns -/

theorem MC.run_append (calm : Bool) : ∀ (as bs : List MultiAct) (s : MC), MC.run calm (as ++ bs) s = (MC.run calm as s).bind (MC.run calm bs)
  | [], bs, s => rfl
  | a :: as, bs, s => by
    rw [List.cons_append, MC.run, MC.run]
    cases h : s.step calm a with
    | none => rfl
    | some s1 => exact MC.run_append calm as bs s1

theorem MultiInv.close_run (timeout : Bool) : ∀ (l : List Nat) (s : MC), MultiInv s → s.close = .stopping l →
    ∃ s', MC.run true (List.replicate (l.length + 1) (.closeStep timeout)) s = some s' ∧ s'.close = .waiting ∧ MultiInv s'
  | [], s, hs, hc => by
    have h1 : s.step true (.closeStep timeout) = some { s with close := .waiting } := by
      simp [MC.step, hs.sane, MC.closeNext, hc]
    exact ⟨{ s with close := .waiting }, by simp [MC.run, h1], rfl, hs.step h1⟩
  | i :: l, s, hs, hc => by
    have h1 : s.step true (.closeStep timeout) = some { s.stopOne i with close := .stopping l } := by
      simp [MC.step, hs.sane, MC.closeNext, hc]
    rw [show List.replicate ((i :: l).length + 1) (MultiAct.closeStep timeout) = .closeStep timeout :: List.replicate (l.length + 1) (.closeStep timeout) from rfl,
      MC.run, h1]
    exact MultiInv.close_run timeout l _ (hs.step h1) rfl

/-- C126: if `Consume` is called once, and `AwaitClose` once, when `Consume` is not running, then `AwaitClose` returns: it stops the partition consumers one after the other, and then ends, whether
or not its timeout comes first. -/
theorem C126_returns (as : List MultiAct) (s : MC) (h : MC.run true as {} = some s) (l : List Nat) (hc : s.close = .stopping l) (timeout : Bool) :
    ∃ s', MC.run true (List.replicate (l.length + 1) (.closeStep timeout) ++ [.closeStep timeout]) s = some s' ∧
      s'.close = (if timeout then .timedOut else .done) := by
  have hi := MC.run_induction (P := MultiInv) (fun _ _ _ hs hi => hi.step hs) as {} s h .init
  obtain ⟨s1, h1, h2, h3⟩ := MultiInv.close_run timeout l s hi hc
  have h4 := (h3.closedBy (.inl h2)).2.2
  refine ⟨{ s1 with close := if timeout then .timedOut else .done }, ?_, rfl⟩
  rw [MC.run_append, h1]
  cases timeout <;> simp [MC.run, MC.step, h3.sane, MC.closeNext, h2, h4]

example : (MC.run true (consumeTwo ++ [.close]) {}).map MC.close = some (.stopping [0, 1]) := by decide +kernel

/-! ## C151: looking for the leader -/

open Brokers Following

variable {W : Type}

/-- C151: a consumer crashes only if the search for the leader does: failed searches, fetches and refreshes do not end it, in whatever order they come. -/
theorem C151_no_crash (net : Net W) (topic : Bytes) (pid : Int32) (fetch : Int32 → Int32 → Fetched)
    (hn : ∀ b, (getLeaderBroker net topic pid b).1 ≠ .panic) :
    ∀ (es : List Bool) (s : Following × Brokers W), s.1 ≠ .crashed → (run net topic pid fetch es s).1 ≠ .crashed
  | [], s, h => h
  | true :: es, (f, b), h => by
    rw [Following.run]
    refine C151_no_crash net topic pid fetch hn es _ ?_
    cases f <;> simp_all [Following.tick]
  | false :: es, (f, b), h => by
    rw [Following.run]
    refine C151_no_crash net topic pid fetch hn es _ ?_
    cases f with
    | crashed => exact absurd rfl h
    | seeking e =>
      have := hn b
      unfold Following.step
      simp only
      rcases hg : getLeaderBroker net topic pid b with ⟨_ | _ | _, b'⟩
      · simp
      · simp
      · rw [hg] at this; exact absurd rfl this
    | fetching n x e =>
      unfold Following.step
      simp only
      split
      · simp
      · simp
      · unfold onFailed
        repeat' split
        all_goals simp

/-- C151: a search that fails is repeated, with what it has learnt; one that succeeds ends it. -/
theorem C151_keeps_looking (net : Net W) (topic : Bytes) (pid : Int32) (fetch : Int32 → Int32 → Fetched) (epoch : Int32) :
    ∀ (n : Nat) (bs : Nat → Brokers W) (x : Nat × Int32) (b' : Brokers W),
      (∀ i, i < n → ∃ e, getLeaderBroker net topic pid (bs i) = (.err e, bs (i + 1))) → getLeaderBroker net topic pid (bs n) = (.ok x, b') →
      run net topic pid fetch (List.replicate (n + 1) false) (.seeking epoch, bs 0) = (.fetching x.2 x.1 epoch, b')
  | 0, bs, x, b', _, h => by simp [Following.run, Following.step, h]
  | n + 1, bs, x, b', h, h1 => by
    obtain ⟨e, he⟩ := h 0 (by omega)
    rw [List.replicate_succ, Following.run]
    have : Following.step net topic pid fetch (.seeking epoch, bs 0) = (.seeking epoch, bs 1) := by simp [Following.step, he]
    rw [this]
    exact C151_keeps_looking net topic pid fetch epoch n (fun i => bs (i + 1)) x b' (fun i hi => h (i + 1) (by omega)) h1

end Healer
