import Verif.Model.Broker
import Verif.Props.Request
import Verif.Props.Frame

/-!
# C29-C32, C78: one broker
-/

namespace Healer

/-! ## C30: correlation ids -/

/-- The request bytes of an attempt to send. -/
def Act.attempt : Act → Option Bytes
  | .send _ p => some p
  | .sendFailed _ p => some p
  | _ => none

/-- All requests written or attempted, in order. -/
def attempts (log : List Act) : List Bytes := log.filterMap Act.attempt

/-- The bytes of a request holding its correlation id: after length, API key and version. -/
def corrField (payload : Bytes) : Bytes := (payload.drop 8).take 4

/-- A request whose bytes carry the correlation id it was given (see C07). -/
structure Req.Lawful (r : Req) : Prop where
  corr : ∀ v c bs, r.encode v c = .ok bs → corrField bs = Kafka.int32 c.toNat
  noErr : ∀ v c e, r.encode v c ≠ .err e

def ids (c : UInt32) (n : Nat) : List Bytes :=
  (List.range n).map fun i => Kafka.int32 ((c + 1 + UInt32.ofNat i).toNat)

theorem ids_add (c : UInt32) (n m : Nat) : ids c (n + m) = ids c n ++ ids (c + UInt32.ofNat n) m := by
  unfold ids
  rw [List.range_add, List.map_append, List.map_map]
  congr 1
  apply List.map_congr_left
  intro i _
  simp only [Function.comp]
  congr 2
  rw [UInt32.ofNat_add]
  ac_rfl

/-- The call returned (with a value or an error). -/
def Ret.live {α : Type} : Ret α → Bool
  | .ok _ => true
  | .err _ => true
  | _ => false

/-- The code attempts requests with consecutive ids, and accounts for them. -/
structure Ids {α : Type} (m : B α) : Prop where
  step : ∀ b, ∃ ps, attempts (m b).2.log = attempts b.log ++ ps ∧ ps.map corrField = ids b.correlationID ps.length ∧
    ((m b).1.live = true → (m b).2.correlationID = b.correlationID + UInt32.ofNat ps.length)

/-- Code that sends nothing and leaves the counter alone. -/
theorem Ids.quiet {α : Type} {m : B α} (h1 : ∀ b, attempts (m b).2.log = attempts b.log)
    (h2 : ∀ b, (m b).2.correlationID = b.correlationID) : Ids m :=
  ⟨fun b => ⟨[], by rw [h1, List.append_nil], rfl, fun _ => by rw [h2]; simp⟩⟩

theorem Ids.bind {α β : Type} {m : B α} {f : α → B β} (hm : Ids m) (hf : ∀ a, Ids (f a)) : Ids (m >>= f) := by
  refine ⟨fun b => ?_⟩
  obtain ⟨ps, h1, h2, h3⟩ := hm.step b
  change ∃ qs, attempts (B.bind m f b).2.log = _ ∧ _ ∧ ((B.bind m f b).1.live = true → (B.bind m f b).2.correlationID = _)
  unfold B.bind
  rcases hmb : m b with ⟨x, b'⟩
  rw [hmb] at h1 h3
  cases x with
  | ok a =>
    obtain ⟨qs, g1, g2, g3⟩ := (hf a).step b'
    have hc : b'.correlationID = b.correlationID + UInt32.ofNat ps.length := h3 rfl
    refine ⟨ps ++ qs, ?_, ?_, ?_⟩
    · rw [g1, h1, List.append_assoc]
    · rw [List.map_append, h2, g2, List.length_append, ids_add, hc]
    · intro hl
      rw [g3 hl, hc, List.length_append, UInt32.ofNat_add]
      ac_rfl
  | err e => exact ⟨ps, h1, h2, h3⟩
  | panic => exact ⟨ps, h1, h2, h3⟩
  | hang => exact ⟨ps, h1, h2, h3⟩

theorem attempts_append (l : List Act) (a : Act) : attempts (l ++ [a]) = attempts l ++ (Act.attempt a).toList := by
  unfold attempts
  rw [List.filterMap_append]
  cases a <;> rfl

theorem ids_closeBroker : Ids closeBroker := by
  refine .quiet ?_ ?_ <;> intro b <;> unfold closeBroker <;> cases b.conn <;> simp [attempts_append, Act.attempt]

theorem ids_createConn : Ids createConn := by
  refine .quiet ?_ ?_ <;> intro b <;> simp only [createConn, dial, bind, B.bind] <;>
    rcases b.dials with _ | ⟨_ | _, _⟩ <;> simp [attempts_append, Act.attempt]

theorem ids_readParse (api version : UInt16) : Ids (readParse api version) := by
  refine .quiet ?_ ?_ <;> intro b <;> unfold readParse <;> cases b.conn <;> simp only <;> split <;> rfl

theorem ids_checkError (r : Response) : Ids (checkError r) := by
  unfold checkError
  rcases r.error with (_ | _) | _ | _ <;> exact .quiet (fun _ => rfl) (fun _ => rfl)

theorem ids_request {r : Req} (h : r.Lawful) : Ids (request r) := by
  refine ⟨fun b => ?_⟩
  simp only [request, bind, B.bind, nextCorrelationID, negotiated, B.lift, B.wrap, send, pure, B.pure]
  generalize getHighestAvailableAPIVersion b.apiVersions r.api = v
  cases he : r.encode v (b.correlationID + 1) with
  | err e => exact absurd he (h.noErr _ _ _)
  | panic => exact ⟨[], by simp, rfl, by simp [Ret.live]⟩
  | ok p =>
    have hc := h.corr _ _ _ he
    cases hb : b.conn with
    | none => exact ⟨[], by simp, rfl, by simp [Ret.live]⟩
    | some c =>
      simp only
      by_cases hp : p.length < 12
      · simp only [if_pos hp]; exact ⟨[], by simp, rfl, by simp [Ret.live]⟩
      · simp only [if_neg hp]
        cases c.writes c.written <;>
          exact ⟨[p], by simp [attempts_append, Act.attempt], by simp [ids, hc], by simp [Ret.live]⟩

theorem Ids.locked {α : Type} {m : B α} (h : Ids m) : Ids (locked m) := by
  refine ⟨fun b => ?_⟩
  unfold Healer.locked
  by_cases hm : b.mux = true
  · rw [if_pos hm]; exact ⟨[], by simp, rfl, by simp [Ret.live]⟩
  · rw [if_neg hm]
    have := h.step { b with mux := true }
    rcases hmb : m { b with mux := true } with ⟨x, b'⟩
    rw [hmb] at this
    cases x <;> exact this

theorem Ids.wrap {α : Type} {m : B α} (h : Ids m) : Ids (B.wrap m) := by
  refine ⟨fun b => ?_⟩
  unfold B.wrap
  have := h.step b
  rcases hmb : m b with ⟨x, b'⟩
  rw [hmb] at this
  cases x <;> exact this

theorem Ids.pure {α : Type} (a : α) : Ids (Pure.pure a : B α) :=
  .quiet (fun _ => rfl) (fun _ => rfl)

theorem Ids.fail {α : Type} (e : Err) : Ids (B.fail e : B α) :=
  .quiet (fun _ => rfl) (fun _ => rfl)

theorem ids_exchange {r : Req} (h : r.Lawful) : Ids (exchange r) := by
  have hm : Ids (do
      let version ← request r
      let resp ← readParse r.api version
      checkError resp
      Pure.pure resp : B Response) :=
    (ids_request h).bind fun v => (ids_readParse _ v).bind fun x => (ids_checkError x).bind fun _ => .pure _
  refine ⟨fun b => ?_⟩
  unfold exchange
  obtain ⟨ps, h1, h2, h3⟩ := hm.step b
  revert h1 h3
  generalize (do
      let version ← request r
      let resp ← readParse r.api version
      checkError resp
      Pure.pure resp : B Response) b = z
  obtain ⟨x, b'⟩ := z
  intro h1 h3
  cases x with
  | err e =>
    simp only
    split
    · obtain ⟨qs, g1, g2, g3⟩ := ids_closeBroker.step b'
      have : (closeBroker b').2.correlationID = b'.correlationID := by
        unfold closeBroker; cases b'.conn <;> rfl
      have hq : attempts (closeBroker b').2.log = attempts b'.log := by
        unfold closeBroker; cases b'.conn <;> simp [attempts_append, Act.attempt]
      exact ⟨ps, by rw [hq, h1], h2, fun _ => by rw [this]; exact h3 rfl⟩
    · exact ⟨ps, h1, h2, h3⟩
  | ok a => exact ⟨ps, h1, h2, h3⟩
  | panic => exact ⟨ps, h1, h2, h3⟩
  | hang => exact ⟨ps, h1, h2, h3⟩

theorem ids_ensureOpenWith {m : B Unit} (h : Ids m) : Ids (ensureOpenWith m) := by
  refine ⟨fun b => ?_⟩
  unfold ensureOpenWith
  cases b.conn with
  | some c => exact ⟨[], by simp, rfl, by simp⟩
  | none => exact h.step b

theorem ids_requestAndGetWith {m : B Unit} (hm : Ids m) {r : Req} (h : r.Lawful) : Ids (requestAndGetWith m r) :=
  ((ids_ensureOpenWith hm).bind fun _ => ids_exchange h).locked

/-- Requests encoded as the protocol defines them (C58-C65) carry their correlation id. -/
theorem corrField_request (api : Kafka.Api) (v : Nat) (corr : UInt32) (cid : Option Bytes) (body : Bytes) :
    corrField (Kafka.request api v corr.toNat cid body) = Kafka.int32 corr.toNat := by
  have key : ∀ (a b c d rest : Bytes), a.length = 4 → b.length = 2 → c.length = 2 → d.length = 4 →
      corrField (a ++ (b ++ (c ++ (d ++ rest)))) = d := by
    intro a b c d rest ha hb hc hd
    unfold corrField
    have : a ++ (b ++ (c ++ (d ++ rest))) = (a ++ b ++ c) ++ (d ++ rest) := by simp
    rw [this, List.drop_left' (by simp [ha, hb, hc]), List.take_left' hd]
  unfold Kafka.request Kafka.frame Kafka.requestHeader
  rw [List.append_assoc, List.append_assoc, List.append_assoc, List.append_assoc]
  exact key _ _ _ _ _ (int32_length _) (int16_length _) (int16_length _) (int32_length _)

theorem lawful_of {r : Req} {api : Kafka.Api} {cid : Option Bytes} {body : UInt16 → Bytes}
    (h : ∀ v c, r.encode v c = .ok (Kafka.request api v.toNat c.toNat cid (body v))) : r.Lawful where
  corr v c bs hb := by
    rw [h] at hb
    cases hb
    exact corrField_request _ _ _ _ _
  noErr v c e he := by rw [h] at he; cases he

theorem lawful_apiVersions : apiVersionsReq.Lawful :=
  lawful_of (api := .apiVersions) (body := fun _ => Kafka.apiVersionsRequest) fun _ _ =>
    encodeSized_ok .apiVersions rfl Writes.nop rfl

theorem lawful_saslHandshake (mechanism : Bytes) : (saslHandshakeReq mechanism).Lawful :=
  lawful_of (api := .saslHandshake) (body := fun _ => Kafka.saslHandshakeRequest mechanism) fun _ _ =>
    encodeSized_ok .saslHandshake rfl (Writes.str16 _) (by simp [Kafka.saslHandshakeRequest])

theorem lawful_saslAuthenticate {user password mechanism : Bytes} {r : Req}
    (h : saslAuthenticateReq user password mechanism = some r) : r.Lawful := by
  unfold saslAuthenticateReq at h
  split at h
  · cases h
    exact lawful_of (api := .saslAuthenticate)
      (body := fun _ => Kafka.saslAuthenticateRequest (plainSasl user password)) fun _ _ =>
      encodeSized_ok .saslAuthenticate rfl (Writes.bytes32 _) (by simp [Kafka.saslAuthenticateRequest])
  · cases h

theorem ids_requestAndGetOpt {o : Option Req} (h : ∀ r, o = some r → r.Lawful) : Ids (requestAndGetOpt o) := by
  cases o with
  | some r => exact ids_requestAndGetWith (.fail _) (h r rfl)
  | none =>
    refine Ids.locked (.bind (ids_ensureOpenWith (.fail _)) fun _ => ⟨fun b => ?_⟩)
    exact ⟨[], by simp [nextCorrelationID, bind, B.bind], rfl, by simp [nextCorrelationID, bind, B.bind, Ret.live]⟩

theorem ids_sendSaslAuthenticate (s : SaslConfig) : Ids (sendSaslAuthenticate s) :=
  (ids_requestAndGetWith (.fail _) (lawful_saslHandshake _)).bind fun _ =>
    (ids_requestAndGetOpt fun _ h => lawful_saslAuthenticate h).bind fun _ => .pure _

theorem ids_asAPIVersions (r : Response) : Ids (asAPIVersions r) := by
  cases r <;> exact .quiet (fun _ => rfl) (fun _ => rfl)

theorem ids_requestAPIVersions : Ids requestAPIVersions :=
  (ids_request lawful_apiVersions).bind fun _ => (ids_readParse _ _).bind fun x => (ids_checkError x).bind fun _ =>
    ids_asAPIVersions x

theorem ids_createConnAndAuth : Ids createConnAndAuth := by
  refine ids_createConn.bind fun _ => ids_requestAPIVersions.wrap.bind fun vs => ⟨fun b => ?_⟩
  simp only
  split
  · exact (ids_sendSaslAuthenticate b.sasl).step { b with apiVersions := vs }
  · exact ⟨[], by simp, rfl, by simp⟩

theorem ids_fetch {r : Req} (h : r.Lawful) : Ids (requestFetchStreamingly r) := by
  refine (ids_ensureOpenWith ids_createConnAndAuth).bind fun _ => Ids.locked ⟨fun b => ?_⟩
  simp only [bind, B.bind, nextCorrelationID, negotiated, B.lift]
  generalize getHighestAvailableAPIVersion b.apiVersions API_FetchRequest = v
  cases he : r.encode v (b.correlationID + 1) with
  | err e => exact absurd he (h.noErr _ _ _)
  | panic => exact ⟨[], by simp, rfl, by simp [Ret.live]⟩
  | ok p =>
    have hc := h.corr _ _ _ he
    simp only [requestStreamingly, send]
    cases hb : b.conn with
    | none => exact ⟨[], by simp, rfl, by simp [Ret.live]⟩
    | some c =>
      simp only
      by_cases hp : p.length < 12
      · simp only [if_pos hp]; exact ⟨[], by simp, rfl, by simp [Ret.live]⟩
      · simp only [if_neg hp]
        cases c.writes c.written <;> simp only [awaitLength] <;> rcases readLength c.reads with ⟨_ | _ | _, _⟩ <;>
          exact ⟨[p], by simp [attempts, Act.attempt, closeBroker], by simp [ids, hc], by simp [Ret.live, closeBroker]⟩

/-- The requests of a call are lawful. -/
def Call.Lawful : Call → Prop
  | .get r => r.Lawful
  | .fetch r => r.Lawful
  | .close => True

theorem ids_call {c : Call} (h : c.Lawful) : Ids c.run := by
  cases c with
  | get r => exact (ids_requestAndGetWith ids_createConnAndAuth h).bind fun _ => .pure _
  | fetch r => exact (ids_fetch h).bind fun _ => .pure _
  | close => exact ids_closeBroker.bind fun _ => .pure _

theorem ids_runCalls (cs : List Call) (h : ∀ c ∈ cs, c.Lawful) (b : Broker) :
    ∃ ps, attempts (runCalls cs b).2.log = attempts b.log ++ ps ∧ ps.map corrField = ids b.correlationID ps.length := by
  induction cs generalizing b with
  | nil => exact ⟨[], by simp [runCalls], rfl⟩
  | cons c cs ih =>
    obtain ⟨ps, h1, h2, h3⟩ := (ids_call (h c (.head _))).step b
    have ih' := ih (fun x hx => h x (.tail _ hx)) (c.run b).2
    revert h1 h3 ih'
    simp only [runCalls]
    generalize c.run b = z
    obtain ⟨x, b'⟩ := z
    intro h1 h3 ih'
    have live : x.live = true → ∃ qs, attempts (runCalls cs b').2.log = attempts b.log ++ qs ∧
        qs.map corrField = ids b.correlationID qs.length := by
      intro hl
      obtain ⟨qs, g1, g2⟩ := ih'
      refine ⟨ps ++ qs, by rw [g1, h1, List.append_assoc], ?_⟩
      rw [List.map_append, h2, g2, List.length_append, ids_add, h3 hl]
    cases x with
    | ok a => exact live rfl
    | err e => exact live rfl
    | panic => exact ⟨ps, h1, h2⟩
    | hang => exact ⟨ps, h1, h2⟩

/-- C30: over the whole life of a broker object (opening, authentication, any requests, fetches, closes,
failures and re-openings), the requests it attempts to send carry the correlation ids 1, 2, 3, ... modulo 2^32. -/
theorem C30_consecutive (sasl : SaslConfig) (dials : List (Except Err Script)) (cs : List Call)
    (h : ∀ c ∈ cs, c.Lawful) (hn : (newBroker sasl dials).1 = .ok ()) :
    let sent := attempts (runCalls cs (newBroker sasl dials).2).2.log
    ∀ i p, sent[i]? = some p → corrField p = Kafka.int32 (((i + 1) % 2 ^ 32 : Nat)) := by
  intro sent i p hp
  obtain ⟨ps, h1, h2, h3⟩ := ids_createConnAndAuth.step ⟨sasl, none, [], 0, false, dials, 0, []⟩
  obtain ⟨qs, g1, g2⟩ := ids_runCalls cs h (newBroker sasl dials).2
  have hl : (createConnAndAuth ⟨sasl, none, [], 0, false, dials, 0, []⟩).1.live = true := by
    change (newBroker sasl dials).1.live = true
    rw [hn]; rfl
  have hs : sent = ps ++ qs := by
    change attempts _ = _
    rw [g1]
    change attempts (createConnAndAuth _).2.log ++ qs = _
    rw [h1]; rfl
  have hall : sent.map corrField = ids 0 sent.length := by
    rw [hs, List.map_append, h2, g2, List.length_append, ids_add]
    have : (newBroker sasl dials).2.correlationID = _ := h3 hl
    rw [this]
  have hi : i < sent.length := by
    rcases List.getElem?_eq_some_iff.mp hp with ⟨h, _⟩; exact h
  have e1 : (sent.map corrField)[i]? = some (corrField p) := by rw [List.getElem?_map, hp]; rfl
  rw [hall] at e1
  unfold ids at e1
  rw [List.getElem?_map, List.getElem?_range hi] at e1
  simp only [Option.map_some, Option.some.injEq] at e1
  rw [← e1]
  congr 2
  simp only [UInt32.toNat_add, UInt32.toNat_ofNat']
  simp
  omega

/-- C30: any two of 2^32 consecutive requests carry different correlation ids. -/
theorem C30_distinct (sasl : SaslConfig) (dials : List (Except Err Script)) (cs : List Call)
    (h : ∀ c ∈ cs, c.Lawful) (hn : (newBroker sasl dials).1 = .ok ()) (i j : Nat) (p q : Bytes) (hij : i < j)
    (hw : j - i < 2 ^ 32)
    (hp : (attempts (runCalls cs (newBroker sasl dials).2).2.log)[i]? = some p)
    (hq : (attempts (runCalls cs (newBroker sasl dials).2).2.log)[j]? = some q) : corrField p ≠ corrField q := by
  rw [C30_consecutive sasl dials cs h hn i p hp, C30_consecutive sasl dials cs h hn j q hq]
  intro e
  have hi : (i + 1) % 2 ^ 32 < 2 ^ 32 := Nat.mod_lt _ (by omega)
  have hj : (j + 1) % 2 ^ 32 < 2 ^ 32 := Nat.mod_lt _ (by omega)
  have h1 := rdU32_int32 _ hi
  have h2 := rdU32_int32 _ hj
  rw [e, h2] at h1
  have := congrArg UInt32.toNat (by injection h1 with h; injection h : UInt32.ofNat ((j + 1) % 2 ^ 32) = UInt32.ofNat ((i + 1) % 2 ^ 32))
  rw [toNat_u32 _ hi, toNat_u32 _ hj] at this
  omega

/-! ## C29: every request gets its own answer -/

/-- What a broker that answers in order puts on a connection: a prefix, split anyhow, of the frames of the
answers; after a failure there is no more data. -/
structure Delivers (evs : List Ev) (answers : List Bytes) : Prop where
  split : ∃ (chunks : List Bytes) (tail : List Ev) (missing : Bytes), evs = chunks.map .data ++ tail ∧
    (∀ x ∈ tail, ∃ e, x = .fail e) ∧ chunks.flatten ++ missing = (answers.map Kafka.frame).flatten

/-- Answers hold at least a correlation id and their length fits the length prefix. -/
def AnswerOk (a : Bytes) : Prop := 4 ≤ a.length ∧ a.length < 2 ^ 32

/-- The requests written on a connection, in order. -/
def sendsOn (log : List Act) (id : Nat) : List Bytes :=
  log.filterMap fun a => match a with
    | .send i p => if i = id then some p else none
    | _ => none

/-- `resp` is the answer to request `r`, which was the last request written: decoding the answer found at the
position that request has on its connection gives `resp`. -/
def Own (answers : Nat → List Bytes) (r : Req) (log : List Act) (resp : Response) : Prop :=
  ∃ id pre payload corr version body, log = pre ++ [.send id payload] ∧ r.encode version corr = .ok payload ∧
    (answers id)[(sendsOn pre id).length]? = some body ∧ parse r.api version (Kafka.frame body) = .ok (resp, none)

/-- Nothing but failures left. -/
theorem delivers_dead {evs : List Ev} (h : ∀ x ∈ evs, ∃ e, x = .fail e) (answers : List Bytes) : Delivers evs answers :=
  ⟨[], evs, _, rfl, h, rfl⟩

/-- Reading from a connection whose data is used up fails and leaves only failures. -/
theorem connRead_fails (need : Nat) (hn : 0 < need) :
    ∀ (chunks : List Bytes) (tail : List Ev), (∀ x ∈ tail, ∃ e, x = .fail e) → chunks.flatten.length < need →
      ∃ e evs', connRead need (chunks.map .data ++ tail) = (.err e, evs') ∧ ∀ x ∈ evs', ∃ e, x = .fail e := by
  intro chunks
  induction chunks generalizing need with
  | nil =>
    intro tail ht _
    obtain ⟨n, rfl⟩ : ∃ n, need = n + 1 := ⟨need - 1, by omega⟩
    cases tail with
    | nil => exact ⟨.eof, [], rfl, by simp⟩
    | cons x xs =>
      obtain ⟨e, rfl⟩ := ht x (.head _)
      exact ⟨e, xs, rfl, fun y hy => ht y (.tail _ hy)⟩
  | cons c cs ih =>
    intro tail ht h
    rw [List.flatten_cons, List.length_append] at h
    obtain ⟨n, rfl⟩ : ∃ n, need = n + 1 := ⟨need - 1, by omega⟩
    simp only [List.map_cons, List.cons_append, connRead]
    rw [if_neg (by omega)]
    obtain ⟨e, evs', h1, h2⟩ := ih (n + 1 - c.length) (by omega) tail ht (by omega)
    rw [h1]
    exact ⟨e, evs', rfl, h2⟩

/-- Reading a frame from a broker that answers in order gives the next answer, or fails for good. -/
theorem readFrame_delivers {evs : List Ev} {answers : List Bytes} (ha : ∀ a ∈ answers, AnswerOk a)
    (h : Delivers evs answers) :
    (∃ a as evs', answers = a :: as ∧ readFrame evs = (.ok (Kafka.frame a), evs') ∧ Delivers evs' as) ∨
    (∃ e evs', readFrame evs = (.err e, evs') ∧ ∀ x ∈ evs', ∃ e, x = .fail e) := by
  obtain ⟨chunks, tail, missing, rfl, ht, hf⟩ := h.split
  have short : chunks.flatten.length < 4 → ∃ e evs', readFrame (chunks.map .data ++ tail) = (.err e, evs') ∧
      ∀ x ∈ evs', ∃ e, x = .fail e := by
    intro h4
    obtain ⟨e, evs', h1, h2⟩ := connRead_fails 4 (by omega) chunks tail ht h4
    refine ⟨e, evs', ?_, h2⟩
    unfold readFrame
    rw [h1]
  cases answers with
  | nil =>
    right
    simp only [List.map_nil, List.flatten_nil, List.append_eq_nil_iff] at hf
    exact short (by rw [hf.1]; simp)
  | cons a as =>
    obtain ⟨ha4, hal⟩ := ha a (.head _)
    rw [List.map_cons, List.flatten_cons] at hf
    have hlen := congrArg List.length hf
    have hfl : (Kafka.frame a).length = 4 + a.length := by unfold Kafka.frame; rw [List.length_append, int32_length]
    by_cases hc : (Kafka.frame a).length ≤ chunks.flatten.length
    · left
      have hpre : chunks.flatten = Kafka.frame a ++ chunks.flatten.drop (Kafka.frame a).length := by
        have := congrArg (List.take (Kafka.frame a).length) hf
        rw [List.take_append_of_le_length hc, List.take_left' rfl] at this
        exact eq_append_drop this.symm
      obtain ⟨left, h1, h2⟩ := C28_chunking_partial a _ chunks tail ha4 hal hpre
      refine ⟨a, as, _, rfl, h2, left, tail, missing, rfl, ht, ?_⟩
      rw [hpre, List.append_assoc] at hf
      rw [h1]
      exact List.append_cancel_left hf
    · right
      by_cases h4 : chunks.flatten.length < 4
      · exact short h4
      · have hpre : chunks.flatten = Kafka.int32 a.length ++ chunks.flatten.drop 4 := by
          have := congrArg (List.take 4) hf
          unfold Kafka.frame at this
          rw [List.take_append_of_le_length (by omega), List.append_assoc, List.take_left' (int32_length _)] at this
          exact eq_append_drop this.symm
        obtain ⟨l1, h1, r1⟩ := connRead_data _ _ tail chunks hpre
        rw [int32_length] at r1
        obtain ⟨e, evs', g1, g2⟩ := connRead_fails a.length (by omega) l1 tail ht (by
          rw [h1, List.length_drop]; omega)
        refine ⟨e, evs', ?_, g2⟩
        unfold readFrame
        rw [r1]
        simp only [rdU32_int32 _ hal]
        rw [toNat_u32 _ hal, g1]

/-- The state of a broker object talking to brokers that answer in order: `answers i` is what the connection of
the i-th dial attempt delivers; `k` requests are written but not yet read. -/
structure InOrder (answers : Nat → List Bytes) (k : Nat) (b : Broker) : Prop where
  conn : ∀ c, b.conn = some c → c.id < b.dialed ∧ k ≤ (sendsOn b.log c.id).length ∧
    Delivers c.reads ((answers c.id).drop ((sendsOn b.log c.id).length - k))
  dials : ∀ j s, b.dials[j]? = some (.ok s) → Delivers s.reads (answers (b.dialed + j))
  fresh : ∀ id, b.dialed ≤ id → sendsOn b.log id = []

theorem sendsOn_append (log : List Act) (a : Act) (id : Nat) :
    sendsOn (log ++ [a]) id = sendsOn log id ++ sendsOn [a] id := by
  unfold sendsOn
  rw [List.filterMap_append]

/-- Code that keeps a broker object in order. -/
structure KeepsOrder (answers : Nat → List Bytes) {α : Type} (m : B α) : Prop where
  keeps : ∀ b, InOrder answers 0 b → InOrder answers 0 (m b).2

theorem KeepsOrder.bind {answers : Nat → List Bytes} {α β : Type} {m : B α} {f : α → B β} (hm : KeepsOrder answers m)
    (hf : ∀ a, KeepsOrder answers (f a)) : KeepsOrder answers (m >>= f) := by
  refine ⟨fun b hb => ?_⟩
  have := hm.keeps b hb
  change InOrder answers 0 (B.bind m f b).2
  unfold B.bind
  rcases hmb : m b with ⟨x, b'⟩
  rw [hmb] at this
  cases x with
  | ok a => exact (hf a).keeps b' this
  | err e => exact this
  | panic => exact this
  | hang => exact this

/-- Changing fields that do not matter. -/
theorem InOrder.same {answers : Nat → List Bytes} {k : Nat} {b b' : Broker} (h : InOrder answers k b)
    (h1 : b'.conn = b.conn) (h2 : b'.dials = b.dials) (h3 : b'.dialed = b.dialed) (h4 : b'.log = b.log) :
    InOrder answers k b' :=
  ⟨by rw [h1, h3, h4]; exact h.conn, by rw [h2, h3]; exact h.dials, by rw [h3, h4]; exact h.fresh⟩

theorem keepsOrder_pure {answers : Nat → List Bytes} {α : Type} (o : Ret α) : KeepsOrder answers (fun b => (o, b)) :=
  ⟨fun _ h => h⟩

theorem keepsOrder_close (answers : Nat → List Bytes) : KeepsOrder answers closeBroker := by
  refine ⟨fun b h => ?_⟩
  unfold closeBroker
  cases hc : b.conn with
  | none => exact h
  | some c =>
    refine ⟨by simp, h.dials, fun id hid => ?_⟩
    simp only [sendsOn_append, h.fresh id hid]
    rfl

theorem keepsOrder_createConn (answers : Nat → List Bytes) : KeepsOrder answers createConn := by
  refine ⟨fun b h => ?_⟩
  simp only [createConn, dial, bind, B.bind]
  cases hd : b.dials with
  | nil => 
    refine ⟨fun c hc => ?_, by simp, fun id hid => h.fresh id (by simp only at hid; omega)⟩
    obtain ⟨h1, h2, h3⟩ := h.conn c hc
    exact ⟨by simp only; omega, h2, h3⟩
  | cons x xs =>
    have tail : ∀ j s, xs[j]? = some (.ok s) → Delivers s.reads (answers (b.dialed + 1 + j)) := by
      intro j s hs
      have := h.dials (j + 1) s (by rw [hd, List.getElem?_cons_succ]; exact hs)
      rwa [show b.dialed + 1 + j = b.dialed + (j + 1) by omega]
    cases x with
    | error e =>
      refine ⟨fun c hc => ?_, tail, fun id hid => h.fresh id (by simp only at hid; omega)⟩
      obtain ⟨h1, h2, h3⟩ := h.conn c hc
      exact ⟨by simp only; omega, h2, h3⟩
    | ok s =>
      refine ⟨fun c hc => ?_, tail, fun id hid => ?_⟩
      · simp only [Option.some.injEq] at hc
        subst hc
        have hf := h.fresh b.dialed (Nat.le_refl _)
        refine ⟨by simp, by simp, ?_⟩
        simp only [sendsOn_append, hf]
        have := h.dials 0 s (by rw [hd]; rfl)
        exact this
      · simp only [sendsOn_append, h.fresh id (by simp only at hid; omega)]
        rfl

/-- Writing a request, then reading its answer. -/
theorem order_request {answers : Nat → List Bytes} {b : Broker} (r : Req) (h : InOrder answers 0 b) :
    (∀ v b', request r b = (.ok v, b') → InOrder answers 1 b' ∧ ∃ id pre payload corr, b'.log = pre ++ [.send id payload] ∧
      r.encode v corr = .ok payload ∧ ∃ c, b'.conn = some c ∧ c.id = id) ∧
    ((∀ v, (request r b).1 ≠ .ok v) → InOrder answers 0 (request r b).2) := by
  simp only [request, bind, B.bind, nextCorrelationID, negotiated, B.lift, B.wrap, send, pure, B.pure]
  generalize getHighestAvailableAPIVersion b.apiVersions r.api = v
  have h' : InOrder answers 0 { b with correlationID := b.correlationID + 1 } := h.same rfl rfl rfl rfl
  cases he : r.encode v (b.correlationID + 1) with
  | err e => exact ⟨by simp, fun _ => h'⟩
  | panic => exact ⟨by simp, fun _ => h'⟩
  | ok p =>
    cases hb : b.conn with
    | none => exact ⟨by simp, fun _ => h'.same hb.symm rfl rfl rfl⟩
    | some c =>
      simp only
      by_cases hp : p.length < 12
      · simp only [if_pos hp]; exact ⟨by simp, fun _ => h'.same hb.symm rfl rfl rfl⟩
      · simp only [if_neg hp]
        obtain ⟨h1, h2, h3⟩ := h.conn c hb
        cases c.writes c.written with
        | none =>
          refine ⟨fun w b' hw => ?_, by simp⟩
          simp only [Prod.mk.injEq, Ret.ok.injEq] at hw
          obtain ⟨rfl, rfl⟩ := hw
          refine ⟨⟨fun d hd => ?_, h.dials, fun id hid => ?_⟩, c.id, b.log, p, b.correlationID + 1, rfl, he, _, rfl, rfl⟩
          · simp only [Option.some.injEq] at hd
            subst hd
            have hone : (sendsOn [Act.send c.id p] c.id).length = 1 := by simp [sendsOn]
            refine ⟨h1, ?_, ?_⟩ <;> simp only [sendsOn_append, List.length_append, hone]
            · omega
            · exact h3
          · have : c.id ≠ id := by simp only at hid; omega
            simp only [sendsOn_append, h.fresh id hid]
            simp [sendsOn, this]
        | some e =>
          refine ⟨by simp, fun _ => ⟨fun d hd => ?_, h.dials, fun id hid => ?_⟩⟩
          · simp only [Option.some.injEq] at hd
            subst hd
            have hz : sendsOn [Act.sendFailed c.id p] c.id = [] := rfl
            refine ⟨h1, ?_, ?_⟩ <;> simp only [sendsOn_append, hz, List.append_nil]
            · omega
            · exact h3
          · simp only [sendsOn_append, h.fresh id hid]
            rfl

theorem order_readParse {answers : Nat → List Bytes} (ha : ∀ i, ∀ a ∈ answers i, AnswerOk a) {b : Broker}
    (api version : UInt16) (h : InOrder answers 1 b) :
    InOrder answers 0 (readParse api version b).2 ∧ (readParse api version b).2.log = b.log ∧
    ∀ resp, (readParse api version b).1 = .ok resp → ∃ c body, b.conn = some c ∧
      (answers c.id)[(sendsOn b.log c.id).length - 1]? = some body ∧
      parse api version (Kafka.frame body) = .ok (resp, none) := by
  unfold readParse
  cases hb : b.conn with
  | none => exact ⟨⟨by simp [hb], h.dials, h.fresh⟩, rfl, by simp⟩
  | some c =>
    obtain ⟨h1, h2, h3⟩ := h.conn c hb
    have hsuf : ∀ a ∈ (answers c.id).drop ((sendsOn b.log c.id).length - 1), AnswerOk a :=
      fun a hm => ha c.id a (List.mem_of_mem_drop hm)
    have keep : ∀ evs', Delivers evs' ((answers c.id).drop ((sendsOn b.log c.id).length - 0)) →
        InOrder answers 0 { b with conn := some { c with reads := evs' } } := by
      intro evs' hd
      refine ⟨fun d hd' => ?_, h.dials, h.fresh⟩
      simp only [Option.some.injEq] at hd'
      subst hd'
      exact ⟨h1, Nat.zero_le _, hd⟩
    simp only [readAndParse]
    rcases readFrame_delivers hsuf h3 with ⟨a, as, evs', hcons, hr, hd⟩ | ⟨e, evs', hr, hdead⟩
    · rw [hr]
      have hd' : Delivers evs' ((answers c.id).drop ((sendsOn b.log c.id).length - 0)) := by
        have : (answers c.id).drop ((sendsOn b.log c.id).length - 0) = as := by
          have := congrArg (List.drop 1) hcons
          rw [List.drop_drop] at this
          rw [show (sendsOn b.log c.id).length - 0 = (sendsOn b.log c.id).length - 1 + 1 by omega]
          exact this
        rw [this]; exact hd
      have hbody : (answers c.id)[(sendsOn b.log c.id).length - 1]? = some a := by
        have := congrArg (fun l => l[0]?) hcons
        simp only [List.getElem?_drop, Nat.add_zero] at this
        exact this
      simp only
      cases hp : parse api version (Kafka.frame a) with
      | ok x =>
        obtain ⟨r, e⟩ := x
        cases e with
        | none =>
          refine ⟨keep _ hd', rfl, fun resp hresp => ⟨c, a, rfl, hbody, ?_⟩⟩
          simp only [Ret.ok.injEq] at hresp
          rw [hp, hresp]
        | some e => exact ⟨keep _ hd', rfl, by simp⟩
      | err e => exact ⟨keep _ hd', rfl, by simp⟩
      | panic => exact ⟨keep _ hd', rfl, by simp⟩
    · rw [hr]
      exact ⟨keep _ (delivers_dead hdead _), rfl, by simp⟩

/-- Write a request, read its answer, go on with it. -/
theorem keepsOrder_talk {answers : Nat → List Bytes} (ha : ∀ i, ∀ a ∈ answers i, AnswerOk a) {α : Type} (r : Req)
    {f : Response → B α} (hf : ∀ x, KeepsOrder answers (f x)) :
    KeepsOrder answers (do
      let v ← request r
      let x ← readParse r.api v
      f x) := by
  refine ⟨fun b hb => ?_⟩
  obtain ⟨hok, hno⟩ := order_request r hb
  change InOrder answers 0 (B.bind (request r) (fun v => B.bind (readParse r.api v) f) b).2
  unfold B.bind
  rcases hr : request r b with ⟨x, b'⟩
  rw [hr] at hno
  cases x with
  | ok v =>
    obtain ⟨h1, -⟩ := hok v b' hr
    have := (order_readParse ha r.api v h1).1
    simp only
    rcases hp : readParse r.api v b' with ⟨y, b''⟩
    rw [hp] at this
    cases y with
    | ok x => exact (hf x).keeps b'' this
    | err e => exact this
    | panic => exact this
    | hang => exact this
  | err e => exact hno (by simp)
  | panic => exact hno (by simp)
  | hang => exact hno (by simp)

theorem keepsOrder_checkError (answers : Nat → List Bytes) (r : Response) : KeepsOrder answers (checkError r) := by
  unfold checkError
  rcases r.error with (_ | _) | _ | _ <;> exact ⟨fun _ h => h⟩

/-- `exchange` before the deferred function -/
def exchangeBody (r : Req) : B Response := do
  let version ← request r
  let resp ← readParse r.api version
  checkError resp
  pure resp

theorem exchange_eq (r : Req) (b : Broker) : exchange r b = (match exchangeBody r b with
    | (.err e, b') => if closesConn e then (.err e, (closeBroker b').2) else (.err e, b')
    | x => x) := rfl

theorem keepsOrder_exchange {answers : Nat → List Bytes} (ha : ∀ i, ∀ a ∈ answers i, AnswerOk a) (r : Req) :
    KeepsOrder answers (exchange r) := by
  refine ⟨fun b hb => ?_⟩
  have hk : KeepsOrder answers (exchangeBody r) :=
    keepsOrder_talk ha r fun x => (keepsOrder_checkError _ x).bind fun _ => keepsOrder_pure _
  have := hk.keeps b hb
  rw [exchange_eq]
  rcases hx : exchangeBody r b with ⟨x, b'⟩
  rw [hx] at this
  cases x with
  | err e =>
    simp only
    split
    · exact (keepsOrder_close answers).keeps b' this
    · exact this
  | ok a => exact this
  | panic => exact this
  | hang => exact this

/-- The response of a successful exchange is the answer to the request. -/
theorem exchange_own {answers : Nat → List Bytes} (ha : ∀ i, ∀ a ∈ answers i, AnswerOk a) (r : Req) {b b' : Broker}
    {resp : Response} (hb : InOrder answers 0 b) (h : exchange r b = (.ok resp, b')) : Own answers r b'.log resp := by
  have hx : exchangeBody r b = (.ok resp, b') := by
    rw [exchange_eq] at h
    rcases hx : exchangeBody r b with ⟨x, b''⟩
    rw [hx] at h
    cases x with
    | err e => simp only at h; split at h <;> cases h
    | ok a => exact h
    | panic => exact h
    | hang => exact h
  change B.bind (request r) (fun v => B.bind (readParse r.api v) (fun x => B.bind (checkError x) fun _ => B.pure x)) b = _ at hx
  unfold B.bind at hx
  obtain ⟨hok, -⟩ := order_request r hb
  rcases hr : request r b with ⟨x, b1⟩
  rw [hr] at hx
  cases x with
  | ok v =>
    obtain ⟨h1, id, pre, payload, corr, hlog, henc, c, hconn, hcid⟩ := hok v b1 hr
    obtain ⟨-, hsame, hans⟩ := order_readParse ha r.api v h1
    simp only at hx
    rcases hp : readParse r.api v b1 with ⟨y, b2⟩
    rw [hp] at hx hsame hans
    cases y with
    | ok z =>
      obtain ⟨c', body, hc', hbody, hparse⟩ := hans z rfl
      rw [hconn] at hc'
      cases hc'
      simp only at hx
      have hfin : checkError z b2 = (.ok (), b2) ∧ z = resp ∧ b2 = b' := by
        have hce : (checkError z b2).2 = b2 := by
          unfold checkError
          rcases z.error with (_ | _) | _ | _ <;> rfl
        rcases hce' : checkError z b2 with ⟨w, b3⟩
        rw [hce'] at hx hce
        simp only at hce
        subst hce
        cases w with
        | ok u =>
          simp only [B.pure, Prod.mk.injEq, Ret.ok.injEq] at hx
          exact ⟨rfl, hx.1, hx.2⟩
        | err e => cases hx
        | panic => cases hx
        | hang => cases hx
      obtain ⟨-, rfl, rfl⟩ := hfin
      simp only at hsame
      refine ⟨id, pre, payload, corr, v, body, by rw [hsame, hlog], henc, ?_, hparse⟩
      rw [hlog, sendsOn_append, hcid] at hbody
      have hone : (sendsOn [Act.send id payload] id).length = 1 := by simp [sendsOn]
      rw [List.length_append, hone, Nat.add_sub_cancel] at hbody
      exact hbody
    | err e => cases hx
    | panic => cases hx
    | hang => cases hx
  | err e => cases hx
  | panic => cases hx
  | hang => cases hx

theorem KeepsOrder.locked {answers : Nat → List Bytes} {α : Type} {m : B α} (h : KeepsOrder answers m) :
    KeepsOrder answers (locked m) := by
  refine ⟨fun b hb => ?_⟩
  unfold Healer.locked
  split
  · exact hb
  · have := h.keeps { b with mux := true } (hb.same rfl rfl rfl rfl)
    rcases hmb : m { b with mux := true } with ⟨x, b'⟩
    rw [hmb] at this
    cases x <;> exact this.same rfl rfl rfl rfl

theorem KeepsOrder.wrap {answers : Nat → List Bytes} {α : Type} {m : B α} (h : KeepsOrder answers m) :
    KeepsOrder answers (B.wrap m) := by
  refine ⟨fun b hb => ?_⟩
  have := h.keeps b hb
  unfold B.wrap
  rcases hmb : m b with ⟨x, b'⟩
  rw [hmb] at this
  cases x <;> exact this

theorem keepsOrder_ensureOpenWith {answers : Nat → List Bytes} {m : B Unit} (h : KeepsOrder answers m) :
    KeepsOrder answers (ensureOpenWith m) := by
  refine ⟨fun b hb => ?_⟩
  unfold ensureOpenWith
  cases hc : b.conn with
  | some c => exact hb
  | none => exact h.keeps b hb

theorem keepsOrder_requestAndGetWith {answers : Nat → List Bytes} (ha : ∀ i, ∀ a ∈ answers i, AnswerOk a) {m : B Unit}
    (h : KeepsOrder answers m) (r : Req) : KeepsOrder answers (requestAndGetWith m r) :=
  ((keepsOrder_ensureOpenWith h).bind fun _ => keepsOrder_exchange ha r).locked

theorem keepsOrder_requestAndGetOpt {answers : Nat → List Bytes} (ha : ∀ i, ∀ a ∈ answers i, AnswerOk a) (o : Option Req) :
    KeepsOrder answers (requestAndGetOpt o) := by
  cases o with
  | some r => exact keepsOrder_requestAndGetWith ha (keepsOrder_pure _) r
  | none =>
    exact KeepsOrder.locked ((keepsOrder_ensureOpenWith (keepsOrder_pure _)).bind fun _ =>
      .bind ⟨fun _ h => h.same rfl rfl rfl rfl⟩ fun _ => keepsOrder_pure _)

theorem keepsOrder_asAPIVersions (answers : Nat → List Bytes) (r : Response) : KeepsOrder answers (asAPIVersions r) := by
  cases r <;> exact keepsOrder_pure _

theorem keepsOrder_createConnAndAuth {answers : Nat → List Bytes} (ha : ∀ i, ∀ a ∈ answers i, AnswerOk a) :
    KeepsOrder answers createConnAndAuth := by
  have hv : KeepsOrder answers requestAPIVersions :=
    keepsOrder_talk ha apiVersionsReq fun x => (keepsOrder_checkError _ x).bind fun _ => keepsOrder_asAPIVersions _ x
  refine (keepsOrder_createConn answers).bind fun _ => hv.wrap.bind fun vs => ⟨fun b hb => ?_⟩
  have hb' : InOrder answers 0 { b with apiVersions := vs } := hb.same rfl rfl rfl rfl
  simp only
  split
  · have hs : KeepsOrder answers (sendSaslAuthenticate b.sasl) :=
      (keepsOrder_requestAndGetWith ha (keepsOrder_pure _) _).bind fun _ =>
        (keepsOrder_requestAndGetOpt ha _).bind fun _ => keepsOrder_pure _
    exact hs.keeps _ hb'
  · exact hb'

theorem B.bind_ok {α β : Type} {m : B α} {f : α → B β} {b b' : Broker} {y : β} (h : (m >>= f) b = (.ok y, b')) :
    ∃ x b1, m b = (.ok x, b1) ∧ f x b1 = (.ok y, b') := by
  change B.bind m f b = _ at h
  unfold B.bind at h
  rcases hm : m b with ⟨x, b1⟩
  rw [hm] at h
  cases x with
  | ok a => exact ⟨a, b1, rfl, h⟩
  | err e => cases h
  | panic => cases h
  | hang => cases h

theorem locked_ok {α : Type} {m : B α} {b b' : Broker} {y : α} (h : locked m b = (.ok y, b')) :
    ∃ b2, m { b with mux := true } = (.ok y, b2) ∧ b' = { b2 with mux := false } := by
  unfold Healer.locked at h
  split at h
  · cases h
  · rcases hm : m { b with mux := true } with ⟨x, b2⟩
    rw [hm] at h
    cases x with
    | ok a =>
      simp only [Prod.mk.injEq, Ret.ok.injEq] at h
      obtain ⟨rfl, rfl⟩ := h
      exact ⟨b2, rfl, rfl⟩
    | err e => cases h
    | panic => cases h
    | hang => cases h

/-- Calls other than fetches. -/
def Call.isGet : Call → Bool
  | .fetch _ => false
  | _ => true

theorem keepsOrder_runCalls {answers : Nat → List Bytes} (ha : ∀ i, ∀ a ∈ answers i, AnswerOk a) (cs : List Call)
    (h : ∀ c ∈ cs, c.isGet = true) (b : Broker) (hb : InOrder answers 0 b) : InOrder answers 0 (runCalls cs b).2 := by
  induction cs generalizing b with
  | nil => exact hb
  | cons c cs ih =>
    have hc : KeepsOrder answers c.run := by
      cases c with
      | get r => exact (keepsOrder_requestAndGetWith ha (keepsOrder_createConnAndAuth ha) r).bind fun _ => keepsOrder_pure _
      | fetch r => exact absurd (h _ (.head _)) (by simp [Call.isGet])
      | close => exact (keepsOrder_close answers).bind fun _ => keepsOrder_pure _
    have h1 := hc.keeps b hb
    have h2 := ih (fun x hx => h x (.tail _ hx)) _ h1
    revert h1 h2
    simp only [runCalls]
    generalize c.run b = z
    obtain ⟨x, b'⟩ := z
    intro h1 h2
    cases x with
    | ok a => exact h2
    | err e => exact h2
    | panic => exact h1
    | hang => exact h1

theorem requestAndGetWith_own {answers : Nat → List Bytes} (ha : ∀ i, ∀ a ∈ answers i, AnswerOk a) {m : B Unit}
    (hm : KeepsOrder answers m) {r : Req} {b b' : Broker} {resp : Response} (hb : InOrder answers 0 b)
    (h : requestAndGetWith m r b = (.ok resp, b')) : Own answers r b'.log resp := by
  obtain ⟨b2, hb2, rfl⟩ := locked_ok h
  obtain ⟨u, b1, he, hx⟩ := B.bind_ok hb2
  have h2 := (keepsOrder_ensureOpenWith hm).keeps { b with mux := true } (hb.same rfl rfl rfl rfl)
  rw [he] at h2
  exact (exchange_own ha r (b := b1) h2 hx : Own answers r b2.log resp)

theorem inOrder_start {answers : Nat → List Bytes} (sasl : SaslConfig)
    (dials : List (Except Err Script)) (hd : ∀ j s, dials[j]? = some (.ok s) → Delivers s.reads (answers j)) :
    InOrder answers 0 ⟨sasl, none, [], 0, false, dials, 0, []⟩ :=
  ⟨by simp, fun j s hs => by simpa using hd j s hs, fun _ _ => rfl⟩

/-- C29: let every connection carry, split in any way, the answers of a broker that answers in order, possibly cut
off by a failure after which nothing more arrives.  Then after any history of requests, failed requests, closes
and re-openings, the response a request gets is the answer to that very request.  Missing: connections that
deliver data after a failure, as they do after a timeout (`C29_violated_timeout`). -/
theorem C29_own_partial (answers : Nat → List Bytes) (ha : ∀ i, ∀ a ∈ answers i, AnswerOk a) (sasl : SaslConfig)
    (dials : List (Except Err Script)) (hd : ∀ j s, dials[j]? = some (.ok s) → Delivers s.reads (answers j))
    (cs : List Call) (hcs : ∀ c ∈ cs, c.isGet = true) (r : Req) (resp : Response) (b' : Broker)
    (h : requestAndGet r (runCalls cs (newBroker sasl dials).2).2 = (.ok resp, b')) : Own answers r b'.log resp := by
  have h0 := inOrder_start sasl dials hd
  have h1 := keepsOrder_runCalls ha cs hcs _ ((keepsOrder_createConnAndAuth ha).keeps _ h0)
  exact requestAndGetWith_own ha (keepsOrder_createConnAndAuth ha) h1 h

end Healer
