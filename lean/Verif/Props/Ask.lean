import Verif.Model.Ask
import Verif.Props.Dispatch
import Verif.Props.Request

/-!
# C138: a broker operation sends the request it names and returns what was answered

On an open connection whose write succeeds: exactly one request goes out, with the content given by the caller, the
version agreed with the broker and the next correlation id; and whatever pieces the answer arrives in, the caller
gets its content and its error.
-/

namespace Healer

open Kafka (IsString)

theorem askBind {α β : Type} (m : B α) (f : α → B β) : m >>= f = B.bind m f := rfl

theorem askPure {α : Type} (a : α) : (pure a : B α) = B.pure a := rfl

/-- The two models of `RequestAndGet` agree: the one used for the broker's histories (C31, C32, C101, C118) only
forgets the response that accompanies an error. -/
theorem requestBoth_eq (r : Req) (b : Broker) :
    requestAndGet r b = match requestBoth r b with
      | (.ok (some resp, none), b') => (.ok resp, b')
      | (.ok (_, some e), b') => (.err e, b')
      | (.ok (none, none), b') => (.panic, b')
      | (.err e, b') => (.err e, b')
      | (.panic, b') => (.panic, b')
      | (.hang, b') => (.hang, b') := by
  unfold requestAndGet requestAndGetWith requestBoth locked
  by_cases hm : b.mux = true
  · simp only [hm, if_true]
  simp only [hm, if_false, Bool.false_eq_true]
  simp only [askBind]
  unfold B.bind ensureOpen
  rcases ho : ensureOpenWith createConnAndAuth { b with mux := true } with ⟨o, b1⟩
  cases o with
  | ok u =>
    simp only []
    unfold exchange exchangeBoth
    simp only [askBind, askPure]
    unfold B.bind B.pure
    rcases hr : request r b1 with ⟨o2, b2⟩
    cases o2 with
    | ok v =>
      simp only []
      rcases hp : readParse r.api v b2 with ⟨o3, b3⟩
      cases o3 with
      | ok resp =>
        simp only []
        rcases hk : checkError resp b3 with ⟨o4, b4⟩
        cases o4 with
        | ok u => rfl
        | err e => by_cases hc : closesConn e = true <;> simp [hc]
        | panic => rfl
        | hang => rfl
      | err e => by_cases hc : closesConn e = true <;> simp [hc]
      | panic => rfl
      | hang => rfl
    | err e => by_cases hc : closesConn e = true <;> simp [hc]
    | panic => rfl
    | hang => rfl
  | err e => rfl
  | panic => rfl
  | hang => rfl

/-- How the connection stands after a request was written and the answer read: `left` is what is still to be
read. -/
def Broker.after (b : Broker) (c : Conn) (bytes : Bytes) (left : List Ev) : Broker :=
  { b with correlationID := b.correlationID + 1
           conn := some { c with written := c.written + 1, reads := left }
           log := b.log ++ [.send c.id bytes] }

/-- What `RequestAndGet` returns for an answer that was decoded to `resp`, with the error `e` of the decoder. -/
def given (resp : Response) (e : Option Err) : Option Response × Option Err :=
  match e, resp.error with
  | some e, _ => (none, some (.wrapped e))
  | none, .ok e => (some resp, e)
  | none, _ => (some resp, none)

theorem requestBoth_answer {b : Broker} {c : Conn} (hconn : b.conn = some c) (hmux : b.mux = false)
    (hw : c.writes c.written = none) (r : Req) {v : UInt16} (hv : getHighestAvailableAPIVersion b.apiVersions r.api = v)
    {bytes : Bytes} (henc : r.encode v (b.correlationID + 1) = .ok bytes) (hlen : 12 ≤ bytes.length)
    {resp : Response} {e : Option Err} {left : List Ev}
    (hread : readAndParse r.api v c.reads = (match e with | none => .ok resp | some e => .err (.wrapped e), left))
    (he : ∀ x, e = some x → closesConn (.wrapped x) = false)
    (hresp : e = none → ∃ x, resp.error = .ok x ∧ ∀ y, x = some y → closesConn y = false) :
    requestBoth r b = (.ok (given resp e), b.after c bytes left) := by
  unfold requestBoth locked
  simp only [hmux, Bool.false_eq_true, if_false]
  have ho : ensureOpen { b with mux := true } = (.ok (), { b with mux := true }) := by
    simp only [ensureOpen, ensureOpenWith, hconn]
  simp only [ho]
  have hq : request r { b with mux := true } =
      (.ok v, { b with mux := true, correlationID := b.correlationID + 1
                       conn := some { c with written := c.written + 1 }, log := b.log ++ [.send c.id bytes] }) := by
    show B.bind nextCorrelationID (fun corr => B.bind (negotiated r.api) fun version =>
      B.bind (B.lift (r.encode version corr)) fun payload => B.bind (B.wrap (send payload)) fun _ => B.pure version) _ = _
    simp only [B.bind, nextCorrelationID, negotiated, hv, B.lift, henc, B.wrap, send, hconn, Nat.not_lt.mpr hlen, if_false,
      hw, B.pure]
  unfold exchangeBoth
  simp only [askBind]
  simp only [B.bind, hq, readParse, hread]
  have hb : b = { b with mux := false } := by cases b; simp_all
  cases e with
  | some e =>
    simp only [he e rfl, given, Broker.after, Bool.false_eq_true, if_false]
    rw [hb]
  | none =>
    obtain ⟨x, hx, hy⟩ := hresp rfl
    cases x with
    | none =>
      simp only [checkError, hx, given, Broker.after]
      rw [hb]; rfl
    | some y =>
      simp only [checkError, hx, given, Broker.after, B.fail, hy y rfl, Bool.false_eq_true, if_false]
      rw [hb]

/-- The broker is not in use, has a connection, and the next write on it succeeds. -/
structure Broker.Ready (b : Broker) (c : Conn) : Prop where
  conn : b.conn = some c
  free : b.mux = false
  writes : c.writes c.written = none

/-- The connection delivers `answer`, in any pieces and with whatever after it: `extra` in the same pieces, then
`tail`. -/
structure Conn.Delivers (c : Conn) (answer : Bytes) (chunks : List Bytes) (extra : Bytes) (tail : List Ev) : Prop where
  reads : c.reads = chunks.map .data ++ tail
  bytes : chunks.flatten = answer ++ extra

theorem askAnswer {b : Broker} {c : Conn} (hb : b.Ready c) (a a' : Kafka.Api) (R : AnyRequest) (client : Bytes) {v : UInt16}
    (hv : getHighestAvailableAPIVersion b.apiVersions R.key = v) {cid : Option Bytes} {content : Bytes}
    (henc : R.encode (reqHeader R.key v (b.correlationID + 1) (some client)) v =
      .ok (Kafka.request a' v.toNat (b.correlationID + 1).toNat cid content))
    {corr : Nat} {tags : List (Nat × Bytes)} {body : Bytes} {resp : Response} {e : Option Err}
    (hp : parse R.key v (Kafka.response a v.toNat corr tags body) = .ok (resp, e))
    (hl : (Kafka.response a v.toNat corr tags body).length < 2 ^ 32)
    {chunks : List Bytes} {extra : Bytes} {tail : List Ev}
    (hc : c.Delivers (Kafka.response a v.toNat corr tags body) chunks extra tail)
    (he : ∀ x, e = some x → closesConn (.wrapped x) = false)
    (hresp : e = none → ∃ x, resp.error = .ok x ∧ ∀ y, x = some y → closesConn y = false) :
    ∃ left : List Bytes, left.flatten = extra ∧ requestBoth (R.by client) b = (.ok (given resp e),
      b.after c (Kafka.request a' v.toNat (b.correlationID + 1).toNat cid content) (left.map .data ++ tail)) := by
  obtain ⟨left, h1, h2⟩ := C119_stream a R.key v corr tags body resp e hp hl chunks extra tail hc.bytes
  refine ⟨left, h1, requestBoth_answer hb.conn hb.free hb.writes (R.by client) hv henc ?_ ?_ he hresp⟩
  · simp [Kafka.request, Kafka.frame, Kafka.requestHeader]
    omega
  · rw [hc.reads]
    exact h2

theorem codeError_calm {code : Int16} (x : Err) (h : codeError code = some x) : closesConn (.wrapped x) = false := by
  unfold codeError at h
  split at h <;> cases h
  rfl

theorem code_calm (code : Int16) (x : Err) (h : getErrorFromErrorCode code = some x) : closesConn x = false := by
  unfold getErrorFromErrorCode at h
  split at h
  · cases h
  · split at h <;> cases h <;> rfl

theorem codeError_fine {resp : Response} {code : Int16} (hr : code = 0 → resp.error = .ok none)
    (h : codeError code = none) : ∃ x, resp.error = .ok x ∧ ∀ y, x = some y → closesConn y = false := by
  refine ⟨none, hr ?_, by simp⟩
  unfold codeError at h
  split at h
  · assumption
  · cases h

theorem given_code (resp : Response) (code : Int16) (hr : code = 0 → resp.error = .ok none) :
    given resp (codeError code) = if code = 0 then (some resp, none) else (none, some (.wrapped (.kafka code))) := by
  unfold given codeError
  by_cases h : code = 0
  · simp [h, hr h]
  · simp [h]

theorem firstCode_calm (codes : List Int16) (x : Err) (h : firstCode codes = some x) : closesConn (.wrapped x) = false := by
  unfold firstCode at h
  obtain ⟨z, hz, rfl⟩ := Option.map_eq_some_iff.mp h
  rfl

theorem short_heartbeat (corr : Nat) (code : Int) :
    (Kafka.response .heartbeat 0 corr [] (Kafka.heartbeatResponse code)).length < 2 ^ 32 := by
  have h : Kafka.Api.responseHeaderVersion .heartbeat 0 = 0 := rfl
  simp [Kafka.response, Kafka.frame, Kafka.responseHeader, h, Kafka.heartbeatResponse]

theorem short_leaveGroup (corr : Nat) (code : Int) :
    (Kafka.response .leaveGroup 0 corr [] (Kafka.leaveGroupResponse code)).length < 2 ^ 32 := by
  have h : Kafka.Api.responseHeaderVersion .leaveGroup 0 = 0 := rfl
  simp [Kafka.response, Kafka.frame, Kafka.responseHeader, h, Kafka.leaveGroupResponse]

theorem heartbeat_fine (r : ErrorResponse) (h : r.errorCode = 0) : (Response.heartbeat r).error = .ok none := by
  simp [Response.error, ErrorResponse.error, getErrorFromErrorCode, h]

theorem leaveGroup_fine (r : ErrorResponse) (h : r.errorCode = 0) : (Response.leaveGroup r).error = .ok none := by
  simp [Response.error, ErrorResponse.error, getErrorFromErrorCode, h]

theorem syncGroup_fine (r : SyncGroupResponse) (h : r.errorCode = 0) : (Response.syncGroup r).error = .ok none := by
  simp [Response.error, SyncGroupResponse.error, kafkaErr, h]

theorem joinGroup_fine (r : JoinGroupResponse) (h : r.errorCode = 0) : (Response.joinGroup r).error = .ok none := by
  simp [Response.error, JoinGroupResponse.error, getErrorFromErrorCode, h]

/-- The calls of a group member return the answer when its code is 0, and otherwise the error and no answer. -/
def answeredWith {α : Type} (answer none' : α) (code : Int16) : α × Option Err :=
  if code = 0 then (answer, none) else (none', some (.wrapped (.kafka code)))

/-- The operation of Kafka which a request is for. -/
def AnyRequest.api : AnyRequest → Kafka.Api
  | .produce .. => .produce | .fetch _ => .fetch | .offsets _ => .listOffsets | .metadata _ => .metadata | .offsetCommit _ => .offsetCommit
  | .offsetFetch _ => .offsetFetch | .findCoordinator _ => .findCoordinator | .joinGroup _ => .joinGroup | .heartbeat _ => .heartbeat
  | .leaveGroup _ => .leaveGroup | .syncGroup _ => .syncGroup | .describeGroups _ => .describeGroups | .listGroups _ => .listGroups
  | .saslHandshake _ => .saslHandshake | .apiVersions => .apiVersions | .createTopics _ => .createTopics | .deleteTopics .. => .deleteTopics
  | .describeAcls _ => .describeAcls | .createAcls _ => .createAcls | .deleteAcls _ => .deleteAcls | .describeConfigs _ => .describeConfigs
  | .alterConfigs _ => .alterConfigs | .describeLogDirs _ => .describeLogDirs | .saslAuthenticate _ => .saslAuthenticate
  | .createPartitions _ => .createPartitions | .deleteGroups _ => .deleteGroups | .electLeaders .. => .electLeaders
  | .incrementalAlterConfigs _ => .incrementalAlterConfigs | .alterPartitionReassignments _ => .alterPartitionReassignments
  | .listPartitionReassignments _ => .listPartitionReassignments

/-- C138: every request carries the number Kafka has for the operation; so no two operations are confused. -/
theorem C138_names (r : AnyRequest) : r.key.toNat = r.api.key := by cases r <;> rfl

example : (AnyRequest.heartbeat ⟨[103], 1, [109]⟩).key = 12 := rfl

/-- C138, heartbeat. -/
theorem C138_heartbeat {b : Broker} {c : Conn} (hb : b.Ready c) (client : Bytes) (group : Bytes) (generation : Int32) (member : Bytes)
    (r : ErrorResponse) {chunks : List Bytes} {extra : Bytes} {tail : List Ev}
    (hc : c.Delivers (Kafka.response .heartbeat 0 r.correlationID.toNat [] (Kafka.heartbeatResponse r.errorCode.toInt)) chunks extra tail) :
    ∃ left : List Bytes, left.flatten = extra ∧ requestHeartbeat client group generation member b =
      (.ok (answeredWith r ⟨0, 0⟩ r.errorCode),
        b.after c (Kafka.request .heartbeat 0 (b.correlationID + 1).toNat (some client)
          (Kafka.heartbeatRequest group generation.toInt member)) (left.map .data ++ tail)) := by
  obtain ⟨left, h1, h2⟩ := askAnswer hb .heartbeat .heartbeat (.heartbeat ⟨group, generation, member⟩) client (v := 0) rfl
    (C58_heartbeat ⟨group, generation, member⟩ 0 (by decide) _ (some client)) (C119_heartbeat r) (short_heartbeat ..) hc
    codeError_calm (codeError_fine (heartbeat_fine r))
  refine ⟨left, h1, ?_⟩
  unfold requestHeartbeat
  simp only [askBind, B.bind, h2, askPure, B.pure, given_code _ _ (heartbeat_fine r),
    answeredWith]
  split <;> rfl

/-- C138, syncing. -/
theorem C138_syncGroup {b : Broker} {c : Conn} (hb : b.Ready c) (client : Bytes) (group : Bytes) (generation : Int32) (member : Bytes)
    (assignment : List (Bytes × Bytes))
    (r : SyncGroupResponse)
    (hl : (Kafka.response .syncGroup 0 r.correlationID.toNat []
      (Kafka.syncGroupResponse r.errorCode.toInt r.memberAssignment)).length < 2 ^ 31) {chunks : List Bytes} {extra : Bytes} {tail : List Ev}
    (hc : c.Delivers (Kafka.response .syncGroup 0 r.correlationID.toNat [] (Kafka.syncGroupResponse r.errorCode.toInt r.memberAssignment)) chunks extra tail) :
    ∃ left : List Bytes, left.flatten = extra ∧ requestSyncGroup client group generation member assignment b =
      (.ok (answeredWith r ⟨0, 0, []⟩ r.errorCode),
        b.after c (Kafka.request .syncGroup 0 (b.correlationID + 1).toNat (some client)
          (Kafka.syncGroupRequest group generation.toInt member assignment)) (left.map .data ++ tail)) := by
  obtain ⟨left, h1, h2⟩ := askAnswer hb .syncGroup .syncGroup (.syncGroup ⟨group, generation, member, assignment⟩) client (v := 0) rfl
    (C58_syncGroup ⟨group, generation, member, assignment⟩ 0 (by decide) _ (some client)) (C119_syncGroup r hl) (Nat.lt_trans hl (by decide)) hc
    codeError_calm (codeError_fine (syncGroup_fine r))
  refine ⟨left, h1, ?_⟩
  unfold requestSyncGroup
  simp only [askBind, B.bind, h2, askPure, B.pure, given_code _ _ (syncGroup_fine r),
    answeredWith]
  split <;> rfl

/-- C138, joining: version 0 is used, whatever the constructor was given. -/
theorem C138_joinGroup {b : Broker} {c : Conn} (hb : b.Ready c) (client : Bytes) (group : Bytes) (session : Int32) (member protocolType : Bytes)
    (protocols : List (Bytes × Bytes))
    (r : JoinGroupResponse) (h1 : IsString r.groupProtocol) (h2 : IsString r.leaderID)
    (h3 : IsString r.memberID) (h4 : ∀ m ∈ r.members, IsString m.memberID)
    (hl : (Kafka.response .joinGroup 0 r.correlationID.toNat [] (Kafka.joinGroupResponse r.errorCode.toInt
      r.generationID.toInt r.groupProtocol r.leaderID r.memberID
      (r.members.map fun m => (m.memberID, m.memberMetadata)))).length < 2 ^ 31) {chunks : List Bytes} {extra : Bytes} {tail : List Ev}
    (hc : c.Delivers (Kafka.response .joinGroup 0 r.correlationID.toNat [] (Kafka.joinGroupResponse r.errorCode.toInt
      r.generationID.toInt r.groupProtocol r.leaderID r.memberID (r.members.map fun m => (m.memberID, m.memberMetadata)))) chunks extra tail) :
    ∃ left : List Bytes, left.flatten = extra ∧ requestJoinGroup client group session member protocolType protocols b =
      (.ok (answeredWith r ⟨0, 0, 0, [], [], [], []⟩ r.errorCode),
        b.after c (Kafka.request .joinGroup 0 (b.correlationID + 1).toNat (some client)
          (Kafka.joinGroupRequest 0 group session.toInt 60000 member protocolType protocols)) (left.map .data ++ tail)) := by
  obtain ⟨left, h1, h2⟩ := askAnswer hb .joinGroup .joinGroup (.joinGroup ⟨group, session, 60000, member, protocolType, protocols⟩) client (v := 0) rfl
    (C58_joinGroup ⟨group, session, 60000, member, protocolType, protocols⟩ 0 (.inr (by decide)) _ (some client)) (C119_joinGroup r h1 h2 h3 h4 hl) (Nat.lt_trans hl (by decide)) hc
    codeError_calm (codeError_fine (joinGroup_fine r))
  refine ⟨left, h1, ?_⟩
  unfold requestJoinGroup
  simp only [askBind, B.bind, h2, askPure, B.pure, given_code _ _ (joinGroup_fine r),
    answeredWith]
  split <;> rfl

/-- C138, leaving, when the coordinator agrees.  Missing: any other outcome, which ends the program
(`C138_violated_leave`, `C138_violated_leave_network`). -/
theorem C138_leaveGroup_partial {b : Broker} {c : Conn} (hb : b.Ready c) (client group member : Bytes)
    (r : ErrorResponse) (hr : r.errorCode = 0) {chunks : List Bytes} {extra : Bytes} {tail : List Ev}
    (hc : c.Delivers (Kafka.response .leaveGroup 0 r.correlationID.toNat [] (Kafka.leaveGroupResponse r.errorCode.toInt))
      chunks extra tail) :
    ∃ left : List Bytes, left.flatten = extra ∧ requestLeaveGroup client group member b = (.ok (r, none),
        b.after c (Kafka.request .leaveGroup 0 (b.correlationID + 1).toNat (some client)
          (Kafka.leaveGroupRequest group member)) (left.map .data ++ tail)) := by
  obtain ⟨left, h1, h2⟩ := askAnswer hb .leaveGroup .leaveGroup (.leaveGroup ⟨group, member⟩) client (v := 0) rfl
    (C58_leaveGroup ⟨group, member⟩ 0 (by decide) _ (some client)) (C119_leaveGroup r) (short_leaveGroup ..) hc
    codeError_calm (codeError_fine (leaveGroup_fine r))
  refine ⟨left, h1, ?_⟩
  rw [given_code _ _ (leaveGroup_fine r), if_pos hr] at h2
  unfold requestLeaveGroup
  simp only [askBind, B.bind, h2]
  rfl

/-- C138 fails for leaving: whatever error code the coordinator answers with (25, unknown member, for a member it has
meanwhile removed), the program ends: there is no response to assert the type of. -/
theorem C138_violated_leave {b : Broker} {c : Conn} (hb : b.Ready c) (client group member : Bytes)
    (r : ErrorResponse) (hr : r.errorCode ≠ 0) {chunks : List Bytes} {extra : Bytes} {tail : List Ev}
    (hc : c.Delivers (Kafka.response .leaveGroup 0 r.correlationID.toNat [] (Kafka.leaveGroupResponse r.errorCode.toInt))
      chunks extra tail) :
    (requestLeaveGroup client group member b).1 = .panic := by
  obtain ⟨left, h1, h2⟩ := askAnswer hb .leaveGroup .leaveGroup (.leaveGroup ⟨group, member⟩) client (v := 0) rfl
    (C58_leaveGroup ⟨group, member⟩ 0 (by decide) _ (some client)) (C119_leaveGroup r) (short_leaveGroup ..) hc
    codeError_calm (codeError_fine (leaveGroup_fine r))
  unfold requestLeaveGroup
  simp only [askBind, B.bind, h2, given_code _ _ (leaveGroup_fine r), hr, if_false]
  rfl

/-- C138 fails for leaving also when the connection is found dead: the write fails, and the program ends. -/
theorem C138_violated_leave_network {b : Broker} {c : Conn} (hconn : b.conn = some c) (hmux : b.mux = false) (e : Err)
    (hw : c.writes c.written = some e) (client group member : Bytes) :
    (requestLeaveGroup client group member b).1 = .panic := by
  have henc := C58_leaveGroup ⟨group, member⟩ 0 (by decide) (b.correlationID + 1) (some client)
  have hlen : ¬ (Kafka.request .leaveGroup (0 : UInt16).toNat (b.correlationID + 1).toNat (some client)
      (Kafka.leaveGroupRequest group member)).length < 12 := by
    simp [Kafka.request, Kafka.frame, Kafka.requestHeader]
    omega
  have hv : getHighestAvailableAPIVersion b.apiVersions 13 = 0 := rfl
  have ho : ensureOpen { b with mux := true } = (.ok (), { b with mux := true }) := by
    simp only [ensureOpen, ensureOpenWith, hconn]
  have hx : ∃ b', requestBoth ((AnyRequest.leaveGroup ⟨group, member⟩).by client) b = (.ok (none, some (.wrapped e)), b') := by
    unfold requestBoth locked
    simp only [hmux, Bool.false_eq_true, if_false, ho]
    unfold exchangeBoth request
    simp only [askBind, B.bind, nextCorrelationID, negotiated, AnyRequest.by, AnyRequest.key, AnyRequest.encode, hv, B.lift]
    rw [show reqHeader 13 0 (b.correlationID + 1) (some client) = reqHeader API_LeaveGroup 0 (b.correlationID + 1) (some client) from rfl, henc]
    simp only [B.wrap, send, hconn, hlen, if_false, hw]
    exact ⟨_, rfl⟩
  obtain ⟨b', hx⟩ := hx
  unfold requestLeaveGroup
  simp only [askBind, B.bind, hx]
  rfl

/-- C138, finding the coordinator of a group. -/
theorem C138_findCoordinator {b : Broker} {c : Conn} (hb : b.Ready c) (client group : Bytes)
    (r : FindCoordinatorResponse) (hr : IsString r.host) {chunks : List Bytes} {extra : Bytes} {tail : List Ev}
    (hl : (Kafka.response .findCoordinator 0 r.correlationID.toNat [] (Kafka.findCoordinatorResponse r.errorCode.toInt
      r.nodeID.toInt r.host r.port.toInt)).length < 2 ^ 32)
    (hc : c.Delivers (Kafka.response .findCoordinator 0 r.correlationID.toNat [] (Kafka.findCoordinatorResponse
      r.errorCode.toInt r.nodeID.toInt r.host r.port.toInt)) chunks extra tail) :
    ∃ (left : List Bytes) (e : Option Err), left.flatten = extra ∧ (e = none ↔ r.errorCode = 0) ∧
      findCoordinator client group b = (.ok (r, e),
        b.after c (Kafka.request .findCoordinator 0 (b.correlationID + 1).toNat (some client)
          (Kafka.findCoordinatorRequest group)) (left.map .data ++ tail)) := by
  obtain ⟨left, h1, h2⟩ := askAnswer hb .findCoordinator .findCoordinator (.findCoordinator group) client (v := 0) rfl
    (C58_findCoordinator group 0 (by decide) _ (some client)) (C119_findCoordinator r hr) hl hc
    (by simp) (fun _ => ⟨_, rfl, code_calm _⟩)
  refine ⟨left, getErrorFromErrorCode r.errorCode, h1, ?_, ?_⟩
  · unfold getErrorFromErrorCode
    by_cases h : r.errorCode = 0
    · simp [h]
    · simp only [h, if_false, iff_false]
      split <;> simp
  · unfold findCoordinator
    simp only [askBind, B.bind, h2]
    rfl

/-- C138, offsets by time, in a version both sides know (missing for the full statement: as for
`C67_listOffsets_partial`). -/
theorem C138_offsets_partial {b : Broker} {c : Conn} (hb : b.Ready c) (client topic : Bytes) (ids : List Int32) (time : Int64)
    (offsets : UInt32) (v : UInt16) (hn : getHighestAvailableAPIVersion b.apiVersions API_OffsetRequest = v)
    (hv : v ∈ clientVersions API_OffsetRequest) (corr : UInt32)
    (topics : AMap Bytes (List PartitionOffset)) (hd : (AMap.keys topics).Nodup) (h : ∀ t ∈ topics, IsString t.1)
    (hl : (Kafka.response .listOffsets v.toNat corr.toNat [] (Kafka.listOffsetsResponse v.toNat
      (topics.map fun t => (t.1, t.2.map PartitionOffset.wire)))).length < 2 ^ 31)
    {chunks : List Bytes} {extra : Bytes} {tail : List Ev}
    (hc : c.Delivers (Kafka.response .listOffsets v.toNat corr.toNat [] (Kafka.listOffsetsResponse v.toNat
      (topics.map fun t => (t.1, t.2.map PartitionOffset.wire)))) chunks extra tail) :
    ∃ (left : List Bytes) (r : OffsetsResponse), left.flatten = extra ∧
      r.topicPartitionOffsets = topics.map (fun t => (t.1, t.2.map (PartitionOffset.seen v))) ∧
      requestOffsets client topic ids time offsets b =
        (.ok (r, (firstCode (topics.flatMap fun t => t.2.map PartitionOffset.errorCode)).map .wrapped),
        b.after c (Kafka.request .listOffsets v.toNat (b.correlationID + 1).toNat (some client)
          (Kafka.listOffsetsRequest v.toNat (-1) [(topic, ids.map fun id =>
            { partition := id.toInt, time := time.toInt, maxOffsets := offsets.toNat })])) (left.map .data ++ tail)) := by
  obtain ⟨r, hp, h3, h4, h5⟩ := C119_offsets_partial v hv corr topics hd h hl
  have henc := C59_listOffsets ⟨-1, [(topic, ids.map fun id => ⟨id, time, offsets⟩)]⟩ v hv (b.correlationID + 1) client
  obtain ⟨left, h1, h2⟩ := askAnswer hb .listOffsets .listOffsets
    (.offsets ⟨-1, [(topic, ids.map fun id => ⟨id, time, offsets⟩)]⟩) client hn henc hp (Nat.lt_trans hl (by decide)) hc
    (by simp) (fun _ => ⟨_, rfl, by
      intro y hy
      rw [h5] at hy
      obtain ⟨z, hz, rfl⟩ := Option.map_eq_some_iff.mp hy
      exact firstCode_calm _ _ hz⟩)
  refine ⟨left, r, h1, h4, ?_⟩
  unfold requestOffsets
  simp only [askBind, B.bind, h2, given, Response.error, h5]
  simp [askPure, B.pure, narrow, Response.asOffsets, offsetsTopicWire, OffsetInfo.wire, Function.comp_def]

/-- C138, metadata, in a version both sides know: the answer is returned also when it holds error codes (missing for
the full statement: as for `C68_metadata_partial`). -/
theorem C138_metadata_partial {b : Broker} {c : Conn} (hb : b.Ready c) (client : Bytes) (asked : Option (List Bytes))
    (v : UInt16) (hn : getHighestAvailableAPIVersion b.apiVersions API_MetadataRequest = v)
    (hv : v ∈ clientVersions API_MetadataRequest) (corr : UInt32)
    (throttle controller : Int32) (brokers : List SentBroker) (cluster : Bytes) (topics : List TopicMetadata)
    (hbs : ∀ b ∈ brokers, b.Fits) (hcl : IsString cluster) (ht : ∀ t ∈ topics, IsString t.name)
    (hl : (Kafka.response .metadata v.toNat corr.toNat [] (Kafka.metadataResponse v.toNat throttle.toInt
      (brokers.map SentBroker.wire) (some cluster) controller.toInt (topics.map TopicMetadata.wire))).length < 2 ^ 31)
    {chunks : List Bytes} {extra : Bytes} {tail : List Ev}
    (hc : c.Delivers (Kafka.response .metadata v.toNat corr.toNat [] (Kafka.metadataResponse v.toNat throttle.toInt
      (brokers.map SentBroker.wire) (some cluster) controller.toInt (topics.map TopicMetadata.wire))) chunks extra tail) :
    ∃ (left : List Bytes) (r : MetadataResponse) (e : Option Err), left.flatten = extra ∧
      r.brokers = brokers.map SentBroker.seen ∧ r.controllerID = controller ∧
      SortedTopics (topics.map (TopicMetadata.seen v)) r.topics ∧
      (e = none ↔ ∀ t ∈ topics, t.errorCode = 0 ∧ ∀ p ∈ t.partitions, p.errorCode = 0) ∧
      askMetaData client asked b = (.ok (r, e),
        b.after c (Kafka.request .metadata v.toNat (b.correlationID + 1).toNat (some client)
          (Kafka.metadataRequest v.toNat asked true)) (left.map .data ++ tail)) := by
  obtain ⟨r, hp, _, _, h5, h6, h7, h8, _⟩ := C119_metadata_partial v hv corr throttle controller brokers cluster topics hbs hcl ht hl
  obtain ⟨left, h1, h2⟩ := askAnswer hb .metadata .metadata (.metadata ⟨asked, true⟩) client hn
    (C60_metadata ⟨asked, true⟩ v hv _ (some client)) hp (Nat.lt_trans hl (by decide)) hc
    (by simp) (fun _ => ⟨_, rfl, by
      intro y hy
      unfold MetadataResponse.error at hy
      rw [firstKafkaErr_eq] at hy
      obtain ⟨z, hz, rfl⟩ := Option.map_eq_some_iff.mp hy
      exact firstCode_calm _ _ hz⟩)
  refine ⟨left, r, r.error, h1, h5, h6, h7, h8, ?_⟩
  unfold askMetaData
  simp only [askBind, B.bind, h2, given, Response.error]
  rfl

/-- C138, the groups a broker coordinates, in a version both sides know (missing for the full statement: as for
`C66_listGroups_partial`; and an error code in the answer is not reported). -/
theorem C138_listGroups_partial {b : Broker} {c : Conn} (hb : b.Ready c) (client : Bytes)
    (v : UInt16) (hn : getHighestAvailableAPIVersion b.apiVersions API_ListGroups = v)
    (hv : v ∈ clientVersions API_ListGroups) (corr : UInt32)
    (htags : TaggedFields) (hht : htags.Fits) (throttle : Int32) (error : UInt16) (gs : List ListedGroup)
    (tags : TaggedFields) (htg : tags.Fits)
    (hg : ∀ g ∈ gs, IsString g.groupID ∧ IsString g.protocolType ∧ IsString g.groupState ∧ IsString g.groupType ∧
      g.taggedFields.Fits)
    (hl : (Kafka.response .listGroups v.toNat corr.toNat htags.wire (Kafka.listGroupsResponse v.toNat throttle.toInt
      error.toNat (gs.map ListedGroup.wire) tags.wire)).length < 2 ^ 31)
    {chunks : List Bytes} {extra : Bytes} {tail : List Ev}
    (hc : c.Delivers (Kafka.response .listGroups v.toNat corr.toNat htags.wire (Kafka.listGroupsResponse v.toNat
      throttle.toInt error.toNat (gs.map ListedGroup.wire) tags.wire)) chunks extra tail) :
    ∃ (left : List Bytes) (r : ListGroupsResponse), left.flatten = extra ∧
      r.errorCode = error ∧ r.groups = gs.map (ListedGroup.seen v) ∧
      requestListGroups client b = (.ok (some r, none),
        b.after c (Kafka.request .listGroups v.toNat (b.correlationID + 1).toNat (some client)
          (Kafka.listGroupsRequest v.toNat [] [])) (left.map .data ++ tail)) := by
  obtain ⟨r, hp, _, _, h5, h6⟩ := C119_listGroups_partial v hv corr htags hht throttle error gs tags htg hg hl
  obtain ⟨left, h1, h2⟩ := askAnswer hb .listGroups .listGroups
    (.listGroups { statesFilter := some [], typesFilter := some [] }) client hn
    (C58_listGroups_partial [] [] v hv (by simp) (by simp) (by decide) (by decide) _ (some client)) hp
    (Nat.lt_trans hl (by decide)) hc (by simp) (fun _ => ⟨none, rfl, by simp⟩)
  refine ⟨left, r, h1, h5, h6, ?_⟩
  unfold requestListGroups
  simp only [askBind, B.bind, h2, given, Response.error]
  rfl

/-! ## A broker that has sent six requests, on its first connection -/

def askBroker (reads : List Ev) : Broker :=
  { sasl := ⟨[], [], []⟩, conn := some ⟨0, reads, fun _ => none, 6⟩, apiVersions := [⟨3, 0, 7⟩, ⟨2, 0, 5⟩, ⟨16, 0, 4⟩],
    correlationID := 6, mux := false, dials := [], dialed := 1, log := [] }

example (reads : List Ev) : (askBroker reads).Ready ⟨0, reads, fun _ => none, 6⟩ := ⟨rfl, rfl, rfl⟩

example : Conn.Delivers ⟨0, [.data [0, 0, 0], .data [6, 0, 0, 0, 7, 0, 27, 9], .fail .eof], fun _ => none, 6⟩
    (Kafka.response .heartbeat 0 (7 : UInt32).toNat [] (Kafka.heartbeatResponse (27 : Int16).toInt))
    [[0, 0, 0], [6, 0, 0, 0, 7, 0, 27, 9]] [9] [.fail .eof] := ⟨rfl, by decide⟩

/-- The group is rebalancing: the error is returned, and the request that was sent. -/
example : ((requestHeartbeat [99] [103] 3 [109] (askBroker [.data [0, 0, 0], .data [6, 0, 0, 0, 7, 0, 27, 9]])).1,
    (requestHeartbeat [99] [103] 3 [109] (askBroker [.data [0, 0, 0], .data [6, 0, 0, 0, 7, 0, 27, 9]])).2.log) =
    (.ok (⟨0, 0⟩, some (.wrapped (.kafka 27))),
      [.send 0 [0, 0, 0, 21, 0, 12, 0, 0, 0, 0, 0, 7, 0, 1, 99, 0, 1, 103, 0, 0, 0, 3, 0, 1, 109]]) := by decide +kernel

/-- The coordinator of the group is node 2 at "h":9092. -/
example : (findCoordinator [99] [103] (askBroker [.data [0, 0, 0, 17, 0, 0, 0, 7, 0, 0, 0, 0, 0, 2, 0, 1, 104, 0, 0, 35, 132]])).1 =
    .ok (⟨7, 0, 2, [104], 9092⟩, none) := by decide +kernel

/-- The member was removed from the group before it leaves: the program ends. -/
example : (requestLeaveGroup [99] [103] [109] (askBroker [.data [0, 0, 0, 6, 0, 0, 0, 7, 0, 25]])).1 = .panic := by decide +kernel

/-- It had not been removed. -/
example : (requestLeaveGroup [99] [103] [109] (askBroker [.data [0, 0, 0, 6, 0, 0, 0, 7, 0, 0]])).1 = .ok (⟨7, 0⟩, none) := by
  decide +kernel

end Healer
