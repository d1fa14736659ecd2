import Verif.Model.Parse

/-!
# One broker: connection, authentication, requests (broker.go)

The model is sequential: it follows the calls made on one broker object, one after the other.  The calls of
several goroutines to `RequestAndGet` are serialised by `mux`, so they form such a sequence.  A lock taken
twice by the same call never returns: that outcome is `hang`.

The environment is part of the state: what the next attempts to dial bring, and for a connection what the
next reads meet (`Ev`, see Model/Parse.lean) and how the n-th write ends.  A write that fails sends nothing
(partially written requests are not modelled).
-/

namespace Healer

/-- Outcome of a call: as `Out`, or blocked for ever. -/
inductive Ret (α : Type) where
  | ok (a : α)
  | err (e : Err)
  | panic
  | hang
deriving DecidableEq, Repr

/-- What a connection will do, from the moment it is opened. -/
structure Script where
  reads : List Ev
  /-- outcome of the n-th write on it -/
  writes : Nat → Option Err

/-- An open connection: its number (the how-manieth dial attempt it is), what it will do, and how many
writes were made on it. -/
structure Conn where
  id : Nat
  reads : List Ev
  writes : Nat → Option Err
  written : Nat

/-- What the broker at the other end can observe. -/
inductive Act where
  /-- a connection was opened -/
  | dial (conn : Nat)
  /-- a request was written on a connection -/
  | send (conn : Nat) (payload : Bytes)
  /-- writing a request failed -/
  | sendFailed (conn : Nat) (payload : Bytes)
  /-- the client closed a connection -/
  | close (conn : Nat)
deriving DecidableEq, Repr

/-- config.go:25-29 `SaslConfig`, as used in broker.go:158-164 -/
structure SaslConfig where
  mechanism : Bytes
  user : Bytes
  password : Bytes
deriving DecidableEq, Repr

/-- broker.go:18-30 `Broker`.  `mux` tells whether the lock is held; `dials` is what the next dial attempts
bring, `dialed` the number of attempts made, `log` what happened so far (latest last). -/
structure Broker where
  sasl : SaslConfig
  conn : Option Conn
  apiVersions : List APIVersion
  correlationID : UInt32
  mux : Bool
  dials : List (Except Err Script)
  dialed : Nat
  log : List Act

/-- Code running on a broker. -/
abbrev B (α : Type) : Type := Broker → Ret α × Broker

namespace B

protected def pure {α : Type} (a : α) : B α := fun b => (.ok a, b)

protected def bind {α β : Type} (m : B α) (f : α → B β) : B β := fun b =>
  match m b with
  | (.ok a, b') => f a b'
  | (.err e, b') => (.err e, b')
  | (.panic, b') => (.panic, b')
  | (.hang, b') => (.hang, b')

instance : Monad B where
  pure := B.pure
  bind := B.bind

def fail {α : Type} (e : Err) : B α := fun b => (.err e, b)

/-- `if err != nil { return ..., fmt.Errorf("...%w", err) }` around `m` -/
def wrap {α : Type} (m : B α) : B α := fun b =>
  match m b with
  | (.err e, b') => (.err (.wrapped e), b')
  | r => r

/-- A value computed by code that does not touch the broker. -/
def lift {α : Type} (o : Out α) : B α := fun b =>
  match o with
  | .ok a => (.ok a, b)
  | .err e => (.err e, b)
  | .panic => (.panic, b)

end B

/-- The interface `Request` (request.go:195-200) after `SetVersion` and `SetCorrelationID`: the bytes are a
function of version and correlation id.  (The cached header version, which makes them depend on earlier
transmissions too, is the subject of C36.) -/
structure Req where
  api : UInt16
  encode : (version : UInt16) → (corr : UInt32) → Out Bytes

/-- `net.Dialer.Dial`, `tls.DialWithDialer` -/
def dial : B Conn := fun b =>
  match b.dials with
  | [] => (.err (.other "dial"), { b with dialed := b.dialed + 1 })
  | .error e :: ds => (.err e, { b with dials := ds, dialed := b.dialed + 1 })
  | .ok s :: ds =>
    (.ok ⟨b.dialed, s.reads, s.writes, 0⟩,
      { b with dials := ds, dialed := b.dialed + 1, log := b.log ++ [.dial b.dialed] })

/-- broker.go:69-76 `createConn` with 110-129 `newConn`; TLS set-up is not modelled (its failures are dial
failures) -/
def createConn : B Unit := do
  let c ← dial
  fun b => (.ok (), { b with conn := some c })

/-- broker.go:197-207 `Close` -/
def closeBroker : B Unit := fun b =>
  match b.conn with
  | some c => (.ok (), { b with conn := none, log := b.log ++ [.close c.id] })
  | none => (.ok (), b)

/-- broker.go:265-281 `request`: the log lines call a method of the connection, a nil interface when the
broker is closed, and read the fixed part of the request header -/
def send (payload : Bytes) : B Unit := fun b =>
  match b.conn with
  | none => (.panic, b)
  | some c =>
    if payload.length < 12 then (.panic, b) else
    match c.writes c.written with
    | none => (.ok (), { b with conn := some { c with written := c.written + 1 }, log := b.log ++ [.send c.id payload] })
    | some e =>
      (.err e, { b with conn := some { c with written := c.written + 1 }, log := b.log ++ [.sendFailed c.id payload] })

/-- broker.go:218-219: `broker.correlationID++` -/
def nextCorrelationID : B UInt32 := fun b =>
  (.ok (b.correlationID + 1), { b with correlationID := b.correlationID + 1 })

/-- broker.go:226: the version negotiated for an API -/
def negotiated (api : UInt16) : B UInt16 := fun b => (.ok (getHighestAvailableAPIVersion b.apiVersions api), b)

/-- broker.go:217-236 `Request`; the result is the version put into the `defaultReadParser`.  The computation
of the read timeout is not modelled: a timeout may happen at any time. -/
def request (r : Req) : B UInt16 := do
  let corr ← nextCorrelationID
  let version ← negotiated r.api
  let payload ← B.lift (r.encode version corr)
  B.wrap (send payload)
  pure version

/-- response.go:31-42 `ReadAndParse` on the broker's connection (`p.broker.conn`) -/
def readParse (api version : UInt16) : B Response := fun b =>
  match b.conn with
  | none => (.panic, b)
  | some c =>
    match readAndParse api version c.reads with
    | (.ok r, evs) => (.ok r, { b with conn := some { c with reads := evs } })
    | (.err e, evs) => (.err e, { b with conn := some { c with reads := evs } })
    | (.panic, evs) => (.panic, { b with conn := some { c with reads := evs } })

/-- `resp.Error()`, returned as the error of the call -/
def checkError (r : Response) : B Unit :=
  match r.error with
  | .ok none => pure ()
  | .ok (some e) => B.fail e
  | .err e => B.fail e
  | .panic => fun b => (.panic, b)

/-- `os.IsTimeout(err)`: looks at the error itself and does not unwrap `fmt.Errorf("%w")` (package os,
error.go: `underlyingError` unwraps only PathError, LinkError and SyscallError) -/
def isTimeout : Err → Bool
  | .timeout => true
  | _ => false

/-- broker.go:248: the errors after which the connection is closed -/
def closesConn (e : Err) : Bool := isTimeout e || e.is .eof || e.is .epipe

/-- broker.go:247-262: `RequestAndGet` from the deferred function on -/
def exchange (r : Req) : B Response := fun b =>
  match (do
    let version ← request r
    let resp ← readParse r.api version
    checkError resp
    pure resp : B Response) b with
  | (.err e, b') => if closesConn e then (.err e, (closeBroker b').2) else (.err e, b')
  | x => x

/-- broker.go:240-241: `broker.mux.Lock(); defer broker.mux.Unlock()` around `m` -/
def locked {α : Type} (m : B α) : B α := fun b =>
  if b.mux then (.hang, b) else
  match m { b with mux := true } with
  | (.hang, b') => (.hang, b')
  | (x, b') => (x, { b' with mux := false })

/-- broker.go:208-213 `ensureOpen`, given `createConnAndAuth` -/
def ensureOpenWith (reopen : B Unit) : B Unit := fun b =>
  match b.conn with
  | some _ => (.ok (), b)
  | none => reopen b

/-- broker.go:239-263 `RequestAndGet`, given `createConnAndAuth` -/
def requestAndGetWith (reopen : B Unit) (r : Req) : B Response := locked do
  ensureOpenWith reopen
  exchange r

/-- `RequestAndGet` as called from `sendSaslAuthenticate`.  The code is recursive here: `RequestAndGet` calls
`createConnAndAuth`, which calls `sendSaslAuthenticate`, which calls `RequestAndGet`.  At this point the
connection is always there (`saslConn_open` in Props/Broker.lean), so the inner call does not open another. -/
def requestAndGetInner : Req → B Response := requestAndGetWith (B.fail (.other "unreachable"))

/-- "healer-init", "healer-sals-authenticate" -/
def initClient : Bytes := [104, 101, 97, 108, 101, 114, 45, 105, 110, 105, 116]
def saslClient : Bytes := [104, 101, 97, 108, 101, 114, 45, 115, 97, 108, 115, 45, 97, 117, 116, 104, 101, 110, 116, 105, 99, 97, 116, 101]

/-- apiversions_request.go:9-30 -/
def apiVersionsReq : Req where
  api := API_ApiVersions
  encode := fun v c => encodeApiVersionsRequest (reqHeader API_ApiVersions v c (some initClient))

/-- sasl_handshake_request.go:31-37 -/
def saslHandshakeReq (mechanism : Bytes) : Req where
  api := API_SaslHandshake
  encode := fun v c => encodeSaslHandshakeRequest (reqHeader API_SaslHandshake v c (some saslClient)) mechanism

/-- sasl_plain.go:15-19 `PlainSasl.Encode` -/
def plainSasl (user password : Bytes) : Bytes := [0] ++ user ++ [0] ++ password

/-- ASCII part of `strings.ToLower` -/
def toLower (s : Bytes) : Bytes := s.map fun c => if 65 ≤ c ∧ c ≤ 90 then c + 32 else c

/-- sasl_authenticate_request.go:30-48 `NewSaslAuthenticateRequest`: for a mechanism other than "plain" the
zero value is returned, whose embedded header is nil; `none` stands for it -/
def saslAuthenticateReq (user password mechanism : Bytes) : Option Req :=
  if toLower mechanism = [112, 108, 97, 105, 110] then
    some { api := API_SaslAuthenticate
           encode := fun v c => encodeSaslAuthenticateRequest (reqHeader API_SaslAuthenticate v c (some saslClient))
             (plainSasl user password) }
  else none

/-- `RequestAndGet` with a request that may lack its header: `r.SetCorrelationID` dereferences nil after the
lock was taken, the connection found open and the id incremented -/
def requestAndGetOpt : Option Req → B Response
  | some r => requestAndGetInner r
  | none => locked do
      ensureOpenWith (B.fail (.other "unreachable"))
      let _ ← nextCorrelationID
      fun b => (.panic, b)

/-- broker.go:158-185 `sendSaslAuthenticate`; `resp.Error()` was already returned by `RequestAndGet` as its
error, checking it again never finds one -/
def sendSaslAuthenticate (s : SaslConfig) : B Unit := do
  let _ ← requestAndGetInner (saslHandshakeReq s.mechanism)
  let _ ← requestAndGetOpt (saslAuthenticateReq s.user s.password s.mechanism)
  pure ()

/-- broker.go:336: `resp.(APIVersionsResponse)` -/
def asAPIVersions : Response → B (List APIVersion)
  | .apiVersions r => pure r.apiVersions
  | _ => fun b => (.panic, b)

/-- broker.go:322-337 `requestAPIVersions` -/
def requestAPIVersions : B (List APIVersion) := do
  let version ← request apiVersionsReq
  let resp ← readParse API_ApiVersions version
  checkError resp
  asAPIVersions resp

/-- broker.go:79-108 `createConnAndAuth`; the log line is not modelled -/
def createConnAndAuth : B Unit := do
  createConn
  let vs ← B.wrap requestAPIVersions
  fun b =>
    let b := { b with apiVersions := vs }
    if b.sasl.mechanism ≠ [] then sendSaslAuthenticate b.sasl b else (.ok (), b)

/-- broker.go:208-213 `ensureOpen` -/
def ensureOpen : B Unit := ensureOpenWith createConnAndAuth

/-- broker.go:239-263 `RequestAndGet` -/
def requestAndGet (r : Req) : B Response := requestAndGetWith createConnAndAuth r

/-- broker.go:37-50 `NewBroker`: the new object, or nothing when connecting or authenticating failed -/
def newBroker (sasl : SaslConfig) (dials : List (Except Err Script)) : Ret Unit × Broker :=
  createConnAndAuth ⟨sasl, none, [], 0, false, dials, 0, []⟩

/-- broker.go:302-309: one `conn.Read` into four bytes -/
def readLength : List Ev → Out UInt32 × List Ev
  | [] => (.err .eof, [])
  | .fail e :: evs => (.err e, evs)
  | .data bs :: evs =>
    if bs.length < 4 then (.err (.other "short read"), evs) else
    match rdU32 (bs.take 4) 0 with
    | .ok (n, _) => (.ok n, if bs.length = 4 then evs else .data (bs.drop 4) :: evs)
    | .err e => (.err e, evs)
    | .panic => (.panic, evs)

/-- broker.go:284-289 and 302-317: read the length of the answer; any error closes the connection -/
def awaitLength : B UInt32 := fun b =>
  match b.conn with
  | none => (.panic, b)
  | some c =>
    match readLength c.reads with
    | (.ok n, evs) => (.ok n, { b with conn := some { c with reads := evs } })
    | (.err e, evs) => (.err e, (closeBroker { b with conn := some { c with reads := evs } }).2)
    | (.panic, evs) => (.panic, { b with conn := some { c with reads := evs } })

/-- broker.go:283-318 `requestStreamingly`: an error while writing is ignored.  The result is the announced
length; the rest is read from the connection by the caller. -/
def requestStreamingly (payload : Bytes) : B UInt32 := fun b =>
  match send payload b with
  | (.panic, b') => (.panic, b')
  | (_, b') => awaitLength b'

/-- broker.go:370-389 `requestFetchStreamingly`: the connection is opened before the lock is taken -/
def requestFetchStreamingly (r : Req) : B UInt32 := do
  ensureOpen
  locked do
    let corr ← nextCorrelationID
    let version ← negotiated API_FetchRequest
    let payload ← B.lift (r.encode version corr)
    requestStreamingly payload

/-! ## Histories -/

/-- A call on a broker object. -/
inductive Call where
  | get (r : Req)
  | fetch (r : Req)
  | close

/-- Perform a call; the response of `RequestAndGet`, if any. -/
def Call.run : Call → B (Option Response)
  | .get r => do
    let x ← requestAndGet r
    pure (some x)
  | .fetch r => do
    let _ ← requestFetchStreamingly r
    pure none
  | .close => do
    closeBroker
    pure none

/-- Perform calls one after the other.  Nothing happens after a crash or while a call blocks. -/
def runCalls : List Call → Broker → List (Ret (Option Response)) × Broker
  | [], b => ([], b)
  | c :: cs, b =>
    match c.run b with
    | (.panic, b') => ([.panic], b')
    | (.hang, b') => ([.hang], b')
    | (x, b') => (x :: (runCalls cs b').1, (runCalls cs b').2)

end Healer
