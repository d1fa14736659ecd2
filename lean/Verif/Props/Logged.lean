import Verif.Model.Logged
import Verif.Props.Broker

/-!
# C172: passwords stay out of the log

What the client writes to its log does not depend on the SASL password, and on the wire only the request made for it does.
-/

namespace Healer

/-! ## Specification -/

/-- What somebody who sees `f` of every payload can see of what a broker object does. -/
def Act.view {κ : Type} (f : Bytes → κ) : Act → Nat × Nat × Option κ
  | .dial c => (0, c, none)
  | .send c p => (1, c, some (f p))
  | .sendFailed c p => (2, c, some (f p))
  | .close c => (3, c, none)

/-- Of a SaslAuthenticate request (key 36) nothing but that it is one, of every other request everything. -/
def exceptAuthenticate (p : Bytes) : Option Bytes :=
  if (p.drop 4).take 2 = [0, 36] then none else some p

/-- A broker object is made and used for requests, one after the other: what the calls return, and what happened. -/
def lifeOf (sasl : SaslConfig) (dials : List (Except Err Script)) (rs : List Req) :
    Ret Unit × List (Ret Response) × List Act :=
  let made := newBroker sasl dials
  let used := rs.foldl (fun (x : List (Ret Response) × Broker) r => (x.1 ++ [(requestAndGet r x.2).1], (requestAndGet r x.2).2))
    ([], made.2)
  (made.1, used.1, used.2.log)

/-- The text contains the word. -/
def Within (word text : Bytes) : Prop := ∃ a z, text = a ++ word ++ z

/-- Characters which need no escape in JSON, in any setting of the encoder. -/
def PlainWord (w : Bytes) : Prop := ∀ c ∈ w, 32 ≤ c ∧ c ≤ 126 ∧ c ≠ 34 ∧ c ≠ 92 ∧ c ≠ 60 ∧ c ≠ 62 ∧ c ≠ 38

/-! ## Two broker objects that differ in the password -/

structure SameButPassword {κ : Type} (f : Bytes → κ) (p p' : Bytes) (b b' : Broker) : Prop where
  mechanism : b.sasl.mechanism = b'.sasl.mechanism
  user : b.sasl.user = b'.sasl.user
  left : b.sasl.password = p
  right : b'.sasl.password = p'
  conn : b.conn = b'.conn
  apiVersions : b.apiVersions = b'.apiVersions
  correlationID : b.correlationID = b'.correlationID
  mux : b.mux = b'.mux
  dials : b.dials = b'.dials
  dialed : b.dialed = b'.dialed
  log : b.log.map (Act.view f) = b'.log.map (Act.view f)

variable {κ : Type} {f : Bytes → κ} {p p' : Bytes}

/-- Code that does the same on both, as far as can be seen. -/
def PwSim (f : Bytes → κ) (p p' : Bytes) {α : Type} (m m' : B α) : Prop :=
  ∀ b b', SameButPassword f p p' b b' → (m b).1 = (m' b').1 ∧ SameButPassword f p p' (m b).2 (m' b').2

theorem PwSim.pure {α : Type} (a : α) : PwSim f p p' (Pure.pure a : B α) (Pure.pure a) := fun _ _ h => ⟨rfl, h⟩

theorem PwSim.bind {α β : Type} {m m' : B α} {g g' : α → B β} (hm : PwSim f p p' m m') (hg : ∀ a, PwSim f p p' (g a) (g' a)) :
    PwSim f p p' (m >>= g) (m' >>= g') := by
  intro b b' h
  obtain ⟨h1, h2⟩ := hm b b' h
  change (B.bind m g b).1 = (B.bind m' g' b').1 ∧ SameButPassword f p p' (B.bind m g b).2 (B.bind m' g' b').2
  unfold B.bind
  rcases hb : m b with ⟨r, c⟩
  rcases hb' : m' b' with ⟨r', c'⟩
  rw [hb, hb'] at h1 h2
  cases h1
  cases r with
  | ok a => exact hg a c c' h2
  | err e => exact ⟨rfl, h2⟩
  | panic => exact ⟨rfl, h2⟩
  | hang => exact ⟨rfl, h2⟩

theorem PwSim.fail {α : Type} (e : Err) : PwSim f p p' (B.fail e : B α) (B.fail e) := fun _ _ h => ⟨rfl, h⟩

theorem PwSim.panic {α : Type} : PwSim f p p' (fun b => (.panic, b) : B α) (fun b => (.panic, b)) := fun _ _ h => ⟨rfl, h⟩

theorem PwSim.wrap {α : Type} {m m' : B α} (hm : PwSim f p p' m m') : PwSim f p p' (B.wrap m) (B.wrap m') := by
  intro b b' h
  obtain ⟨h1, h2⟩ := hm b b' h
  unfold B.wrap
  rcases hb : m b with ⟨r, c⟩
  rcases hb' : m' b' with ⟨r', c'⟩
  rw [hb, hb'] at h1 h2
  cases h1
  cases r <;> exact ⟨rfl, h2⟩

theorem PwSim.lift {α : Type} (o : Out α) : PwSim f p p' (B.lift o) (B.lift o) := by
  intro b b' h
  cases o <;> exact ⟨rfl, h⟩

theorem PwSim.locked {α : Type} {m m' : B α} (hm : PwSim f p p' m m') : PwSim f p p' (locked m) (Healer.locked m') := by
  intro b b' h
  unfold Healer.locked
  rw [← h.mux]
  by_cases hx : b.mux = true
  · rw [if_pos hx, if_pos hx]; exact ⟨rfl, h⟩
  · rw [if_neg hx, if_neg hx]
    obtain ⟨h1, h2⟩ := hm { b with mux := true } { b' with mux := true } { h with mux := rfl }
    rcases hb : m { b with mux := true } with ⟨r, c⟩
    rcases hb' : m' { b' with mux := true } with ⟨r', c'⟩
    rw [hb, hb'] at h1 h2
    cases h1
    cases r with
    | hang => exact ⟨rfl, h2⟩
    | ok a => exact ⟨rfl, { h2 with mux := rfl }⟩
    | err e => exact ⟨rfl, { h2 with mux := rfl }⟩
    | panic => exact ⟨rfl, { h2 with mux := rfl }⟩

theorem pw_closeBroker : PwSim f p p' closeBroker closeBroker := by
  intro b b' h
  unfold closeBroker
  rw [← h.conn]
  rcases hc : b.conn with _ | c
  · exact ⟨rfl, h⟩
  · exact ⟨rfl, { h with conn := rfl, log := by simp [h.log] }⟩

theorem pw_createConn : PwSim f p p' createConn createConn := by
  intro b b' h
  change (B.bind dial _ b).1 = (B.bind dial _ b').1 ∧ SameButPassword f p p' (B.bind dial _ b).2 (B.bind dial _ b').2
  unfold B.bind dial
  rw [← h.dials, ← h.dialed]
  rcases hd : b.dials with _ | ⟨d, ds⟩
  · exact ⟨rfl, { h with dials := rfl, dialed := rfl }⟩
  · rcases d with e | s
    · exact ⟨rfl, { h with dials := rfl, dialed := rfl }⟩
    · exact ⟨rfl, { h with conn := rfl, dials := rfl, dialed := rfl, log := by simp [h.log] }⟩

theorem pw_send {q q' : Bytes} (hl : q.length < 12 ↔ q'.length < 12) (hf : f q = f q') : PwSim f p p' (send q) (send q') := by
  intro b b' h
  unfold send
  rw [← h.conn]
  rcases hc : b.conn with _ | c
  · exact ⟨rfl, h⟩
  · dsimp only
    by_cases hq : q.length < 12
    · rw [if_pos hq, if_pos (hl.mp hq)]; exact ⟨rfl, h⟩
    · rw [if_neg hq, if_neg (fun x => hq (hl.mpr x))]
      rcases hw : c.writes c.written with _ | e
      · exact ⟨rfl, { h with conn := rfl, log := by simp [h.log, Act.view, hf] }⟩
      · exact ⟨rfl, { h with conn := rfl, log := by simp [h.log, Act.view, hf] }⟩

theorem pw_next : PwSim f p p' nextCorrelationID nextCorrelationID := by
  intro b b' h
  unfold nextCorrelationID
  rw [← h.correlationID]
  exact ⟨rfl, { h with correlationID := rfl }⟩

theorem pw_negotiated (api : UInt16) : PwSim f p p' (negotiated api) (negotiated api) := by
  intro b b' h
  unfold negotiated
  rw [← h.apiVersions]
  exact ⟨rfl, h⟩

theorem pw_readParse (api v : UInt16) : PwSim f p p' (readParse api v) (readParse api v) := by
  intro b b' h
  unfold readParse
  rw [← h.conn]
  rcases hc : b.conn with _ | c
  · exact ⟨rfl, h⟩
  · dsimp only
    rcases hr : readAndParse api v c.reads with ⟨r, evs⟩
    cases r <;> exact ⟨rfl, { h with conn := rfl }⟩

theorem pw_checkError (r : Response) : PwSim f p p' (checkError r) (checkError r) := by
  unfold checkError
  split
  · exact PwSim.pure ()
  · exact PwSim.fail _
  · exact PwSim.fail _
  · exact PwSim.panic

/-- Two requests that look the same. -/
structure ReqAlike (f : Bytes → κ) (r r' : Req) : Prop where
  api : r.api = r'.api
  same : ∀ v c, r.encode v c = r'.encode v c ∨
    ∃ q q', r.encode v c = .ok q ∧ r'.encode v c = .ok q' ∧ 12 ≤ q.length ∧ 12 ≤ q'.length ∧ f q = f q'

theorem ReqAlike.refl (r : Req) : ReqAlike f r r := ⟨rfl, fun _ _ => .inl rfl⟩

theorem pw_request {r r' : Req} (h : ReqAlike f r r') : PwSim f p p' (request r) (request r') := by
  unfold request
  rw [← h.api]
  refine pw_next.bind fun corr => (pw_negotiated _).bind fun v => ?_
  rcases h.same v corr with he | ⟨q, q', e, e', l, l', hf⟩
  · rw [← he]
    exact (PwSim.lift _).bind fun q => (pw_send Iff.rfl rfl).wrap.bind fun _ => PwSim.pure _
  · rw [e, e']
    intro b b' hb
    exact ((pw_send (p := p) (p' := p') ⟨fun x => by omega, fun x => by omega⟩ hf).wrap.bind
      fun _ => PwSim.pure v) b b' hb

theorem pw_exchange {r r' : Req} (h : ReqAlike f r r') : PwSim f p p' (exchange r) (exchange r') := by
  have key : PwSim f p p' (do let version ← request r; let resp ← readParse r.api version; checkError resp; pure resp : B Response)
      (do let version ← request r'; let resp ← readParse r'.api version; checkError resp; pure resp : B Response) := by
    rw [← h.api]
    exact (pw_request h).bind fun v => (pw_readParse _ v).bind fun x => (pw_checkError x).bind fun _ => PwSim.pure x
  intro b b' hb
  obtain ⟨h1, h2⟩ := key b b' hb
  unfold exchange
  generalize hx : (do let version ← request r; let resp ← readParse r.api version; checkError resp; pure resp : B Response) b = x at h1 h2
  generalize hy : (do let version ← request r'; let resp ← readParse r'.api version; checkError resp; pure resp : B Response) b' = y at h1 h2
  rcases x with ⟨x1, x2⟩
  rcases y with ⟨y1, y2⟩
  cases h1
  cases x1 with
  | err e =>
    dsimp only
    by_cases hc : closesConn e = true
    · rw [if_pos hc, if_pos hc]; exact ⟨rfl, (pw_closeBroker _ _ h2).2⟩
    · rw [if_neg hc, if_neg hc]; exact ⟨rfl, h2⟩
  | ok a => exact ⟨rfl, h2⟩
  | panic => exact ⟨rfl, h2⟩
  | hang => exact ⟨rfl, h2⟩

theorem pw_ensureOpenWith {m m' : B Unit} (hm : PwSim f p p' m m') : PwSim f p p' (ensureOpenWith m) (ensureOpenWith m') := by
  intro b b' h
  unfold ensureOpenWith
  rw [← h.conn]
  rcases b.conn with _ | c
  · exact hm b b' h
  · exact ⟨rfl, h⟩

theorem pw_requestAndGetWith {m m' : B Unit} {r r' : Req} (hm : PwSim f p p' m m') (h : ReqAlike f r r') :
    PwSim f p p' (requestAndGetWith m r) (requestAndGetWith m' r') :=
  PwSim.locked ((pw_ensureOpenWith hm).bind fun _ => pw_exchange h)

/-- The requests made for two passwords look the same. -/
def AuthAlike (f : Bytes → κ) (p p' user : Bytes) : Prop :=
  ∀ v c, ∃ q q', encodeSaslAuthenticateRequest (reqHeader API_SaslAuthenticate v c (some saslClient)) (plainSasl user p) = .ok q ∧
    encodeSaslAuthenticateRequest (reqHeader API_SaslAuthenticate v c (some saslClient)) (plainSasl user p') = .ok q' ∧
    12 ≤ q.length ∧ 12 ≤ q'.length ∧ f q = f q'

theorem pw_sendSaslAuthenticate {user : Bytes} (mechanism : Bytes) (h : AuthAlike f p p' user) :
    PwSim f p p' (sendSaslAuthenticate ⟨mechanism, user, p⟩) (sendSaslAuthenticate ⟨mechanism, user, p'⟩) := by
  unfold sendSaslAuthenticate
  refine (pw_requestAndGetWith (PwSim.fail _) (ReqAlike.refl _)).bind fun _ => PwSim.bind ?_ fun _ => PwSim.pure ()
  unfold saslAuthenticateReq
  dsimp only
  by_cases hm : toLower mechanism = [112, 108, 97, 105, 110]
  · rw [if_pos hm, if_pos hm]
    exact pw_requestAndGetWith (PwSim.fail _) ⟨rfl, fun v c => .inr (h v c)⟩
  · rw [if_neg hm, if_neg hm]
    exact PwSim.locked ((pw_ensureOpenWith (PwSim.fail _)).bind fun _ => pw_next.bind fun _ => PwSim.panic)

theorem pw_requestAPIVersions : PwSim f p p' requestAPIVersions requestAPIVersions := by
  unfold requestAPIVersions
  refine (pw_request (ReqAlike.refl _)).bind fun v => (pw_readParse _ v).bind fun x => (pw_checkError x).bind fun _ => ?_
  unfold asAPIVersions
  split
  · exact PwSim.pure _
  · exact PwSim.panic

theorem pw_createConnAndAuth (h : ∀ user, AuthAlike f p p' user) : PwSim f p p' createConnAndAuth createConnAndAuth := by
  unfold createConnAndAuth
  refine pw_createConn.bind fun _ => pw_requestAPIVersions.wrap.bind fun vs => ?_
  intro b b' hb
  dsimp only
  rw [← hb.mechanism]
  have hb2 : SameButPassword f p p' { b with apiVersions := vs } { b' with apiVersions := vs } := { hb with apiVersions := rfl }
  by_cases hm : b.sasl.mechanism ≠ []
  · rw [if_pos hm, if_pos hm]
    have e : b.sasl = ⟨b.sasl.mechanism, b.sasl.user, p⟩ := by rw [← hb.left]
    have e' : b'.sasl = ⟨b.sasl.mechanism, b.sasl.user, p'⟩ := by rw [← hb.right, hb.mechanism, hb.user]
    have := pw_sendSaslAuthenticate b.sasl.mechanism (h b.sasl.user) _ _ hb2
    rw [← e, ← e'] at this
    exact this
  · rw [if_neg hm, if_neg hm]; exact ⟨rfl, hb2⟩

theorem alike_life (h : ∀ user, AuthAlike f p p' user) (mechanism user : Bytes) (dials : List (Except Err Script)) (rs : List Req) :
    (lifeOf ⟨mechanism, user, p⟩ dials rs).1 = (lifeOf ⟨mechanism, user, p'⟩ dials rs).1 ∧
    (lifeOf ⟨mechanism, user, p⟩ dials rs).2.1 = (lifeOf ⟨mechanism, user, p'⟩ dials rs).2.1 ∧
    (lifeOf ⟨mechanism, user, p⟩ dials rs).2.2.map (Act.view f) = (lifeOf ⟨mechanism, user, p'⟩ dials rs).2.2.map (Act.view f) := by
  have h0 := pw_createConnAndAuth h ⟨⟨mechanism, user, p⟩, none, [], 0, false, dials, 0, []⟩
    ⟨⟨mechanism, user, p'⟩, none, [], 0, false, dials, 0, []⟩ ⟨rfl, rfl, rfl, rfl, rfl, rfl, rfl, rfl, rfl, rfl, rfl⟩
  have step : ∀ (rs : List Req) (xs : List (Ret Response)) (b b' : Broker), SameButPassword f p p' b b' →
      let go := fun (x : List (Ret Response) × Broker) (r : Req) => (x.1 ++ [(requestAndGet r x.2).1], (requestAndGet r x.2).2)
      (rs.foldl go (xs, b)).1 = (rs.foldl go (xs, b')).1 ∧ SameButPassword f p p' (rs.foldl go (xs, b)).2 (rs.foldl go (xs, b')).2 := by
    intro rs
    induction rs with
    | nil => intro xs b b' hb; exact ⟨rfl, hb⟩
    | cons r rs ih =>
      intro xs b b' hb
      obtain ⟨h1, h2⟩ := pw_requestAndGetWith (r := r) (r' := r) (pw_createConnAndAuth h) (ReqAlike.refl r) b b' hb
      simp only [List.foldl_cons]
      have e : (requestAndGet r b).1 = (requestAndGet r b').1 := h1
      rw [e]
      exact ih _ _ _ h2
  obtain ⟨s1, s2⟩ := step rs [] _ _ h0.2
  exact ⟨h0.1, s1, s2.log⟩

/-! ## The two requests -/

theorem encode_authenticate (v : UInt16) (c : UInt32) : ∃ head : Bytes, ∀ token : Bytes,
    encodeSaslAuthenticateRequest (reqHeader API_SaslAuthenticate v c (some saslClient)) token =
      .ok (Kafka.int32 (8 + (head.length + (4 + token.length)) : Nat) ++ (Kafka.int16 36 ++ (Kafka.int16 v.toNat ++
        (Kafka.int32 c.toNat ++ (head ++ Kafka.bytes token))))) := by
  refine ⟨(if 1 ≤ Kafka.Api.saslAuthenticate.requestHeaderVersion v.toNat then Kafka.nullableString (some saslClient) else []) ++
    (if 2 ≤ Kafka.Api.saslAuthenticate.requestHeaderVersion v.toNat then Kafka.tagBuffer [] else []), fun token => ?_⟩
  have h : encodeSaslAuthenticateRequest (reqHeader API_SaslAuthenticate v c (some saslClient)) token =
      .ok (Kafka.request .saslAuthenticate v.toNat c.toNat (some saslClient) (Kafka.saslAuthenticateRequest token)) :=
    encodeSized_ok .saslAuthenticate rfl (Writes.bytes32 _) (by simp [Kafka.saslAuthenticateRequest])
  refine Eq.trans h ?_
  have hb : (Kafka.bytes token).length = 4 + token.length := by simp [Kafka.bytes, int32_length]
  have hk : (Kafka.Api.saslAuthenticate.key : Int) = 36 := rfl
  unfold Kafka.request Kafka.frame Kafka.requestHeader Kafka.saslAuthenticateRequest
  simp only [List.append_assoc, List.length_append, int16_length, int32_length, hb, hk]
  congr 3
  omega

theorem int16_key : Kafka.int16 36 = [0, 36] := by decide +kernel

theorem auth_covered (user : Bytes) : AuthAlike exceptAuthenticate p p' user := by
  intro v c
  obtain ⟨head, h⟩ := encode_authenticate v c
  refine ⟨_, _, h _, h _, ?_, ?_, ?_⟩
  · simp [int16_length, int32_length]; omega
  · simp [int16_length, int32_length]; omega
  · simp [exceptAuthenticate, int16_key, int32_length]

theorem auth_lines (hl : p.length = p'.length) (user : Bytes) : AuthAlike requestLine p p' user := by
  intro v c
  obtain ⟨head, h⟩ := encode_authenticate v c
  refine ⟨_, _, h _, h _, ?_, ?_, ?_⟩
  · simp [int16_length, int32_length]; omega
  · simp [int16_length, int32_length]; omega
  · have e : (plainSasl user p).length = (plainSasl user p').length := by simp [plainSasl, hl]
    have lb : (Kafka.bytes (plainSasl user p)).length = (Kafka.bytes (plainSasl user p')).length := by
      simp [Kafka.bytes, int32_length, e]
    have key : ∀ (a b c d x y : Bytes), a.length = 4 → b.length = 2 → c.length = 2 → d.length = 4 → x.length = y.length →
        requestLine (a ++ (b ++ (c ++ (d ++ x)))) = requestLine (a ++ (b ++ (c ++ (d ++ y)))) := by
      intro a b c d x y ha hb hc hd hx
      obtain ⟨a1, a2, a3, a4, rfl⟩ : ∃ a1 a2 a3 a4, a = [a1, a2, a3, a4] := by
        match a, ha with | [a1, a2, a3, a4], _ => exact ⟨_, _, _, _, rfl⟩
      obtain ⟨d1, d2, d3, d4, rfl⟩ : ∃ a1 a2 a3 a4, d = [a1, a2, a3, a4] := by
        match d, hd with | [a1, a2, a3, a4], _ => exact ⟨_, _, _, _, rfl⟩
      obtain ⟨b1, b2, rfl⟩ : ∃ a1 a2, b = [a1, a2] := by match b, hb with | [a1, a2], _ => exact ⟨_, _, rfl⟩
      obtain ⟨c1, c2, rfl⟩ : ∃ a1 a2, c = [a1, a2] := by match c, hc with | [a1, a2], _ => exact ⟨_, _, rfl⟩
      simp [requestLine, beNat, hx]
    rw [e]
    exact key _ _ _ _ _ _ (int32_length _) (int16_length _) (int16_length _) (int32_length _) (by simp [lb])

/-! ## The property -/

/-- On the wire the password is in the SaslAuthenticate requests only, and in what they are made of: for two passwords, the
same peer and the same calls, whatever was dialled, sent and closed is the same except for the contents of those requests,
and every call returns the same.  (Part of the claim; what is missing is that the log is free of it.) -/
theorem C172_wire_partial (mechanism user p p' : Bytes) (dials : List (Except Err Script)) (rs : List Req) :
    (lifeOf ⟨mechanism, user, p⟩ dials rs).1 = (lifeOf ⟨mechanism, user, p'⟩ dials rs).1 ∧
    (lifeOf ⟨mechanism, user, p⟩ dials rs).2.1 = (lifeOf ⟨mechanism, user, p'⟩ dials rs).2.1 ∧
    (lifeOf ⟨mechanism, user, p⟩ dials rs).2.2.map (Act.view exceptAuthenticate) =
      (lifeOf ⟨mechanism, user, p'⟩ dials rs).2.2.map (Act.view exceptAuthenticate) :=
  alike_life auth_covered mechanism user dials rs

/-- What is logged about requests, even with the highest verbosity, tells no more of the password than its length.  (Part of
the claim; what is missing is the lines that are handed a configuration.) -/
theorem C172_requests_partial (mechanism user p p' : Bytes) (hl : p.length = p'.length) (dials : List (Except Err Script))
    (rs : List Req) :
    (lifeOf ⟨mechanism, user, p⟩ dials rs).2.2.map (Act.view requestLine) =
      (lifeOf ⟨mechanism, user, p'⟩ dials rs).2.2.map (Act.view requestLine) :=
  (alike_life (auth_lines hl) mechanism user dials rs).2.2

theorem Within.append_left {w t : Bytes} (h : Within w t) (x : Bytes) : Within w (x ++ t) := by
  obtain ⟨a, z, rfl⟩ := h
  exact ⟨x ++ a, z, by simp⟩

theorem Within.append_right {w t : Bytes} (h : Within w t) (x : Bytes) : Within w (t ++ x) := by
  obtain ⟨a, z, rfl⟩ := h
  exact ⟨a, z ++ x, by simp⟩

theorem flatMap_plain {other : UInt8 → Bytes} {w : Bytes} (h : PlainWord w) : w.flatMap (jsonByte other) = w := by
  induction w with
  | nil => rfl
  | cons c w ih =>
    rw [List.flatMap_cons, ih fun d hd => h d (List.mem_cons_of_mem _ hd), jsonByte, if_pos (h c List.mem_cons_self)]
    rfl

theorem within_jsonSasl {other : UInt8 → Bytes} {s : SaslConfig} (h : PlainWord s.password) :
    Within s.password (jsonSasl other s) := by
  refine Within.append_right (Within.append_left ?_ _) _
  refine Within.append_left ⟨[34], [34], ?_⟩ _
  rw [jsonText, flatMap_plain h]

/-- The line is printed by the logger as it is, and the password can be read in it. -/
def LogLine.tells (other : UInt8 → Bytes) (fields : Shown → Bytes × Bytes) (password : Bytes) (l : LogLine) : Prop :=
  l.verbosity = 0 ∧ Within password (l.render other fields)

/-- Whoever makes a consumer, a group consumer, a simple consumer, a producer or a simple producer with a password: every
line written meanwhile that shows a configuration shows the password, letter by letter, whatever the other settings are and
however they are written.  There are at least two such lines. -/
theorem C172_violated_every_maker (m : Maker) (servers : Bytes) (c : ConnSettings) (other : UInt8 → Bytes)
    (fields : Shown → Bytes × Bytes) (h : PlainWord c.sasl.password) :
    2 ≤ (makerLines m servers c).length ∧ ∀ l ∈ makerLines m servers c, l.tells other fields c.sasl.password := by
  have hs : Within c.sasl.password (shownText other fields (.settings c)) :=
    Within.append_right (Within.append_left (within_jsonSasl h) _) _
  have eb : (getBrokerConfig c).sasl = c.sasl := by
    unfold getBrokerConfig
    dsimp only
    split <;> rfl
  have hb : Within c.sasl.password (shownText other fields (.broker (getBrokerConfig c))) := by
    refine Within.append_right (Within.append_left ?_ _) _
    rw [eb]
    exact within_jsonSasl h
  have l1 : (finalConfigLine c).tells other fields c.sasl.password :=
    ⟨rfl, Within.append_right (Within.append_left hs _) _⟩
  have l2 : (newBrokersLine servers (getBrokerConfig c)).tells other fields c.sasl.password :=
    ⟨rfl, Within.append_left (Within.append_right (Within.append_left hb _) _) _⟩
  have l3 : LogLine.tells other fields c.sasl.password
      ⟨0, [("config", .settings c), ("brokerConfig", .broker (getBrokerConfig c))]⟩ :=
    ⟨rfl, Within.append_right (Within.append_left hs _) _⟩
  cases m <;> refine ⟨by simp [makerLines], fun l hl => ?_⟩ <;> simp [makerLines] at hl
  · rcases hl with rfl | rfl
    · exact l1
    · exact l2
  · rcases hl with rfl | rfl
    · exact l1
    · exact l2
  · rcases hl with rfl | rfl | rfl
    · exact l1
    · exact l3
    · exact l2
  · rcases hl with rfl | rfl
    · exact l1
    · exact l2
  · rcases hl with rfl | rfl
    · exact l1
    · exact l2

/-- Passwords that need escapes are in the lines as well: two passwords never give the same values to the logger. -/
theorem C172_violated_every_password (m : Maker) (servers : Bytes) (c : ConnSettings) (password : Bytes)
    (h : password ≠ c.sasl.password) :
    makerLines m servers { c with sasl := { c.sasl with password := password } } ≠ makerLines m servers c := by
  intro he
  apply h
  cases m <;> simp [makerLines, finalConfigLine] at he <;> exact congrArg (fun c : ConnSettings => c.sasl.password) he.1

/-! ## Cases that meet the hypotheses -/

/-- "s3cret" -/
def secretWord : Bytes := [115, 51, 99, 114, 101, 116]

example : PlainWord secretWord := by unfold PlainWord secretWord; decide

example : (jsonSasl (fun _ => []) ⟨[112], [117], secretWord⟩) =
    "{\"mechanism\":\"p\",\"user\":\"u\",\"password\":\"s3cret\"}".toUTF8.toList := by decide +kernel

/-- A broker that answers: the three requests are sent with either password, and differ in the third. -/
def answering : List (Except Err Script) :=
  [.ok ⟨[.data [0, 0, 0, 10, 0, 0, 0, 1, 0, 0, 0, 0, 0, 0], .data [0, 0, 0, 10, 0, 0, 0, 2, 0, 0, 0, 0, 0, 0],
      .data [0, 0, 0, 12, 0, 0, 0, 3, 0, 0, 255, 255, 0, 0, 0, 0]], fun _ => none⟩]

example : (newBroker ⟨[112, 108, 97, 105, 110], [117], secretWord⟩ answering).1 = .ok () ∧
    (newBroker ⟨[112, 108, 97, 105, 110], [117], secretWord⟩ answering).2.log.length = 4 ∧
    (newBroker ⟨[112, 108, 97, 105, 110], [117], secretWord⟩ answering).2.log ≠
      (newBroker ⟨[112, 108, 97, 105, 110], [117], [0, 0, 0, 0, 0, 0]⟩ answering).2.log := by decide +kernel

end Healer
