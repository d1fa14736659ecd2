import Verif.Props.Broker3

/-!
# C90: which connections a failed `NewBroker` closes
-/

namespace Healer

/-- The connection is kept, and nothing is closed. -/
structure Untouched (b b' : Broker) : Prop where
  conn : ∀ c, b.conn = some c → ∃ c', b'.conn = some c' ∧ c'.id = c.id
  log : ∃ ext, b'.log = b.log ++ ext ∧ ∀ id, .close id ∉ ext

theorem Untouched.refl (b : Broker) : Untouched b b := ⟨fun c h => ⟨c, h, rfl⟩, [], by simp, by simp⟩

theorem Untouched.trans {b b' b'' : Broker} (h : Untouched b b') (h' : Untouched b' b'') : Untouched b b'' := by
  refine ⟨fun c hc => ?_, ?_⟩
  · obtain ⟨c', h1, h2⟩ := h.conn c hc
    obtain ⟨c'', g1, g2⟩ := h'.conn c' h1
    exact ⟨c'', g1, g2.trans h2⟩
  · obtain ⟨x, hx, hx'⟩ := h.log
    obtain ⟨y, hy, hy'⟩ := h'.log
    refine ⟨x ++ y, by rw [hy, hx, List.append_assoc], fun id hm => ?_⟩
    rcases List.mem_append.1 hm with hm | hm
    · exact hx' id hm
    · exact hy' id hm

/-- Code that closes nothing. -/
def KeepsOpen {α : Type} (m : B α) : Prop := ∀ b, Untouched b (m b).2

theorem KeepsOpen.bind {α β : Type} {m : B α} {f : α → B β} (hm : KeepsOpen m) (hf : ∀ a, KeepsOpen (f a)) : KeepsOpen (m >>= f) := by
  intro b
  have h1 := hm b
  change Untouched b (B.bind m f b).2
  unfold B.bind
  rcases hmb : m b with ⟨x, b'⟩
  rw [hmb] at h1
  cases x with
  | ok a => exact h1.trans (hf a b')
  | err e => exact h1
  | panic => exact h1
  | hang => exact h1

theorem KeepsOpen.pure {α : Type} (a : α) : KeepsOpen (Pure.pure a : B α) := fun b => .refl b

theorem KeepsOpen.wrap {α : Type} {m : B α} (h : KeepsOpen m) : KeepsOpen (B.wrap m) := by
  intro b
  have h1 := h b
  unfold B.wrap
  rcases hmb : m b with ⟨x, b'⟩
  rw [hmb] at h1
  cases x <;> exact h1

theorem keepsOpen_lift {α : Type} (o : Out α) : KeepsOpen (B.lift o) := by
  intro b
  unfold B.lift
  cases o <;> exact .refl b

theorem keepsOpen_send (p : Bytes) : KeepsOpen (send p) := by
  intro b
  unfold send
  rcases hb : b.conn with _ | c
  · exact .refl b
  · simp only
    split
    · exact .refl b
    · cases c.writes c.written with
      | none => exact ⟨fun c' hc' => by rw [hb] at hc'; cases hc'; exact ⟨_, rfl, rfl⟩, [.send c.id p], rfl, by simp⟩
      | some e => exact ⟨fun c' hc' => by rw [hb] at hc'; cases hc'; exact ⟨_, rfl, rfl⟩, [.sendFailed c.id p], rfl, by simp⟩

theorem keepsOpen_corr : KeepsOpen nextCorrelationID := fun b => ⟨fun c h => ⟨c, h, rfl⟩, [], by simp [nextCorrelationID], by simp⟩

theorem keepsOpen_request (r : Req) : KeepsOpen (request r) :=
  keepsOpen_corr.bind fun _ => KeepsOpen.bind (fun b => .refl b) fun _ => (keepsOpen_lift _).bind fun _ =>
    (keepsOpen_send _).wrap.bind fun _ => .pure _

theorem keepsOpen_readParse (api v : UInt16) : KeepsOpen (readParse api v) := by
  intro b
  unfold readParse
  rcases hb : b.conn with _ | c
  · exact .refl b
  · simp only
    rcases readAndParse api v c.reads with ⟨_ | _ | _, evs⟩ <;>
      exact ⟨fun c' hc' => by rw [hb] at hc'; cases hc'; exact ⟨_, rfl, rfl⟩, [], by simp, by simp⟩

theorem keepsOpen_checkError (r : Response) : KeepsOpen (checkError r) := by
  intro b
  unfold checkError
  rcases r.error with (_ | _) | _ | _ <;> exact .refl b

theorem keepsOpen_exchangeBody (r : Req) : KeepsOpen (exchangeBody r) :=
  (keepsOpen_request r).bind fun _ => (keepsOpen_readParse _ _).bind fun x => (keepsOpen_checkError x).bind fun _ => .pure _

theorem keepsOpen_requestAPIVersions : KeepsOpen requestAPIVersions :=
  (keepsOpen_request _).bind fun _ => (keepsOpen_readParse _ _).bind fun x => (keepsOpen_checkError x).bind fun _ => fun b => by
    unfold asAPIVersions
    split <;> exact .refl b

/-- the errors after which the code that is `RequestAndGet` closes the connection -/
def Ends {α : Type} (x : Ret α) : Prop := ∃ e, x = .err e ∧ closesConn e = true

/-- What is left of the connection `id`: it was closed exactly if the result is such an error. -/
structure LeftBy {α : Type} (id : Nat) (b : Broker) (x : Ret α) (b' : Broker) : Prop where
  log : ∃ ext, b'.log = b.log ++ ext ∧ (.close id ∈ ext ↔ Ends x)
  conn : ¬ Ends x → ∃ c', b'.conn = some c' ∧ c'.id = id
  mux : b'.mux = b.mux

theorem leftBy_exchange (r : Req) {b : Broker} {c : Conn} (hc : b.conn = some c) : LeftBy c.id b (exchange r b).1 (exchange r b).2 := by
  have h1 := keepsOpen_exchangeBody r b
  have hmux := ((quiet_exchange r).step b).2.1
  rw [exchange_eq] at hmux ⊢
  rcases hx : exchangeBody r b with ⟨x, b'⟩
  rw [hx] at h1 hmux
  obtain ⟨c', g1, g2⟩ := h1.conn c hc
  obtain ⟨ext, e1, e2⟩ := h1.log
  cases x with
  | err e =>
    simp only at hmux ⊢
    by_cases hcl : closesConn e = true
    · rw [if_pos hcl] at hmux ⊢
      refine ⟨?_, fun hne => absurd ⟨e, rfl, hcl⟩ hne, hmux⟩
      unfold closeBroker
      simp only at g1
      rw [g1]
      simp only at e1 ⊢
      exact ⟨ext ++ [.close c'.id], by rw [e1, List.append_assoc], by simp [g2, Ends, hcl]⟩
    · rw [if_neg hcl] at hmux ⊢
      exact ⟨⟨ext, e1, fun hm => absurd hm (e2 _), fun ⟨e', he, hh⟩ => by cases he; exact absurd hh hcl⟩, fun _ => ⟨c', g1, g2⟩, hmux⟩
  | ok a => exact ⟨⟨ext, e1, fun hm => absurd hm (e2 _), fun ⟨e', he, hh⟩ => by cases he⟩, fun _ => ⟨c', g1, g2⟩, hmux⟩
  | panic => exact ⟨⟨ext, e1, fun hm => absurd hm (e2 _), fun ⟨e', he, hh⟩ => by cases he⟩, fun _ => ⟨c', g1, g2⟩, hmux⟩
  | hang => exact ⟨⟨ext, e1, fun hm => absurd hm (e2 _), fun ⟨e', he, hh⟩ => by cases he⟩, fun _ => ⟨c', g1, g2⟩, hmux⟩

theorem leftBy_requestAndGetInner (r : Req) {b : Broker} {c : Conn} (hc : b.conn = some c) (hm : b.mux = false) :
    LeftBy c.id b (requestAndGetInner r b).1 (requestAndGetInner r b).2 := by
  have h1 := leftBy_exchange r (b := { b with mux := true }) hc
  have he : requestAndGetInner r b = (match exchange r { b with mux := true } with
      | (.hang, b') => (.hang, b')
      | (x, b') => (x, { b' with mux := false })) := by
    unfold requestAndGetInner requestAndGetWith locked
    rw [if_neg (by rw [hm]; simp)]
    have : (do ensureOpenWith (B.fail (.other "unreachable")); exchange r : B Response) { b with mux := true } =
        exchange r { b with mux := true } := by
      change B.bind _ _ _ = _
      unfold B.bind ensureOpenWith
      simp only [hc]
    rw [this]
    rcases exchange r { b with mux := true } with ⟨_ | _ | _ | _, _⟩ <;> rfl
  rw [he]
  have hq := ((quiet_exchange r).step { b with mux := true }).1
  rcases hx : exchange r { b with mux := true } with ⟨x, b'⟩
  rw [hx] at h1 hq
  cases x with
  | hang => exact absurd rfl hq
  | _ => exact ⟨h1.log, h1.conn, hm.symm⟩

theorem leftBy_requestAndGetOpt (o : Option Req) {b : Broker} {c : Conn} (hc : b.conn = some c) (hm : b.mux = false) :
    LeftBy c.id b (requestAndGetOpt o b).1 (requestAndGetOpt o b).2 := by
  cases o with
  | some r => exact leftBy_requestAndGetInner r hc hm
  | none =>
    have : requestAndGetOpt none b = (.panic, { b with correlationID := b.correlationID + 1, mux := false }) := by
      show locked _ b = _
      unfold locked
      rw [if_neg (by rw [hm]; simp)]
      have : (do ensureOpenWith (B.fail (.other "unreachable")); let _ ← nextCorrelationID; fun b => (.panic, b) : B Response)
          { b with mux := true } = (.panic, { b with correlationID := b.correlationID + 1, mux := true }) := by
        change B.bind _ _ _ = _
        unfold B.bind ensureOpenWith
        simp only [hc]
        rfl
      rw [this]
    rw [this]
    exact ⟨⟨[], by simp, by simp [Ends]⟩, fun _ => ⟨c, hc, rfl⟩, hm.symm⟩

theorem Ends.same {α β : Type} {e : Err} (h : Ends (.err e : Ret α)) : Ends (.err e : Ret β) := by
  obtain ⟨e', h1, h2⟩ := h
  cases h1
  exact ⟨e, rfl, h2⟩

theorem leftBy_sasl (s : SaslConfig) {b b' : Broker} {c : Conn} (hc : b.conn = some c) (hm : b.mux = false) {e : Err}
    (h : sendSaslAuthenticate s b = (.err e, b')) :
    ∃ ext, b'.log = b.log ++ ext ∧ (.close c.id ∈ ext ↔ closesConn e = true) := by
  have h1 := leftBy_requestAndGetInner (saslHandshakeReq s.mechanism) hc hm
  have hends : ∀ {α : Type}, Ends (.err e : Ret α) ↔ closesConn e = true := by
    intro α
    exact ⟨fun ⟨e', g1, g2⟩ => by cases g1; exact g2, fun hh => ⟨e, rfl, hh⟩⟩
  change B.bind _ _ b = _ at h
  unfold B.bind at h
  rcases hx : requestAndGetInner (saslHandshakeReq s.mechanism) b with ⟨x, b1⟩
  rw [hx] at h h1
  cases x with
  | err e' =>
    cases h
    obtain ⟨ext, g1, g2⟩ := h1.log
    exact ⟨ext, g1, g2.trans hends⟩
  | panic => cases h
  | hang => cases h
  | ok a =>
    simp only at h
    have hn : ¬ Ends (.ok a : Ret Response) := fun ⟨e', g1, _⟩ => by cases g1
    obtain ⟨c1, k1, k2⟩ := h1.conn hn
    obtain ⟨ext1, g1, g2⟩ := h1.log
    have h2 := leftBy_requestAndGetOpt (saslAuthenticateReq s.user s.password s.mechanism) k1 (h1.mux.trans hm)
    change B.bind _ _ b1 = _ at h
    unfold B.bind at h
    rcases hy : requestAndGetOpt (saslAuthenticateReq s.user s.password s.mechanism) b1 with ⟨y, b2⟩
    rw [hy] at h h2
    cases y with
    | err e' =>
      cases h
      obtain ⟨ext2, f1, f2⟩ := h2.log
      refine ⟨ext1 ++ ext2, by rw [f1, g1, List.append_assoc], ?_⟩
      rw [List.mem_append, ← k2]
      rw [← k2] at g2
      exact ⟨fun hh => hh.elim (fun hh => absurd (g2.1 hh) hn) (fun hh => hends.1 (f2.1 hh)), fun hh => .inr (f2.2 (hends.2 hh))⟩
    | panic => cases h
    | hang => cases h
    | ok a' => cases h

/-- C90, in part: if no connection could be opened, `NewBroker` returns the error and leaves nothing behind.
Missing for the full statement: failures after that (`C90_violated_always`, `C90_sasl_partial`). -/
theorem C90_not_connected_partial (sasl : SaslConfig) (dials : List (Except Err Script)) (hd : ∀ s ds, dials ≠ .ok s :: ds) :
    ∃ e, (newBroker sasl dials).1 = .err e ∧ (newBroker sasl dials).2.log = [] := by
  rcases dials with _ | ⟨e | s, ds⟩
  · exact ⟨_, rfl, rfl⟩
  · exact ⟨_, rfl, rfl⟩
  · exact absurd rfl (hd s ds)

/-- the first part of `NewBroker`: connect and ask for the API versions -/
def apiLearned (sasl : SaslConfig) (dials : List (Except Err Script)) : Ret (List APIVersion) × Broker :=
  (createConn >>= fun _ => B.wrap requestAPIVersions) ⟨sasl, none, [], 0, false, dials, 0, []⟩

/-- the second part: authenticate, if wanted -/
def thenAuth : Ret (List APIVersion) × Broker → Ret Unit × Broker
  | (.ok vs, b) => if b.sasl.mechanism ≠ [] then sendSaslAuthenticate b.sasl { b with apiVersions := vs } else (.ok (), { b with apiVersions := vs })
  | (.err e, b) => (.err e, b)
  | (.panic, b) => (.panic, b)
  | (.hang, b) => (.hang, b)

theorem newBroker_apiLearned (sasl : SaslConfig) (dials : List (Except Err Script)) : newBroker sasl dials = thenAuth (apiLearned sasl dials) := by
  unfold newBroker apiLearned
  change B.bind createConn _ _ = thenAuth (B.bind createConn (fun _ => B.wrap requestAPIVersions) _)
  unfold B.bind
  rcases createConn ⟨sasl, none, [], 0, false, dials, 0, []⟩ with ⟨_ | _ | _ | _, b1⟩
  · simp only
    change B.bind (B.wrap requestAPIVersions) _ b1 = _
    unfold B.bind
    rcases B.wrap requestAPIVersions b1 with ⟨_ | _ | _ | _, b2⟩ <;> rfl
  · rfl
  · rfl
  · rfl

/-- the broker when the first connection was just opened -/
def connected0 (sasl : SaslConfig) (s : Script) (ds : List (Except Err Script)) : Broker :=
  ⟨sasl, some ⟨0, s.reads, s.writes, 0⟩, [], 0, false, ds, 1, [.dial 0]⟩

theorem learned_connected (sasl : SaslConfig) (s : Script) (ds : List (Except Err Script)) :
    apiLearned sasl (.ok s :: ds) = B.wrap requestAPIVersions (connected0 sasl s ds) := by
  have h : createConn ⟨sasl, none, [], 0, false, .ok s :: ds, 0, []⟩ = (.ok (), connected0 sasl s ds) := rfl
  unfold apiLearned
  change B.bind _ _ _ = _
  unfold B.bind
  rw [h]

/-- C90 fails for every failure to obtain the API versions: whatever went wrong after the connection was opened, it is
not closed.  Without SASL these are all the failures there are. -/
theorem C90_violated_always (sasl : SaslConfig) (s : Script) (ds : List (Except Err Script)) (e : Err) (b : Broker)
    (h : newBroker sasl (.ok s :: ds) = (.err e, b))
    (hs : sasl.mechanism = [] ∨ ∃ e', (apiLearned sasl (.ok s :: ds)).1 = .err e') :
    .dial 0 ∈ b.log ∧ ∀ id, .close id ∉ b.log := by
  have ho := keepsOpen_requestAPIVersions.wrap (connected0 sasl s ds)
  have hq := (quiet_requestAPIVersions.wrap.step (connected0 sasl s ds)).2.2
  rw [← learned_connected] at ho hq
  rw [newBroker_apiLearned] at h
  rcases hx : apiLearned sasl (.ok s :: ds) with ⟨x, b1⟩
  rw [hx] at h hs ho hq
  cases x with
  | err e' =>
    simp only [thenAuth, Prod.mk.injEq] at h
    obtain ⟨-, rfl⟩ := h
    obtain ⟨ext, h1, h2⟩ := ho.log
    have h1' : b1.log = [.dial 0] ++ ext := h1
    rw [h1']
    exact ⟨by simp, fun id hm => by
      rcases List.mem_append.1 hm with hm | hm
      · simp at hm
      · exact h2 id hm⟩
  | panic => cases h
  | hang => cases h
  | ok vs =>
    rcases hs with hs | ⟨e', he⟩
    · have hm : ¬ b1.sasl.mechanism ≠ [] := by rw [hq]; simpa [connected0] using hs
      have : thenAuth (.ok vs, b1) = (.ok (), { b1 with apiVersions := vs }) := if_neg hm
      rw [this] at h
      cases h
    · cases he

/-- C90, in part: once the API versions are known, a failed authentication closes the connection exactly if its
error is a timeout, an end of file or a broken pipe.
Missing for the full statement: every other error of the authentication, a refused password for one
(`C90_violated_password`), and failures before that (`C90_violated_always`). -/
theorem C90_sasl_partial (sasl : SaslConfig) (dials : List (Except Err Script)) (vs : List APIVersion) (b1 : Broker)
    (hl : apiLearned sasl dials = (.ok vs, b1)) (e : Err) (b : Broker) (h : newBroker sasl dials = (.err e, b)) :
    .dial 0 ∈ b.log ∧ (.close 0 ∈ b.log ↔ closesConn e = true) := by
  obtain ⟨c, p, v, h1, h2, h3, h4, h5, h6, h7⟩ := apiVersions_open hl
  rw [newBroker_apiLearned, hl] at h
  simp only [thenAuth] at h
  split at h
  · obtain ⟨ext, g1, g2⟩ := leftBy_sasl b1.sasl (b := { b1 with apiVersions := vs }) h1 h6 h
    simp only [h4, List.nil_append] at g1
    have h2' : c.id = 0 := h2
    rw [h2'] at g2
    rw [g1]
    exact ⟨by simp, by simpa using g2⟩
  · cases h

/-- C90 fails: after a refused password (error 58) the connection stays open. -/
theorem C90_violated_password :
    let x := newBroker withSasl [reading [.data (verAnswer 1), .data (shAnswer 2), .data (saAnswer 3 58)]]
    (∃ vs, (apiLearned withSasl [reading [.data (verAnswer 1), .data (shAnswer 2), .data (saAnswer 3 58)]]).1 = .ok vs) ∧
    x.1 = .err (.kafka 58) ∧ x.2.log.contains (.dial 0) = true ∧ x.2.log.contains (.close 0) = false :=
  ⟨⟨[⟨12, 0, 0⟩], by decide +kernel⟩, by decide +kernel⟩

example :
    let x := newBroker withSasl [reading [.data (verAnswer 1), .data (shAnswer 2), .fail .eof]]
    x.1 = .err (.wrapped .eof) ∧ closesConn (.wrapped .eof) = true ∧ x.2.log.contains (.close 0) = true := by decide +kernel

end Healer
