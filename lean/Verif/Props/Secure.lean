import Verif.Model.Secure

/-!
C146: connections are made as configured.
-/

namespace Healer

variable {Pair : Type}

theorem getBrokerConfig_tls (c : ConnSettings) : (getBrokerConfig c).tlsEnabled = c.tlsEnabled ∧ (getBrokerConfig c).tls = c.tls
    ∧ (getBrokerConfig c).net = c.net ∧ (getBrokerConfig c).sasl = c.sasl := by
  unfold getBrokerConfig
  dsimp only
  split <;> exact ⟨rfl, rfl, rfl, rfl⟩

theorem loadKeyPair_iff (w : Machine Pair) (cert key : String) (p : Pair) :
    w.loadKeyPair cert key = .ok p ↔ ∃ c k, w.file cert = .ok c ∧ w.file key = .ok k ∧ w.keyPair c k = .ok p := by
  unfold Machine.loadKeyPair
  rcases h1 : w.file cert with e | c <;> rcases h2 : w.file key with e' | k <;> simp [bind, Except.bind]

theorem createTLSConfig_iff (w : Machine Pair) (t : TLSConfig) (x : TLSClient Pair) :
    createTLSConfig w t = .ok x ↔ ∃ ca, w.loadKeyPair t.cert t.key = .ok x.certificate ∧ w.file t.ca = .ok ca ∧ x.rootCAs = w.certsIn ca
      ∧ x.insecureSkipVerify = t.insecureSkipVerify ∧ x.serverName = t.serverName := by
  unfold createTLSConfig
  rcases h1 : w.loadKeyPair t.cert t.key with e | p
  · simp [bind, Except.bind]
  · rcases h2 : w.file t.ca with e | ca
    · simp [bind, Except.bind]
    · obtain ⟨a, b, c, d⟩ := x
      by_cases hs : t.serverName = ""
      · simp [bind, Except.bind, hs, eq_comm]
      · simp [bind, Except.bind, hs, eq_comm]

/-- With TLS switched off, and only then, a plain connection is made: to the address asked for, with the configured time limits. -/
theorem C146_plain (w : Machine Pair) (address : String) (c : ConnSettings) (a : String) (timeout keep : Int64) :
    newConn w address (getBrokerConfig c) = .plain a timeout keep ↔
      c.tlsEnabled = false ∧ a = address ∧ timeout = c.net.connectTimeoutMS ∧ keep = c.net.keepAliveMS := by
  obtain ⟨h1, h2, h3, _⟩ := getBrokerConfig_tls c
  unfold newConn
  rw [h1, h2, h3]
  rcases c.tlsEnabled
  · simp [eq_comm]
  · rcases c.tls with _ | t
    · simp [TLSConfig.incomplete]
    · simp only [if_true, Bool.true_eq_false, false_and, iff_false]
      split
      · simp
      · split <;> simp

/-- A program that gives no settings connects plainly, waits ten seconds for the connection, and has the machine look after an idle connection each two hours. -/
theorem C146_no_settings (w : Machine Pair) (address : String) : newConn w address defaultBrokerConfig = .plain address 10000 7200000 := rfl

/-- A connection secured by TLS is made exactly if TLS is switched on, certificate, key and authorities are all named, and their files can be used; it presents that
certificate, trusts the certificates in the file named for that and no others, and checks the peer's name unless that is switched off. -/
theorem C146_secure (w : Machine Pair) (address : String) (c : ConnSettings) (a : String) (timeout keep : Int64) (x : TLSClient Pair) :
    newConn w address (getBrokerConfig c) = .secure a timeout keep x ↔
      c.tlsEnabled = true ∧ a = address ∧ timeout = c.net.connectTimeoutMS ∧ keep = c.net.keepAliveMS ∧
      ∃ t cert key ca, c.tls = some t ∧ t.cert ≠ "" ∧ t.key ≠ "" ∧ t.ca ≠ "" ∧
        w.file t.cert = .ok cert ∧ w.file t.key = .ok key ∧ w.file t.ca = .ok ca ∧ w.keyPair cert key = .ok x.certificate ∧
        x.rootCAs = w.certsIn ca ∧ x.insecureSkipVerify = t.insecureSkipVerify ∧ x.serverName = t.serverName := by
  obtain ⟨h1, h2, h3, _⟩ := getBrokerConfig_tls c
  unfold newConn
  rw [h1, h2, h3]
  rcases c.tlsEnabled
  · simp
  · rcases c.tls with _ | t
    · simp [TLSConfig.incomplete]
    · simp only [if_true, true_and, Option.some.injEq, exists_and_left, exists_eq_left']
      by_cases hi : TLSConfig.incomplete (some t) = true
      · rw [if_pos hi]
        simp only [TLSConfig.incomplete, Bool.or_eq_true, decide_eq_true_eq] at hi
        constructor
        · intro h; cases h
        · rintro ⟨_, _, _, hc, hk, hca, _⟩
          rcases hi with (h | h) | h <;> contradiction
      · rw [if_neg hi]
        simp only [TLSConfig.incomplete, Bool.or_eq_true, decide_eq_true_eq, not_or] at hi
        obtain ⟨⟨hc, hk⟩, hca⟩ := hi
        rcases hx : createTLSConfig w t with e | y
        · constructor
          · intro h; cases h
          · rintro ⟨_, _, _, _, _, _, ce, f1, ke, f2, ca, f3, f4, f5, f6, f7⟩
            have := (createTLSConfig_iff w t x).mpr ⟨ca, (loadKeyPair_iff ..).mpr ⟨ce, ke, f1, f2, f4⟩, f3, f5, f6, f7⟩
            rw [hx] at this
            cases this
        · constructor
          · intro h
            cases h
            obtain ⟨ca, g1, g2, g3, g4, g5⟩ := (createTLSConfig_iff w t x).mp hx
            obtain ⟨ce, ke, k1, k2, k3⟩ := (loadKeyPair_iff ..).mp g1
            exact ⟨rfl, rfl, rfl, hc, hk, hca, ce, k1, ke, k2, ca, g2, k3, g3, g4, g5⟩
          · rintro ⟨rfl, rfl, rfl, _, _, _, ce, f1, ke, f2, ca, f3, f4, f5, f6, f7⟩
            have := (createTLSConfig_iff w t x).mpr ⟨ca, (loadKeyPair_iff ..).mpr ⟨ce, ke, f1, f2, f4⟩, f3, f5, f6, f7⟩
            rw [hx] at this
            cases this
            rfl

/-- A machine with the files "c", "k" and "a"; a key pair is the two contents. -/
def fileMachine : Machine (Bytes × Bytes) where
  file s := if s = "c" then .ok [1] else if s = "k" then .ok [2] else if s = "a" then .ok [3, 4] else .error (.other "no such file")
  keyPair c k := .ok (c, k)
  certsIn b := b.map fun x => [x]

example : newConn fileMachine "h:9092" (getBrokerConfig { net := { connectTimeoutMS := 5 }, tlsEnabled := true, tls := some ⟨"c", "k", "a", false, "n"⟩ })
      = .secure "h:9092" 5 0 ⟨([1], [2]), [[3], [4]], false, "n"⟩
    ∧ newConn fileMachine "h:9092" (getBrokerConfig { tlsEnabled := true, tls := some ⟨"c", "k", "b", false, "n"⟩ }) = .refused (.other "no such file")
    ∧ newConn fileMachine "h:9092" (getBrokerConfig { tlsEnabled := true }) = .refused errTLSConfig
    ∧ newConn fileMachine "h:9092" (getBrokerConfig {}) = .plain "h:9092" 0 0 := by
  decide +kernel

end Healer
