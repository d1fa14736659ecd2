import Verif.Model.Broker
import Verif.Model.Config

/-!
# Which connection is made

broker.go:110-156, and how the settings get there (config.go:38-74).  What the libraries make of the files is a parameter.
-/

namespace Healer

/-- config.go:17-23 `TLSConfig` -/
structure TLSConfig where
  cert : String := ""
  key : String := ""
  ca : String := ""
  insecureSkipVerify : Bool := false
  serverName : String := ""
deriving DecidableEq, Repr

/-- The fields of config.go:85-106 `ConsumerConfig` and config.go:191-222 `ProducerConfig` which are about connections. -/
structure ConnSettings where
  net : NetConfig := {}
  sasl : SaslConfig := ⟨[], [], []⟩
  metadataRefreshIntervalMS : Int64 := 0
  tlsEnabled : Bool := false
  tls : Option TLSConfig := none
deriving DecidableEq, Repr

/-- config.go:31-37 `BrokerConfig` -/
structure BrokerConfig where
  net : NetConfig := {}
  sasl : SaslConfig := ⟨[], [], []⟩
  metadataRefreshIntervalMS : Int64 := 0
  tlsEnabled : Bool := false
  tls : Option TLSConfig := none
deriving DecidableEq, Repr

/-- config.go:39-50 `DefaultBrokerConfig`; the array of timeouts is empty -/
def defaultBrokerConfig : BrokerConfig :=
  { net := { connectTimeoutMS := 10000, timeoutMS := 30000, forEachAPI := none, keepAliveMS := 7200000 },
    metadataRefreshIntervalMS := 300 * 1000, tlsEnabled := false }

/-- config.go:52-63 `getBrokerConfigFromConsumerConfig` and config.go:65-75 `getBrokerConfigFromProducerConfig`, which do the same -/
def getBrokerConfig (c : ConnSettings) : BrokerConfig :=
  let b := { defaultBrokerConfig with net := c.net, tlsEnabled := c.tlsEnabled, tls := c.tls, sasl := c.sasl }
  if c.metadataRefreshIntervalMS > 0 then { b with metadataRefreshIntervalMS := c.metadataRefreshIntervalMS } else b

/-- `crypto/tls` `Config`, as far as it is set: the key pair, the certificates in the pool `RootCAs`, and the two others. -/
structure TLSClient (Pair : Type) where
  certificate : Pair
  rootCAs : List Bytes
  insecureSkipVerify : Bool
  serverName : String := ""
deriving DecidableEq, Repr

/-- What the machine gives: the contents of files, `tls.LoadX509KeyPair` on the contents, and the certificates which
`AppendCertsFromPEM` finds. -/
structure Machine (Pair : Type) where
  file : String → Except Err Bytes
  keyPair : Bytes → Bytes → Except Err Pair
  certsIn : Bytes → List Bytes

/-- `tls.LoadX509KeyPair`: reads both files, then makes the pair -/
def Machine.loadKeyPair {Pair : Type} (w : Machine Pair) (cert key : String) : Except Err Pair := do
  let c ← w.file cert
  let k ← w.file key
  w.keyPair c k

/-- broker.go:131-156 `createTLSConfig`; the result of `AppendCertsFromPEM` is not looked at -/
def createTLSConfig {Pair : Type} (w : Machine Pair) (t : TLSConfig) : Except Err (TLSClient Pair) := do
  let pair ← w.loadKeyPair t.cert t.key
  let ca ← w.file t.ca
  let c : TLSClient Pair := { certificate := pair, rootCAs := w.certsIn ca, insecureSkipVerify := t.insecureSkipVerify }
  if t.serverName ≠ "" then .ok { c with serverName := t.serverName } else .ok c

/-- What `newConn` ends with: an error without having dialled, or a call of `net.Dialer.Dial` or `tls.DialWithDialer` -/
inductive Dialled (Pair : Type) where
  | refused (e : Err)
  | plain (address : String) (timeoutMS keepAliveMS : Int64)
  | secure (address : String) (timeoutMS keepAliveMS : Int64) (t : TLSClient Pair)
deriving DecidableEq, Repr

/-- broker.go:32-34 -/
def errTLSConfig : Err := .other "tls is enabled but either cert or key or ca is not set"

/-- broker.go:118: `config.TLS == nil || config.TLS.Cert == "" || …` -/
def TLSConfig.incomplete : Option TLSConfig → Bool
  | none => true
  | some t => t.cert = "" || t.key = "" || t.ca = ""

/-- broker.go:110-129 `newConn` -/
def newConn {Pair : Type} (w : Machine Pair) (address : String) (config : BrokerConfig) : Dialled Pair :=
  if config.tlsEnabled then
    if TLSConfig.incomplete config.tls then .refused errTLSConfig
    else
      match config.tls with
      | none => .refused errTLSConfig
      | some t =>
        match createTLSConfig w t with
        | .error e => .refused e
        | .ok c => .secure address config.net.connectTimeoutMS config.net.keepAliveMS c
  else .plain address config.net.connectTimeoutMS config.net.keepAliveMS

end Healer
