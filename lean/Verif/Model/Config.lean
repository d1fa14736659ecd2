import Verif.Model.Names

/-!
# Configurations

Copies of a configuration share the array behind `TimeoutMSForEachAPI`; so arrays live in a heap and a slice is the
number of its array.  A slice always covers its whole array (the code never reslices it).  A slice which is nil, or
whose array is empty, has length 0.

Left out: the SASL and TLS parts, which are only passed on.
-/

namespace Healer

/-- Apply a function to the value, if there is one. -/
def Out.map {α β : Type} (f : α → β) : Out α → Out β
  | .ok a => .ok (f a)
  | .err e => .err e
  | .panic => .panic

/-- The arrays behind slices of `int`. -/
abbrev IntArrays := List (List Int64)

/-- config.go:10-15 `NetConfig` -/
structure NetConfig where
  connectTimeoutMS : Int64 := 0
  timeoutMS : Int64 := 0
  /-- `TimeoutMSForEachAPI`: the array's number -/
  forEachAPI : Option Nat := none
  keepAliveMS : Int64 := 0
deriving DecidableEq, Repr

/-- config.go:85-106 `ConsumerConfig` -/
structure ConsumerConfig where
  net : NetConfig := {}
  bootstrapServers : String := ""
  clientID : String := ""
  groupID : String := ""
  retryBackOffMS : Int64 := 0
  metadataMaxAgeMS : Int64 := 0
  sessionTimeoutMS : Int32 := 0
  fetchMaxWaitMS : Int32 := 0
  fetchMaxBytes : Int32 := 0
  fetchMinBytes : Int32 := 0
  fromBeginning : Bool := false
  autoCommit : Bool := false
  autoCommitIntervalMS : Int64 := 0
  offsetsStorage : Int64 := 0
  metadataRefreshIntervalMS : Int64 := 0
deriving DecidableEq, Repr

/-- config.go:191-222 `ProducerConfig` -/
structure ProducerConfig where
  net : NetConfig := {}
  bootstrapServers : String := ""
  clientID : String := ""
  acks : Int16 := 0
  compressionType : String := ""
  batchSize : Int64 := 0
  messageMaxCount : Int64 := 0
  flushIntervalMS : Int64 := 0
  metadataMaxAgeMS : Int64 := 0
  fetchTopicMetaDataRetrys : Int64 := 0
  connectionsMaxIdleMS : Int64 := 0
  retryBackOffMS : Int64 := 0
  metadataRefreshIntervalMS : Int64 := 0
  retries : Int64 := 0
  requestTimeoutMS : Int32 := 0
  healerMagicByte : Int64 := 0
deriving DecidableEq, Repr

/-- The elements of a slice. -/
def NetConfig.slice (h : IntArrays) (n : NetConfig) : List Int64 :=
  match n.forEachAPI with
  | none => []
  | some i => h.getD i []

/-- broker.go:220-225: the time `Request` waits for the answer of a request -/
def NetConfig.timeoutFor (h : IntArrays) (n : NetConfig) (api : Nat) : Int64 :=
  if (n.slice h).length > api then (if (n.slice h).getD api 0 > 0 then (n.slice h).getD api 0 else n.timeoutMS) else n.timeoutMS

/-- broker.go:383-386: the time `requestFetchStreamingly` waits; `API_FetchRequest` is 1 -/
def NetConfig.fetchTimeout (h : IntArrays) (n : NetConfig) : Int64 :=
  if (n.slice h).length > 1 then (n.slice h).getD 1 0 else n.timeoutMS

/-- config.go:139-144: the new elements of `TimeoutMSForEachAPI`, of which there are `n` -/
def ConsumerConfig.timeouts (c : ConsumerConfig) (n : Nat) : List Int64 :=
  (((List.replicate n c.net.timeoutMS).set 11 (c.sessionTimeoutMS.toInt64 + 5000)).set 8 (c.sessionTimeoutMS.toInt64 / 2)).set 1
    (c.net.timeoutMS + c.fetchMaxWaitMS.toInt64)

/-- config.go:135-145 `resetTimeoutMSForEachAPI`; API_JoinGroup is 11, the largest index written -/
def ConsumerConfig.reset (c : ConsumerConfig) (h : IntArrays) : Out (IntArrays × ConsumerConfig) :=
  match c.net.forEachAPI with
  | none => .ok (h ++ [c.timeouts 68], { c with net := { c.net with forEachAPI := some h.length } })
  | some i =>
    let n := (h.getD i []).length
    if n = 0 then .ok (h ++ [c.timeouts 68], { c with net := { c.net with forEachAPI := some h.length } })
    else if n ≤ 11 then .panic
    else .ok (h.set i (c.timeouts n), c)

/-- config.go:108-128: `DefaultConsumerConfig` before the timeouts are filled in -/
def plainConsumerConfig : ConsumerConfig :=
  { net := { connectTimeoutMS := 30000, timeoutMS := 30000, keepAliveMS := 7200000 }
    clientID := "healer", sessionTimeoutMS := 30000, retryBackOffMS := 100, metadataMaxAgeMS := 300000, fetchMaxWaitMS := 500,
    fetchMaxBytes := 10485760, fetchMinBytes := 1, autoCommit := true, autoCommitIntervalMS := 5000, offsetsStorage := 1 }

/-- config.go:225-251 `DefaultProducerConfig` -/
def defaultProducerConfig : ProducerConfig :=
  { net := { connectTimeoutMS := 30000, timeoutMS := 30000, keepAliveMS := 7200000 }
    clientID := "healer", acks := -1, compressionType := "none", batchSize := 16384, messageMaxCount := 1024, flushIntervalMS := 200,
    metadataMaxAgeMS := 300000, fetchTopicMetaDataRetrys := 3, connectionsMaxIdleMS := 540000, retryBackOffMS := 200,
    requestTimeoutMS := 1500, healerMagicByte := 2 }

/-- The `config` argument: nil, a map, a configuration, or something else.  Of a map only its effect is modelled:
`mapstructure.WeakDecode` either fails or changes the fields it names; it must leave `TimeoutMSForEachAPI` alone
(a map that has that key is not modelled). -/
inductive ConfigInput (α : Type) where
  | nil
  | map (decode : α → Except Err α)
  | config (c : α)
  | other

/-- config.go:151-170 `createConsumerConfig`; `dflt` is the variable `defaultConsumerConfig`.  The timeouts are filled in
also if there is an error. -/
def createConsumerConfig (dflt : ConsumerConfig) (input : ConfigInput ConsumerConfig) (h : IntArrays) :
    Out (IntArrays × Except Err ConsumerConfig) :=
  match input with
  | .nil => (dflt.reset h).map fun r => (r.1, .ok r.2)
  | .map decode =>
    match decode dflt with
    | .error e => (dflt.reset h).map fun r => (r.1, .error (.wrapped e))
    | .ok c => (({ c with net := { c.net with forEachAPI := dflt.net.forEachAPI } } : ConsumerConfig).reset h).map fun r => (r.1, .ok r.2)
  | .config c => (c.reset h).map fun r => (r.1, .ok r.2)
  | .other => (({} : ConsumerConfig).reset h).map fun r => (r.1, .error (.other "consumer only accept config from map or ConsumerConfig"))

/-- config.go:177-188 `checkValid` -/
def ConsumerConfig.checkValid (c : ConsumerConfig) : Option Err :=
  if c.bootstrapServers = "" then some (.other "bootstrap servers not set")
  else if c.groupID = "" then some (.other "group.id is empty")
  else if c.offsetsStorage ≠ 0 ∧ c.offsetsStorage ≠ 1 then some (.other "offsets.storage must be 0 or 1")
  else none

/-- config.go:290-310 `checkValid` -/
def ProducerConfig.checkValid (c : ProducerConfig) : Option Err :=
  if c.bootstrapServers = "" then some (.other "bootstrap servers not set")
  else if c.messageMaxCount ≤ 0 then some (.other "message.max.count must > 0")
  else if c.flushIntervalMS ≤ 0 then some (.other "flush.interval.ms must > 0")
  else if c.compressionType = "none" ∨ c.compressionType = "gzip" ∨ c.compressionType = "snappy" ∨ c.compressionType = "lz4" then none
  else some (.other "unknown compression type")

/-- config.go:259-264: the deferred function -/
def ProducerConfig.raiseMagic (c : ProducerConfig) : ProducerConfig :=
  if c.healerMagicByte < 2 then { c with healerMagicByte := 2 } else c

/-- config.go:279-281: check and return, then the deferred function -/
def ProducerConfig.checked (c : ProducerConfig) : Except Err ProducerConfig :=
  match c.checkValid with
  | some e => .error e
  | none => .ok c.raiseMagic

/-- config.go:257-282 `createProducerConfig` -/
def createProducerConfig (input : ConfigInput ProducerConfig) : Except Err ProducerConfig :=
  match input with
  | .nil => .ok defaultProducerConfig.raiseMagic
  | .map decode =>
    match decode defaultProducerConfig with
    | .error e => .error (.wrapped e)
    | .ok c => c.checked
  | .config c => c.checked
  | .other => .error (.other "producer only accept config from map or ProducerConfig")

/-! ## The constructors -/

/-- The kinds of consumers. -/
inductive ConsumerKind where
  | consumer | simple | group
deriving DecidableEq, Repr

/-- consumer.go:21-26, simple_consumer.go:94-99, group_consumer.go:50-58: the configuration a consumer starts with; only
`NewGroupConsumer` calls `checkValid`.  A missing client id, which it fills in afterwards, is left as it is. -/
def acceptConsumer (kind : ConsumerKind) (dflt : ConsumerConfig) (input : ConfigInput ConsumerConfig) (h : IntArrays) :
    Out (IntArrays × Except Err ConsumerConfig) :=
  (createConsumerConfig dflt input h).map fun r =>
    match r.2 with
    | .error e => (r.1, .error e)
    | .ok c =>
      match kind, c.checkValid with
      | .group, some e => (r.1, .error e)
      | _, _ => (r.1, .ok c)

/-- The clients of a program.  -/
structure Clients where
  arrays : IntArrays
  dflt : ConsumerConfig
  consumers : List ConsumerConfig := []
  producers : List ProducerConfig := []

/-- What a program can do: make clients, or call `DefaultConsumerConfig` (which makes an array; config.go:130). -/
inductive ConfigAct where
  | consumer (kind : ConsumerKind) (input : ConfigInput ConsumerConfig)
  | producer (input : ConfigInput ProducerConfig)
  | defaultConfig

/-- config.go:147: the variable `defaultConsumerConfig` when the program starts -/
def Clients.init : Clients :=
  { arrays := [plainConsumerConfig.timeouts 68], dflt := { plainConsumerConfig with net.forEachAPI := some 0 } }

def Clients.step (a : ConfigAct) (w : Clients) : Out Clients :=
  match a with
  | .consumer kind input =>
    (acceptConsumer kind w.dflt input w.arrays).map fun r =>
      match r.2 with
      | .error _ => { w with arrays := r.1 }
      | .ok c => { w with arrays := r.1, consumers := w.consumers ++ [c] }
  | .producer input =>
    match createProducerConfig input with
    | .error _ => .ok w
    | .ok c => .ok { w with producers := w.producers ++ [c] }
  | .defaultConfig => (plainConsumerConfig.reset w.arrays).map fun r => { w with arrays := r.1 }

def Clients.run : List ConfigAct → Clients → Out Clients
  | [], w => .ok w
  | a :: as, w =>
    match w.step a with
    | .ok w' => Clients.run as w'
    | .err e => .err e
    | .panic => .panic

end Healer
