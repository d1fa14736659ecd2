import Verif.Model.Secure

/-!
# What is written to the log when a client is made and when a request is sent

Only the lines that are handed a configuration or something read from a request are modelled.  The logger of log.go:12
is klog's; lines of `logger.Info` appear unless it is replaced, lines of `logger.V(5).Info` only when asked for.
-/

namespace Healer

/-- A value handed to the logger, as far as it matters here. -/
inductive Shown where
  | text (s : Bytes)
  | number (n : Nat)
  /-- a `ConsumerConfig` or `ProducerConfig`; only the fields about connections are kept -/
  | settings (c : ConnSettings)
  /-- a `*BrokerConfig` -/
  | broker (c : BrokerConfig)
deriving DecidableEq, Repr

/-- A line of the log: `verbosity` is 0 for `logger.Info`, 5 for `logger.V(5).Info`. -/
structure LogLine where
  verbosity : Nat
  values : List (String × Shown)
deriving DecidableEq, Repr

/-- The functions that make a client out of a configuration. -/
inductive Maker where
  | consumer
  | groupConsumer
  | simpleConsumer
  | producer
  | simpleProducer
deriving DecidableEq, Repr

/-- brokers.go:41, the first thing `NewBrokersWithConfig` does -/
def newBrokersLine (servers : Bytes) (c : BrokerConfig) : LogLine :=
  ⟨0, [("bootstrapServers", .text servers), ("config", .broker c)]⟩

/-- consumer.go:23, group_consumer.go:52, simple_consumer.go:96, producer.go:38, simple_producer.go:71: the configuration
as it was given (which is not modelled) and as it was understood -/
def finalConfigLine (c : ConnSettings) : LogLine := ⟨0, [("final_config", .settings c)]⟩

/-- The lines with configurations which making a client writes, when the configuration is accepted: consumer.go:21-31,
group_consumer.go:50-74, simple_consumer.go:94-107, producer.go:36-55, simple_producer.go:69-74 with 34-47 (`createLeader`,
when no leader is given).  Topic and partition of the second line of simple_consumer.go are left out. -/
def makerLines (m : Maker) (servers : Bytes) (c : ConnSettings) : List LogLine :=
  match m with
  | .simpleConsumer =>
    [finalConfigLine c, ⟨0, [("config", .settings c), ("brokerConfig", .broker (getBrokerConfig c))]⟩,
      newBrokersLine servers (getBrokerConfig c)]
  | _ => [finalConfigLine c, newBrokersLine servers (getBrokerConfig c)]

/-- `binary.BigEndian.Uint16(payload[at:])` and `Uint32` as numbers -/
def beNat (n : Nat) (p : Bytes) : Nat := (p.take n).foldl (fun a b => 256 * a + b.toNat) 0

/-- broker.go:267-270 and 291-294; the addresses of the line before and the timeout are left out -/
def requestLine (payload : Bytes) : LogLine :=
  ⟨5, [("length", .number payload.length), ("api", .number (beNat 2 (payload.drop 4))),
    ("apiVersion", .number (beNat 2 (payload.drop 6))), ("correlationID", .number (beNat 4 (payload.drop 8)))]⟩

/-- What `encoding/json` makes of one byte of a string: printable ASCII other than `"`, `\`, `<`, `>` and `&` stands for
itself.  For the rest (escapes, parts of longer characters) `other` is what is written. -/
def jsonByte (other : UInt8 → Bytes) (c : UInt8) : Bytes :=
  if 32 ≤ c ∧ c ≤ 126 ∧ c ≠ 34 ∧ c ≠ 92 ∧ c ≠ 60 ∧ c ≠ 62 ∧ c ≠ 38 then [c] else other c

/-- A JSON string -/
def jsonText (other : UInt8 → Bytes) (s : Bytes) : Bytes := [34] ++ s.flatMap (jsonByte other) ++ [34]

/-- `,"<name>":"…"` -/
def jsonField (other : UInt8 → Bytes) (name : String) (s : Bytes) : Bytes :=
  [34] ++ name.toUTF8.toList ++ [34, 58] ++ jsonText other s

/-- A `SaslConfig` (config.go:25-29) as JSON, which is how klog writes a structure: nothing in the code says otherwise, there
is no method that would hide a field. -/
def jsonSasl (other : UInt8 → Bytes) (s : SaslConfig) : Bytes :=
  [123] ++ jsonField other "mechanism" s.mechanism ++ [44] ++ jsonField other "user" s.user ++ [44] ++
    jsonField other "password" s.password ++ [125]

/-- The text of a value: a configuration is written field by field, `Net` first, then `Sasl`, then the others (config.go:31-37,
85-106, 191-222).  What is written for the other fields is a parameter, `fields`. -/
def shownText (other : UInt8 → Bytes) (fields : Shown → Bytes × Bytes) : Shown → Bytes
  | .text s => jsonText other s
  | .number n => (toString n).toUTF8.toList
  | .settings c => (fields (.settings c)).1 ++ jsonSasl other c.sasl ++ (fields (.settings c)).2
  | .broker c => (fields (.broker c)).1 ++ jsonSasl other c.sasl ++ (fields (.broker c)).2

/-- The text of a line: ` name=value` for each value; time, place and message before them are left out -/
def LogLine.render (other : UInt8 → Bytes) (fields : Shown → Bytes × Bytes) (l : LogLine) : Bytes :=
  l.values.flatMap fun v => [32] ++ v.1.toUTF8.toList ++ [61] ++ shownText other fields v.2

end Healer
