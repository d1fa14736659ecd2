import Verif.Model.Config

/-!
# Settings given as a map (config.go:151-170, 257-282) or on the command line

What `mapstructure.WeakDecode` (github.com/mitchellh/mapstructure v1.5.0) does with the maps that programs and the command line give.  The library is not part of
/repo; it is modelled after its documentation, for the types of the fields that are modelled in Config.lean: integers, booleans, texts, and the table `net`.
Simplifications: names are compared without regard to case in ASCII only; of several such names the first in the list is taken (in Go: any); the settings
`timeout.ms.for.eachapi`, `sasl` and `tls` are not modelled; a number is a Go integer or a `float64`.
-/

namespace Healer

/-- A value in a map of settings: what `encoding/json` makes of JSON, or what a program writes. -/
inductive Setting where
  /-- `nil`; JSON `null` -/
  | nothing
  | text (s : String)
  | int (n : Int64)
  /-- the `float64` with the value `m * 2 ^ e`; JSON numbers are of this kind -/
  | float (m e : Int)
  | bool (b : Bool)
  | table (t : List (String × Setting))
  /-- lists and everything else -/
  | other

/-- A map of settings, in some order. -/
abbrev Settings := List (String × Setting)

/-- `strings.EqualFold`, for ASCII -/
def sameFold (a b : String) : Bool := a.toList.map Char.toLower = b.toList.map Char.toLower

/-- mapstructure `decodeStructFromMap`: the value for a field with the given tag -/
def findSetting (key : String) (m : Settings) : Option Setting :=
  match m.find? fun e => e.1 = key with
  | some e => some e.2
  | none => (m.find? fun e => sameFold e.1 key).map (·.2)

/-- `strconv.ParseUint`: the value of a character as a digit -/
def charDigit (c : Char) : Option Nat :=
  if 48 ≤ c.toNat ∧ c.toNat ≤ 57 then some (c.toNat - 48)
  else if 97 ≤ c.toNat ∧ c.toNat ≤ 122 then some (c.toNat - 87)
  else if 65 ≤ c.toNat ∧ c.toNat ≤ 90 then some (c.toNat - 55)
  else none

/-- `strconv.ParseUint`: the loop over the digits; underscores are passed over -/
def digitsIn (base : Nat) : List Char → Nat → Option Nat
  | [], n => some n
  | c :: s, n =>
    if c = '_' then digitsIn base s n
    else match charDigit c with
      | some d => if d < base then digitsIn base s (n * base + d) else none
      | none => none

/-- what was seen last in `underscoreOK` -/
inductive LastSeen where
  | start | digit | underscore | else_
deriving DecidableEq

/-- `strconv.underscoreOK`: the loop -/
def underscoreLoop (hex : Bool) : List Char → LastSeen → Bool
  | [], i => i ≠ .underscore
  | c :: s, i =>
    if (48 ≤ c.toNat ∧ c.toNat ≤ 57) ∨ (hex = true ∧ ((97 ≤ c.toNat ∧ c.toNat ≤ 102) ∨ (65 ≤ c.toNat ∧ c.toNat ≤ 70))) then underscoreLoop hex s .digit
    else if c = '_' then if i = .digit then underscoreLoop hex s .underscore else false
    else if i = .underscore then false
    else underscoreLoop hex s .else_

/-- `strconv.underscoreOK`, without a sign -/
def underscoreOK (s : List Char) : Bool :=
  match s with
  | '0' :: p :: r =>
    if p.toLower = 'b' ∨ p.toLower = 'o' then underscoreLoop false r .digit
    else if p.toLower = 'x' then underscoreLoop true r .digit
    else underscoreLoop false s .start
  | s => underscoreLoop false s .start

/-- `strconv.ParseUint` with base 0: the digits after a prefix for the base -/
def prefixed (s : List Char) : Option Nat :=
  match s with
  | [] => none
  | '0' :: p :: d :: r =>
    if p.toLower = 'b' then digitsIn 2 (d :: r) 0
    else if p.toLower = 'o' then digitsIn 8 (d :: r) 0
    else if p.toLower = 'x' then digitsIn 16 (d :: r) 0
    else digitsIn 8 (p :: d :: r) 0
  | '0' :: r => digitsIn 8 r 0
  | s => digitsIn 10 s 0

/-- `strconv.ParseUint` with base 0, for arbitrarily large numbers -/
def parseUnsigned (s : List Char) : Option Nat :=
  if s.contains '_' && !underscoreOK s then none else prefixed s

/-- `strconv.ParseInt` with base 0, before the range is looked at -/
def parseSigned (s : List Char) : Option Int :=
  match s with
  | '-' :: r => (parseUnsigned r).map fun n => -Int.ofNat n
  | '+' :: r => (parseUnsigned r).map Int.ofNat
  | s => (parseUnsigned s).map Int.ofNat

/-- `strconv.ParseInt(s, 0, bits)` -/
def parseIntText (bits : Nat) (s : String) : Option Int :=
  (parseSigned s.toList).bind fun v => if -2 ^ (bits - 1) ≤ v ∧ v < 2 ^ (bits - 1) then some v else none

/-- `int64(f)`: the fraction is cut off; out of range, what amd64 gives -/
def truncFloat (m e : Int) : Int :=
  let v := if 0 ≤ e then m * 2 ^ e.toNat else m.tdiv (2 ^ (-e).toNat)
  if -2 ^ 63 ≤ v ∧ v < 2 ^ 63 then v else -2 ^ 63

/-- an error of mapstructure -/
def errDecode : Err := .other "error(s) decoding"

/-- mapstructure `decodeInt` with weak typing, into a field of so many bits which holds `old`; an empty text is zero -/
def decodeInt (bits : Nat) (old : Int) : Setting → Except Err Int
  | .nothing => .ok old
  | .int n => .ok n.toInt
  | .float m e => .ok (truncFloat m e)
  | .bool b => .ok (if b then 1 else 0)
  | .text s =>
    match parseIntText bits (if s = "" then "0" else s) with
    | some v => .ok v
    | none => .error errDecode
  | .table _ => .error errDecode
  | .other => .error errDecode

/-- `strconv.ParseBool` -/
def parseBool (s : String) : Option Bool :=
  if s = "1" ∨ s = "t" ∨ s = "T" ∨ s = "true" ∨ s = "TRUE" ∨ s = "True" then some true
  else if s = "0" ∨ s = "f" ∨ s = "F" ∨ s = "false" ∨ s = "FALSE" ∨ s = "False" then some false
  else none

/-- mapstructure `decodeBool` with weak typing -/
def decodeBool (old : Bool) : Setting → Except Err Bool
  | .nothing => .ok old
  | .int n => .ok (n ≠ 0)
  | .float m _ => .ok (m ≠ 0)
  | .bool b => .ok b
  | .text s =>
    match parseBool s with
    | some b => .ok b
    | none => if s = "" then .ok false else .error errDecode
  | .table _ => .error errDecode
  | .other => .error errDecode

/-- mapstructure `decodeString` with weak typing; `shown` is `strconv.FormatFloat(f, 'f', -1, 64)` -/
def decodeText (shown : Int → Int → String) (old : String) : Setting → Except Err String
  | .nothing => .ok old
  | .int n => .ok (toString n.toInt)
  | .float m e => .ok (shown m e)
  | .bool b => .ok (if b then "1" else "0")
  | .text s => .ok s
  | .table _ => .error errDecode
  | .other => .error errDecode

/-- a field of integer type -/
def intField (key : String) (bits : Nat) (m : Settings) (old : Int) : Except Err Int :=
  match findSetting key m with
  | none => .ok old
  | some v => decodeInt bits old v

/-- a field of boolean type -/
def boolField (key : String) (m : Settings) (old : Bool) : Except Err Bool :=
  match findSetting key m with
  | none => .ok old
  | some v => decodeBool old v

/-- a field of text type -/
def textField (shown : Int → Int → String) (key : String) (m : Settings) (old : String) : Except Err String :=
  match findSetting key m with
  | none => .ok old
  | some v => decodeText shown old v

/-- config.go:10-15: the table `net`; anything but a table is refused -/
def netField (m : Settings) (old : NetConfig) : Except Err NetConfig :=
  match findSetting "net" m with
  | none => .ok old
  | some .nothing => .ok old
  | some (.table t) => do
    let connect ← intField "connect.timeout.ms" 64 t old.connectTimeoutMS.toInt
    let timeout ← intField "timeout.ms" 64 t old.timeoutMS.toInt
    let keep ← intField "keepalive.ms" 64 t old.keepAliveMS.toInt
    .ok { old with connectTimeoutMS := Int64.ofInt connect, timeoutMS := Int64.ofInt timeout, keepAliveMS := Int64.ofInt keep }
  | some _ => .error errDecode

/-- config.go:85-106, 159-163: `mapstructure.WeakDecode(config, &c)`; `reflect.Value.SetInt` cuts a number to the size of the field -/
def ConsumerConfig.decode (shown : Int → Int → String) (m : Settings) (c : ConsumerConfig) : Except Err ConsumerConfig := do
  let net ← netField m c.net
  let bootstrapServers ← textField shown "bootstrap.servers" m c.bootstrapServers
  let clientID ← textField shown "client.id" m c.clientID
  let groupID ← textField shown "group.id" m c.groupID
  let retryBackOffMS ← intField "retry.backoff.ms" 64 m c.retryBackOffMS.toInt
  let metadataMaxAgeMS ← intField "metadata.max.age.ms" 64 m c.metadataMaxAgeMS.toInt
  let sessionTimeoutMS ← intField "session.timeout.ms" 32 m c.sessionTimeoutMS.toInt
  let fetchMaxWaitMS ← intField "fetch.max.wait.ms" 32 m c.fetchMaxWaitMS.toInt
  let fetchMaxBytes ← intField "fetch.max.bytes" 32 m c.fetchMaxBytes.toInt
  let fetchMinBytes ← intField "fetch.min.bytes" 32 m c.fetchMinBytes.toInt
  let fromBeginning ← boolField "from.beginning" m c.fromBeginning
  let autoCommit ← boolField "auto.commit" m c.autoCommit
  let autoCommitIntervalMS ← intField "auto.commit.interval.ms" 64 m c.autoCommitIntervalMS.toInt
  let offsetsStorage ← intField "offsets.storage" 64 m c.offsetsStorage.toInt
  let metadataRefreshIntervalMS ← intField "metadata.refresh.interval.ms" 64 m c.metadataRefreshIntervalMS.toInt
  .ok { net := net, bootstrapServers := bootstrapServers, clientID := clientID, groupID := groupID,
        retryBackOffMS := Int64.ofInt retryBackOffMS, metadataMaxAgeMS := Int64.ofInt metadataMaxAgeMS, sessionTimeoutMS := Int32.ofInt sessionTimeoutMS,
        fetchMaxWaitMS := Int32.ofInt fetchMaxWaitMS, fetchMaxBytes := Int32.ofInt fetchMaxBytes, fetchMinBytes := Int32.ofInt fetchMinBytes,
        fromBeginning := fromBeginning, autoCommit := autoCommit, autoCommitIntervalMS := Int64.ofInt autoCommitIntervalMS,
        offsetsStorage := Int64.ofInt offsetsStorage, metadataRefreshIntervalMS := Int64.ofInt metadataRefreshIntervalMS }

/-- config.go:191-222, 269-273: the same for producers -/
def ProducerConfig.decode (shown : Int → Int → String) (m : Settings) (c : ProducerConfig) : Except Err ProducerConfig := do
  let net ← netField m c.net
  let bootstrapServers ← textField shown "bootstrap.servers" m c.bootstrapServers
  let clientID ← textField shown "client.id" m c.clientID
  let acks ← intField "acks" 16 m c.acks.toInt
  let compressionType ← textField shown "compress.type" m c.compressionType
  let batchSize ← intField "batch.size" 64 m c.batchSize.toInt
  let messageMaxCount ← intField "message.max.count" 64 m c.messageMaxCount.toInt
  let flushIntervalMS ← intField "flush.interval.ms" 64 m c.flushIntervalMS.toInt
  let metadataMaxAgeMS ← intField "metadata.max.age.ms" 64 m c.metadataMaxAgeMS.toInt
  let fetchTopicMetaDataRetrys ← intField "fetch.topic.metadata.retrys" 64 m c.fetchTopicMetaDataRetrys.toInt
  let connectionsMaxIdleMS ← intField "connections.max.idle.ms" 64 m c.connectionsMaxIdleMS.toInt
  let retryBackOffMS ← intField "retry.backoff.ms" 64 m c.retryBackOffMS.toInt
  let metadataRefreshIntervalMS ← intField "metadata.refresh.interval.ms" 64 m c.metadataRefreshIntervalMS.toInt
  let retries ← intField "retries" 64 m c.retries.toInt
  let requestTimeoutMS ← intField "request.timeout.ms" 32 m c.requestTimeoutMS.toInt
  let healerMagicByte ← intField "healer.magicbyte" 64 m c.healerMagicByte.toInt
  .ok { net := net, bootstrapServers := bootstrapServers, clientID := clientID, acks := Int16.ofInt acks, compressionType := compressionType,
        batchSize := Int64.ofInt batchSize, messageMaxCount := Int64.ofInt messageMaxCount, flushIntervalMS := Int64.ofInt flushIntervalMS,
        metadataMaxAgeMS := Int64.ofInt metadataMaxAgeMS, fetchTopicMetaDataRetrys := Int64.ofInt fetchTopicMetaDataRetrys,
        connectionsMaxIdleMS := Int64.ofInt connectionsMaxIdleMS, retryBackOffMS := Int64.ofInt retryBackOffMS,
        metadataRefreshIntervalMS := Int64.ofInt metadataRefreshIntervalMS, retries := Int64.ofInt retries,
        requestTimeoutMS := Int32.ofInt requestTimeoutMS, healerMagicByte := Int64.ofInt healerMagicByte }

/-! ## The command line -/

/-- `encoding/json.Unmarshal` of a text into a map: an error (nothing is changed), `null` (the map becomes nil), or the members of an object -/
inductive JsonRead where
  | refused
  | null
  | object (members : Settings)

/-- the members of an object are put into the map that is there -/
def putMembers (members : Settings) (m : Settings) : Settings :=
  members.foldl (fun m e => (m.filter fun x => x.1 ≠ e.1) ++ [e]) m

/-- command/healer/cmd/group-consumer.go:24-30, 46-58, console-consumer.go:23-31, 52-57, console-producer.go:20-45: the map handed to the constructor.  `json` is
`json.Unmarshal`, whose error is not looked at; an empty `--client` is left out, `group` is none for the commands without that flag. -/
def cliSettings (json : String → JsonRead) (brokers client : String) (group : Option String) (config : String) : Settings :=
  let m : Settings := [("bootstrap.servers", .text brokers)] ++ (if client ≠ "" then [("client.id", .text client)] else []) ++
    (match group with
     | some g => [("group.id", .text g)]
     | none => [])
  match json config with
  | .refused => m
  | .null => []
  | .object members => putMembers members m

end Healer
