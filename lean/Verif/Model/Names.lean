import Verif.Model.Producer

/-!
# Names of codecs and of ACL enumerations

Text is a Lean `String`.  `strings.ToUpper` and `strings.ToLower` are modelled on ASCII letters only; all names
consist of ASCII characters.
-/

namespace Healer

/-! ## Codecs -/

/-- compress_type.go:19-32 `CompressType.String` -/
def compressName (c : Int8) : String :=
  if c = 0 then "none" else if c = 1 then "gzip" else if c = 2 then "snappy" else if c = 3 then "lz4" else "unknown"

/-- compress_type.go:35-48 `ParseCompressType`; the code returned together with the error is not modelled -/
def parseCompressType (s : String) : Except Err Int8 :=
  let l := s.toLower
  if l = "none" then .ok 0 else if l = "gzip" then .ok 1 else if l = "snappy" then .ok 2 else if l = "lz4" then .ok 3
  else .error (.other "unknown compression type")

/-- the implementations of `Compressor` -/
inductive Compressor where
  | none | gzip | snappy | lz4
deriving DecidableEq, Repr

/-- compressor.go:7-19 `NewCompressor`; Lean's `none` is nil -/
def newCompressor (s : String) : Option Compressor :=
  if s = "gzip" then some .gzip else if s = "lz4" then some .lz4 else if s = "snappy" then some .snappy
  else if s = "none" then some .none else none

/-- simple_producer.go:85-97: the codec's number placed in batches, for the configured name -/
def producerCodec (s : String) : Except Err Int8 :=
  if s = "none" then .ok 0 else if s = "gzip" then .ok 1 else if s = "snappy" then .ok 2 else if s = "lz4" then .ok 3
  else .error (.other "unknown compress type")

/-- record.go:266, 280: the compressor `RecordBatch.Encode` uses for the attributes of a batch -/
def batchCompressor (attributes : Int16) : Option Compressor := newCompressor (compressName (attributes &&& 3).toInt8)

/-! ## ACL enumerations

`String` and `MarshalText` are the same text. -/

/-- acl_types.go:24-45 -/
def resourceTypeName (t : Int8) : String :=
  if t = 0 then "UNKNOWN" else if t = 1 then "ANY" else if t = 2 then "TOPIC" else if t = 3 then "GROUP"
  else if t = 4 then "BROKER" else if t = 5 then "TRANSACTIONAL_ID" else if t = 6 then "DELEGATION_TOKEN"
  else if t = 7 then "USER" else "ERROR"

/-- acl_types.go:51-75 -/
def parseResourceType (text : String) : Except Err Int8 :=
  let u := text.toUpper
  if u = "UNKNOWN" ∨ u = "0" then .ok 0 else if u = "ANY" ∨ u = "1" then .ok 1
  else if u = "TOPIC" ∨ u = "2" then .ok 2 else if u = "GROUP" ∨ u = "3" then .ok 3
  else if u = "BROKER" then .ok 4 else if u = "CLUSTER" then .ok 4
  else if u = "4" then .error (.other "4 is ambiguous AclsResourceType, Broker or Cluster?")
  else if u = "TRANSACTIONAL_ID" ∨ u = "5" then .ok 5 else if u = "DELEGATION_TOKEN" ∨ u = "6" then .ok 6
  else if u = "USER" ∨ u = "7" then .ok 7 else .error (.other "unknown AclsResourceType")

/-- acl_types.go:89-104 -/
def patternTypeName (t : Int8) : String :=
  if t = 0 then "UNKNOWN" else if t = 1 then "ANY" else if t = 2 then "MATCH" else if t = 3 then "LITERAL"
  else if t = 4 then "PREFIXED" else "ERROR"

/-- acl_types.go:110-126 -/
def parsePatternType (text : String) : Except Err Int8 :=
  let u := text.toUpper
  if u = "UNKNOWN" ∨ u = "0" then .ok 0 else if u = "ANY" ∨ u = "1" then .ok 1
  else if u = "MATCH" ∨ u = "2" then .ok 2 else if u = "LITERAL" ∨ u = "3" then .ok 3
  else if u = "PREFIXED" ∨ u = "4" then .ok 4 else .error (.other "unknown AclsPatternType")

/-- acl_types.go:145-176 -/
def operationName (o : Int8) : String :=
  if o = 0 then "UNKNOWN" else if o = 1 then "ANY" else if o = 2 then "ALL" else if o = 3 then "READ"
  else if o = 4 then "WRITE" else if o = 5 then "CREATE" else if o = 6 then "DELETE" else if o = 7 then "ALTER"
  else if o = 8 then "DESCRIBE" else if o = 9 then "CLUSTER_ACTION" else if o = 10 then "DESCRIBE_CONFIGS"
  else if o = 11 then "ALTER_CONFIGS" else if o = 12 then "IDEMPOTENT_WRITE" else "ERROR"

/-- acl_types.go:182-214 -/
def parseOperation (text : String) : Except Err Int8 :=
  let u := text.toUpper
  if u = "UNKNOWN" ∨ u = "0" then .ok 1 else if u = "ANY" ∨ u = "1" then .ok 1
  else if u = "ALL" ∨ u = "2" then .ok 2 else if u = "READ" ∨ u = "3" then .ok 3
  else if u = "WRITE" ∨ u = "4" then .ok 4 else if u = "CREATE" ∨ u = "5" then .ok 5
  else if u = "DELETE" ∨ u = "6" then .ok 6 else if u = "ALTER" ∨ u = "7" then .ok 7
  else if u = "DESCRIBE" ∨ u = "8" then .ok 8 else if u = "CLUSTER_ACTION" ∨ u = "9" then .ok 9
  else if u = "DESCRIBE_CONFIGS" ∨ u = "10" then .ok 10 else if u = "ALTER_CONFIGS" ∨ u = "11" then .ok 11
  else if u = "IDEMPOTENT_WRITE" ∨ u = "12" then .ok 12 else .error (.other "unknown AclsOperation")

/-- acl_types.go:226-239 -/
def permissionName (p : Int8) : String :=
  if p = 0 then "UNKNOWN" else if p = 1 then "ANY" else if p = 2 then "DENY" else if p = 3 then "ALLOW" else "UNKNOWN"

/-- acl_types.go:245-259 -/
def parsePermission (text : String) : Except Err Int8 :=
  let u := text.toUpper
  if u = "UNKNOWN" ∨ u = "0" then .ok 1 else if u = "ANY" ∨ u = "1" then .ok 1
  else if u = "DENY" ∨ u = "2" then .ok 2 else if u = "ALLOW" ∨ u = "3" then .ok 3
  else .error (.other "unknown AclsPermissionType")

end Healer
