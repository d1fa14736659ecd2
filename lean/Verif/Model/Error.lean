import Verif.Go.Basic
import Verif.Go.Map

/-!
# errorcode.go: Kafka error codes
-/

namespace Healer

/-- errorcode.go:26-31 `Error`; the description text is dropped -/
structure KError where
  errorCode : Int16
  errorMsg : String
  retriable : Bool
deriving DecidableEq, Repr

/-- errorcode.go:45-767: the assignments `AllError[k] = &Error{...}` of `init`, in order -/
def errorAssignments : List (Int16 × KError) := [
  (-1, ⟨-1, "UNKNOWN_SERVER_ERROR", false⟩),
  (1, ⟨1, "OFFSET_OUT_OF_RANGE", false⟩),
  (2, ⟨2, "CORRUPT_MESSAGE", true⟩),
  (3, ⟨3, "UNKNOWN_TOPIC_OR_PARTITION", true⟩),
  (4, ⟨4, "INVALID_FETCH_SIZE", false⟩),
  (5, ⟨5, "LEADER_NOT_AVAILABLE", true⟩),
  (6, ⟨6, "NOT_LEADER_OR_FOLLOWER", true⟩),
  (7, ⟨7, "REQUEST_TIMED_OUT", true⟩),
  (8, ⟨8, "BROKER_NOT_AVAILABLE", false⟩),
  (9, ⟨9, "REPLICA_NOT_AVAILABLE", true⟩),
  (10, ⟨10, "MESSAGE_TOO_LARGE", false⟩),
  (11, ⟨11, "STALE_CONTROLLER_EPOCH", false⟩),
  (12, ⟨12, "OFFSET_METADATA_TOO_LARGE", false⟩),
  (13, ⟨13, "NETWORK_EXCEPTION", true⟩),
  (14, ⟨14, "COORDINATOR_LOAD_IN_PROGRESS", true⟩),
  (15, ⟨15, "COORDINATOR_NOT_AVAILABLE", true⟩),
  (16, ⟨16, "NOT_COORDINATOR", true⟩),
  (17, ⟨17, "INVALID_TOPIC_EXCEPTION", false⟩),
  (18, ⟨18, "RECORD_LIST_TOO_LARGE", false⟩),
  (19, ⟨19, "NOT_ENOUGH_REPLICAS", true⟩),
  (20, ⟨20, "NOT_ENOUGH_REPLICAS_AFTER_APPEND", true⟩),
  (21, ⟨21, "INVALID_REQUIRED_ACKS", false⟩),
  (22, ⟨22, "ILLEGAL_GENERATION", false⟩),
  (23, ⟨23, "INCONSISTENT_GROUP_PROTOCOL", false⟩),
  (24, ⟨24, "INVALID_GROUP_ID", false⟩),
  (25, ⟨25, "UNKNOWN_MEMBER_ID", false⟩),
  (26, ⟨26, "INVALID_SESSION_TIMEOUT", false⟩),
  (27, ⟨27, "REBALANCE_IN_PROGRESS", false⟩),
  (28, ⟨28, "INVALID_COMMIT_OFFSET_SIZE", false⟩),
  (29, ⟨29, "TOPIC_AUTHORIZATION_FAILED", false⟩),
  (30, ⟨30, "GROUP_AUTHORIZATION_FAILED", false⟩),
  (31, ⟨31, "CLUSTER_AUTHORIZATION_FAILED", false⟩),
  (32, ⟨32, "INVALID_TIMESTAMP", false⟩),
  (33, ⟨33, "UNSUPPORTED_SASL_MECHANISM", false⟩),
  (34, ⟨34, "ILLEGAL_SASL_STATE", false⟩),
  (35, ⟨35, "UNSUPPORTED_VERSION", false⟩),
  (36, ⟨36, "TOPIC_ALREADY_EXISTS", false⟩),
  (37, ⟨37, "INVALID_PARTITIONS", false⟩),
  (38, ⟨38, "INVALID_REPLICATION_FACTOR", false⟩),
  (39, ⟨39, "INVALID_REPLICA_ASSIGNMENT", false⟩),
  (40, ⟨40, "INVALID_CONFIG", false⟩),
  (41, ⟨41, "NOT_CONTROLLER", true⟩),
  (42, ⟨42, "INVALID_REQUEST", false⟩),
  (43, ⟨43, "UNSUPPORTED_FOR_MESSAGE_FORMAT", false⟩),
  (44, ⟨44, "POLICY_VIOLATION", false⟩),
  (45, ⟨45, "OUT_OF_ORDER_SEQUENCE_NUMBER", false⟩),
  (46, ⟨46, "DUPLICATE_SEQUENCE_NUMBER", false⟩),
  (47, ⟨47, "INVALID_PRODUCER_EPOCH", false⟩),
  (48, ⟨48, "INVALID_TXN_STATE", false⟩),
  (49, ⟨49, "INVALID_PRODUCER_ID_MAPPING", false⟩),
  (50, ⟨50, "INVALID_TRANSACTION_TIMEOUT", false⟩),
  (51, ⟨51, "CONCURRENT_TRANSACTIONS", true⟩),
  (52, ⟨52, "TRANSACTION_COORDINATOR_FENCED", false⟩),
  (53, ⟨53, "TRANSACTIONAL_ID_AUTHORIZATION_FAILED", false⟩),
  (54, ⟨54, "SECURITY_DISABLED", false⟩),
  (55, ⟨55, "OPERATION_NOT_ATTEMPTED", false⟩),
  (56, ⟨56, "KAFKA_STORAGE_ERROR", true⟩),
  (57, ⟨57, "LOG_DIR_NOT_FOUND", false⟩),
  (58, ⟨58, "SASL_AUTHENTICATION_FAILED", false⟩),
  (59, ⟨59, "UNKNOWN_PRODUCER_ID", false⟩),
  (60, ⟨60, "REASSIGNMENT_IN_PROGRESS", false⟩),
  (61, ⟨61, "DELEGATION_TOKEN_AUTH_DISABLED", false⟩),
  (62, ⟨62, "DELEGATION_TOKEN_NOT_FOUND", false⟩),
  (63, ⟨63, "DELEGATION_TOKEN_OWNER_MISMATCH", false⟩),
  (64, ⟨64, "DELEGATION_TOKEN_REQUEST_NOT_ALLOWED", false⟩),
  (65, ⟨65, "DELEGATION_TOKEN_AUTHORIZATION_FAILED", false⟩),
  (66, ⟨66, "DELEGATION_TOKEN_EXPIRED", false⟩),
  (67, ⟨67, "INVALID_PRINCIPAL_TYPE", false⟩),
  (68, ⟨68, "NON_EMPTY_GROUP", false⟩),
  (69, ⟨69, "GROUP_ID_NOT_FOUND", false⟩),
  (70, ⟨70, "FETCH_SESSION_ID_NOT_FOUND", true⟩),
  (71, ⟨71, "INVALID_FETCH_SESSION_EPOCH", true⟩),
  (72, ⟨72, "LISTENER_NOT_FOUND", true⟩),
  (73, ⟨73, "TOPIC_DELETION_DISABLED", false⟩),
  (74, ⟨74, "FENCED_LEADER_EPOCH", true⟩),
  (75, ⟨75, "UNKNOWN_LEADER_EPOCH", true⟩),
  (76, ⟨76, "UNSUPPORTED_COMPRESSION_TYPE", false⟩),
  (77, ⟨77, "STALE_BROKER_EPOCH", false⟩),
  (78, ⟨78, "OFFSET_NOT_AVAILABLE", true⟩),
  (79, ⟨79, "MEMBER_ID_REQUIRED", false⟩),
  (80, ⟨80, "PREFERRED_LEADER_NOT_AVAILABLE", true⟩),
  (81, ⟨81, "GROUP_MAX_SIZE_REACHED", false⟩),
  (82, ⟨82, "FENCED_INSTANCE_ID", false⟩),
  (83, ⟨83, "ELIGIBLE_LEADERS_NOT_AVAILABLE", true⟩),
  (84, ⟨84, "ELECTION_NOT_NEEDED", true⟩),
  (85, ⟨85, "NO_REASSIGNMENT_IN_PROGRESS", false⟩),
  (86, ⟨86, "GROUP_SUBSCRIBED_TO_TOPIC", false⟩),
  (87, ⟨87, "INVALID_RECORD", false⟩),
  (88, ⟨88, "UNSTABLE_OFFSET_COMMIT", true⟩),
  (89, ⟨89, "THROTTLING_QUOTA_EXCEEDED", true⟩),
  (90, ⟨90, "PRODUCER_FENCED", false⟩),
  (91, ⟨91, "RESOURCE_NOT_FOUND", false⟩),
  (92, ⟨92, "DUPLICATE_RESOURCE", false⟩),
  (93, ⟨93, "UNACCEPTABLE_CREDENTIAL", false⟩),
  (94, ⟨94, "INCONSISTENT_VOTER_SET", false⟩),
  (95, ⟨95, "INVALID_UPDATE_VERSION", false⟩),
  (96, ⟨96, "FEATURE_UPDATE_FAILED", false⟩),
  (97, ⟨97, "PRINCIPAL_DESERIALIZATION_FAILURE", false⟩),
  (98, ⟨98, "SNAPSHOT_NOT_FOUND", false⟩),
  (99, ⟨99, "POSITION_OUT_OF_RANGE", false⟩),
  (100, ⟨100, "UNKNOWN_TOPIC_ID", true⟩),
  (101, ⟨101, "DUPLICATE_BROKER_REGISTRATION", false⟩),
  (102, ⟨102, "BROKER_ID_NOT_REGISTERED", false⟩),
  (103, ⟨103, "INCONSISTENT_TOPIC_ID", true⟩),
  (104, ⟨104, "INCONSISTENT_CLUSTER_ID", false⟩),
  (105, ⟨105, "TRANSACTIONAL_ID_NOT_FOUND", false⟩),
  (106, ⟨106, "FETCH_SESSION_TOPIC_ID_ERROR", true⟩),
  (107, ⟨107, "INELIGIBLE_REPLICA", false⟩),
  (108, ⟨108, "NEW_LEADER_ELECTED", false⟩),
  (109, ⟨109, "OFFSET_MOVED_TO_TIERED_STORAGE", false⟩),
  (110, ⟨110, "FENCED_MEMBER_EPOCH", false⟩),
  (111, ⟨111, "UNRELEASED_INSTANCE_ID", false⟩),
  (112, ⟨112, "UNSUPPORTED_ASSIGNOR", false⟩),
  (113, ⟨113, "STALE_MEMBER_EPOCH", false⟩),
  (114, ⟨114, "MISMATCHED_ENDPOINT_TYPE", false⟩),
  (115, ⟨115, "UNSUPPORTED_ENDPOINT_TYPE", false⟩),
  (116, ⟨116, "UNKNOWN_CONTROLLER_ID", false⟩),
  (117, ⟨117, "UNKNOWN_SUBSCRIPTION_ID", false⟩),
  (118, ⟨118, "TELEMETRY_TOO_LARGE", false⟩),
  (118, ⟨119, "INVALID_REGISTRATION", false⟩)]

/-- errorcode.go:5, 45-767 `AllError` after `init`: later assignments to the same key win -/
def allError : AMap Int16 KError := errorAssignments.foldl (fun m e => AMap.set m e.1 e.2) []

/-- errorcode.go:33-43 `getErrorFromErrorCode`; `none` is a nil error -/
def getErrorFromErrorCode (code : Int16) : Option Err :=
  if code = 0 then none
  else if (AMap.get allError code).isSome then some (.kafka code)
  else some (.unknownCode code)

/-- errorcode.go:9-17 `KafkaError.Error`: the name at the start of the text, `none` for an unknown code.
The number of an unknown code is part of the text and is dropped here. -/
def KafkaError.name (code : Int16) : Option String :=
  if code = 0 then some "no error" else (AMap.get allError code).map KError.errorMsg

/-- errorcode.go:19-24 `KafkaError.IsRetriable` -/
def KafkaError.isRetriable (code : Int16) : Bool :=
  match AMap.get allError code with
  | some e => e.retriable
  | none => false

/-- `if code != 0 { err = KafkaError(code) }`, with `err` nil before -/
def kafkaErr (code : Int16) : Option Err := if code = 0 then none else some (.kafka code)

/-- first `KafkaError` in a list of codes: `if err == nil && code != 0 { err = KafkaError(code) }` in a loop -/
def firstKafkaErr : List Int16 → Option Err
  | [] => none
  | c :: cs => if c = 0 then firstKafkaErr cs else some (.kafka c)

end Healer
