import Verif.Model.ReadBack
import Verif.Model.Rejoin
import Verif.Model.Response
import Verif.Model.Response3
import Verif.Model.Reply
import Verif.Model.Group
import Verif.Model.Builders
import Verif.Model.Config
import Verif.Model.Fetch
import Verif.Props.Fetch
import Verif.Props.ReadBack
import Verif.Model.Follow
import Verif.Model.Client
import Verif.Props.Consumer2
import Verif.Props.Brokers2

/-!
The project's own unit tests, replayed on the model.  They prove nothing general: each `example` takes the input of a
test in /repo and checks that the model gives the value which the test expects, so that a slip in the transcription of
the code would show.
-/

namespace Healer
namespace RepoTests

/-- A text of ASCII characters as bytes. -/
def txt (s : String) : Bytes := s.toList.map fun c => UInt8.ofNat c.toNat

def healer : Option Bytes := some (txt "healer")

/-- What is written, when it is read, gives a value. -/
def back {α β : Type} [DecidableEq β] (enc : Out Bytes) (dec : Bytes → Out α) (f : α → β) (want : β) : Bool :=
  enc.okAnd fun bs => (dec bs).okAnd fun x => decide (f x = want)

/-- The fields of a header without what it remembers. -/
def plain (x : RequestHeader) : RequestHeader := { x with hv := none }

/-! ## Lengths -/

-- offsets_test.go
example : (OffsetsRequest.encode (reqHeader API_OffsetRequest 0 0 healer) 0
    ⟨-1, [⟨txt "test", [⟨0, 0, 10⟩]⟩]⟩).okAnd (fun b => b.length == 54) = true := by decide +kernel

-- sasl_handshake_test.go
example : (encodeSaslHandshakeRequest (reqHeader API_SaslHandshake 0 0 healer) (txt "PLAIN")).okAnd
    (fun b => b.length == 27) = true := by decide +kernel

-- findcoordinator_test.go
example : (encodeFindCoordinatorRequest (reqHeader API_FindCoordinator 0 0 healer) (txt "healer.topicname")).okAnd
    (fun b => b.length == 38) = true := by decide +kernel

-- offset_commit_test.go
example :
    let h := reqHeader API_OffsetCommitRequest 0 0 healer
    let r0 : OffsetCommitRequest := { groupID := txt "hangout" }
    let r1 := r0.addPartition (txt "test") 0 0 []
    let r2 := r1.addPartition (txt "test") 0 0 []
    let r3 := r2.addPartition (txt "test") 1 1 []
    h.length = .ok 16 ∧ 16 + r0.length h = 29 ∧ 16 + r1.length h = 53 ∧ 16 + r2.length h = 53 ∧ 16 + r3.length h = 67 ∧
      (r3.encode h).okAnd (fun b => b.length == 71) = true := by decide +kernel

-- offset_fetch_test.go
example :
    let h := reqHeader API_OffsetFetchRequest 0 0 healer
    let r0 : OffsetFetchRequest := { groupID := txt "hangout" }
    let r1 := r0.addPartition (txt "test") 0
    let r2 := r1.addPartition (txt "test") 0
    let r3 := r2.addPartition (txt "test") 1
    (r0.encode h).okAnd (fun b => b.length == 4 + 29) ∧ (r1.encode h).okAnd (fun b => b.length == 4 + 43) ∧
      (r2.encode h).okAnd (fun b => b.length == 4 + 43) ∧ (r3.encode h).okAnd (fun b => b.length == 51) := by decide +kernel

/-! ## Headers and tagged fields -/

-- tagged_fields_test.go
def tags : TaggedFields := some [⟨1, [1, 2, 3]⟩, ⟨2, [4, 5, 6]⟩]

example : ∀ t ∈ [tags, none], (TaggedFields.encode t).okAnd (fun bs => decide (decodeTaggedFields bs = .ok (t, bs.length))) = true := by
  decide +kernel

/-- tagged_fields_test.go `mockTaggedFields` -/
def mockTags (flexible : Bool) : TaggedFields := if flexible then some [⟨1, [1, 2, 3, 4, 5]⟩, ⟨1, [1, 2, 3, 4, 5]⟩] else none

/-- A header of a version, and of a request which has that version (the tests replace the function that looks it up). -/
def headers : List RequestHeader := [
  { apiKey := 3, apiVersion := 7, correlationID := 0, clientID := healer },
  { apiKey := 16, apiVersion := 3, correlationID := 0, clientID := healer,
    taggedFields := some [⟨1, txt "tagged field 1"⟩, ⟨2, txt "tagged field 2"⟩] }]

-- request_test.go
example : ∀ h ∈ headers, (h.writeTo).okAnd (fun x => decide (x.2 = x.1.length) && (decodeRequestHeader x.1).okAnd fun y =>
    decide (plain y.1 = h ∧ y.2 = x.2)) = true := by decide +kernel

-- response_test.go
example : (ResponseHeader.encode { apiKey := 1, apiVersion := 2, headerVersion := 0, correlationID := 12345 }).okAnd (fun bs =>
    decide (decodeResponseHeader 1 2 bs = .ok ({ apiKey := 1, apiVersion := 2, headerVersion := 0, correlationID := 12345 }, bs.length))) = true := by decide +kernel

/-! ## Requests which are read back -/

-- metadata_request_test.go
example : back (MetadataRequest.encode (reqHeader API_MetadataRequest 7 0 healer) 7 ⟨some [txt "test-topic"], true⟩)
    decodeMetadataRequest (·.2) ⟨some [txt "test-topic"], true⟩ = true := by decide +kernel

-- list_groups_request_test.go
def listGroupsOf (v : UInt16) : ListGroupsRequest where
  statesFilter := if v ≥ 4 then some [txt "testState1", txt "testState2"] else none
  typesFilter := if v ≥ 5 then some [txt "testType1", txt "testType2"] else none
  taggedFields := mockTags (v ≥ 3)

example : ∀ v ∈ clientVersions API_ListGroups, back
    (ListGroupsRequest.encode (reqHeader API_ListGroups v 0 (some (txt "testClient"))) (listGroupsOf v)) decodeListGroupsRequest
    (fun x => (plain x.1, x.2)) (reqHeader API_ListGroups v 0 (some (txt "testClient")), listGroupsOf v) = true := by decide +kernel

-- create_acls_request_test.go
def creations (v : UInt16) : List AclCreation := [
  ⟨1, txt "testResource", if v < 1 then 0 else 2, txt "testPrincipal", txt "testHost", 3, 4⟩,
  ⟨2, txt "testResource_2", if v < 1 then 0 else 3, txt "testPrincipal_2", txt "testHost_2", 4, 5⟩]

example : ∀ v ∈ clientVersions API_CreateAcls, back
    (encodeCreateAclsRequest (reqHeader API_CreateAcls v 1000 healer) (creations v)) decodeCreateAclsRequest
    (fun x => (plain x.1, x.2)) (reqHeader API_CreateAcls v 1000 healer, creations v) = true := by decide +kernel

-- delete_acls_request_test.go
def filters (v : UInt16) : List AclFilter :=
  [⟨2, some (txt "test-topic"), if v = 0 then 0 else 3, some (txt "User:test"), some (txt "*"), 2, 3⟩]

example : ∀ v ∈ clientVersions API_DeleteAcls, back
    (encodeDeleteAclsRequest (reqHeader API_DeleteAcls v 100 healer) (filters v)) decodeDeleteAclsRequest
    (fun x => (plain x.1, x.2)) (reqHeader API_DeleteAcls v 100 healer, filters v) = true := by decide +kernel

-- describe_acls_request_test.go
def describing (v : UInt16) : AclFilter :=
  ⟨1, some (txt "test-resource"), if v = 0 then 0 else 3, some (txt "test-principal"), some (txt "test-host"), 2, 3⟩

example : ∀ v ∈ [(0 : UInt16), 1, 2], back
    (encodeDescribeAclsRequest (reqHeader API_DescribeAcls v 10 none) v (describing v)) (decodeDescribeAclsRequest v)
    (fun x => (plain x.1, x.2)) (reqHeader API_DescribeAcls v 10 none, describing v) = true := by decide +kernel

-- incremental_alter_config_request_test.go
def oneConfig : IncrementalAlterConfigsRequest :=
  ⟨[⟨2, txt "topic-name", [⟨txt "unclean.leader.election.enable", 0, txt "false"⟩]⟩], true⟩

example : (⟨[], true⟩ : IncrementalAlterConfigsRequest).addConfig 2 (txt "topic-name") (txt "unclean.leader.election.enable") (txt "false") =
      .ok oneConfig ∧
    back (oneConfig.encode (reqHeader API_IncrementalAlterConfigs 0 0 (some (txt "healer-test")))) decodeIncrementalAlterConfigsRequest
      (·.2) oneConfig = true := ⟨rfl, by decide +kernel⟩

-- alter_partition_reassignments_request_test.go
example : back (AlterReassignmentsRequest.encode (reqHeader API_AlterPartitionReassignments 0 100 healer)
      ⟨1000, [⟨txt "test-topic", [⟨1, some [1, 2, 3]⟩]⟩]⟩) decodeAlterReassignmentsRequest (fun x => (plain x.1, x.2))
    (reqHeader API_AlterPartitionReassignments 0 100 healer, ⟨1000, [⟨txt "test-topic", [⟨1, some [1, 2, 3]⟩]⟩]⟩) = true := by
  decide +kernel

-- produce_request_test.go
def record1 : Record := { key := some (txt "key1"), value := some (txt "value1") }

def batchOf (n : Nat) : RecordBatch :=
  { magic := 2, baseTimestamp := 1618483330000, maxTimestamp := 1618483330000, producerID := 1, records := List.replicate n record1 }

def produced : ProduceRequest := ⟨some (txt "test-txn-id"), 1, 5000, [⟨txt "test-topic", [⟨0, [batchOf 2, batchOf 1]⟩]⟩]⟩

example : (ProduceRequest.encode (fun _ _ => .panic) (reqHeader API_ProduceRequest 9 123 (some (txt "test-client"))) produced).okAnd
    (fun bs => (decodeProduceRequest bs).okAnd fun x => decide (plain x.1 = reqHeader API_ProduceRequest 9 123 (some (txt "test-client"))) &&
      decide (x.2.transactionalID = some (txt "test-txn-id")) && decide (x.2.requiredAcks = 1) && decide (x.2.timeout = 5000) &&
      decide (x.2.topicBlocks.map (fun t => t.topicName) = [txt "test-topic"]) &&
      decide (x.2.topicBlocks.map (fun t => t.partitionBlocks.map (fun p => p.partition)) = [[0]]) &&
      decide (x.2.topicBlocks.map (fun t => t.partitionBlocks.map (fun p => p.recordBatches.map
        fun b => { b with batchLength := 0, crc := 0 })) = [[[batchOf 2, batchOf 1]]])) = true := by decide +kernel

/-! ## Responses which are read back -/

def mockError : Option Bytes := some (txt "mock error")

-- create_acls_response_test.go
def creationResults (v hv : UInt16) : CreateAclsResponse :=
  ⟨⟨API_CreateAcls, v, hv, 1, none⟩, [⟨1, mockError, none⟩, ⟨2, some [], none⟩], none⟩

example : ∀ v ∈ clientVersions API_CreateAcls,
    let r := creationResults v (if v ≥ 2 then 1 else 0)
    back r.encode (decodeCreateAclsResponse v) id (r, none) = true := by decide +kernel

-- delete_acls_response_test.go
def deletionResult (v : UInt16) : AclFilterResult :=
  ⟨1, mockError, [⟨0, none, 2, txt "test-topic", if v = 0 then 0 else 3, txt "User:test", txt "*", 2, 3, mockTags (v ≥ 2)⟩], mockTags (v ≥ 2)⟩

def deletionResults (v hv : UInt16) : DeleteAclsResponse :=
  ⟨⟨API_DeleteAcls, v, hv, 100, none⟩, 100, [deletionResult v, deletionResult v], mockTags (v ≥ 2)⟩

example : ∀ v ∈ clientVersions API_DeleteAcls,
    let r := deletionResults v (if v ≥ 2 then 1 else 0)
    back r.encode (decodeDeleteAclsResponse v) id (r, none) = true := by decide +kernel

-- describe_acls_response_test.go
def described : DescribeAclsResponse := ⟨123, 1000, 0, some (txt "test error"), [⟨4, txt "test-topic", 0,
  [⟨txt "User:test", txt "*", 2, 3, none⟩, ⟨txt "User:test2", txt "1.2.3.4", 4, 1, none⟩], none⟩], none⟩

example : ∀ v ∈ clientVersions API_DescribeAcls,
    back (described.encode v) (newDescribeAclsResponse v) id (described, none) = true := by decide +kernel

-- list_groups_response_test.go
def listed (v hv : UInt16) : ListGroupsResponse :=
  let state (s : String) := if v < 4 then [] else txt s
  let kind (s : String) := if v < 5 then [] else txt s
  ⟨⟨API_ListGroups, v, hv, 1, mockTags (v ≥ 3)⟩, if v < 1 then 0 else 100, 0,
    [⟨txt "group1", txt "protocol1", state "state1", kind "type1", none⟩,
      ⟨txt "group2", txt "protocol2", state "state2", kind "type2", none⟩], none⟩

example : ∀ v ∈ clientVersions API_ListGroups,
    let r := listed v (if v ≥ 3 then 1 else 0)
    back (r.encode v false) (newListGroupsResponse v) id (r, none) = true := by decide +kernel

-- alter_partition_reassignments_response_test.go
def altered : AlterPartitionReassignmentsResponse :=
  ⟨⟨API_AlterPartitionReassignments, 0, 1, 1, some [⟨1, txt "hello"⟩, ⟨2, txt "healer"⟩]⟩, 0, 1, mockError,
    [⟨txt "test-topic", [⟨1, 1, mockError, none⟩, ⟨2, 2, mockError, none⟩], none⟩], none⟩

example : back altered.encode (newAlterPartitionReassignmentsResponse 0) id (altered, none) = true := by decide +kernel

-- findcoordinator_response_test.go: what the test itself writes
example : (newFindCoordinatorResponse ([0, 0, 0, 25, 0, 0, 0, 1, 0, 0, 0, 0, 0, 4, 0, 9] ++ txt "127.0.0.1" ++ [0, 0, 35, 132])).okAnd
    (fun x => decide (x = (⟨1, 0, 4, txt "127.0.0.1", 9092⟩, none))) = true := by decide +kernel

/-! ## Assignment, versions -/

-- assign_test.go
example : (assignPartitions [txt "1", txt "2"] [0, 1, 2, 3, 4]).okAnd (fun m => decide ((m.map fun e => e.2.length) = [3, 2])) ∧
    (assignPartitions [txt "1", txt "2"] [0, 1, 2, 3, 4, 5, 6, 7, 8, 9]).okAnd
      (fun m => decide ((m.map fun e => e.2.length) = [5, 5])) := by decide +kernel

-- broker_test.go `TestGetHighestAvailableAPIVersion`
example : [((1 : UInt16), (10 : UInt16)), (1, 6), (2, 10), (5, 6)].map
      (fun r => getHighestAvailableAPIVersion [⟨3, r.1, r.2⟩] API_MetadataRequest) = [7, 4, 7, 0] ∧
    getHighestAvailableAPIVersion [⟨3, 1, 10⟩] 1024 = 0 := by decide +kernel

/-! ## Fetch responses -/

-- fetch_decode_test.go
def fetchedBatch (c : Int16) (rs : List Record) : RecordBatch :=
  { baseOffset := 120, partitionLeaderEpoch := 130, magic := 2, attributes := c, lastOffsetDelta := 10, baseTimestamp := 1630000000000,
    maxTimestamp := 1630000010000, producerID := 200, producerEpoch := 210, baseSequence := 220, records := rs }

def fetchedRecord (i : Int32) (t : Int64) (k v : String) : Record :=
  { timestampDelta := t, offsetDelta := i, key := some (txt k), value := some (txt v) }

def fetchedBatches (c : Int16) : List RecordBatch := [
  fetchedBatch 0 [fetchedRecord 0 1000 "key-1" "value-1", fetchedRecord 1 2000 "key-22" "value-22"],
  fetchedBatch c [fetchedRecord 2 1000 "key-3333333333" "value-3333333333", fetchedRecord 3 2000 "key-4" "value-4"]]

/-- Stands in for the compression libraries: the data in reverse with a mark at both ends. -/
def packIt (_ : Int8) (d : Bytes) : Out Bytes := .ok (99 :: d.reverse ++ [98])

def unpackIt (_ : Int8) (d : Bytes) : Except Err Bytes :=
  if d.head? = some 99 ∧ d.getLast? = some 98 then .ok (d.tail.dropLast.reverse) else .error (.other "corrupt")

/-- message_encode.go:10-120: the response which the test writes -/
def fetchedResponse (v : Nat) (data : Bytes) : Bytes := Kafka.fetchResponse v ⟨1, 2, 0, 3⟩
  [(txt "test-topic", [⟨1, 0, 90, 100, 110, some [(1, 2)], data⟩])]

/-- The messages delivered when the connection carries these bytes: all of the topic, none an error. -/
def fetched (v : UInt16) (bs : Bytes) : Option (List Int64) :=
  match streamDecode { version := v, totalLength := bs.length, codec := unpackIt } (conn bs.length [bs]) with
  | .ok () s => s.delivered.mapM fun m => if m.topicName = txt "test-topic" ∧ m.partitionID = 1 ∧ m.error = none then m.message.map (·.offset) else none
  | _ => none

/-- The response of the test, its second batch compressed like this, changed and decoded. -/
def fetchTest (c : Int16) (v : UInt16) (change : Bytes → Bytes) : Option (List Int64) :=
  match encodeBatches packIt (fetchedBatches c) with
  | .ok data => fetched v (change (fetchedResponse v.toNat data))
  | _ => none

-- `TestFetchResponseDecodeComplete`
example : ∀ v ∈ [(7 : UInt16), 10], ∀ c ∈ [(0 : Int16), 1, 2, 3], fetchTest c v id = some [120, 121, 122, 123] := by decide +kernel

-- `TestFetchResponseDecodeWithPartialRecords1`
example : ∀ v ∈ [(7 : UInt16), 10], ∀ c ∈ [(0 : Int16), 1, 2, 3], fetchTest c v (· ++ [0, 0, 0, 0]) = some [120, 121, 122, 123] := by
  decide +kernel

-- `TestFetchResponseDecodeWithPartialRecords2`
example : ∀ v ∈ [(7 : UInt16), 10], ∀ c ∈ [(0 : Int16), 1, 2, 3], fetchTest c v (fun bs => bs.take (bs.length - 12)) =
    some (if c = 0 then [120, 121, 122] else [120, 121]) := by decide +kernel

/-! ### group_consumer_test.go:91-247 `TestGroupConsumerJoinError`, 249-331 `TestGroupConsumerJoinWrappedError`, 333-394 -/

def member : Membership := { available := true, memberID := "test-member-id".toUTF8.toList }

example : (member.refuse (.kafka 25)).memberID = [] := by decide
example : (member.refuse .eof).available = false := by decide
example : (member.refuse (.kafka 15)).available = false := by decide
example : (member.refuse (.kafka 16)).available = false := by decide
example : (member.refuse (.other "connection refused")).available = false := by decide
example : (member.refuse (.other "network is unreachable")).available = false := by decide
example : (member.refuse (.other "i/o timeout")).available = false := by decide
example : (member.refuse (.wrapped (.kafka 25))).memberID = [] := by decide
example : (member.refuse (.wrapped (.kafka 15))).available = false := by decide
example : (member.refuse (.wrapped (.kafka 16))).available = false := by decide

/-- the answer when joining as leader -/
def asLeader : JoinGroupResponse :=
  { correlationID := 0, errorCode := 0, generationID := 5, groupProtocol := [], leaderID := "new-member-id".toUTF8.toList
    memberID := "new-member-id".toUTF8.toList, members := [⟨"new-member-id".toUTF8.toList, "test-metadata".toUTF8.toList⟩] }

example : (({} : Membership).enter asLeader).generationID = 5 := by decide
example : (({} : Membership).enter asLeader).memberID = "new-member-id".toUTF8.toList := by decide +kernel
example : (({} : Membership).enter asLeader).ifLeader = true := by decide +kernel
example : (({} : Membership).enter asLeader).members.length = 1 := by decide +kernel

/-- the answer when joining as follower -/
def asFollower : JoinGroupResponse :=
  { correlationID := 0, errorCode := 0, generationID := 3, groupProtocol := [], leaderID := "leader-member-id".toUTF8.toList
    memberID := "follower-member-id".toUTF8.toList
    members := [⟨"leader-member-id".toUTF8.toList, []⟩, ⟨"follower-member-id".toUTF8.toList, []⟩] }

example : (({} : Membership).enter asFollower).generationID = 3 := by decide
example : (({} : Membership).enter asFollower).memberID = "follower-member-id".toUTF8.toList := by decide +kernel
example : (({} : Membership).enter asFollower).ifLeader = false := by decide +kernel
example : (({} : Membership).enter asFollower).members.length = 0 := by decide +kernel

/-! ### config_test.go:10-70 `TestCreateConsumerConfig` -/

/-- the configuration made from an argument, when the program has just started: the array behind the timeouts, and the configuration or the error -/
def configured (input : ConfigInput ConsumerConfig) : Option (List Int64 × Except Err ConsumerConfig) :=
  match createConsumerConfig Clients.init.dflt input Clients.init.arrays with
  | .ok (h, .ok c) => some (c.net.slice h, .ok c)
  | .ok (h, .error e) => some ((h.getLast?).getD [], .error e)
  | _ => none

/-- what the tests look at: servers, group, backoff -/
def configuredWith (input : ConfigInput ConsumerConfig) : Option (String × String × Int64) :=
  (configured input).bind fun r => match r.2 with
    | .ok c => some (c.bootstrapServers, c.groupID, c.retryBackOffMS)
    | .error _ => none

-- `TestNil`
example : (match createConsumerConfig Clients.init.dflt .nil Clients.init.arrays with
    | .ok (_, .ok c) => decide (c = Clients.init.dflt)
    | _ => false) = true := by decide
example : configuredWith .nil = some ("", "", 100) := by decide

-- `TestMap`
example : configuredWith (.map fun c => .ok { c with bootstrapServers := "localhost:9092", groupID := "test" }) = some ("localhost:9092", "test", 100) := by decide
example : Clients.init.dflt.bootstrapServers = "" := by decide

-- `TestStruct`
example : configuredWith (.config { bootstrapServers := "localhost:9092" }) = some ("localhost:9092", "", 0) := by decide

-- `TestTypeDefault`
example : (configured .other).map (fun r => match r.2 with | .ok _ => true | .error _ => false) = some false := by decide

-- `test timeout.ms.for.eachapi based on net.timeout.ms`
example : (configured (.map fun c => .ok { c with net := { c.net with timeoutMS := 60000 } })).map (fun r => r.1[0]?) = some (some 60000) := by decide

/-! ### simple_consumer_test.go -/

-- 15-90 `TestRefreshPartition`
example : Following.partitionIn (txt "testTopic") 1 ⟨0, 0, [], [], 0, []⟩ = none := by decide
example : Following.partitionIn (txt "testTopic") 1 ⟨0, 0, [], [], 0, [⟨0, txt "fakeTopic", false, [⟨0, 1, 1, 0, [1], [], []⟩]⟩]⟩ = none := by decide
example : (Following.partitionIn (txt "testTopic") 1 ⟨0, 0, [], [], 0, [⟨0, txt "testTopic", false, [⟨0, 1, 1, 0, [1, 2], [], []⟩]⟩]⟩).map (·.replicas) =
  some [1, 2] := by decide

/-- 116-221 `TestConsume`: five messages with the same offset are decoded from a response; the second case: two of them are received, the consumer is stopped and
notices it -/
example : seenIn { mode := .none, capacity := 0 } { offset := -2, fetchMaxBytes := 100 }
    ([.fetched (List.replicate 5 (at' 1))] ++ take' ++ take' ++ [.cancel, .stop, .noticed, .fetchFailed]) =
    some [("fetch", -2, 100), ("put", 1, 0), ("got", 1, 0), ("put", 1, 0), ("got", 1, 0)] := by decide +kernel

/-- 223-361 `TestOffsetOutofRangeConsume`, the second case: five messages are received, which takes three fetches and two lookups, as two messages, an
error and two further messages are decoded from a response -/
example : seenIn { mode := .none, capacity := 0 } { offset := -2, fetchMaxBytes := 100 }
    ([.fetched [at' 1, at' 1, bad (.kafka 1), at' 1, at' 1]] ++ take' ++ take' ++ [.next (.ok 0), .fetched [at' 1, at' 1, bad (.kafka 1), at' 1, at' 1]] ++ take' ++ take' ++
      [.next (.ok 0), .fetched [at' 1, at' 1, bad (.kafka 1), at' 1, at' 1]] ++ take') =
    some [("fetch", -2, 100), ("put", 1, 0), ("got", 1, 0), ("put", 1, 0), ("got", 1, 0), ("lookup", -1, 0), ("fetch", 0, 100), ("put", 1, 0), ("got", 1, 0), ("put", 1, 0),
      ("got", 1, 0), ("lookup", -1, 0), ("fetch", 0, 100), ("put", 1, 0), ("got", 1, 0)] := by decide +kernel

-- 363-460 `TestConsumeEOFInRequest`: one message is received, which takes two fetches
example : seenIn { mode := .none, capacity := 0 } { offset := -2, fetchMaxBytes := 100 } ([.fetchFailed, .fetched (List.replicate 5 (at' 1))] ++ take') =
    some [("fetch", -2, 100), ("fetch", -2, 100), ("put", 1, 0), ("got", 1, 0)] := by decide +kernel

/-- 617-740, 742-851 `TestSimpleConsumerMessageErrorHandling`, `TestSimpleConsumerWrappedErrorHandling`: what the consumer does next, and its position, after the
message with the error, plain and wrapped -/
def afterError (e : Err) (answer : Except Err Int64) : Option (Int64 × Bool) :=
  (nextMessage { mode := .own } answer { offset := 7, fetchMaxBytes := 100, loop := .inner [⟨txt "testTopic", 0, some e, none⟩] }).bind fun s =>
    match s.loop with
    | .top => some (s.offset, true)
    | .seeking => some (s.offset, false)
    | _ => none

example : afterError (.kafka 1) (.ok 100) = some (100, true) := by decide
example : afterError (.wrapped (.kafka 1)) (.ok 200) = some (200, true) := by decide
example : afterError (.kafka 6) (.error .eof) = some (7, false) := by decide
example : afterError (.wrapped (.kafka 6)) (.error .eof) = some (7, false) := by decide
example : afterError (.kafka 74) (.error .eof) = some (7, true) := by decide
example : afterError (.wrapped (.kafka 74)) (.error .eof) = some (7, true) := by decide

/-! ### client_describe_logdirs_test.go:28-211 `TestDescribeLogDirs` -/

/-- the metadata of the test -/
def logDirsMeta : List TopicMetadata :=
  [⟨0, txt "test1", false, [⟨0, 1, 0, 0, [1, 2], [], []⟩, ⟨0, 2, 0, 0, [2, 1], [], []⟩]⟩, ⟨0, txt "test2", false, [⟨0, 1, 0, 0, [1, 2], [], []⟩]⟩]

/-- a topic of a log dir with one partition -/
def dirTopic (name : String) (p : Int32) : Bytes × List LogDirPartition := (txt name, [⟨p, 1024, 0, false⟩])

/-- two log dirs -/
def logDirs (a b : List (Bytes × List LogDirPartition)) : DescribeLogDirsResponse := ⟨0, 0, [⟨0, txt "/data1", a⟩, ⟨0, txt "/data2", b⟩]⟩

-- the two brokers which are asked
example : (Client.brokerPartitions logDirsMeta).map Prod.fst = [1, 2] := by decide

example : Client.keepTopics [txt "test1", txt "test2"] (logDirs [dirTopic "test1" 1, dirTopic "other" 1] [dirTopic "test1" 2, dirTopic "test2" 1]) =
    logDirs [dirTopic "test1" 1] [dirTopic "test1" 2, dirTopic "test2" 1] := by decide

example : Client.keepTopics [txt "test1", txt "test2"] (logDirs [dirTopic "test1" 1, dirTopic "test1" 2, dirTopic "test2" 1] [dirTopic "other" 1]) =
    logDirs [dirTopic "test1" 1, dirTopic "test1" 2, dirTopic "test2" 1] [] := by decide

/-! ### client_group_test.go:12-72 `TestListGroups`, 74-210 -/

/-- a cluster: node 1, known and connected, or no node at all -/
def groupsAt (known : Bool) : Brokers Nat := ⟨[], if known then [(1, ⟨1, txt "localhost", 9092, []⟩)] else [], [], 0, 0, []⟩

/-- what is listed: nodes with the number of groups, and whether there was an error -/
def listedGroups (net : Net Nat) (b : Brokers Nat) : List (Int32 × Nat) × Bool :=
  ((Brokers.listGroups net b).1.1.map fun e => (e.1, e.2.length), (Brokers.listGroups net b).1.2.isSome)

/-- two groups at every broker -/
def twoGroups : Nat → List ListedGroup := fun _ => [⟨txt "test1", [], [], [], none⟩, ⟨txt "test2", [], [], [], none⟩]

-- no brokers
example : listedGroups (demoNet (fun _ => false) (fun _ _ => (⟨0, 0, [], [], 0, []⟩, none)) twoGroups) (groupsAt false) = ([], false) := by decide +kernel
-- a broker which cannot be reached
example : listedGroups (demoNet (fun _ => true) (fun _ _ => (⟨0, 0, [], [], 0, []⟩, none)) twoGroups) (groupsAt true) = ([], true) := by decide +kernel
-- a broker which does not answer
example : listedGroups { demoNet (fun _ => false) (fun _ _ => (⟨0, 0, [], [], 0, []⟩, none)) twoGroups with
    listGroups := fun _ w => ((none, some (.other "mock error")), w) } (groupsAt true) = ([], true) := by decide +kernel
-- two groups
example : listedGroups (demoNet (fun _ => false) (fun _ _ => (⟨0, 0, [⟨1, txt "localhost", 9092, []⟩], [], 0, []⟩, none)) twoGroups) (groupsAt true) =
    ([(1, 2)], false) := by decide +kernel

-- `TestDeleteGroups`, `TestDeleteMultipleGroups`
example : ((Client.deleteGroups (demoNet (fun _ => false) (fun _ _ => (⟨0, 0, [⟨1, txt "localhost", 9092, []⟩], [], 0, []⟩, none)) twoGroups)
    (fun _ g w => (.ok ⟨0, 0, [(g, 0)]⟩, w)) [txt "test-group-1", txt "test-group-2"] { groupsAt true with cache := [(1, (0, 1))] }).1.1.toOption) =
    some [(txt "test-group-1", 0), (txt "test-group-2", 0)] := by decide +kernel

-- `TestDeleteGroupsWithError`, `TestCreateTopicWithError`, `TestCreatePartitionsWithError`: the response tells the error
example : DeleteGroupsResponse.error ⟨1, 0, [(txt "nonexistent-group", 69)]⟩ ≠ none := by decide

end RepoTests
end Healer
