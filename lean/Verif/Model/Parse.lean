import Verif.Model.Metadata
import Verif.Model.Response2
import Verif.Model.Response3

/-!
# Reading a response from a connection and dispatching to its decoder (response.go)

A connection is modelled by the list of things that happen to the client when it reads: chunks of data
of any size and failures, in order.  `conn.Read(buf)` takes at most `len(buf)` bytes of the next chunk; the
rest of the chunk is returned by the next `Read`.  A `Read` returning data and an error at once is not
modelled (`net.TCPConn` never does it).  An exhausted list is a connection closed by the peer.
-/

namespace Healer

/-- What a `Read` on a connection meets next. -/
inductive Ev where
  | data (bs : Bytes)
  | fail (e : Err)
deriving DecidableEq, Repr

/-- The loops of response.go:49-63 and 68-84: `conn.Read(buf[l:])` until `need` bytes are there.
Returns the outcome and what is left on the connection.  A `Read` into an empty slice returns at once.
The check `readLength > responseLength` (line 78) cannot fire because a `Read` never returns more bytes
than the slice holds; `SetReadDeadline` only determines when a `timeout` failure happens. -/
def connRead : Nat → List Ev → Out Bytes × List Ev
  | 0, evs => (.ok [], evs)
  | _ + 1, [] => (.err .eof, [])
  | _ + 1, .fail e :: evs => (.err e, evs)
  | need + 1, .data bs :: evs =>
    if need + 1 < bs.length then (.ok (bs.take (need + 1)), .data (bs.drop (need + 1)) :: evs)
    else
      match connRead (need + 1 - bs.length) evs with
      | (.ok r, evs') => (.ok (bs ++ r), evs')
      | (.err e, evs') => (.err e, evs')
      | (.panic, evs') => (.panic, evs')

/-- response.go:85-86: the log line reads `binary.BigEndian.Uint32(resp[4:])`, whose argument is evaluated
whatever the log level; then the frame is returned -/
def logFrame (head body : Bytes) : Out Bytes :=
  if body.length < 4 then .panic else .ok (head ++ body)

/-- response.go:45-87 `defaultReadParser.Read`.  `make([]byte, 4+responseLength)` may ask for up to 4 GB;
memory exhaustion is not modelled. -/
def readFrame (evs : List Ev) : Out Bytes × List Ev :=
  match connRead 4 evs with
  | (.ok head, evs') =>
    match rdU32 head 0 with
    | .ok (n, _) =>
      match connRead n.toNat evs' with
      | (.ok body, evs'') => (logFrame head body, evs'')
      | (.err e, evs'') => (.err e, evs'')
      | (.panic, evs'') => (.panic, evs'')
    | .err e => (.err e, evs')
    | .panic => (.panic, evs')
  | (.err e, evs') => (.err e, evs')
  | (.panic, evs') => (.panic, evs')

/-- The dynamic types behind the interface `Response` (response.go:12-16). -/
inductive Response where
  | heartbeat (r : ErrorResponse)
  | produce (r : ProduceResponse)
  | metadata (r : MetadataResponse)
  | apiVersions (r : APIVersionsResponse)
  | saslHandshake (r : SaslHandshakeResponse)
  | saslAuthenticate (r : SaslAuthenticateResponse)
  | offsets (r : OffsetsResponse)
  | offsetFetch (r : OffsetFetchResponse)
  | findCoordinator (r : FindCoordinatorResponse)
  | joinGroup (r : JoinGroupResponse)
  | leaveGroup (r : ErrorResponse)
  | offsetCommit (r : OffsetCommitResponse)
  | describeGroups (r : DescribeGroupsResponse)
  | syncGroup (r : SyncGroupResponse)
  | describeConfigs (r : DescribeConfigsResponse)
  | alterPartitionReassignments (r : AlterPartitionReassignmentsResponse)
  | listPartitionReassignments (r : ListPartitionReassignmentsResponse)
  | listGroups (r : ListGroupsResponse)
  | createTopics (r : TopicErrorsResponse)
  | deleteTopics (r : TopicErrorsResponse)
  | alterConfigs (r : AlterConfigsResponse)
  | describeAcls (r : DescribeAclsResponse)
  | createAcls (r : CreateAclsResponse)
  | deleteAcls (r : DeleteAclsResponse)
  | deleteGroups (r : DeleteGroupsResponse)
  | incrementalAlterConfigs (r : AlterConfigsResponse)
  | createPartitions (r : CreatePartitionsResponse)
  | describeLogDirs (r : DescribeLogDirsResponse)
  | electLeaders (r : ElectLeadersResponse)
deriving DecidableEq, Repr

/-- The method `Error` of each response type.  Some dereference a message that may be absent. -/
def Response.error : Response → Out (Option Err)
  | .heartbeat r => .ok r.error
  | .produce r => .ok r.error
  | .metadata r => .ok r.error
  | .apiVersions r => .ok r.error
  | .saslHandshake r => .ok r.error
  | .saslAuthenticate r => .ok r.error
  | .offsets r => .ok r.error
  | .offsetFetch r => .ok r.error
  | .findCoordinator r => .ok r.error
  | .joinGroup r => .ok r.error
  | .leaveGroup r => .ok r.error
  | .offsetCommit r => .ok r.error
  | .describeGroups r => .ok r.error
  | .syncGroup r => .ok r.error
  | .describeConfigs r => .ok r.error
  | .alterPartitionReassignments r => r.error
  | .listPartitionReassignments r => .ok r.error
  | .listGroups r => .ok r.error
  | .createTopics r => .ok r.createError
  | .deleteTopics r => .ok r.deleteError
  | .alterConfigs r => .ok r.error
  | .describeAcls r => .ok r.error
  | .createAcls r => .ok r.error
  | .deleteAcls r => r.error
  | .deleteGroups r => .ok r.error
  | .incrementalAlterConfigs r => .ok r.error
  | .createPartitions r => r.error
  | .describeLogDirs r => .ok r.error
  | .electLeaders r => .ok r.error

/-- Convert a decoder's result to the interface. -/
def asResponse {α : Type} (k : α → Response) : Out (α × Option Err) → Out (Response × Option Err)
  | .ok (a, e) => .ok (k a, e)
  | .err e => .err e
  | .panic => .panic

/-- response.go:89-151 `defaultReadParser.Parse` -/
def parse (api version : UInt16) (data : Bytes) : Out (Response × Option Err) :=
  if api = API_Heartbeat then asResponse .heartbeat (newHeartbeatResponse data)
  else if api = API_ProduceRequest then asResponse .produce (newProduceResponse version data)
  else if api = API_MetadataRequest then asResponse .metadata (newMetadataResponse version data)
  else if api = API_ApiVersions then asResponse .apiVersions (newAPIVersionsResponse data)
  else if api = API_SaslHandshake then asResponse .saslHandshake (newSaslHandshakeResponse data)
  else if api = API_SaslAuthenticate then asResponse .saslAuthenticate (newSaslAuthenticateResponse data)
  else if api = API_OffsetRequest then asResponse .offsets (newOffsetsResponse version data)
  else if api = API_OffsetFetchRequest then asResponse .offsetFetch (newOffsetFetchResponse data)
  else if api = API_FindCoordinator then asResponse .findCoordinator (newFindCoordinatorResponse data)
  else if api = API_JoinGroup then asResponse .joinGroup (newJoinGroupResponse data)
  else if api = API_LeaveGroup then asResponse .leaveGroup (newLeaveGroupResponse data)
  else if api = API_OffsetCommitRequest then asResponse .offsetCommit (newOffsetCommitResponse data)
  else if api = API_DescribeGroups then asResponse .describeGroups (newDescribeGroupsResponse data)
  else if api = API_SyncGroup then asResponse .syncGroup (newSyncGroupResponse data)
  else if api = API_DescribeConfigs then asResponse .describeConfigs (newDescribeConfigsResponse data)
  else if api = API_AlterPartitionReassignments then asResponse .alterPartitionReassignments (newAlterPartitionReassignmentsResponse version data)
  else if api = API_ListPartitionReassignments then asResponse .listPartitionReassignments (newListPartitionReassignmentsResponse data)
  else if api = API_ListGroups then asResponse .listGroups (newListGroupsResponse version data)
  else if api = API_CreateTopics then asResponse .createTopics (newCreateTopicsResponse data)
  else if api = API_DeleteTopics then asResponse .deleteTopics (newDeleteTopicsResponse data)
  else if api = API_AlterConfigs then asResponse .alterConfigs (newAlterConfigsResponse data)
  else if api = API_DescribeAcls then asResponse .describeAcls (newDescribeAclsResponse version data)
  else if api = API_CreateAcls then asResponse .createAcls (decodeCreateAclsResponse version data)
  else if api = API_DeleteAcls then asResponse .deleteAcls (decodeDeleteAclsResponse version data)
  else if api = API_Delete_Groups then asResponse .deleteGroups (newDeleteGroupsResponse data)
  else if api = API_IncrementalAlterConfigs then asResponse .incrementalAlterConfigs (newIncrementalAlterConfigsResponse data)
  else if api = API_CreatePartitions then asResponse .createPartitions (newCreatePartitionsResponse version data)
  else if api = API_DescribeLogDirs then asResponse .describeLogDirs (newDescribeLogDirsResponse data)
  else if api = API_ElectLeaders then asResponse .electLeaders (newElectLeadersResponse data)
  else .err (.other "parsing api not implemented")

/-- response.go:31-42 `defaultReadParser.ReadAndParse`: an error of the decoder discards the response -/
def readAndParse (api version : UInt16) (evs : List Ev) : Out Response × List Ev :=
  match readFrame evs with
  | (.ok data, evs') =>
    match parse api version data with
    | .ok (r, none) => (.ok r, evs')
    | .ok (_, some e) => (.err (.wrapped e), evs')
    | .err e => (.err (.wrapped e), evs')
    | .panic => (.panic, evs')
  | (.err e, evs') => (.err (.wrapped e), evs')
  | (.panic, evs') => (.panic, evs')

end Healer
