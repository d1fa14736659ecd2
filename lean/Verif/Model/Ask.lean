import Verif.Model.Broker
import Verif.Model.Transmit

/-!
# The operations of a broker (broker.go:339-442)

Each builds a request, hands it to `RequestAndGet` and narrows the interface value it gets back to the response
type of the operation.
-/

namespace Healer

/-- broker.go:247-262 with both results: the response (nil unless one was read and decoded without an error) and
the error -/
def exchangeBoth (r : Req) : B (Option Response × Option Err) := fun b =>
  match (do
    let version ← request r
    readParse r.api version : B Response) b with
  | (.err e, b') => (.ok (none, some e), if closesConn e then (closeBroker b').2 else b')
  | (.panic, b') => (.panic, b')
  | (.hang, b') => (.hang, b')
  | (.ok resp, b') =>
    match checkError resp b' with
    | (.err e, b'') => (.ok (some resp, some e), if closesConn e then (closeBroker b'').2 else b'')
    | (.panic, b'') => (.panic, b'')
    | (.hang, b'') => (.hang, b'')
    | (.ok _, b'') => (.ok (some resp, none), b'')

/-- broker.go:239-263 `RequestAndGet` with both results -/
def requestBoth (r : Req) : B (Option Response × Option Err) := locked fun b =>
  match ensureOpen b with
  | (.ok _, b') => exchangeBoth r b'
  | (.err e, b') => (.ok (none, some e), b')
  | (.panic, b') => (.panic, b')
  | (.hang, b') => (.hang, b')

/-- A request made by one of the constructors, with its client id: the header holds API key and client id. -/
def AnyRequest.by (r : AnyRequest) (client : Bytes) : Req where
  api := r.key
  encode := fun v c => r.encode (reqHeader r.key v c (some client)) v

/-- `if v, ok := resp.(T); ok { return v, err }; return r, err`, `r` being the zero value of the type -/
def narrow {α : Type} (pick : Response → Option α) (zero : α) (x : Option Response × Option Err) : α × Option Err :=
  (((x.1.bind pick).getD zero), x.2)

/-- The response types, as seen by a type assertion. -/
def Response.asListGroups : Response → Option ListGroupsResponse | .listGroups r => some r | _ => none
def Response.asMetadata : Response → Option MetadataResponse | .metadata r => some r | _ => none
def Response.asOffsets : Response → Option OffsetsResponse | .offsets r => some r | _ => none
def Response.asFindCoordinator : Response → Option FindCoordinatorResponse | .findCoordinator r => some r | _ => none
def Response.asJoinGroup : Response → Option JoinGroupResponse | .joinGroup r => some r | _ => none
def Response.asSyncGroup : Response → Option SyncGroupResponse | .syncGroup r => some r | _ => none
def Response.asHeartbeat : Response → Option ErrorResponse | .heartbeat r => some r | _ => none
def Response.asLeaveGroup : Response → Option ErrorResponse | .leaveGroup r => some r | _ => none

/-- broker.go:339-347 `RequestListGroups` with list_groups_request.go:19-30; the result is a pointer, nil unless
there is an answer -/
def requestListGroups (client : Bytes) : B (Option ListGroupsResponse × Option Err) := do
  let x ← requestBoth ((AnyRequest.listGroups { statesFilter := some [], typesFilter := some [] }).by client)
  pure (x.1.bind Response.asListGroups, x.2)

/-- broker.go:349-357 `requestMetaData` with `NewMetadataRequest` -/
def askMetaData (client : Bytes) (topics : Option (List Bytes)) : B (MetadataResponse × Option Err) := do
  let x ← requestBoth ((AnyRequest.metadata { topics := topics, allowAutoTopicCreation := true }).by client)
  pure (narrow Response.asMetadata ⟨0, 0, [], [], 0, []⟩ x)

/-- broker.go:360-368 `requestOffsets` with offset_request.go:19-42.  `ids`: the partition ids, each once, in the
order in which `range` visits the map they are put into. -/
def requestOffsets (client topic : Bytes) (ids : List Int32) (time : Int64) (offsets : UInt32) :
    B (OffsetsResponse × Option Err) := do
  let x ← requestBoth ((AnyRequest.offsets ⟨-1, [(topic, ids.map fun id => ⟨id, time, offsets⟩)]⟩).by client)
  pure (narrow Response.asOffsets ⟨0, 0, []⟩ x)

/-- broker.go:391-399 `findCoordinator` -/
def findCoordinator (client group : Bytes) : B (FindCoordinatorResponse × Option Err) := do
  let x ← requestBoth ((AnyRequest.findCoordinator group).by client)
  pure (narrow Response.asFindCoordinator ⟨0, 0, 0, [], 0⟩ x)

/-- broker.go:401-416 `requestJoinGroup`; the protocol "range" added in line 408 is overwritten in line 409 -/
def requestJoinGroup (client group : Bytes) (sessionTimeout : Int32) (member protocolType : Bytes)
    (protocols : List (Bytes × Bytes)) : B (JoinGroupResponse × Option Err) := do
  let x ← requestBoth ((AnyRequest.joinGroup ⟨group, sessionTimeout, 60000, member, protocolType, protocols⟩).by client)
  pure (narrow Response.asJoinGroup ⟨0, 0, 0, [], [], [], []⟩ x)

/-- broker.go:418-426 `requestSyncGroup` -/
def requestSyncGroup (client group : Bytes) (generation : Int32) (member : Bytes) (assignment : List (Bytes × Bytes)) :
    B (SyncGroupResponse × Option Err) := do
  let x ← requestBoth ((AnyRequest.syncGroup ⟨group, generation, member, assignment⟩).by client)
  pure (narrow Response.asSyncGroup ⟨0, 0, []⟩ x)

/-- broker.go:428-436 `requestHeartbeat` -/
def requestHeartbeat (client group : Bytes) (generation : Int32) (member : Bytes) : B (ErrorResponse × Option Err) := do
  let x ← requestBoth ((AnyRequest.heartbeat ⟨group, generation, member⟩).by client)
  pure (narrow Response.asHeartbeat ⟨0, 0⟩ x)

/-- `return resp.(T), err`: the assertion without `ok` panics when the response is nil -/
def insist {α : Type} (pick : Response → Option α) (x : Option Response × Option Err) : B (α × Option Err) := fun b =>
  match x.1.bind pick with
  | some v => (.ok (v, x.2), b)
  | none => (.panic, b)

/-- broker.go:438-442 `requestLeaveGroup` -/
def requestLeaveGroup (client group member : Bytes) : B (ErrorResponse × Option Err) := do
  let x ← requestBoth ((AnyRequest.leaveGroup ⟨group, member⟩).by client)
  insist Response.asLeaveGroup x

end Healer
