import Verif.Model.Transmit
import Verif.Model.Builders

/-!
# The requests for positions of a group, from the setting `offsets.storage` to the bytes
-/

namespace Healer

/-- simple_consumer.go:298-303, group_consumer.go:336-341: the version that the request is made with -/
def commitVersion (storage : Int64) : UInt16 := if storage = 1 then 2 else 0

/-- simple_consumer.go:226-233: the version that the request is made with -/
def positionVersion (storage : Int64) : Except Err UInt16 :=
  if storage = 0 then .ok 0 else if storage = 1 then .ok 1 else .error (.other "invalid offsetStorage config")

/-- simple_consumer.go:305-309, group_consumer.go:342-346: the request with its header.  A consumer of its own has the member "" and the generation -1. -/
def commitRequestOf (group member topic : Bytes) (generation pid : Int32) (offset : Int64) : OffsetCommitRequest :=
  OffsetCommitRequest.addPartition topic pid offset [] { groupID := group, generationID := generation, memberID := member, retentionTime := -1 }

/-- simple_consumer.go:305-311, group_consumer.go:342-348, broker.go:218-228: what is sent to a coordinator that has announced `apis` -/
def sendCommit (storage : Int64) (cid : Bytes) (r : OffsetCommitRequest) (apis : List APIVersion) (corr : UInt32) : Out Bytes :=
  ((AnyRequest.offsetCommit r).transmit (reqHeader API_OffsetCommitRequest (commitVersion storage) 0 (some cid))
    (getHighestAvailableAPIVersion apis API_OffsetCommitRequest) corr).1

/-- simple_consumer.go:234-235 -/
def positionRequestOf (group topic : Bytes) (pid : Int32) : OffsetFetchRequest := OffsetFetchRequest.addPartition topic pid { groupID := group }

/-- simple_consumer.go:224-247, broker.go:218-228: what is sent to a coordinator that has announced `apis`, if anything -/
def sendPositionRequest (storage : Int64) (cid : Bytes) (r : OffsetFetchRequest) (apis : List APIVersion) (corr : UInt32) : Except Err (Out Bytes) :=
  (positionVersion storage).map fun v =>
    ((AnyRequest.offsetFetch r).transmit (reqHeader API_OffsetFetchRequest v 0 (some cid)) (getHighestAvailableAPIVersion apis API_OffsetFetchRequest) corr).1

end Healer
