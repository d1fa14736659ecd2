import Verif.Model.Builders

/-!
# The fetch request of a partition consumer
-/

namespace Healer

/-- fetch_request.go:31-48 `NewFetchRequest`; the header is added when the request is encoded -/
def newFetchRequest (maxWait minBytes : Int32) : FetchRequest := { replicaID := -1, maxWaitTime := maxWait, minBytes := minBytes }

/-- What a partition consumer fetches with: settings, place and the leader's epoch. -/
structure Asker where
  maxWaitMS : Int32
  minBytes : Int32
  maxBytes : Int32
  topic : Bytes
  partition : Int32
  epoch : Int32

/-- simple_consumer.go:412-413: the request of one round of the loop, at the consumer's position -/
def Asker.fetch (a : Asker) (offset : Int64) : FetchRequest :=
  (newFetchRequest a.maxWaitMS a.minBytes).addPartition a.topic a.partition offset a.maxBytes a.epoch

end Healer
