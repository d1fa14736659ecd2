import Verif.Spec.Request

/-!
Where a broker keeps the positions of a group.  Kafka: requests to commit or to fetch offsets of version 0 use ZooKeeper, those of later versions Kafka itself.
-/

namespace Kafka

/-- The two places. -/
inductive Storage where
  | zookeeper
  | kafka
deriving DecidableEq, Repr

/-- The version in a request: after the size (four bytes) and the key (two bytes). -/
def versionBytes (request : Wire) : Wire := (request.drop 6).take 2

/-- Where the broker looks, given a request to commit or to fetch offsets. -/
def storageOf (request : Wire) : Storage := if versionBytes request = int16 0 then .zookeeper else .kafka

end Kafka
