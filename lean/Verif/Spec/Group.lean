import Verif.Spec.Wire

/-!
# Consumer group protocol, embedded formats (specification)

ConsumerProtocolSubscription and ConsumerProtocolAssignment, version 0 layout.
-/

namespace Kafka

/-- Version, topics, user data. -/
def subscription (version : Int) (topics : List Wire) (userData : Wire) : Wire :=
  int16 version ++ array string topics ++ bytes userData

/-- Version, for each topic its name and partitions, user data. -/
def assignment (version : Int) (topics : List (Wire × List Int)) (userData : Wire) : Wire :=
  int16 version ++ array (fun t => string t.1 ++ array int32 t.2) topics ++ bytes userData

end Kafka
