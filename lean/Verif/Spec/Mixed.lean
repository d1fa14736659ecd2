import Verif.Spec.Wire

/-!
# The consumer protocol as Kafka's own clients speak it (specification)

ConsumerProtocolSubscription and ConsumerProtocolAssignment, versions 0 to 3, and the shares of RangeAssignor, from the published
definitions.
-/

namespace Kafka

/-- What a subscription of one of Kafka's own clients says. -/
structure Subscription where
  topics : List Wire
  userData : Option Wire
  owned : List (Wire × List Int)
  generation : Int
  rack : Option Wire

/-- ConsumerProtocolSubscription: version 1 has added the partitions owned, version 2 the generation, version 3 the rack. -/
def clientSubscription (version : Nat) (s : Subscription) : Wire :=
  int16 version ++ array string s.topics ++ nullableBytes s.userData ++
    (if 1 ≤ version then array (fun t => string t.1 ++ array int32 t.2) s.owned else []) ++
    (if 2 ≤ version then int32 s.generation else []) ++
    (if 3 ≤ version then nullableString s.rack else [])

/-- ConsumerProtocolAssignment: all versions have the same fields. -/
def clientAssignment (version : Nat) (topics : List (Wire × List Int)) (userData : Option Wire) : Wire :=
  int16 version ++ array (fun t => string t.1 ++ array int32 t.2) topics ++ nullableBytes userData

/-- RangeAssignor: the partitions, of those with the numbers 0 to `partitions - 1`, of the member at place `i` of `members`. -/
def rangeAssignor (partitions members i : Nat) : List Nat :=
  let per := partitions / members
  let extra := partitions % members
  List.range' (per * i + min i extra) (per + if i + 1 > extra then 0 else 1)

end Kafka
