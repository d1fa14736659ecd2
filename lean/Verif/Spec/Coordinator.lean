import Verif.Spec.Wire

/-!
# The coordinator of a group (specification)

What Kafka's coordinator does with the assignments the leader of a generation sends it
(GroupCoordinator.doSyncGroup and setAndPropagateAssignment): every member is answered with the bytes the
leader sent under its id, and with no bytes when there are none.
-/

namespace Kafka

/-- What a member is answered. -/
def handed : List (Wire × Wire) → Wire → Wire
  | [], _ => []
  | a :: as, member => if a.1 = member then a.2 else handed as member

end Kafka
