import Verif.Spec.Request

/-!
# Fetch sessions (KIP-227)
-/

namespace Kafka

/-- What a fetch request wants of the broker's fetch sessions. -/
inductive SessionUse where
  /-- none, or the end of one -/
  | without
  /-- a new one, which the broker keeps -/
  | opens
  | continues (id : Int)
deriving DecidableEq, Repr

/-- From version 7 on: epoch -1 means no session, epoch 0 a new one, other epochs continue the one named. -/
def sessionUse (version : Nat) (q : FetchQuery) : SessionUse :=
  if version < 7 ∨ q.epoch = -1 then .without else if q.epoch = 0 then .opens else .continues q.session

end Kafka
