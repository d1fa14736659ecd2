import Verif.Model.Broker
import Verif.Model.Fetch

/-!
# A fetch whose time is over before its answer is complete

broker.go:299-302 sets the time limit of a fetch once, before the length of the answer is read.  After it every read of
that answer fails at once.
-/

namespace Healer

/-- The first error among the messages of a fetch. -/
def firstError (ms : List FullMessage) : Option Err := (ms.filterMap FullMessage.error).head?

/-- simple_consumer.go:456-497: whether `consumeMessages`, which returns at the first error, closes the leader's
connection because of it: lines 471-472, or lines 482-483 for the error 6. -/
def fetchCloses (ms : List FullMessage) : Bool :=
  match firstError ms with
  | none => false
  | some e => closesConn e || e.is (.kafka 6)

/-- simple_consumer.go:425-453 for one fetch whose time limit passes while the answer is read: `early` is what comes of
the answer before, `late` what the connection gives after, whoever reads it.  The result is what the decoder sent to the
consumer, and what a later read of the same connection gives - `none` if the connection was closed.  An error returned by
`streamDecode` is only logged (line 439).  Simplified: the consumer's own context is not cancelled. -/
def timedFetch (env : FetchEnv) (early : List Bytes) (late : List Ev) : Option (List FullMessage × Option (List Ev)) :=
  let left := fun s : SD =>
    some (s.delivered, if fetchCloses s.delivered then none else some ((s.rd.chunks.filter (· ≠ [])).map Ev.data ++ late))
  match streamDecode env { rd := { chunks := early, limit := env.totalLength, fin := .timeout } } with
  | .ok () s => left s
  | .err _ s => left s
  | .panic => none

end Healer
