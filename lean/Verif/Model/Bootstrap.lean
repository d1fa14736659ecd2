import Verif.Model.Tools

/-!
# Finding the cluster

brokers.go:39-60 `NewBrokersWithConfig`, which every client, consumer, producer and tool begins with.
-/

namespace Healer

namespace Brokers

variable {W : Type} (net : Net W)

/-- brokers.go:43-58: the loop over the servers; the errors are only logged.  `bootstrap` is the whole list, kept for `refreshMetadata`; `log` is what was done so far.  The second
part of the result is all that was done. -/
def bootstrapLoop (bootstrap : List Bytes) : List Bytes → W → List Done → Except Err (Brokers W) × List Done
  | [], _, log => (.error (.other "could not get any available broker"), log)
  | a :: as, w, log =>
    match net.connect a (-1) w with
    | (.error e, w) => bootstrapLoop bootstrap as w (log ++ [.connectFailed a (-1) e])
    | (.ok h, w) =>
      match fromOne net bootstrap a h w with
      | .error _ => bootstrapLoop bootstrap as (net.metadata h [] w).2 (log ++ [.connected a (-1) h, .metadata h [] (net.metadata h [] w).1])
      | .ok b => (.ok { b with log := log ++ .connected a (-1) h :: b.log }, log ++ .connected a (-1) h :: b.log)

/-- brokers.go:40-60 `NewBrokersWithConfig`: the result and what was done -/
def newBrokers (servers : Bytes) (w : W) : Except Err (Brokers W) × List Done :=
  bootstrapLoop net (splitAt 44 servers) (splitAt 44 servers) w []

end Brokers

end Healer
