import Verif.Model.Ask
import Verif.Model.Producer

/-!
A flush of the partition producer down to its connection (simple_producer.go:194-227).  In `SP` (Model/Producer) the outcome of a flush is given.
-/

namespace Healer

/-- simple_producer.go:218-220: `if err == nil { err = rp.Error() }`; `rp` is nil only with an error -/
def flushOutcome (x : Option Response × Option Err) : B (Option Err) := fun b =>
  match x with
  | (_, some e) => (.ok (some e), b)
  | (none, none) => (.panic, b)
  | (some r, none) =>
    match r.error with
    | .ok e => (.ok e, b)
    | .err e => (.ok (some e), b)
    | .panic => (.panic, b)

/-- simple_producer.go:194-227 `flush` with `RequestAndGet` on the leader: the error returned.  `compress` stands for the codecs, `ts` for the time. -/
def flushTo (compress : Int8 → Bytes → Out Bytes) (cfg : ProducerCfg) (topic : Bytes) (partition : Int32) (ts : Int64) (ms : List KV) : B (Option Err) := do
  let x ← requestBoth ((AnyRequest.produce compress (produceRequestOf cfg topic partition ts ms)).by cfg.clientID)
  flushOutcome x

end Healer
