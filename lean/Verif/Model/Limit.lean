import Verif.Model.Timed

/-!
# The time limit that stays with a connection

A deadline set with `SetReadDeadline` holds for all later reads of the connection, until another one is set.  Nothing in the code
takes one away, and a request whose timeout is 0 sets none (response.go:50-52, 70-72).
-/

namespace Healer

/-- The time, and the time after which reads of the connection fail. -/
structure Limit where
  now : Nat
  deadline : Option Nat := none

/-- response.go:50-52, 70-72 -/
def Limit.renew (timeout : Nat) (k : Limit) : Limit := if 0 < timeout then { k with deadline := some (k.now + timeout) } else k

/-- `net.Conn.Read` of something that comes in `d` milliseconds: whether the deadline is before, or has passed already -/
def Limit.cuts (k : Limit) (d : Nat) : Option Nat :=
  match k.deadline with
  | some t => if t ≤ k.now + d then some (max k.now t) else none
  | none => none

/-- what was read, after what was read before -/
def Out.prepend (bs : Bytes) : Out Bytes → Out Bytes
  | .ok r => .ok (bs ++ r)
  | .err e => .err e
  | .panic => .panic

/-- The loops of response.go:49-63 and 68-84 as `timedRead`, on a connection which may have a deadline from before.
`none`: they do not return. -/
def limitRead (timeout : Nat) : Nat → Limit → List TEv → Option (Out Bytes × Limit × List TEv)
  | 0, k, evs => some (.ok [], k, evs)
  | _ + 1, k, [] => (k.renew timeout).deadline.map fun t => (.err .timeout, { k.renew timeout with now := max k.now t }, [])
  | need + 1, k, (d, ev) :: evs =>
    match (k.renew timeout).cuts d with
    | some t => some (.err .timeout, { k.renew timeout with now := t }, (k.now + d - t, ev) :: evs)
    | none =>
      match ev with
      | .fail e => some (.err e, { k.renew timeout with now := k.now + d }, evs)
      | .data bs =>
        if need + 1 < bs.length then
          some (.ok (bs.take (need + 1)), { k.renew timeout with now := k.now + d }, (0, .data (bs.drop (need + 1))) :: evs)
        else
          (limitRead timeout (need + 1 - bs.length) { k.renew timeout with now := k.now + d } evs).map fun x => (x.1.prepend bs, x.2)

/-- response.go:45-87 `defaultReadParser.Read` -/
def limitFrame (timeout : Nat) (k : Limit) (evs : List TEv) : Option (Out Bytes × Limit) :=
  match limitRead timeout 4 k evs with
  | some (.ok head, k', evs') =>
    match rdU32 head 0 with
    | .ok (n, _) =>
      match limitRead timeout n.toNat k' evs' with
      | some (.ok body, k'', _) => some (logFrame head body, k'')
      | some (.err e, k'', _) => some (.err e, k'')
      | some (.panic, k'', _) => some (.panic, k'')
      | none => none
    | .err e => some (.err e, k')
    | .panic => some (.panic, k')
  | some (.err e, k', _) => some (.err e, k')
  | some (.panic, k', _) => some (.panic, k')
  | none => none

/-- A request on a connection: how long after the end of the one before it is made, its timeout (broker.go:220-225), and what the
broker sends for it, with the times since the request or the piece before. -/
structure Posed where
  pause : Nat
  timeout : Nat
  answer : List TEv

/-- broker.go:239-262: requests on one connection, one after the other, up to the first that fails: what the reading gives -/
def poseAll : List Posed → Limit → List (Out Bytes)
  | [], _ => []
  | a :: as, k =>
    match limitFrame a.timeout { k with now := k.now + a.pause } a.answer with
    | some (.ok b, k') => .ok b :: poseAll as k'
    | some (r, _) => [r]
    | none => []

end Healer
