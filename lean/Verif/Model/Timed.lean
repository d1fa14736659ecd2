import Verif.Model.Parse

/-!
# How long reading an answer takes

What a connection gives is listed with the milliseconds that pass since the event before it.  Reading itself takes no time.
-/

namespace Healer

/-- an event of a connection and the milliseconds since the one before it -/
abbrev TEv := Nat × Ev

/-- response.go:50-52, 70-72: a deadline `timeout` milliseconds ahead is set before every `Read`, unless the timeout is 0;
the read fails if nothing comes before it.  (A negative timeout is like 0.) -/
def tooLate (timeout d : Nat) : Bool := decide (0 < timeout ∧ timeout ≤ d)

/-- The loops of response.go:49-63 and 68-84, as `connRead`, with the time they take.  `none`: they do not return. -/
def timedRead (timeout : Nat) : Nat → List TEv → Option (Out Bytes × Nat × List TEv)
  | 0, evs => some (.ok [], 0, evs)
  | _ + 1, [] => if 0 < timeout then some (.err .timeout, timeout, []) else none
  | need + 1, (d, ev) :: evs =>
    if tooLate timeout d then some (.err .timeout, timeout, (d - timeout, ev) :: evs) else
    match ev with
    | .fail e => some (.err e, d, evs)
    | .data bs =>
      if need + 1 < bs.length then some (.ok (bs.take (need + 1)), d, (0, .data (bs.drop (need + 1))) :: evs)
      else
        match timedRead timeout (need + 1 - bs.length) evs with
        | some (.ok r, t, evs') => some (.ok (bs ++ r), d + t, evs')
        | some (.err e, t, evs') => some (.err e, d + t, evs')
        | some (.panic, t, evs') => some (.panic, d + t, evs')
        | none => none

/-- response.go:45-87 `defaultReadParser.Read`, as `readFrame`, with the time it takes -/
def timedFrame (timeout : Nat) (evs : List TEv) : Option (Out Bytes × Nat) :=
  match timedRead timeout 4 evs with
  | some (.ok head, t, evs') =>
    match rdU32 head 0 with
    | .ok (n, _) =>
      match timedRead timeout n.toNat evs' with
      | some (.ok body, t', _) => some (logFrame head body, t + t')
      | some (.err e, t', _) => some (.err e, t + t')
      | some (.panic, t', _) => some (.panic, t + t')
      | none => none
    | .err e => some (.err e, t)
    | .panic => some (.panic, t)
  | some (.err e, t, _) => some (.err e, t)
  | some (.panic, t, _) => some (.panic, t)
  | none => none

/-- broker.go:273, 297: `io.Copy` of what is left of a request to the connection, for which no write deadline is set: how long it takes until the other side, and
the buffers between, have taken all of it.  They take pieces: after so many milliseconds, so many bytes.  `none`: it does not return. -/
def timedWrite : Nat → List (Nat × Nat) → Option Nat
  | 0, _ => some 0
  | _ + 1, [] => none
  | need + 1, (d, k) :: taken => (timedWrite (need + 1 - k) taken).map (d + ·)

/-- broker.go:239-281: a request on a connection that is open: written, then its answer is read.  Simplified: writing does not fail. -/
def timedRequest (timeout : Nat) (payload : Bytes) (taken : List (Nat × Nat)) (evs : List TEv) : Option (Out Bytes × Nat) :=
  (timedWrite payload.length taken).bind fun w => (timedFrame timeout evs).map fun x => (x.1, w + x.2)

end Healer
