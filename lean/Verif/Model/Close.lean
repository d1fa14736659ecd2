import Verif.Model.Brokers

/-!
# Closing a client (client.go:36-38, brokers.go:26-32, broker.go:197-207)

`Client.Close` is `Brokers.Close`.  It is used in two ways here: after everything else (`Closable`), and while another
goroutine is inside `RequestAndGet` of one of the brokers (`Shared`): `Broker.Close` takes the lock `closeLock`, but
`RequestAndGet` holds `mux`, so nothing keeps the two apart.
-/

namespace Healer

/-- brokers.go:13-24: the set of brokers with `closeChan` -/
structure Closable (W : Type) where
  brokers : Brokers W
  chanClosed : Bool := false

/-- brokers.go:26-32 `Close`: closing a closed channel panics; the brokers are closed in the order of `range` -/
def Closable.close {W : Type} (net : Net W) (c : Closable W) : Out (Closable W) :=
  if c.chanClosed then .panic
  else match Brokers.order net (c.brokers.cache.map fun e => e.2.1) c.brokers with
    | (hs, b) => .ok { brokers := { b with log := b.log ++ hs.map .closed }, chanClosed := true }

/-! ## Closing while a request is under way -/

/-- Where a goroutine stands in `RequestAndGet` (broker.go:238-281, response.go:45-86).  In all states but the first and
the last two the next thing it does is to use the field `broker.conn`. -/
inductive ReqAt where
  /-- not in `RequestAndGet` -/
  | idle
  /-- broker.go:266, the argument `broker.conn.LocalAddr()` -/
  | localAddr
  /-- broker.go:266, the argument `broker.conn.RemoteAddr()` -/
  | remoteAddr
  /-- broker.go:272, `io.Copy(broker.conn, …)` -/
  | write
  /-- response.go:50-52, 68-70, `broker.conn.SetReadDeadline` -/
  | deadline
  /-- response.go:53, 71, `broker.conn.Read` -/
  | read
  /-- inside `Read` of the connection -/
  | reading (c : Nat)
  /-- nil dereference -/
  | crashed
deriving DecidableEq, Repr

/-- A broker object used by two goroutines.  Connections are numbers; `opened` and `closed` list what was done. -/
structure Shared where
  conn : Option Nat
  req : ReqAt := .idle
  opened : List Nat := []
  closed : List Nat := []
deriving DecidableEq, Repr

/-- What happens next. -/
inductive ShareAct where
  /-- `RequestAndGet` is called; a connection made by `ensureOpen`, if one is needed and can be had -/
  | begin (dialed : Option Nat)
  /-- the request goes on, the connection doing as it should -/
  | go
  /-- the write fails -/
  | writeFailed (drop : Bool)
  /-- a read gives data, not the last -/
  | more
  /-- a read gives the last data: the request is over -/
  | last
  /-- a read fails; `drop` if the error is one for which the broker is closed (broker.go:247-251) -/
  | readFailed (drop : Bool)
  /-- another goroutine calls `Close` -/
  | close
deriving DecidableEq, Repr

/-- broker.go:197-207 `Close` -/
def Shared.shut (s : Shared) : Shared :=
  match s.conn with
  | some c => { s with conn := none, closed := s.closed ++ [c] }
  | none => s

/-- use of `broker.conn` before going on to `next` -/
def Shared.use (next : Nat → ReqAt) (s : Shared) : Shared :=
  match s.conn with
  | some c => { s with req := next c }
  | none => { s with req := .crashed }

/-- `RequestAndGet` returns with an error -/
def Shared.fail (drop : Bool) (s : Shared) : Shared := { (if drop then s.shut else s) with req := .idle }

/-- One step; `none` if it cannot happen now.  `ensureOpen` (connecting, authentication) is one step.  With a timeout of
0 the deadline is not set (`timed = false`). -/
def Shared.step (timed : Bool) (a : ShareAct) (s : Shared) : Option Shared :=
  match a, s.req with
  | .close, .crashed => none
  | .close, _ => some s.shut
  | .begin d, .idle =>
    match s.conn, d with
    | some _, _ => some { s with req := .localAddr }
    | none, some c => some { s with conn := some c, opened := s.opened ++ [c], req := .localAddr }
    | none, none => some s
  | .go, .localAddr => some (s.use fun _ => .remoteAddr)
  | .go, .remoteAddr => some (s.use fun _ => .write)
  | .go, .write => some (s.use fun _ => if timed then .deadline else .read)
  | .writeFailed drop, .write => some (match s.conn with | some _ => s.fail drop | none => { s with req := .crashed })
  | .go, .deadline => some (s.use fun _ => .read)
  | .go, .read => some (s.use .reading)
  | .more, .reading _ => some { s with req := if timed then .deadline else .read }
  | .last, .reading _ => some { s with req := .idle }
  | .readFailed drop, .reading _ => some (s.fail drop)
  | _, _ => none

def Shared.run (timed : Bool) : List ShareAct → Shared → Option Shared
  | [], s => some s
  | a :: as, s => match s.step timed a with
    | some s' => Shared.run timed as s'
    | none => none

end Healer
