import Verif.Model.Broker
import Verif.Model.Producer

/-!
# Goroutines and a mutex (broker.go:240-241, brokers.go:196-197, simple_producer.go:133-134, 162-163, 230-231)

The models of the calls on a `Broker`, a `Brokers` and a `SimpleProducer` describe a call as one function of the shared state.  The code runs a call step by step, and the
steps of calls made by other goroutines may come in between; all that keeps them apart is `Lock` at the beginning and the deferred `Unlock` at the end.  Here the calls are
divided into steps, in any way, and every interleaving is considered.  Memory is sequentially consistent: a step sees all steps before it.  (Go guarantees this between two
critical sections of a mutex.)
-/

namespace Healer

/-- The code of a call between `Lock` and `Unlock`: it returns, or it does something to the shared state (reads and writes at once what belongs to one step) and goes on
depending on what it found there. -/
inductive Steps (S α : Type) where
  | ret (a : α)
  | step (f : S → S) (k : S → Steps S α)

variable {S α : Type}

/-- the effect of the code when nothing comes in between -/
def Steps.run : Steps S α → S → α × S
  | .ret a, s => (a, s)
  | .step f k, s => (k s).run (f s)

/-- Goroutines making calls on an object with a `sync.Mutex`.  `got i` are the results goroutine `i` has got so far, `inside i` is what is left of the call it is making after
it got the lock, `returned` are the results in the order in which the calls returned. -/
structure Mutexed (S α : Type) where
  shared : S
  holder : Option Nat := none
  inside : Nat → Option (Steps S α) := fun _ => none
  returned : List (Nat × α) := []

/-- the results a goroutine has got -/
def resultsOf (i : Nat) (returned : List (Nat × α)) : List α := (returned.filter fun x => x.1 == i).map Prod.snd

/-- What happens next: goroutine `i` gets the lock for its next call, or goes on with the call it is making. -/
inductive MutexAct where
  | lock (i : Nat)
  | go (i : Nat)
deriving DecidableEq, Repr

/-- replace what is left of the call of goroutine `i` -/
def Mutexed.put (i : Nat) (t : Option (Steps S α)) (w : Mutexed S α) : Nat → Option (Steps S α) := fun j => if j = i then t else w.inside j

/-- `sync.Mutex.Lock` at the beginning of a call: it goes on only if nobody has the lock.  `next i rs` is the call goroutine `i` makes after the results `rs`, if any. -/
def Mutexed.lock (next : Nat → List α → Option (Steps S α)) (i : Nat) (w : Mutexed S α) : Option (Mutexed S α) :=
  match w.holder, w.inside i, next i (resultsOf i w.returned) with
  | none, none, some t => some { w with holder := some i, inside := w.put i (some t) }
  | _, _, _ => none

/-- A step of the call goroutine `i` is making, or its end with the deferred `Unlock`.  A result with `stuck` is that of a call which never returns (it is blocked for ever, or
has crashed the program). -/
def Mutexed.go (stuck : α → Bool) (i : Nat) (w : Mutexed S α) : Option (Mutexed S α) :=
  match w.inside i with
  | none => none
  | some (.step f k) => some { w with shared := f w.shared, inside := w.put i (some (k w.shared)) }
  | some (.ret a) => if stuck a then none else some { w with holder := none, inside := w.put i none, returned := w.returned ++ [(i, a)] }

/-- One step of some goroutine; `none` if it cannot happen now. -/
def Mutexed.step (next : Nat → List α → Option (Steps S α)) (stuck : α → Bool) : MutexAct → Mutexed S α → Option (Mutexed S α)
  | .lock i, w => w.lock next i
  | .go i, w => w.go stuck i

/-- Steps in the order of an interleaving. -/
def Mutexed.run (next : Nat → List α → Option (Steps S α)) (stuck : α → Bool) : List MutexAct → Mutexed S α → Option (Mutexed S α)
  | [], w => some w
  | a :: as, w =>
    match w.step next stuck a with
    | none => none
    | some w' => Mutexed.run next stuck as w'

end Healer
