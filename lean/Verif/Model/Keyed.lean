import Verif.Go.Map

/-!
# Keyed messages added by several goroutines (producer.go:133-166, 171-185, 188-199)

`Producer.getSimpleProducer` reads and writes the maps `pidToSimpleProducers` and `leaderBrokersMapping` without a lock, so
calls of `AddMessage` with keys interleave in the middle.  Here messages are numbers, and a message comes with the partition
its key is hashed to.  The broker accepts everything (failed requests are the subject of Producer.lean).  Messages without
key, calls which overlap with `Close` or follow it, and the crash by which the runtime may punish unsynchronised writes to
a map (Model/Maps.lean) are left out.
-/

namespace Healer

/-- simple_producer.go:15-35 `SimpleProducer`: the partition, and the messages waiting -/
structure PartLine where
  part : Nat
  waiting : List Nat := []
deriving DecidableEq, Repr

/-- Where a goroutine stands in `Producer.AddMessage`. -/
inductive AddAt where
  | idle
  /-- producer.go:142-144: no partition producer was found -/
  | making (p m : Nat)
  /-- producer.go:160-163: the partition producer `l` is made but not in the map -/
  | made (l p m : Nat)
  /-- producer.go:177: about to hand the message to the partition producer `l` -/
  | holding (l m : Nat)
deriving DecidableEq, Repr

/-- What is seen from outside. -/
inductive AddSeen where
  /-- `AddMessage` returned nil -/
  | added (p m : Nat)
  /-- a produce request for the partition -/
  | sent (p : Nat) (ms : List Nat)
deriving DecidableEq, Repr

/-- producer.go:17-37 `Producer`, the keyed part: all partition producers ever made, and the map
`pidToSimpleProducers` from partitions to them -/
structure Adding where
  lines : List PartLine := []
  table : AMap Nat Nat := []
  pos : Nat → AddAt := fun _ => .idle
  log : List AddSeen := []

/-- Steps; `g` is a goroutine. -/
inductive AddAct where
  /-- `AddMessage` is called, and `pidToSimpleProducers[partitionID]` read (producer.go:140-144) -/
  | call (g p m : Nat)
  /-- `NewSimpleProducer` (producer.go:146-163) succeeds -/
  | make (g : Nat)
  /-- `pidToSimpleProducers[partitionID] = sp` (producer.go:164) -/
  | store (g : Nat)
  /-- `SimpleProducer.AddMessage` (simple_producer.go:132-158), atomic because of its lock -/
  | put (g : Nat)
  /-- the flush timer of a partition producer fires (simple_producer.go:116-126) -/
  | tick (l : Nat)
deriving DecidableEq, Repr

/-- simple_producer.go:161-171, 234-236: send what is waiting -/
def Adding.flush (l : Nat) (s : Adding) : Adding :=
  match s.lines[l]? with
  | some x => if x.waiting = [] then s
    else { s with lines := s.lines.set l { x with waiting := [] }, log := s.log ++ [.sent x.part x.waiting] }
  | none => s

/-- the goroutine `g` goes to `a` -/
def Adding.goto (g : Nat) (a : AddAt) (s : Adding) : Adding := { s with pos := fun j => if j = g then a else s.pos j }

/-- simple_producer.go:151-156: append, and send when there are `max` messages -/
def Adding.append (max : Nat) (l m : Nat) (s : Adding) : Adding :=
  match s.lines[l]? with
  | some x =>
    if (x.waiting ++ [m]).length ≥ max then
      { s with lines := s.lines.set l { x with waiting := [] }
               log := s.log ++ [.sent x.part (x.waiting ++ [m]), .added x.part m] }
    else { s with lines := s.lines.set l { x with waiting := x.waiting ++ [m] }, log := s.log ++ [.added x.part m] }
  | none => s

/-- One step; `none` if it cannot happen now. -/
def Adding.step (max : Nat) (a : AddAct) (s : Adding) : Option Adding :=
  match a with
  | .call g p m => match s.pos g with
    | .idle => some (s.goto g (match s.table.get p with | some l => .holding l m | none => .making p m))
    | _ => none
  | .make g => match s.pos g with
    | .making p m => some (({ s with lines := s.lines ++ [{ part := p }] } : Adding).goto g (.made s.lines.length p m))
    | _ => none
  | .store g => match s.pos g with
    | .made l p m => some (({ s with table := s.table.set p l } : Adding).goto g (.holding l m))
    | _ => none
  | .put g => match s.pos g with
    | .holding l m => some ((s.append max l m).goto g .idle)
    | _ => none
  | .tick l => some (s.flush l)

def Adding.run (max : Nat) : List AddAct → Adding → Option Adding
  | [], s => some s
  | a :: as, s => match s.step max a with
    | some s' => Adding.run max as s'
    | none => none

/-- producer.go:192-194 `Close` sends what is waiting in the partition producers in the map -/
def Adding.close (s : Adding) : Adding := (s.table.map Prod.snd).foldl (fun s l => s.flush l) s

end Healer
