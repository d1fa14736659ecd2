import Verif.Model.Tools

/-!
# The commands that print what they consume

command/healer/cmd/group-consumer.go and console-consumer.go, from the channel of messages on.  What the two
do before (flags, construction of the consumer) is in Model/Config.lean, Model/MultiConsumer.lean and
Model/GroupConsumer.lean.  The layout of `--json` is the business of encoding/json and is a parameter here.
-/

namespace Healer

/-- What the loops of the commands wait for. -/
inductive ConsoleEv where
  /-- the channel delivers a message -/
  | message (m : FullMessage)
  /-- the user presses control-C -/
  | interrupt
deriving DecidableEq, Repr

/-- How a command is, after the events given. -/
inductive ToolEnd where
  /-- it has returned; with the deferred calls done -/
  | returned
  /-- it waits for a message -/
  | waiting
  /-- the signal, which it does not handle, has ended it -/
  | killed
  /-- it has dereferenced a nil pointer -/
  | crashed
deriving DecidableEq, Repr

/-- group-consumer.go:91: `"%s:%d:%d: %s\n"`; `none` when `message.Message` is nil.  A nil value is printed as an empty one. -/
def groupLine (m : FullMessage) : Option Bytes :=
  m.message.map fun x => m.topicName ++ 58 :: itoa m.partitionID.toInt ++ 58 :: itoa x.offset.toInt ++ 58 :: 32 :: x.value.getD [] ++ [10]

/-- console-consumer.go:85: `"%d: %s\n"`; `none` when `message.Message` is nil. -/
def consoleLine (m : FullMessage) : Option Bytes :=
  m.message.map fun x => itoa x.offset.toInt ++ 58 :: 32 :: x.value.getD [] ++ [10]

/-- group-consumer.go:77-98: the loop, with the layout `line` (91, or 84-89 for `--json`) and the counter `i`.  The counter is an `int`; it does not
overflow when it is compared (94), as the loop ends when it reaches `max`, and is an integer here. -/
def groupConsumerLoop (line : FullMessage → Option Bytes) (max : Int) : Int → List ConsoleEv → Bytes × ToolEnd
  | _, [] => ([], .waiting)
  | _, .interrupt :: _ => ([], .returned)
  | i, .message m :: es =>
    match line m with
    | none => ([], .crashed)
    | some s =>
      if max > 0 ∧ i + 1 ≥ max then (s, .returned)
      else
        let r := groupConsumerLoop line max (i + 1) es
        (s ++ r.1, r.2)

/-- console-consumer.go:79-88: the loop, with the layout `line` (85, or 82-83 for `--json`) and the counter `i`.  Signals are not handled: an interrupt
ends the process. -/
def consoleConsumerLoop (line : FullMessage → Option Bytes) (max i : Int) (es : List ConsoleEv) : Bytes × ToolEnd :=
  if i < max then
    match es with
    | [] => ([], .waiting)
    | .interrupt :: _ => ([], .killed)
    | .message m :: es =>
      match line m with
      | none => ([], .crashed)
      | some s =>
        let r := consoleConsumerLoop line max (i + 1) es
        (s ++ r.1, r.2)
  else ([], .returned)
  termination_by es.length

end Healer
