import Verif.Model.Http

/-!
C143 and C144: what the HTTP API answers, and what it leaves behind.
-/

namespace Healer

variable {α : Type}

/-! ### What a caller may expect -/

/-- a result is among the pieces of the body -/
def HasJson (w : Web α) : Prop := ∃ a, Piece.json a ∈ w.body

/-- The status tells what happened: 200 if the request is well-formed and everything succeeded, 400 only if the request is malformed, 500 only if something failed. -/
def StatusTrue (malformed : Prop) (outcome : Except Err α) (w : Web α) : Prop :=
  (¬malformed → ∀ a, outcome = .ok a → w.status = some 200)
    ∧ (malformed ∨ (∃ e, outcome = .error e) → (w.status = some 400 ∧ malformed) ∨ (w.status = some 500 ∧ ∃ e, outcome = .error e))

/-- The whole answer tells what happened: besides the status, the body is the result if everything succeeded and holds no result otherwise; and a malformed request is not carried out. -/
def AnswerTrue (malformed : Prop) (outcome : Except Err α) (w : Web α) : Prop :=
  StatusTrue malformed outcome w
    ∧ (¬malformed → ∀ a, outcome = .ok a → w.body = [.json a] ∧ w.asked = true)
    ∧ (malformed ∨ (∃ e, outcome = .error e) → ¬HasJson w)
    ∧ (malformed → w.asked = false)

/-- one step, then another: the outcome of both -/
def both (x : Except Err Unit) (y : Except Err α) : Except Err α :=
  match x with
  | .error e => .error e
  | .ok _ => y

def Failed {β : Type} (x : Except Err β) : Prop := ∃ e, x = .error e

/-! ### The handlers -/

/-- configs and log dirs of a topic, configs of a broker -/
theorem C143_client (client : Except Err Unit) (call : Except Err α) : AnswerTrue False (both client call) (clientHandler client call) := by
  rcases client with e | _ <;> rcases call with e' | a <;>
    simp [AnswerTrue, StatusTrue, HasJson, both, clientHandler, finish, Web.string, Web.json, Web.abort, Web.ask, Web.opened]

/-- the list of groups -/
theorem C143_listGroups (client : Except Err Unit) (call : Except Err α) : AnswerTrue False (both client call) (listGroupsHandler client call) := by
  rcases client with e | _ <;> rcases call with e' | a <;>
    simp [AnswerTrue, StatusTrue, HasJson, both, listGroupsHandler, finish, Web.string, Web.json, Web.abort, Web.ask, Web.opened]

/-- ACLs -/
theorem C143_acl (body : BodyRead) (client : Except Err Unit) (call : Except Err α) :
    AnswerTrue (body ≠ .ok) (both client call) (aclHandler body client call) := by
  rcases body with _ | _ | e0 <;> rcases client with e | _ <;> rcases call with e' | a <;>
    simp [AnswerTrue, StatusTrue, HasJson, both, aclHandler, BodyRead.error, clientHandler, finish, Web.string, Web.json, Web.abort, Web.ask, Web.opened]

/-- creating partitions -/
theorem C143_createPartitions (brokers : Except Err Unit) (body : BodyRead) (controller : Except Err Unit) (call : Except Err α) :
    AnswerTrue (body ≠ .ok) (both brokers (both controller call)) (createPartitionsHandler brokers body controller call) := by
  rcases body with _ | _ | e0 <;> rcases brokers with e | _ <;> rcases controller with e1 | _ <;> rcases call with e' | a <;>
    simp [AnswerTrue, StatusTrue, HasJson, both, createPartitionsHandler, BodyRead.error, finish, Web.string, Web.json, Web.abort, Web.ask, Web.opened]

/-- electing leaders -/
theorem C143_electLeaders (body : BodyRead) (timeout brokers : Except Err Unit) (call : Except Err α) :
    AnswerTrue (body ≠ .ok ∨ Failed timeout) (both brokers call) (electLeadersHandler body timeout brokers call) := by
  rcases body with _ | _ | e0 <;> rcases timeout with e1 | _ <;> rcases brokers with e | _ <;> rcases call with e' | a <;>
    simp [AnswerTrue, StatusTrue, HasJson, both, Failed, electLeadersHandler, clientHandler, BodyRead.error, finish, Web.string, Web.json, Web.abort, Web.ask, Web.opened]

/-- reassigning partitions -/
theorem C143_alterReassignments (timeout brokers : Except Err Unit) (body : BodyRead) (call : Except Err α) :
    AnswerTrue (body ≠ .ok ∨ Failed timeout) (both brokers call) (alterReassignmentsHandler timeout brokers body call) := by
  rcases body with _ | _ | e0 <;> rcases timeout with e1 | _ <;> rcases brokers with e | _ <;> rcases call with e' | a <;>
    simp [AnswerTrue, StatusTrue, HasJson, both, Failed, alterReassignmentsHandler, BodyRead.error, finish, Web.string, Web.json, Web.abort, Web.ask, Web.opened]

/-- the offsets of a topic -/
theorem C143_topicOffsets (brokers timestamp : Except Err Unit) (call : Except Err α) :
    AnswerTrue (Failed timestamp) (both brokers call) (topicOffsetsHandler brokers timestamp call) := by
  rcases timestamp with e1 | _ <;> rcases brokers with e | _ <;> rcases call with e' | a <;>
    simp [AnswerTrue, StatusTrue, HasJson, both, Failed, topicOffsetsHandler, finish, Web.string, Web.json, Web.abort, Web.ask, Web.opened]

/-- reading or setting one configuration of a topic; the handler may panic but the answer is right -/
theorem C143_topicConfig (brokers controller : Except Err Unit) (call : Except Err α) :
    AnswerTrue False (both brokers (both controller call)) (topicConfigHandler brokers controller call) := by
  rcases brokers with e | _ <;> rcases controller with e1 | _ <;> rcases call with e' | a <;>
    simp [AnswerTrue, StatusTrue, HasJson, both, topicConfigHandler, finish, Web.string, Web.json, Web.abort, Web.ask, Web.opened]

/-- Metadata: errors of Kafka's are told by the result itself, which is handed over with 200; any other error is told by the status. -/
theorem C143_metadata (isKafka : Err → Bool) (brokers : Except Err Unit) (a : α) (err : Option Err) :
    AnswerTrue False (both brokers (match err with | none => .ok a | some e => if isKafka e then .ok a else .error e))
      (metadataHandler isKafka brokers (a, err)) := by
  rcases brokers with e | _ <;> rcases err with _ | e'
  · simp [AnswerTrue, StatusTrue, HasJson, both, metadataHandler, Web.string, Web.abort]
  · simp [AnswerTrue, StatusTrue, HasJson, both, metadataHandler, Web.string, Web.abort]
  · simp [AnswerTrue, StatusTrue, HasJson, both, metadataHandler, Web.json, Web.abort, Web.ask, Web.opened]
  · cases h : isKafka e' <;>
      simp [AnswerTrue, StatusTrue, HasJson, both, metadataHandler, h, Web.string, Web.json, Web.abort, Web.ask, Web.opened]

/-- Listing reassignments with a body: the answer is right.  Missing: requests without body, which the handler means to support (see `C143_violated_noBody`), and an answer
that is wrong only in its body. -/
theorem C143_listReassignments_partial (timeout : Option (Except Err Unit)) (client : Except Err Unit) (body : BodyRead) (hb : body ≠ .empty) (call : Except Err α) :
    AnswerTrue (body ≠ .ok ∨ ∃ e, timeout = some (.error e)) (both client call) (listReassignmentsHandler timeout client body call) := by
  rcases body with _ | _ | e0
  · rcases timeout with _ | e1 | _ <;> rcases client with e | _ <;> rcases call with e' | a <;>
      simp [AnswerTrue, StatusTrue, HasJson, both, listReassignmentsHandler, listReassignmentsRest, finish, Web.string, Web.json, Web.abort, Web.ask, Web.opened]
  · exact absurd rfl hb
  · rcases timeout with _ | e1 | _ <;> rcases client with e | _ <;> rcases call with e' | a <;>
      simp [AnswerTrue, StatusTrue, HasJson, both, listReassignmentsHandler, listReassignmentsRest, finish, Web.string, Web.json, Web.abort, Web.ask, Web.opened]

/-- Listing all reassignments, without body: Kafka is asked and the result is in the answer, but the status is 400. -/
theorem C143_violated_noBody (a : α) :
    listReassignmentsHandler none (.ok ()) .empty (.ok a) = { status := some 400, body := [.json a], asked := true, left := false } := rfl

/-- Describing log dirs: the status is right.  Missing: the body, see `C143_violated_twoBodies`. -/
theorem C143_describeLogdirs_partial (client : Except Err Unit) (body : BodyRead) (a : α) (err : Option Err) :
    StatusTrue (body ≠ .ok) (both client (match err with | none => .ok a | some e => .error e)) (describeLogdirsHandler client body (a, err))
      ∧ (body = .ok → client = .ok () → err = none → (describeLogdirsHandler client body (a, err)).body = [.json a])
      ∧ (body ≠ .ok → (describeLogdirsHandler client body (a, err)).asked = false) := by
  rcases body with _ | _ | e0 <;> rcases client with e | _ <;> rcases err with _ | e' <;>
    simp [StatusTrue, both, describeLogdirsHandler, describeLogdirsRest, BodyRead.error, Web.string, Web.json, Web.abort, Web.ask, Web.opened]

/-- Describing log dirs: after an error the body is the text of the error with JSON (of no result) behind it, which is neither. -/
theorem C143_violated_twoBodies (a : α) (e : Err) :
    (describeLogdirsHandler (.ok ()) .ok (a, some e)).body = [.text e, .json a] := rfl

/-- the outcome of describing a group: every step has to succeed -/
def groupOutcome (brokers : Except Err Unit) (find : Except Err Int32) (getBroker : Int32 → Except Err Nat) (describe : Nat → Option α × Option Err) : Except Err α :=
  both brokers <| find.bind fun node => (getBroker node).bind fun h =>
    match describe h with
    | (_, some e) => .error e
    | (some a, none) => .ok a
    | (none, none) => .error .emptyPayload

/-- Describing a group: the status is right.  Missing: the body, see `C143_violated_wrongBroker`. -/
theorem C143_describeGroups_partial (brokers : Except Err Unit) (find : Except Err Int32) (getBroker : Int32 → Except Err Nat) (describe : Nat → Option α × Option Err) :
    StatusTrue False (groupOutcome brokers find getBroker describe) (describeGroupsHandler brokers find getBroker describe)
      ∧ (∀ a, groupOutcome brokers find getBroker describe = .ok a → (describeGroupsHandler brokers find getBroker describe).body = [.json a]) := by
  rcases brokers with e | _
  · simp [StatusTrue, groupOutcome, both, describeGroupsHandler, Web.string, Web.abort]
  · rcases find with e1 | node
    · rcases h : getBroker 0 with e2 | hd
      · simp [StatusTrue, groupOutcome, both, describeGroupsHandler, describeGroupsAt, h, Except.bind, Web.string, Web.abort, Web.opened]
      · rcases hr : describe hd with ⟨_ | a, _ | e3⟩ <;>
          simp [StatusTrue, groupOutcome, both, describeGroupsHandler, describeGroupsAt, describeGroupsRest, h, hr, Except.bind, Web.string, Web.json, Web.ask, Web.abort, Web.opened]
    · rcases h : getBroker node with e2 | hd
      · simp [StatusTrue, groupOutcome, both, describeGroupsHandler, describeGroupsAt, h, Except.bind, Web.string, Web.abort, Web.opened]
      · rcases hr : describe hd with ⟨_ | a, _ | e3⟩ <;>
          simp [StatusTrue, groupOutcome, both, describeGroupsHandler, describeGroupsAt, describeGroupsRest, h, hr, Except.bind, Web.string, Web.json, Web.ask, Web.abort, Web.opened]

/-- Describing a group whose coordinator is not found: node 0 is asked instead, and what it says (of a group it does not coordinate) is sent behind the text of the error. -/
theorem C143_violated_wrongBroker (e : Err) (getBroker : Int32 → Except Err Nat) (h : Nat) (h0 : getBroker 0 = .ok h) (describe : Nat → Option α × Option Err) (a : α)
    (ha : describe h = (some a, none)) :
    (describeGroupsHandler (.ok ()) (.error e) getBroker describe).body = [.text e, .json a] := by
  simp [describeGroupsHandler, describeGroupsAt, h0, describeGroupsRest, ha, Web.string, Web.json, Web.ask, Web.abort, Web.opened]

/-- a group described by its coordinator, node 7 -/
example : (describeGroupsHandler (α := Nat) (.ok ()) (.ok 7) (fun n => if n = 7 then .ok 1 else .error .eof) (fun _ => (some 42, none)))
    = { status := some 200, body := [.json 42], asked := true, left := true } := by decide

/-- a request to create partitions whose body is not understood -/
example : (createPartitionsHandler (α := Nat) (.ok ()) (.bad (.other "unexpected end")) (.ok ()) (.ok 5)).status = some 400 := by decide

/-- electing leaders with the timeout missing -/
example : (electLeadersHandler (α := Nat) .ok (.error (.other "parsing")) (.ok ()) (.ok 5)) = { status := some 400, body := [.text (.other "parsing")] } := by decide

/-! ### What is left behind -/

/-- Most requests close the connections opened for them, whatever happens.
Missing: the others (`C144_violated_left`). -/
theorem C144_closed_partial (client brokers controller timeout timestamp : Except Err Unit) (body : BodyRead) (call : Except Err α) (call' : α × Option Err)
    (isKafka : Err → Bool) (tmo : Option (Except Err Unit)) :
    (clientHandler client call).left = false ∧ (aclHandler body client call).left = false
      ∧ (createPartitionsHandler brokers body controller call).left = false ∧ (electLeadersHandler body timeout brokers call).left = false
      ∧ (alterReassignmentsHandler timeout brokers body call).left = false ∧ (topicOffsetsHandler brokers timestamp call).left = false
      ∧ (metadataHandler isKafka brokers call').left = false ∧ (topicConfigHandler brokers controller call).left = false
      ∧ (listReassignmentsHandler tmo client body call).left = false := by
  refine ⟨?_, ?_, ?_, ?_, ?_, ?_, ?_, ?_, ?_⟩
  · rcases client with _ | _ <;> rcases call with _ | _ <;> rfl
  · rcases body with _ | _ | _ <;> rcases client with _ | _ <;> rcases call with _ | _ <;> rfl
  · rcases body with _ | _ | _ <;> rcases brokers with _ | _ <;> rcases controller with _ | _ <;> rcases call with _ | _ <;> rfl
  · rcases body with _ | _ | _ <;> rcases timeout with _ | _ <;> rcases brokers with _ | _ <;> rcases call with _ | _ <;> rfl
  · rcases body with _ | _ | _ <;> rcases timeout with _ | _ <;> rcases brokers with _ | _ <;> rcases call with _ | _ <;> rfl
  · rcases timestamp with _ | _ <;> rcases brokers with _ | _ <;> rcases call with _ | _ <;> rfl
  · rcases brokers with _ | _ <;> rcases call' with ⟨a, _ | e⟩ <;> try rfl
    simp only [metadataHandler]
    split <;> rfl
  · rcases brokers with _ | _ <;> rcases controller with _ | _ <;> rcases call with _ | _ <;> rfl
  · rcases tmo with _ | _ | _ <;> rcases body with _ | _ | _ <;> rcases client with _ | _ <;> rcases call with _ | _ <;> rfl

/-- Listing groups, describing a group and describing log dirs leave their connections open, every time they get as far as opening them, even when all goes well. -/
theorem C144_violated_left (call : Except Err α) (body : BodyRead) (call' : α × Option Err) (find : Except Err Int32) (getBroker : Int32 → Except Err Nat)
    (describe : Nat → Option α × Option Err) :
    (listGroupsHandler (.ok ()) call).left = true ∧ (describeLogdirsHandler (.ok ()) body call').left = true
      ∧ (describeGroupsHandler (.ok ()) find getBroker describe).left = true := by
  refine ⟨?_, ?_, ?_⟩
  · rcases call with _ | _ <;> rfl
  · rcases body with _ | _ | _ <;> rcases call' with ⟨a, _ | e⟩ <;> rfl
  · have key : ∀ node (w : Web α), w.left = true → (describeGroupsAt getBroker describe node w).left = true := by
      intro node w hw
      unfold describeGroupsAt
      rcases getBroker node with _ | h
      · exact hw
      · simp only [describeGroupsRest]
        rcases describe h with ⟨_ | a, _ | e⟩ <;> exact hw
    rcases find with e | node
    · exact key 0 _ rfl
    · exact key node _ rfl

end Healer
