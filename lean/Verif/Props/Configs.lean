import Verif.Model.Configs
import Verif.Props.Brokers2
import Verif.Props.Request2
import Verif.Props.Tools

/-!
# C150: configs are read and changed at the broker which can answer
-/

namespace Healer

open Client

variable {W : Type}

/-- what the flag --resource-type may be -/
inductive ConfigKind where
  | topic | broker | logger
deriving DecidableEq

/-- how it is written -/
def ConfigKind.flag : ConfigKind → String
  | .topic => "topic" | .broker => "broker" | .logger => "broker_logger"

/-- Kafka's codes of config resources (`ConfigResource.Type`) -/
def ConfigKind.code : ConfigKind → Int
  | .topic => 2 | .broker => 4 | .logger => 8

/-- Kafka's rule: about a broker's own settings, and about its loggers, only that broker can be asked; about topics each. -/
def ConfigKind.AnsweredBy (node : Int32) (name : Bytes) : ConfigKind → Prop
  | .topic => True
  | .broker | .logger => name = itoa node.toInt

/-- what must be the case of a request to describe -/
structure DescribesAt (kind : ConfigKind) (name : Bytes) (keys : Option (List Bytes)) (b : Brokers W) (a : ConfigAsked) : Prop where
  /-- it is meant for a node which can answer -/
  node : kind.AnsweredBy a.node name
  /-- it is sent by the broker object of that node -/
  object : b.object a.node = some a.broker
  /-- it asks for the settings wanted -/
  bytes : ∀ v ∈ clientVersions API_DescribeConfigs, ∀ corr cid, a.req.encode (reqHeader API_DescribeConfigs v corr cid) v =
    .ok (Kafka.request .describeConfigs v.toNat corr.toNat cid (Kafka.describeConfigsRequest [⟨kind.code, name, keys⟩]))

/-- the same of a request to change one setting -/
structure ChangesAt (kind : ConfigKind) (name key value : Bytes) (b : Brokers W) (a : ConfigAsked) : Prop where
  node : kind.AnsweredBy a.node name
  object : b.object a.node = some a.broker
  bytes : ∀ v ∈ clientVersions API_IncrementalAlterConfigs, ∀ corr cid, a.req.encode (reqHeader API_IncrementalAlterConfigs v corr cid) v =
    .ok (Kafka.request .incrementalAlterConfigs v.toNat corr.toNat cid (Kafka.incrementalAlterConfigsRequest [⟨kind.code, name, [⟨key, 0, value⟩]⟩] false))

variable (net : Net W)

/-- What `askNode` sends goes through the object of the node, and what it returns was answered. -/
theorem askNode_spec {R : Type} (error : R → Option Err) (ask : Nat → AnyRequest → W → Except Err R × W) (node : Int32) (req : AnyRequest) (b : Brokers W) :
    (∀ a ∈ (askNode net error ask node req b).1.2, a.node = node ∧ a.req = req ∧ (askNode net error ask node req b).2.object node = some a.broker) ∧
    (∀ h, (Brokers.getBroker net node b).1 = .ok h → (askNode net error ask node req b).1.2 = [⟨node, h.1, req⟩]) ∧
    ∀ r, (askNode net error ask node req b).1.1 = .ok r → ∃ a w, (askNode net error ask node req b).1.2 = [a] ∧ (ask a.broker a.req w).1 = .ok r ∧ error r = none := by
  have hs := (getBroker_spec net node b).2
  unfold askNode
  rcases hg : Brokers.getBroker net node b with ⟨_ | h, b1⟩
  · simp
  · rw [hg] at hs
    have hc := hs h rfl
    simp only at hc
    have ho : ∀ w, ({ b1 with world := w } : Brokers W).object node = some h.1 := by
      intro w
      simp [Brokers.object, hc]
    rcases ha : ask h.1 req b1.world with ⟨_ | r, w⟩
    · simp [answerOf, ha, ho]
    · cases he : error r with
      | none => 
        simp [answerOf, ha, ho, he]
        exact ⟨_, congrArg Prod.fst ha⟩
      | some e => simp [answerOf, ha, ho, he]

theorem describeNode_broker (n : Int32) (b : Brokers W) : describeNode "broker" (itoa n.toInt) b = .ok n := by
  have h1 := n.le_toInt
  have h2 := n.toInt_lt
  unfold describeNode
  rw [if_pos rfl, atoi_itoa n.toInt (by omega)]
  simp only [Except.ok.injEq]
  rw [← Int32.toInt_inj, Int64.toInt_toInt32, Int64.toInt_ofInt_of_le (by omega) (by omega)]
  exact Int.bmod_eq_of_le (by omega) (by omega)

/-- C150 for topics, and for brokers named by their numbers: every request to describe goes to a node which can answer it, through the object of
that node, and asks for the settings wanted; what is returned is the answer to such a request.
Missing: loggers (`C150_violated_logger`), other types (`C150_violated_unknown`), numbers of more than 32 bits (`C150_violated_wide`), the defaults of all brokers
(`C150_violated_defaults`). -/
theorem C150_describe_partial (ask : Nat → AnyRequest → W → Except Err DescribeConfigsResponse × W) (kind : ConfigKind) (name : Bytes) (keys : Option (List Bytes))
    (b : Brokers W) (hk : kind = .topic ∨ kind = .broker ∧ ∃ n : Int32, name = itoa n.toInt) :
    (∀ a ∈ (describeConfigs net ask kind.flag name keys b).1.2, DescribesAt kind name keys (describeConfigs net ask kind.flag name keys b).2 a) ∧
    ∀ r, (describeConfigs net ask kind.flag name keys b).1.1 = .ok r →
      ∃ a w, (describeConfigs net ask kind.flag name keys b).1.2 = [a] ∧ (ask a.broker a.req w).1 = .ok r ∧ r.error = none := by
  have hn : ∃ node, describeNode kind.flag name b = .ok node ∧ kind.AnsweredBy node name := by
    rcases hk with rfl | ⟨rfl, n, rfl⟩
    · exact ⟨_, rfl, trivial⟩
    · exact ⟨n, describeNode_broker n b, rfl⟩
  obtain ⟨node, hd, hans⟩ := hn
  obtain ⟨h1, -, h3⟩ := askNode_spec net DescribeConfigsResponse.error ask node (.describeConfigs [⟨convertConfigResourceType kind.flag, name, keys⟩]) b
  have hcode : ((convertConfigResourceType kind.flag).toNat : Int) = kind.code := by cases kind <;> rfl
  unfold describeConfigs
  rw [hd]
  refine ⟨fun a ha => ?_, h3⟩
  obtain ⟨e1, e2, e3⟩ := h1 a ha
  refine ⟨e1 ▸ hans, e1 ▸ e3, fun v hv corr cid => ?_⟩
  rw [e2, ← hcode]
  exact C61_describeConfigs [⟨convertConfigResourceType kind.flag, name, keys⟩] v hv corr cid

/-- C150: if the broker can be reached, it is asked. -/
theorem C150_describe_asks (ask : Nat → AnyRequest → W → Except Err DescribeConfigsResponse × W) (n : Int32) (keys : Option (List Bytes)) (b : Brokers W) (h : Nat × Int32)
    (hg : (Brokers.getBroker net n b).1 = .ok h) : ∃ req, (describeConfigs net ask "broker" (itoa n.toInt) keys b).1.2 = [⟨n, h.1, req⟩] := by
  unfold describeConfigs
  rw [describeNode_broker]
  exact ⟨_, (askNode_spec net _ ask n _ b).2.1 h hg⟩

/-- an answer without settings -/
def demoConfigs : Nat → AnyRequest → Nat → Except Err DescribeConfigsResponse × Nat := fun _ _ w => (.ok ⟨0, 0, []⟩, w + 1)

example : ((describeConfigs goodNet demoConfigs "broker" [50] none (demoBrokers goodNet)).1.2.map fun a => (a.node, a.broker)) = [(2, 1)] ∧
    (describeConfigs goodNet demoConfigs "broker" [50] none (demoBrokers goodNet)).1.1.toOption.isSome ∧ [50] = itoa (2 : Int32).toInt := by decide +kernel

theorem alterConfigs_eq {R : Type} (error : R → Option Err) (ask : Nat → AnyRequest → W → Except Err R × W) (type : String) (name key value : Bytes) (b : Brokers W) :
    alterConfigs net error ask type name key value b =
      askNode net error ask b.controllerID (.incrementalAlterConfigs { resources := [⟨convertConfigResourceType type, name, [⟨key, 0, value⟩]⟩] }) b := rfl

/-- C150 for topics, and for the controller itself: every request to change a setting goes to a node which can answer it, and changes just that.
Missing: other brokers and their loggers (`C150_violated_alter`). -/
theorem C150_alter_partial {R : Type} (error : R → Option Err) (ask : Nat → AnyRequest → W → Except Err R × W) (kind : ConfigKind) (name key value : Bytes)
    (b : Brokers W) (hk : kind = .topic ∨ name = itoa b.controllerID.toInt) :
    (∀ a ∈ (alterConfigs net error ask kind.flag name key value b).1.2, ChangesAt kind name key value (alterConfigs net error ask kind.flag name key value b).2 a) ∧
    ∀ r, (alterConfigs net error ask kind.flag name key value b).1.1 = .ok r →
      ∃ a w, (alterConfigs net error ask kind.flag name key value b).1.2 = [a] ∧ (ask a.broker a.req w).1 = .ok r ∧ error r = none := by
  rw [alterConfigs_eq]
  obtain ⟨h1, -, h3⟩ := askNode_spec net error ask b.controllerID
    (.incrementalAlterConfigs { resources := [⟨convertConfigResourceType kind.flag, name, [⟨key, 0, value⟩]⟩] }) b
  have hcode : ((convertConfigResourceType kind.flag).toNat : Int) = kind.code := by cases kind <;> rfl
  refine ⟨fun a ha => ?_, h3⟩
  obtain ⟨e1, e2, e3⟩ := h1 a ha
  refine ⟨?_, e1 ▸ e3, fun v hv corr cid => ?_⟩
  · rw [e1]
    rcases hk with rfl | hk
    · trivial
    · cases kind
      · trivial
      · exact hk
      · exact hk
  · rw [e2, ← hcode]
    exact C61_incrementalAlterConfigs { resources := [⟨convertConfigResourceType kind.flag, name, [⟨key, 0, value⟩]⟩] } v hv corr cid

theorem itoa_int32_inj (n m : Int32) (h : itoa n.toInt = itoa m.toInt) : n = m := by
  have h1 := describeNode_broker n (⟨[], [], [], 0, (), []⟩ : Brokers Unit)
  rw [h, describeNode_broker] at h1
  cases h1
  rfl

/-- C150 is violated: a change of the settings of any broker but the controller, or of its loggers, is never sent to that broker, but to the controller, -/
theorem C150_violated_alter {R : Type} (error : R → Option Err) (ask : Nat → AnyRequest → W → Except Err R × W) (kind : ConfigKind) (n : Int32) (key value : Bytes)
    (b : Brokers W) (hn : n ≠ b.controllerID) (hk : kind ≠ .topic) :
    (∀ a ∈ (alterConfigs net error ask kind.flag (itoa n.toInt) key value b).1.2, ¬kind.AnsweredBy a.node (itoa n.toInt)) ∧
    ∀ h, (Brokers.getBroker net b.controllerID b).1 = .ok h → ∃ a, (alterConfigs net error ask kind.flag (itoa n.toInt) key value b).1.2 = [a] := by
  rw [alterConfigs_eq]
  obtain ⟨h1, h2, -⟩ := askNode_spec net error ask b.controllerID
    (.incrementalAlterConfigs { resources := [⟨convertConfigResourceType kind.flag, itoa n.toInt, [⟨key, 0, value⟩]⟩] }) b
  refine ⟨fun a ha hans => ?_, fun h hh => ⟨_, h2 h hh⟩⟩
  rw [(h1 a ha).1] at hans
  cases kind
  · exact hk rfl
  · exact hn (itoa_int32_inj _ _ hans)
  · exact hn (itoa_int32_inj _ _ hans)

/-- and so is a question for the loggers of any broker but the controller. -/
theorem C150_violated_logger (ask : Nat → AnyRequest → W → Except Err DescribeConfigsResponse × W) (n : Int32) (keys : Option (List Bytes))
    (b : Brokers W) (hn : n ≠ b.controllerID) :
    (∀ a ∈ (describeConfigs net ask "broker_logger" (itoa n.toInt) keys b).1.2, ¬ConfigKind.logger.AnsweredBy a.node (itoa n.toInt)) ∧
    ∀ h, (Brokers.getBroker net b.controllerID b).1 = .ok h → ∃ a, (describeConfigs net ask "broker_logger" (itoa n.toInt) keys b).1.2 = [a] := by
  obtain ⟨h1, h2, -⟩ := askNode_spec net DescribeConfigsResponse.error ask b.controllerID (.describeConfigs [⟨8, itoa n.toInt, keys⟩]) b
  refine ⟨fun a ha hans => ?_, fun h hh => ⟨_, h2 h hh⟩⟩
  rw [(h1 a ha).1] at hans
  exact hn (itoa_int32_inj _ _ hans)

example : (2 : Int32) ≠ (demoBrokers goodNet).controllerID ∧ (Brokers.getBroker goodNet (demoBrokers goodNet).controllerID (demoBrokers goodNet)).1.toOption.isSome := by
  decide +kernel

/-- C150 is violated: a type which is misspelt is not refused; the request is sent for a resource of type 0, which Kafka does not have. -/
theorem C150_violated_unknown (ask : Nat → AnyRequest → W → Except Err DescribeConfigsResponse × W) (type : String) (name : Bytes) (keys : Option (List Bytes))
    (b : Brokers W) (h : Nat × Int32) (ht : ∀ kind : ConfigKind, type ≠ kind.flag) (hg : (Brokers.getBroker net b.controllerID b).1 = .ok h) :
    (describeConfigs net ask type name keys b).1.2 = [⟨b.controllerID, h.1, .describeConfigs [⟨0, name, keys⟩]⟩] := by
  have h1 : type ≠ "topic" := ht .topic
  have h2 : type ≠ "broker" := ht .broker
  have h3 : type ≠ "broker_logger" := ht .logger
  have hc : convertConfigResourceType type = 0 := by simp [convertConfigResourceType, h1, h2, h3]
  have hd : describeNode type name b = .ok b.controllerID := by simp [describeNode, h2]
  unfold describeConfigs
  rw [hd, hc]
  exact (askNode_spec net DescribeConfigsResponse.error ask b.controllerID (.describeConfigs [⟨0, name, keys⟩]) b).2.1 h hg

example : ∀ kind : ConfigKind, "topics" ≠ kind.flag := by intro kind; cases kind <;> decide

/-- C150 is violated: a number which is no node id is cut to 32 bits: 4294967298 asks broker 2, about the broker of the long number. -/
theorem C150_violated_wide (b : Brokers W) :
    describeNode "broker" (itoa 4294967298) b = .ok 2 ∧ ¬ConfigKind.broker.AnsweredBy 2 (itoa 4294967298) := by
  refine ⟨?_, ?_⟩
  · unfold describeNode
    rw [if_pos rfl, atoi_itoa _ (by omega)]
    rfl
  · show ¬ itoa 4294967298 = itoa (2 : Int32).toInt
    decide +kernel

/-- C150 is violated: Kafka keeps the settings common to all brokers under the empty name; they cannot be described. -/
theorem C150_violated_defaults (ask : Nat → AnyRequest → W → Except Err DescribeConfigsResponse × W) (keys : Option (List Bytes)) (b : Brokers W) :
    describeConfigs net ask "broker" [] keys b = ((.error (.other "broker id must be a number"), []), b) := rfl

end Healer
