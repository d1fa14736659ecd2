import Verif.Model.Client
import Verif.Model.Transmit
import Verif.Model.Tools

/-!
# Describing and changing configs: which broker is asked

`ask h req` is what broker object `h` returns for the request (`RequestAndGet`).
-/

namespace Healer

namespace Client

variable {W : Type} (net : Net W)

/-- describe_configs_request.go:6-17 `ConvertConfigResourceType` -/
def convertConfigResourceType (resourceType : String) : UInt8 :=
  if resourceType = "topic" then 2
  else if resourceType = "broker" then 4
  else if resourceType = "broker_logger" then 8
  else 0

/-- a request which was sent: the node it is meant for, the broker object got for the node, the request -/
structure ConfigAsked where
  node : Int32
  broker : Nat
  req : AnyRequest

/-- `GetBroker` and `RequestAndGet`: client.go:378-387, alter-configs.go:47-59, apicontrollers/topic.go:43-54, 85-94 (see Model/Http for the latter's crash) -/
def askNode {R : Type} (error : R → Option Err) (ask : Nat → AnyRequest → W → Except Err R × W) (node : Int32) (req : AnyRequest) (b : Brokers W) :
    (Except Err R × List ConfigAsked) × Brokers W :=
  match Brokers.getBroker net node b with
  | (.error e, b) => ((.error e, []), b)
  | (.ok h, b) =>
    let a := ask h.1 req b.world
    match answerOf error a.1 with
    | (some r, none) => ((.ok r, [⟨node, h.1, req⟩]), { b with world := a.2 })
    | (_, some e) => ((.error e, [⟨node, h.1, req⟩]), { b with world := a.2 })
    | (none, none) => ((.error (.other "not reached"), [⟨node, h.1, req⟩]), { b with world := a.2 })

/-- client.go:367-376: the node which is asked to describe -/
def describeNode (resourceType : String) (resourceName : Bytes) (b : Brokers W) : Except Err Int32 :=
  if resourceType = "broker" then
    match atoi resourceName with
    | none => .error (.other "broker id must be a number")
    | some id => .ok id.toInt32
  else .ok b.controllerID

/-- client.go:357-388 `DescribeConfigs`; describe-configs.go and apicontrollers/configs.go:38-56 pass on what they are given, apicontrollers/topic.go:24-55 does the same for a topic and one key -/
def describeConfigs (ask : Nat → AnyRequest → W → Except Err DescribeConfigsResponse × W) (resourceType : String) (resourceName : Bytes) (keys : Option (List Bytes))
    (b : Brokers W) : (Except Err DescribeConfigsResponse × List ConfigAsked) × Brokers W :=
  match describeNode resourceType resourceName b with
  | .error e => ((.error e, []), b)
  | .ok node =>
    askNode net DescribeConfigsResponse.error ask node (.describeConfigs [⟨convertConfigResourceType resourceType, resourceName, keys⟩]) b

/-- command/healer/cmd/alter-configs.go:16-63, from line 47; apicontrollers/topic.go:69-94 with "topic".  The error of `AddConfig` is ignored; there is none for the first setting. -/
def alterConfigs {R : Type} (error : R → Option Err) (ask : Nat → AnyRequest → W → Except Err R × W) (resourceType : String) (resourceName name value : Bytes)
    (b : Brokers W) : (Except Err R × List ConfigAsked) × Brokers W :=
  let r : IncrementalAlterConfigsRequest := {}
  let r := match r.addConfig (convertConfigResourceType resourceType) resourceName name value with
    | .ok r => r
    | .error _ => r
  askNode net error ask b.controllerID (.incrementalAlterConfigs r) b

end Client

end Healer
