import Verif.Model.Client

/-!
# The tools for groups (command/healer/cmd/describe-groups.go, list-groups.go, delete-groups.go)

What is printed is a parameter of the JSON library and left out: the results are what is given to it.  Creating the
brokers is Model/Bootstrap.lean.
-/

namespace Healer

variable {W : Type} (net : Net W)

/-- what describe-groups asked: the node, the broker object, the groups named in the request and what came back -/
structure DescribeAsked where
  node : Int32
  broker : Nat
  groups : List Bytes
  answer : Except Err DescribeGroupsResponse

/-- describe-groups.go:35-61: the coordinator is looked for and asked; what is printed, and what was asked.  `ask` is the exchange with the broker. -/
def describeGroupsCmd (ask : Nat → List Bytes → W → Except Err DescribeGroupsResponse × W) (group : Bytes) (b : Brokers W) :
    (Except Err (List GroupDetail) × List DescribeAsked) × Brokers W :=
  match Brokers.findCoordinator net group b with
  | (.error e, b) => ((.error e, []), b)
  | (.ok c, b) =>
    match Brokers.getBroker net c.nodeID b with
    | (.error e, b) => ((.error e, []), b)
    | (.ok h, b) =>
      let answer := (ask h.1 [group] b.world).1
      let asked := [⟨c.nodeID, h.1, [group], answer⟩]
      let b := { b with world := (ask h.1 [group] b.world).2 }
      match answerOf DescribeGroupsResponse.error answer with
      | (some r, none) => ((.ok r.groups, asked), b)
      | (_, some e) => ((.error (.wrapped e), asked), b)
      | (none, none) => ((.error (.other "not reached"), asked), b)

/-- list-groups.go:28-34: what is printed -/
def listGroupsCmd (b : Brokers W) : Except Err (AMap Int32 (List ListedGroup)) × Brokers W :=
  match Brokers.listGroups net b with
  | ((m, none), b) => (.ok m, b)
  | ((_, some e), b) => (.error e, b)

/-- delete-groups.go:37-55: what is printed.  The check of line 44 comes after `DeleteGroups` has looked for errors and decides nothing but a log line. -/
def deleteGroupsCmd (ask : Nat → Bytes → W → Except Err DeleteGroupsResponse × W) (groups : List Bytes) (b : Brokers W) :
    (Except Err (List (Bytes × Int16)) × List Client.GroupDone) × Brokers W :=
  match Client.deleteGroups net ask groups b with
  | ((.ok rs, log), b) => ((.ok rs, log), b)
  | ((.error e, log), b) => ((.error (.wrapped e), log), b)

end Healer
