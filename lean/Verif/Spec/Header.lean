import Verif.Spec.Wire

/-!
# Kafka request and response headers (specification)

From https://kafka.apache.org/protocol#protocol_messages and the `flexibleVersions` attribute of
the message definitions in the Kafka source tree.
-/

namespace Kafka

/-- API keys used by the client. -/
inductive Api where
  | produce | fetch | listOffsets | metadata | offsetCommit | offsetFetch | findCoordinator
  | joinGroup | heartbeat | leaveGroup | syncGroup | describeGroups | listGroups | saslHandshake
  | apiVersions | createTopics | deleteTopics | describeAcls | createAcls | deleteAcls
  | describeConfigs | alterConfigs | describeLogDirs | saslAuthenticate | createPartitions
  | deleteGroups | electLeaders | incrementalAlterConfigs | alterPartitionReassignments
  | listPartitionReassignments
deriving DecidableEq, Repr

/-- Numeric API key. -/
def Api.key : Api → Nat
  | .produce => 0 | .fetch => 1 | .listOffsets => 2 | .metadata => 3 | .offsetCommit => 8
  | .offsetFetch => 9 | .findCoordinator => 10 | .joinGroup => 11 | .heartbeat => 12
  | .leaveGroup => 13 | .syncGroup => 14 | .describeGroups => 15 | .listGroups => 16
  | .saslHandshake => 17 | .apiVersions => 18 | .createTopics => 19 | .deleteTopics => 20
  | .describeAcls => 29 | .createAcls => 30 | .deleteAcls => 31 | .describeConfigs => 32
  | .alterConfigs => 33 | .describeLogDirs => 35 | .saslAuthenticate => 36
  | .createPartitions => 37 | .deleteGroups => 42 | .electLeaders => 43
  | .incrementalAlterConfigs => 44 | .alterPartitionReassignments => 45
  | .listPartitionReassignments => 46

/-- First flexible version of each API (`none`: never flexible). -/
def Api.firstFlexible : Api → Option Nat
  | .produce => some 9 | .fetch => some 12 | .listOffsets => some 6 | .metadata => some 9
  | .offsetCommit => some 8 | .offsetFetch => some 6 | .findCoordinator => some 3
  | .joinGroup => some 6 | .heartbeat => some 4 | .leaveGroup => some 4 | .syncGroup => some 4
  | .describeGroups => some 5 | .listGroups => some 3 | .saslHandshake => none
  | .apiVersions => some 3 | .createTopics => some 5 | .deleteTopics => some 4
  | .describeAcls => some 2 | .createAcls => some 2 | .deleteAcls => some 2
  | .describeConfigs => some 4 | .alterConfigs => some 2 | .describeLogDirs => some 2
  | .saslAuthenticate => some 2 | .createPartitions => some 2 | .deleteGroups => some 2
  | .electLeaders => some 2 | .incrementalAlterConfigs => some 1
  | .alterPartitionReassignments => some 0 | .listPartitionReassignments => some 0

/-- Is this version of this API flexible? -/
def Api.flexible (a : Api) (version : Nat) : Bool :=
  match a.firstFlexible with
  | some f => decide (f ≤ version)
  | none => false

/-- Flexible requests use header version 2, others 1. -/
def Api.requestHeaderVersion (a : Api) (version : Nat) : Nat := if a.flexible version then 2 else 1

/-- Flexible responses use header version 1, others 0; ApiVersions responses always use 0 (KIP-511). -/
def Api.responseHeaderVersion (a : Api) (version : Nat) : Nat :=
  if a = .apiVersions then 0 else if a.flexible version then 1 else 0

/-- Request header of the given header version. -/
def requestHeader (headerVersion key version correlationId : Nat) (clientId : Option Wire)
    (tags : List (Nat × Wire)) : Wire :=
  int16 key ++ int16 version ++ int32 correlationId
    ++ (if 1 ≤ headerVersion then nullableString clientId else [])
    ++ (if 2 ≤ headerVersion then tagBuffer tags else [])

/-- Response header of the given header version. -/
def responseHeader (headerVersion correlationId : Nat) (tags : List (Nat × Wire)) : Wire :=
  int32 correlationId ++ (if 1 ≤ headerVersion then tagBuffer tags else [])

end Kafka
