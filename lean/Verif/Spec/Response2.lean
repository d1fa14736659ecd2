import Verif.Spec.Response

/-!
# Kafka responses (specification): metadata, versions, authentication, topic administration

Layouts from https://kafka.apache.org/protocol.
-/

namespace Kafka

/-! ## Metadata -/

structure Broker where
  node : Int
  host : Wire
  port : Int
  rack : Option Wire

structure MetaPartition where
  error : Int
  index : Int
  leader : Int
  /-- version 7 -/
  leaderEpoch : Int
  replicas : List Int
  isr : List Int
  /-- version 5 -/
  offline : List Int

structure MetaTopic where
  error : Int
  name : Wire
  internal : Bool
  partitions : List MetaPartition

/-- Versions 1 to 7: throttle time from version 3, cluster id from version 2. -/
def metadataResponse (version : Nat) (throttle : Int) (brokers : List Broker) (cluster : Option Wire)
    (controller : Int) (topics : List MetaTopic) : Wire :=
  (if 3 ≤ version then int32 throttle else []) ++
  array (fun b => int32 b.node ++ string b.host ++ int32 b.port ++ nullableString b.rack) brokers ++
  (if 2 ≤ version then nullableString cluster else []) ++ int32 controller ++
  array (fun t => int16 t.error ++ string t.name ++ boolean t.internal ++
    array (fun p => int16 p.error ++ int32 p.index ++ int32 p.leader ++
      (if 7 ≤ version then int32 p.leaderEpoch else []) ++ array int32 p.replicas ++ array int32 p.isr ++
      (if 5 ≤ version then array int32 p.offline else [])) t.partitions) topics

/-! ## Versions and authentication -/

/-- Version 0; `apis`: key, lowest version, highest version. -/
def apiVersionsResponse (error : Int) (apis : List (Int × Int × Int)) : Wire :=
  int16 error ++ array (fun a => int16 a.1 ++ int16 a.2.1 ++ int16 a.2.2) apis

/-- Versions 0 and 1. -/
def saslHandshakeResponse (error : Int) (mechanisms : List Wire) : Wire := int16 error ++ array string mechanisms

/-- Version 0. -/
def saslAuthenticateResponse (error : Int) (message : Option Wire) (auth : Wire) : Wire :=
  int16 error ++ nullableString message ++ bytes auth

/-! ## Topic administration -/

/-- Version 0; `topics`: name, error. -/
def createTopicsResponse (topics : List (Wire × Int)) : Wire := array (fun t => string t.1 ++ int16 t.2) topics

/-- Version 0. -/
def deleteTopicsResponse (topics : List (Wire × Int)) : Wire := array (fun t => string t.1 ++ int16 t.2) topics

structure CreatedPartitions where
  topic : Wire
  error : Int
  message : Option Wire

/-- Versions 0 to 2, without tagged fields (none are defined). -/
def createPartitionsResponse (version : Nat) (throttle : Int) (results : List CreatedPartitions) : Wire :=
  let f := Api.flexible .createPartitions version
  int32 throttle ++ flexArray f (fun r => flexString f r.topic ++ int16 r.error ++ flexNullable f r.message ++
    flexTags f []) results ++ flexTags f []

structure ConfigEntry where
  name : Wire
  value : Option Wire
  readOnly : Bool
  isDefault : Bool
  isSensitive : Bool

structure DescribedConfig where
  error : Int
  message : Option Wire
  type : UInt8
  name : Wire
  entries : List ConfigEntry

/-- Version 0. -/
def describeConfigsResponse (throttle : Int) (resources : List DescribedConfig) : Wire :=
  int32 throttle ++ array (fun r => int16 r.error ++ nullableString r.message ++ [r.type] ++ string r.name ++
    array (fun e => string e.name ++ nullableString e.value ++ boolean e.readOnly ++ boolean e.isDefault ++
      boolean e.isSensitive) r.entries) resources

structure LogDirPartition where
  index : Int
  size : Int
  lag : Int
  future : Bool

structure LogDir where
  error : Int
  dir : Wire
  topics : List (Wire × List LogDirPartition)

/-- Version 0. -/
def describeLogDirsResponse (throttle : Int) (results : List LogDir) : Wire :=
  int32 throttle ++ array (fun d => int16 d.error ++ string d.dir ++ array (fun t => string t.1 ++
    array (fun p => int32 p.index ++ int64 p.size ++ int64 p.lag ++ boolean p.future) t.2) d.topics) results

structure Election where
  partition : Int
  error : Int
  message : Option Wire

/-- Version 0. -/
def electLeadersResponse (throttle : Int) (results : List (Wire × List Election)) : Wire :=
  int32 throttle ++ array (fun r => string r.1 ++ array (fun p => int32 p.partition ++ int16 p.error ++
    nullableString p.message) r.2) results

structure AlteredConfig where
  error : Int
  message : Option Wire
  type : UInt8
  name : Wire

/-- Version 0 of AlterConfigs and of IncrementalAlterConfigs. -/
def alterConfigsResponse (throttle : Int) (resources : List AlteredConfig) : Wire :=
  int32 throttle ++ array (fun r => int16 r.error ++ nullableString r.message ++ [r.type] ++ string r.name) resources

end Kafka
