/-!
# Names and codes as Kafka defines them

`CompressionType`, `ResourceType`, `PatternType`, `AclOperation`, `AclPermissionType` of the Kafka clients.
-/

namespace Kafka

/-- the codecs of record batches this client implements (4 is zstd) -/
def codecs : List (Int × String) := [(0, "none"), (1, "gzip"), (2, "snappy"), (3, "lz4")]

def resourceTypes : List (Int × String) :=
  [(0, "UNKNOWN"), (1, "ANY"), (2, "TOPIC"), (3, "GROUP"), (4, "CLUSTER"), (5, "TRANSACTIONAL_ID"), (6, "DELEGATION_TOKEN"), (7, "USER")]

def patternTypes : List (Int × String) := [(0, "UNKNOWN"), (1, "ANY"), (2, "MATCH"), (3, "LITERAL"), (4, "PREFIXED")]

def operations : List (Int × String) :=
  [(0, "UNKNOWN"), (1, "ANY"), (2, "ALL"), (3, "READ"), (4, "WRITE"), (5, "CREATE"), (6, "DELETE"), (7, "ALTER"), (8, "DESCRIBE"),
    (9, "CLUSTER_ACTION"), (10, "DESCRIBE_CONFIGS"), (11, "ALTER_CONFIGS"), (12, "IDEMPOTENT_WRITE"), (13, "CREATE_TOKENS"),
    (14, "DESCRIBE_TOKENS")]

def permissions : List (Int × String) := [(0, "UNKNOWN"), (1, "ANY"), (2, "DENY"), (3, "ALLOW")]

end Kafka
