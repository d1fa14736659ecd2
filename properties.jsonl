{"id": "C01", "title": "Compact strings survive the wire", "statement": "Any byte string written with the compact (varint length) encoding is read back as exactly the same bytes, and the reader consumes exactly the bytes that were written, whatever bytes follow it in the packet.", "quantifier": "every byte string of every length and every trailing byte sequence", "why_tests_cant": "Varint length prefixes change width at 127, 16383, 2097151, ... bytes; tests sample a handful of lengths and rarely look at what follows.", "anchors": ["primitive_type_encode.go:encodeCompactString", "primitive_type_encode.go:writeCompactString", "primitive_types_decode.go:compactString"]}
{"id": "C02", "title": "Plain and nullable strings survive the wire", "statement": "A non-null string of at most 32767 bytes, an empty string and a null string written in the 2-byte-length format are each read back unchanged and told apart from each other, consuming exactly the written bytes.", "quantifier": "every string up to the protocol limit, null and non-null, in any position of a packet", "why_tests_cant": "The limit, null and empty cases interact with sign extension of a 16-bit length; the sign boundary is never sampled.", "anchors": ["primitive_type_encode.go:encodeString", "primitive_type_encode.go:encodeNullableString", "primitive_type_encode.go:writeNullableString", "primitive_types_decode.go:nonnullableString", "primitive_types_decode.go:nullableString"]}
{"id": "C03", "title": "Null, empty and non-empty byte arrays are told apart", "statement": "A null, an empty and a non-empty byte array written with the nullable byte-array encodings (plain and compact) are each read back as what was written.", "quantifier": "every byte array including null and empty", "why_tests_cant": "The three cases are usually tested with one sample each; a wrong prefix that happens to parse on the sample goes unnoticed.", "anchors": ["primitive_type_encode.go:encodeNullableBytes", "primitive_type_encode.go:encodeCompactNullableBytes", "primitive_types_decode.go:nullableBytes", "primitive_types_decode.go:compactNullableBytes", "primitive_types_decode.go:compactBytes"]}
{"id": "C04", "title": "Compact nullable strings survive the wire", "statement": "A null, empty or non-empty string written with the compact nullable encoding is read back as what was written and consumes exactly the written bytes.", "quantifier": "every nullable byte string", "why_tests_cant": "The encoder writes into a fixed-headroom buffer, so correctness depends on the length crossing a varint width that no test reaches.", "anchors": ["primitive_type_encode.go:encodeCompactNullableString", "primitive_type_encode.go:writeCompactNullableString", "primitive_types_decode.go:compactNullableString"]}
{"id": "C05", "title": "Compact array lengths survive the wire", "statement": "Every array length an encoder can write in compact form, including the null marker, is read back as the same number.", "quantifier": "every length from -1 up to the int32 maximum", "why_tests_cant": "A length prefix error only shows at varint width boundaries.", "anchors": ["primitive_type_encode.go:encodeCompactArrayLength", "primitive_types_decode.go:compactArrayLength"]}
{"id": "C06", "title": "Tagged-field sections survive the wire", "statement": "A section of tagged fields (any number of them, or none) written by the client is read back as the same list, consumes exactly the written bytes, and the space reserved for it is never too small.", "quantifier": "every list of tag/payload pairs with tags and payload sizes in the 32 bits the protocol gives them", "why_tests_cant": "Existing tests use one or two short fields; number and size of fields change the varint widths.", "anchors": ["tagged_fields.go:TaggedFields.Encode", "tagged_fields.go:TaggedFields.EncodeTo", "tagged_fields.go:TaggedFields.length", "tagged_fields.go:DecodeTaggedFields"]}
{"id": "C07", "title": "Request headers reach the broker intact", "statement": "For every API key and version, the header a request puts on the wire is the one Kafka prescribes for that header version, carries the API key, version, correlation id, client id (null or not) and tagged fields that were set, and reading it back gives the same header.", "quantifier": "every API key in the table, version, correlation id, client id up to 32767 bytes or null, tagged fields", "why_tests_cant": "The header layout depends on a table of API keys times versions that tests only touch at a few points.", "anchors": ["request.go:RequestHeader.EncodeTo", "request.go:RequestHeader.WriteTo", "request.go:RequestHeader.length", "request.go:RequestHeader.headerVersion", "request.go:DecodeRequestHeader"]}
{"id": "C08", "title": "Request and response header versions match Kafka's rule", "statement": "For every API key and version the client can send, the response is parsed with the header layout Kafka uses for that request: flexible requests get flexible response headers, except ApiVersions responses which never carry tagged fields.", "quantifier": "every API key in the tables and every version number", "why_tests_cant": "Two independent 50-row tables have to agree; tests check single rows.", "anchors": ["request.go:RequestHeader.headerVersion", "response.go:ResponseHeader.headerVersion", "response.go:DecodeResponseHeader"]}
{"id": "C09", "title": "A record survives encoding", "statement": "A record with any key, value, headers, timestamp delta and offset delta, encoded for the wire and decoded again, is the same record (with absent and empty payloads identified as Kafka clients observe them), and exactly the encoded bytes are consumed.", "quantifier": "every record", "why_tests_cant": "The record body is a nest of zig-zag varints; only a few widths are ever sampled, and a bug in one width corrupts everything after it.", "anchors": ["record.go:Record.Encode", "record.go:DecodeToRecord", "record.go:decodeHeader"]}
{"id": "C10", "title": "Record batches are framed as Kafka prescribes", "statement": "An encoded batch's length field counts exactly the bytes after it, its record count equals the number of records, its checksum field is the CRC-32C of exactly the bytes that follow the checksum field, and the fixed fields are the ones that were set.", "quantifier": "every batch: any header fields, any list of records, uncompressed", "why_tests_cant": "The length and checksum are patched in afterwards by deferred code; an off-by-four is invisible unless a broker checks it.", "anchors": ["record.go:RecordBatch.Encode"]}
{"id": "C11", "title": "A record batch survives encoding", "statement": "An uncompressed batch that is encoded and decoded again has the same header fields and the same records in the same order.", "quantifier": "every batch", "why_tests_cant": "Combines all record widths with all counts.", "anchors": ["record.go:RecordBatch.Encode", "record.go:DecodeToRecordBatch"]}
{"id": "C12", "title": "Messages in one produced batch occupy distinct consecutive offsets", "statement": "When the producer sends n messages in one batch, the batch places them at n consecutive offsets base, base+1, ..., base+n-1, so that a reader of that batch can tell their offsets apart.", "quantifier": "every list of messages flushed together", "why_tests_cant": "A one-message test batch cannot show it; needs all batch sizes.", "anchors": ["simple_producer.go:SimpleProducer.createRecordBatch", "simple_producer.go:SimpleProducer.AddMessage", "fetch_response.go:fetchResponseStreamDecoder.decodeRecordsMagic2"]}
{"id": "C13", "title": "Legacy message sets survive encoding", "statement": "An uncompressed legacy (magic 0 or 1) message set that is encoded and decoded again has the same messages, offsets, keys (null and empty told apart) and values.", "quantifier": "every list of legacy messages", "why_tests_cant": "Null/empty/size combinations explode.", "anchors": ["message.go:MessageSet.Encode", "message.go:MessageSet.Length", "message.go:DecodeToMessageSet"]}
{"id": "C14", "title": "Corrupted data is not delivered as good data", "statement": "If the bytes of a batch do not match the checksum it carries, the consumer does not deliver its messages as valid.", "quantifier": "every batch and every corruption of its body", "why_tests_cant": "Corruption positions and patterns cannot be enumerated.", "anchors": ["fetch_response.go:fetchResponseStreamDecoder.decodeRecordsMagic2", "fetch_response.go:fetchResponseStreamDecoder.decodeMessageSetMagic0or1", "message.go:DecodeToMessageSet"]}
{"id": "C15", "title": "A fetch delivers exactly the stored messages from the requested offset on", "statement": "When a fetch response holds complete batches (compressed or not, ordinary records with creation times), the consumer is handed exactly the records whose offset is at least the requested one, each once, in stored order, with the offset, timestamp, key and value stored for it.", "quantifier": "every sequence of batches and every requested offset", "why_tests_cant": "Requested offset inside a batch, many batches, empty batches and all record shapes combine.", "anchors": ["fetch_response.go:fetchResponseStreamDecoder.decodeMessageSet", "fetch_response.go:fetchResponseStreamDecoder.decodeRecordsMagic2", "fetch_response.go:fetchResponseStreamDecoder.filterAndPutMessage"]}
{"id": "C16", "title": "A truncated last batch never yields invented messages", "statement": "If the broker cuts the response in the middle of a batch because of the size limit, the consumer is handed a prefix of the messages it would have been handed from the full data, and no error if that prefix is non-empty.", "quantifier": "every sequence of batches and every cut point", "why_tests_cant": "Every byte position is a distinct cut point.", "anchors": ["fetch_response.go:fetchResponseStreamDecoder.decodeMessageSet", "fetch_response.go:fetchResponseStreamDecoder.decodeRecordsMagic2", "record.go:DecodeToRecord"]}
{"id": "C17", "title": "A fetch that yields nothing says so", "statement": "When a partition carries an error code, or non-empty record data out of which no message can be delivered, the consumer is told (the broker's error, maximum fetch size too small, or the decoding error) rather than left with silence; the size error is never added when messages were delivered; a partition without data is no error.", "quantifier": "every partition response", "why_tests_cant": "Needs all empty/truncated/filtered combinations.", "anchors": ["fetch_response.go:fetchResponseStreamDecoder.decodeMessageSet", "fetch_response.go:fetchResponseStreamDecoder.decodePartitionResponse", "fetch_response.go:fetchResponseStreamDecoder.streamDecode"]}
{"id": "C18", "title": "Fetch results do not depend on network chunking", "statement": "The messages delivered from a fetch response depend only on the bytes of the response, not on how the network splits them into reads.", "quantifier": "every response and every way of splitting it into reads", "why_tests_cant": "The split is chosen by the kernel; tests see one split.", "anchors": ["fetch_response.go:fetchResponseStreamDecoder.read", "fetch_response.go:fetchResponseStreamDecoder.Read", "fetch_response.go:fetchResponseStreamDecoder.decodePartitionResponse"]}
{"id": "C19", "title": "Errors inside a fetch response leave the connection usable", "statement": "Whatever is in a fetch response, after it has been processed the connection has been read exactly to the end of that response, so the next response on it starts at its own first byte.", "quantifier": "every response content and every point at which decoding fails", "why_tests_cant": "Each failure point leaves a different number of unread bytes.", "anchors": ["fetch_response.go:fetchResponseStreamDecoder.streamDecode", "fetch_response.go:fetchResponseStreamDecoder.readAll"]}
{"id": "C20", "title": "Range assignment gives every partition to exactly one consumer", "statement": "When the group leader assigns partitions, every partition of every subscribed topic is given to exactly one member.", "quantifier": "every set of members, subscriptions, topics and partition lists", "why_tests_cant": "Quantifies over all group sizes and partition counts; a boundary error drops or duplicates one partition only for some remainders.", "anchors": ["assign.go:RangeAssignmentStrategy.assignPartitions", "assign.go:RangeAssignmentStrategy.Assign"]}
{"id": "C21", "title": "Range assignment is balanced and contiguous", "statement": "For one topic, the numbers of partitions given to any two subscribers differ by at most one, earlier members (by id) never get fewer than later ones, and each member's partitions are a contiguous run of the sorted partition ids.", "quantifier": "every number of partitions and subscribers", "why_tests_cant": "All remainders of all divisions.", "anchors": ["assign.go:RangeAssignmentStrategy.assignPartitions"]}
{"id": "C22", "title": "Members get only what they subscribed to", "statement": "A member is only assigned partitions of topics in its own subscription, and each member appears exactly once in the leader's assignment.", "quantifier": "every set of members and subscriptions", "why_tests_cant": "All subscription overlaps.", "anchors": ["assign.go:RangeAssignmentStrategy.Assign"]}
{"id": "C23", "title": "Assignment does not depend on arrival order", "statement": "Reordering the member list or the partition list given to the leader does not change which partitions each member gets.", "quantifier": "every permutation of members and partitions", "why_tests_cant": "Factorially many orders.", "anchors": ["assign.go:RangeAssignmentStrategy.Assign"]}
{"id": "C24", "title": "An assignment reaches the member unchanged", "statement": "The assignment bytes the leader hands to the group for a member decode at that member to the same topics, partitions and user data.", "quantifier": "every assignment: topics, partition lists, user data", "why_tests_cant": "All shapes of nested lists.", "anchors": ["group.go:MemberAssignment.Encode", "group.go:MemberAssignment.Length", "group.go:NewMemberAssignment"]}
{"id": "C25", "title": "A subscription reaches the leader unchanged", "statement": "The subscription metadata a member sends when joining decodes at the leader to the same topics and user data.", "quantifier": "every subscription list and user data", "why_tests_cant": "All shapes.", "anchors": ["group.go:ProtocolMetadata.Encode", "group.go:ProtocolMetadata.Length", "group.go:NewProtocolMetadata"]}
{"id": "C26", "title": "Assigning never crashes the leader", "statement": "Computing the assignment never crashes, even when a topic has no subscriber or no partitions.", "quantifier": "every input", "why_tests_cant": "Crash needs a rare combination of subscriptions.", "anchors": ["assign.go:RangeAssignmentStrategy.Assign", "assign.go:RangeAssignmentStrategy.assignPartitions"]}
{"id": "C27", "title": "Version negotiation picks a version both sides support", "statement": "Whenever the client and the broker have a common version of an API, the version used is supported by both, and no higher version the client implements is in the broker's range.", "quantifier": "every broker version range and API key", "why_tests_cant": "All pairs of ranges.", "anchors": ["broker.go:Broker.getHighestAvailableAPIVersion", "request.go:availableVersions"]}
{"id": "C28", "title": "Response framing does not depend on network chunking", "statement": "However the network splits the byte stream, the response handed to the decoder is exactly the next length-prefixed frame, and reading stops exactly at its end.", "quantifier": "every byte stream and every splitting", "why_tests_cant": "Splitting is nondeterministic.", "anchors": ["response.go:defaultReadParser.Read"]}
{"id": "C29", "title": "Every request gets its own answer", "statement": "When a broker answers requests in order, the response a caller gets from a broker connection is the answer to the caller's own request, for any sequence of calls including failed ones.", "quantifier": "every sequence of requests, answers, timeouts and failures on one broker", "why_tests_cant": "A late answer only confuses a later request under specific timing.", "anchors": ["broker.go:Broker.RequestAndGet", "broker.go:Broker.Request", "response.go:defaultReadParser.Read"]}
{"id": "C30", "title": "Correlation ids do not repeat within a window", "statement": "Requests sent on one broker object carry consecutive correlation ids, so any 2^32-1 consecutive requests have distinct ids.", "quantifier": "every number of requests", "why_tests_cant": "2^32 requests cannot be sent.", "anchors": ["broker.go:Broker.Request", "broker.go:Broker.requestStreamingly"]}
{"id": "C31", "title": "A connection that failed authentication is never used", "statement": "If authentication of a new connection fails, no later request is sent on that connection.", "quantifier": "every sequence of connection attempts, failures and requests", "why_tests_cant": "Needs a failure at a precise point followed by another request.", "anchors": ["broker.go:Broker.createConnAndAuth", "broker.go:Broker.ensureOpen", "broker.go:Broker.RequestAndGet"]}
{"id": "C32", "title": "Reconnecting with authentication does not hang", "statement": "A request on a closed broker with authentication configured re-opens, authenticates and completes (or fails) without deadlocking on its own lock.", "quantifier": "every sequence of requests and disconnects", "why_tests_cant": "A deadlock shows as a hang only on the reconnect path.", "anchors": ["broker.go:Broker.RequestAndGet", "broker.go:Broker.ensureOpen", "broker.go:Broker.sendSaslAuthenticate"]}
{"id": "C33", "title": "One connection per broker node", "statement": "Repeated look-ups of a node return the same broker object as long as it is cached, and never more than one object per node id is kept.", "quantifier": "every sequence of look-ups", "why_tests_cant": "All sequences.", "anchors": ["brokers.go:Brokers.GetBroker"]}
{"id": "C34", "title": "Metadata requests fail over", "statement": "A metadata request fails for lack of brokers only if every known broker was tried and failed; it returns the first successful answer.", "quantifier": "every set of brokers and every pattern of failures", "why_tests_cant": "2^n failure patterns.", "anchors": ["brokers.go:Brokers.RequestMetaData"]}
{"id": "C35", "title": "Listing offsets asks every partition's leader exactly once", "statement": "Listing the offsets of a whole topic sends, for each leader, one request holding exactly the partitions it leads, so every partition is asked exactly once, at its leader.", "quantifier": "every topic metadata", "why_tests_cant": "All leader layouts.", "anchors": ["brokers.go:Brokers.RequestOffsets"]}
{"id": "C36", "title": "A request resent to another broker is encoded for that broker's version", "statement": "When the same request object is sent to several brokers that negotiated different versions, each transmission is laid out for the version negotiated with that broker.", "quantifier": "every sequence of versions", "why_tests_cant": "Needs a mixed-version cluster.", "anchors": ["request.go:RequestHeader.headerVersion", "request.go:RequestHeader.SetVersion", "brokers.go:Brokers.Request"]}
{"id": "C37", "title": "A consumer hands out each offset once, in order, without gaps", "statement": "Between offset resets, the offsets handed to the user by a partition consumer strictly increase, and each fetch starts right after the last message handed out.", "quantifier": "every history of fetches, errors, leader changes and stops", "why_tests_cant": "Histories are unbounded and include failures between any two steps.", "anchors": ["simple_consumer.go:SimpleConsumer.consumeLoop", "simple_consumer.go:SimpleConsumer.consumeMessages"]}
{"id": "C38", "title": "Committed offsets never run ahead of delivery", "statement": "At every moment, the offset committed for a partition is at most one past the last message handed to the user (or the starting offset), so a crash at any point never loses a message that was not handed out.", "quantifier": "every history and every crash point", "why_tests_cant": "Crash points cannot be enumerated.", "anchors": ["simple_consumer.go:SimpleConsumer.CommitOffset", "simple_consumer.go:SimpleConsumer.commitOffset", "simple_consumer.go:SimpleConsumer.consumeMessages"]}
{"id": "C39", "title": "Committed offsets do not move backwards", "statement": "Between offset resets, successive committed offsets never decrease.", "quantifier": "every history", "why_tests_cant": "Histories.", "anchors": ["simple_consumer.go:SimpleConsumer.CommitOffset"]}
{"id": "C40", "title": "Unchanged offsets are not committed again; failed commits are retried", "statement": "A commit request is sent only if the position changed since the last successful commit, and a failed commit leaves the position uncommitted so the next attempt sends it.", "quantifier": "every history of deliveries, commit attempts and failures", "why_tests_cant": "Histories.", "anchors": ["simple_consumer.go:SimpleConsumer.CommitOffset"]}
{"id": "C41", "title": "The fetch size grows but stays usable", "statement": "When messages do not fit, the fetch size is increased for the next fetch and always stays a positive number the broker can honour.", "quantifier": "every number of consecutive too-small answers", "why_tests_cant": "Needs tens of consecutive growth steps.", "anchors": ["simple_consumer.go:SimpleConsumer.consumeMessages"]}
{"id": "C42", "title": "An out-of-range position is replaced by a valid one", "statement": "After an offset-out-of-range answer, the next fetch uses a position obtained from the broker.", "quantifier": "every history of answers, including failures while looking up the new position", "why_tests_cant": "Requires a failure inside failure handling.", "anchors": ["simple_consumer.go:SimpleConsumer.consumeMessages", "simple_consumer.go:SimpleConsumer.getOffset"]}
{"id": "C43", "title": "Group members never commit without membership or a position", "statement": "A group consumer sends a commit only while it has a member id and a non-negative position, and the commit carries its current member id and generation.", "quantifier": "every history of joins, rebalances, deliveries and commits", "why_tests_cant": "Histories.", "anchors": ["group_consumer.go:GroupConsumer.CommitOffset", "group_consumer.go:GroupConsumer.commitOffset", "group_consumer.go:GroupConsumer.join"]}
{"id": "C44", "title": "Shutting a group consumer down never crashes", "statement": "Whatever the interleaving of shutdown with joining and synchronising, the consumer's completion counter never goes negative.", "quantifier": "every interleaving of the consuming goroutine with shutdown", "why_tests_cant": "Interleavings.", "anchors": ["group_consumer.go:GroupConsumer.consumeWithoutHeartBeat", "group_consumer.go:GroupConsumer.stop", "simple_consumer.go:SimpleConsumer.Stop"]}
{"id": "C45", "title": "Metadata changes trigger a rebalance exactly when partitions changed", "statement": "The group leader's periodic metadata check reports no change exactly when the two snapshots list the same topics with the same partition ids.", "quantifier": "every pair of metadata snapshots", "why_tests_cant": "All pairs.", "anchors": ["group_consumer.go:ifTopicMetadatasSame"]}
{"id": "C46", "title": "Accepted messages are sent once, in order", "statement": "As long as broker requests succeed, the concatenation of all batches sent by a partition producer is exactly the sequence of accepted messages in acceptance order once everything was flushed, with nothing duplicated or dropped.", "quantifier": "every sequence of adds, flushes, timer ticks and a final close", "why_tests_cant": "All interleavings of adds, ticks and flushes.", "anchors": ["simple_producer.go:SimpleProducer.AddMessage", "simple_producer.go:SimpleProducer.Flush", "simple_producer.go:SimpleProducer.flush"]}
{"id": "C47", "title": "Batches are non-empty and bounded", "statement": "Every batch sent holds at least one and at most the configured maximum number of messages, and fewer than the maximum are ever left waiting.", "quantifier": "every sequence of operations and every configured maximum of at least one", "why_tests_cant": "All sequences.", "anchors": ["simple_producer.go:SimpleProducer.AddMessage", "simple_producer.go:SimpleProducer.Flush"]}
{"id": "C48", "title": "A message whose sending failed is reported or retried", "statement": "If adding a message returned success, then the message was sent in a request the broker acknowledged, is still waiting to be sent, or some call returned an error for it.", "quantifier": "every sequence of operations and every pattern of broker failures", "why_tests_cant": "Failure patterns.", "anchors": ["simple_producer.go:SimpleProducer.AddMessage", "producer.go:Producer.AddMessage"]}
{"id": "C49", "title": "Close is final", "statement": "Closing a producer sends what is waiting; afterwards adding is refused and no later call sends anything, in particular nothing is sent twice.", "quantifier": "every sequence of operations after close", "why_tests_cant": "Sequences of calls after close.", "anchors": ["simple_producer.go:SimpleProducer.Close", "simple_producer.go:SimpleProducer.Flush"]}
{"id": "C50", "title": "Messages are isolated from the caller's buffers", "statement": "Changing the key or value buffer after a message was added does not change what is sent.", "quantifier": "every later modification of the caller's buffers", "why_tests_cant": "Requires reasoning about aliasing over all later writes.", "anchors": ["simple_producer.go:SimpleProducer.AddMessage"]}
{"id": "C51", "title": "Equal keys go to equal partitions", "statement": "While the number of partitions is unchanged, messages with the same key go to the same partition, that partition is one of the topic's, and messages whose hash collides modulo the partition count share it.", "quantifier": "every key and every number of partitions", "why_tests_cant": "All keys.", "anchors": ["producer.go:Producer.getSimpleProducer"]}
{"id": "C52", "title": "Keyed messages go to the leader of their partition", "statement": "The connection used for a keyed message when its partition producer is first created is the one to the leader listed for that partition in the producer's metadata.", "quantifier": "every metadata snapshot and key", "why_tests_cant": "All layouts.", "anchors": ["producer.go:Producer.getSimpleProducer", "producer.go:Producer.getLeaderID"]}
{"id": "C53", "title": "Accepted configurations satisfy the documented constraints", "statement": "A consumer or producer configuration that is accepted satisfies every documented constraint (required servers, group id, positive counts and intervals, known compression and acks, message format 2).", "quantifier": "every configuration value", "why_tests_cant": "All combinations of fields.", "anchors": ["config.go:ConsumerConfig.checkValid", "config.go:ProducerConfig.checkValid", "config.go:createProducerConfig", "config.go:createConsumerConfig"]}
{"id": "C54", "title": "Configurations do not influence each other", "statement": "Creating or adjusting one client's configuration never changes the configuration of another client.", "quantifier": "every sequence of configuration creations", "why_tests_cant": "Aliasing shows only through specific creation orders.", "anchors": ["config.go:DefaultConsumerConfig", "config.go:resetTimeoutMSForEachAPI", "config.go:DefaultBrokerConfig"]}
{"id": "C55", "title": "A non-zero Kafka error code is never reported as success", "statement": "Every response error code other than zero yields an error, zero yields none, and known codes keep their identity and retriability.", "quantifier": "all 16-bit codes", "why_tests_cant": "The table has over 100 rows.", "anchors": ["errorcode.go:getErrorFromErrorCode", "errorcode.go:KafkaError.Error", "errorcode.go:KafkaError.IsRetriable"]}
{"id": "C56", "title": "Compression names and codes correspond", "statement": "Parsing a compression name and printing the result gives the name back, each codec has its own code, and the code placed in produced batches is the one of the configured codec.", "quantifier": "every compression name", "why_tests_cant": "Finite but spread over three functions.", "anchors": ["compress_type.go", "compressor.go:NewCompressor", "simple_producer.go:NewSimpleProducer"]}
{"id": "C57", "title": "ACL names and codes correspond", "statement": "Writing an ACL resource type, pattern type, operation or permission type as text and reading the text back gives the same value.", "quantifier": "every defined value", "why_tests_cant": "Spread over four tables.", "anchors": ["acl_types.go"]}
{"id": "C58", "title": "Group-membership requests are well-formed", "statement": "Join, sync, heartbeat, leave, find-coordinator, describe-groups, list-groups and delete-groups requests are laid out exactly as the Kafka grammar for their version says, their length prefix counts exactly the bytes that follow, and encoding never crashes or truncates.", "quantifier": "every field value (strings up to 65535 bytes where the format allows)", "why_tests_cant": "Layout depends on all list lengths and string sizes.", "anchors": ["joingroup_request.go", "sync_group_request.go", "heartbeat_request.go", "leave_group_request.go", "findcoordinator_request.go", "describe_groups_request.go", "list_groups_request.go", "delete_groups_request.go"]}
{"id": "C59", "title": "Offset requests are well-formed", "statement": "Offset-commit, offset-fetch and list-offsets requests are laid out exactly as the Kafka grammar for their version says, with a correct length prefix, and encoding never crashes or truncates.", "quantifier": "every field value", "why_tests_cant": "Nested lists.", "anchors": ["offset_commit_request.go", "offset_fetch_request.go", "offset_request.go"]}
{"id": "C60", "title": "Metadata, version and authentication requests are well-formed", "statement": "Metadata (all topics, some topics), ApiVersions, SASL handshake and SASL authenticate requests are laid out exactly as the Kafka grammar says, with a correct length prefix.", "quantifier": "every field value and version the client uses", "why_tests_cant": "Versions and nil/empty cases.", "anchors": ["metadata_request.go", "apiversions_request.go", "sasl_handshake_request.go", "sasl_authenticate_request.go"]}
{"id": "C61", "title": "Topic administration requests are well-formed", "statement": "Create-topics, delete-topics, create-partitions, describe-configs, alter-configs, incremental-alter-configs, describe-log-dirs and elect-leaders requests are laid out exactly as the Kafka grammar for the version used says, with a correct length prefix, and encoding never crashes or truncates.", "quantifier": "every field value (for create-partitions: sizes far beyond what a broker accepts, names under 16 KiB and fewer than 2^21 elements per list)", "why_tests_cant": "Nested lists.", "anchors": ["create_topics_request.go", "delete_topics_request.go", "create_partitions_request.go", "describe_configs_request.go", "alter_config_request.go", "incremental_alter_config_request.go", "describe_logdirs_request.go", "elect_leaders_request.go"]}
{"id": "C62", "title": "Partition reassignment requests are well-formed", "statement": "Alter- and list-partition-reassignments requests are laid out exactly as the Kafka grammar says, with a correct length prefix, and encoding never crashes or truncates.", "quantifier": "every field value (listing: topic names under 16 KiB, Kafka allows 249 bytes, and fewer than 2^28 elements per list; altering: fewer than 2^48)", "why_tests_cant": "Compact encodings and nested lists.", "anchors": ["alter_partition_reassignments_request.go", "list_partition_reassignments_request.go"]}
{"id": "C63", "title": "Fetch requests are well-formed", "statement": "A fetch request for any set of topics and partitions is encoded without crashing, laid out as the Kafka grammar says for each version the client may negotiate, with a correct length prefix.", "quantifier": "every set of topics and partitions and each version", "why_tests_cant": "The buffer estimate is only wrong for many partitions in a topic.", "anchors": ["fetch_request.go"]}
{"id": "C64", "title": "Produce requests are well-formed", "statement": "A produce request is laid out as the Kafka grammar says for each version the client may negotiate, with correct length prefixes.", "quantifier": "every field value and each version", "why_tests_cant": "Versions and sizes.", "anchors": ["produce_request.go"]}
{"id": "C65", "title": "ACL requests are well-formed", "statement": "Describe-, create- and delete-ACL requests are laid out as the Kafka grammar says for each version the client may negotiate.", "quantifier": "every field value (strings under 2 MiB) and each version", "why_tests_cant": "Tagged fields exist only in some versions.", "anchors": ["describe_acls_request.go", "create_acls_request.go", "delete_acls_request.go"]}
{"id": "C66", "title": "Group-membership responses are understood", "statement": "Whatever values a broker puts in join, sync, heartbeat, leave, find-coordinator, list-groups, delete-groups and describe-groups responses of the versions the client requests, the client reads exactly those values, and a non-zero error code is reported.", "quantifier": "every response value", "why_tests_cant": "All nested list shapes.", "anchors": ["joingroup_response.go", "sync_group_response.go", "heartbeat_response.go", "leave_group_response.go", "findcoordinator_response.go", "list_groups_response.go", "delete_groups_response.go", "describe_groups_response.go"]}
{"id": "C67", "title": "Offset responses are understood", "statement": "Whatever values a broker puts in offset-commit, offset-fetch and list-offsets responses, the client reads exactly those values.", "quantifier": "every response value", "why_tests_cant": "All nested list shapes.", "anchors": ["offset_commit_response.go", "offset_fetch_response.go", "offset_response.go"]}
{"id": "C68", "title": "Metadata responses are understood", "statement": "Whatever brokers, cluster id, controller, topics and partitions a broker reports, the client reads exactly those values, sorted by topic name and partition id.", "quantifier": "every metadata response of each version", "why_tests_cant": "All nested list shapes.", "anchors": ["metadata_response.go"]}
{"id": "C69", "title": "Version and authentication responses are understood", "statement": "Whatever version table, handshake result or authentication result a broker reports, the client reads exactly those values; in particular a rejected handshake is reported as an error.", "quantifier": "every response value", "why_tests_cant": "Error answers are rarely tested.", "anchors": ["apiversions_response.go", "sasl_handshake_response.go", "sasl_authenticate_response.go"]}
{"id": "C70", "title": "Topic administration responses are understood", "statement": "Whatever per-topic results a broker reports to create-topics, delete-topics, create-partitions, describe-configs, describe-log-dirs and elect-leaders, the client reads exactly those values and reports an error if any result is an error.", "quantifier": "every response value", "why_tests_cant": "All nested list shapes.", "anchors": ["create_topics_response.go", "delete_topics_response.go", "create_partitions_response.go", "describe_configs_response.go", "describe_logdirs_response.go", "elect_leaders_response.go"]}
{"id": "C71", "title": "Every altered resource's result is reported", "statement": "For alter-configs and incremental-alter-configs on several resources, the client reads each resource's own result, and an error on any of them is reported.", "quantifier": "every list of results", "why_tests_cant": "Tests use one resource.", "anchors": ["alter_config_response.go", "incremental_alter_config_response.go"]}
{"id": "C72", "title": "Partition reassignment responses are understood", "statement": "Whatever a broker reports for alter- or list-partition-reassignments, the client reads exactly those values, and a non-zero error code is reported.", "quantifier": "every response value", "why_tests_cant": "Error answers are rarely tested.", "anchors": ["alter_partition_reassignments_response.go", "list_partition_reassignments_response.go"]}
{"id": "C73", "title": "Produce responses are understood", "statement": "Whatever per-partition results a broker reports for a produce request in each version the client may negotiate, the client reads each partition's own result, and an error on any partition is reported.", "quantifier": "every response value and version", "why_tests_cant": "Tests use one partition.", "anchors": ["produce_response.go"]}
{"id": "C74", "title": "ACL responses are understood", "statement": "Whatever results a broker reports for ACL requests in each version the client may negotiate, the client reads exactly those values.", "quantifier": "every response value and version", "why_tests_cant": "Versions times shapes.", "anchors": ["desscribe_acls_response.go", "create_acls_response.go", "delete_acls_response.go"]}
{"id": "C75", "title": "Request builders keep one entry per partition", "statement": "Adding partitions to an offset-commit, offset-fetch, fetch, list-reassignments or log-dirs request keeps one entry per topic and partition; for commits the last position added wins.", "quantifier": "every sequence of additions", "why_tests_cant": "All sequences.", "anchors": ["offset_commit_request.go:OffsetCommitRequest.AddPartiton", "offset_fetch_request.go:OffsetFetchRequest.AddPartiton", "fetch_request.go:FetchRequest.addPartition", "list_partition_reassignments_request.go:ListPartitionReassignmentsRequest.AddTP", "describe_logdirs_request.go:DescribeLogDirsRequest.AddTopicPartition"]}
{"id": "C76", "title": "Config builders refuse contradictions", "statement": "Adding the same setting twice with different values to an (incremental) alter-configs request is refused, and every accepted setting appears exactly once for its resource.", "quantifier": "every sequence of additions", "why_tests_cant": "All sequences.", "anchors": ["alter_config_request.go:AlterConfigsRequest.AddConfig", "incremental_alter_config_request.go:IncrementalAlterConfigsRequest.AddConfig"]}
{"id": "C77", "title": "Replica assignments can be replaced", "statement": "Adding a replica assignment for a partition that already has one in a create-topics request replaces it, as documented; adding for an unknown topic is refused.", "quantifier": "every sequence of additions", "why_tests_cant": "All sequences.", "anchors": ["create_topics_request.go:CreateTopicsRequest.AddReplicaAssignment", "create_topics_request.go:CreateTopicsRequest.AddTopic"]}
{"id": "C78", "title": "SASL PLAIN tokens carry the credentials", "statement": "The authentication token sent is NUL user NUL password, and two different user/password pairs whose user has no NUL byte give different tokens.", "quantifier": "every user and password", "why_tests_cant": "All strings.", "anchors": ["sasl_plain.go:PlainSasl.Encode"]}
{"id": "C79", "title": "Deleting groups reports every group", "statement": "Deleting a list of groups asks each group's coordinator and returns one result per requested group.", "quantifier": "every list of groups", "why_tests_cant": "All lists.", "anchors": ["client.go:Client.DeleteGroups"]}
{"id": "C80", "title": "Log-dir listings honour the requested topics", "statement": "Describing log dirs for a set of topics returns only entries of those topics.", "quantifier": "every request and every response", "why_tests_cant": "All shapes.", "anchors": ["client.go:Client.DescribeLogDirs"]}
{"id": "C81", "title": "Malformed responses fail cleanly", "statement": "A response whose length prefix does not match its size is rejected with an error, never parsed.", "quantifier": "every byte sequence", "why_tests_cant": "All byte sequences.", "anchors": ["heartbeat_response.go", "joingroup_response.go", "metadata_response.go", "offset_commit_response.go"]}
{"id": "C82", "title": "Compressed legacy messages are delivered uncompressed", "statement": "When a legacy (magic 0 or 1) message is a wrapper around a compressed message set, the consumer is handed the messages inside.", "quantifier": "every lossless codec and every inner message set", "why_tests_cant": "All codecs and contents.", "anchors": ["message.go:Message.decompress", "message.go:DecodeToMessageSet"]}
{"id": "C83", "title": "A nil value is stored as a tombstone", "statement": "A message produced without a value is stored with Kafka's null value (which deletes the key in compacted topics), not with an empty one.", "quantifier": "every record without value", "why_tests_cant": "All keys, headers and positions.", "anchors": ["record.go:Record.Encode"]}
{"id": "C84", "title": "Transaction markers are not delivered as messages", "statement": "Control batches (the commit and abort markers of transactions, attribute bit 5) are never handed to the user as messages.", "quantifier": "every fetch response holding control batches", "why_tests_cant": "Needs a log written by a transactional producer; existing tests use plain logs.", "anchors": ["fetch_response.go:fetchResponseStreamDecoder.decodeRecordsMagic2", "fetch_response.go:fetchResponseStreamDecoder.filterMessage"]}
{"id": "C85", "title": "Messages of log-append-time topics carry the append time", "statement": "For a batch whose attributes say that timestamps are log append times (bit 3), every delivered message carries the batch's maximum timestamp.", "quantifier": "every batch with that attribute", "why_tests_cant": "Depends on a broker-side topic setting that tests do not vary.", "anchors": ["fetch_response.go:fetchResponseStreamDecoder.decodeRecordsMagic2"]}
{"id": "C86", "title": "An error for the whole fetch reaches the consumer", "statement": "If the broker answers a fetch with an error code for the whole response (versions 7 and 10), the consumer is told that error.", "quantifier": "every error code and every response of version 7 or 10", "why_tests_cant": "Such answers occur only for fetch sessions and authorization problems.", "anchors": ["fetch_response.go:fetchResponseStreamDecoder.decodeHeader", "fetch_response.go:fetchResponseStreamDecoder.streamDecode"]}
{"id": "C87", "title": "Batches with an unsupported codec are rejected", "statement": "A batch compressed with a codec the client does not implement (zstd, codec 4) is reported as an error and never decoded as if it were uncompressed.", "quantifier": "every batch with an unsupported codec", "why_tests_cant": "Tests only use the supported codecs.", "anchors": ["fetch_response.go:fetchResponseStreamDecoder.decodeRecordsMagic2", "fetch_response.go:uncompress"]}
{"id": "C88", "title": "A reassignment can be cancelled", "statement": "A caller can ask for the cancellation of a running partition reassignment: adding an assignment with nil replicas produces the request bytes Kafka defines for a cancellation (a null replica list).", "quantifier": "every topic, partition, timeout and client id", "why_tests_cant": "The difference is one byte in the encoding, which only a broker interprets.", "anchors": ["alter_partition_reassignments_request.go:AddAssignment", "alter_partition_reassignments_request.go:AlterPartitionReassignmentsRequest.Encode"]}
{"id": "C89", "title": "A malformed answer is an error, not a crash", "statement": "A correctly framed response whose content is cut short or announces more than it holds is reported as an error; it never crashes the client.", "quantifier": "every API, version and content", "why_tests_cant": "Tests decode well-formed answers only.", "anchors": ["response.go:defaultReadParser.Parse", "heartbeat_response.go:NewHeartbeatResponse", "sync_group_response.go:NewSyncGroupResponse"]}
{"id": "C90", "title": "A failed NewBroker leaves no connection behind", "statement": "When NewBroker returns an error, every connection it opened has been closed.", "quantifier": "every behaviour of the network and of the peer", "why_tests_cant": "A leaked socket does not show in the result.", "anchors": ["broker.go:NewBroker", "broker.go:Broker.createConnAndAuth"]}
{"id": "C91", "title": "An unsupported SASL mechanism is rejected with an error", "statement": "Opening a broker with a configured mechanism other than PLAIN ends with an error, whatever the broker answers.", "quantifier": "every mechanism name and every answer of the broker", "why_tests_cant": "All strings and all answers.", "anchors": ["sasl_authenticate_request.go:NewSaslAuthenticateRequest", "broker.go:Broker.sendSaslAuthenticate"]}
{"id": "C92", "title": "A moved broker is contacted at its current address", "statement": "After a metadata refresh has shown a new address for a node, getting the broker of that node gives a connection to the new address.", "quantifier": "every sequence of refreshes and look-ups", "why_tests_cant": "A test cluster keeps its addresses; a moved node appears only in operation.", "anchors": ["/repo/brokers.go:195-221", "/repo/brokers.go:113-171"]}
{"id": "C93", "title": "Looking up leaders and offsets never crashes", "statement": "Whatever metadata the cluster answers, asking for a partition's leader or for offsets returns a result or an error; it does not crash.", "quantifier": "every metadata answer", "why_tests_cant": "Needs a metadata answer without topics, which a healthy test broker does not send.", "anchors": ["/repo/brokers.go:248-311"]}
{"id": "C94", "title": "Groups are listed under the node that coordinates them", "statement": "Every entry of the result of ListGroups is stored under the id of the node whose broker listed these groups.", "quantifier": "every cluster and every bootstrap address", "why_tests_cant": "Depends on whether a bootstrap address equals the advertised address of a node; tests run with one of the two.", "anchors": ["/repo/client.go:44-63", "/repo/brokers.go:69-102"]}
{"id": "C95", "title": "Refreshing metadata leaves no connections behind", "statement": "Every connection opened only to refresh the metadata is closed when the refresh is over.", "quantifier": "every refresh", "why_tests_cant": "A leaked connection changes no result a test looks at.", "anchors": ["/repo/brokers.go:113-171"]}
{"id": "C96", "title": "An out-of-range position is reset to the configured side", "statement": "A consumer configured to start from the beginning goes back to the beginning, and one configured to start at the end goes to the end, whenever its position turns out to be out of range.", "quantifier": "every start (with or without a committed position) and every history", "why_tests_cant": "Needs a committed position that the broker has dropped since.", "anchors": ["/repo/simple_consumer.go:181-204", "/repo/simple_consumer.go:342-372", "/repo/simple_consumer.go:476-480"]}
{"id": "C97", "title": "Negative positions are never committed", "statement": "No commit request carries a negative offset.", "quantifier": "every history of fetches, failures and commits", "why_tests_cant": "Needs a failing look-up followed by a commit.", "anchors": ["/repo/simple_consumer.go:298-338", "/repo/group_consumer.go:327-335"]}
{"id": "C98", "title": "A response is read to its end before the connection is used again", "statement": "When the consumer reacts to an error found in a fetch response by sending a request on the same connection, the response has been read completely.", "quantifier": "every response with an error and every consumer reaction", "why_tests_cant": "Depends on goroutine scheduling.", "anchors": ["/repo/fetch_response.go:509-551", "/repo/simple_consumer.go:456-505"]}
{"id": "C99", "title": "An unreachable leader does not crash the consumer", "statement": "Looking for the broker leading a partition ends with a broker or an error, whichever brokers can be reached.", "quantifier": "every cluster state and every pattern of failing connections", "why_tests_cant": "Needs a cluster with an unreachable leader that was never connected to.", "anchors": ["/repo/simple_consumer.go:147-178"]}
{"id": "C100", "title": "Closing a group consumer stops its partition consumers", "statement": "When Close has returned, every partition consumer the group consumer ever started has been stopped.", "quantifier": "every interleaving of joining, rebalancing and closing", "why_tests_cant": "Depends on goroutine scheduling.", "anchors": ["/repo/group_consumer.go:360-386", "/repo/group_consumer.go:404-409", "/repo/group_consumer.go:466-540"]}
{"id": "C101", "title": "Closing a group consumer leaves the group", "statement": "When Close has returned and its leave request, if any, was answered, the coordinator does not regard the consumer as a member.", "quantifier": "every interleaving of joining, rebalancing and closing", "why_tests_cant": "Depends on when Close is called relative to the join.", "anchors": ["/repo/group_consumer.go:372-409"]}
{"id": "C102", "title": "Close of a group consumer returns", "statement": "Every call of Close comes to its end.", "quantifier": "every state in which Close can be called, including after an earlier Close", "why_tests_cant": "A call that blocks for ever shows only in tests that close twice.", "anchors": ["/repo/group_consumer.go:404-409", "/repo/group_consumer.go:372-401"]}
{"id": "C103", "title": "The leader asks for the topics the members subscribe to", "statement": "The leader of a group asks for the metadata of each topic some member subscribes to, once, and of no other topic.", "quantifier": "every list of members and subscriptions", "why_tests_cant": "All lists of members.", "anchors": ["/repo/group_consumer.go:97-128"]}
{"id": "C104", "title": "A clean shutdown commits the last position", "statement": "With auto commit, when Close has returned the positions after all messages delivered have been committed, so the next owner of a partition does not deliver them again.", "quantifier": "every interleaving of the auto-commit goroutine with Close", "why_tests_cant": "Depends on which of two goroutines is faster.", "anchors": ["/repo/simple_consumer.go:276-296", "/repo/simple_consumer.go:377-392", "/repo/group_consumer.go:327-401"]}
{"id": "C105", "title": "Commits belong to the generation that assigned the partition", "statement": "A commit for a partition carries the generation in which the partition was assigned to the consumer, so a member that lost the partition cannot overwrite the position of the new owner.", "quantifier": "every interleaving of commits with rebalances", "why_tests_cant": "Needs a rebalance between reading and sending a position.", "anchors": ["/repo/group_consumer.go:327-370", "/repo/simple_consumer.go:321-338"]}
{"id": "C106", "title": "Keyed messages follow the leader", "statement": "After a metadata refresh has shown a new leader for a partition, keyed messages for that partition are sent to the new leader.", "quantifier": "every sequence of refreshes and messages", "why_tests_cant": "Needs a change of leader during the life of a producer.", "anchors": ["/repo/producer.go:133-166"]}
{"id": "C107", "title": "A partition producer has a broker to send to", "statement": "When NewSimpleProducer returns no error, the producer has a connected leader, so that flushing never crashes.", "quantifier": "every answer of the cluster to the search for the leader", "why_tests_cant": "Needs a producer created during a leader election.", "anchors": ["/repo/simple_producer.go:37-64", "/repo/simple_producer.go:69-129", "/repo/brokers.go:297-311"]}
{"id": "C108", "title": "A partition without leader does not disable the producer", "statement": "While some partition of the topic has a leader, a producer for the topic can be created and refreshed.", "quantifier": "every metadata answer", "why_tests_cant": "Needs a topic with a leaderless partition.", "anchors": ["/repo/producer.go:82-117", "/repo/metadata_response.go:30-44"]}
{"id": "C109", "title": "ACL names are those of Kafka", "statement": "Resource types, pattern types, operations and permissions of ACLs are written and read with the names Kafka uses for them.", "quantifier": "every value Kafka defines", "why_tests_cant": "A table of names is right only if every entry is; tests look at a few.", "anchors": ["/repo/acl_types.go", "/repo/create_acls_request.go"]}
{"id": "C110", "title": "Read timeouts cover the time a broker may take", "statement": "Right after a consumer was made, it waits for the answer to a join request longer than the session timeout, for the answer to a fetch at least as long as the broker was told it may take, for the answer to an offset commit half the session timeout, and for all others the configured timeout.", "quantifier": "every accepted configuration whose session timeout is not negative", "why_tests_cant": "All combinations of timeouts.", "anchors": ["/repo/config.go"]}
{"id": "C111", "title": "Timeouts given by the user are used", "statement": "Timeouts for single APIs given in a consumer's configuration are the ones used, and a configuration never makes the constructor crash.", "quantifier": "every configuration", "why_tests_cant": "All lists of timeouts.", "anchors": ["/repo/config.go"]}
{"id": "C112", "title": "Builders keep one target per partition", "statement": "A reassignment, leader-election or create-partitions request built by adding entries asks for each partition (or topic) once.", "quantifier": "every sequence of additions", "why_tests_cant": "All sequences of additions.", "anchors": ["/repo/alter_partition_reassignments_request.go", "/repo/elect_leaders_request.go", "/repo/create_partitions_request.go"]}
{"id": "C113", "title": "Admin requests go to the current controller", "statement": "Requests only the controller can serve are sent to the node that the latest metadata names as the controller.", "quantifier": "every history of refreshes and requests", "why_tests_cant": "Needs a change of controller during the life of a client.", "anchors": ["/repo/brokers.go:69-102", "/repo/brokers.go:113-171", "/repo/client.go:149-249"]}
{"id": "C114", "title": "Admin calls fail with an error, not a crash", "statement": "When the controller cannot be reached, the connection fails or the response has an error, an admin call returns an error.", "quantifier": "every behaviour of the network", "why_tests_cant": "Needs a connection failing at the right moment.", "anchors": ["/repo/client.go:149-161", "/repo/broker.go:239-263"]}
{"id": "C115", "title": "Describing log dirs reports every broker or fails", "statement": "When DescribeLogDirs succeeds, it reports every broker which has a replica of a requested topic.", "quantifier": "every cluster and every pattern of failing brokers", "why_tests_cant": "Needs a broker with a broken log dir or a failing connection.", "anchors": ["/repo/client.go:80-147"]}
{"id": "C116", "title": "Brokers are asked for the partitions they have", "statement": "DescribeLogDirs asks every node which has a replica, once, for exactly the partitions of which it has one, and stores its answer under that node.", "quantifier": "every metadata answer", "why_tests_cant": "All assignments of replicas to nodes.", "anchors": ["/repo/client.go:80-147", "/repo/describe_logdirs_request.go"]}
{"id": "C117", "title": "A connection given up by the broker is not used again", "statement": "When a request fails because its connection has failed, the connection is closed and nothing more is sent on it; the next request opens a new one.", "quantifier": "every kind of failure, every later history of calls", "why_tests_cant": "Needs connections failing at chosen moments.", "anchors": ["/repo/broker.go:RequestAndGet", "/repo/broker.go:requestStreamingly", "/repo/broker.go:Close"]}
{"id": "C118", "title": "A request is laid out for the version negotiated on its own connection", "statement": "Whatever connections were opened and lost before, a request is laid out, and its answer decoded, in the highest version supported by the client and by the broker at the other end of the connection the request is sent on.", "quantifier": "every history of calls, connection losses and broker upgrades or downgrades", "why_tests_cant": "Needs a broker that changes its versions between connections.", "anchors": ["/repo/broker.go:createConnAndAuth", "/repo/broker.go:requestAPIVersions", "/repo/broker.go:getHighestAvailableAPIVersion"]}
{"id": "C119", "title": "Answers are decoded by the decoder of their API at the version of their request", "statement": "The answer to each kind of request, laid out in the version of the request, is decoded to the values it carries, in whatever pieces it arrives and whatever follows it.", "quantifier": "every API, version, answer and splitting of the stream", "why_tests_cant": "Many APIs and versions, and unboundedly many splittings.", "anchors": ["/repo/response.go:89-151", "/repo/response.go:31-42"]}
{"id": "C120", "title": "Stopping a partition consumer ends", "statement": "When a partition consumer is told to stop, its loop makes only a bounded number of further steps, and none of these waits for the user to take messages.", "quantifier": "every state of the consumer, full or empty channel", "why_tests_cant": "Depends on goroutine scheduling.", "anchors": ["/repo/simple_consumer.go:276-295", "/repo/simple_consumer.go:400-505"]}
{"id": "C121", "title": "A stopped consumer is silent", "statement": "When Stop has returned, the consumer sends no fetch, hands over no message and asks for no position; from the moment the stop flag is set it sends no fetch.", "quantifier": "every later history", "why_tests_cant": "Absence of an effect in every schedule.", "anchors": ["/repo/simple_consumer.go:276-295", "/repo/simple_consumer.go:400-505"]}
{"id": "C122", "title": "A partition consumer starts where it is told", "statement": "The first fetch is at the offset given; if this stands for the beginning or the end, at the group's committed position for the topic and partition if there is one, and otherwise at the position the leader gives for the beginning or the end of that partition.", "quantifier": "every start offset, commit state, answer and pattern of failing look-ups", "why_tests_cant": "Needs a coordinator and a leader with chosen answers and failures.", "anchors": ["/repo/simple_consumer.go:181-204", "/repo/simple_consumer.go:206-274", "/repo/simple_consumer.go:342-398"]}
{"id": "C123", "title": "Rebalancing never runs two assignments at once", "statement": "A group consumer asks to join the group, or for its partitions, only when every partition consumer it started before has been stopped, and starts no partition consumer twice.", "quantifier": "every sequence of joins, failures, rebalances and closes", "why_tests_cant": "Depends on goroutine scheduling and on the number of rebalances.", "anchors": ["/repo/group_consumer.go:360-386", "/repo/group_consumer.go:466-540"]}
{"id": "C124", "title": "A consumer consumes the partitions asked for", "statement": "Consume of a consumer without group starts one partition consumer for each partition assigned (or each partition of each topic subscribed to), and no others.", "quantifier": "every assignment and every metadata answer", "why_tests_cant": "All assignments and answers; the loss shows only for particular lists.", "anchors": ["/repo/consumer.go:34-60", "/repo/consumer.go:63-137"]}
{"id": "C125", "title": "Closing a consumer without group never crashes", "statement": "Whatever the interleaving of Consume and AwaitClose, and however often they are called, the completion counter never goes negative.", "quantifier": "every interleaving of Consume with AwaitClose", "why_tests_cant": "Interleavings.", "anchors": ["/repo/consumer.go:79-172", "/repo/simple_consumer.go:277-295"]}
{"id": "C126", "title": "A closed consumer without group is stopped", "statement": "When AwaitClose has returned, every partition consumer the consumer ever started has been stopped, and none is started afterwards.", "quantifier": "every interleaving of Consume with AwaitClose", "why_tests_cant": "Interleavings.", "anchors": ["/repo/consumer.go:79-172"]}
{"id": "C127", "title": "get-pending prints the true lag", "statement": "get-pending fails or prints one line per partition of the topic, ascending, with the end offset its leader gave, the position the group committed and the number of messages between them, and a last line with the sums.", "quantifier": "every topic, every set of offsets and positions, every distribution of leaders, every pattern of failing requests", "why_tests_cant": "Sums and differences over all offsets; needs clusters with many partitions, groups without commits and failing brokers.", "anchors": ["/repo/command/healer/cmd/get-pending.go:28-99", "/repo/command/healer/cmd/get-pending.go:181-229"]}
{"id": "C128", "title": "reset-offset commits what was asked", "statement": "reset-offset fails, or has committed once, at the group's coordinator and in the storage asked for, exactly the partitions chosen (all if none is), each at the offset its leader gives for the timestamp, which is a position in the log.", "quantifier": "every topic, choice of partitions and answers of the leaders", "why_tests_cant": "All choices and answers; the timestamp lying after the last message is a corner case.", "anchors": ["/repo/command/healer/cmd/reset-offset.go:15-102"]}
{"id": "C129", "title": "Replica assignments given on the command line are the ones requested", "statement": "create-topic and create-partitions send the replica assignment written on the command line: partition by partition, node by node; or fail.", "quantifier": "every assignment and every order in which the runtime visits a map", "why_tests_cant": "The order in which a map is visited is random; all strings.", "anchors": ["/repo/command/healer/cmd/create-topic.go", "/repo/command/healer/cmd/create-partitions.go", "/repo/create_topics_request.go:AddReplicaAssignment"]}
{"id": "C130", "title": "Lines piped into simple-producer arrive", "statement": "When simple-producer reports success, the broker accepted every line read, once, in order and unchanged.", "quantifier": "every input, every batching, every firing of the flush timer, every answer of the broker", "why_tests_cant": "The scanner reuses its buffer while messages wait; timers fire at any time.", "anchors": ["/repo/command/healer/cmd/simple-producer.go:54-66", "/repo/simple_producer.go:132-248"]}
{"id": "C131", "title": "simple-consumer prints the stretch asked for", "statement": "simple-consumer prints the messages from the start offset on, before --stopoffset, at most --max-messages, in order, and ends when it has.", "quantifier": "every log, offsets and pattern of fetches and failures", "why_tests_cant": "All logs, with gaps, and all patterns of failures.", "anchors": ["/repo/command/healer/cmd/simple-consumer.go:80-106"]}
{"id": "C132", "title": "The HTTP answer for the lag is true", "statement": "An answer with status 200 to the question for the lag of a group lists each partition once with its end offset, committed position and lag.", "quantifier": "every topic, offsets, positions and pattern of failing requests", "why_tests_cant": "Needs a leader failing at the right moment.", "anchors": ["/repo/command/healer/cmd/apicontrollers/group.go:158-204"]}
{"id": "C133", "title": "Requests can be read back", "statement": "Each request the library can decode (metadata, list groups, create, delete and describe ACLs, incremental config changes, reassignments, produce), decoded from the bytes it encodes to, says what the original said: the same API, version, correlation id and client id and every field that the version carries.", "quantifier": "every request content the encoder accepts, every version the client speaks", "why_tests_cant": "Tests encode a handful of values; whether every content survives, in every version, including nil lists and several elements, is a statement about all of them.", "anchors": ["/repo/metadata_request.go:75", "/repo/list_groups_request.go:132", "/repo/create_acls_request.go:112", "/repo/delete_acls_request.go:135", "/repo/describe_acls_request.go:67", "/repo/incremental_alter_config_request.go:164", "/repo/alter_partition_reassignments_request.go:149", "/repo/produce_request.go:154-262"]}
{"id": "C134", "title": "Closing a client is safe", "statement": "Close of a client closes every connection the client opened; it may be called at any time, also while a request is under way, and more than once, without crashing; afterwards no connection is opened.", "quantifier": "every list of operations before Close, every network, every point of a request at which Close arrives", "why_tests_cant": "Tests close an idle client once, if at all; Close in the middle of a request, twice, or after a connection was replaced depends on the interleaving.", "anchors": ["/repo/client.go:36-38", "/repo/brokers.go:26-32", "/repo/broker.go:197-207", "/repo/broker.go:238-281", "/repo/response.go:45-86"]}
{"id": "C135", "title": "Messages added by several goroutines are sent when the producer is closed", "statement": "When any number of goroutines add keyed messages to one producer and then the producer is closed, every message for which AddMessage returned nil has been sent to its partition exactly once, in the order in which the calls returned.", "quantifier": "every interleaving of any number of AddMessage calls and flush timers, every partition and batch size, a broker that accepts everything", "why_tests_cant": "Which goroutine finds the partition producer missing depends on the scheduling; a test sees one schedule.", "anchors": ["/repo/producer.go:133-166", "/repo/producer.go:171-185", "/repo/producer.go:188-199", "/repo/simple_producer.go:132-171"]}
{"id": "C136", "title": "A group member presents itself correctly and comes back", "statement": "Every request of a group consumer fits what it was told before: it joins at the coordinator found last, with the member id of its last successful join, or with none after UNKNOWN_MEMBER_ID; it syncs with the generation and id of the join just answered, the leader and only the leader sending an assignment, made from the members of that join and the metadata asked for since; heartbeats and commits carry the generation and id of the last successful join, heartbeats only after a successful sync; after an error it pauses before the next request, except after ILLEGAL_GENERATION, UNKNOWN_MEMBER_ID and REBALANCE_IN_PROGRESS.  When the coordinator moves or becomes unreachable, it is looked up again and the group joined again.", "quantifier": "every sequence of answers, errors, heartbeats, commits, metadata changes and Close", "why_tests_cant": "A test answers one join; the claims are about arbitrary sequences of answers, errors and interleaved heartbeats and commits.", "anchors": ["/repo/group_consumer.go:132-146", "/repo/group_consumer.go:171-305", "/repo/group_consumer.go:307-318", "/repo/group_consumer.go:327-370", "/repo/group_consumer.go:497-515"]}
{"id": "C137", "title": "Responses that are written are read back", "statement": "A response value written with its Encode method (AlterPartitionReassignments, CreateAcls, DeleteAcls, DescribeAcls, ListGroups), in a version the client supports, gives a frame which the decoder of that API and version reads back without error as the same value: all topics, partitions, rules, groups, codes, messages and tagged fields that the version carries, with defaults for those it does not carry.", "quantifier": "every response value whose strings and counts fit their length fields, and every supported version", "why_tests_cant": "The tests write one value per version; whether the computed buffer size is enough and whether each optional part is read where it was written depends on all the lengths and on which parts are absent.", "anchors": ["/repo/alter_partition_reassignments_response.go", "/repo/create_acls_response.go", "/repo/delete_acls_response.go", "/repo/desscribe_acls_response.go", "/repo/list_groups_response.go"]}
{"id": "C138", "title": "A broker operation sends the request it names and returns what was answered", "statement": "Each operation of a broker (metadata, offsets by time, list groups, find coordinator, join, sync, heartbeat, leave), called on an idle broker with a working connection, sends exactly one request, with the content given by the caller, laid out in the negotiated version, with the next correlation id and the caller's client id; whatever pieces the answer arrives in, the caller gets its content and an error exactly when the answer holds an error code, and the stream is left right after the answer.", "quantifier": "every content of the request, every answer that fits the wire format, every splitting of the stream", "why_tests_cant": "A test with a scripted connection checks one request and one answer; that nothing the caller gives is lost and nothing the broker says is mistaken is a statement about all of them.", "anchors": ["/repo/broker.go:239-263", "/repo/broker.go:339-442"]}
{"id": "C139", "title": "What a producer sends is what a consumer gets", "statement": "Messages given to a SimpleProducer and flushed to a broker that appends the record data of each produce request to the partition's log (assigning offsets, changing nothing else) come out of a SimpleConsumer reading that log: beginning at any offset of the log it is handed, in order and once, every message from that offset on with the topic, partition, time, key and value it was sent with.", "quantifier": "every sequence of flushed message lists, every codec 0-3, every log before, every place to begin, every fetch response with whole batches", "why_tests_cant": "A test with a mock broker compares one message; that encoder and decoder of the two sides agree for all messages, batch sizes, codecs and starting places needs a proof through the bytes.", "anchors": ["simple_producer.go:143-215", "record.go:209-301", "produce_request.go:50-180", "fetch_response.go:200-560"]}
{"id": "C140", "title": "A batch that cannot be decompressed is not skipped", "statement": "If a batch in a fetch response cannot be decompressed, the consumer is handed the messages stored before it and then an error; it is never handed a message stored after it in the same response. The fetch that begins at such a batch always yields an error, so no message is passed over silently.", "quantifier": "every sequence of good batches before it, every payload the codec rejects with whatever error, every bytes after it", "why_tests_cant": "One corrupt payload can be tested; that nothing after it is ever delivered, whatever precedes and follows it, needs a proof over all responses.", "anchors": ["fetch_response.go:62-64", "fetch_response.go:202-283", "fetch_response.go:317-364", "fetch_response.go:509-551"]}
{"id": "C141", "title": "Restarting from the committed position loses nothing", "statement": "However often the consumers of a partition crash and are started again from the position the group has committed, every message between the position the first one started at and any committed position has been received by the user of one of them. The same holds for the messages before any message handed over.", "quantifier": "every number of consumers, one after the other or overlapping, every moment of a crash, every commit that was carried out with or without the consumer learning of it, every interleaving of fetching, committing and receiving, as long as no position is out of the log's range", "why_tests_cant": "Crashes would have to be injected at every instruction of two goroutines, and in every combination over several restarts.", "anchors": ["simple_consumer.go:323-338", "simple_consumer.go:342-398", "simple_consumer.go:456-505", "group_consumer.go:327-358"]}
{"id": "C142", "title": "The HTTP API lets in only who knows the password", "statement": "Started with --auth user:password, the HTTP API hands a request to its handler if it carries these credentials as RFC 7617 says, and answers 401 if it carries others. Whatever the header looks like, a request that is let in has spelled out the user and the password. Only GET, HEAD and OPTIONS are exempt, and only with --get-allowed. A value of --auth without colon is refused. With --cors, preflight requests are answered.", "quantifier": "every user without colon, every password, every header, every method, every combination of the flags", "why_tests_cant": "Headers are arbitrary bytes; base64 has many spellings of the same text, and decoding errors are dropped, so that samples say little about what else is let in.", "anchors": ["command/healer/cmd/api.go:32-57", "command/healer/cmd/api.go:95-121"]}
{"id": "C143", "title": "An HTTP answer tells what happened", "statement": "A request to the HTTP API is answered with 200 exactly if it is well-formed and everything asked of Kafka succeeded, and then the body is the result. A malformed request is answered with 400 and not carried out; a failure is answered with 500. No answer to a failed request holds a result.", "quantifier": "every handler, every combination of failures of its steps, every body and parameter", "why_tests_cant": "A handler has up to five steps, each of which may fail; the failures need brokers that fail at a certain step.", "anchors": ["command/healer/cmd/apicontrollers/acl.go:20-108", "command/healer/cmd/apicontrollers/configs.go:38-56", "command/healer/cmd/apicontrollers/create-partitions.go:23-57", "command/healer/cmd/apicontrollers/describe-logdirs.go:21-43", "command/healer/cmd/apicontrollers/elect-leader.go:23-65", "command/healer/cmd/apicontrollers/group.go:20-77", "command/healer/cmd/apicontrollers/metadata.go:21-41", "command/healer/cmd/apicontrollers/partition-reassignments.go:23-124", "command/healer/cmd/apicontrollers/topic.go:24-173"]}
{"id": "C144", "title": "An HTTP request leaves no connections behind", "statement": "The connections to Kafka that the HTTP API opens for a request are closed when the request has been answered, whether it succeeded, failed or the handler panicked.", "quantifier": "every handler, every combination of failures of its steps", "why_tests_cant": "A leak shows only after many requests, and only for the steps that happened to fail in the test.", "anchors": ["command/healer/cmd/apicontrollers/group.go:20-77", "command/healer/cmd/apicontrollers/describe-logdirs.go:21-43", "command/healer/cmd/apicontrollers/topic.go:24-173"]}
{"id": "C145", "title": "A flush reports success exactly if the broker took the messages", "statement": "When the partition producer sends its buffered messages, the result it reports says whether the broker took them, for each setting of acks; with acks 0 the request is successful as soon as it has been sent, because Kafka answers nothing.", "quantifier": "every configuration, topic, partition, messages, answer of the broker and division of the answer into pieces", "why_tests_cant": "Tests replace the connection by a mock that always answers, which no broker does for acks 0.", "anchors": ["simple_producer.go:194-227", "broker.go:239-263"]}
{"id": "C146", "title": "Connections are made as configured", "statement": "A client configured to use TLS never makes an unencrypted connection: it connects with the named certificate, trusting the named authorities only and checking the peer's name unless that is switched off, or it reports an error without connecting. A client not configured for TLS connects plainly. Address and time limits are those given.", "quantifier": "every configuration, every content of the files", "why_tests_cant": "A missing check shows only with a broken set of files or settings, of which there are many combinations.", "anchors": ["broker.go:110-156", "config.go:38-75"]}
{"id": "C147", "title": "A cluster is found through any of its bootstrap servers", "statement": "Creating brokers from a list of servers tries them in their order and succeeds with the first one that names the brokers of the cluster, so one server that works is enough; the nodes known and the controller are those it named. It fails only after all of them were tried. The only connection open afterwards is the one kept for the server's node.", "quantifier": "every list of servers, every behaviour of the servers", "why_tests_cant": "Which of the servers fail, and how, gives many combinations; connections left open are not seen by a test that looks at the result.", "anchors": ["brokers.go:39-103"]}
{"id": "C148", "title": "get-pending covers the groups and topics asked for", "statement": "get-pending shows, for every group selected by --group (all groups that the brokers of the cluster list if it is not given, the groups listed whose name fits it if it contains stars, otherwise the group named), the topic given, or every topic that the group's members are assigned, each partition with the member it is assigned to; the offsets shown are those of the topic and the group. What it cannot show it reports.", "quantifier": "every cluster and its answers, every group pattern, every assignment", "why_tests_cant": "The groups and their members change all the time, and patterns, names and answers are unlimited.", "anchors": ["helper.go:42-80", "command/healer/cmd/get-pending.go:102-178", "command/healer/cmd/get-pending.go:235-291"]}
{"id": "C149", "title": "The administration tools ask for what they are given, and wait long enough for it", "statement": "elect-leaders, alter-partition-reassignments, list-partition-reassignments, create-topic, create-partitions and delete-topics, and the HTTP handlers which do the same, send one request holding exactly the topics, partitions and values given, each topic once, with the timeout given; and since a broker may work on it for that time, they wait at least so long for the answer.", "quantifier": "every list of topics and partitions (in any order, with repetitions), every timeout", "why_tests_cant": "Lists and timeouts are unlimited; whether the wait is long enough only shows when a broker is slow.", "anchors": ["command/healer/cmd/elect-leaders.go:15-58", "command/healer/cmd/alter-partition-assignments.go:16-61", "command/healer/cmd/list-partition-reassignments.go:15-69", "command/healer/cmd/apicontrollers/partition-reassignments.go:23-124", "command/healer/cmd/apicontrollers/elect-leader.go:23-65", "command/healer/cmd/apicontrollers/create-partitions.go:23-57", "client.go:149-249"]}
{"id": "C150", "title": "Configs are read and changed at the broker which can answer", "statement": "DescribeConfigs, describe-configs, alter-configs and the HTTP handlers for configs send their request to a broker which can answer it: that of a broker's own settings or loggers to that broker, all others to any broker; the request names the resource as it was given, and the result is the answer. What Kafka does not have is refused.", "quantifier": "every cluster, every resource and key", "why_tests_cant": "Depends on which broker is the controller, on the cluster and the resource.", "anchors": ["client.go:357-388", "command/healer/cmd/alter-configs.go:16-63", "describe_configs_request.go:6-17", "command/healer/cmd/apicontrollers/topic.go:24-94", "command/healer/cmd/apicontrollers/configs.go:38-56"]}
{"id": "C151", "title": "A partition consumer follows the leader of its partition", "statement": "When the leadership of a partition has moved to a node which can be reached, and the cluster agrees on it, a SimpleConsumer of that partition finds the new leader after a bounded number of turns of its fetch loop, fetches from it with an epoch it accepts, and goes on doing so; a new consumer starts there.", "quantifier": "all clusters (addresses, ids, which nodes answer, what is cached), all leaders and epochs, all states of the consumer, all interleavings of the fetch loop with the minute's refreshing", "why_tests_cant": "the answers of a cluster during a change of leader, the two threads which change the known epoch, and dead nodes cannot be enumerated by tests", "anchors": ["simple_consumer.go:47-73", "simple_consumer.go:112-129", "simple_consumer.go:147-178", "simple_consumer.go:356-363", "simple_consumer.go:407-495"]}
{"id": "C152", "title": "A consumer with a group commits at the group's coordinator", "statement": "A SimpleConsumer with a group id that does not belong to a GroupConsumer finds the coordinator of its group, commits its positions there and reads them from there, also after the group has moved to another coordinator.", "quantifier": "all clusters, all sequences of deliveries, commits and moves of the group", "why_tests_cant": "when a group moves to another coordinator, and what was committed before, cannot be enumerated by tests; a loop without end cannot be observed", "anchors": ["simple_consumer.go:75-88", "simple_consumer.go:130-144", "simple_consumer.go:224-274", "simple_consumer.go:297-338", "brokers.go:313-331"]}
{"id": "C153", "title": "The consuming commands print what they receive", "statement": "group-consumer and console-consumer print one line for each message they receive, in the order received, until the number asked for with --max-messages is reached or the user interrupts them; the lines tell the messages apart; and no message is lost between one run of a group and the next.", "quantifier": "all sequences of messages and interrupts, all numbers asked for, all layouts", "why_tests_cant": "sequences of messages and interrupts, and what is in the channel when the command ends, cannot be enumerated; a command that never returns cannot be observed by a test", "anchors": ["command/healer/cmd/group-consumer.go:67-98", "command/healer/cmd/console-consumer.go:74-88", "group_consumer.go:405-433", "group_consumer.go:466-495"]}
{"id": "C154", "title": "Decoding a fetch response ends, and yields no more than was sent", "statement": "Whatever bytes a broker sends as a fetch response, decoding them comes to an end after a number of steps bounded by the number of bytes, and delivers no more messages than the bytes can hold.", "quantifier": "all byte sequences, all ways the network cuts them, all limits", "why_tests_cant": "no set of samples shows that a loop without a bound of its own ends for all byte sequences; an input on which it does not end is found by no test that passes", "anchors": ["fetch_response.go:130-198", "fetch_response.go:202-283", "fetch_response.go:317-364", "record.go:137-179"]}
{"id": "C155", "title": "Periodic work happens at the configured intervals", "statement": "A client whose configuration was accepted does its periodic work at the configured intervals: a group member sends heartbeats often enough for its session timeout, metadata are refreshed every metadata.max.age.ms, positions are committed every auto.commit.interval.ms, messages are flushed every flush.interval.ms; and no accepted configuration crashes the program.", "quantifier": "all configurations in all forms they can be given in; all durations of the rounds", "why_tests_cant": "the intervals go through arithmetic that wraps and through tickers which panic and which drop ticks; a test tries a few configurations and cannot wait", "anchors": ["group_consumer.go:436-495", "simple_consumer.go:379-395", "simple_producer.go:116-126", "producer.go:69-76", "config.go:151-188", "config.go:257-310"]}
{"id": "C156", "title": "A message does not wait longer than the flush interval", "statement": "A message accepted by AddMessage is handed to the broker by the time the next round of the flush timer ends, that is within flush.interval.ms plus the time flushes take, unless it is sent earlier because the batch is full or the producer is closed; nobody needs to call Flush.", "quantifier": "all configurations accepted whose interval is at most 9223372036854 ms (see C155), all interleavings of adding, flushing, closing and writing to the caller's slices, all durations of the flushes", "why_tests_cant": "a deadline over all interleavings of several goroutines and a timer that drops ticks cannot be shown by running some of them", "anchors": ["simple_producer.go:116-126", "simple_producer.go:132-171", "simple_producer.go:228-248"]}
{"id": "C157", "title": "Settings given in a map have the value given, or the map is refused", "statement": "A consumer or producer made from a map of settings uses, for each setting in the map, the value given there, whether it was written as text or as a number, and the default for each setting not in the map; a map with a value that cannot be used, or with a name that is no setting, is refused with an error.", "quantifier": "every map of settings, every kind of consumer, every default", "why_tests_cant": "the maps are unbounded combinations of names, kinds of values and values; the conversions of the library go wrong only for values that nobody puts into a test", "anchors": ["config.go:85-106", "config.go:151-170", "config.go:191-222", "config.go:257-282"]}
{"id": "C158", "title": "Settings on the command line take effect, or the command says that it cannot use them", "statement": "What is given to group-consumer, console-consumer and console-producer with --config is used by the client they make, together with what the other flags give; a text that cannot be used is reported.", "quantifier": "every text, every other flags", "why_tests_cant": "the error that is not looked at shows only when somebody makes a mistake in the text; the command then runs with other settings", "anchors": ["command/healer/cmd/group-consumer.go:24-58", "command/healer/cmd/console-consumer.go:23-57", "command/healer/cmd/console-producer.go:20-45"]}
{"id": "C159", "title": "Calls from several goroutines behave as calls made one after the other", "statement": "Goroutines may use one broker, one set of brokers or one partition producer at the same time: the results of RequestAndGet, of GetBroker, and of AddMessage, Flush and Close of a partition producer, and everything that is sent, read, opened and kept, are those of the same calls made one after the other, each as a whole, in the order in which they return; in particular every caller gets the answer to its own request.", "quantifier": "any number of goroutines, any calls depending on earlier results, any division of the calls into steps, every interleaving", "why_tests_cant": "a test sees a handful of schedules; what goes wrong without a lock, or with one taken too late, needs two calls to meet at one line", "anchors": ["broker.go:239-263", "brokers.go:195-221", "simple_producer.go:132-171", "simple_producer.go:228-248"]}
{"id": "C160", "title": "Concurrent use does not make the Go runtime end the process", "statement": "Goroutines may add messages to a producer, look up brokers and close producers and clients at the same time without the runtime ending the process because of unsynchronised use of a map.", "quantifier": "any number of goroutines, any keys, every interleaving", "why_tests_cant": "the runtime notices only if two accesses overlap within nanoseconds; tests without the race detector pass", "anchors": ["brokers.go:26-32", "brokers.go:195-221", "producer.go:133-166", "producer.go:187-199"]}
{"id": "C161", "title": "Across the members of a group, every partition gets exactly one consumer", "statement": "When members join a group led by a healer consumer, the leader asks for the topics they subscribe to, and what the coordinator hands the members makes them start partition consumers only for topics they subscribe to, such that the partition consumers of all members together are the partitions of these topics, each exactly once; healer members name their topic in the protocol's layout.", "quantifier": "any members of any clients and versions, any subscriptions, any topics and partitions, every order of members, topics and Go maps", "why_tests_cant": "needs several clients and a coordinator; the orders of Go's maps and of the members cannot be chosen in a test", "anchors": ["group_consumer.go:95-128", "group_consumer.go:147-168", "group_consumer.go:170-260", "assign.go:57-121", "group.go:28-173", "broker.go:401-426"]}
{"id": "C162", "title": "Closing a producer closes what it opened", "statement": "After Close of a Producer no connection it opened is open: neither those it sent messages by nor those it asked for metadata on the way, and while it runs their number stays bounded.", "quantifier": "any cluster, any answers, any sequence of timers and keyed messages", "why_tests_cant": "connections pile up over days; a test sees the first refresh at most, and needs a cluster", "anchors": ["producer.go:43-79", "producer.go:82-117", "producer.go:149-157", "producer.go:188-199", "simple_producer.go:37-64", "simple_producer.go:228-248", "brokers.go:40-60"]}
{"id": "C163", "title": "The offsets of a topic are listed as they are", "statement": "get-offsets and GET /topic/{topic}/offsets list, for the timestamp given (for the end of the partitions if none is given), every partition of the topic once, in ascending order, with the timestamp and offset its leader answers with, and nothing where there is no offset; if a leader cannot be asked or answers with an error, they fail and say so.", "quantifier": "any topic, partitions, leaders and timestamp; any failures on the way; any order in which Go visits a map", "why_tests_cant": "the order of map iteration and the leaders of partitions vary between runs; a test sees one cluster with one leader", "anchors": ["command/healer/cmd/get-offsets.go:14-75", "command/healer/cmd/apicontrollers/topic.go:98-143", "brokers.go:248-296", "offset_response.go:16-25"]}
{"id": "C164", "title": "The ACL tools ask for what their flags say", "statement": "describe-acls, delete-acls and create-acls ask for exactly the resource type, resource, pattern, principal, host, operation and permission given by their flags; each value the help texts list is understood; a value which is not understood is refused, and nothing is asked; flags left out stand for values with which the request makes sense.", "quantifier": "any flags, any names", "why_tests_cant": "the flags pass through JSON and their errors are dropped; tests would have to try every name", "anchors": ["command/healer/cmd/describe-acls.go:13-99", "command/healer/cmd/delete-acls.go:13-99", "command/healer/cmd/create-acls.go:13-86", "acl_types.go:49-75", "acl_types.go:110-126", "acl_types.go:182-214", "acl_types.go:245-259"]}
{"id": "C165", "title": "get-metadata shows the cluster or fails", "statement": "get-metadata prints the answer of a broker: as JSON, or, with --format cat, every broker with its address and for every partition the address of its leader; if no broker can be asked, or the format is not known, it fails.", "quantifier": "any cluster, any failures, any topics and format", "why_tests_cant": "needs clusters that fail in every way; a test without cluster sees nothing", "anchors": ["command/healer/cmd/get-metadata.go:10-71", "brokers.go:223-245"]}
{"id": "C166", "title": "Asking about a topic does not create it", "statement": "Looking up the metadata, offsets or lag of a topic does not let the cluster create the topic.", "quantifier": "any topics, any version negotiated", "why_tests_cant": "whether a topic is created depends on the settings of the cluster; a test with a topic that exists sees no difference", "anchors": ["metadata_request.go:24-75", "broker.go:349-357", "brokers.go:223-245", "command/healer/cmd/get-metadata.go:10-44"]}
{"id": "C167", "title": "Closing a consumer closes what it opened", "statement": "When a consumer has been stopped (Stop of a SimpleConsumer made by NewSimpleConsumer, Close or AwaitClose of a Consumer or GroupConsumer), every connection made for it has been closed: those to the leaders of its partitions, however often these moved, those to the coordinator, and those it asked for metadata.", "quantifier": "any cluster, any failures, any sequence of metadata refreshes, coordinator searches and leader changes", "why_tests_cant": "which connections are made depends on what the cluster answers and on when leaders move; a test that stops a consumer sees no connection", "anchors": ["simple_consumer.go:91-110", "simple_consumer.go:147-178", "simple_consumer.go:277-294", "simple_consumer.go:480-491", "consumer.go:138-170", "group_consumer.go:411-436", "brokers.go:26-32"]}
{"id": "C168", "title": "A consumer without a group needs no group coordinator", "statement": "Consume of a Consumer without group id starts consuming all its partitions if their leaders can be reached, whether or not the cluster names a group coordinator.", "quantifier": "any cluster, any partitions, any number of attempts", "why_tests_cant": "every cluster a test would use has a coordinator", "anchors": ["consumer.go:93-135", "simple_consumer.go:43-89", "simple_consumer.go:130-144", "brokers.go:313-331"]}
{"id": "C169", "title": "Messages of the old formats are delivered", "statement": "From a fetch response that holds complete uncompressed messages of formats 0 and 1, alone or followed by batches of the current format (as in a topic whose message format was raised), the consumer is handed exactly the stored messages from the requested offset on, each once and in order.", "quantifier": "any messages, any batches after them, any requested offset, any way the network splits the response", "why_tests_cant": "tests use topics written in one format; what comes after the last old message and how the network splits it is not under their control", "anchors": ["fetch_response.go:130-198", "fetch_response.go:317-364", "message.go:109-185"]}
{"id": "C170", "title": "The tools for groups tell the whole truth", "statement": "If list-groups succeeds, every broker of the cluster was asked and has listed its groups, and all of them are printed; if a broker could not be asked or refused, the tool fails. describe-groups asks the coordinator of the group for that group alone and prints its answer, unless that has an error. If delete-groups succeeds, each group given was deleted by its coordinator, and this is what is printed.", "quantifier": "any cluster, any answers of the brokers, any names of groups, any order in which the nodes come out of the map", "why_tests_cant": "a test cluster has one broker, which is its own coordinator and never refuses; which nodes have objects with wrong numbers depends on the addresses", "anchors": ["client.go:44-63", "client.go:252-297", "command/healer/cmd/list-groups.go:11-42", "command/healer/cmd/describe-groups.go:12-63", "command/healer/cmd/delete-groups.go:12-57", "list_groups_response.go:27-29"]}
{"id": "C171", "title": "A closed consumer can be started again or says that it cannot", "statement": "When Close of a consumer has returned and Consume is called again, a consumer is started for each partition assigned, or Consume returns an error.", "quantifier": "for all histories of a consumer before it is closed, numbers of partitions and schedules", "why_tests_cant": "Whether Consume finds what an earlier Close left behind depends on what the goroutines were doing when Close was called; a test closes a consumer once, in one state.", "anchors": ["/repo/group_consumer.go:411-434", "/repo/group_consumer.go:497-540", "/repo/consumer.go:79-89"]}
{"id": "C172", "title": "Passwords stay out of the log", "statement": "The SASL password given in a configuration leaves the client only in the SaslAuthenticate request sent to a broker: no other request and nothing the client writes to its log depends on it.", "quantifier": "all passwords, users, mechanisms and other settings, all behaviours of the peer, all sequences of requests, all five functions that make a client", "why_tests_cant": "Tests look at what a call returns, not at the log; that no request depends on the password is a statement about two runs with different passwords", "anchors": ["/repo/consumer.go:23", "/repo/group_consumer.go:52", "/repo/simple_consumer.go:96", "/repo/simple_consumer.go:103", "/repo/producer.go:38", "/repo/simple_producer.go:71", "/repo/brokers.go:41", "/repo/broker.go:158-185", "/repo/broker.go:265-270", "/repo/config.go:25-37"]}
{"id": "C173", "title": "Failures are not retried without a pause", "statement": "A consumer whose requests are refused or get no answer waits retry.backoff.ms before it repeats them, so that a broker in trouble is not asked in a tight loop.", "quantifier": "all sequences of answers, errors and failures, all schedules of a partition consumer and of a group consumer, all values of retry.backoff.ms", "why_tests_cant": "A test sees one or two failures and does not measure the time between requests; which errors pass without a pause shows only when all of them are gone through", "anchors": ["/repo/simple_consumer.go:406-448", "/repo/simple_consumer.go:456-497", "/repo/group_consumer.go:262-304", "/repo/group_consumer.go:505-515", "/repo/config.go:177-188"]}
{"id": "C174", "title": "A consumer gets to every message", "statement": "As long as the log holds a message at or after a consumer's position, further fetches bring it: batches from which compaction removed messages are passed over, and the size asked for grows until the next message fits.", "quantifier": "all logs with any ranges of offsets and sizes of batches, all positions, all sizes to begin with, all batches appended later, any number of fetches", "why_tests_cant": "Logs with gaps come from compaction and transactions, which a unit test with a fake broker does not have; that the size runs over shows only after some thirty fetches", "anchors": ["/repo/fetch_response.go:317-327", "/repo/simple_consumer.go:406-448", "/repo/simple_consumer.go:456-505"]}
{"id": "C175", "title": "Closing returns within the time given", "statement": "AwaitClose(timeout) of a consumer or of a group consumer returns no later than the timeout, plus the time of the request to leave; Close returns within 30 seconds, as its comment says.", "quantifier": "any number of partition consumers, any times at which their fetches began and any times they take, all timeouts", "why_tests_cant": "How long closing takes depends on when the fetches in flight were sent; a test with a fast broker sees it return at once", "anchors": ["/repo/group_consumer.go:372-386", "/repo/group_consumer.go:404-434", "/repo/consumer.go:140-170", "/repo/simple_consumer.go:276-289"]}
{"id": "C176", "title": "Consume returns when the consumer is stopped", "statement": "When Stop is called while Consume of a partition consumer has not returned, Consume comes to its end after a bounded number of further steps, whether or not brokers answer.", "quantifier": "every state of Consume, all interleavings with Stop and the other goroutines, any number of failing requests", "why_tests_cant": "It shows only when a coordinator is away at the moment a rebalance or a shutdown stops a consumer that is being started", "anchors": ["/repo/simple_consumer.go:224-273", "/repo/simple_consumer.go:342-398", "/repo/group_consumer.go:372-386"]}
{"id": "C177", "title": "Batches respect batch.size", "statement": "A produce request of a partition producer holds more than one message only if the keys and values of its messages together take at most batch.size bytes, the setting of the producer's configuration.", "quantifier": "every accepted configuration, every sequence of calls and ticks, messages of any size", "why_tests_cant": "Default sizes hide it: a test with few small messages stays below any limit", "anchors": ["/repo/config.go:191-222", "/repo/simple_producer.go:132-158", "/repo/simple_producer.go:194-227"]}
{"id": "C178", "title": "Failed produce requests are sent again as configured", "statement": "When a produce request of a partition producer fails, its messages are sent again until a request with them succeeds, at most as many times as the setting retries says, and no more often.", "quantifier": "every accepted configuration, every sequence of calls and ticks, every pattern of failures", "why_tests_cant": "Needs brokers that fail at chosen moments", "anchors": ["/repo/config.go:191-222", "/repo/simple_producer.go:132-171", "/repo/simple_producer.go:194-227"]}
{"id": "C179", "title": "Positions are kept where offsets.storage says", "statement": "A consumer with a group reads and commits positions where offsets.storage says: 0 is ZooKeeper (requests of version 0), 1 is Kafka (later versions). If that is not possible, the user is told.", "quantifier": "every setting, group, topic, partition and offset, and all versions that a coordinator may announce", "why_tests_cant": "A test broker announces one set of versions; the effect shows only in where another client finds the positions", "anchors": ["/repo/simple_consumer.go:224-247", "/repo/simple_consumer.go:297-311", "/repo/group_consumer.go:336-348", "/repo/broker.go:218-228"]}
{"id": "C180", "title": "A consumer that is started again continues where its predecessor stood", "statement": "If CommitOffset was called, or automatic commits ran, while a consumer with a group stood at a position of a partition, a consumer of the same group that is started later begins at that position, so that messages produced in between are consumed.", "quantifier": "every position, every interleaving of the loop, commits and the user in the first consumer, every log and end of the log when the second one is started", "why_tests_cant": "Needs an empty partition, two consumers one after the other and messages produced in between; tests commit after consuming something", "anchors": ["/repo/simple_consumer.go:323-338", "/repo/simple_consumer.go:342-377", "/repo/simple_consumer.go:181-204"]}
{"id": "C181", "title": "The rest of a fetch answer that came too late is not taken for another answer", "statement": "When the time allowed for the answer to a fetch (timeout.ms for fetches) is over before the answer has come completely, the consumer gives the connection up, so that what comes of this answer afterwards is never read as the beginning of the answer to another request.", "quantifier": "every fetch answer with any batches, every place in it at which the time is over, every division of the bytes into pieces", "why_tests_cant": "Needs a broker that stops in the middle of an answer for longer than the timeout and goes on afterwards; tests use answers that come whole", "anchors": ["/repo/broker.go:283-318", "/repo/fetch_response.go:96-128", "/repo/fetch_response.go:246-257", "/repo/fetch_response.go:483-520", "/repo/simple_consumer.go:425-475"]}
{"id": "C182", "title": "A request ends within its timeout", "statement": "A request whose answer is not there after timeout.ms milliseconds ends with an error; it does not go on for longer than this time.", "quantifier": "every answer, every division of it into pieces, every delay before each piece, every timeout", "why_tests_cant": "Needs a slow broker and control over the time between pieces of an answer", "anchors": ["/repo/response.go:45-87", "/repo/broker.go:215-236", "/repo/broker.go:265-281"]}
{"id": "C183", "title": "A message carries the time at which it was given to the producer", "statement": "The timestamp stored with a produced message is the time at which AddMessage was called for it, as for the create time of Kafka's own clients; messages given at different times carry different timestamps.", "quantifier": "every sequence of AddMessage, Flush, Close and ticks of the timer with any times, every message.max.count", "why_tests_cant": "Needs control over the clock and the timing of the timer; tests look at keys and values only", "anchors": ["/repo/simple_producer.go:132-158", "/repo/simple_producer.go:161-171", "/repo/simple_producer.go:173-192"]}
{"id": "C184", "title": "A fetch asks for what is configured, and leaves nothing behind at the broker", "statement": "Each fetch of a partition consumer asks the leader for its partition from the consumer's position on, with fetch.max.wait.ms, fetch.min.bytes and the fetch size as configured, and does not make the broker keep a fetch session (KIP-227) which no later request uses.", "quantifier": "every setting, topic, partition, epoch and sequence of positions, every negotiated version", "why_tests_cant": "The sessions exist only in a broker's memory; tests run a few fetches and do not look at them", "anchors": ["/repo/fetch_request.go:31-65", "/repo/fetch_request.go:83-166", "/repo/simple_consumer.go:412-413"]}
{"id": "C185", "title": "Every call of Consume gets the messages from its position on", "statement": "The channel that a call of SimpleConsumer.Consume returns gets the messages of the partition from the position given in that call on, each once and in order; if a consumer cannot do that for a second call, the second call is refused.", "quantifier": "every number of calls, positions, sequence of fetches and schedule of the loops", "why_tests_cant": "Needs two loops of one consumer to meet in a certain order; tests call Consume once per consumer", "anchors": ["/repo/simple_consumer.go:342-398", "/repo/simple_consumer.go:400-453", "/repo/simple_consumer.go:501-502"]}
{"id": "C186", "title": "The time limit of one request does not end another", "statement": "Whether a request on a connection fails because its answer took too long depends on its own timeout and on its own answer, not on the timeouts of the requests before it; a request without a timeout does not fail that way.", "quantifier": "every sequence of requests on a connection, their timeouts, pauses and answers, every division of the answers into pieces", "why_tests_cant": "Needs two requests with different timeouts and a pause longer than the first; tests make single requests", "anchors": ["/repo/response.go:45-87", "/repo/broker.go:215-262", "/repo/config.go:135-145"]}
{"id": "C187", "title": "Keyed messages go where Kafka's own clients put them", "statement": "A message with a key goes to the partition that the default partitioner of Kafka's own clients chooses for that key, so that all producers of a topic agree on where the messages of a key are.", "quantifier": "every key, number of partitions and history of the producer", "why_tests_cant": "Hashes have to be compared for all keys; the project's tests look at the number of partitions used at most", "anchors": ["/repo/producer.go:130-165"]}
{"id": "C188", "title": "A group may mix healer with Kafka's own clients", "statement": "In a group whose members use healer or Kafka's own clients (protocol \"range\", no static members): what a member using healer subscribes with and what a leader using healer assigns has the form that the others read; every subscription (versions 0 to 3, with or without user data) and every assignment of the others is read as what it says; and a leader using healer gives every subscriber of a topic with the partitions 0 to n-1 exactly what Kafka's RangeAssignor would give it, the members being in the order of their ids.", "quantifier": "every version, subscription, assignment, set of members and topics, number of partitions, and order in which Go iterates over maps", "why_tests_cant": "The formats of the other clients have fields that healer has not, and the shares have to agree for all numbers of members and partitions", "anchors": ["/repo/group.go:50-200", "/repo/assign.go:20-121"]}
