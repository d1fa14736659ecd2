{
 "claims": [
  {
   "property": "C01",
   "status": "proved",
   "theorems": [
    "Healer.C01_compact_string",
    "Healer.C01_compact_bytes"
   ],
   "note": "Encoder output equals the grammar and the decoder inverts it before any trailing bytes. The 2^63 bound is Go's int range."
  },
  {
   "property": "C02",
   "status": "proved",
   "theorems": [
    "Healer.C02_plain_string",
    "Healer.C02_nullable_string"
   ],
   "note": "Both encoders (buffer and stream) equal the grammar; decoders invert it up to 32767 bytes."
  },
  {
   "property": "C03",
   "status": "partial",
   "theorems": [
    "Healer.C03_violated_plain",
    "Healer.C03_violated_compact_empty",
    "Healer.C03_violated_compact_null",
    "Healer.C03_nullable_bytes_partial"
   ],
   "note": "Violated by the code: encodeNullableBytes never writes the length, compactNullableBytes mistakes empty for null and crashes on null. The partial theorem covers the remaining cases."
  },
  {
   "property": "C04",
   "status": "partial",
   "theorems": [
    "Healer.C04_compact_nullable_string_partial",
    "Healer.C04_compact_nullable_string_stream",
    "Healer.C04_violated_long"
   ],
   "note": "Holds for strings below 2^21-1 bytes with the buffer encoder and for all strings with the stream writer; C04_violated_long proves that the buffer encoder truncates longer strings."
  },
  {
   "property": "C05",
   "status": "proved",
   "theorems": [
    "Healer.C05_compact_array_length",
    "Healer.C05_compact_array_null"
   ],
   "note": "All lengths 0..2^31-1 and the null marker."
  },
  {
   "property": "C06",
   "status": "proved",
   "theorems": [
    "Healer.C06_tagged_fields"
   ],
   "note": "Tags and payload sizes in the protocol's 32-bit range."
  },
  {
   "property": "C07",
   "status": "proved",
   "theorems": [
    "Healer.C07_request_header",
    "Healer.C07_response_header"
   ],
   "note": "Both writers (buffer and stream) and both readers, all 30 APIs and all versions."
  },
  {
   "property": "C08",
   "status": "proved",
   "theorems": [
    "Healer.C08_header_versions",
    "Healer.C08_tables_agree"
   ],
   "note": "All 30 APIs the client uses, every version number; C08_tables_agree covers the whole table."
  },
  {
   "property": "C09",
   "status": "partial",
   "theorems": [
    "Healer.C09_violated_every_nil_key",
    "Healer.C09_record_roundtrip_partial",
    "Healer.C09_violated_nil_key"
   ],
   "note": "Violated for every nil key with an offset delta outside -64..63: the key length is written with a stale width, and whatever the value, no value is read back (C09_violated_every_nil_key, witness C09_violated_nil_key). The partial theorem covers every other record."
  },
  {
   "property": "C10",
   "status": "proved",
   "theorems": [
    "Healer.C10_framing",
    "Healer.C10_uncompressed"
   ],
   "note": "C10_framing holds for every compressor; C10_uncompressed gives equality with Kafka's batch grammar including CRC-32C (bit-serial definition)."
  },
  {
   "property": "C11",
   "status": "partial",
   "theorems": [
    "Healer.C11_violated_nil_key",
    "Healer.C11_batch_roundtrip_partial"
   ],
   "note": "Violated for what C09 is violated for: a record without key at an offset delta outside -64..63 is written wrongly (C11_violated_nil_key). Proved for all other batches; a nil value comes back as nil, empty as nil."
  },
  {
   "property": "C12",
   "status": "partial",
   "theorems": [
    "Healer.C12_single_partial",
    "Healer.C12_violated",
    "Healer.C12_violated_consumer"
   ],
   "note": "Violated for every batch of two or more messages: all have offset delta 0. Proved for single messages, and that the batch claims as many offsets as it has messages. The witness shows this client's own consumer getting stuck on such a batch."
  },
  {
   "property": "C13",
   "status": "proved",
   "theorems": [
    "Healer.C13_message_set_roundtrip"
   ],
   "note": "Includes the exact buffer size and the CRC-32 of every message. nil value is written as empty."
  },
  {
   "property": "C14",
   "status": "partial",
   "theorems": [
    "Healer.C14_violated_checksum_ignored",
    "Healer.C14_violated_any_checksum"
   ],
   "note": "Violated: the checksum of a batch is never looked at. General theorem plus a concrete altered batch that is delivered."
  },
  {
   "property": "C15",
   "status": "partial",
   "theorems": [
    "Healer.C15_violated_every_null_header",
    "Healer.C15_fetch_delivery_partial",
    "Healer.C15_violated_null_header"
   ],
   "note": "Proved for every sequence of complete batches (compressed through an abstract codec or not) except records with a null header value, which crash the decoder whatever stands before and after (C15_violated_every_null_header)."
  },
  {
   "property": "C16",
   "status": "partial",
   "theorems": [
    "Healer.C16_compressed_partial",
    "Healer.C16_truncated_batch_partial",
    "Healer.C16_violated_legacy",
    "Healer.C16_violated_every_legacy",
    "Healer.C16_old_cut_partial",
    "Healer.C16_old_first_partial"
   ],
   "note": "Proved for version-2 batches, compressed or not, cut anywhere (C16_compressed_partial: complete batches of any codec and a cut one, taking the external codecs to reject what is left of a cut payload; C16_truncated_batch_partial: uncompressed only, without a hypothesis on the total length), for messages of the old formats in one piece cut by six bytes or more (C16_old_cut_partial), and for a first message of the old formats cut anywhere (C16_old_first_partial: the error \"maximum fetch size too small\"). Violated for every later old message cut by one to five bytes: it is delivered with zeros for what is missing (C16_violated_every_legacy)."
  },
  {
   "property": "C17",
   "status": "proved",
   "theorems": [
    "Healer.C17_no_silence",
    "Healer.C17_broker_error",
    "Healer.C17_no_data"
   ],
   "note": "Proved for arbitrary record data, broker errors and empty data, one-partition responses as healer's consumers request them."
  },
  {
   "property": "C18",
   "status": "partial",
   "theorems": [
    "Healer.C18_records_partial",
    "Healer.C18_violated_old",
    "Healer.C18_chunking_partial",
    "Healer.C18_violated_split_header",
    "Healer.C18_violated_every_old_zeros",
    "Healer.C18_violated_every_old_lost",
    "Healer.C18_violated_every_old_single",
    "Healer.C18_violated_every_split_size"
   ],
   "note": "Proved for arbitrary splits of the record data: for all complete batches with the whole response (C18_chunking_partial), and for record data of any content, also damaged, as long as the decoder comes to no batch of the old formats (C18_records_partial). Violated for every response split one to three bytes into the size of the record data, if these bytes are zero: nothing is delivered, and no error (C18_violated_every_split_size); inside the high watermark (witness); and for all messages of format 0 or 1: if the last one to five bytes come separately the message is delivered with zeros (C18_violated_every_old_zeros), if the last six to sixteen do it is not delivered (C18_violated_every_old_lost), and if it is the only message there is an error instead (C18_violated_every_old_single)."
  },
  {
   "property": "C19",
   "status": "proved",
   "theorems": [
    "Healer.C19_connection_drained"
   ],
   "note": "Proved for every response content, any number of topics and partitions, any chunking, and every failure point except a crash."
  },
  {
   "property": "C20",
   "status": "proved",
   "theorems": [
    "Healer.C20_every_partition_assigned",
    "Healer.C20_exactly_one_consumer"
   ],
   "note": "Stated on the bytes the leader hands out as each member decodes them; any map iteration order. Topics are those passed to Assign."
  },
  {
   "property": "C21",
   "status": "proved",
   "theorems": [
    "Healer.C21_balanced_contiguous"
   ],
   "note": "Concatenating the shares in member-id order gives the sorted partitions; sizes non-increasing and within one."
  },
  {
   "property": "C22",
   "status": "proved",
   "theorems": [
    "Healer.C22_only_subscribed"
   ],
   "note": ""
  },
  {
   "property": "C23",
   "status": "proved",
   "theorems": [
    "Healer.C23_order_independent"
   ],
   "note": "Any permutation of members, topics, partitions and any map iteration order."
  },
  {
   "property": "C24",
   "status": "partial",
   "theorems": [
    "Healer.C24_violated_all_user_data",
    "Healer.C24_assignment_partial",
    "Healer.C24_receive",
    "Healer.C24_violated_user_data"
   ],
   "note": "Violated for non-empty user data: written without its length. Partial theorem covers no user data (all the leader produces); C24_receive covers the receiving side with user data. Shown for all user data: the bytes never equal the protocol's (C24_violated_all_user_data)."
  },
  {
   "property": "C25",
   "status": "proved",
   "theorems": [
    "Healer.C25_subscription"
   ],
   "note": "nil and empty user data are the same on the wire and both read back as empty."
  },
  {
   "property": "C26",
   "status": "partial",
   "theorems": [
    "Healer.C26_violated_every_topic",
    "Healer.C26_violated_no_subscriber",
    "Healer.C26_violated_short_metadata",
    "Healer.C26_no_crash_partial"
   ],
   "note": "Violated: division by zero when a topic has no subscriber, slice panic on short metadata. Partial theorem: no crash when metadata is readable and every topic has a subscriber. Shown for every topic without subscriber, whatever else is to be assigned (C26_violated_every_topic)."
  },
  {
   "property": "C27",
   "status": "proved",
   "theorems": [
    "Healer.C27_negotiation",
    "Healer.C27_no_common_version"
   ],
   "note": ""
  },
  {
   "property": "C28",
   "status": "partial",
   "theorems": [
    "Healer.C28_violated_all_short",
    "Healer.C28_violated_fetch",
    "Healer.C28_chunking_partial",
    "Healer.C28_incomplete",
    "Healer.C28_violated_short",
    "Healer.C28_fetch_partial",
    "Healer.C28_violated_every_split_length"
   ],
   "note": "Proved for every splitting, whatever follows the frame, and for connections that fail midway; for fetches when the four bytes of the length arrive in one piece (C28_fetch_partial). Violated for frames under four bytes: the log line after reading evaluates Uint32(resp[4:]) and panics, for all such frames however they arrive (C28_violated_all_short). Fetches use another reader (broker.go:requestStreamingly), which fails for every length that arrives in pieces (C28_violated_every_split_length)."
  },
  {
   "property": "C29",
   "status": "partial",
   "theorems": [
    "Healer.C29_own_partial",
    "Healer.C29_violated_timeout",
    "Healer.C29_violated_every_timeout",
    "Healer.C29_violated_every_heartbeat"
   ],
   "note": "Proved for every history of requests, failures, closes and reconnections when each connection carries answers in order and nothing after a failure. Violated by a late answer: os.IsTimeout does not see through the %w wrapping, so after a read timeout the connection stays open and the next request gets the previous answer. Shown for every request, every state of the connection and every late answer (C29_violated_every_timeout, C29_violated_every_heartbeat)."
  },
  {
   "property": "C30",
   "status": "proved",
   "theorems": [
    "Healer.C30_consecutive",
    "Healer.C30_distinct"
   ],
   "note": "Ids of all attempted requests (including those of connection set-up and fetches) are 1, 2, 3, ... modulo 2^32."
  },
  {
   "property": "C31",
   "status": "partial",
   "theorems": [
    "Healer.C31_new_partial",
    "Healer.C31_violated_get",
    "Healer.C31_violated_fetch",
    "Healer.C31_violated_every_reopening"
   ],
   "note": "NewBroker hands out a broker only after successful authentication on its connection. Violated on reconnection: a connection whose set-up failed stays in broker.conn and is used by the next call; for every failure to get the API versions and every next request (C31_violated_every_reopening)."
  },
  {
   "property": "C32",
   "status": "partial",
   "theorems": [
    "Healer.C32_noauth_partial",
    "Healer.C32_open_partial",
    "Healer.C32_violated_reconnect"
   ],
   "note": "Without authentication, or with an open connection, or for fetches, no call blocks on the broker's lock. Violated: with authentication, RequestAndGet on a closed broker holds the lock while sendSaslAuthenticate calls RequestAndGet again."
  },
  {
   "property": "C33",
   "status": "proved",
   "theorems": [
    "Healer.C33_same",
    "Healer.C33_one"
   ],
   "note": "getBroker over an arbitrary network (Net); same object after any sequence of operations, no second object per node id. Sequential model: the mutex of GetBroker serialises look-ups."
  },
  {
   "property": "C34",
   "status": "proved",
   "theorems": [
    "Healer.C34_failover",
    "Healer.C34_reachable",
    "Healer.C34_answered"
   ],
   "note": "Failover for every network behaviour and every map iteration order; answers include errors of the cluster, which are returned at once; C34_answered says which errors these are, without the model's helper."
  },
  {
   "property": "C35",
   "status": "proved",
   "theorems": [
    "Healer.C35_each_leader_once",
    "Healer.C35_one_partition"
   ],
   "note": "stated for the metadata answered; one request per leader to the object kept for it, partitions asked are a permutation of those in the metadata."
  },
  {
   "property": "C36",
   "status": "partial",
   "theorems": [
    "Healer.C36_violated_every_listGroups",
    "Healer.C36_violated_every_describeAcls",
    "Healer.C36_violated_every_produce",
    "Healer.C36_violated_every_deleteAcls",
    "Healer.C36_violated_every_createAcls",
    "Healer.C36_violated_every_createPartitions",
    "Healer.C36_unmixed_partial",
    "Healer.C36_same_kind_partial",
    "Healer.C36_violated_listGroups",
    "Healer.C36_violated_createPartitions",
    "Healer.C36_violated_produce",
    "Healer.C36_violated_acls"
   ],
   "note": "Proved for all 24 APIs whose known versions share one header layout, and for every API within one layout. Violated for all six others, whatever the client id and the correlation ids: list groups (every request: C36_violated_every_listGroups), create partitions (every request with explicit assignments sent at version 2 and then at version 0: C36_violated_every_createPartitions), describe ACLs (every filter sent at version 2 and then at 0 or 1: C36_violated_every_describeAcls), deleting and creating ACLs (fewer than 65536, sent at version 0 or 1 and then at 2 or 3: C36_violated_every_deleteAcls, C36_violated_every_createAcls), and produce (every request without transactional id sent at version 0 and then at 9: C36_violated_every_produce). The header version of the first transmission stays cached."
  },
  {
   "property": "C37",
   "status": "proved",
   "theorems": [
    "Healer.C37_next_fetch",
    "Healer.C37_increasing",
    "Healer.C37_decoder_ascending",
    "Healer.C37_exactly_once",
    "Healer.C37_decoder_exact",
    "Healer.C37_received_in_order"
   ],
   "note": "Proved for every run of the partition-consumer state machine: what reaches the user is, in order and without loss or repetition (C37_received_in_order, C37_exactly_once), a beginning of the log from the offset of the last start or reset, for logs a broker serves as described by the fetch specification (C37_decoder_exact)."
  },
  {
   "property": "C38",
   "status": "partial",
   "theorems": [
    "Healer.C38_violated_every_buffered",
    "Healer.C38_not_ahead_of_channel_partial",
    "Healer.C38_not_ahead_of_user_partial",
    "Healer.C38_violated_buffered"
   ],
   "note": "All interleavings, with several committers: committed positions come from the start, a look-up or a message put into the channel; for unbuffered channels, received by the user. False for buffered channels (the default has 100 places), in every state in which the channel has room (C38_violated_every_buffered)."
  },
  {
   "property": "C39",
   "status": "partial",
   "theorems": [
    "Healer.C39_violated_every_two",
    "Healer.C39_auto_commit_partial",
    "Healer.C39_violated_two_callers"
   ],
   "note": "With one committer and no look-ups. False with two concurrent callers of CommitOffset, in every state in which both have passed the check (C39_violated_every_two)."
  },
  {
   "property": "C40",
   "status": "partial",
   "theorems": [
    "Healer.C40_violated_every_moved",
    "Healer.C40_not_again_partial",
    "Healer.C40_retry_partial",
    "Healer.C40_violated_committed_again"
   ],
   "note": "Group members with auto-commit, no look-ups. False for consumers committing for themselves: commitOffset sends c.offset read again while CommitOffset records the earlier value, so every position that moved in between is committed twice (C40_violated_every_moved)."
  },
  {
   "property": "C41",
   "status": "partial",
   "theorems": [
    "Healer.C41_exact_size",
    "Healer.C41_violated_always",
    "Healer.C41_doubles_partial",
    "Healer.C41_violated"
   ],
   "note": "Doubling below 2 GiB. C41_exact_size gives the size after any run in 32-bit arithmetic; C41_violated_always shows for every starting size that it becomes negative once it does not fit 31 bits and 0 after 32 too-small answers (from the default: negative after eight)."
  },
  {
   "property": "C42",
   "status": "partial",
   "theorems": [
    "Healer.C42_violated_always",
    "Healer.C42_fetch_from_answer_partial",
    "Healer.C42_asks",
    "Healer.C42_violated"
   ],
   "note": "A successful look-up is where the next fetch starts; false if the look-up fails (fetch at -1). In every execution (C42_violated_always)."
  },
  {
   "property": "C43",
   "status": "partial",
   "theorems": [
    "Healer.C43_violated_every_leave",
    "Healer.C43_current_membership_partial",
    "Healer.C43_has_member_id_partial",
    "Healer.C43_violated_left"
   ],
   "note": "Commits of group members carry the membership current when the request is built and non-negative positions, in all interleavings; false in that the membership may be given up between check and request, in every state with a position to commit (C43_violated_every_leave)."
  },
  {
   "property": "C44",
   "status": "partial",
   "theorems": [
    "Healer.C44_violated_every_unstarted",
    "Healer.C44_calm_partial",
    "Healer.C44_one_at_a_time_partial",
    "Healer.C44_violated"
   ],
   "note": "Interleaving model of Consume, the joining goroutine, restart and Close. Proved for runs in which Close is not called while a (re)join is going on (calm runs): consumers are started only after all earlier ones are stopped, and the wait-group counter never goes negative. Violated otherwise: Close during a join makes the counter negative or leaves consumers running. C44_violated_every_unstarted: in every state in which partition consumers are made and none is counted yet, Close crashes the program."
  },
  {
   "property": "C45",
   "status": "partial",
   "theorems": [
    "Healer.C45_violated_every_leader",
    "Healer.C45_violated_every_order",
    "Healer.C45_exact_partial",
    "Healer.C45_never_missed_partial",
    "Healer.C45_violated_leader",
    "Healer.C45_violated_order",
    "Healer.C45_nil"
   ],
   "note": "The comparison is characterised exactly (names, error codes, partition ids, leaders, in order; C45_nil for missing listings); a change of topics or partitions is never missed. Violated in the other direction: every change of leaders and every exchange of two topics triggers a rebalance."
  },
  {
   "property": "C46",
   "status": "partial",
   "theorems": [
    "Healer.C46_violated_always",
    "Healer.C46_once_in_order_partial",
    "Healer.C46_violated",
    "Healer.C46_request_bytes"
   ],
   "note": "Proved for all sequences of calls in which nothing calls Flush after Close, and down to the bytes of the request (version 9, no compression). Violated when a tick of the flush timer was waiting while Close ran: the last batch is sent twice. Shown for every state with waiting messages (C46_violated_always)."
  },
  {
   "property": "C47",
   "status": "proved",
   "theorems": [
    "Healer.C47_batches"
   ],
   "note": ""
  },
  {
   "property": "C48",
   "status": "partial",
   "theorems": [
    "Healer.C48_violated_every_add",
    "Healer.C48_violated_every_close",
    "Healer.C48_violated_every_closed_producer",
    "Healer.C48_flush_reports_partial",
    "Healer.C48_violated_add",
    "Healer.C48_violated_close",
    "Healer.C48_violated_producer_closed"
   ],
   "note": "Proved for failures in Flush. Violated: AddMessage and Close drop the error of a failed request, and the messages; Producer.AddMessage returns nil after three refusals. Shown for every failed request of AddMessage and Close (C48_violated_every_add, C48_violated_every_close), and for every closed Producer and every message without a key or with a key whose partition was used before (C48_violated_every_closed_producer)."
  },
  {
   "property": "C49",
   "status": "partial",
   "theorems": [
    "Healer.C49_violated_always",
    "Healer.C49_violated_every_revival",
    "Healer.C49_violated_every_other_key",
    "Healer.C49_refused_partial",
    "Healer.C49_violated_flush",
    "Healer.C49_violated_producer_revived",
    "Healer.C49_violated_producer_other_key"
   ],
   "note": "Proved: AddMessage of a partition producer is refused after Close and calls other than Flush send nothing. Violated: Flush after Close sends the last batch again, for every state with waiting messages (C49_violated_always); every closed topic producer accepts messages without a key again after the next refresh of its timer (C49_violated_every_revival), and messages whose key belongs to a partition not used before (C49_violated_every_other_key)."
  },
  {
   "property": "C50",
   "status": "partial",
   "theorems": [
    "Healer.C50_violated_every_key",
    "Healer.C50_values_partial",
    "Healer.C50_violated_key"
   ],
   "note": "Proved for values; violated for keys, which are not copied. Shown for every key and every overwriting (C50_violated_every_key)."
  },
  {
   "property": "C51",
   "status": "proved",
   "theorems": [
    "Healer.C51_same_partition",
    "Healer.C51_listed"
   ],
   "note": "The hash function is a parameter (external library). The number of partitions is below 2^31."
  },
  {
   "property": "C52",
   "status": "proved",
   "theorems": [
    "Healer.C52_leader"
   ],
   "note": "Proved for the state at creation, as stated; see C106 for later changes."
  },
  {
   "property": "C53",
   "status": "partial",
   "theorems": [
    "Healer.C53_violated_every_producer",
    "Healer.C53_producer_partial",
    "Healer.C53_producer_accepts",
    "Healer.C53_violated_producer",
    "Healer.C53_group_consumer_partial",
    "Healer.C53_violated_consumer"
   ],
   "note": "Producer configs given as map/struct are accepted iff servers, counts, interval, codec and format are right (accepts/partial); violated for a nil producer config; every accepted producer config stays accepted with any format from 2 on, any acks and any refresh interval (C53_violated_every_producer); consumers are checked only by NewGroupConsumer and intervals never."
  },
  {
   "property": "C54",
   "status": "partial",
   "theorems": [
    "Healer.C54_violated_every_map",
    "Healer.C54_own_array_partial",
    "Healer.C54_violated",
    "Healer.C54_producer"
   ],
   "note": "Clients whose timeout array is their own are unaffected, and making a producer changes no other configuration (C54_producer); violated: DefaultConsumerConfig's TimeoutMSForEachAPI slice is shared by all consumers made from nil or a map, so any of them waits as long as the last map says (C54_violated_every_map)."
  },
  {
   "property": "C55",
   "status": "partial",
   "theorems": [
    "Healer.C55_violated_every_code",
    "Healer.C55_nonzero_is_error",
    "Healer.C55_first_error",
    "Healer.C55_known_codes_partial",
    "Healer.C55_unlisted_codes",
    "Healer.C55_violated_code_118_119",
    "Healer.C55_every_answer_partial",
    "Healer.C55_call_partial",
    "Healer.C55_violated_listGroups"
   ],
   "note": "Every answer but list-groups: taken for a success exactly if all its error codes are zero (C55_every_answer_partial, C55_call_partial). Codes 118 and 119 have lost their identity; list-groups ignores its code. The latter for every code (C55_violated_every_code)."
  },
  {
   "property": "C56",
   "status": "proved",
   "theorems": [
    "Healer.C56_names",
    "Healer.C56_produced"
   ],
   "note": "Names and codes are inverse (names compared in lower case) and the code in produced batches is that of the configured codec."
  },
  {
   "property": "C57",
   "status": "partial",
   "theorems": [
    "Healer.C57_roundtrip_partial",
    "Healer.C57_violated"
   ],
   "note": "Holds except for \"unknown\" operations and permissions, which are read back as \"any\"."
  },
  {
   "property": "C58",
   "status": "partial",
   "theorems": [
    "Healer.C58_violated_every_nil_filter",
    "Healer.C58_heartbeat",
    "Healer.C58_leaveGroup",
    "Healer.C58_syncGroup",
    "Healer.C58_joinGroup",
    "Healer.C58_findCoordinator",
    "Healer.C58_describeGroups",
    "Healer.C58_deleteGroups",
    "Healer.C58_listGroups_partial",
    "Healer.C58_violated_listGroups"
   ],
   "note": "All requests for every field value and client version; list-groups only for filters whose strings are under 16383 bytes (larger ones overflow the buffer: witness). A list-groups filter of states set to nil gives a request Kafka's grammar does not have, for every list of types (C58_violated_every_nil_filter)."
  },
  {
   "property": "C59",
   "status": "proved",
   "theorems": [
    "Healer.C59_offsetCommit",
    "Healer.C59_offsetFetch",
    "Healer.C59_listOffsets"
   ],
   "note": "Every field value and every client version; the offset-list request takes a client id that is set, as its constructor always does."
  },
  {
   "property": "C60",
   "status": "proved",
   "theorems": [
    "Healer.C60_metadata",
    "Healer.C60_apiVersions",
    "Healer.C60_saslHandshake",
    "Healer.C60_saslAuthenticate"
   ],
   "note": "Every field value and client version."
  },
  {
   "property": "C61",
   "status": "partial",
   "theorems": [
    "Healer.C61_violated_every_unassigned",
    "Healer.C61_createTopics",
    "Healer.C61_deleteTopics",
    "Healer.C61_createPartitions_v2",
    "Healer.C61_createPartitions_v0_partial",
    "Healer.C61_violated_createPartitions",
    "Healer.C61_describeConfigs",
    "Healer.C61_alterConfigs",
    "Healer.C61_incrementalAlterConfigs",
    "Healer.C61_describeLogDirs",
    "Healer.C61_electLeaders"
   ],
   "note": "All requests except create-partitions version 0 with nil assignments, which writes an empty array where Kafka expects null, for every such request (C61_violated_every_unassigned)."
  },
  {
   "property": "C62",
   "status": "proved",
   "theorems": [
    "Healer.C62_alterPartitionReassignments",
    "Healer.C62_listPartitionReassignments"
   ],
   "note": "Nil replicas are treated as an empty list; see C88."
  },
  {
   "property": "C63",
   "status": "partial",
   "theorems": [
    "Healer.C63_violated_every_many",
    "Healer.C63_fetch_partial",
    "Healer.C63_fetch_single_partial",
    "Healer.C63_violated_many"
   ],
   "note": "Exact: the grammar's bytes come out if and only if they fit the buffer; they always fit with one partition per topic. Violated: the buffer has room for one partition per topic, so no request for enough partitions of one topic is produced (C63_violated_every_many); four partitions make the encoder panic (C63_violated_many)."
  },
  {
   "property": "C64",
   "status": "partial",
   "theorems": [
    "Healer.C64_violated_every_v0",
    "Healer.C64_produce_v9_partial",
    "Healer.C64_violated_v0"
   ],
   "note": "Version 9 correct given the batches' bytes (C09-C11); every request of version 0 is written with the body of version 3 (C64_violated_every_v0)."
  },
  {
   "property": "C65",
   "status": "partial",
   "theorems": [
    "Healer.C65_violated_every_describe",
    "Healer.C65_violated_every_create",
    "Healer.C65_deleteAcls",
    "Healer.C65_createAcls_partial",
    "Healer.C65_violated_createAcls",
    "Healer.C65_describeAcls_partial",
    "Healer.C65_violated_describeAcls"
   ],
   "note": "Delete correct for every version; create and describe correct from version 2 on; versions 0 and 1 get tag buffers they must not have, whatever the rules (C65_violated_every_create, C65_violated_every_describe)."
  },
  {
   "property": "C66",
   "status": "partial",
   "theorems": [
    "Healer.C66_violated_every_listed_error",
    "Healer.C66_violated_every_metadata",
    "Healer.C66_violated_every_error_lost",
    "Healer.C66_violated_every_idle_member",
    "Healer.C66_joinGroup",
    "Healer.C66_syncGroup",
    "Healer.C66_heartbeat",
    "Healer.C66_leaveGroup",
    "Healer.C66_findCoordinator",
    "Healer.C66_error_methods",
    "Healer.C66_deleteGroups",
    "Healer.C66_listGroups_partial",
    "Healer.C66_violated_listGroups_error",
    "Healer.C66_describeGroups_partial",
    "Healer.C66_violated_describeGroups_metadata",
    "Healer.C66_violated_describeGroups_error"
   ],
   "note": "Join, sync, heartbeat, leave, find-coordinator, delete-groups decoded exactly with the error reported. List-groups: values exact, but no error code is reported by anybody (C66_violated_every_listed_error). Describe-groups: all but member metadata, which is never returned (C66_violated_every_metadata); Error() correct. The decoder's own error is that of the assignment of the last group's last member: none if it has one, whatever the groups' errors (C66_violated_every_error_lost), and always one if it has none, as while the group is rebalancing (C66_violated_every_idle_member)."
  },
  {
   "property": "C67",
   "status": "partial",
   "theorems": [
    "Healer.C67_violated_every_throttle",
    "Healer.C67_violated_every_null_metadata",
    "Healer.C67_offsetCommit",
    "Healer.C67_offsetFetch_partial",
    "Healer.C67_violated_null_metadata",
    "Healer.C67_listOffsets_partial",
    "Healer.C67_violated_listOffsets_throttle"
   ],
   "note": "Offset-commit exact. Offset-fetch exact without null metadata; every response with null metadata crashes the decoder (C67_violated_every_null_metadata). List-offsets exact for distinct topics, except the throttle time in version 1, which is always the number of topics (C67_violated_every_throttle)."
  },
  {
   "property": "C68",
   "status": "partial",
   "theorems": [
    "Healer.C68_violated_every_cluster_id",
    "Healer.C68_metadata_partial",
    "Healer.C68_violated_cluster_id",
    "Healer.C68_violated_null_cluster_id"
   ],
   "note": "Everything but the cluster id is exact for versions 1, 4 and 7. The cluster id is read in the wrong form, and a null one shifts the rest. The partial theorem says exactly which cluster id is reported; it is wrong for every text (C68_violated_every_cluster_id)."
  },
  {
   "property": "C69",
   "status": "partial",
   "theorems": [
    "Healer.C69_apiVersions",
    "Healer.C69_saslHandshake_partial",
    "Healer.C69_violated_handshake_error",
    "Healer.C69_saslAuthenticate",
    "Healer.C69_violated_every_error"
   ],
   "note": "API versions and SASL authenticate exact. The handshake error code is read from the wrong bytes and always appears as 0."
  },
  {
   "property": "C70",
   "status": "partial",
   "theorems": [
    "Healer.C70_violated_every_logDirs",
    "Healer.C70_violated_every_unexplained",
    "Healer.C70_violated_every_describeConfigs_message",
    "Healer.C70_violated_every_createPartitions_v0",
    "Healer.C70_topic_errors",
    "Healer.C70_createTopics",
    "Healer.C70_deleteTopics",
    "Healer.C70_electLeaders",
    "Healer.C70_describeLogDirs_partial",
    "Healer.C70_violated_logDirs_correlation",
    "Healer.C70_describeConfigs_partial",
    "Healer.C70_violated_describeConfigs_message",
    "Healer.C70_createPartitions_v2",
    "Healer.C70_createPartitions_v0_partial",
    "Healer.C70_violated_createPartitions_v0",
    "Healer.C70_createPartitions_error_partial",
    "Healer.C70_violated_createPartitions_error"
   ],
   "note": "Create/delete topics, elect leaders, create partitions v2 exact. Log dirs always tell their length as correlation id (C70_violated_every_logDirs); describe-configs gives the first resource, if it has a message but no error, the first byte of the message for its type and loses the message, or crashes (C70_violated_every_describeConfigs_message); create partitions v0 is exact only for one topic (with two topics the client crashes on every answer whose second name is 1 to 255 bytes and whose second message is shorter than 248 bytes: C70_violated_every_createPartitions_v0), and Error() crashes whenever the first failure has no message (C70_violated_every_unexplained)."
  },
  {
   "property": "C71",
   "status": "partial",
   "theorems": [
    "Healer.C71_violated_every_incremental",
    "Healer.C71_violated_every_null",
    "Healer.C71_alterConfigs_partial",
    "Healer.C71_incrementalAlterConfigs_partial",
    "Healer.C71_violated_alterConfigs",
    "Healer.C71_violated_incrementalAlterConfigs",
    "Healer.C71_violated_alterConfigs_null"
   ],
   "note": "With one resource the result is exact (alter-configs: when a message is present). With several, the first result is repeated: C71_violated_alterConfigs and C71_violated_every_incremental prove this for every response. Alter-configs without a message crashes (C71_violated_every_null)."
  },
  {
   "property": "C72",
   "status": "partial",
   "theorems": [
    "Healer.C72_violated_every_unexplained",
    "Healer.C72_violated_every_unexplained_error",
    "Healer.C72_alter",
    "Healer.C72_alter_error_partial",
    "Healer.C72_violated_alter_error",
    "Healer.C72_list_partial",
    "Healer.C72_violated_list_error"
   ],
   "note": "Alter: every field proved for all tags; its Error() dereferences a nil message whenever the first failure has none (C72_violated_every_unexplained). List: skips the response header's tag buffer, so throttle and error code are read one byte early and an error code below 256 is read as 0 (proved for all such codes); the rest of the response is read correctly when no header tags are present."
  },
  {
   "property": "C73",
   "status": "partial",
   "theorems": [
    "Healer.C73_violated_every_partitions_v0",
    "Healer.C73_single_partial",
    "Healer.C73_violated_partitions",
    "Healer.C73_violated_topics",
    "Healer.C73_violated_version0",
    "Healer.C73_violated_every_topics"
   ],
   "note": "Only a single topic with a single partition is read correctly (version 9). With several partitions of one topic, version 9, the first one's fields are repeated for every entry, so later errors are lost (C73_violated_partitions); several topics crash the client whenever the first partition number is below 65536 (C73_violated_every_topics); version 0, which the client can negotiate, crashes on every answer about one partition (C73_violated_version0) and otherwise crashes or repeats the first partition's number, error and offset for every partition of the first topic (C73_violated_every_partitions_v0)."
  },
  {
   "property": "C74",
   "status": "partial",
   "theorems": [
    "Healer.C74_violated_every_unexplained",
    "Healer.C74_violated_every_describeAcls",
    "Healer.C74_violated_every_deleteAcls",
    "Healer.C74_violated_createAcls",
    "Healer.C74_deleteAcls_flexible",
    "Healer.C74_deleteAcls_old_partial",
    "Healer.C74_violated_deleteAcls_two",
    "Healer.C74_deleteAcls_error_partial",
    "Healer.C74_violated_deleteAcls_error",
    "Healer.C74_describeAcls_partial",
    "Healer.C74_violated_describeAcls"
   ],
   "note": "Create ACLs: results are always dropped (the throttle time's position is read as the count), so failures are reported as success whenever throttle is 0. Delete ACLs: correct in versions 2-3; versions 0-1 only for a single result, and with several the client crashes whenever the second has no message, a code below 256 and fewer than 2^24 matches (C74_violated_every_deleteAcls); Error() dereferences a nil message whenever a filter is refused without one (C74_violated_every_unexplained). Describe ACLs: correct in versions 0 and 2; version 1 crashes because a tag buffer is read that version 1 does not have (every answer without message, with throttle time and number of resources below 2^24: C74_violated_every_describeAcls)."
  },
  {
   "property": "C75",
   "status": "partial",
   "theorems": [
    "Healer.C75_violated_every_fetch",
    "Healer.C75_offset_fetch_partial",
    "Healer.C75_log_dirs_partial",
    "Healer.C75_list_reassignments_partial",
    "Healer.C75_offset_commit_partial",
    "Healer.C75_fetch_partial",
    "Healer.C75_violated_fetch"
   ],
   "note": "Offset-fetch, log-dirs, list-reassignments and offset-commit builders keep one entry per partition (last position wins); violated by the fetch builder. The latter for every partition added twice (C75_violated_every_fetch)."
  },
  {
   "property": "C76",
   "status": "proved",
   "theorems": [
    "Healer.C76_alter_configs",
    "Healer.C76_incremental_alter_configs"
   ],
   "note": "Proved for both builders for every sequence of additions."
  },
  {
   "property": "C77",
   "status": "partial",
   "theorems": [
    "Healer.C77_refused_partial",
    "Healer.C77_added_partial",
    "Healer.C77_violated",
    "Healer.C77_violated_always"
   ],
   "note": "Unknown topics are refused and assignments in ascending order are added; violated: replacing an assignment or adding below an existing one fails."
  },
  {
   "property": "C78",
   "status": "proved",
   "theorems": [
    "Healer.C78_token",
    "Healer.C78_injective"
   ],
   "note": "Token layout proved at the level of the encoded request; injectivity for users without NUL."
  },
  {
   "property": "C79",
   "status": "partial",
   "theorems": [
    "Healer.C79_violated_always",
    "Healer.C79_every_group_partial",
    "Healer.C79_violated"
   ],
   "note": "On success one request per group went to the broker named as coordinator and results are complete; C79_violated_always: any group in error loses the results of those before it and skips the rest."
  },
  {
   "property": "C80",
   "status": "proved",
   "theorems": [
    "Healer.C80_requested_topics"
   ],
   "note": "Proved for every cluster, broker answer and topic list."
  },
  {
   "property": "C81",
   "status": "partial",
   "theorems": [
    "Healer.C81_violated_every_length",
    "Healer.C81_rejects_partial",
    "Healer.C81_violated_describeAcls"
   ],
   "note": "Every API except describe-ACLs, whose decoder skips the prefix unread: every answer is accepted with every announced length (C81_violated_every_length). Alter-reassignments and delete-ACLs compare in 32 bits, hence the 2 GB bound for them."
  },
  {
   "property": "C82",
   "status": "partial",
   "theorems": [
    "Healer.C82_violated_every_compressed",
    "Healer.C82_violated_compressed",
    "Healer.C82_unpacked_partial"
   ],
   "note": "Violated: Message.decompress calls Compress (message.go:39-46). Witness with a lossless codec (C82_violated_compressed); for every compressed message and every codec whose output does not begin with a zero byte, what is decoded is never the messages inside (C82_violated_every_compressed). Apart from the codec the decoding is right: C82_unpacked_partial shows that with the right bytes from the codec all messages, inside compressed ones and after them, are delivered in order."
  },
  {
   "property": "C83",
   "status": "partial",
   "theorems": [
    "Healer.C83_violated_tombstone",
    "Healer.C83_violated_always"
   ],
   "note": "Violated for every record without value: it is written with an empty value, never with the null value."
  },
  {
   "property": "C84",
   "status": "partial",
   "theorems": [
    "Healer.C84_violated_control_batch",
    "Healer.C84_violated_always"
   ],
   "note": "Violated for every control batch: all its records from the requested offset on are delivered as messages."
  },
  {
   "property": "C85",
   "status": "partial",
   "theorems": [
    "Healer.C85_violated_append_time",
    "Healer.C85_exact_partial",
    "Healer.C85_violated_always"
   ],
   "note": "Exactly characterised: the timestamps are right only if base timestamp plus delta happens to be the append time; otherwise violated."
  },
  {
   "property": "C86",
   "status": "partial",
   "theorems": [
    "Healer.C86_violated_top_level_error",
    "Healer.C86_violated_no_difference"
   ],
   "note": "Violated: the error code in the header is skipped: every response is read with any error code as with none, and with no topics nothing is handed over."
  },
  {
   "property": "C87",
   "status": "partial",
   "theorems": [
    "Healer.C87_violated_zstd",
    "Healer.C87_violated_always"
   ],
   "note": "Violated for every batch with codec 4: the codec is masked to 0 and the bytes are read as uncompressed records."
  },
  {
   "property": "C88",
   "status": "partial",
   "theorems": [
    "Healer.C88_violated_cancel"
   ],
   "note": "Violated for every request: nil replicas are written as an empty list."
  },
  {
   "property": "C89",
   "status": "partial",
   "theorems": [
    "Healer.C89_violated_every_cut",
    "Healer.C89_violated_truncated",
    "Healer.C89_violated_count",
    "Healer.C89_violated_every_auth"
   ],
   "note": "Violated for 16 kinds of answers: every cut, correctly framed, before the last byte that counts crashes the client, and never gives an error; a large count crashes it too. An answer to the authentication that announces more bytes than it holds is taken for a success, with zeros in place of what is missing (C89_violated_every_auth)."
  },
  {
   "property": "C90",
   "status": "partial",
   "theorems": [
    "Healer.C90_violated_leak",
    "Healer.C90_not_connected_partial",
    "Healer.C90_violated_always",
    "Healer.C90_sasl_partial",
    "Healer.C90_violated_password"
   ],
   "note": "Proved when no connection could be opened, and that a failed authentication closes it exactly after timeout, end of file and broken pipe. Violated by every failure to obtain the API versions and by a refused password."
  },
  {
   "property": "C91",
   "status": "partial",
   "theorems": [
    "Healer.C91_violated_all_mechanisms",
    "Healer.C91_rejected_partial",
    "Healer.C91_violated_mechanism",
    "Healer.C91_plain_partial"
   ],
   "note": "Such a broker is never handed out, but after an accepted handshake the attempt panics (nil header in the zero-valued request). Shown for every other mechanism and every broker that accepts the handshake (C91_violated_all_mechanisms)."
  },
  {
   "property": "C92",
   "status": "partial",
   "theorems": [
    "Healer.C92_violated_always",
    "Healer.C92_new_connection_partial",
    "Healer.C92_violated_cached",
    "Healer.C92_refreshed_partial",
    "Healer.C92_address_partial"
   ],
   "note": "nodes not yet connected are contacted at the known address; violated for cached nodes, whose object keeps the old address. Whatever is done in between (C92_violated_always)."
  },
  {
   "property": "C93",
   "status": "partial",
   "theorems": [
    "Healer.C93_offsets_partial",
    "Healer.C93_violated",
    "Healer.C93_violated_every_topicless"
   ],
   "note": "RequestOffsets panics exactly on an error-free answer without topics. False for every topic and partition: a client connected to some broker crashes in RequestOffsets and findLeader whenever the brokers answer without topics."
  },
  {
   "property": "C94",
   "status": "partial",
   "theorems": [
    "Healer.C94_violated_every_bootstrap",
    "Healer.C94_own_node_partial",
    "Healer.C94_violated_bootstrap"
   ],
   "note": "Holds when no bootstrap address equals a node's address; otherwise the bootstrap object, created with node id -1, is cached and its groups are listed under -1, in every cluster whose bootstrap server coordinates groups (C94_violated_every_bootstrap)."
  },
  {
   "property": "C95",
   "status": "partial",
   "theorems": [
    "Healer.C95_violated",
    "Healer.C95_exact_partial",
    "Healer.C95_violated_always"
   ],
   "note": "Proved: exactly which connections a refresh leaves open. Violated by every successful refresh: at least one connection more is open after it."
  },
  {
   "property": "C96",
   "status": "partial",
   "theorems": [
    "Healer.C96_violated_every_lookup",
    "Healer.C96_configured_side_partial",
    "Healer.C96_violated_committed"
   ],
   "note": "Holds without committed position; false with one (fromBeginning is only set by initOffset). Every look-up of such a consumer goes to the end (C96_violated_every_lookup)."
  },
  {
   "property": "C97",
   "status": "partial",
   "theorems": [
    "Healer.C97_violated_always",
    "Healer.C97_member_partial",
    "Healer.C97_violated_own"
   ],
   "note": "Holds for group members; false for consumers committing for themselves. In every state in which the look-up fails (C97_violated_always)."
  },
  {
   "property": "C98",
   "status": "partial",
   "theorems": [
    "Healer.C98_violated_unread",
    "Healer.C98_violated_always",
    "Healer.C98_drained_partial"
   ],
   "note": "Proved: when the decoder is done the response has been read. Violated for every response whose first partition has an error: the error is handed over with at least twelve bytes unread."
  },
  {
   "property": "C99",
   "status": "partial",
   "theorems": [
    "Healer.C99_crash_iff_partial",
    "Healer.C99_violated_unreachable",
    "Healer.C99_violated_every_unreachable",
    "Healer.C99_unanswered_partial"
   ],
   "note": "Exact condition for the crash. False for every topic, partition and cluster: a leader that refuses connections and was not connected to before crashes the consumer through a nil pointer in a log statement (simple_consumer.go:171). When no broker answers for the metadata, the look-ups of leaders and offsets all report an error (C99_unanswered_partial)."
  },
  {
   "property": "C100",
   "status": "partial",
   "theorems": [
    "Healer.C100_violated_every_assignment",
    "Healer.C100_all_stopped_partial",
    "Healer.C100_violated"
   ],
   "note": "Proved for calm runs; violated when Close is called while the consumer is joining. C100_violated_every_assignment: if Close is done while the assignment is asked for, whatever number of partitions is assigned, all of them may be consumed afterwards."
  },
  {
   "property": "C101",
   "status": "partial",
   "theorems": [
    "Healer.C101_violated_every_restart",
    "Healer.C101_left_partial",
    "Healer.C101_violated"
   ],
   "note": "Proved for calm runs in which the leave request succeeds; violated when Close is called while the consumer is joining. C101_violated_every_restart: in every state in which a restart has stopped the partition consumers, Close leaves without a request."
  },
  {
   "property": "C102",
   "status": "partial",
   "theorems": [
    "Healer.C102_violated_every_second",
    "Healer.C102_first_close_partial",
    "Healer.C102_violated"
   ],
   "note": "The first Close in a calm run comes to its end by its own steps; a second Close blocks for ever on closeChan, whatever came before and comes after, unless Consume is called again (C102_violated_every_second)."
  },
  {
   "property": "C103",
   "status": "proved",
   "theorems": [
    "Healer.C103_subscribed_topics"
   ],
   "note": ""
  },
  {
   "property": "C104",
   "status": "partial",
   "theorems": [
    "Healer.C104_violated_always",
    "Healer.C104_violated",
    "Healer.C104_last_commit_partial"
   ],
   "note": "Violated: Stop does not wait for the auto-commit goroutine, and after leaving the member id is empty, so nothing is sent. Proved: the last commit, if it comes before leaving, carries the final position. Shown for every position and every number of calls after leaving (C104_violated_always)."
  },
  {
   "property": "C105",
   "status": "partial",
   "theorems": [
    "Healer.C105_violated",
    "Healer.C105_same_generation_partial",
    "Healer.C105_violated_any_generation"
   ],
   "note": "Proved: within one generation all commits carry it. Violated by every rebalance: commitOffset reads the current member id and generation when the request is built, so the last commit of a stopped consumer is made in the new generation."
  },
  {
   "property": "C106",
   "status": "partial",
   "theorems": [
    "Healer.C106_violated",
    "Healer.C106_violated_forever",
    "Healer.C106_first_leader_partial"
   ],
   "note": "Proved that keyed messages go to the node which was leader when the first of them was added. Violated once the leader moves: the node never changes."
  },
  {
   "property": "C107",
   "status": "partial",
   "theorems": [
    "Healer.C107_violated_every_leaderless",
    "Healer.C107_connected_partial",
    "Healer.C107_violated"
   ],
   "note": "Proved for all cases but that of an unknown leader; violated there: whenever the metadata say that the partition has no leader, createLeader returns a nil broker and a nil error (C107_violated_every_leaderless)."
  },
  {
   "property": "C108",
   "status": "partial",
   "theorems": [
    "Healer.C108_violated_every_partition",
    "Healer.C108_available_partial",
    "Healer.C108_violated"
   ],
   "note": "Proved for answers without errors; violated otherwise: an error of any partition makes the whole refresh fail (C108_violated_every_partition)."
  },
  {
   "property": "C109",
   "status": "partial",
   "theorems": [
    "Healer.C109_kafka_names_partial",
    "Healer.C109_kafka_names_read_partial",
    "Healer.C109_numbers_read_partial",
    "Healer.C109_violated"
   ],
   "note": "Proved for pattern types and permissions; violated for resource type CLUSTER and the token operations."
  },
  {
   "property": "C110",
   "status": "proved",
   "theorems": [
    "Healer.C110_timeouts"
   ],
   "note": "Proved for every accepted configuration, at the moment the consumer is made (sharing of arrays is C54)."
  },
  {
   "property": "C111",
   "status": "partial",
   "theorems": [
    "Healer.C111_violated_every_config",
    "Healer.C111_violated_every_short",
    "Healer.C111_violated",
    "Healer.C111_producer_partial"
   ],
   "note": "Producers proved (C111_producer_partial); for consumers the timeouts given are overwritten whatever they are (C111_violated_every_config), or the program panics if there are one to eleven (C111_violated_every_short)."
  },
  {
   "property": "C112",
   "status": "partial",
   "theorems": [
    "Healer.C112_violated_always",
    "Healer.C112_violated",
    "Healer.C112_all_added_partial",
    "Healer.C112_create_partitions_partial"
   ],
   "note": "All additions are kept in order; the builders do not merge duplicates. Shown for every partition (C112_violated_always)."
  },
  {
   "property": "C113",
   "status": "partial",
   "theorems": [
    "Healer.C113_violated_always",
    "Healer.C113_first_controller_partial",
    "Healer.C113_violated"
   ],
   "note": "The controller id is read once, when the client is made, and never refreshed: C113_violated_always shows it after any use of the client."
  },
  {
   "property": "C114",
   "status": "partial",
   "theorems": [
    "Healer.C114_violated_always",
    "Healer.C114_controller_partial",
    "Healer.C114_delete_topics_partial",
    "Healer.C114_violated"
   ],
   "note": "All calls through the controller return errors; DeleteTopics panics when the request fails without a response. Shown for every failed request (C114_violated_always)."
  },
  {
   "property": "C115",
   "status": "partial",
   "theorems": [
    "Healer.C115_violated_always",
    "Healer.C115_every_node_partial",
    "Healer.C115_violated"
   ],
   "note": "Holds when all brokers answer without error; C115_violated_always: any broker in error is left out of a successful result."
  },
  {
   "property": "C116",
   "status": "proved",
   "theorems": [
    "Healer.C116_asked",
    "Healer.C116_reported"
   ],
   "note": "Proved for every metadata answer and every iteration order."
  },
  {
   "property": "C117",
   "status": "partial",
   "theorems": [
    "Healer.C117_not_reused_partial",
    "Healer.C117_fetch_partial",
    "Healer.C117_violated_reset",
    "Healer.C117_violated_opening",
    "Healer.C117_violated_every_failure",
    "Healer.C117_violated_every_reopening"
   ],
   "note": "Proved for requests failing with EOF or a broken pipe on an open connection, and for fetches failing to get the length of the answer for any reason. Violated for every other error (connection reset, timeout; C117_violated_every_failure) and for every failure while a connection is opened (C117_violated_every_reopening): the dead connection is used again."
  },
  {
   "property": "C118",
   "status": "partial",
   "theorems": [
    "Healer.C118_negotiated_partial",
    "Healer.C118_violated",
    "Healer.C118_violated_every_reopening"
   ],
   "note": "Proved for brokers that tell their versions without error on every new connection. Violated whenever this fails, whatever the failure and the next request (C118_violated_every_reopening): createConnAndAuth leaves the connection open with the versions of the previous one."
  },
  {
   "property": "C119",
   "status": "partial",
   "theorems": [
    "Healer.C119_joinGroup",
    "Healer.C119_syncGroup",
    "Healer.C119_heartbeat",
    "Healer.C119_leaveGroup",
    "Healer.C119_findCoordinator",
    "Healer.C119_deleteGroups",
    "Healer.C119_listGroups_partial",
    "Healer.C119_describeGroups_partial",
    "Healer.C119_offsetCommit",
    "Healer.C119_offsetFetch_partial",
    "Healer.C119_offsets_partial",
    "Healer.C119_apiVersions",
    "Healer.C119_saslHandshake_partial",
    "Healer.C119_saslAuthenticate",
    "Healer.C119_createTopics",
    "Healer.C119_deleteTopics",
    "Healer.C119_electLeaders",
    "Healer.C119_describeLogDirs_partial",
    "Healer.C119_describeConfigs_partial",
    "Healer.C119_createPartitions_partial",
    "Healer.C119_alterConfigs_partial",
    "Healer.C119_incrementalAlterConfigs_partial",
    "Healer.C119_alterPartitionReassignments",
    "Healer.C119_listPartitionReassignments_partial",
    "Healer.C119_produce_partial",
    "Healer.C119_deleteAcls_partial",
    "Healer.C119_violated_createAcls",
    "Healer.C119_describeAcls_partial",
    "Healer.C119_metadata_partial",
    "Healer.C119_stream"
   ],
   "note": "One theorem for each API: what C66-C74 say of the decoder, for parse with the API key and the version; and for any splitting of the stream. Partial where the decoder itself is (see C66-C74). Violated for create-ACLs in every version: the results are not read, so refusals pass for success (`C119_violated_createAcls`)."
  },
  {
   "property": "C120",
   "status": "proved",
   "theorems": [
    "Healer.C120_stop_returns",
    "Healer.C120_steps",
    "Healer.C120_stop_ends"
   ],
   "note": "Model/Consumer.lean, where the measure LoopAt.left decreases with each step of the loop; and Model/Starting.lean, where reading the flag, sending the fetch, the start of the loop and Stop are steps of their own (C120_steps, C120_stop_ends; a fetch for which the flag was read before adds the length of its answer)."
  },
  {
   "property": "C121",
   "status": "partial",
   "theorems": [
    "Healer.C121_silent_after_stop",
    "Healer.C121_no_fetch_partial",
    "Healer.C121_start_partial",
    "Healer.C121_one_fetch_partial",
    "Healer.C121_violated_every_check",
    "Healer.C121_violated_every_start",
    "Healer.C121_violated_every_lookup"
   ],
   "note": "When the loop has ended there is silence (C121_silent_after_stop); also if Stop is called while Consume has not returned or the loop has not begun, no fetch is sent and no message handed over once Stop has returned (C121_start_partial, all interleavings). From the moment the flag is set at most one fetch is sent (C121_one_fetch_partial). Violated: that one fetch, whenever the loop has just read the flag (C121_violated_every_check); and Stop can return while Consume is asking for its position: the committed position is then asked for any number of times (C121_violated_every_start), or the leader once (C121_violated_every_lookup)."
  },
  {
   "property": "C122",
   "status": "partial",
   "theorems": [
    "Healer.C122_violated_every_missing",
    "Healer.C122_violated_every_other",
    "Healer.C122_first_fetch",
    "Healer.C122_committed",
    "Healer.C122_lookup_partial",
    "Healer.C122_violated_crash",
    "Healer.C122_violated_other_partition",
    "Healer.C122_consume_steps"
   ],
   "note": "Proved for the first fetch, for reading the committed position, and for the steps of Consume one by one (C122_consume_steps). Partial for the look-up: a crash for every answer that lacks the topic (C122_violated_every_missing), and the first partition of the topic is taken whatever its id (C122_violated_every_other)."
  },
  {
   "property": "C123",
   "status": "partial",
   "theorems": [
    "Healer.C123_violated_every_twice",
    "Healer.C123_started_once_partial",
    "Healer.C123_violated_twice",
    "Healer.C123_violated_running",
    "Healer.C123_joins_stopped_partial"
   ],
   "note": "Proved when Close is not called during joining or restarting and nothing is started after it. Without this condition it fails: Consume called again while partition consumers run, then Close, starts all of them a second time, in every state in which they run (C123_violated_every_twice); Close while joining followed by Consume leads to a join while partition consumers run (C123_violated_running)."
  },
  {
   "property": "C124",
   "status": "partial",
   "theorems": [
    "Healer.C124_violated_every_empty",
    "Healer.C124_violated_every_wrap",
    "Healer.C124_violated_every_twice",
    "Healer.C124_partial",
    "Healer.C124_subscribe",
    "Healer.C124_violated_empty",
    "Healer.C124_violated_wrap",
    "Healer.C124_violated_twice"
   ],
   "note": "Proved for Subscribe (C124_subscribe) and for assignments with partition numbers in range, given once, in non-empty lists (C124_partial); violated for empty lists (all partitions are consumed), numbers beyond 32 bits (another partition is consumed) and numbers given twice. Each shown for every such list or number (C124_violated_every_empty, _every_wrap, _every_twice)."
  },
  {
   "property": "C125",
   "status": "partial",
   "theorems": [
    "Healer.C125_violated_every_twice",
    "Healer.C125_violated_every_racing",
    "Healer.C125_partial",
    "Healer.C125_violated_twice",
    "Healer.C125_violated_racing"
   ],
   "note": "Proved when Consume and AwaitClose are each called once and not concurrently; violated for every second AwaitClose (C125_violated_every_twice) and for every AwaitClose while Consume has partition consumers still to start (C125_violated_every_racing)."
  },
  {
   "property": "C126",
   "status": "partial",
   "theorems": [
    "Healer.C126_violated_every_racing",
    "Healer.C126_violated_every_twice",
    "Healer.C126_returns",
    "Healer.C126_partial",
    "Healer.C126_violated_racing",
    "Healer.C126_violated_twice"
   ],
   "note": "Proved under the same condition as C125, where AwaitClose also returns (C126_returns); violated for every AwaitClose while Consume makes the partition consumers (C126_violated_every_racing) and for every second Consume (C126_violated_every_twice)."
  },
  {
   "property": "C127",
   "status": "partial",
   "theorems": [
    "Healer.C127_violated_every_uncommitted",
    "Healer.C127_partial",
    "Healer.C127_unknown_partial",
    "Healer.C127_totals_partial",
    "Healer.C127_violated_uncommitted"
   ],
   "note": "For clusters answering in an orderly way (requests may fail at any time) every line printed is right, and so are the sums as long as they fit 64 bits. False for every partition a group committed nothing for: the lag is one too high (C127_violated_every_uncommitted)."
  },
  {
   "property": "C128",
   "status": "partial",
   "theorems": [
    "Healer.C128_violated_every_late",
    "Healer.C128_violated_every_unknown",
    "Healer.C128_partial",
    "Healer.C128_violated_late",
    "Healer.C128_violated_unknown",
    "Healer.C128_violated_storage"
   ],
   "note": "The one commit sent is proved to have exactly the entries asked for. False for every timestamp after the last message (-1 is committed), for every choice of partitions that do not exist (success without effect) and for --offsets.storage (the tool reads a flag it does not declare)."
  },
  {
   "property": "C129",
   "status": "partial",
   "theorems": [
    "Healer.C129_violated_every_order",
    "Healer.C129_parsed_partial",
    "Healer.C129_create_partitions_partial",
    "Healer.C129_ascending_partial",
    "Healer.C129_violated_order",
    "Healer.C129_violated_empty",
    "Healer.C129_violated_wrap",
    "Healer.C129_violated_every_empty",
    "Healer.C129_violated_every_wrap"
   ],
   "note": "Round trip with a printer of assignments. False: create-topic adds the partitions in the order of a map, and AddReplicaAssignment refuses all but ascending ones, an error the tool drops, so every order in which another partition comes first loses partition 0 (C129_violated_every_order); every assignment with an empty entry before the last crashes create-partitions; every node id from 2^31 on becomes another node."
  },
  {
   "property": "C130",
   "status": "partial",
   "theorems": [
    "Healer.C130_violated_every_refused",
    "Healer.C130_partial",
    "Healer.C130_violated_refused"
   ],
   "note": "Every line is sent once, in order and unchanged, with any batching and timer. False whenever the broker refuses the requests: AddMessage and Close drop the error (C130_violated_every_refused). A timer waiting for the mutex during Close can send the last batch again (C46_violated)."
  },
  {
   "property": "C131",
   "status": "partial",
   "theorems": [
    "Healer.C131_violated_every_end",
    "Healer.C131_partial",
    "Healer.C131_ends_partial",
    "Healer.C131_violated_waits"
   ],
   "note": "What is printed is a stretch of the log, complete when the tool ends. False that it ends: with a stop offset behind the last message it prints all and waits (C131_violated_every_end)."
  },
  {
   "property": "C132",
   "status": "partial",
   "theorems": [
    "Healer.C132_violated_every_offsets",
    "Healer.C132_partial",
    "Healer.C132_violated_offsets"
   ],
   "note": "True for every cluster when the offsets could be had. False whenever they could not: status 200 with offsets 0 and negated commits as lags (C132_violated_every_offsets)."
  },
  {
   "property": "C133",
   "status": "partial",
   "theorems": [
    "Healer.C133_metadata_partial",
    "Healer.C133_violated_metadata_all",
    "Healer.C133_listGroups_partial",
    "Healer.C133_createAcls",
    "Healer.C133_createAcls_old",
    "Healer.C133_deleteAcls_partial",
    "Healer.C133_violated_deleteAcls",
    "Healer.C133_describeAcls",
    "Healer.C133_incrementalAlterConfigs",
    "Healer.C133_alterPartitionReassignments",
    "Healer.C133_produce_partial",
    "Healer.C133_violated_produce_compressed"
   ],
   "note": "Holds for create ACLs, describe ACLs, incremental config changes and reassignments in every version; for metadata with a topic list, list groups with filters, delete ACLs from version 2 and produce with uncompressed batches. Fails: a metadata request for all topics (nil list) panics when read back, delete ACLs in versions 0 and 1 with two filters panic, and compressed produce batches are taken for uncompressed ones."
  },
  {
   "property": "C134",
   "status": "partial",
   "theorems": [
    "Healer.C134_close_partial",
    "Healer.C134_violated_twice",
    "Healer.C134_violated_bootstrap",
    "Healer.C134_between_requests_partial",
    "Healer.C134_violated_during_request",
    "Healer.C134_waiting_partial",
    "Healer.C134_account",
    "Healer.C134_broken",
    "Healer.C134_violated_reopened",
    "Healer.C134_violated_every_reopened"
   ],
   "note": "Holds for the connections in the cache and for Close between requests or while a request waits for bytes; violated: the second Close panics (close of closed channel), the bootstrap connection is never closed, Close in the middle of a request makes the request dereference nil, and a later request opens a connection again."
  },
  {
   "property": "C135",
   "status": "partial",
   "theorems": [
    "Healer.C135_violated_every_first_messages",
    "Healer.C135_all_sent_partial",
    "Healer.C135_violated_first_messages"
   ],
   "note": "Holds when no call begins while another one is making the partition producer for the same partition (each partition's first message apart); otherwise violated after every history, for any two goroutines and any partition without a producer so far, because getSimpleProducer takes no lock: the partition producer of one goroutine is replaced in the map and Close does not flush it."
  },
  {
   "property": "C136",
   "status": "partial",
   "theorems": [
    "Healer.C136_lost_partial",
    "Healer.C136_requests_in_order",
    "Healer.C136_recovers_partial",
    "Healer.C136_violated_other_errors",
    "Healer.C136_violated_every_other"
   ],
   "note": "Requests are in order for every sequence of answers. Recovery is proved for the errors which the code recognises (15, 16, and for a join EOF, connection refused, network unreachable, i/o timeout); C136_violated_every_other: after every sequence of other errors, such as \"no route to host\", the consumer dials the coordinator it knows again and has not asked who the coordinator is now."
  },
  {
   "property": "C137",
   "status": "partial",
   "theorems": [
    "Healer.C137_violated_every_silent",
    "Healer.C137_alter",
    "Healer.C137_deleteAcls",
    "Healer.C137_describeAcls",
    "Healer.C137_listGroups",
    "Healer.C137_createAcls_partial",
    "Healer.C137_violated_createAcls"
   ],
   "note": "Proved for AlterPartitionReassignments, DeleteAcls, DescribeAcls and ListGroups in every supported version. CreateAclsResponse.Encode violates it: its buffer lacks the four bytes of the length, so every version 0 or 1 response without messages panics (C137_violated_every_silent), one with a single message is truncated, and tagged fields of a result are replaced by those of the response. C137_createAcls_partial covers two messages or more before version 2, and no tagged fields."
  },
  {
   "property": "C138",
   "status": "partial",
   "theorems": [
    "Healer.C138_names",
    "Healer.C138_heartbeat",
    "Healer.C138_syncGroup",
    "Healer.C138_joinGroup",
    "Healer.C138_leaveGroup_partial",
    "Healer.C138_violated_leave",
    "Healer.C138_violated_leave_network",
    "Healer.C138_findCoordinator",
    "Healer.C138_offsets_partial",
    "Healer.C138_metadata_partial",
    "Healer.C138_listGroups_partial"
   ],
   "note": "requestLeaveGroup asserts the type of a nil response: any error code in the answer to LeaveGroup, and any network failure, ends the program (C138_violated_leave, C138_violated_leave_network), for example when a group consumer whose member was already removed is closed. Missing: a broker without a connection (opening one is C31, C118), metadata with a null cluster id, list groups with an error code (never reported)."
  },
  {
   "property": "C139",
   "status": "partial",
   "theorems": [
    "Healer.C139_violated_every_middle",
    "Healer.C139_flow_partial",
    "Healer.C139_violated_middle",
    "Healer.C139_ordinary"
   ],
   "note": "Proved through the bytes for all flushes, codecs and logs when the consumer begins at the first offset of a batch and gets whole batches. C139_ordinary: the batches are ordinary ones (no producer id, neither transactional nor control). Missing: beginning inside a batch, which fails for every flush of two or more messages, because all records are sent with offset delta 0 (C139_violated_every_middle, see C12)."
  },
  {
   "property": "C140",
   "status": "proved",
   "theorems": [
    "Healer.C140_not_skipped"
   ],
   "note": "Proved for all responses with one partition (as C15); the codecs are parameters."
  },
  {
   "property": "C141",
   "status": "partial",
   "theorems": [
    "Healer.C141_violated_every_buffered",
    "Healer.C141_restart_partial",
    "Healer.C141_received_partial",
    "Healer.C141_violated_buffered"
   ],
   "note": "C141_restart_partial: for messages put into the channels. C141_received_partial: for messages received, with unbuffered channels. C141_violated_every_buffered: with a channel of any size above 0 (Consume makes one of 100 places), any messages next in the log, as many as fit, can be put into the channel and passed over by a commit without anybody having received them, and the next consumer starts after them. C141_violated_buffered: a case."
  },
  {
   "property": "C142",
   "status": "partial",
   "theorems": [
    "Healer.C142_exact_partial",
    "Healer.C142_known",
    "Healer.C142_format",
    "Healer.C142_admitted",
    "Healer.C142_get_allowed",
    "Healer.C142_violated_preflight",
    "Healer.C142_violated_case"
   ],
   "note": "C142_known: whatever is let in has spelled out the credentials. C142_exact_partial: credentials in the canonical encoding are let in exactly if they are the right ones. Violated: with --cors the preflight request, which never carries credentials, is answered 401 unless --get-allowed is given (C142_violated_preflight); the scheme is compared with case (C142_violated_case). Not modelled: net/http and gin's routing; base64 is that of the standard library, described from its documentation."
  },
  {
   "property": "C143",
   "status": "partial",
   "theorems": [
    "Healer.C143_client",
    "Healer.C143_listGroups",
    "Healer.C143_acl",
    "Healer.C143_createPartitions",
    "Healer.C143_electLeaders",
    "Healer.C143_alterReassignments",
    "Healer.C143_topicOffsets",
    "Healer.C143_topicConfig",
    "Healer.C143_metadata",
    "Healer.C143_listReassignments_partial",
    "Healer.C143_violated_noBody",
    "Healer.C143_describeLogdirs_partial",
    "Healer.C143_violated_twoBodies",
    "Healer.C143_describeGroups_partial",
    "Healer.C143_violated_wrongBroker"
   ],
   "note": "One theorem per handler. Violated: listing reassignments without body, which the handler means to support, is answered 400 with the result (BindJSON has aborted by then); describing log dirs or a group goes on after errors, so that the body is the text of the error with JSON behind it, in the case of a group possibly from node 0, which does not coordinate it. GetPending is C132."
  },
  {
   "property": "C144",
   "status": "partial",
   "theorems": [
    "Healer.C144_closed_partial",
    "Healer.C144_violated_left"
   ],
   "note": "Violated: listing groups, describing a group and describing log dirs never close what they opened. Not modelled: what Close itself does (C95, C134)."
  },
  {
   "property": "C145",
   "status": "partial",
   "theorems": [
    "Healer.C145_acknowledged_partial",
    "Healer.C145_violated_noAcks",
    "Healer.C145_compressed_partial"
   ],
   "note": "With acks 1 or -1 and request version 9, a flush writes exactly the request for the messages (with compression: one batch with the right codec bits and checksum which the codec unpacks to exactly the messages) and reports success exactly if the answer's error code is 0. Violated for acks 0: the messages are sent, Kafka answers nothing, and the flush waits until the read times out and reports an error (simple_producer.go:215-220). Missing for the full statement: other versions (see C64, C73). The compressors are external; they are taken to be undone by the decompressors."
  },
  {
   "property": "C146",
   "status": "proved",
   "theorems": [
    "Healer.C146_plain",
    "Healer.C146_no_settings",
    "Healer.C146_secure"
   ],
   "note": "Holds for the clients that have a configuration (consumers, producers). The `Client` of client.go and the command-line tools take no security settings and always connect plainly. A file of authorities in which no certificate is found is accepted (the result of AppendCertsFromPEM is ignored); nothing is trusted then."
  },
  {
   "property": "C147",
   "status": "partial",
   "theorems": [
    "Healer.C147_violated_every_left_open",
    "Healer.C147_violated_every_alias",
    "Healer.C147_in_order_partial",
    "Healer.C147_one_suffices_partial",
    "Healer.C147_open_partial",
    "Healer.C147_violated_left_open",
    "Healer.C147_violated_alias"
   ],
   "note": "The order of attempts and that one server suffices hold for all behaviours of the servers. Connections: every server that was connected to but answered with an error or without brokers stays connected (C147_violated_every_left_open); so does every server given under a name other than the one the cluster uses (C147_violated_every_alias). Without these C147_open_partial shows that the kept connection is the only one."
  },
  {
   "property": "C148",
   "status": "partial",
   "theorems": [
    "Healer.C148_all_groups_partial",
    "Healer.C148_one_group_partial",
    "Healer.C148_pattern_partial",
    "Healer.C148_expression_partial",
    "Healer.C148_violated_crash",
    "Healer.C148_violated_plus",
    "Healer.C148_members_partial",
    "Healer.C148_tables_partial",
    "Healer.C148_violated_idle",
    "Healer.C148_violated_silent",
    "Healer.C148_violated_every_plusplus",
    "Healer.C148_violated_every_silent"
   ],
   "note": "Proved: which groups are selected (all listed, one, or those fitting a pattern of dots, stars and inert characters), that members and topics are those of the assignments, and that each selected group and topic gets a true table or a logged failure. Shown wrong: every pattern with two plus signs in a row behind one or more plain characters, dots or stars, such as \"c++*\", crashes the tool (C148_violated_every_plusplus); in \"a+b*\" the plus sign is not taken literally; a group with a member without assignment is not shown, even for a topic given; when the listing fails the tool ends with success and shows nothing. The regexp library is an assumption (structure Regexps), which says nothing of patterns that begin with a plus or question mark: Go takes these for repetitions of the ^ put in front."
  },
  {
   "property": "C149",
   "status": "partial",
   "theorems": [
    "Healer.C149_elect_leaders",
    "Healer.C149_elect_leaders_http_partial",
    "Healer.C149_alter_reassignments",
    "Healer.C149_list_reassignments",
    "Healer.C149_http_partial",
    "Healer.C149_create_topic",
    "Healer.C149_create_topics",
    "Healer.C149_create_partitions_partial",
    "Healer.C149_delete_topics",
    "Healer.C149_alter_waits",
    "Healer.C149_alter_waits_http_partial",
    "Healer.C149_delete_waits",
    "Healer.C149_waits_partial",
    "Healer.C149_violated_gives_up",
    "Healer.C149_violated_wraps",
    "Healer.C149_violated_every_wrap"
   ],
   "note": "The groups by topic are right for all of them, and alter-partition-reassignments and delete-topics wait long enough. The code violates the rest: elect-leaders (whose handler sets the timeout of another API), list-partition-reassignments, create-topic and create-partitions give up after 30 seconds whatever timeout they send (`C149_violated_gives_up`); the handlers cut every timeout of more than 32 bits (`C149_violated_every_wrap`). Versions below 2 of create-partitions: C61."
  },
  {
   "property": "C150",
   "status": "partial",
   "theorems": [
    "Healer.C150_describe_partial",
    "Healer.C150_describe_asks",
    "Healer.C150_alter_partial",
    "Healer.C150_violated_alter",
    "Healer.C150_violated_logger",
    "Healer.C150_violated_unknown",
    "Healer.C150_violated_wide",
    "Healer.C150_violated_defaults"
   ],
   "note": "The code violates it: alter-configs always asks the controller (`C150_violated_alter`), describing loggers does too (`C150_violated_logger`); misspelt types are sent as type 0 (`C150_violated_unknown`), node ids are cut to 32 bits (`C150_violated_wide`), and the defaults of all brokers cannot be described (`C150_violated_defaults`)."
  },
  {
   "property": "C151",
   "status": "partial",
   "theorems": [
    "Healer.C151_follows_partial",
    "Healer.C151_stays",
    "Healer.C151_start",
    "Healer.C151_epoch_partial",
    "Healer.C151_violated_stuck",
    "Healer.C151_violated_epoch",
    "Healer.C151_violated_dead",
    "Healer.C151_no_crash",
    "Healer.C151_keeps_looking"
   ],
   "note": "With the old node answering and an epoch not newer than the cluster's, the consumer is served by the leader after three turns of its loop, whatever the ticker does in between, and stays there (`C151_follows_partial`, `C151_stays`); a new consumer after one (`C151_start`); with any epoch two turns after the next refreshing (`C151_epoch_partial`). Failed searches are repeated until one succeeds (`C151_keeps_looking`, `C151_no_crash`). Violated: the leader is looked for only upon error 6, so a consumer whose leader died (`C151_violated_dead`) or answers with another error, such as 56, stays with it for ever (`C151_violated_stuck`); and error 75 (UNKNOWN_LEADER_EPOCH) is not acted upon, so the consumer waits for the minute's refreshing (`C151_violated_epoch`). The cluster is assumed settled: every answer tells the truth, and one of the known nodes can be reached and answers."
  },
  {
   "property": "C152",
   "status": "partial",
   "theorems": [
    "Healer.C152_found_partial",
    "Healer.C152_commits_partial",
    "Healer.C152_violated_moved",
    "Healer.C152_violated_read"
   ],
   "note": "In a cluster that agrees on the coordinator the constructor finds it in the first round (`C152_found_partial`), and while the group stays there each commit stores the consumer's position (`C152_commits_partial`). Violated: the coordinator is looked up only by the constructor, so once the group has moved no commit succeeds any more (`C152_violated_moved`), and `getCommitedOffet` asks the former coordinator for ever, stopped or not (`C152_violated_read`)."
  },
  {
   "property": "C153",
   "status": "partial",
   "theorems": [
    "Healer.C153_group_partial",
    "Healer.C153_console",
    "Healer.C153_lines_partial",
    "Healer.C153_console_lines_partial",
    "Healer.C153_layout",
    "Healer.C153_violated_feed",
    "Healer.C153_violated_zero",
    "Healer.C153_violated_skipped",
    "Healer.C153_violated_every_feed"
   ],
   "note": "Holds for positive numbers and, for console-consumer, all numbers. Lines are unambiguous when values have no line feed. Violated: group-consumer --max-messages 0 prints everything and never returns; for any two messages there is one with a line feed that prints like both; messages in the channel when group-consumer ends are committed and never printed. JSON layout is a parameter."
  },
  {
   "property": "C154",
   "status": "partial",
   "theorems": [
    "Healer.C154_batches_end_partial",
    "Healer.C154_old_end_partial",
    "Healer.C154_violated_many"
   ],
   "note": "The loops over batches and over old messages end after at most one round per 17 (12) bytes, with the model's result. A varint of more than 64 bits moves the position of the record decoder back (binary.Varint answers a negative length), so that one record is delivered as often as the batch claims: 2^32-1 messages from 81 bytes. Not covered: the external decompressors, and compressed messages nested in compressed messages (formats 0 and 1), whose depth the code does not bound."
  },
  {
   "property": "C155",
   "status": "partial",
   "theorems": [
    "Healer.C155_violated_every_consumer",
    "Healer.C155_violated_every_producer",
    "Healer.C155_consumer_partial",
    "Healer.C155_producer_partial",
    "Healer.C155_violated_consumer",
    "Healer.C155_violated_producer",
    "Healer.C155_heartbeats_in_time"
   ],
   "note": "proved for intervals between 1 ms and 292 years, in all forms a configuration can be given in; the rounds of the heartbeat goroutine are followed over time for all durations of the rounds. Refuted: every accepted configuration stays accepted with non-positive intervals, and then crashes the program (C155_violated_every_consumer, C155_violated_every_producer; e.g. a session timeout or a metadata age left out of a ConsumerConfig or ProducerConfig)."
  },
  {
   "property": "C156",
   "status": "proved",
   "theorems": [
    "Healer.C156_within_the_interval",
    "Healer.C156_by_close"
   ],
   "note": "proved for every accepted configuration whose flush interval does not overflow (C155), over all runs with times. Handing over means that a produce request with the message is made; what becomes of it is C46, C48 and C145."
  },
  {
   "property": "C157",
   "status": "partial",
   "theorems": [
    "Healer.C157_violated_every_cut",
    "Healer.C157_violated_every_fraction",
    "Healer.C157_violated_every_octal",
    "Healer.C157_violated_every_unknown",
    "Healer.C157_underscores",
    "Healer.C157_prefix",
    "Healer.C157_switch",
    "Healer.C157_switch_values",
    "Healer.C157_consumer_partial",
    "Healer.C157_producer_partial",
    "Healer.C157_refused",
    "Healer.C157_violated_cut",
    "Healer.C157_violated_fraction",
    "Healer.C157_violated_octal",
    "Healer.C157_violated_unknown",
    "Healer.C157_refused_digits"
   ],
   "note": "Holds for decimal texts (for all of them, with underscores and prefixes exactly as strconv allows: C157_underscores, C157_prefix), for numbers that fit, for texts and booleans (C157_switch), and for settings left out; every text that is not a number of the base its prefix says is refused (C157_refused_digits); the code accepts all numbers too large for their field (C157_violated_every_cut), all fractions (C157_violated_every_fraction), takes all digits after a zero as base eight (C157_violated_every_octal), and accepts every name that is no setting (C157_violated_every_unknown)."
  },
  {
   "property": "C158",
   "status": "partial",
   "theorems": [
    "Healer.C158_object_partial",
    "Healer.C158_violated",
    "Healer.C158_violated_null"
   ],
   "note": "The members of a JSON object take effect; the error of json.Unmarshal is not looked at, so any other text is silently dropped, and null drops the other flags."
  },
  {
   "property": "C159",
   "status": "proved",
   "theorems": [
    "Healer.C159_serial",
    "Healer.C159_progress",
    "Healer.C159_requests",
    "Healer.C159_own",
    "Healer.C159_lookups",
    "Healer.C159_producer"
   ],
   "note": "Proved for any division of the calls into steps whose undisturbed effect is that of the sequential model; memory is sequentially consistent. Close of a Broker does not take the lock and is the subject of C134."
  },
  {
   "property": "C160",
   "status": "partial",
   "theorems": [
    "Healer.C160_progress_partial",
    "Healer.C160_violated_every_keyed",
    "Healer.C160_violated_every_read",
    "Healer.C160_violated_every_close",
    "Healer.C160_lookups_partial",
    "Healer.C160_known_partial",
    "Healer.C160_violated_close",
    "Healer.C160_violated_keyed",
    "Healer.C160_violated_read",
    "Healer.C160_violated_producer_close"
   ],
   "note": "Look-ups alone are safe and go on (C160_progress_partial), as is everything when the maps already hold what is needed. Violated for all keys and goroutines: Brokers.Close ranges over the map without the lock (C160_violated_every_close); Producer uses its maps without any lock (C160_violated_every_keyed, C160_violated_every_read)."
  },
  {
   "property": "C161",
   "status": "proved",
   "theorems": [
    "Healer.C161_join",
    "Healer.C161_generation",
    "Healer.C161_exactly_one",
    "Healer.C161_follower"
   ],
   "note": "Proved: C161_join (what a healer consumer says), C161_generation (join answer to sync request to the members' partition consumers, all on the level of the bytes exchanged), C161_exactly_one, C161_follower. The coordinator is Kafka's rule (Spec/Coordinator), trusted."
  },
  {
   "property": "C162",
   "status": "partial",
   "theorems": [
    "Healer.C162_leaders_partial",
    "Healer.C162_violated",
    "Healer.C162_violated_unbounded"
   ],
   "note": "Holds for the connections messages are sent by (C162_leaders_partial): each is closed when its producer is replaced, or by Close. Does not hold for the rest: every refresh of the timer makes a partition producer with brokers of its own, and nothing closes those, nor the producer's own; after Close at least one connection per partition producer, and one more, was made and not closed, whatever the cluster does (C162_violated), so there is no bound (C162_violated_unbounded). Connections that the other side or a failed request ended are not subtracted."
  },
  {
   "property": "C163",
   "status": "partial",
   "theorems": [
    "Healer.C163_tool_partial",
    "Healer.C163_http_partial",
    "Healer.C163_unanswered",
    "Healer.C163_violated_every_missing",
    "Healer.C163_violated_every_none"
   ],
   "note": "holds for leaders which say one offset per partition and for HTTP requests with a timestamp; fails without a timestamp over HTTP, documented as optional (status 400), and for leaders of version 0 without offset, shown as offset 0. sort.Slice is modelled as a stable sort; with the partitions distinct that makes no difference."
  },
  {
   "property": "C164",
   "status": "partial",
   "theorems": [
    "Healer.C164_violated_every_escape",
    "Healer.C164_violated_every_number",
    "Healer.C164_violated_every_bad_escape",
    "Healer.C164_violated_every_quoted_name",
    "Healer.C164_filter_partial",
    "Healer.C164_creation_partial",
    "Healer.C164_violated_every_unknown",
    "Healer.C164_violated_every_listed",
    "Healer.C164_violated_every_quote",
    "Healer.C164_violated_every_backslash",
    "Healer.C164_violated_every_default"
   ],
   "note": "holds for Kafka's names (operations 1-12) and resources without quotes, backslashes and control characters. Fails for every value not understood, which becomes 0 without a word, among them four operations the help texts list; for every resource with a quote, which is dropped, so that delete-acls asks for the ACLs of all resources; for backslashes: the eight escapes and \\u with four hexadecimal digits are replaced by what JSON means by them, and with any other character after the backslash the name is lost; for names given in quotes; and for create-acls without --patterntype. Escapes of surrogate pairs in JSON are not modelled."
  },
  {
   "property": "C165",
   "status": "partial",
   "theorems": [
    "Healer.C165_json_partial",
    "Healer.C165_cat_partial",
    "Healer.C165_violated_every_failure",
    "Healer.C165_violated_every_unanswered",
    "Healer.C165_violated_every_format"
   ],
   "note": "holds when a broker answers; fails always when none does (an empty cluster is printed and success reported) and for every unknown format."
  },
  {
   "property": "C166",
   "status": "partial",
   "theorems": [
    "Healer.C166_all_partial",
    "Healer.C166_violated_every"
   ],
   "note": "fails for every request which names topics; holds for requests for all topics."
  },
  {
   "property": "C167",
   "status": "partial",
   "theorems": [
    "Healer.C167_await_partial",
    "Healer.C167_stop_partial",
    "Healer.C167_violated_every",
    "Healer.C167_violated_every_start"
   ],
   "note": "Consumer and GroupConsumer: after any history AwaitClose closes every connection made for a node (C167_await_partial). SimpleConsumer on its own: Stop closes every connection to a leader (C167_stop_partial), but never the brokers that NewSimpleConsumer made: whatever happened, at least one connection stays open (C167_violated_every). A Stop during Consume can return before the connection to the leader is made, which then stays open (C167_violated_every_start)."
  },
  {
   "property": "C168",
   "status": "partial",
   "theorems": [
    "Healer.C168_violated_every",
    "Healer.C168_found_partial"
   ],
   "note": "Consumer.Consume looks for a coordinator for every partition even without a group, and forever (consumer.go:109-117): while no broker names one, no partition is started in any number of rounds (C168_violated_every). With a coordinator to be had all partitions are started (C168_found_partial)."
  },
  {
   "property": "C169",
   "status": "partial",
   "theorems": [
    "Healer.C169_old_delivery_partial",
    "Healer.C169_violated_every_mixed"
   ],
   "note": "Holds for messages of formats 0 and 1 in one piece and nothing after them (C169_old_delivery_partial, all messages). Violated: every batch after such messages crashes the client, the checksum being taken for the length of a key (C169_violated_every_mixed); for split responses see C18, for compressed messages C82."
  },
  {
   "property": "C170",
   "status": "partial",
   "theorems": [
    "Healer.C170_list_partial",
    "Healer.C170_violated_every_refusal",
    "Healer.C170_describe",
    "Healer.C170_delete_partial"
   ],
   "note": "list-groups: if it succeeds, each known node was asked and its groups are in the result (C170_list_partial; any order, at most one object made from a bootstrap address). Violated for refusals: with any error code, for every cluster, the tool succeeds without the groups of that broker (C170_violated_every_refusal; the error code of ListGroups is not looked at). describe-groups: fully proved (C170_describe). delete-groups: what is printed tells of each group given that it was deleted (C170_delete_partial); groups deleted before an error are not told of (C79_violated)."
  },
  {
   "property": "C171",
   "status": "partial",
   "theorems": [
    "Healer.C171_violated_every_group",
    "Healer.C171_started_partial",
    "Healer.C171_violated_every_closed"
   ],
   "note": "C171_started_partial: with nothing left in closeChan, Consume (and restarts after it) starts every partition consumer made. Violated for every group consumer closed while nothing was being started: the next Consume can return at once, without an error, because Close left its value in closeChan; the consumer then joins the group, starts nothing, sends no heartbeats, and the next Close crashes the program (C171_violated_every_group). Violated for every closed consumer without a group: Consume returns the nil channel and no error, and starts nothing (C171_violated_every_closed)."
  },
  {
   "property": "C172",
   "status": "partial",
   "theorems": [
    "Healer.C172_wire_partial",
    "Healer.C172_requests_partial",
    "Healer.C172_violated_every_maker",
    "Healer.C172_violated_every_password"
   ],
   "note": "The code writes the password to the log: each of the five functions that make a client writes at least two lines of the lowest verbosity with the whole configuration, and the password can be read in every one of them, for every configuration (C172_violated_every_maker; for passwords of printable characters that JSON does not escape; C172_violated_every_password for all others says that the values handed to the logger differ). What klog makes of a structure is stated in the model (JSON, field by field), not derived from its source. What holds, for all peers and all sequences of requests: on the wire nothing but SaslAuthenticate requests depends on the password (C172_wire_partial), and the lines about requests tell no more of it than its length (C172_requests_partial)."
  },
  {
   "property": "C173",
   "status": "partial",
   "theorems": [
    "Healer.C173_unanswered_partial",
    "Healer.C173_violated_every_error",
    "Healer.C173_joining_partial",
    "Healer.C173_joining_start_partial",
    "Healer.C173_violated_every_rejoin",
    "Healer.C173_violated_every_backoff"
   ],
   "note": "The code waits after requests that fail, not after answers that are errors: a partition consumer whose fetches are answered with errors, any errors and any number, asks again without one pause (C173_violated_every_error); a group consumer repeats a join refused with 22, 25 or 27 without one (C173_violated_every_rejoin); and retry.backoff.ms may be any number (C173_violated_every_backoff). What holds in all runs: a fetch request without answer is followed by a pause (C173_unanswered_partial), and so is every failed request for joining except for the three codes (C173_joining_partial, C173_joining_start_partial). The length of the pause is not modelled."
  },
  {
   "property": "C174",
   "status": "partial",
   "theorems": [
    "Healer.C174_answers_partial",
    "Healer.C174_progress_partial",
    "Healer.C174_violated_every_gap",
    "Healer.C174_violated_every_refusal"
   ],
   "note": "C174_progress_partial: whenever some size n\u00b72^k below 2^31 is enough for an answer with a message from the position on, at most k fetches double the size and the next one hands over the first such message of the log; C174_answers_partial connects the answers it assumes to the decoder. C174_violated_every_gap: for every log that ends in a batch whose remaining messages lie before the position while its offsets do not (compaction leaves such batches), and every size to begin with, 32 fetches leave the size zero; then nothing is handed over again, whatever is appended and however many fetches follow, since a size of zero is answered with the first batch alone. C174_violated_every_refusal: the same with a broker that refuses sizes below zero, which are reached first from every positive size."
  },
  {
   "property": "C175",
   "status": "partial",
   "theorems": [
    "Healer.C175_bound_partial",
    "Healer.C175_violated_every_round",
    "Healer.C175_violated_every_leave",
    "Healer.C175_violated_every_idle",
    "Healer.C175_violated_every_timeout"
   ],
   "note": "The timer is started only after every partition consumer was stopped, one after the other, and Stop waits for the fetch in flight, which nothing cancels. What holds is a bound in which each partition adds the length of a round. Negations: an answer that comes after the timeout keeps AwaitClose as long, for all other consumers and times; n idle partitions can take n times the wait of a fetch (less one unit each), whatever the timeout; and the request to leave comes after the timer, so its answer is waited for in addition (C175_violated_every_leave). Not modelled: waiting for closeChan and the mutex, which only adds."
  },
  {
   "property": "C176",
   "status": "partial",
   "theorems": [
    "Healer.C176_returns_partial",
    "Healer.C176_violated_every_failure",
    "Healer.C176_violated_every_group"
   ],
   "note": "Consume makes at most four more steps, and one for each failure of the coordinator to tell the committed position. Violated: the loop in getCommitedOffet does not look at the flag, so Consume goes on for as long as the coordinator does not answer, whatever else happens; such states are reached in every group and for every unknown position, also after Stop has returned."
  },
  {
   "property": "C177",
   "status": "partial",
   "theorems": [
    "Healer.C177_small_partial",
    "Healer.C177_violated_every_config",
    "Healer.C177_violated_every_pair"
   ],
   "note": "Violated: batch.size is read by nothing. Every accepted configuration lets as many messages as message.max.count says go out in one request, whatever their sizes, also two that would fit one by one. Proved where message.max.count times the largest message stays within batch.size."
  },
  {
   "property": "C178",
   "status": "partial",
   "theorems": [
    "Healer.C178_none_partial",
    "Healer.C178_violated_every_failure"
   ],
   "note": "Violated: retries is read by nothing (a TODO in config.go). In every run without success each message is sent exactly once and then forgotten. Proved for retries 0, while no tick of the timer comes after Close (see C46)."
  },
  {
   "property": "C179",
   "status": "partial",
   "theorems": [
    "Healer.C179_agreed_partial",
    "Healer.C179_says_partial",
    "Healer.C179_violated_every_zookeeper",
    "Healer.C179_violated_every_old",
    "Healer.C179_violated_every_other"
   ],
   "note": "Violated: the version made from offsets.storage is overwritten by the negotiated one before the request is encoded. With 0, positions are in Kafka at every coordinator of today; with 1, they are in ZooKeeper at every coordinator without the later versions, silently; with other numbers nothing is read but positions are committed. Proved where setting and coordinator happen to agree; what the requests say otherwise is as it should be (C179_says_partial)."
  },
  {
   "property": "C180",
   "status": "partial",
   "theorems": [
    "Healer.C180_violated_every_zero",
    "Healer.C180_committed_partial"
   ],
   "note": "The position that a new consumer takes for committed is 0, not \"none\" (simple_consumer.go:33, 324). C180_violated_every_zero: a consumer that began at 0 and handed over nothing never commits, in no run, however often CommitOffset is called; its successor, started with the last position as its wish, begins at the end of the log as it is by then, and no message before that end is put into a channel by either. C180_committed_partial: at every other position that is not the one committed last the call sends the position, and a consumer told that position begins there. Missing: position 0."
  },
  {
   "property": "C181",
   "status": "partial",
   "theorems": [
    "Healer.C181_header_partial",
    "Healer.C181_violated_every_records",
    "Healer.C181_violated_every_forged",
    "Healer.C181_violated_every_start",
    "Healer.C181_first_partial",
    "Healer.C181_topic_partial",
    "Healer.C181_partition_partial",
    "Healer.C181_violated_every_size"
   ],
   "note": "Fails for every fetch answer cut off by the time limit within the records of a batch: the timeout is wrapped by fmt.Errorf(\"%w\") twice, os.IsTimeout does not unwrap, so the consumer is sent the error but keeps the connection, and the rest of the answer is the first thing the next request on it reads. Bytes chosen by a producer can so become the answer to a request: C181_violated_every_forged shows that the consumer is then handed messages the partition does not hold. Also fails for every answer cut off in its first 8 or 18 bytes: the error is only logged. Holds (connection closed) when the cut is in the first 61 bytes of a batch or between batches, and (C181_topic_partial) when it is in the header of the first topic. Fails also (C181_violated_every_size) for every answer cut off inside the size of the record data when the bytes that came are zero: not even an error is sent. Cuts in the header of the partition before the size close the connection if what came did so in one piece (C181_partition_partial); if it came in several, the header may be misread (C18)."
  },
  {
   "property": "C182",
   "status": "partial",
   "theorems": [
    "Healer.C182_violated_every_unlimited",
    "Healer.C182_ends_partial",
    "Healer.C182_violated_every_answer",
    "Healer.C182_taken_partial",
    "Healer.C182_violated_every_write"
   ],
   "note": "Fails for every answer and every timeout of at least 2 ms: the deadline is renewed before every Read, so an answer that trickles in succeeds after (timeout-1) ms for every byte; with a timeout of 0 there is no end, and every answer is taken after any time (C182_violated_every_unlimited). Writing has no deadline at all: a broker that stops reading keeps the request for ever (C182_violated_every_write). Holds, if the request is taken at once (C182_taken_partial): with a timeout above 0 the reading ends, after at most the timeout for every byte of the answer, and after exactly the timeout if nothing comes."
  },
  {
   "property": "C183",
   "status": "partial",
   "theorems": [
    "Healer.C183_not_before_partial",
    "Healer.C183_violated_every_waiting"
   ],
   "note": "Fails for every message that waits in the buffer: all messages of a batch get the time at which the batch is made, the record's own time difference is always 0. Holds: no message carries a time before it was given, and with message.max.count at most 1 the time is right."
  },
  {
   "property": "C184",
   "status": "partial",
   "theorems": [
    "Healer.C184_fields_partial",
    "Healer.C184_violated_every_fetch"
   ],
   "note": "The fields are right in every version. Fails for every fetch in versions 7 and 10: session id 0 with epoch 0 asks the broker for a new session each time (epoch -1 would not); they fill the broker's cache of sessions. Version 0 has no sessions."
  },
  {
   "property": "C185",
   "status": "partial",
   "theorems": [
    "Healer.C185_once_partial",
    "Healer.C185_violated_every_other",
    "Healer.C185_violated_every_same",
    "Healer.C185_violated_every_stopped"
   ],
   "note": "Holds for a consumer on which Consume is called once (C185_once_partial, through C37). A second call is not refused: with another position it moves the first loop there (C185_violated_every_other); with the same position messages may come twice, because the slower loop sets the position back (C185_violated_every_same). A call after Stop returns a channel into which nothing ever comes (C185_violated_every_stopped)."
  },
  {
   "property": "C186",
   "status": "partial",
   "theorems": [
    "Healer.C186_alike_partial",
    "Healer.C186_violated_every_next",
    "Healer.C186_violated_every_member"
   ],
   "note": "Holds if all requests of a connection have a timeout, or none has (C186_alike_partial). A request without timeout does not take the deadline of the one before away, so it fails when that has passed, even if it is answered at once (C186_violated_every_next); with timeout.ms 0 this happens to the heartbeats of every group member (C186_violated_every_member)."
  },
  {
   "property": "C187",
   "status": "partial",
   "theorems": [
    "Healer.C187_single_partial",
    "Healer.C187_violated_every_topic"
   ],
   "note": "Holds for topics with one partition. The producer hashes with the seed 0 and takes all 32 bits, Kafka's clients use the seed 0x9747b28c and 31 bits: for every number of partitions above one the empty key or the key of one zero byte always goes elsewhere (C187_violated_every_topic). Trusted: that the library go-murmur, which is not part of the repository, implements MurmurHash2 as written in Spec/Murmur.lean."
  },
  {
   "property": "C188",
   "status": "proved",
   "theorems": [
    "Healer.C188_read",
    "Healer.C188_same_shares",
    "Healer.C188_sent"
   ],
   "note": "Member ids are compared as bytes; Kafka's own assignor compares them as Java strings, which is the same order for ids in ASCII. Static members (group.instance.id), which Kafka's assignor sorts by that id, and the rack-aware division of newer versions are not considered."
  }
 ]
}