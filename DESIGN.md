# Formal model of childe/healer: design

The deliverable is a Lean 4 model of the Kafka client in `/repo` (read as text, never built or run)
and machine-checked theorems about it. `properties.jsonl` lists the properties in English,
`MANIFEST.json` maps each to the theorems that settle it, `seeded/LOG.jsonl` records mutation tests.

## Method

* Every model definition cites the Go file and lines it models and says where it simplifies.
* Go semantics used everywhere (`Verif/Go/*`): bytes are `UInt8`, byte slices and Go strings are
  `List UInt8`, fixed-width integers are Lean's fixed-width types (so wrap-around is real), an error
  return is a value, a run-time panic (index or slice out of range, nil dereference, division by
  zero, negative `make`) is an explicit outcome of the model, never a default value.
* Decoders are functions from the unread bytes to an outcome (value and unread rest, Go error, panic).
  Encoders write through a model of a pre-sized Go buffer: `binary.PutUint*` past the end panics,
  `copy` past the end truncates. So "encoding never panics or truncates" is a theorem, not an assumption.
* The specification side (`Verif/Spec/*`) is written from the Kafka protocol grammar and from the
  English property, not from the Go code: it does not mention model functions. For requests the
  theorem is "model output = grammar bytes"; for responses it is "model decoder applied to grammar
  bytes = the values".
  `Spec/Mixed.lean` has the formats and the range assignor of Kafka's own clients, from their published definitions (C188).
  `Spec/Murmur.lean` writes out MurmurHash2; that the library go-murmur, which is not part of the repository, computes it is trusted (C187).
  `Spec/Serve.lean` says which batches a broker returns for an offset and a size; this is an assumption about brokers, used by
  C174 only.
* Stateful parts (producer, consumer, group consumer, broker connection, broker cache) are explicit
  state machines: `step : State -> Op -> State`, where the operations include every answer the
  environment (broker, network, user, clock, scheduler) can give. Properties are invariants or
  refinements over all operation lists.
* Where the code violates the property, the negation is proved in a theorem named `..._violated...`, for all inputs
  where it fails for all of them and with a concrete witness otherwise, and the part that holds is proved under the
  exact guard, in a theorem named `..._partial`.

## Layout

| Directory | Contents |
|---|---|
| `Verif/Go` | outcomes, cursors, buffers, readers with explicit chunking, maps in arbitrary iteration order, sorting, CRC tables |
| `Verif/Spec` | Kafka's grammar (headers, requests, responses, records, group metadata), error codes, ACL names, CRC by polynomial division |
| `Verif/Model` | the Go code, function by function |
| `Verif/Lemmas` | auxiliary facts |
| `Verif/Props` | the theorems of `MANIFEST.json`, each with an example meeting its hypotheses |

## Trusted base

* Lean's kernel; axioms `propext`, `Classical.choice`, `Quot.sound` only (checked with `#print axioms`
  for every theorem by the gate).
* The reading of the Go source into the model (comments carry the citations).
* The reading of the Kafka protocol grammar into `Verif/Spec`.

The reading of the source is checked against the project's own unit tests: `Verif/Props/RepoTests.lean` replays their
inputs on the model and compares with the values they expect. Mutation tests (`seeded/LOG.jsonl`) check that the theorems
notice wrong programs.

### What is modelled

* Wire format: `protocol.go` and the primitive codecs, `request_header`/`response_header`, all request
  encoders and response decoders, the request decoders and response encoders (for mock brokers; of the encoders not `FetchResponse`), records, record batches, legacy messages, `crc32`, API-version negotiation.
* `fetch_response.go`: the streaming decoder, with a reader that may split the stream anywhere.
* `broker.go`: connecting, authenticating, negotiating, sending, reading, closing, reconnecting.
* `brokers.go`: the registry, metadata with failover, leaders, offsets, coordinators, controller, groups.
* `simple_consumer.go`, `consumer.go`, `group_consumer.go`, `protocol.go` assignment strategies.
* `simple_producer.go`, `producer.go`; `client.go`, also `Close` against a running request; `config.go`; name tables and request builders.
* `config.go`: defaults, checks, the passage to `BrokerConfig`, which connection is made with which TLS settings
  (`Secure.lean`), decoding of maps of settings (`Settings.lean`), the intervals of periodic work (`Timers.lean`), where a consumer waits before it asks again (`Pace.lean`), a partition consumer from the call of `Consume` on, with `Stop` at the same time (`Starting.lean`), the time that closing takes (`Leaving.lean`), where positions are kept (`Storage.lean`), a fetch cut off by its time limit (`Deadline.lean`), and how long reading an answer takes (`Timed.lean`), the fetch request of a partition consumer (`Asking.lean`), and several calls of `Consume` on one partition consumer (`Again.lean`), and the deadline that stays with a connection (`Limit.lean`).
* Locks and maps shared by goroutines: which calls hold which mutex (`Locks.lean`), and uses of maps without one (`Maps.lean`).
* Of `command/healer/cmd`: what the tools do after their flags are read and the brokers are known (`Tools.lean`, `Pending.lean`,
  `AdminTools.lean`, `Configs.lean`, `ConsoleTools.lean`, `Listing.lean`, `AclTools.lean`, `GroupTools.lean`), and the settings on the command line (`Settings.lean`).
* Of `command/healer/cmd/apicontrollers` and `api.go`: the control flow of every handler, the status and body of the answers,
  the requests sent (`Http.lean`, `AdminTools.lean`, `Pending.lean`), and the check of the password (`Auth.lean`).

### Assumptions and simplifications

* Goroutines: scheduling is an interleaving of the explicit steps; reads and writes of a shared field are
  single steps (the Go memory model allows worse for racy programs). In the group consumer `Consume` and
  `restart` are not run concurrently with themselves and time-outs are left out. Producer calls are atomic
  because they hold the mutex; keyed `AddMessage`, which holds none, is taken one call at a time in `Producer.lean`, and
  interleaved in `Keyed.lean`. Requests and `Close` on one connection interleave in `Close.lean`.
* Network: `Read` returns data or an error, not both; a failed write sends nothing; one call at a time on a
  broker object (its mutex); the TLS protocol is not modelled, and time only as a count of nanoseconds in `Timers.lean`. `Brokers` runs over a parametric network
  (`Net`): any function from the history to the outcome of a request.
* Codecs gzip, snappy, lz4 are parameters; where a theorem needs it they are assumed to invert each other and to
  consume all of their input.
* `make` with a huge non-negative count is treated like the loop that follows it; memory exhaustion is left out.
  The capacity of a payload slice is its length; where the code slices data with spare capacity, `payload[a:b]` a little
  past the end of malformed data would give bytes instead of the panic of the model (`Verif/Go/Cursor.lean`). No theorem
  rests on it.
* Loops without structural bound carry fuel; fuel is at least the number of unread bytes, and running out is a
  separate outcome.
* Go maps are lists in iteration order; theorems quantify over the order. `sort.Slice` is an arbitrary sort
  (ties in any order) where ties can occur.
* Body tagged fields are nil in requests (the client never sets any).
* Hash function of the keyed partitioner: a parameter. `strings.ToLower/ToUpper`: ASCII.
* Configuration: `mapstructure.WeakDecode` is modelled after its documentation in `Settings.lean` and abstract elsewhere; the keys
  `timeout.ms.for.eachapi`, `sasl` and `tls` in a map are not modelled. What the TLS library makes of files is a parameter.
* Logging is left out except where evaluating its arguments can crash, and in `Logged.lean`, which has the lines that show a
  configuration or parts of a request; that klog writes a structure as JSON, field by field, is assumed there.
* Delete-ACLs compares lengths in 32 bits: theorems about it carry the bound.

### What is not modelled

JSON texts (written and read), `String()` methods, the reflection behind `tags()` (of it only which version has which field), the HTTP server behind the handlers, the
parsing of flags, the layout of what most tools print, the TLS protocol, the compression algorithms themselves, the loggers.


## Plan and result per property

The column *Theorems in* names files of `Verif/Props`; names of theorems are in `MANIFEST.json`.

| Property | Modelled | Proof shape | Theorems in | Result |
|---|---|---|---|---|
| C01 Compact strings survive the wire | primitive encoders and decoders, `encoding/binary` varints | round-trip, induction on varint bytes | Primitive | proved. Encoder output equals the grammar and the decoder inverts it before any trailing bytes. The 2^63 bound is Go's int range. |
| C02 Plain and nullable strings survive the wire | primitive encoders and decoders, `encoding/binary` varints | round-trip, induction on varint bytes | Primitive | proved. Both encoders (buffer and stream) equal the grammar; decoders invert it up to 32767 bytes. |
| C03 Null, empty and non-empty byte arrays are told apart | primitive encoders and decoders, `encoding/binary` varints | round-trip, induction on varint bytes | Primitive | partial. Violated by the code: encodeNullableBytes never writes the length, compactNullableBytes mistakes empty for null and crashes on null. The partial theorem covers the remaining cases. |
| C04 Compact nullable strings survive the wire | primitive encoders and decoders, `encoding/binary` varints | round-trip, induction on varint bytes | Primitive | partial. Holds for strings below 2^21-1 bytes with the buffer encoder and for all strings with the stream writer; C04_violated_long proves that the buffer encoder truncates longer strings. |
| C05 Compact array lengths survive the wire | primitive encoders and decoders, `encoding/binary` varints | round-trip, induction on varint bytes | Primitive | proved. All lengths 0..2^31-1 and the null marker. |
| C06 Tagged-field sections survive the wire | tagged fields | round-trip, induction on the list | Primitive | proved. Tags and payload sizes in the protocol's 32-bit range. |
| C07 Request headers reach the broker intact | request header encode/decode, header version table | round-trip and equality with the grammar | Header | proved. Both writers (buffer and stream) and both readers, all 30 APIs and all versions. |
| C08 Request and response header versions match Kafka's rule | request and response header version tables | case analysis over the table, all versions | Header | proved. All 30 APIs the client uses, every version number; C08_tables_agree covers the whole table. |
| C09 A record survives encoding | record encode/decode | round-trip under the guard forced by the stale-length bug; counterexample | Always6, Record | partial. Violated for every nil key with an offset delta outside -64..63: the key length is written with a stale width, and whatever the value, no value is read back (C09_violated_every_nil_key, witness C09_violated_nil_key). The partial theorem covers every other record. |
| C10 Record batches are framed as Kafka prescribes | record batch encode/decode, CRC-32C | framing equations, round-trip | Record | proved. C10_framing holds for every compressor; C10_uncompressed gives equality with Kafka's batch grammar including CRC-32C (bit-serial definition). |
| C11 A record batch survives encoding | record batch encode/decode, CRC-32C | framing equations, round-trip | Record | partial. Violated for what C09 is violated for: a record without key at an offset delta outside -64..63 is written wrongly (C11_violated_nil_key). Proved for all other batches; a nil value comes back as nil, empty as nil. |
| C12 Messages in one produced batch occupy distinct consecutive offsets | producer batch construction | counterexample; partial for one-message batches | Producer | partial. Violated for every batch of two or more messages: all have offset delta 0. Proved for single messages, and that the batch claims as many offsets as it has messages. The witness shows this client's own consumer getting stuck on such a batch. |
| C13 Legacy message sets survive encoding | legacy message set | round-trip | Message | proved. Includes the exact buffer size and the CRC-32 of every message. nil value is written as empty. |
| C14 Corrupted data is not delivered as good data | stream decoder on corrupted bytes | counterexample (no checksum is verified) and a general theorem | Fetch | partial. Violated: the checksum of a batch is never looked at. General theorem plus a concrete altered batch that is delivered. |
| C15 A fetch delivers exactly the stored messages from the requested offset on | fetch stream decoder on a byte stream | refinement to a filter over stored records; prefix theorem for cuts | Always6, Fetch | partial. Proved for every sequence of complete batches (compressed through an abstract codec or not) except records with a null header value, which crash the decoder whatever stands before and after (C15_violated_every_null_header). |
| C16 A truncated last batch never yields invented messages | fetch stream decoder on a byte stream | refinement to a filter over stored records; prefix theorem for cuts | CutPacked, Fetch, OldFormat, OldSplit | partial. Proved for version-2 batches, compressed or not, cut anywhere (C16_compressed_partial: complete batches of any codec and a cut one, taking the external codecs to reject what is left of a cut payload; C16_truncated_batch_partial: uncompressed only, without a hypothesis on the total length), for messages of the old formats in one piece cut by six bytes or more (C16_old_cut_partial), and for a first message of the old formats cut anywhere (C16_old_first_partial: the error "maximum fetch size too small"). Violated for every later old message cut by one to five bytes: it is delivered with zeros for what is missing (C16_violated_every_legacy). |
| C17 A fetch that yields nothing says so | fetch stream decoder on a byte stream | refinement to a filter over stored records; prefix theorem for cuts | Fetch | proved. Proved for arbitrary record data, broker errors and empty data, one-partition responses as healer's consumers request them. |
| C18 Fetch results do not depend on network chunking | reader with explicit chunking | chunk independence for full reads; counterexample for the bare `Read` calls | Chunking, Fetch, OldFormat, OldSplit, SizeSplit | partial. Proved for arbitrary splits of the record data: for all complete batches with the whole response (C18_chunking_partial), and for record data of any content, also damaged, as long as the decoder comes to no batch of the old formats (C18_records_partial). Violated for every response split one to three bytes into the size of the record data, if these bytes are zero: nothing is delivered, and no error (C18_violated_every_split_size); inside the high watermark (witness); and for all messages of format 0 or 1: if the last one to five bytes come separately the message is delivered with zeros (C18_violated_every_old_zeros), if the last six to sixteen do it is not delivered (C18_violated_every_old_lost), and if it is the only message there is an error instead (C18_violated_every_old_single). |
| C19 Errors inside a fetch response leave the connection usable | stream decoder with the deferred drain | invariant on bytes consumed | Fetch | proved. Proved for every response content, any number of topics and partitions, any chunking, and every failure point except a crash. |
| C20 Range assignment gives every partition to exactly one consumer | range assignment | partition/permutation theorems for all inputs; crash witness | Group | proved. Stated on the bytes the leader hands out as each member decodes them; any map iteration order. Topics are those passed to Assign. |
| C21 Range assignment is balanced and contiguous | range assignment | partition/permutation theorems for all inputs; crash witness | Group | proved. Concatenating the shares in member-id order gives the sorted partitions; sizes non-increasing and within one. |
| C22 Members get only what they subscribed to | range assignment | partition/permutation theorems for all inputs; crash witness | Group | proved.  |
| C23 Assignment does not depend on arrival order | range assignment | partition/permutation theorems for all inputs; crash witness | Group | proved. Any permutation of members, topics, partitions and any map iteration order. |
| C24 An assignment reaches the member unchanged | member assignment, protocol metadata | round-trip; counterexample for user data | Always, Group | partial. Violated for non-empty user data: written without its length. Partial theorem covers no user data (all the leader produces); C24_receive covers the receiving side with user data. Shown for all user data: the bytes never equal the protocol's (C24_violated_all_user_data). |
| C25 A subscription reaches the leader unchanged | member assignment, protocol metadata | round-trip; counterexample for user data | Group | proved. nil and empty user data are the same on the wire and both read back as empty. |
| C26 Assigning never crashes the leader | range assignment | partition/permutation theorems for all inputs; crash witness | Always, Group | partial. Violated: division by zero when a topic has no subscriber, slice panic on short metadata. Partial theorem: no crash when metadata is readable and every topic has a subscriber. Shown for every topic without subscriber, whatever else is to be assigned (C26_violated_every_topic). |
| C27 Version negotiation picks a version both sides support | version negotiation | decision logic over all ranges | Header | proved.  |
| C28 Response framing does not depend on network chunking | response frame reader with explicit chunking | induction over chunks | Always, Broker2, Frame, Late, SplitLength | partial. Proved for every splitting, whatever follows the frame, and for connections that fail midway; for fetches when the four bytes of the length arrive in one piece (C28_fetch_partial). Violated for frames under four bytes: the log line after reading evaluates Uint32(resp[4:]) and panics, for all such frames however they arrive (C28_violated_all_short). Fetches use another reader (broker.go:requestStreamingly), which fails for every length that arrives in pieces (C28_violated_every_split_length). |
| C29 Every request gets its own answer | broker connection state machine | invariants over all histories; witnesses for the bad paths | Broker, Broker2, Late | partial. Proved for every history of requests, failures, closes and reconnections when each connection carries answers in order and nothing after a failure. Violated by a late answer: os.IsTimeout does not see through the %w wrapping, so after a read timeout the connection stays open and the next request gets the previous answer. Shown for every request, every state of the connection and every late answer (C29_violated_every_timeout, C29_violated_every_heartbeat). |
| C30 Correlation ids do not repeat within a window | broker connection state machine | invariants over all histories; witnesses for the bad paths | Broker | proved. Ids of all attempted requests (including those of connection set-up and fetches) are 1, 2, 3, ... modulo 2^32. |
| C31 A connection that failed authentication is never used | broker connection state machine | invariants over all histories; witnesses for the bad paths | Broker2, Late | partial. NewBroker hands out a broker only after successful authentication on its connection. Violated on reconnection: a connection whose set-up failed stays in broker.conn and is used by the next call; for every failure to get the API versions and every next request (C31_violated_every_reopening). |
| C32 Reconnecting with authentication does not hang | broker connection state machine | invariants over all histories; witnesses for the bad paths | Broker2 | partial. Without authentication, or with an open connection, or for fetches, no call blocks on the broker's lock. Violated: with authentication, RequestAndGet on a closed broker holds the lock while sendSaslAuthenticate calls RequestAndGet again. |
| C33 One connection per broker node | broker registry, metadata failover, list offsets | invariants, decision logic | Brokers | proved. getBroker over an arbitrary network (Net); same object after any sequence of operations, no second object per node id. Sequential model: the mutex of GetBroker serialises look-ups. |
| C34 Metadata requests fail over | broker registry, metadata failover, list offsets | invariants, decision logic | Brokers, Written | proved. Failover for every network behaviour and every map iteration order; answers include errors of the cluster, which are returned at once; C34_answered says which errors these are, without the model's helper. |
| C35 Listing offsets asks every partition's leader exactly once | broker registry, metadata failover, list offsets | invariants, decision logic | Brokers | proved. stated for the metadata answered; one request per leader to the object kept for it, partitions asked are a permutation of those in the metadata. |
| C36 A request resent to another broker is encoded for that broker's version | header version cache | counterexample and partial | Always7, StaleAcls, StaleAcls2, StaleHeader, Transmit | partial. Proved for all 24 APIs whose known versions share one header layout, and for every API within one layout. Violated for all six others, whatever the client id and the correlation ids: list groups (every request: C36_violated_every_listGroups), create partitions (every request with explicit assignments sent at version 2 and then at version 0: C36_violated_every_createPartitions), describe ACLs (every filter sent at version 2 and then at 0 or 1: C36_violated_every_describeAcls), deleting and creating ACLs (fewer than 65536, sent at version 0 or 1 and then at 2 or 3: C36_violated_every_deleteAcls, C36_violated_every_createAcls), and produce (every request without transactional id sent at version 0 and then at 9: C36_violated_every_produce). The header version of the first transmission stays cached. |
| C37 A consumer hands out each offset once, in order, without gaps | partition consumer state machine (interleaving) | invariants over all histories; witnesses | Consumer, Consumer2, Exact | proved. Proved for every run of the partition-consumer state machine: what reaches the user is, in order and without loss or repetition (C37_received_in_order, C37_exactly_once), a beginning of the log from the offset of the last start or reset, for logs a broker serves as described by the fetch specification (C37_decoder_exact). |
| C38 Committed offsets never run ahead of delivery | partition consumer state machine (interleaving) | invariants over all histories; witnesses | Always4, Consumer, Consumer2 | partial. All interleavings, with several committers: committed positions come from the start, a look-up or a message put into the channel; for unbuffered channels, received by the user. False for buffered channels (the default has 100 places), in every state in which the channel has room (C38_violated_every_buffered). |
| C39 Committed offsets do not move backwards | partition consumer state machine (interleaving) | invariants over all histories; witnesses | Always4, Consumer, Consumer2 | partial. With one committer and no look-ups. False with two concurrent callers of CommitOffset, in every state in which both have passed the check (C39_violated_every_two). |
| C40 Unchanged offsets are not committed again; failed commits are retried | partition consumer state machine (interleaving) | invariants over all histories; witnesses | Always4, Consumer, Consumer2 | partial. Group members with auto-commit, no look-ups. False for consumers committing for themselves: commitOffset sends c.offset read again while CommitOffset records the earlier value, so every position that moved in between is committed twice (C40_violated_every_moved). |
| C41 The fetch size grows but stays usable | partition consumer state machine (interleaving) | invariants over all histories; witnesses | Always2, Consumer2 | partial. Doubling below 2 GiB. C41_exact_size gives the size after any run in 32-bit arithmetic; C41_violated_always shows for every starting size that it becomes negative once it does not fit 31 bits and 0 after 32 too-small answers (from the default: negative after eight). |
| C42 An out-of-range position is replaced by a valid one | partition consumer state machine (interleaving) | invariants over all histories; witnesses | Always, Consumer2 | partial. A successful look-up is where the next fetch starts; false if the look-up fails (fetch at -1). In every execution (C42_violated_always). |
| C43 Group members never commit without membership or a position | group consumer state machine (interleaving) | invariants; interleaving witness | Always4, Consumer2 | partial. Commits of group members carry the membership current when the request is built and non-negative positions, in all interleavings; false in that the membership may be given up between check and request, in every state with a position to commit (C43_violated_every_leave). |
| C44 Shutting a group consumer down never crashes | group consumer state machine (interleaving) | invariants; interleaving witness | Always3, GroupConsumer | partial. Interleaving model of Consume, the joining goroutine, restart and Close. Proved for runs in which Close is not called while a (re)join is going on (calm runs): consumers are started only after all earlier ones are stopped, and the wait-group counter never goes negative. Violated otherwise: Close during a join makes the counter negative or leaves consumers running. C44_violated_every_unstarted: in every state in which partition consumers are made and none is counted yet, Close crashes the program. |
| C45 Metadata changes trigger a rebalance exactly when partitions changed | metadata comparison | decision logic, both directions | Always4, GroupConsumer, Late | partial. The comparison is characterised exactly (names, error codes, partition ids, leaders, in order; C45_nil for missing listings); a change of topics or partitions is never missed. Violated in the other direction: every change of leaders and every exchange of two topics triggers a rebalance. |
| C46 Accepted messages are sent once, in order | partition and topic producers | refinement to the list of accepted messages; witnesses | Always, Producer | partial. Proved for all sequences of calls in which nothing calls Flush after Close, and down to the bytes of the request (version 9, no compression). Violated when a tick of the flush timer was waiting while Close ran: the last batch is sent twice. Shown for every state with waiting messages (C46_violated_always). |
| C47 Batches are non-empty and bounded | partition and topic producers | refinement to the list of accepted messages; witnesses | Producer | proved.  |
| C48 A message whose sending failed is reported or retried | partition and topic producers | refinement to the list of accepted messages; witnesses | Always, ClosedProducer, Producer, Producer2 | partial. Proved for failures in Flush. Violated: AddMessage and Close drop the error of a failed request, and the messages; Producer.AddMessage returns nil after three refusals. Shown for every failed request of AddMessage and Close (C48_violated_every_add, C48_violated_every_close), and for every closed Producer and every message without a key or with a key whose partition was used before (C48_violated_every_closed_producer). |
| C49 Close is final | partition and topic producers | refinement to the list of accepted messages; witnesses | Always, ClosedProducer, Producer, Producer2 | partial. Proved: AddMessage of a partition producer is refused after Close and calls other than Flush send nothing. Violated: Flush after Close sends the last batch again, for every state with waiting messages (C49_violated_always); every closed topic producer accepts messages without a key again after the next refresh of its timer (C49_violated_every_revival), and messages whose key belongs to a partition not used before (C49_violated_every_other_key). |
| C50 Messages are isolated from the caller's buffers | partition and topic producers | refinement to the list of accepted messages; witnesses | Always, Producer | partial. Proved for values; violated for keys, which are not copied. Shown for every key and every overwriting (C50_violated_every_key). |
| C51 Equal keys go to equal partitions | keyed partitioner | decision logic | Producer2 | proved. The hash function is a parameter (external library). The number of partitions is below 2^31. |
| C52 Keyed messages go to the leader of their partition | keyed partitioner | decision logic | Producer2 | proved. Proved for the state at creation, as stated; see C106 for later changes. |
| C53 Accepted configurations satisfy the documented constraints | configuration, error table, name tables | decision logic over the whole table | Always7, Config | partial. Producer configs given as map/struct are accepted iff servers, counts, interval, codec and format are right (accepts/partial); violated for a nil producer config; every accepted producer config stays accepted with any format from 2 on, any acks and any refresh interval (C53_violated_every_producer); consumers are checked only by NewGroupConsumer and intervals never. |
| C54 Configurations do not influence each other | configuration, error table, name tables | decision logic over the whole table | Always4, Config, Late | partial. Clients whose timeout array is their own are unaffected, and making a producer changes no other configuration (C54_producer); violated: DefaultConsumerConfig's TimeoutMSForEachAPI slice is shared by all consumers made from nil or a map, so any of them waits as long as the last map says (C54_violated_every_map). |
| C55 A non-zero Kafka error code is never reported as success | configuration, error table, name tables | decision logic over the whole table | Always, Error, Error2 | partial. Every answer but list-groups: taken for a success exactly if all its error codes are zero (C55_every_answer_partial, C55_call_partial). Codes 118 and 119 have lost their identity; list-groups ignores its code. The latter for every code (C55_violated_every_code). |
| C56 Compression names and codes correspond | configuration, error table, name tables | decision logic over the whole table | Names | proved. Names and codes are inverse (names compared in lower case) and the code in produced batches is that of the configured codec. |
| C57 ACL names and codes correspond | configuration, error table, name tables | decision logic over the whole table | Names | partial. Holds except for "unknown" operations and permissions, which are read back as "any". |
| C58 Group-membership requests are well-formed | request encoders through the buffer model | equality with grammar bytes; witnesses | NilFilter, Request | partial. All requests for every field value and client version; list-groups only for filters whose strings are under 16383 bytes (larger ones overflow the buffer: witness). A list-groups filter of states set to nil gives a request Kafka's grammar does not have, for every list of types (C58_violated_every_nil_filter). |
| C59 Offset requests are well-formed | request encoders through the buffer model | equality with grammar bytes; witnesses | Request | proved. Every field value and every client version; the offset-list request takes a client id that is set, as its constructor always does. |
| C60 Metadata, version and authentication requests are well-formed | request encoders through the buffer model | equality with grammar bytes; witnesses | Request | proved. Every field value and client version. |
| C61 Topic administration requests are well-formed | request encoders through the buffer model | equality with grammar bytes; witnesses | Always6, Request2 | partial. All requests except create-partitions version 0 with nil assignments, which writes an empty array where Kafka expects null, for every such request (C61_violated_every_unassigned). |
| C62 Partition reassignment requests are well-formed | request encoders through the buffer model | equality with grammar bytes; witnesses | Request3 | proved. Nil replicas are treated as an empty list; see C88. |
| C63 Fetch requests are well-formed | request encoders through the buffer model | equality with grammar bytes; witnesses | Always9, Request3 | partial. Exact: the grammar's bytes come out if and only if they fit the buffer; they always fit with one partition per topic. Violated: the buffer has room for one partition per topic, so no request for enough partitions of one topic is produced (C63_violated_every_many); four partitions make the encoder panic (C63_violated_many). |
| C64 Produce requests are well-formed | request encoders through the buffer model | equality with grammar bytes; witnesses | Always5, Request3 | partial. Version 9 correct given the batches' bytes (C09-C11); every request of version 0 is written with the body of version 3 (C64_violated_every_v0). |
| C65 ACL requests are well-formed | request encoders through the buffer model | equality with grammar bytes; witnesses | Always5, Request3 | partial. Delete correct for every version; create and describe correct from version 2 on; versions 0 and 1 get tag buffers they must not have, whatever the rules (C65_violated_every_create, C65_violated_every_describe). |
| C66 Group-membership responses are understood | response decoders | the decoder inverts the grammar; witnesses | Always2, Described, Response | partial. Join, sync, heartbeat, leave, find-coordinator, delete-groups decoded exactly with the error reported. List-groups: values exact, but no error code is reported by anybody (C66_violated_every_listed_error). Describe-groups: all but member metadata, which is never returned (C66_violated_every_metadata); Error() correct. The decoder's own error is that of the assignment of the last group's last member: none if it has one, whatever the groups' errors (C66_violated_every_error_lost), and always one if it has none, as while the group is rebalancing (C66_violated_every_idle_member). |
| C67 Offset responses are understood | response decoders | the decoder inverts the grammar; witnesses | Always2, Response | partial. Offset-commit exact. Offset-fetch exact without null metadata; every response with null metadata crashes the decoder (C67_violated_every_null_metadata). List-offsets exact for distinct topics, except the throttle time in version 1, which is always the number of topics (C67_violated_every_throttle). |
| C68 Metadata responses are understood | response decoders | the decoder inverts the grammar; witnesses | Always, Metadata | partial. Everything but the cluster id is exact for versions 1, 4 and 7. The cluster id is read in the wrong form, and a null one shifts the rest. The partial theorem says exactly which cluster id is reported; it is wrong for every text (C68_violated_every_cluster_id). |
| C69 Version and authentication responses are understood | response decoders | the decoder inverts the grammar; witnesses | Response2, ShortAuth | partial. API versions and SASL authenticate exact. The handshake error code is read from the wrong bytes and always appears as 0. |
| C70 Topic administration responses are understood | response decoders | the decoder inverts the grammar; witnesses | Always2, ConfigMessage, OldPartitions, Response2 | partial. Create/delete topics, elect leaders, create partitions v2 exact. Log dirs always tell their length as correlation id (C70_violated_every_logDirs); describe-configs gives the first resource, if it has a message but no error, the first byte of the message for its type and loses the message, or crashes (C70_violated_every_describeConfigs_message); create partitions v0 is exact only for one topic (with two topics the client crashes on every answer whose second name is 1 to 255 bytes and whose second message is shorter than 248 bytes: C70_violated_every_createPartitions_v0), and Error() crashes whenever the first failure has no message (C70_violated_every_unexplained). |
| C71 Every altered resource's result is reported | response decoders | the decoder inverts the grammar; witnesses | Always2, Response2 | partial. With one resource the result is exact (alter-configs: when a message is present). With several, the first result is repeated: C71_violated_alterConfigs and C71_violated_every_incremental prove this for every response. Alter-configs without a message crashes (C71_violated_every_null). |
| C72 Partition reassignment responses are understood | response decoders | the decoder inverts the grammar; witnesses | Always2, Response3 | partial. Alter: every field proved for all tags; its Error() dereferences a nil message whenever the first failure has none (C72_violated_every_unexplained). List: skips the response header's tag buffer, so throttle and error code are read one byte early and an error code below 256 is read as 0 (proved for all such codes); the rest of the response is read correctly when no header tags are present. |
| C73 Produce responses are understood | response decoders | the decoder inverts the grammar; witnesses | OldProduce, Response3, TwoTopics | partial. Only a single topic with a single partition is read correctly (version 9). With several partitions of one topic, version 9, the first one's fields are repeated for every entry, so later errors are lost (C73_violated_partitions); several topics crash the client whenever the first partition number is below 65536 (C73_violated_every_topics); version 0, which the client can negotiate, crashes on every answer about one partition (C73_violated_version0) and otherwise crashes or repeats the first partition's number, error and offset for every partition of the first topic (C73_violated_every_partitions_v0). |
| C74 ACL responses are understood | response decoders | the decoder inverts the grammar; witnesses | Always2, OldAcls, Response3 | partial. Create ACLs: results are always dropped (the throttle time's position is read as the count), so failures are reported as success whenever throttle is 0. Delete ACLs: correct in versions 2-3; versions 0-1 only for a single result, and with several the client crashes whenever the second has no message, a code below 256 and fewer than 2^24 matches (C74_violated_every_deleteAcls); Error() dereferences a nil message whenever a filter is refused without one (C74_violated_every_unexplained). Describe ACLs: correct in versions 0 and 2; version 1 crashes because a tag buffer is read that version 1 does not have (every answer without message, with throttle time and number of resources below 2^24: C74_violated_every_describeAcls). |
| C75 Request builders keep one entry per partition | request builders, client operations | invariants over all call sequences; witnesses | Always, Builders | partial. Offset-fetch, log-dirs, list-reassignments and offset-commit builders keep one entry per partition (last position wins); violated by the fetch builder. The latter for every partition added twice (C75_violated_every_fetch). |
| C76 Config builders refuse contradictions | request builders, client operations | invariants over all call sequences; witnesses | Builders2 | proved. Proved for both builders for every sequence of additions. |
| C77 Replica assignments can be replaced | request builders, client operations | invariants over all call sequences; witnesses | Builders | partial. Unknown topics are refused and assignments in ascending order are added; violated: replacing an assignment or adding below an existing one fails. |
| C78 SASL PLAIN tokens carry the credentials | request builders, client operations | invariants over all call sequences; witnesses | Broker2 | proved. Token layout proved at the level of the encoded request; injectivity for users without NUL. |
| C79 Deleting groups reports every group | request builders, client operations | invariants over all call sequences; witnesses | Always2, Client | partial. On success one request per group went to the broker named as coordinator and results are complete; C79_violated_always: any group in error loses the results of those before it and skips the rest. |
| C80 Log-dir listings honour the requested topics | request builders, client operations | invariants over all call sequences; witnesses | Client | proved. Proved for every cluster, broker answer and topic list. |
| C81 Malformed responses fail cleanly | length check of the decoders | decision logic over all byte sequences | Always6, Frame | partial. Every API except describe-ACLs, whose decoder skips the prefix unread: every answer is accepted with every announced length (C81_violated_every_length). Alter-reassignments and delete-ACLs compare in 32 bits, hence the 2 GB bound for them. |
| C82 Compressed legacy messages are delivered uncompressed | fetch stream decoder, legacy messages | witnesses, the general statement where there is one | Always9, Message | partial. Violated: Message.decompress calls Compress (message.go:39-46). Witness with a lossless codec (C82_violated_compressed); for every compressed message and every codec whose output does not begin with a zero byte, what is decoded is never the messages inside (C82_violated_every_compressed). Apart from the codec the decoding is right: C82_unpacked_partial shows that with the right bytes from the codec all messages, inside compressed ones and after them, are delivered in order. |
| C83 A nil value is stored as a tombstone | fetch stream decoder, legacy messages | witnesses, the general statement where there is one | Record | partial. Violated for every record without value: it is written with an empty value, never with the null value. |
| C84 Transaction markers are not delivered as messages | fetch stream decoder, legacy messages | witnesses, the general statement where there is one | Fetch, Ignored | partial. Violated for every control batch: all its records from the requested offset on are delivered as messages. |
| C85 Messages of log-append-time topics carry the append time | fetch stream decoder, legacy messages | witnesses, the general statement where there is one | Fetch, Ignored | partial. Exactly characterised: the timestamps are right only if base timestamp plus delta happens to be the append time; otherwise violated. |
| C86 An error for the whole fetch reaches the consumer | fetch response header | violated for every error code | Fetch, Unread | partial. Violated: the error code in the header is skipped: every response is read with any error code as with none, and with no topics nothing is handed over. |
| C87 Batches with an unsupported codec are rejected | fetch stream decoder, legacy messages | witnesses, the general statement where there is one | Fetch, Ignored | partial. Violated for every batch with codec 4: the codec is masked to 0 and the bytes are read as uncompressed records. |
| C88 A reassignment can be cancelled | alter-partition-reassignments encoder | violated for every request | Request3 | partial. Violated for every request: nil replicas are written as an empty list. |
| C89 A malformed answer is an error, not a crash | response decoders on malformed answers | witnesses | Cuts, Frame, ShortAuth | partial. Violated for 16 kinds of answers: every cut, correctly framed, before the last byte that counts crashes the client, and never gives an error; a large count crashes it too. An answer to the authentication that announces more bytes than it holds is taken for a success, with zeros in place of what is missing (C89_violated_every_auth). |
| C90 A failed NewBroker leaves no connection behind | NewBroker, SASL handshake (broker connection model) | decision logic; witnesses | Broker2, Opened | partial. Proved when no connection could be opened, and that a failed authentication closes it exactly after timeout, end of file and broken pipe. Violated by every failure to obtain the API versions and by a refused password. |
| C91 An unsupported SASL mechanism is rejected with an error | NewBroker, SASL handshake (broker connection model) | decision logic; witnesses | Always, Broker2, Learned | partial. Such a broker is never handed out, but after an accepted handshake the attempt panics (nil header in the zero-valued request). Shown for every other mechanism and every broker that accepts the handshake (C91_violated_all_mechanisms). |
| C92 A moved broker is contacted at its current address | broker registry over an arbitrary network | invariants over sequences of operations; witnesses | Always, Brokers2, Learned | partial. nodes not yet connected are contacted at the known address; violated for cached nodes, whose object keeps the old address. Whatever is done in between (C92_violated_always). |
| C93 Looking up leaders and offsets never crashes | broker registry over an arbitrary network | invariants over sequences of operations; witnesses | Brokers2, LeaderGone | partial. RequestOffsets panics exactly on an error-free answer without topics. False for every topic and partition: a client connected to some broker crashes in RequestOffsets and findLeader whenever the brokers answer without topics. |
| C94 Groups are listed under the node that coordinates them | broker registry over an arbitrary network | invariants over sequences of operations; witnesses | Always9, Brokers2 | partial. Holds when no bootstrap address equals a node's address; otherwise the bootstrap object, created with node id -1, is cached and its groups are listed under -1, in every cluster whose bootstrap server coordinates groups (C94_violated_every_bootstrap). |
| C95 Refreshing metadata leaves no connections behind | broker registry over an arbitrary network | invariants over sequences of operations; witnesses | Brokers2, Leftover | partial. Proved: exactly which connections a refresh leaves open. Violated by every successful refresh: at least one connection more is open after it. |
| C96 An out-of-range position is reset to the configured side | partition consumer state machine | invariants over all interleavings; witnesses | Always, Consumer2 | partial. Holds without committed position; false with one (fromBeginning is only set by initOffset). Every look-up of such a consumer goes to the end (C96_violated_every_lookup). |
| C97 Negative positions are never committed | partition consumer state machine | invariants over all interleavings; witnesses | Always, Consumer2 | partial. Holds for group members; false for consumers committing for themselves. In every state in which the look-up fails (C97_violated_always). |
| C98 A response is read to its end before the connection is used again | fetch decoder and consumer interleaving | witness | Consumer2, Unread | partial. Proved: when the decoder is done the response has been read. Violated for every response whose first partition has an error: the error is handed over with at least twelve bytes unread. |
| C99 An unreachable leader does not crash the consumer | getLeaderBroker over the broker registry | exact crash condition | Consumer2, LeaderGone | partial. Exact condition for the crash. False for every topic, partition and cluster: a leader that refuses connections and was not connected to before crashes the consumer through a nil pointer in a log statement (simple_consumer.go:171). When no broker answers for the metadata, the look-ups of leaders and offsets all report an error (C99_unanswered_partial). |
| C100 Closing a group consumer stops its partition consumers | group consumer state machine | invariants over calm interleavings; witnesses | Always3, GroupConsumer | partial. Proved for calm runs; violated when Close is called while the consumer is joining. C100_violated_every_assignment: if Close is done while the assignment is asked for, whatever number of partitions is assigned, all of them may be consumed afterwards. |
| C101 Closing a group consumer leaves the group | group consumer state machine | invariants over calm interleavings; witnesses | Always3, GroupConsumer | partial. Proved for calm runs in which the leave request succeeds; violated when Close is called while the consumer is joining. C101_violated_every_restart: in every state in which a restart has stopped the partition consumers, Close leaves without a request. |
| C102 Close of a group consumer returns | group consumer state machine | invariants over calm interleavings; witnesses | Always3, GroupConsumer | partial. The first Close in a calm run comes to its end by its own steps; a second Close blocks for ever on closeChan, whatever came before and comes after, unless Consume is called again (C102_violated_every_second). |
| C103 The leader asks for the topics the members subscribe to | subscriptions of the members as read by the leader | set equality for all members' metadata | GroupConsumer | proved.  |
| C104 A clean shutdown commits the last position | partition consumer as member of a group | invariant and witnesses | Always, GroupConsumer | partial. Violated: Stop does not wait for the auto-commit goroutine, and after leaving the member id is empty, so nothing is sent. Proved: the last commit, if it comes before leaving, carries the final position. Shown for every position and every number of calls after leaving (C104_violated_always). |
| C105 Commits belong to the generation that assigned the partition | partition consumer as member of a group | invariant and witnesses | GroupConsumer, Unread | partial. Proved: within one generation all commits carry it. Violated by every rebalance: commitOffset reads the current member id and generation when the request is built, so the last commit of a stopped consumer is made in the new generation. |
| C106 Keyed messages follow the leader | topic producer over the broker registry | invariants; witnesses | Producer2, Stuck | partial. Proved that keyed messages go to the node which was leader when the first of them was added. Violated once the leader moves: the node never changes. |
| C107 A partition producer has a broker to send to | topic producer over the broker registry | invariants; witnesses | Always4, Producer2 | partial. Proved for all cases but that of an unknown leader; violated there: whenever the metadata say that the partition has no leader, createLeader returns a nil broker and a nil error (C107_violated_every_leaderless). |
| C108 A partition without leader does not disable the producer | topic producer over the broker registry | invariants; witnesses | Always4, Producer2 | partial. Proved for answers without errors; violated otherwise: an error of any partition makes the whole refresh fail (C108_violated_every_partition). |
| C109 ACL names are those of Kafka | ACL name tables against Kafka's | whole table | Names | partial. Proved for pattern types and permissions; violated for resource type CLUSTER and the token operations. |
| C110 Read timeouts cover the time a broker may take | consumer and producer configuration | decision logic for all configurations; witness | Config | proved. Proved for every accepted configuration, at the moment the consumer is made (sharing of arrays is C54). |
| C111 Timeouts given by the user are used | consumer and producer configuration | decision logic for all configurations; witness | Always4, Config | partial. Producers proved (C111_producer_partial); for consumers the timeouts given are overwritten whatever they are (C111_violated_every_config), or the program panics if there are one to eleven (C111_violated_every_short). |
| C112 Builders keep one target per partition | partition-reassignment builders | invariant over additions | Always, Builders | partial. All additions are kept in order; the builders do not merge duplicates. Shown for every partition (C112_violated_always). |
| C113 Admin requests go to the current controller | admin client over the broker registry | case analysis; witnesses | Always2, Client | partial. The controller id is read once, when the client is made, and never refreshed: C113_violated_always shows it after any use of the client. |
| C114 Admin calls fail with an error, not a crash | admin client over the broker registry | case analysis; witnesses | Always, Client | partial. All calls through the controller return errors; DeleteTopics panics when the request fails without a response. Shown for every failed request (C114_violated_always). |
| C115 Describing log dirs reports every broker or fails | admin client over the broker registry | case analysis; witnesses | Always2, Client | partial. Holds when all brokers answer without error; C115_violated_always: any broker in error is left out of a successful result. |
| C116 Brokers are asked for the partitions they have | replica lists asked by DescribeLogDirs | set equality for every metadata answer | Client | proved. Proved for every metadata answer and every iteration order. |
| C117 A connection given up by the broker is not used again | broker connection state machine | compositional invariants over call trees; witnesses | Broker3, Late | partial. Proved for requests failing with EOF or a broken pipe on an open connection, and for fetches failing to get the length of the answer for any reason. Violated for every other error (connection reset, timeout; C117_violated_every_failure) and for every failure while a connection is opened (C117_violated_every_reopening): the dead connection is used again. |
| C118 A request is laid out for the version negotiated on its own connection | broker connection state machine | compositional invariants over call trees; witnesses | Broker3, Late | partial. Proved for brokers that tell their versions without error on every new connection. Violated whenever this fails, whatever the failure and the next request (C118_violated_every_reopening): createConnAndAuth leaves the connection open with the versions of the previous one. |
| C119 Answers are decoded by the decoder of their API at the version of their request | dispatch of a response to its decoder | one theorem per API, composed with C66-C74 | Dispatch | partial. One theorem for each API: what C66-C74 say of the decoder, for parse with the API key and the version; and for any splitting of the stream. Partial where the decoder itself is (see C66-C74). Violated for create-ACLs in every version: the results are not read, so refusals pass for success (`C119_violated_createAcls`). |
| C120 Stopping a partition consumer ends | partition consumer state machine | decreasing measure; invariant; `Consume`, the start of the loop's goroutine and `Stop` as interleaved steps (Model/Starting.lean), with the flag read apart from the fetch | Consumer3, Starting2 | proved. Model/Consumer.lean, where the measure LoopAt.left decreases with each step of the loop; and Model/Starting.lean, where reading the flag, sending the fetch, the start of the loop and Stop are steps of their own (C120_steps, C120_stop_ends; a fetch for which the flag was read before adds the length of its answer). |
| C121 A stopped consumer is silent | partition consumer state machine | decreasing measure; invariant; `Consume`, the start of the loop's goroutine and `Stop` as interleaved steps (Model/Starting.lean), with the flag read apart from the fetch | Consumer3, Starting | partial. When the loop has ended there is silence (C121_silent_after_stop); also if Stop is called while Consume has not returned or the loop has not begun, no fetch is sent and no message handed over once Stop has returned (C121_start_partial, all interleavings). From the moment the flag is set at most one fetch is sent (C121_one_fetch_partial). Violated: that one fetch, whenever the loop has just read the flag (C121_violated_every_check); and Stop can return while Consume is asking for its position: the committed position is then asked for any number of times (C121_violated_every_start), or the leader once (C121_violated_every_lookup). |
| C122 A partition consumer starts where it is told | start position: committed position and look-up | refinement, witnesses | Always6, Position, Starting | partial. Proved for the first fetch, for reading the committed position, and for the steps of Consume one by one (C122_consume_steps). Partial for the look-up: a crash for every answer that lacks the topic (C122_violated_every_missing), and the first partition of the topic is taken whatever its id (C122_violated_every_other). |
| C123 Rebalancing never runs two assignments at once | group consumer state machine | invariant by induction over runs | Always10, GroupConsumer | partial. Proved when Close is not called during joining or restarting and nothing is started after it. Without this condition it fails: Consume called again while partition consumers run, then Close, starts all of them a second time, in every state in which they run (C123_violated_every_twice); Close while joining followed by Consume leads to a join while partition consumers run (C123_violated_running). |
| C124 A consumer consumes the partitions asked for | Consume of the consumer without group, over the broker registry | set equality for every assignment and answer; witnesses | Always, MultiConsumer | partial. Proved for Subscribe (C124_subscribe) and for assignments with partition numbers in range, given once, in non-empty lists (C124_partial); violated for empty lists (all partitions are consumed), numbers beyond 32 bits (another partition is consumed) and numbers given twice. Each shown for every such list or number (C124_violated_every_empty, _every_wrap, _every_twice). |
| C125 Closing a consumer without group never crashes | consumer without group as a state machine | invariant over calm interleavings; witnesses | Always9, MultiConsumer | partial. Proved when Consume and AwaitClose are each called once and not concurrently; violated for every second AwaitClose (C125_violated_every_twice) and for every AwaitClose while Consume has partition consumers still to start (C125_violated_every_racing). |
| C126 A closed consumer without group is stopped | consumer without group as a state machine | invariant over calm interleavings; witnesses | Always9, Late, MultiConsumer | partial. Proved under the same condition as C125, where AwaitClose also returns (C126_returns); violated for every AwaitClose while Consume makes the partition consumers (C126_violated_every_racing) and for every second Consume (C126_violated_every_twice). |
| C127 get-pending prints the true lag | get-pending and the HTTP handler over the broker registry | for every cluster answering in an orderly way, rows = offsets, positions and lag; witnesses | Always6, Tools2 | partial. For clusters answering in an orderly way (requests may fail at any time) every line printed is right, and so are the sums as long as they fit 64 bits. False for every partition a group committed nothing for: the lag is one too high (C127_violated_every_uncommitted). |
| C128 reset-offset commits what was asked | reset-offset over the broker registry | the one commit sent, entry by entry; witnesses | ResetEvery, Tools2 | partial. The one commit sent is proved to have exactly the entries asked for. False for every timestamp after the last message (-1 is committed), for every choice of partitions that do not exist (success without effect) and for --offsets.storage (the tool reads a flag it does not declare). |
| C129 Replica assignments given on the command line are the ones requested | parsing of assignments, the request made of them | round trip with a printer; witnesses | Always7, Tools, ToolsEvery | partial. Round trip with a printer of assignments. False: create-topic adds the partitions in the order of a map, and AddReplicaAssignment refuses all but ascending ones, an error the tool drops, so every order in which another partition comes first loses partition 0 (C129_violated_every_order); every assignment with an empty entry before the last crashes create-partitions; every node id from 2^31 on becomes another node. |
| C130 Lines piped into simple-producer arrive | simple-producer's loop over the producer state machine | invariant by induction over the lines | Always7, Tools3 | partial. Every line is sent once, in order and unchanged, with any batching and timer. False whenever the broker refuses the requests: AddMessage and Close drop the error (C130_violated_every_refused). A timer waiting for the mutex during Close can send the last batch again (C46_violated). |
| C131 simple-consumer prints the stretch asked for | simple-consumer's loop over the consumer state machine | equality with a stretch of the log; witness | Always4, Tools3 | partial. What is printed is a stretch of the log, complete when the tool ends. False that it ends: with a stop offset behind the last message it prints all and waits (C131_violated_every_end). |
| C132 The HTTP answer for the lag is true | get-pending and the HTTP handler over the broker registry | for every cluster answering in an orderly way, rows = offsets, positions and lag; witnesses | Always6, Tools2 | partial. True for every cluster when the offsets could be had. False whenever they could not: status 200 with offsets 0 and negated commits as lags (C132_violated_every_offsets). |
| C133 Requests can be read back | the request decoders | composition of the byte-level encoding theorems (C55-C64) with reader lemmas; witnesses | ReadBack, ReadBack2 | partial. Holds for create ACLs, describe ACLs, incremental config changes and reassignments in every version; for metadata with a topic list, list groups with filters, delete ACLs from version 2 and produce with uncompressed batches. Fails: a metadata request for all topics (nil list) panics when read back, delete ACLs in versions 0 and 1 with two filters panic, and compressed produce batches are taken for uncompressed ones. |
| C134 Closing a client is safe | Brokers.Close over the broker cache and its log; one connection shared by a request and Close, step by step | relation kept by every operation; invariant of the interleaving; witnesses | Close, ToolsEvery | partial. Holds for the connections in the cache and for Close between requests or while a request waits for bytes; violated: the second Close panics (close of closed channel), the bootstrap connection is never closed, Close in the middle of a request makes the request dereference nil, and a later request opens a connection again. |
| C135 Messages added by several goroutines are sent when the producer is closed | several goroutines in Producer.AddMessage with keys, step by step | invariant of every interleaving; witness | FirstTwo, Keyed | partial. Holds when no call begins while another one is making the partition producer for the same partition (each partition's first message apart); otherwise violated after every history, for any two goroutines and any partition without a producer so far, because getSimpleProducer takes no lock: the partition producer of one goroutine is replaced in the map and Close does not flush it. |
| C136 A group member presents itself correctly and comes back | join, sync, joinAndSync and the loop around it, heartbeat and commit, as positions between requests | refinement of a history computed from the exchanges, for all answers; recovery from every state; witness for all lengths | Learned, Rejoin, Rejoin2 | partial. Requests are in order for every sequence of answers. Recovery is proved for the errors which the code recognises (15, 16, and for a join EOF, connection refused, network unreachable, i/o timeout); C136_violated_every_other: after every sequence of other errors, such as "no route to host", the consumer dials the coordinator it knows again and has not asked who the coordinator is now. |
| C137 Responses that are written are read back | the Encode methods of five responses, with their buffer sizes | the written bytes are those of the protocol (composition of writer lemmas, the buffer is large enough), then the decoding theorems of C66, C72; witnesses | Always7, Reply | partial. Proved for AlterPartitionReassignments, DeleteAcls, DescribeAcls and ListGroups in every supported version. CreateAclsResponse.Encode violates it: its buffer lacks the four bytes of the length, so every version 0 or 1 response without messages panics (C137_violated_every_silent), one with a single message is truncated, and tagged fields of a result are replaced by those of the response. C137_createAcls_partial covers two messages or more before version 2, and no tagged fields. |
| C138 A broker operation sends the request it names and returns what was answered | the broker operations with their request constructors and the narrowing of the result; RequestAndGet with both results | composition of request encoding (C58-C60), the exchange, and decoding in any chunks (C119); the two models of RequestAndGet are proved to agree; a crash of requestLeaveGroup for every error code and failed write | Ask | partial. requestLeaveGroup asserts the type of a nil response: any error code in the answer to LeaveGroup, and any network failure, ends the program (C138_violated_leave, C138_violated_leave_network), for example when a group consumer whose member was already removed is closed. Missing: a broker without a connection (opening one is C31, C118), metadata with a null cluster id, list groups with an error code (never reported). |
| C139 What a producer sends is what a consumer gets | the produce request, a log that restamps and stores record data (Spec/Log.lean), the streaming fetch decoder | composition of the batch encoder with the delivery theorem of C15 through the stored bytes; negative witness for starting inside a batch | Always4, Flow | partial. Proved through the bytes for all flushes, codecs and logs when the consumer begins at the first offset of a batch and gets whole batches. C139_ordinary: the batches are ordinary ones (no producer id, neither transactional nor control). Missing: beginning inside a batch, which fails for every flush of two or more messages, because all records are sent with offset delta 0 (C139_violated_every_middle, see C12). |
| C140 A batch that cannot be decompressed is not skipped | the streaming fetch decoder with codecs as parameters | induction over the good batches, then one round with the damaged batch and the fate of its error | Damaged | proved. Proved for all responses with one partition (as C15); the codecs are parameters. |
| C141 Restarting from the committed position loses nothing | the partition consumer with its goroutines, run several times, each time from a position an earlier run committed | induction over the runs, with C37 for what one run hands over and C38 for what it commits | Lost, Restart | partial. C141_restart_partial: for messages put into the channels. C141_received_partial: for messages received, with unbuffered channels. C141_violated_every_buffered: with a channel of any size above 0 (Consume makes one of 100 places), any messages next in the log, as many as fit, can be put into the channel and passed over by a commit without anybody having received them, and the next consumer starts after them. C141_violated_buffered: a case. |
| C142 The HTTP API lets in only who knows the password | BasicAuth and the set-up of the middlewares; base64 decoding of the standard library, dropping the error as the code does | decoding undoes the encoding of RFC 4648; by induction the bits decoded are a prefix of the bits spelled out; case analysis of the flags | Auth | partial. C142_known: whatever is let in has spelled out the credentials. C142_exact_partial: credentials in the canonical encoding are let in exactly if they are the right ones. Violated: with --cors the preflight request, which never carries credentials, is answered 401 unless --get-allowed is given (C142_violated_preflight); the scheme is compared with case (C142_violated_case). Not modelled: net/http and gin's routing; base64 is that of the standard library, described from its documentation. |
| C143 An HTTP answer tells what happened | all handlers but GetPending (C132): the status and body written, given the result of every call of the library; gin's rules for statuses, BindJSON and panics | case analysis over the results of the steps | Http | partial. One theorem per handler. Violated: listing reassignments without body, which the handler means to support, is answered 400 with the result (BindJSON has aborted by then); describing log dirs or a group goes on after errors, so that the body is the text of the error with JSON behind it, in the case of a group possibly from node 0, which does not coordinate it. GetPending is C132. |
| C144 An HTTP request leaves no connections behind | as C143, with whether the brokers opened are closed by a defer | case analysis over the results of the steps | Http | partial. Violated: listing groups, describing a group and describing log dirs never close what they opened. Not modelled: what Close itself does (C95, C134). |
| C145 A flush reports success exactly if the broker took the messages | `flush` down to the connection (Model/Flush over Model/Ask and Model/Broker) | composition of C46 (request bytes), C119 (answer) and `askAnswer`; counterexample for acks 0 | Flush, FlushPacked | partial. With acks 1 or -1 and request version 9, a flush writes exactly the request for the messages (with compression: one batch with the right codec bits and checksum which the codec unpacks to exactly the messages) and reports success exactly if the answer's error code is 0. Violated for acks 0: the messages are sent, Kafka answers nothing, and the flush waits until the read times out and reports an error (simple_producer.go:215-220). Missing for the full statement: other versions (see C64, C73). The compressors are external; they are taken to be undone by the decompressors. |
| C146 Connections are made as configured | `newConn`, `createTLSConfig`, `getBrokerConfigFrom…` (Model/Secure); files and their parsing are parameters | case analysis, both directions | Secure | proved. Holds for the clients that have a configuration (consumers, producers). The `Client` of client.go and the command-line tools take no security settings and always connect plainly. A file of authorities in which no certificate is found is accepted (the result of AppendCertsFromPEM is ignored); nothing is trusted then. |
| C147 A cluster is found through any of its bootstrap servers | `NewBrokersWithConfig`, `newBrokersFromOne` (Model/Bootstrap) over the network of Model/Brokers, with a log of what was done | induction over the list of servers; connections left open are shown by cases | Always9, Bootstrap | partial. The order of attempts and that one server suffices hold for all behaviours of the servers. Connections: every server that was connected to but answered with an error or without brokers stays connected (C147_violated_every_left_open); so does every server given under a name other than the one the cluster uses (C147_violated_every_alias). Without these C147_open_partial shows that the kept connection is the only one. |
| C148 get-pending covers the groups and topics asked for | `Helper.GetGroups`, `getGroups`, `getSubscriptionsInGroup` and the loop of get-pending (Model/Pending); of the regexp library the part with single characters, `.`, `*`, `+`, `?` and escaped dots, as an assumption (`Regexps`) | a glob relation defined separately and shown equal to what the translated pattern matches; induction over brokers, members, topics and groups | Pending, PlusPlus, ToolsEvery | partial. Proved: which groups are selected (all listed, one, or those fitting a pattern of dots, stars and inert characters), that members and topics are those of the assignments, and that each selected group and topic gets a true table or a logged failure. Shown wrong: every pattern with two plus signs in a row behind one or more plain characters, dots or stars, such as "c++*", crashes the tool (C148_violated_every_plusplus); in "a+b*" the plus sign is not taken literally; a group with a member without assignment is not shown, even for a topic given; when the listing fails the tool ends with success and shows nothing. The regexp library is an assumption (structure Regexps), which says nothing of patterns that begin with a plus or question mark: Go takes these for repetitions of the ^ put in front. |
| C149 The administration tools ask for what they are given, and wait long enough for it | the tools and handlers (Model/AdminTools) on top of the builders, the encoders and the configuration | a lemma about folding "change the first match or append" gives the groups by topic; the bytes by C61 and C62; the time waited from broker.go:220-225 | AdminTools, Always10 | partial. The groups by topic are right for all of them, and alter-partition-reassignments and delete-topics wait long enough. The code violates the rest: elect-leaders (whose handler sets the timeout of another API), list-partition-reassignments, create-topic and create-partitions give up after 30 seconds whatever timeout they send (`C149_violated_gives_up`); the handlers cut every timeout of more than 32 bits (`C149_violated_every_wrap`). Versions below 2 of create-partitions: C61. |
| C150 Configs are read and changed at the broker which can answer | `DescribeConfigs`, `ConvertConfigResourceType` and alter-configs (Model/Configs) on top of the set of brokers | case analysis; the object asked by `getBroker_spec`, the bytes by C61 | Configs | partial. The code violates it: alter-configs always asks the controller (`C150_violated_alter`), describing loggers does too (`C150_violated_logger`); misspelt types are sent as type 0 (`C150_violated_unknown`), node ids are cut to 32 bits (`C150_violated_wide`), and the defaults of all brokers cannot be described (`C150_violated_defaults`). |
| C151 A partition consumer follows the leader of its partition | the consumer's node and epoch, the fetch loop's turns and the ticker (Model/Follow), on top of the set of brokers; Kafka's verdict on a fetch with an epoch is the specification | invariant and a rank that each turn lowers, by induction on the interleaving; counterexamples by induction | Follow, Late | partial. With the old node answering and an epoch not newer than the cluster's, the consumer is served by the leader after three turns of its loop, whatever the ticker does in between, and stays there (`C151_follows_partial`, `C151_stays`); a new consumer after one (`C151_start`); with any epoch two turns after the next refreshing (`C151_epoch_partial`). Failed searches are repeated until one succeeds (`C151_keeps_looking`, `C151_no_crash`). Violated: the leader is looked for only upon error 6, so a consumer whose leader died (`C151_violated_dead`) or answers with another error, such as 56, stays with it for ever (`C151_violated_stuck`); and error 75 (UNKNOWN_LEADER_EPOCH) is not acted upon, so the consumer waits for the minute's refreshing (`C151_violated_epoch`). The cluster is assumed settled: every answer tells the truth, and one of the known nodes can be reached and answers. |
| C152 A consumer with a group commits at the group's coordinator | the constructor's loop, `getCoordinator`, the loop of `getCommitedOffet` and `CommitOffset` (Model/OwnCommit) on top of the set of brokers; a group with its coordinator and the stored position is the specification | induction on the list of nodes asked; invariant by induction on the history | OwnCommit | partial. In a cluster that agrees on the coordinator the constructor finds it in the first round (`C152_found_partial`), and while the group stays there each commit stores the consumer's position (`C152_commits_partial`). Violated: the coordinator is looked up only by the constructor, so once the group has moved no commit succeeds any more (`C152_violated_moved`), and `getCommitedOffet` asks the former coordinator for ever, stopped or not (`C152_violated_read`). |
| C153 The consuming commands print what they receive | the two loops on lists of events (Model/ConsoleTools), the layout of a line being a parameter and, for the text layouts, defined; the first messages before the interrupt are the specification | induction on the events; cancellation at separators for the lines | ConsoleTools, ResetEvery | partial. Holds for positive numbers and, for console-consumer, all numbers. Lines are unambiguous when values have no line feed. Violated: group-consumer --max-messages 0 prints everything and never returns; for any two messages there is one with a line feed that prints like both; messages in the channel when group-consumer ends are committed and never printed. JSON layout is a parameter. |
| C154 Decoding a fetch response ends, and yields no more than was sent | the loops of the decoder without bound as a relation that counts its rounds (`Repeats`, specification), the rounds being the bodies of the loops | every round that goes on takes at least 17 (12) bytes from the limited reader; a batch of 81 bytes that delivers any number of messages | Ends | partial. The loops over batches and over old messages end after at most one round per 17 (12) bytes, with the model's result. A varint of more than 64 bits moves the position of the record decoder back (binary.Varint answers a negative length), so that one record is delivered as often as the batch claims: 2^32-1 messages from 81 bytes. Not covered: the external decompressors, and compressed messages nested in compressed messages (formats 0 and 1), whose depth the code does not bound. |
| C155 Periodic work happens at the configured intervals | durations as int64 nanoseconds, `NewTicker` with its panic, a ticker with a channel of one tick and the loop over it, on the model of accepted configurations of C53 | arithmetic without wrapping below 292 years; the time between two rounds by induction over the rounds; witnesses for accepted configurations which panic | Always6, Timers | partial. proved for intervals between 1 ms and 292 years, in all forms a configuration can be given in; the rounds of the heartbeat goroutine are followed over time for all durations of the rounds. Refuted: every accepted configuration stays accepted with non-positive intervals, and then crashes the program (C155_violated_every_consumer, C155_violated_every_producer; e.g. a session timeout or a metadata age left out of a ConsumerConfig or ProducerConfig). |
| C156 A message does not wait longer than the flush interval | the steps of the partition producer with the time at which each has the lock; the rounds of the flush timer as in C155 | a waiting message stays in the buffer until a step hands over all of the buffer, by induction over the run; the next round begins within the interval, by the bound between two rounds | InTime | proved. proved for every accepted configuration whose flush interval does not overflow (C155), over all runs with times. Handing over means that a produce request with the message is made; what becomes of it is C46, C48 and C145. |
| C157 Settings given in a map have the value given, or the map is refused | mapstructure.WeakDecode for the fields of the configurations: names, conversions of texts (strconv.ParseInt with base 0, ParseBool), numbers and booleans | characterisation of each conversion for values that say a number, then field by field through createConsumerConfig and createProducerConfig; counterexamples computed | Always10, Always7, Always8, Settings, Written | partial. Holds for decimal texts (for all of them, with underscores and prefixes exactly as strconv allows: C157_underscores, C157_prefix), for numbers that fit, for texts and booleans (C157_switch), and for settings left out; every text that is not a number of the base its prefix says is refused (C157_refused_digits); the code accepts all numbers too large for their field (C157_violated_every_cut), all fractions (C157_violated_every_fraction), takes all digits after a zero as base eight (C157_violated_every_octal), and accepts every name that is no setting (C157_violated_every_unknown). |
| C158 Settings on the command line take effect, or the command says that it cannot use them | how the three commands put their map together; json.Unmarshal is a parameter | induction over the members of the object; the refused text leaves the map as it was | Settings | partial. The members of a JSON object take effect; the error of json.Unmarshal is not looked at, so any other text is silently dropped, and null drops the other flags. |
| C159 Calls from several goroutines behave as calls made one after the other | a mutex and goroutines whose calls consist of arbitrary steps (Model/Locks) around the sequential models of the calls | invariant of every interleaving: what is left of the holder's call gives what the whole call gives after the calls that have returned; then C29, C33, C46, C47 for the sequential histories | Locks | proved. Proved for any division of the calls into steps whose undisturbed effect is that of the sequential model; memory is sequentially consistent. Close of a Broker does not take the lock and is the subject of C134. |
| C160 Concurrent use does not make the Go runtime end the process | the maps of Brokers and Producer with the runtime's mark for writes; look-up with insertion and range, step by step, with or without lock (Model/Maps) | invariants of every interleaving; witnesses | Always8, Maps | partial. Look-ups alone are safe and go on (C160_progress_partial), as is everything when the maps already hold what is needed. Violated for all keys and goroutines: Brokers.Close ranges over the map without the lock (C160_violated_every_close); Producer uses its maps without any lock (C160_violated_every_keyed, C160_violated_every_read). |
| C161 Across the members of a group, every partition gets exactly one consumer | the requests of join and sync and the reading of assignments (Model/Generation), the coordinator by Kafka's rule (Spec/Coordinator) | composition of the theorems on subscriptions, topics, range assignment, requests and responses; counting of pairs of topic and partition | Generation | proved. Proved: C161_join (what a healer consumer says), C161_generation (join answer to sync request to the members' partition consumers, all on the level of the bytes exchanged), C161_exactly_one, C161_follower. The coordinator is Kafka's rule (Spec/Coordinator), trusted. |
| C162 Closing a producer closes what it opened | what producers do with broker objects: timer, keyed messages, Close (Model/Holdings), over the model of brokers.go | invariant of a run; counting what is made and closed in the log; a cluster with any number of refreshes | Holdings | partial. Holds for the connections messages are sent by (C162_leaders_partial): each is closed when its producer is replaced, or by Close. Does not hold for the rest: every refresh of the timer makes a partition producer with brokers of its own, and nothing closes those, nor the producer's own; after Close at least one connection per partition producer, and one more, was made and not closed, whatever the cluster does (C162_violated), so there is no bound (C162_violated_unbounded). Connections that the other side or a failed request ended are not subtracted. |
| C163 The offsets of a topic are listed as they are | get-offsets and the HTTP handler for offsets over the model of brokers.go (Model/Listing) | what leaders answer as a function of the partition; induction over leaders; sorted permutations; the text of any timestamp is read back | Listing | partial. holds for leaders which say one offset per partition and for HTTP requests with a timestamp; fails without a timestamp over HTTP, documented as optional (status 400), and for leaders of version 0 without offset, shown as offset 0. sort.Slice is modelled as a stable sort; with the partitions distinct that makes no difference. |
| C164 The ACL tools ask for what their flags say | the flags of the three tools, JSON strings, UnmarshalText (Model/AclTools, Model/Names) | induction over the characters of a flag; Kafka's tables of names; negations for all flags | AclEscapes, AclTools | partial. holds for Kafka's names (operations 1-12) and resources without quotes, backslashes and control characters. Fails for every value not understood, which becomes 0 without a word, among them four operations the help texts list; for every resource with a quote, which is dropped, so that delete-acls asks for the ACLs of all resources; for backslashes: the eight escapes and \u with four hexadecimal digits are replaced by what JSON means by them, and with any other character after the backslash the name is lost; for names given in quotes; and for create-acls without --patterntype. Escapes of surrogate pairs in JSON are not modelled. |
| C165 get-metadata shows the cluster or fails | get-metadata over the model of brokers.go (Model/Listing) | maps filled in a loop; induction over the brokers asked | Listing | partial. holds when a broker answers; fails always when none does (an empty cluster is printed and success reported) and for every unknown format. |
| C166 Asking about a topic does not create it | the metadata request as sent (Model/Ask) | what Kafka lets a metadata request create, against the bytes sent (C138, C60) | Listing | partial. fails for every request which names topics; holds for requests for all topics. |
| C167 Closing a consumer closes what it opened | the connections of partition consumers over the model of brokers.go (Model/ConsumerHold) | invariant by induction over steps: every connection made for a node is cached, a leader's or closed; counting connections made and closed | ConsumerHold, Starting | partial. Consumer and GroupConsumer: after any history AwaitClose closes every connection made for a node (C167_await_partial). SimpleConsumer on its own: Stop closes every connection to a leader (C167_stop_partial), but never the brokers that NewSimpleConsumer made: whatever happened, at least one connection stays open (C167_violated_every). A Stop during Consume can return before the connection to the leader is made, which then stays open (C167_violated_every_start). |
| C168 A consumer without a group needs no group coordinator | the part of Consume that makes the partition consumers, with the unbounded search for the coordinator in rounds (Model/MakeConsumers) | for all clusters in which no broker names a coordinator: nothing is started in any number of rounds; otherwise induction over the partitions | MakeConsumers | partial. Consumer.Consume looks for a coordinator for every partition even without a group, and forever (consumer.go:109-117): while no broker names one, no partition is started in any number of rounds (C168_violated_every). With a coordinator to be had all partitions are started (C168_found_partial). |
| C169 Messages of the old formats are delivered | the loop for the old formats in the stream decoder (Model/Fetch legacyLoop, Model/Message) | induction over the messages for responses in one piece; for all messages and batches: a batch after old messages crashes the client | OldFormat | partial. Holds for messages of formats 0 and 1 in one piece and nothing after them (C169_old_delivery_partial, all messages). Violated: every batch after such messages crashes the client, the checksum being taken for the length of a key (C169_violated_every_mixed); for split responses see C18, for compressed messages C82. |
| C170 The tools for groups tell the whole truth | the three commands over the models of Brokers and Client (Model/GroupTools, Model/Brokers listGroups, Model/Client deleteGroups) | induction over the nodes for list-groups, with the numbers in the objects kept apart; for every cluster with a broker that refuses: the tool succeeds without its groups | GroupTools | partial. list-groups: if it succeeds, each known node was asked and its groups are in the result (C170_list_partial; any order, at most one object made from a bootstrap address). Violated for refusals: with any error code, for every cluster, the tool succeeds without the groups of that broker (C170_violated_every_refusal; the error code of ListGroups is not looked at). describe-groups: fully proved (C170_describe). delete-groups: what is printed tells of each group given that it was deleted (C170_delete_partial); groups deleted before an error are not told of (C79_violated). |
| C171 A closed consumer can be started again or says that it cannot | the interleaving models of Model/GroupConsumer and Model/MultiConsumer, with what Consume of a consumer without a group returns | invariant: a Close in good order leaves its value in closeChan; from every such state a run in which Consume returns with nothing started; for consumers without a group an invariant of all runs | Reuse | partial. C171_started_partial: with nothing left in closeChan, Consume (and restarts after it) starts every partition consumer made. Violated for every group consumer closed while nothing was being started: the next Consume can return at once, without an error, because Close left its value in closeChan; the consumer then joins the group, starts nothing, sends no heartbeats, and the next Close crashes the program (C171_violated_every_group). Violated for every closed consumer without a group: Consume returns the nil channel and no error, and starts nothing (C171_violated_every_closed). |
| C172 Passwords stay out of the log | the lines of the log that are handed a configuration or parts of a request (Model/Logged.lean), with the text klog makes of a structure; connection, authentication and requests from Model/Broker.lean | relation between two runs that differ in the password, kept by every step (what is sent is the same except in SaslAuthenticate requests; the lines about requests tell only the length); negation: every line with a configuration shows the password | Logged | partial. The code writes the password to the log: each of the five functions that make a client writes at least two lines of the lowest verbosity with the whole configuration, and the password can be read in every one of them, for every configuration (C172_violated_every_maker; for passwords of printable characters that JSON does not escape; C172_violated_every_password for all others says that the values handed to the logger differ). What klog makes of a structure is stated in the model (JSON, field by field), not derived from its source. What holds, for all peers and all sequences of requests: on the wire nothing but SaslAuthenticate requests depends on the password (C172_wire_partial), and the lines about requests tell no more of it than its length (C172_requests_partial). |
| C173 Failures are not retried without a pause | the calls of time.Sleep in the steps of a partition consumer (Model/Pace.lean over Model/Consumer.lean), pauses of a group consumer (Model/Rejoin.lean) | traces of requests, answers and pauses for all runs; negation for all sequences of errors in answers to fetches, and of the three codes by which a member is told to join again | Pace | partial. The code waits after requests that fail, not after answers that are errors: a partition consumer whose fetches are answered with errors, any errors and any number, asks again without one pause (C173_violated_every_error); a group consumer repeats a join refused with 22, 25 or 27 without one (C173_violated_every_rejoin); and retry.backoff.ms may be any number (C173_violated_every_backoff). What holds in all runs: a fetch request without answer is followed by a pause (C173_unanswered_partial), and so is every failed request for joining except for the three codes (C173_joining_partial, C173_joining_start_partial). The length of the pause is not modelled. |
| C174 A consumer gets to every message | what a broker returns for an offset and a size (Spec/Serve.lean), the decoder's result for whole batches (Model/Fetch.lean), the consume loop (Model/Consumer.lean) | induction on the number of doublings for the part that holds; negation for every log that ends in offsets without messages, every size and everything appended later | Progress | partial. C174_progress_partial: whenever some size n·2^k below 2^31 is enough for an answer with a message from the position on, at most k fetches double the size and the next one hands over the first such message of the log; C174_answers_partial connects the answers it assumes to the decoder. C174_violated_every_gap: for every log that ends in a batch whose remaining messages lie before the position while its offsets do not (compaction leaves such batches), and every size to begin with, 32 fetches leave the size zero; then nothing is handed over again, whatever is appended and however many fetches follow, since a size of zero is answered with the first batch alone. C174_violated_every_refusal: the same with a broker that refuses sizes below zero, which are reached first from every positive size. |
| C175 Closing returns within the time given | the rounds of the consume loops in time, Stop of one after the other, the timer of AwaitClose (Model/Leaving.lean) | induction on the list of partition consumers for the bound that holds; negation for every answer that comes after the timeout, and for every number of idle partitions | Leaving | partial. The timer is started only after every partition consumer was stopped, one after the other, and Stop waits for the fetch in flight, which nothing cancels. What holds is a bound in which each partition adds the length of a round. Negations: an answer that comes after the timeout keeps AwaitClose as long, for all other consumers and times; n idle partitions can take n times the wait of a fetch (less one unit each), whatever the timeout; and the request to leave comes after the timer, so its answer is waited for in addition (C175_violated_every_leave). Not modelled: waiting for closeChan and the mutex, which only adds. |
| C176 Consume returns when the consumer is stopped | Consume, the start of the loop and Stop as goroutines (Model/Starting.lean) | a measure that decreases with each step of Consume but failures of the coordinator; negation for every run in which the coordinator does not answer | Starting2 | partial. Consume makes at most four more steps, and one for each failure of the coordinator to tell the committed position. Violated: the loop in getCommitedOffet does not look at the flag, so Consume goes on for as long as the coordinator does not answer, whatever else happens; such states are reached in every group and for every unknown position, also after Stop has returned. |
| C177 Batches respect batch.size | partition producer, configuration | bound from the number of messages and the largest of them; negation for every configuration and messages | Sizes | partial. Violated: batch.size is read by nothing. Every accepted configuration lets as many messages as message.max.count says go out in one request, whatever their sizes, also two that would fit one by one. Proved where message.max.count times the largest message stays within batch.size. |
| C178 Failed produce requests are sent again as configured | partition producer, configuration | counting messages in requests and accepted ones, from C46 | Sizes | partial. Violated: retries is read by nothing (a TODO in config.go). In every run without success each message is sent exactly once and then forgotten. Proved for retries 0, while no tick of the timer comes after Close (see C46). |
| C179 Positions are kept where offsets.storage says | the requests for positions from the setting to the bytes (Model/Storage.lean); where a broker looks (Spec/Storage.lean) | bytes sent equal the grammar at the negotiated version; negation for every setting and every coordinator that does not happen to agree | Storage | partial. Violated: the version made from offsets.storage is overwritten by the negotiated one before the request is encoded. With 0, positions are in Kafka at every coordinator of today; with 1, they are in ZooKeeper at every coordinator without the later versions, silently; with other numbers nothing is read but positions are committed. Proved where setting and coordinator happen to agree; what the requests say otherwise is as it should be (C179_says_partial). |
| C180 A consumer that is started again continues where its predecessor stood | runs of two consumers one after the other (Model/Consumer.lean, `Life` of Props/Restart.lean) | invariant: a consumer at 0 has no commit in flight and none in its log; negation for every run at position 0; commit and restart at every other position | Zero | partial. The position that a new consumer takes for committed is 0, not "none" (simple_consumer.go:33, 324). C180_violated_every_zero: a consumer that began at 0 and handed over nothing never commits, in no run, however often CommitOffset is called; its successor, started with the last position as its wish, begins at the end of the log as it is by then, and no message before that end is put into a channel by either. C180_committed_partial: at every other position that is not the one committed last the call sends the position, and a consumer told that position begins there. Missing: position 0. |
| C181 The rest of a fetch answer that came too late is not taken for another answer | one fetch cut off by its time limit, and what the connection gives afterwards (Model/Deadline.lean over Model/Fetch.lean and Model/Broker.lean) | negation for every answer cut off in the records of a batch or in the header of the answer; the rest for cuts in the first 61 bytes of a batch | Deadline, HeadCut, SizeCut | partial. Fails for every fetch answer cut off by the time limit within the records of a batch: the timeout is wrapped by fmt.Errorf("%w") twice, os.IsTimeout does not unwrap, so the consumer is sent the error but keeps the connection, and the rest of the answer is the first thing the next request on it reads. Bytes chosen by a producer can so become the answer to a request: C181_violated_every_forged shows that the consumer is then handed messages the partition does not hold. Also fails for every answer cut off in its first 8 or 18 bytes: the error is only logged. Holds (connection closed) when the cut is in the first 61 bytes of a batch or between batches, and (C181_topic_partial) when it is in the header of the first topic. Fails also (C181_violated_every_size) for every answer cut off inside the size of the record data when the bytes that came are zero: not even an error is sent. Cuts in the header of the partition before the size close the connection if what came did so in one piece (C181_partition_partial); if it came in several, the header may be misread (C18). |
| C182 A request ends within its timeout | reading a frame with a delay before every piece (Model/Timed.lean), shown to refine `readFrame` | bound by induction over the pieces; negation for every answer by an arrival byte by byte | Limit, Timed | partial. Fails for every answer and every timeout of at least 2 ms: the deadline is renewed before every Read, so an answer that trickles in succeeds after (timeout-1) ms for every byte; with a timeout of 0 there is no end, and every answer is taken after any time (C182_violated_every_unlimited). Writing has no deadline at all: a broker that stops reading keeps the request for ever (C182_violated_every_write). Holds, if the request is taken at once (C182_taken_partial): with a timeout above 0 the reading ends, after at most the timeout for every byte of the answer, and after exactly the timeout if nothing comes. |
| C183 A message carries the time at which it was given to the producer | runs of the producer with times (Model/Producer.lean; `stampedRun` reads the timestamps out of the requests) | invariant over the times at which the waiting messages were given; negation for every message that waits | Stamp | partial. Fails for every message that waits in the buffer: all messages of a batch get the time at which the batch is made, the record's own time difference is always 0. Holds: no message carries a time before it was given, and with message.max.count at most 1 the time is right. |
| C184 A fetch asks for what is configured, and leaves nothing behind at the broker | building and encoding the fetch request (Model/Asking.lean over Model/Builders.lean), Kafka's reading of session fields (Spec/Session.lean) | composition with C63; negation for every sequence of fetches | Asking | partial. The fields are right in every version. Fails for every fetch in versions 7 and 10: session id 0 with epoch 0 asks the broker for a new session each time (epoch -1 would not); they fill the broker's cache of sessions. Version 0 has no sessions. |
| C185 Every call of Consume gets the messages from its position on | all the loops of one consumer with their shared fields (Model/Again.lean over Model/Consumer.lean) | simulation of one loop by C37's machine; negation for every second call, with another position or with the same | Again | partial. Holds for a consumer on which Consume is called once (C185_once_partial, through C37). A second call is not refused: with another position it moves the first loop there (C185_violated_every_other); with the same position messages may come twice, because the slower loop sets the position back (C185_violated_every_same). A call after Stop returns a channel into which nothing ever comes (C185_violated_every_stopped). |
| C186 The time limit of one request does not end another | deadline of a connection across requests (Model/Limit.lean, extending Model/Timed.lean), timeouts per API (Model/Config.lean) | simulation by the model of single requests if all or none of the timeouts are 0; negation for every pair of requests of which only the first has one, and for every group consumer whose timeout is 0 | Limit | partial. Holds if all requests of a connection have a timeout, or none has (C186_alike_partial). A request without timeout does not take the deadline of the one before away, so it fails when that has passed, even if it is answered at once (C186_violated_every_next); with timeout.ms 0 this happens to the heartbeats of every group member (C186_violated_every_member). |
| C187 Keyed messages go where Kafka's own clients put them | the producer's choice of the partition (Model/Producer.lean) with MurmurHash2 written out (Spec/Murmur.lean, checked against Kafka's own test values) | composition with the invariant of C51; negation for every number of partitions above one, by the greatest common divisor of two differences of hashes | Murmur | partial. Holds for topics with one partition. The producer hashes with the seed 0 and takes all 32 bits, Kafka's clients use the seed 0x9747b28c and 31 bits: for every number of partitions above one the empty key or the key of one zero byte always goes elsewhere (C187_violated_every_topic). Trusted: that the library go-murmur, which is not part of the repository, implements MurmurHash2 as written in Spec/Murmur.lean. |
| C188 A group may mix healer with Kafka's own clients | the decoders of Model/Group.lean with the subscriptions of Kafka's own clients (Spec/Mixed.lean), `assign` | decoders consume a prefix in the grammar and leave what follows; the slices of the sorted ids are the intervals of the range assignor | Mixed | proved. Member ids are compared as bytes; Kafka's own assignor compares them as Java strings, which is the same order for ids in ASCII. Static members (group.instance.id), which Kafka's assignor sorts by that id, and the rack-aware division of newer versions are not considered. |
