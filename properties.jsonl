{"id": "C01", "title": "Every recorded dialogue message obeys the dialogue rules", "statement": "In every dialogue an agent holds, the first message has message id 1, target 0 and a performative from the declared initial performatives, and every later message has a performative that the declared valid-replies table allows as a reply to the performative of some earlier message of the same dialogue.", "quantifier": "every rule table, every finite history of Create / CreateWithMessage / Update / Reply calls with arbitrary (possibly hostile) messages, every dialogue in the store after it", "why_tests_cant": "Tests replay a handful of well-formed conversations; the rule must survive every interleaving of accepted and rejected messages chosen by a remote party.", "anchors": ["libs/go/aealite/protocols/dialogue.go: update, validateNextMessage, validateMessageTarget", "libs/go/aealite/protocols/dialogues.go: Update, Create"]}
{"id": "C02", "title": "A message rejected by a dialogue leaves that dialogue's history untouched", "statement": "When Dialogues.Update, Dialogue.Reply or Dialogue update reports an error or ignores a message, the incoming, outgoing and ordered message histories of every already existing dialogue are exactly what they were before the call.", "quantifier": "every reachable agent state and every message", "why_tests_cant": "Atomicity on failure is about the absence of an effect on every failing path; tests exercise a few failing inputs.", "anchors": ["libs/go/aealite/protocols/dialogue.go: update, Reply", "libs/go/aealite/protocols/dialogues.go: Update"]}
{"id": "C03", "title": "Own messages are numbered consecutively", "statement": "In every dialogue the messages sent by the agent itself carry ids 1,2,3,... if the agent opened the dialogue and -1,-2,-3,... otherwise, with no gap or repetition.", "quantifier": "every history of API calls and every dialogue", "why_tests_cant": "An inductive statement over unbounded histories.", "anchors": ["libs/go/aealite/protocols/dialogue.go: getOutgoingNextMessageId, Reply, update"]}
{"id": "C04", "title": "The counterparty's messages are numbered consecutively", "statement": "In every dialogue the messages received from the counterparty carry ids -1,-2,-3,... if the agent opened the dialogue and 1,2,3,... otherwise, with no gap or repetition, so that the next in-order message of a correct counterparty is always accepted.", "quantifier": "every history of API calls and every dialogue", "why_tests_cant": "Depends on the interleaving of incoming and outgoing messages, of which there are unboundedly many; tests only cover the first two messages.", "anchors": ["libs/go/aealite/protocols/dialogue.go: getIncomingNextMessageId, validateMessageId"]}
{"id": "C05", "title": "No incoming message can crash the dialogue layer", "statement": "Dialogues.Update and Dialogue.Reply return normally (possibly with an error) for every message; no sequence of messages from a remote agent makes them panic.", "quantifier": "every history of API calls with arbitrary messages, every next call", "why_tests_cant": "A crash is reached only by a particular multi-message history picked by an adversary.", "anchors": ["libs/go/aealite/protocols/dialogue.go: getMessageById, validateMessageTarget, hasMessageId", "libs/go/aealite/protocols/storage.go: removeDialogueFromArray"]}
{"id": "C06", "title": "A message target identifies the message with that id", "statement": "Whenever a message is accepted with target t different from 0, the dialogue already contains exactly one message whose id is t, and the reply rule is checked against that message's performative.", "quantifier": "every history of API calls and every accepted message", "why_tests_cant": "Look-up is by position, not by id; agreement between the two is an invariant of all histories.", "anchors": ["libs/go/aealite/protocols/dialogue.go: getMessageById, validateMessageTarget"]}
{"id": "C07", "title": "Messages of one counterparty never affect dialogues with another", "statement": "Processing a message whose sender is X leaves every dialogue whose counterparty is not X (its label and all its message histories) unchanged and still retrievable.", "quantifier": "every reachable agent state, every message, every pair of distinct addresses", "why_tests_cant": "Isolation is a statement about all other dialogues under arbitrary adversarial message contents.", "anchors": ["libs/go/aealite/protocols/dialogues.go: Update, GetDialogue, completeDialogueReference", "libs/go/aealite/protocols/dialogue.go: isBelongingToDialogue"]}
{"id": "C08", "title": "A counterparty cannot open the same dialogue twice", "statement": "After a dialogue was opened by a sender with a starter reference, a further initial message of the same sender with the same starter reference is refused and changes no stored dialogue; this stays true even after the dialogue ended and was removed.", "quantifier": "every reachable agent state and every later history", "why_tests_cant": "Replay protection must hold over unbounded histories.", "anchors": ["libs/go/aealite/protocols/dialogues.go: Update, createOpponentInitiated, create", "libs/go/aealite/protocols/storage.go: IsInIncomplete, SetIncompleteDialogue"]}
{"id": "C09", "title": "The dialogue reference, once completed, is immutable", "statement": "Once the responder part of a dialogue's reference is known it never changes, and the starter part, the counterparty and the starter address of a dialogue never change at all.", "quantifier": "every history of API calls and every dialogue", "why_tests_cant": "A stability property of all future executions.", "anchors": ["libs/go/aealite/protocols/dialogues.go: completeDialogueReference", "libs/go/aealite/protocols/dialogue.go: updateDialogueLabel"]}
{"id": "C10", "title": "The per-counterparty index agrees with the dialogue store", "statement": "In every reachable state the list returned for a counterparty contains exactly the stored dialogues whose counterparty it is, each once, and looking a dialogue up by its own label returns that dialogue.", "quantifier": "every history of API calls", "why_tests_cant": "Two mutable indices are kept in sync by hand on every path, including failing ones.", "anchors": ["libs/go/aealite/protocols/storage.go: AddDialogue, RemoveDialogue, removeDialogueFromArray, GetDialoguesWithCounterparty"]}
{"id": "C11", "title": "Terminal and active dialogues partition the store", "statement": "In every reachable state each stored dialogue is reported either as active or as terminal but not as both; with 'keep terminal state dialogues' off, a dialogue whose accepted message is terminal is no longer in the store when the call returns, and with it on it is stored and reported as terminal.", "quantifier": "every history of API calls, both settings, every terminal performative set", "why_tests_cant": "Depends on callbacks registered once per (re-)insertion and on all histories.", "anchors": ["libs/go/aealite/protocols/storage.go: DialogueTerminalStateCallback, GetDialoguesInTerminalState, GetDialoguesInActiveState, AddDialogue"]}
{"id": "C12", "title": "A rejected opening message leaves no trace", "statement": "If the first message of a would-be dialogue is rejected, the agent state is as if it had never arrived: in particular a later valid opening message with the same reference from the same sender is accepted, and a failed Create leaves no stored dialogue.", "quantifier": "every reachable state and every invalid opening message", "why_tests_cant": "The leftover is only visible through a second, later call with the same reference.", "anchors": ["libs/go/aealite/protocols/dialogues.go: Update, createDialogue", "libs/go/aealite/protocols/storage.go: RemoveDialogue"]}
{"id": "C13", "title": "Dialogue label text form round-trips and is unambiguous", "statement": "Parsing the text form of a dialogue label gives back that label exactly when no component contains an underscore, otherwise it is an error; and whatever text parses, prints back as the same text.", "quantifier": "every label and every string", "why_tests_cant": "All strings; tests use one label.", "anchors": ["libs/go/aealite/protocols/dialogue_label.go: String, FromString"]}
{"id": "C14", "title": "Dialogue label JSON form round-trips", "statement": "Decoding the JSON form of a dialogue label gives back that label, whatever order the encoder emits the fields in.", "quantifier": "every label (arbitrary component strings) and every field order", "why_tests_cant": "All strings including quotes and backslashes, and a random map iteration order.", "anchors": ["libs/go/aealite/protocols/dialogue_label.go: MarshalJSON, UnmarshalJSON"]}
{"id": "C15", "title": "Dialogue message fields survive the envelope", "statement": "A dialogue message put into a response envelope by one agent and unpacked by the receiving agent has the same message id, target, dialogue reference and content, sender and receiver.", "quantifier": "every message (any id and target an agent can hold) and content", "why_tests_cant": "All integers and byte strings; narrowing happens only outside the int32 range.", "anchors": ["libs/go/aealite/protocols/message.go: MakeResponseEnvelope, GetDialogueMessageWrappedAndSetContentFromEnvelope, InitFromProtobufAndSetContent"]}
{"id": "C16", "title": "A reply reaches the matching dialogue of the peer", "statement": "If agent A opens a dialogue with B and B's handler replies to it, the reply is accepted by A into the dialogue A opened, and both sides then hold the same complete dialogue reference.", "quantifier": "every pair of distinct non-empty addresses, every rule table allowing the exchange, any prior contents of both agents' stores reachable by API calls", "why_tests_cant": "Two-party agreement over all prior states.", "anchors": ["libs/go/aealite/protocols/dialogues.go: Create, Update, completeDialogueReference", "libs/go/aealite/protocols/dialogue.go: Reply"]}
{"id": "C17", "title": "String-set helper behaves as a mathematical set", "statement": "Membership after any sequence of Add/Remove/AddFromArray equals that of the mathematical set, Size is its cardinality, Copy is equal and independent, Difference is set difference.", "quantifier": "every sequence of operations and every element", "why_tests_cant": "All operation sequences.", "anchors": ["libs/go/aealite/helpers/base.go: Set"]}
{"id": "C18", "title": "ACN protobuf messages round-trip", "statement": "Decoding the encoding of an ACN message (lookup request/response, registration, envelope, status) yields the same message; encodings of different messages differ.", "quantifier": "every message with valid UTF-8 text fields and any byte payload", "why_tests_cant": "All byte strings and lengths; varint boundaries.", "anchors": ["libs/go/libp2p_node/acn/utils.go: DecodeAcnMessage, EncodeAcnEnvelope", "libs/go/libp2p_node/protocols/acn/v1_0_0/acn.pb.go", "libs/go/libp2p_node/dht/dhtpeer/dhtpeer.go: saveAgentRecord"]}
{"id": "C19", "title": "Envelope protobuf round-trips", "statement": "Decoding the encoding of an AEA envelope yields the same envelope.", "quantifier": "every envelope with valid UTF-8 text fields and any message bytes", "why_tests_cant": "All byte strings and lengths.", "anchors": ["libs/go/libp2p_node/aea/envelope.pb.go", "libs/go/aealite/protocols/base.pb.go"]}
{"id": "C20", "title": "Length-prefixed frames round-trip on a byte stream", "statement": "A sequence of byte strings written as frames to a connection is read back as the same sequence, however the transport splits the bytes into reads.", "quantifier": "every list of byte strings each writable without error, every segmentation of the byte stream", "why_tests_cant": "All segmentations and sizes; loopback tests never split or merge segments.", "anchors": ["libs/go/libp2p_node/utils/utils.go: WriteBytesConn, ReadBytesConn, WriteBytes, ReadBytes", "libs/go/aealite/connections/tcpsocket.go: Read, Write", "libs/go/libp2p_node/aea/pipe.go: Read, Write"]}
{"id": "C21", "title": "What a node accepts to send, a node accepts to receive", "statement": "Every byte string that the writing side of a delegate connection sends without error is accepted by the reading side of the same program.", "quantifier": "every byte string", "why_tests_cant": "Size limits differ by orders of magnitude and no test sends such sizes.", "anchors": ["libs/go/libp2p_node/utils/utils.go: WriteBytesConn, ReadBytesConn, maxMessageSizeDelegateConnection"]}
{"id": "C22", "title": "Stored agent records survive a restart", "statement": "After any sequence of successful registrations saved to the record file, a restarted peer loads exactly the last record saved for each address and nothing else.", "quantifier": "every sequence of records and every address", "why_tests_cant": "All sequences and record contents.", "anchors": ["libs/go/libp2p_node/dht/dhtpeer/dhtpeer.go: saveAgentRecord, initAgentRecordPersistentStorage"]}
{"id": "C23", "title": "A crash while saving a record does not lose earlier records", "statement": "If the process stops after any prefix of the bytes of an append reached the file, a restarted peer still starts and loads all records saved before.", "quantifier": "every sequence of records, every crash point (byte offset)", "why_tests_cant": "All crash points.", "anchors": ["libs/go/libp2p_node/dht/dhtpeer/dhtpeer.go: saveAgentRecord, initAgentRecordPersistentStorage, New"]}
{"id": "C24", "title": "A proof of representation is accepted exactly when every check holds", "statement": "A record is accepted for an address and a peer key if and only if the address, the supported ledger, the representative's key, the address derived from the agent key and the signature all match; otherwise the reported status names the first failing check.", "quantifier": "every record, address, peer key, and every behaviour of the signature and derivation primitives", "why_tests_cant": "All combinations of failures and their precedence, for arbitrary cryptographic primitives.", "anchors": ["libs/go/libp2p_node/dht/dhtnode/utils.go: IsValidProofOfRepresentation"]}
{"id": "C25", "title": "Verifying a remote record never crashes the node", "statement": "Checking any registration record received from the network returns a verdict; no record content makes the process panic.", "quantifier": "every registration message", "why_tests_cant": "Adversarial record contents (empty key, short signature, missing record).", "anchors": ["libs/go/libp2p_node/dht/dhtnode/utils.go: IsValidProofOfRepresentation", "libs/go/libp2p_node/utils/utils.go: EthereumAddressFromPublicKey, RecoverAddressFromEthereumSignature", "libs/go/libp2p_node/acn/utils.go: ReadAgentRegistrationMessage"]}
{"id": "C26", "title": "Envelopes taken from a delegate connection carry the registered sender", "statement": "Every envelope a peer routes on behalf of a delegate connection has as its sender the address that connection registered with a valid proof of representation for this peer.", "quantifier": "every sequence of frames a delegate client can send", "why_tests_cant": "All hostile clients.", "anchors": ["libs/go/libp2p_node/dht/dhtpeer/dhtpeer.go: handleNewDelegationConnection"]}
{"id": "C27", "title": "Envelopes taken from other peers carry the proven sender", "statement": "Every envelope accepted from another peer is delivered only if its sender is the address proven by the record that accompanies it.", "quantifier": "every message another peer can send", "why_tests_cant": "All hostile peers.", "anchors": ["libs/go/libp2p_node/dht/common/handlers.go: receiveEnvelopeFromPeer, HandleAeaEnvelopeStream", "libs/go/libp2p_node/dht/dhtpeer/dhtpeer.go: HandleAeaEnvelope"]}
{"id": "C28", "title": "Mailbox clients can only send as themselves", "statement": "Every envelope a mailbox session submits for routing has as its sender the address of that session.", "quantifier": "every sequence of HTTP requests from any set of clients", "why_tests_cant": "All hostile clients.", "anchors": ["libs/go/libp2p_node/dht/dhtpeer/mailbox.go: apiSendEnvelope"]}
{"id": "C29", "title": "The mailbox is a bounded FIFO per address", "statement": "For each registered address, the envelopes handed out by get-envelope are exactly those accepted for it, in acceptance order, each once, and at most 1000 are pending; an envelope is refused only if the address is not registered or 1000 are pending.", "quantifier": "every sequence of register / unregister / route / get requests", "why_tests_cant": "All histories and queue lengths.", "anchors": ["libs/go/libp2p_node/dht/dhtpeer/mailbox.go: RouteEnvelope, apiGetEnvelope, apiRegister, apiUnregister"]}
{"id": "C30", "title": "Mailbox sessions are isolated", "statement": "A session id obtained by registering an address gives access only to that address's mailbox, only after a valid proof of representation, and no operation with it changes another address's mailbox or sessions; an unknown or unregistered session id is refused by every endpoint.", "quantifier": "every sequence of HTTP requests, every two addresses", "why_tests_cant": "All histories.", "anchors": ["libs/go/libp2p_node/dht/dhtpeer/mailbox.go"]}
{"id": "C31", "title": "Envelopes handed to the peer are routed by the documented precedence", "statement": "An envelope for routing is delivered to exactly one of: the mailbox, the peer's own agent, the delegate connection, the relayed client, or the peer found in the DHT, in this precedence; if none is possible it is queued for retry, and it is never sent to two of them in one attempt.", "quantifier": "every peer state and every envelope, every behaviour of the network", "why_tests_cant": "All state combinations.", "anchors": ["libs/go/libp2p_node/dht/dhtpeer/dhtpeer.go: RouteEnvelope, HandleAeaEnvelope"]}
{"id": "C32", "title": "Client mode delivers an envelope at most once", "statement": "Routing an envelope in client mode delivers it either to the own agent or once to the relay or target peer, never to both.", "quantifier": "every client state and envelope, every network behaviour", "why_tests_cant": "All combinations of target and network outcome.", "anchors": ["libs/go/libp2p_node/dht/dhtclient/dhtclient.go: RouteEnvelope"]}
{"id": "C33", "title": "A found address comes with a valid proof of representation", "statement": "Whenever a DHT look-up of an agent address reports success, it returns a peer and a record whose proof of representation for that address and that peer is valid.", "quantifier": "every provider list, every sequence of network replies, every time-out schedule", "why_tests_cant": "All provider and failure orders.", "anchors": ["libs/go/libp2p_node/dht/dhtpeer/dhtpeer.go: lookupAddressDHT", "libs/go/libp2p_node/acn/utils.go: PerformAddressLookup"]}
{"id": "C34", "title": "An acknowledgement is credited to the envelope it acknowledges", "statement": "A send operation that reports success received a success status that the receiver issued for that very envelope.", "quantifier": "every interleaving of sends, acknowledgements and time-outs", "why_tests_cant": "Needs a late acknowledgement arriving after a time-out.", "anchors": ["libs/go/aealite/connections/p2pclient.go: Put", "libs/go/libp2p_node/acn/utils.go: WaitForStatus, SendEnvelopeMessageAndWaitForStatus", "libs/go/libp2p_node/dht/dhtpeer/dhtpeer.go: AwaitAcnStatus, AddAcnStatusMessage", "libs/go/libp2p_node/aea/api.go: SendEnvelope"]}
{"id": "C35", "title": "Envelopes of a sender-receiver pair keep their order", "statement": "Envelopes a delegate client sends to one receiver are routed in the order in which the client sent them, for every scheduling of the peer's goroutines.", "quantifier": "every interleaving of connection handlers and queue workers, any number of connections", "why_tests_cant": "Scheduling nondeterminism.", "anchors": ["libs/go/libp2p_node/dht/dhtpeer/dhtpeer.go: handleNewDelegationConnection, slowEnvelopeSendLoop"]}
{"id": "C36", "title": "A reconnected delegate stays reachable", "statement": "As long as the most recent connection of a delegate is open and registered, envelopes for its address are delivered to that connection, whatever happens to older connections.", "quantifier": "every interleaving of connects, registrations and disconnects", "why_tests_cant": "Depends on the order in which an old connection's handler notices its end.", "anchors": ["libs/go/libp2p_node/dht/dhtpeer/dhtpeer.go: handleNewDelegationConnection"]}
{"id": "C37", "title": "A registered address is announced", "statement": "After an address registration at a peer reports success the address has been provided to the DHT, and a failed announcement is retried on the next opportunity.", "quantifier": "every sequence of registrations and DHT outcomes", "why_tests_cant": "Requires a failure followed by a retry.", "anchors": ["libs/go/libp2p_node/dht/dhtpeer/dhtpeer.go: RegisterAgentAddress, IsAddressAnnounced"]}
{"id": "C38", "title": "The in-flight envelope gauge is balanced", "statement": "The number of envelopes reported as being routed equals the number actually being routed, so it returns to zero when the peer is idle.", "quantifier": "every path through envelope routing", "why_tests_cant": "All exit paths.", "anchors": ["libs/go/libp2p_node/dht/dhtpeer/dhtpeer.go: RouteEnvelope, _routeEnvelopeWithNewStream"]}
{"id": "C39", "title": "Client start-up ends when its time-out expires", "statement": "Bootstrapping and opening the registration stream return, with success or an error, no later than the attempt in progress when the time-out expires.", "quantifier": "every sequence of network outcomes and clock readings", "why_tests_cant": "Termination under every schedule; the failing case runs forever.", "anchors": ["libs/go/libp2p_node/dht/dhtclient/dhtclient.go: bootstrapLoopUntilTimeout, newStreamLoopUntilTimeout"]}
{"id": "C40", "title": "Registration is attempted a bounded number of times with bounded delays", "statement": "An agent registering with a node tries at most five times, stops at the first success, reports the error of the last try otherwise, and every delay is non-negative and non-overflowing.", "quantifier": "every sequence of outcomes, every attempt number, every delay and jitter value", "why_tests_cant": "Integer overflow over all inputs.", "anchors": ["libs/go/aealite/connections/p2pclient.go: registerWithRetry, CombineDelay, BackOffDelay, RandomDelay"]}
{"id": "C41", "title": "The agent only receives envelopes addressed to it", "statement": "Every envelope returned by Get was received from the node with the registered address as its receiver, in arrival order, each once.", "quantifier": "every sequence of frames from the node", "why_tests_cant": "All hostile nodes.", "anchors": ["libs/go/aealite/connections/p2pclient.go: listenForEnvelopes, Get"]}
{"id": "C42", "title": "Disconnecting stops the agent's receive loop", "statement": "After Disconnect the goroutine receiving envelopes finishes.", "quantifier": "every state at the time of Disconnect and every schedule", "why_tests_cant": "Termination under every schedule.", "anchors": ["libs/go/aealite/connections/p2pclient.go: Disconnect, listenForEnvelopes"]}
{"id": "C43", "title": "Fetch.ai signatures round-trip between text and DER", "statement": "Converting a DER signature to the compact text form and back yields a signature with the same two numbers.", "quantifier": "every pair of signature integers", "why_tests_cant": "Fails only for about one in 256 signatures (leading zero byte).", "anchors": ["libs/go/libp2p_node/utils/utils.go: ConvertStrEncodedSignatureToDER, ConvertDEREncodedSignatureToStr", "libs/go/aealite/wallet/utils.go"]}
{"id": "C44", "title": "Ethereum checksum addresses encode the same address", "statement": "The checksummed address differs from the lower-case hexadecimal address only in letter case, and is a function of the address bytes, so two addresses are equal iff their checksummed forms are.", "quantifier": "every 20-byte address and every hash function", "why_tests_cant": "All addresses.", "anchors": ["libs/go/libp2p_node/utils/utils.go: encodeChecksumEIP55", "libs/go/aealite/wallet/utils.go: encodeChecksumEIP55"]}
{"id": "C45", "title": "Configuration errors are reported, not silently replaced", "statement": "If initialisation of the node configuration succeeds, the ports in use are the ones written in the URIs; a port that is not a number in 0..65535 is an error. With no agent the pipes are all unset and with an agent all set.", "quantifier": "every environment", "why_tests_cant": "All strings.", "anchors": ["libs/go/libp2p_node/aea/api.go: Init"]}
{"id": "C46", "title": "The node only forwards envelopes of its own agent", "statement": "Every envelope the node takes from the pipe of its agent has that agent's address as its sender; others are dropped and the loop goes on; the loop ends only on a pipe error.", "quantifier": "every sequence of frames on the pipe", "why_tests_cant": "All frame sequences.", "anchors": ["libs/go/libp2p_node/aea/api.go: listenForEnvelopes", "libs/go/libp2p_node/aea/utils.go: HandleAcnMessageFromPipe"]}
{"id": "C47", "title": "Histogram buckets count observations", "statement": "Each bucket of a latency histogram counts exactly the observations not exceeding its bound and the total counts all of them.", "quantifier": "every bucket list and every sequence of observations", "why_tests_cant": "All sequences.", "anchors": ["libs/go/libp2p_node/dht/monitoring/file.go: FileHistogram.Observe"]}
{"id": "C48", "title": "Malformed ACN input is answered, not crashed on", "statement": "Reading any byte string as an ACN message from a remote party yields a message or an error; an undecodable message is answered with a decode error and an unexpected one with an unexpected-payload error; nothing makes the process panic.", "quantifier": "every byte string received", "why_tests_cant": "All byte strings.", "anchors": ["libs/go/libp2p_node/acn/utils.go: ReadAgentRegistrationMessage, ReadLookupRequest, ReadLookupResponse, ReadAcnStatus, ReadEnvelopeMessage, DecodeAcnMessage", "libs/go/libp2p_node/aea/utils.go: HandleAcnMessageFromPipe"]}
{"id": "C49", "title": "Wallet start-up only accepts a consistent key set", "statement": "If the agent wallet initialises, its public key is the one of its private key and its address the one of its public key; values supplied by the user that disagree are refused.", "quantifier": "every environment and key library behaviour", "why_tests_cant": "All combinations of present/absent/mismatching values.", "anchors": ["libs/go/aealite/wallet/wallet.go: InitFromEnv"]}
{"id": "C50", "title": "Bootstrap succeeds iff a bootstrap peer is reachable", "statement": "Connecting to the bootstrap peers returns an error exactly when the list is empty, every connection fails, or the routing table does not contain all peers before the deadline.", "quantifier": "every list of peers and every pattern of outcomes and order of completion", "why_tests_cant": "Concurrent completions in any order.", "anchors": ["libs/go/libp2p_node/utils/utils.go: BootstrapConnect"]}
{"id": "C51", "title": "Unpacking a received envelope never crashes", "statement": "Unpacking the dialogue message of an envelope returns a message or an error and never crashes, whatever bytes the envelope carries; an envelope without a dialogue message is refused.", "quantifier": "every envelope and every content type", "why_tests_cant": "All byte strings; the nil dialogue message is reached only with a well-formed message of the other kind.", "anchors": ["libs/go/aealite/protocols/message.go: GetDialogueMessageWrappedAndSetContentFromEnvelope, GetPerformative"]}
{"id": "C52", "title": "A plain reply answers the last message under the next own id", "statement": "A reply with the default target that is accepted carries the next own id with the sign of the agent's role, targets the message recorded last whoever sent it, is addressed to the counterparty under the dialogue's reference, and is appended to the own messages of exactly that dialogue.", "quantifier": "every reachable agent state, every dialogue and performative", "why_tests_cant": "The last message may have come from either side in any history; tests try a few short ones.", "anchors": ["libs/go/aealite/protocols/dialogue.go: Reply, LastMessage, getOutgoingNextMessageId"]}
{"id": "C53", "title": "Which conversations between two agents get through", "statement": "Two agents that both run the library and exchange plain replies, each delivered before the next is sent, while both may be busy with third parties: a turn is accepted by the other agent exactly if both rule tables allow the performative as a reply to the last one and the speaker changes only when both have spoken equally often or to let the responder speak for the first time; both dialogues then hold the same history. In particular a strictly alternating conversation never gets beyond the third message.", "quantifier": "every pair of reachable agent states, every pair of rule tables, every sequence of turns, all third-party traffic in between", "why_tests_cant": "Conversations of any length between two stateful agents with arbitrary other dialogues; the failing message is the fourth one of a dialogue, which no test of the repository exchanges.", "anchors": ["libs/go/aealite/protocols/dialogue.go: Reply, update, getIncomingNextMessageId, getOutgoingNextMessageId, validateMessageTarget", "libs/go/aealite/protocols/dialogues.go: Update, GetDialogue, completeDialogueReference"]}
{"id": "C54", "title": "Messages stay readable when fields are added or encodings are joined", "statement": "Fields that a version of the message definitions does not know are skipped: inserting them between the parts of an encoding does not change what is decoded. Decoding two encodings one after the other gives the second message laid over the first: its non-empty texts, non-zero numbers and present records win, its status texts are added, and a different kind of ACN message replaces the earlier one.", "quantifier": "every ACN message, envelope, dialogue message and agent record, every byte string of unknown fields", "why_tests_cant": "All messages and all byte strings of fields that do not exist yet.", "anchors": ["libs/go/libp2p_node/protocols/acn/v1_0_0/acn.pb.go: AcnMessage, AgentRecord", "libs/go/aealite/protocols/base.pb.go: Envelope, DialogueMessage"]}
{"id": "C55", "title": "Both sides of an exchange agree on its outcome", "statement": "Over a connection that delivers a prefix of what was written and may break at any time: an agent that is told that it is registered is registered with exactly the record it sent and a valid proof of representation; one that is told that it is refused gets the result of that check and is not registered; a look-up returns only the record the asked peer has for the asked address; a peer or client that reports an envelope as sent over a stream has had it accepted by the other peer's handler together with a record proven for the sender's key; and the asking side never crashes on the answer. Over a connection without faults the result of the check always reaches the agent.", "quantifier": "every record, address, envelope, handler and every behaviour of the connection", "why_tests_cant": "Both programs run at once over a connection that may fail between any two messages; tests use one peer with a scripted counterpart.", "anchors": ["libs/go/libp2p_node/acn/utils.go", "libs/go/libp2p_node/dht/common/handlers.go:53-176", "libs/go/libp2p_node/dht/dhtpeer/dhtpeer.go:857-893,1235-1321,1718-1751", "libs/go/libp2p_node/dht/dhtclient/dhtclient.go"]}
{"id": "C56", "title": "What is received can be passed on", "statement": "Every ACN message, envelope, agent record and dialogue message that decodes can be encoded again, decodes to the same value then, and all text in it is valid UTF-8; envelopes and records do not get longer than what was received.", "quantifier": "every byte string", "why_tests_cant": "Tests decode what they have encoded; received bytes come from other implementations and may use any legal or illegal variant of the wire format.", "anchors": ["libs/go/libp2p_node/protocols/acn/v1_0_0/acn.pb.go", "libs/go/libp2p_node/aea/envelope.pb.go", "libs/go/aealite/protocols/base.pb.go", "libs/go/libp2p_node/dht/dhtpeer/dhtpeer.go"]}
{"id": "C57", "title": "A peer routes an address only to who was vouched for", "statement": "In every state of a peer, an address is in its tables only if the agent vouched for whoever it is routed to: a delegate connection for an address presented in its registration a record valid for the address and this peer's key; for the relay peer of an address there is a record valid for the address and the key of that peer; every record kept is valid for its address and the key in it; the mailbox and the own agent have records valid for this peer's key. If an agent has vouched for one peer only, all entries for its address point there.", "quantifier": "every interleaving of delegate connections, relay registrations, mailbox requests, routed and received envelopes and restarts", "why_tests_cant": "The tables are changed by many goroutines under separate locks, and by loading the record file.", "anchors": ["libs/go/libp2p_node/dht/dhtpeer/dhtpeer.go:150-460,668-850,857-1000,1700-1793", "libs/go/libp2p_node/dht/dhtpeer/mailbox.go"]}
{"id": "C58", "title": "A peer answers look-ups with valid records, and for all its agents", "statement": "A peer answers a request for an address only with a record valid for that address; it has an answer for every address registered with it, through any kind of connection; and the record it gives passes the check of the peer that asks, whose look-up ends with it. A client answers exactly for its own agent.", "quantifier": "every reachable state of the peer, every address and every look-up it makes in turn", "why_tests_cant": "The answer comes from one of five tables depending on what registered before; tests check the own agent and one delegate.", "anchors": ["libs/go/libp2p_node/dht/dhtpeer/dhtpeer.go:1533-1613", "libs/go/libp2p_node/dht/dhtclient/dhtclient.go:660-681", "libs/go/libp2p_node/dht/common/handlers.go"]}
{"id": "C59", "title": "Envelopes go out with a record that other peers accept", "statement": "An envelope that a peer sends to another peer is accompanied by a record of the envelope's sender which the other peer accepts as proof that this peer represents the sender.", "quantifier": "every reachable state of the sending peer and every envelope", "why_tests_cant": "Requires an address registered in two ways, or an unusual sender.", "anchors": ["libs/go/libp2p_node/dht/dhtpeer/dhtpeer.go:1060-1321", "libs/go/libp2p_node/acn/utils.go"]}
{"id": "C60", "title": "A peer can be restarted with all its relay clients", "statement": "At any time a peer can be stopped and started again on its record file, and then has the same relay clients under the same peer ids, each with a valid record.", "quantifier": "every history of registrations and restarts", "why_tests_cant": "Tests restart a peer after one registration of a client of the usual key type.", "anchors": ["libs/go/libp2p_node/dht/dhtpeer/dhtpeer.go:353-460,493-560,1753-1793", "libs/go/libp2p_node/utils/utils.go"]}
{"id": "C61", "title": "What is accepted as a signature, and what an address is", "statement": "A signature is accepted exactly if, after decoding, it consists of the two numbers (or of the recoverable form) that the cryptographic library verifies for the hash of the message and the key of the claimed ledger; the address of a key is exactly the ledger's encoding of the ledger's hash of the key, for ethereum with the EIP-55 checksum.", "quantifier": "every message, signature, public key and ledger, and every choice of the cryptographic primitives; signatures of at most 249 bytes on fetchai and cosmos", "why_tests_cant": "Tests verify a handful of signatures made by the same code; a check that accepts too much passes them all.", "anchors": ["libs/go/libp2p_node/utils/utils.go:285-480", "libs/go/aealite/wallet/utils.go", "libs/go/libp2p_node/dht/common"]}
{"id": "C62", "title": "An agent that starts can prove itself to its peer", "statement": "A lightweight agent that has started from its environment has a record which the peer it names accepts, at the address of its wallet; and a signature made by SignFetchAI is accepted.", "quantifier": "every environment and every key and message", "why_tests_cant": "Tests start agents with one complete environment; about one signature in 256 has a short number.", "anchors": ["libs/go/aealite/agent.go:40-54", "libs/go/aealite/connections/p2pclient.go:88-133", "libs/go/aealite/wallet/wallet.go", "libs/go/libp2p_node/utils/utils.go:373-388"]}
{"id": "C63", "title": "An agent knows which dialogues it has opened", "statement": "A dialogue that has messages counts as opened by the agent (IsSelfInitiated) exactly if the agent sent its first message.", "quantifier": "every reachable state of the dialogues and every dialogue in it", "why_tests_cant": "Tests open one dialogue from each side; failed openings and dialogues with oneself are not tried.", "anchors": ["libs/go/aealite/protocols/dialogue.go", "libs/go/aealite/protocols/dialogues.go", "libs/go/aealite/protocols/dialogue_label.go"]}
{"id": "C64", "title": "An agent that connects talks to the peer it was told", "statement": "If the check after the TLS handshake succeeds, the other end of the connection has the session key that the configured peer has signed; an agent always connects to a peer that runs the code; and no server can crash the agent.", "quantifier": "every list of certificates, every data the server sends, every configured key text and every choice of the primitives", "why_tests_cant": "Tests connect to an honest peer; an attacker chooses certificates and first message.", "anchors": ["libs/go/aealite/connections/tcpsocket.go:42-82", "libs/go/libp2p_node/dht/dhtpeer/dhtpeer.go:783-788", "libs/go/libp2p_node/dht/dhtpeer/utils.go:33-42"]}
{"id": "C65", "title": "Every client of a peer that has joined the network is announced", "statement": "When a peer has enabled announcements, every client in its tables whose registration is over has been announced, and so has its own agent.", "quantifier": "every interleaving of any number of registrations, notifications and departures with the start of the peer", "why_tests_cant": "The gap is a registration between the loop over the table and the enabling; tests register clients before or after.", "anchors": ["libs/go/libp2p_node/dht/dhtpeer/dhtpeer.go:333-397,896-913,1615-1698,1762-1790", "libs/go/libp2p_node/dht/dhtpeer/mailbox.go:64-78"]}
{"id": "C66", "title": "Waiting for notifications neither crashes nor blocks a peer", "statement": "Registrations that wait until notifications of new peers are handled never crash the peer, and are not kept waiting when each notification ends.", "quantifier": "every interleaving of any number of registrations and notifications", "why_tests_cant": "The crash needs a second notification in the moment between the release of a waiting registration and its next instruction.", "anchors": ["libs/go/libp2p_node/dht/dhtpeer/dhtpeer.go:1615-1698"]}
{"id": "C67", "title": "One client cannot keep the others from the delegate service", "statement": "Every client that connects to the delegate service gets the peer's signature and a handler, within a time that depends on the clients before it only through a bounded waiting time per client, whatever other clients do.", "quantifier": "every sequence of connecting clients, with any times and failures", "why_tests_cant": "Tests connect with well-behaved clients; a client that opens a TCP connection and stays silent is not tried.", "anchors": ["libs/go/libp2p_node/dht/dhtpeer/dhtpeer.go:790-824", "libs/go/libp2p_node/dht/dhtpeer/utils.go:33-42"]}
{"id": "C68", "title": "Closing a peer does not crash it", "statement": "Close can be called at any time, and the process does not crash during it or afterwards, whatever connections and envelopes are on their way.", "quantifier": "every interleaving of calls of Close with connection handlers and calls of RouteEnvelope", "why_tests_cant": "Tests close idle peers; the crash needs a connection or an envelope in a certain place at that moment.", "anchors": ["libs/go/libp2p_node/dht/dhtpeer/dhtpeer.go:616-666,846-1008,1168-1209"]}
{"id": "C69", "title": "A node runs with the settings of its configuration", "statement": "A node that starts runs as peer or client according to its configuration, with exactly its addresses, services, entry peers, agent, storage path and registration delay, and only with a record that is valid for its key; a configuration that is not valid is reported as an error.", "quantifier": "every environment, and every behaviour of the key, address and proof checks", "why_tests_cant": "Tests start nodes with a few complete configurations and whole delays.", "anchors": ["libs/go/libp2p_node/libp2p_node.go:55-150", "libs/go/libp2p_node/dht/dhtpeer/options.go", "libs/go/libp2p_node/dht/dhtclient/options.go", "libs/go/libp2p_node/dht/dhtpeer/dhtpeer.go:187-249,357-361", "libs/go/libp2p_node/dht/dhtclient/dhtclient.go:163-211", "libs/go/libp2p_node/utils/utils.go:221-232"]}
{"id": "C70", "title": "The error of a failed registration names the errors of all tries", "statement": "If a registration with a node fails after all tries, the error reported contains, for every try, its number and its error; making the text of such an error does not crash.", "quantifier": "every behaviour of the node in each try, every list of errors", "why_tests_cant": "Tests make all tries fail in the same way, and do not read the text.", "anchors": ["libs/go/aealite/connections/p2pclient.go:208-256", "libs/go/aealite/connections/p2pclient.go:299-323"]}
{"id": "C71", "title": "The metrics of delegate connections count the connections served", "statement": "At every time the gauge of active delegate connections is the number of delegate connections being served, and the counter of clients is the number of connections that ever were.", "quantifier": "every number of connections, every content of the registration messages, every order of accepts, registrations and ends", "why_tests_cant": "Tests do not read the metrics, and a refused connection makes the gauge wrong for all later times.", "anchors": ["libs/go/libp2p_node/dht/dhtpeer/dhtpeer.go:840-1010"]}
{"id": "C72", "title": "Envelopes from the network reach the agent once and in order, also around its departure", "statement": "Every envelope that the node accepts for its agent is given to the agent exactly once and in order, and an envelope that arrives after the agent has gone is refused without harm to the node.", "quantifier": "every schedule of arriving envelopes, of the sending loop and of calls of Stop", "why_tests_cant": "The crash needs an envelope to arrive after the pipe of the agent was closed while the node goes on running.", "anchors": ["libs/go/libp2p_node/aea/api.go:136-144,161-169,404-430", "libs/go/libp2p_node/libp2p_node.go:163-165"]}
{"id": "C73", "title": "A client tries to reconnect until it succeeds or is closed", "statement": "A client that loses the connection to its relay peer tries to connect until an attempt succeeds or the client is closed; it tries nothing for other peers and nothing after it was closed.", "quantifier": "every course of attempts and every moment of closing", "why_tests_cant": "Tests do not take the relay away for an arbitrary number of attempts.", "anchors": ["libs/go/libp2p_node/dht/dhtclient/dhtclient.go:95-134"]}
{"id": "C74", "title": "Metrics report what happened", "statement": "The value reported for a metric is the one that results from all changes made to the metric of that name; the report has exactly one line for each gauge and counter; no use of a metric or of the file of metrics crashes the peer.", "quantifier": "every history of creations, look-ups and changes, every iteration order of the maps, every order of Start and Stop", "why_tests_cant": "Tests change a few metrics once, and never create one again or stop a monitoring that does not write.", "anchors": ["libs/go/libp2p_node/dht/monitoring/file.go:30-87,108-234", "libs/go/libp2p_node/dht/dhtpeer/dhtpeer.go:517-580"]}
{"id": "C75", "title": "No envelope crashes the seller agent", "statement": "Whatever envelopes arrive, in any order and from anyone, handling them never crashes the example seller agent.", "quantifier": "every history of envelopes with arbitrary bytes, every sender, every random nonce", "why_tests_cant": "The end-to-end test has one well-behaved buyer; a crash needs a message that belongs to no dialogue, or would need a conversation that leads the dialogue library into its unbounded recursion.", "anchors": ["libs/go/aea_end2end/main.go:35-201", "libs/go/aealite/protocols/dialogues.go:155-221", "libs/go/aealite/protocols/dialogue.go:237-342"]}
{"id": "C76", "title": "The seller only answers, and completes only deals", "statement": "Everything the seller agent sends answers the cfp or accept it just handled, goes to its sender and is recorded beside it; the agent never says more than it heard; the interaction is reported complete only after a request, a proposal, an acceptance and the agent's own confirmation.", "quantifier": "every history of envelopes with arbitrary bytes, every sender, every random nonce", "why_tests_cant": "The test plays the one intended conversation; what strangers and impatient buyers can provoke is unbounded.", "anchors": ["libs/go/aea_end2end/main.go:39-191", "libs/go/aealite/protocols/message.go:144-190"]}
{"id": "C77", "title": "A buyer who keeps to the protocol gets its deal", "statement": "A cfp with an unused reference is answered by a proposal, the acceptance of the proposal by a match, and the end completes the interaction and frees the dialogue, whatever other envelopes are handled in between; every conversation the rules allow can be ended.", "quantifier": "every state of the seller agent, every buyer, every reference and nonce, every envelopes of other conversations in between", "why_tests_cant": "The test runs the deal alone in a fresh agent; interference of other conversations, also with the same buyer, is unbounded.", "anchors": ["libs/go/aea_end2end/main.go:78-191", "libs/go/aealite/protocols/dialogues.go:155-221", "libs/go/aealite/protocols/dialogue.go:237-267,466-526"]}
{"id": "C78", "title": "An envelope between two peers is handed over exactly once", "statement": "If a peer routes an envelope over the network and reports success without having queued it, the other peer has handed it to the mailbox, delegate or agent it is addressed to, exactly once; over a stream that carries everything the sender has success exactly if the record of the sender is proven and the receiver was handed the envelope, and otherwise the envelope is queued or reported as an error; no envelope is handed over twice.", "quantifier": "every pair of peer states, every envelope, every behaviour of the network during the call, every point at which the stream breaks", "why_tests_cant": "The tests send single envelopes between healthy peers on one host; the combination of the tables of two peers with a stream that breaks at any point is unbounded.", "anchors": ["libs/go/libp2p_node/dht/dhtpeer/dhtpeer.go:1055-1321", "libs/go/libp2p_node/dht/dhtpeer/dhtpeer.go:1456-1526", "libs/go/libp2p_node/dht/common/handlers.go:53-125"]}
{"id": "C79", "title": "Envelopes get from agent to agent unaltered, once and in order", "statement": "The envelopes of one agent that another agent gets are envelopes the first one sent to it, unaltered, each at most once and in the order of sending; if nothing fails on the way, all of them arrive.", "quantifier": "every sequence of envelopes, every point at which the connections break, every scheduling of the connection handlers, the queue workers and the receiving agent, every other traffic", "why_tests_cant": "End-to-end tests send a few envelopes over healthy connections; interleavings of handlers, workers and the receive loop with broken connections are unbounded.", "anchors": ["libs/go/libp2p_node/dht/dhtpeer/dhtpeer.go:840-1010", "libs/go/libp2p_node/dht/dhtpeer/dhtpeer.go:1055-1184", "libs/go/libp2p_node/dht/dhtpeer/dhtpeer.go:1456-1526", "libs/go/aealite/connections/p2pclient.go:262-293,418-482"]}
{"id": "C80", "title": "The mailbox service starts and stops without crashing the peer", "statement": "Whatever look-ups, deliveries and a call of Close happen while the mailbox service starts, the process does not end, and no two critical sections of the mailbox run at the same time.", "quantifier": "every interleaving of the start of the service, any number of critical sections and calls of stop, and every outcome of listening", "why_tests_cant": "Tests wait until the service runs and use a free port; the crashes need a caller or a stop in the short time in which the service starts.", "anchors": ["libs/go/libp2p_node/dht/dhtpeer/mailbox.go:254-339", "libs/go/libp2p_node/dht/dhtpeer/dhtpeer.go:645-647,769-780"]}
{"id": "C81", "title": "A node that cannot start leaves nothing open", "statement": "If New of a peer or of a client returns an error, then the host, the DHT and the record file it opened are closed.", "quantifier": "all settings, every set of failing actions", "why_tests_cant": "Tests cover a few configuration errors that come before anything is opened.", "anchors": ["libs/go/libp2p_node/dht/dhtpeer/dhtpeer.go:254-428,616-667,730-748", "libs/go/libp2p_node/dht/dhtclient/dhtclient.go:221-295,394-417"]}
{"id": "C82", "title": "A client that registers while the peer starts is kept", "statement": "A relay client whose registration is accepted while the peer loads its record file is in the tables with its newest registration and in the file, and does not disturb the loading.", "quantifier": "every file, every interleaving of registrations with the steps of the loader", "why_tests_cant": "Tests register clients after the start; the loader shares the position of the file with the appends only during the start.", "anchors": ["libs/go/libp2p_node/dht/dhtpeer/dhtpeer.go:326-375,431-513,1758-1772"]}
{"id": "C83", "title": "Whoever can be looked up can be reached", "statement": "When the address of an agent is announced or registered, the node that represents it already serves look-ups and envelopes.", "quantifier": "all settings of peers, and clients", "why_tests_cant": "Tests send after both sides have started.", "anchors": ["libs/go/libp2p_node/dht/dhtpeer/dhtpeer.go:326-428", "libs/go/libp2p_node/dht/dhtclient/dhtclient.go:266-295"]}
{"id": "C84", "title": "A peer can be monitored with Prometheus", "statement": "Monitoring with Prometheus reports the same numbers as the built-in monitoring and crashes no peer.", "quantifier": "all histories of a process with any number of monitoring services", "why_tests_cant": "The registry and the request router are shared by the whole process, and a second service in one process is not tested.", "anchors": ["libs/go/libp2p_node/dht/monitoring/prometheus.go:47-138", "libs/go/libp2p_node/dht/dhtpeer/dhtpeer.go:517-580"]}
{"id": "C85", "title": "Messages of every protocol survive", "statement": "A message of any protocol whose code is generated from a definition (searches, negotiations, the default protocol, envelopes with dialogue messages and structs, the ACN) whose strings are text is written and read as it was, different messages are written differently, whatever is read is a message of the definition and can be passed on, and fields that a definition does not know are ignored. A limit on nesting refuses exactly the messages nested deeper.", "quantifier": "all messages of all definitions, all bytes, all limits", "why_tests_cant": "Messages are trees of any depth and size: a search nests constraints in constraints, a struct values in values.", "anchors": ["libs/go/aealite/protocols/search.pb.go:187-1905", "libs/go/aea_end2end/protocols/fipa.pb.go:28-651", "examples/aealite_go/default/default.pb.go:83-336", "libs/go/aealite/protocols/base.pb.go:29-198", "libs/go/libp2p_node/protocols/acn/v1_0_0/acn.pb.go:104-588"]}
{"id": "C86", "title": "Nodes and agents exchange the messages that are defined", "statement": "Envelopes, ACN messages, dialogue messages and the performative of a negotiation are written and read exactly as their definitions say; a limit on nesting of at least three does not concern the ACN.", "quantifier": "all messages, all bytes, all limits", "why_tests_cant": "Agreement is for all bytes, also those with repeated, unknown, mistyped and merged fields.", "anchors": ["libs/go/libp2p_node/protocols/acn/v1_0_0/acn.pb.go:104-588", "libs/go/libp2p_node/aea/envelope.pb.go:28-38", "libs/go/aealite/protocols/base.pb.go:29-198", "libs/go/aealite/protocols/message.go:144-239", "libs/go/aea_end2end/main.go:112-165"]}
{"id": "C87", "title": "A dialogue label is read from any JSON object", "statement": "UnmarshalJSON of a dialogue label accepts exactly the JSON texts (RFC 8259) that are null or an object whose members are all strings or null, and gives what stands under the four names, the last member of a name counting; exactly the labels made of text can be read.", "quantifier": "all byte strings, all labels", "why_tests_cant": "All texts of the grammar: white space, escapes, surrogates, invalid bytes, nesting, numbers, repeated names.", "anchors": ["libs/go/aealite/protocols/dialogue_label.go:104-117"]}
{"id": "C88", "title": "A peer's key, its text and its identifier determine each other", "statement": "ParsePubKey accepts exactly the compressed and long forms of points of secp256k1; every key is read back from its text by both readers, two keys have the same text, and the same peer identifier, exactly if they are the same key; and a peer is known by one text only, so that a record naming it is not refused for its form.", "quantifier": "all byte strings, all points of the curve, all records, both behaviours of the library for large coordinates", "why_tests_cant": "There are 2^256 points and as many strings; square roots modulo the prime have to exist and be unique for all of them.", "anchors": ["libs/go/libp2p_node/utils/utils.go:238-267", "libs/go/libp2p_node/utils/utils.go:550-597", "libs/go/aealite/wallet/utils.go:72-101", "libs/go/libp2p_node/dht/dhtnode/utils.go:40-111"]}
{"id": "C89", "title": "What is signed with a private key is accepted under its public key", "statement": "The check of a signature accepts exactly the pairs of numbers that satisfy the equation of ECDSA over secp256k1; every private key that is no multiple of the order has a public key that is read back from its text, different ones different texts, and what SignFetchAI signs with it is accepted by VerifyFetchAISignatureBTC and VerifyFetchAISignatureLibp2p under that text.", "quantifier": "all private keys, messages, hash functions and nonces; all signatures", "why_tests_cant": "The group has about 2^256 points; the text form fails for about one signature in 256 only.", "anchors": ["libs/go/libp2p_node/utils/utils.go:330-388", "libs/go/libp2p_node/utils/utils.go:441-456", "libs/go/libp2p_node/utils/utils.go:599-608", "libs/go/aealite/wallet/utils.go:168-229", "libs/go/aealite/wallet/utils.go:398-408"]}
{"id": "C90", "title": "An ethereum signature is accepted exactly if the holder of a key with that address can have made it", "statement": "VerifyEthereumSignatureETH accepts exactly the texts of 65 bytes ending in 27 or 28 whose two numbers satisfy the equation of ECDSA over secp256k1 for the hash of the prefixed message, under a key with the address of the key text and with the point of that parity; every signature has exactly one recovery id; and what is signed with a private key is accepted under the text of its public key.", "quantifier": "all messages, signature texts, key texts, private keys and nonces; all hash functions of 32 bytes", "why_tests_cant": "The group has about 2^256 points; the signatures that cannot be expressed with 27 or 28 are about one in 2^127.", "anchors": ["libs/go/libp2p_node/utils/utils.go:390-439", "libs/go/aealite/wallet/utils.go:231-280"]}
{"id": "C91", "title": "SignFetchAI and its checks with hashes, nonces and base 64 written out", "statement": "With SHA-256, RIPEMD-160, Keccak-256, base 64 and the nonces of RFC 6979 as functions, everything the other claims ask of the primitives holds: hashes have their lengths, base 64 decodes what it encodes and exactly the texts that differ in unused bits and ends of lines, nonces are in range; and what SignFetchAI makes is accepted under the text of the public key.", "quantifier": "all private keys, messages and texts", "why_tests_cant": "Texts with other unused bits or ends of lines are accepted as well, and the text form fails for about one signature in 256 only.", "anchors": ["libs/go/libp2p_node/utils/utils.go:299-313", "libs/go/libp2p_node/utils/utils.go:330-388", "libs/go/aealite/wallet/utils.go:136-229"]}
{"id": "C92", "title": "An address determines its ledger and the hash of its key", "statement": "Two public keys of any ledgers have the same address exactly if the ledgers are the same and the hashes of the key bytes are; a fetchai or cosmos address always exists and is a valid bech32 text of the hash, and no two valid texts with one prefix differ in up to six neighbouring symbols only; two addresses have the same content id exactly if their hashes are the same.", "quantifier": "all ledgers, public keys, hashes of any length and prefixes", "why_tests_cant": "It is about all pairs of addresses, and about all changes of up to six symbols.", "anchors": ["libs/go/libp2p_node/utils/utils.go:202-218", "libs/go/libp2p_node/utils/utils.go:457-523", "libs/go/aealite/wallet/utils.go:282-360"]}
{"id": "C93", "title": "The text of a peer id determines it and is read back", "statement": "Every id that IDFromPublicKey gives, for keys of any type, is read back by peer.Decode from its text; ids are equal exactly if their texts are; of the texts that begin with Qm or 1, exactly the base 58 texts of multihashes are accepted, one for each id; ids of secp256k1 keys have texts of 53 symbols with 16Uiu2HA first, ids that are hashes have 46 with Qm first. What a peer keeps for a loaded record is therefore always readable when it routes an envelope.", "quantifier": "all keys, ids and texts", "why_tests_cant": "The tests read a few ids; zeros at the front, every key and every text are covered here.", "anchors": ["libs/go/libp2p_node/dht/dhtpeer/dhtpeer.go:498-503", "libs/go/libp2p_node/dht/dhtpeer/dhtpeer.go:1150-1163", "libs/go/libp2p_node/dht/dhtclient/dhtclient.go:104", "libs/go/libp2p_node/utils/utils.go:546-596"]}
{"id": "C94", "title": "The address a peer prints leads other nodes to it", "statement": "Take any peers started from their environments, with public hosts without slashes and commas. What they print, joined with commas and put into another node's AEA_P2P_ENTRY_URIS, is read there as exactly these peers: the id of each one's key and its public host and port. A client's address through a relay is always read, as relay, circuit and target. A peer listens on exactly the hosts that are addresses of IPv4 in dotted form; with another host (without slashes) its start ends with an error.", "quantifier": "all environments, keys, hosts, ports and lists of peers", "why_tests_cant": "It joins two programs' configurations over all hosts, ports and keys.", "anchors": ["libs/go/libp2p_node/dht/dhtpeer/options.go:80-108", "libs/go/libp2p_node/dht/dhtpeer/dhtpeer.go:257-264", "libs/go/libp2p_node/dht/dhtpeer/dhtpeer.go:1017-1026", "libs/go/libp2p_node/dht/dhtclient/dhtclient.go:527-536", "libs/go/libp2p_node/utils/utils.go:221-232", "libs/go/libp2p_node/libp2p_node.go:94-146"]}
{"id": "C95", "title": "The signature a peer gives out proves its session key and nothing else", "statement": "On secp256k1: an agent that was given a peer's public key in text connects to that peer, whatever certificate the peer has made, and accepts exactly the connections whose first message is a strict DER signature, under that key, of the marshalled key of the certificate. The mailbox gives the same signature to everyone. Nobody but the holder of the certificate's key can use it to pass for the peer.", "quantifier": "all private keys, certificates, key texts, lists of certificates and data from the server", "why_tests_cant": "It is about all keys and certificates, and about servers that do not run the code.", "anchors": ["libs/go/libp2p_node/dht/dhtpeer/dhtpeer.go:751-766", "libs/go/libp2p_node/dht/dhtpeer/dhtpeer.go:783-788", "libs/go/libp2p_node/dht/dhtpeer/dhtpeer.go:1028-1030", "libs/go/libp2p_node/dht/dhtpeer/utils.go:33-42", "libs/go/libp2p_node/dht/dhtpeer/mailbox.go:124-135", "libs/go/aealite/connections/tcpsocket.go:42-82"]}
{"id": "C96", "title": "The hash functions are those of their standards", "statement": "The SHA-256, RIPEMD-160 and Keccak-256 with which the model makes addresses, peer ids and the numbers that are signed are the functions of FIPS 180-4, of the RIPEMD-160 paper and of the Keccak submission: for every message the digest is the one those texts define, on words of 32 bits or on single bits, with constants and tables by their definitions.", "quantifier": "all messages of bytes", "why_tests_cant": "Known answers show a handful of messages; a function that is wrong for other lengths or other words passes them.", "anchors": ["libs/go/libp2p_node/utils/utils.go:344", "libs/go/libp2p_node/utils/utils.go:392", "libs/go/libp2p_node/utils/utils.go:485-495", "libs/go/libp2p_node/utils/utils.go:516-522", "libs/go/libp2p_node/utils/utils.go:530", "libs/go/aealite/wallet/utils.go:183", "libs/go/aealite/wallet/utils.go:317-323", "libs/go/aealite/wallet/utils.go:348-362"]}
{"id": "C97", "title": "An agent can be stopped and started again", "statement": "A lightweight agent may be started and stopped any number of times: every Start leads to a connection whose data is read by this life of the agent only, Stop returns and leaves the connection and both queues closed, calls that wait then return, and neither Start nor Stop ends the process.", "quantifier": "all histories of calls of Start, Stop, Put and Get, all data and hang-ups of the peers, and all orders in which the goroutines run", "why_tests_cant": "Which goroutine reads first is decided by the scheduler; a test sees one order, and the repository's tests start an agent once.", "anchors": ["libs/go/aealite/agent.go:60-78", "libs/go/aealite/connections/p2pclient.go:135-206", "libs/go/aealite/connections/p2pclient.go:262-297", "libs/go/aealite/connections/tcpsocket.go:42-113", "libs/go/aealite_agent_example/main.go:30-83"]}
{"id": "C98", "title": "Envelopes written to a connection are the envelopes that are read", "statement": "Every envelope that WriteEnvelopeConn writes without error is read by ReadEnvelopeConn at the other end, unchanged, in order and exactly once.", "quantifier": "all envelopes, all sequences of them, and all ways the transport splits the bytes", "why_tests_cant": "The repository's test patches ReadBytesConn away and reads one envelope; the losses depend on how the transport splits the bytes, on the size and on which fields are empty.", "anchors": ["libs/go/libp2p_node/utils/utils.go:615-670"]}
{"id": "C99", "title": "An unreachable address does not hold up envelopes to others", "statement": "A look-up, and a call of RouteEnvelope for an address that has to be looked up, end within a time that depends on the time-outs only, and an envelope in the slow queue is tried within a bounded time per envelope before it, whatever providers and peers of other addresses do.", "quantifier": "all providers and their delays, all numbers of rounds, all peers, all orders of calls and of steps of the loop", "why_tests_cant": "The tests use providers and peers that answer at once; a provider that never answers, 101 slow envelopes and delays that add up over many envelopes take minutes to hours.", "anchors": ["libs/go/libp2p_node/dht/dhtpeer/dhtpeer.go:1167-1321", "libs/go/libp2p_node/dht/dhtpeer/dhtpeer.go:1324-1445"]}
{"id": "C100", "title": "The locks of a peer do not keep it waiting", "statement": "Whatever functions of a peer run at the same time and however they are interleaved, the locks and the wait group never stop all of them, no function waits for somebody outside while it holds a lock, and two functions never hold the same lock if one holds it for writing.", "quantifier": "all numbers of threads, all programs of the peer with all their branches, all interleavings, all times at which threads begin", "why_tests_cant": "A deadlock of nine locks and a wait group shows for a few interleavings only; the tests run a handful of clients, and the race detector finds data races, not deadlocks.", "anchors": ["libs/go/libp2p_node/dht/dhtpeer/dhtpeer.go:616-666", "libs/go/libp2p_node/dht/dhtpeer/dhtpeer.go:846-1010", "libs/go/libp2p_node/dht/dhtpeer/dhtpeer.go:1034-1233", "libs/go/libp2p_node/dht/dhtpeer/dhtpeer.go:1456-1828", "libs/go/libp2p_node/dht/dhtpeer/mailbox.go:18-238", "libs/go/libp2p_node/dht/dhtpeer/mailbox.go:299-339"]}
{"id": "C101", "title": "In client mode one envelope does not keep the others waiting", "statement": "A call of RouteEnvelope in client mode returns within a time that depends on the time-outs only, whatever the relay and the peers do, and an envelope of the agent is routed within that time per envelope before it.", "quantifier": "all behaviours and delays of the relay and of all peers in all attempts, all envelopes, all sequences of envelopes of the agent", "why_tests_cant": "The tests use a relay and peers that can be reached; the time-outs are one and five minutes and what happens after them is never waited for.", "anchors": ["libs/go/libp2p_node/dht/dhtclient/dhtclient.go:331-365", "libs/go/libp2p_node/dht/dhtclient/dhtclient.go:428-623", "libs/go/libp2p_node/dht/dhtclient/dhtclient.go:683-723", "libs/go/libp2p_node/libp2p_node.go:154-163"]}
{"id": "C102", "title": "No two threads of a peer use a map at the same time, one of them writing", "statement": "Whatever functions of a peer run at the same time and however they are interleaved, two of them are never both about to use the same of its maps (agent records, delegate connections, relay clients, statuses, pair queues, announced addresses, the maps of the mailbox) or the flag for announcements, one of them to write it.", "quantifier": "all numbers of threads, all programs of the peer with all their branches, all interleavings, all times at which threads begin", "why_tests_cant": "Go stops the process only when a write and another use of a map really coincide, which takes nanoseconds to miss; the tests start peers with empty storage and let clients connect afterwards, so the unguarded accesses of the start never meet anybody.", "anchors": ["libs/go/libp2p_node/dht/dhtpeer/dhtpeer.go:327-396", "libs/go/libp2p_node/dht/dhtpeer/dhtpeer.go:462-508", "libs/go/libp2p_node/dht/dhtpeer/dhtpeer.go:616-666", "libs/go/libp2p_node/dht/dhtpeer/dhtpeer.go:846-1010", "libs/go/libp2p_node/dht/dhtpeer/dhtpeer.go:1034-1233", "libs/go/libp2p_node/dht/dhtpeer/dhtpeer.go:1456-1856", "libs/go/libp2p_node/dht/dhtpeer/mailbox.go:76-80", "libs/go/libp2p_node/dht/dhtpeer/mailbox.go:253-340"]}
{"id": "C103", "title": "Nobody takes an agent's place at its peer without the agent's key", "statement": "Whatever a stranger sends to a peer, and whatever records it has seen, the envelopes for an agent whose key it does not have are never written to one of its connections, put where one of its mailbox sessions reads them, or sent to one of its own peers.", "quantifier": "all schedules of registrations, envelopes, mailbox requests, restarts and steps of others, all records the stranger gets, all numbers of its connections, sessions and streams", "why_tests_cant": "The tests register each agent once, with a record made for it, and never show a record twice; that a record handed out by a look-up is itself enough to register only appears when somebody else shows it.", "anchors": ["libs/go/libp2p_node/dht/dhtpeer/dhtpeer.go:826-1010", "libs/go/libp2p_node/dht/dhtpeer/dhtpeer.go:1456-1613", "libs/go/libp2p_node/dht/dhtpeer/dhtpeer.go:1700-1793", "libs/go/libp2p_node/dht/dhtpeer/mailbox.go:18-85", "libs/go/libp2p_node/dht/dhtnode/utils.go:40-111"]}
{"id": "C104", "title": "Envelopes and look-ups do not wait for the network to see a peer's tables", "statement": "The time for which an envelope, a look-up or a registration waits for a lock of the peer's tables does not depend on the network or on the number of clients.", "quantifier": "all numbers of uses of a lock at all times, in all orders that Go's RWMutex allows, all programs of the peer with all their branches, all numbers of clients", "why_tests_cant": "The tests announce one or two addresses on a local network, where Provide returns at once, and connect no client while a notification is being served; the delay needs a slow network, many clients, a notification, a registration and an envelope, in this order.", "anchors": ["libs/go/libp2p_node/dht/dhtpeer/dhtpeer.go:85-96", "libs/go/libp2p_node/dht/dhtpeer/dhtpeer.go:846-1010", "libs/go/libp2p_node/dht/dhtpeer/dhtpeer.go:1034-1184", "libs/go/libp2p_node/dht/dhtpeer/dhtpeer.go:1456-1613", "libs/go/libp2p_node/dht/dhtpeer/dhtpeer.go:1615-1689", "libs/go/libp2p_node/dht/dhtpeer/dhtpeer.go:1700-1841"]}
{"id": "C105", "title": "The record of a relay client and the peer it is reached at belong together", "statement": "However the registrations of relay clients at a peer are interleaved, when they are done the relay peer of each address is the one that the kept record of the address names, and a restart on the record file gives the same records and relay peers; and a look-up that finds an address in the relay table always finds a record for it.", "quantifier": "all numbers of registrations of all addresses, all interleavings of their critical sections, all earlier contents of the record file; for the look-up also all histories of the start of the peer", "why_tests_cant": "The tests register one agent after the other and each at one peer; the tables differ only if two registrations of one address overlap between two locks, which happens when an agent changes its node while the old one registers again.", "anchors": ["libs/go/libp2p_node/dht/dhtpeer/dhtpeer.go:462-508", "libs/go/libp2p_node/dht/dhtpeer/dhtpeer.go:1533-1613", "libs/go/libp2p_node/dht/dhtpeer/dhtpeer.go:1700-1772"]}
{"id": "C106", "title": "At a peer one envelope of its agent does not keep the others waiting", "statement": "The node of an agent in peer mode takes the agent's envelopes one after the other; every call ends after a bounded time, whatever other agents, clients and peers do, so that each envelope is sent on within a bounded time times the number of envelopes before it.", "quantifier": "all envelopes, all tables of the peer, all behaviours and times of the agent, of delegate and relay clients, of providers and of the slow queue, all numbers of envelopes", "why_tests_cant": "Tests send a few envelopes to agents that are there and answer. What an unreachable or silent receiver costs the others shows only over times and numbers that no test waits for.", "anchors": ["libs/go/libp2p_node/libp2p_node.go:154-163", "libs/go/libp2p_node/dht/dhtpeer/dhtpeer.go:1055-1209", "libs/go/libp2p_node/dht/dhtpeer/dhtpeer.go:1851-1870", "libs/go/libp2p_node/acn/utils.go:116-125"]}
{"id": "C107", "title": "A relay client that is told that it is registered is registered", "statement": "From the moment a peer answers a relay client that its registration succeeded, the peer answers look-ups for the client, and does so after a restart too; and it relays for nobody else.", "quantifier": "all histories of registrations interleaved with the steps of the loader and with each other, all contents of the record file, all failures of writing to it", "why_tests_cant": "The tests wait after a registration before they send, and their file can always be written; the time between the answer and the tables is short and depends on locks that others hold.", "anchors": ["libs/go/libp2p_node/dht/dhtpeer/dhtpeer.go:1700-1793", "libs/go/libp2p_node/dht/dhtpeer/dhtpeer.go:431-447", "libs/go/libp2p_node/dht/dhtpeer/dhtpeer.go:462-508", "libs/go/libp2p_node/dht/dhtpeer/dhtpeer.go:1533-1613"]}
{"id": "C108", "title": "What a peer keeps for a delegate client is bounded and is given up when the client leaves", "statement": "The goroutines, queues, waiting envelopes and records that a peer keeps for a delegate client are bounded by a constant, and the peer keeps none of them when the client has left.", "quantifier": "all numbers of connections, all envelopes on them, all interleavings of the handlers and of the goroutines that route envelopes, all later histories", "why_tests_cant": "Tests send a few envelopes to a few receivers and stop; what is never given up only shows in a peer that has run for long.", "anchors": ["libs/go/libp2p_node/dht/dhtpeer/dhtpeer.go:893-903", "libs/go/libp2p_node/dht/dhtpeer/dhtpeer.go:957-1009"]}
{"id": "C109", "title": "An acknowledgement of a delegate client reaches the send it answers", "statement": "When a peer sends an envelope to a delegate client and the client answers, the send is reported with this answer, and the peer reads on from the client's connection.", "quantifier": "all numbers of agents, connections and envelopes, all interleavings of the sections of registrations and ends of connections with sends and answers, all answers and stray statuses", "why_tests_cant": "Tests wait after a registration before they send, and no test connects an agent twice; the failures need an envelope between two sections of a registration, or an answer after the end of an older connection.", "anchors": ["libs/go/libp2p_node/dht/dhtpeer/dhtpeer.go:893-916", "libs/go/libp2p_node/dht/dhtpeer/dhtpeer.go:999-1009", "libs/go/libp2p_node/dht/dhtpeer/dhtpeer.go:1118-1142", "libs/go/libp2p_node/dht/dhtpeer/dhtpeer.go:1843-1870", "libs/go/libp2p_node/acn/utils.go:116-125"]}
{"id": "C110", "title": "The generated code describes itself as the definitions say", "statement": "The bytes and indices with which the generated code describes its messages to the protobuf library say of every message of every file what the definitions say: all messages are written and all bytes read alike by the descriptor and by the definition, the types that the indices stand for are those that the descriptor names, and the codes of a status are those of the definition.", "quantifier": "all messages of all files, all bytes, all limits on nesting", "why_tests_cant": "Tests exchange messages between two users of the same descriptor, which agree whatever it says, and only the messages they think of.", "anchors": ["libs/go/aealite/protocols/search.pb.go:1918-2233", "libs/go/aea_end2end/protocols/fipa.pb.go:691-860", "examples/aealite_go/default/default.pb.go:376-474", "libs/go/aealite/protocols/base.pb.go:269-337", "libs/go/libp2p_node/protocols/acn/v1_0_0/acn.pb.go:631-781", "libs/go/libp2p_node/aea/envelope.pb.go:109-144"]}
{"id": "C111", "title": "Agents written in Python have the same definitions", "statement": "The descriptors in the generated code of the agents written in Python are of the same messages, fields and enums as those in the Go code, and a message that is written by one descriptor is read by the other as it was written.", "quantifier": "all messages of the five protocols, all bytes", "why_tests_cant": "The two descriptors are generated from different files in different packages; tests across both languages exchange few messages.", "anchors": ["libs/go/libp2p_node/protocols/acn/v1_0_0/acn.pb.go:631-781", "libs/go/aealite/protocols/base.pb.go:269-337", "libs/go/aealite/protocols/search.pb.go:1918-2233", "libs/go/aea_end2end/protocols/fipa.pb.go:691-860", "examples/aealite_go/default/default.pb.go:376-474", "packages/fetchai/protocols/acn/acn_pb2.py:16-17", "aea/mail/base_pb2.py:24"]}
{"id": "C112", "title": "A mailbox session has a mailbox, and a mailbox a session", "statement": "At all times there is exactly one session for each mailbox and a mailbox for each session, so that what is sent to the owner of a session is kept for it, and what the service keeps is at most 1000 envelopes and one record for each session.", "quantifier": "all sequences of requests of any clients and of deliveries, with the two sections of unregistering apart", "why_tests_cant": "Tests register an address once and unregister it once; the failures need several sessions of one address.", "anchors": ["libs/go/libp2p_node/dht/dhtpeer/mailbox.go:18-120", "libs/go/libp2p_node/dht/dhtpeer/mailbox.go:192-238", "libs/go/libp2p_node/dht/dhtpeer/mailbox.go:299-339"]}
{"id": "C113", "title": "Envelopes sent one after another are handed over in this order", "statement": "The envelopes that one loop of a node sends to another node, each on its own stream and after the answer to the one before, are handed over there in the order in which they were sent, each at most once; the sender is told success only for an envelope that was handed over, and failure only for one that was not.", "quantifier": "all numbers of sending loops, streams and envelopes, all interleavings of senders and handlers, streams that break at any moment", "why_tests_cant": "Tests run over local streams that do not break, where a handler has answered before the next envelope is sent; the failure needs a stream that breaks while its handler runs.", "anchors": ["libs/go/libp2p_node/libp2p_node.go:155-164", "libs/go/libp2p_node/dht/dhtpeer/dhtpeer.go:1186-1208", "libs/go/libp2p_node/dht/dhtpeer/dhtpeer.go:1235-1320", "libs/go/libp2p_node/dht/dhtclient/dhtclient.go:559-615", "libs/go/libp2p_node/dht/common/handlers.go:56-126"]}
{"id": "C114", "title": "Streams are given back", "statement": "Every function of a node that has opened a stream, or was given one, closes or resets it before it returns; so a node that has nothing to do has no stream of its own doing open.", "quantifier": "all messages on the stream, failures of reads and writes at any point, results of look-ups and checks, all histories of calls", "why_tests_cant": "Streams left open show only as slowly growing memory; tests send a few envelopes and end the process.", "anchors": ["libs/go/libp2p_node/dht/common/handlers.go:97-176", "libs/go/libp2p_node/dht/dhtpeer/dhtpeer.go:1235-1321", "libs/go/libp2p_node/dht/dhtpeer/dhtpeer.go:1355-1420", "libs/go/libp2p_node/dht/dhtpeer/dhtpeer.go:1615-1683", "libs/go/libp2p_node/dht/dhtpeer/dhtpeer.go:1700-1751", "libs/go/libp2p_node/dht/dhtclient/dhtclient.go:331-365", "libs/go/libp2p_node/dht/dhtclient/dhtclient.go:468-623", "libs/go/libp2p_node/dht/dhtclient/dhtclient.go:683-723"]}
{"id": "C115", "title": "Look-ups end", "statement": "A look-up of an address ends if every peer that is asked answers, and the number of peers that wait for one another because of it is bounded.", "quantifier": "all networks of peers, tables, lists of providers and connections between peers, also ones that change from step to step, all numbers of steps", "why_tests_cant": "Tests look addresses up that are registered with one peer; the loop needs two peers that have announced an address and both lost it, and tests see it as one that hangs.", "anchors": ["libs/go/libp2p_node/dht/dhtpeer/dhtpeer.go:1324-1445", "libs/go/libp2p_node/dht/dhtpeer/dhtpeer.go:1533-1612"]}
{"id": "C116", "title": "A proof of representation holds between its dates and for its service", "statement": "A record of an agent is accepted by a peer only on the days between its dates not_before and not_after and only for the service it was made for.", "quantifier": "all records, addresses, keys, days and services, all ledgers and signature checks, all runs of a peer", "why_tests_cant": "Tests check records without dates; that nothing depends on the dates, for every record and in every place where records are received, is a statement about all of them.", "anchors": ["docs/por.md:20", "docs/acn-internals.md:36-43", "libs/go/libp2p_node/dht/dhtnode/utils.go:40-111", "libs/go/libp2p_node/dht/dhtpeer/options.go:50-66", "libs/go/libp2p_node/dht/common/handlers.go:55-94"]}
{"id": "C117", "title": "Requests are answered as documented", "statement": "Every frame that a peer receives as a registration, a look-up, an envelope from another peer or an envelope from an agent is answered with exactly one message, the one which the diagrams and the table of status codes in docs/acn-internals.md prescribe.", "quantifier": "all frames, records, keys, tables of the peer and outcomes of the network, all address and signature functions that return", "why_tests_cant": "Tests send a few wrong frames and look at an error; the documentation speaks of every frame, and which of its cases applies depends on bytes, tables and the network.", "anchors": ["docs/acn-internals.md:66-90", "docs/acn-internals.md:116-172", "docs/acn-internals.md:185-239", "docs/acn-internals.md:263-424", "libs/go/libp2p_node/dht/common/handlers.go:55-176", "libs/go/libp2p_node/dht/dhtpeer/dhtpeer.go:1456-1613", "libs/go/libp2p_node/dht/dhtpeer/dhtpeer.go:1712-1751", "libs/go/libp2p_node/aea/utils.go:32-98"]}
{"id": "C118", "title": "Agents that move are found at their new peer", "statement": "An agent that leaves a peer and registers with another one is found there: a look-up of its address that reaches the new peer among the providers gives the record registered with the new peer.", "quantifier": "all histories of the peers (registrations, envelopes, departures and restarts), all networks, orders of providers and connections", "why_tests_cant": "Tests register an agent once; what a peer answers for an agent that left it long ago depends on its whole history, restarts included, and on the order in which providers are found.", "anchors": ["libs/go/libp2p_node/dht/dhtpeer/dhtpeer.go:1324-1445", "libs/go/libp2p_node/dht/dhtpeer/dhtpeer.go:1533-1612", "libs/go/libp2p_node/dht/dhtpeer/dhtpeer.go:1700-1793", "libs/go/libp2p_node/dht/dhtpeer/dhtpeer.go:998-1008", "libs/go/libp2p_node/dht/dhtpeer/mailbox.go:96-125"]}
{"id": "C119", "title": "Envelopes come from the agent that they name as their sender", "statement": "In a network whose nodes all run this code, an envelope that an agent is given was written, as it is, by the agent that it names as its sender: over the pipe to its node, over a connection registered with a valid record of its address, or by a session of its address.", "quantifier": "all sets of agents, delegate connections and mailbox sessions, all bytes they write, all tables of the peers, all networks and schedules", "why_tests_cant": "Tests send a few envelopes between a few agents; that nothing is made up, altered or renamed on the way depends on every path through every kind of node and on every byte string that clients may write.", "anchors": ["libs/go/libp2p_node/libp2p_node.go:155-164", "libs/go/libp2p_node/aea/api.go:362-425", "libs/go/libp2p_node/dht/dhtpeer/dhtpeer.go:905-1008", "libs/go/libp2p_node/dht/dhtpeer/dhtpeer.go:1055-1233", "libs/go/libp2p_node/dht/dhtpeer/dhtpeer.go:1456-1526", "libs/go/libp2p_node/dht/dhtpeer/mailbox.go:137-190", "libs/go/libp2p_node/dht/dhtclient/dhtclient.go:429-625", "libs/go/libp2p_node/dht/common/handlers.go:56-126"]}
{"id": "C120", "title": "Envelopes are shown only to those their receiver vouched for", "statement": "In every state of a peer, an envelope is given to the own agent only if it is the receiver, put into a mailbox or written to a connection only if the receiver has signed a record for this peer (and the connection presented it), and sent only to a peer for whose key the receiver has signed a record; an envelope from another peer is not sent on. If the receiver has vouched for one peer only, that peer alone gets it. The same holds of nodes in client mode.", "quantifier": "every history of the peer (registrations, departures, restarts, requests, interleaved in any way), every envelope, every network, look-up and answer", "why_tests_cant": "The tables are changed by many goroutines and by loading the record file, look-ups are answered by strangers, and all of that decides where an envelope goes.", "anchors": ["libs/go/libp2p_node/dht/dhtpeer/dhtpeer.go:1055-1233", "libs/go/libp2p_node/dht/dhtpeer/dhtpeer.go:1235-1445", "libs/go/libp2p_node/dht/dhtpeer/dhtpeer.go:1456-1526", "libs/go/libp2p_node/dht/dhtclient/dhtclient.go:429-658"]}
{"id": "C121", "title": "What a peer remembers is bounded by the agents it serves", "statement": "What a peer keeps in memory and in its file of agent records is bounded by the agents it serves: an agent that registers again needs no further room, and an agent that has left is forgotten.", "quantifier": "all histories of a peer: registrations of delegate and relay clients in any interleaving, departures, envelopes and restarts", "why_tests_cant": "Tests run a peer for seconds with a few agents; what it has gathered after years of registrations and departures is a property of all histories.", "anchors": ["libs/go/libp2p_node/dht/dhtpeer/dhtpeer.go:430-508", "libs/go/libp2p_node/dht/dhtpeer/dhtpeer.go:886-903", "libs/go/libp2p_node/dht/dhtpeer/dhtpeer.go:998-1008", "libs/go/libp2p_node/dht/dhtpeer/dhtpeer.go:1744-1771"]}
{"id": "C122", "title": "Agents whose messages cross do not harm each other", "statement": "Two agents that run the library and answer each other with plain replies never crash each other, also if their messages cross on the way, are delayed, overtaken or lost: each refuses what does not fit and goes on, and a later message of the other is accepted again.", "quantifier": "all agents, rules, earlier histories of both, performatives, interleavings of sending and processing on both sides, orders and losses of messages, and calls about third parties in between", "why_tests_cant": "Tests deliver each message before the next one is sent. Crossing needs two agents, a network and an interleaving that no test of the library sets up.", "anchors": ["libs/go/aealite/protocols/dialogue.go:232-335", "libs/go/aealite/protocols/dialogue.go:344-526", "libs/go/aealite/protocols/dialogues.go:155-221"]}
{"id": "C123", "title": "Many dialogues at the same time do not disturb each other", "statement": "Two agents may hold any number of dialogues with each other and with third parties at the same time. A call about one of them leaves the others as they were, and a dialogue goes on as if it were the only one: which message is accepted depends only on what was said in it, and messages of other dialogues, also if they cross, neither crash it nor end up in it.", "quantifier": "all agents, rules, earlier histories of both, numbers of dialogues, references, performatives, and interleavings of the calls about all dialogues", "why_tests_cant": "Tests use one dialogue at a time. Interference needs several dialogues between the same two agents at different stages, with their references completed in different orders.", "anchors": ["libs/go/aealite/protocols/dialogues.go:155-289", "libs/go/aealite/protocols/storage.go:80-162"]}
{"id": "C124", "title": "An agent forgets dialogues that are over", "statement": "If an agent does not keep terminal dialogues, then of a dialogue that is over, and of a message that was refused, nothing is kept in its store: what the store holds is bounded by the dialogues that are going on.", "quantifier": "all agents, rules, histories of calls, counterparties, references and messages, accepted or refused", "why_tests_cant": "Tests end one dialogue and look whether it is still in the store. What is left behind is seen only in the tables that no function reports, and grows over the whole life of an agent.", "anchors": ["libs/go/aealite/protocols/storage.go:44-162", "libs/go/aealite/protocols/dialogues.go:155-262", "libs/go/aealite/protocols/dialogues.go:323-384"]}
{"id": "C125", "title": "When a dialogue takes a message that arrives again", "statement": "A message that a dialogue has just taken is not taken again when it arrives next. A message number is taken again only if the agent itself has meanwhile sent a message with a smaller number in that dialogue, never if the agent had sent enough messages the first time, and the counterparty's number k is taken at most k times, however often messages arrive.", "quantifier": "all agents, rules, histories of calls, dialogues, messages and numbers", "why_tests_cant": "Tests deliver each message once, in the order of turns. Whether a repeated message is taken depends on everything both sides have sent before, and a repetition can be accepted only in particular orders of messages.", "anchors": ["libs/go/aealite/protocols/dialogue.go:237-267", "libs/go/aealite/protocols/dialogue.go:466-526", "libs/go/aealite/protocols/dialogues.go:155-221"]}
{"id": "C126", "title": "An envelope leaves a mailbox only when its owner has received it", "statement": "When the client of a mailbox asks for envelopes, each envelope stays in the mailbox until the client has received it: whatever becomes of the connections over which the responses are sent, no envelope is lost, none is received twice, and they are received in order.", "quantifier": "all mailboxes, sessions, envelopes, numbers of requests and fates of the responses", "why_tests_cant": "Tests read each response completely. What is lost depends on when a connection breaks and on the size of the envelope, and a lost response looks to the server like one that arrived.", "anchors": ["libs/go/libp2p_node/dht/dhtpeer/mailbox.go:192-238"]}
{"id": "C127", "title": "What is done with an envelope does not depend on what it contains", "statement": "The network carries envelopes without regard to their content. What a peer or client does with an envelope - which look-ups it makes, to whom it sends the envelope, whether it keeps it in a mailbox, when it gives up, and the outcome - is the same for all envelopes with the same receiver and the same sender, whatever their protocol, message and URI. Nor does the order in which envelopes wait and are routed depend on what they contain.", "quantifier": "all states of peers and clients, behaviours of the network, receivers, senders and contents, and all schedules of the queues", "why_tests_cant": "It compares two runs on every pair of envelopes; tests send a handful of contents.", "anchors": ["libs/go/libp2p_node/dht/dhtpeer/dhtpeer.go:1055-1320", "libs/go/libp2p_node/dht/dhtpeer/dhtpeer.go:1456-1526", "libs/go/libp2p_node/dht/dhtclient/dhtclient.go:429-626"]}
{"id": "C128", "title": "Nothing that is received stops a node", "statement": "Whatever another party sends - an agent over its connection, another peer over a stream, the relay, a provider that is asked - and in whatever order, the node goes on: it answers, refuses or ignores the message, but does not crash.", "quantifier": "all frames and sequences of frames, at every place where a node reads from others: registrations, envelopes and look-ups of peers, delegate connections, answers to look-ups, envelopes and registrations, in peer and in client mode", "why_tests_cant": "Tests send well-formed messages. One message that crashes is enough, and which ones do depends on optional fields that every proper sender sets.", "anchors": ["libs/go/libp2p_node/acn/utils.go:203-460", "libs/go/libp2p_node/aea/utils.go:32-98", "libs/go/libp2p_node/dht/common/handlers.go:55-176", "libs/go/libp2p_node/dht/dhtpeer/dhtpeer.go:834-1010", "libs/go/libp2p_node/dht/dhtpeer/dhtpeer.go:1235-1445", "libs/go/libp2p_node/dht/dhtclient/dhtclient.go:429-723"]}
{"id": "C129", "title": "Agents at a peer do not disturb each other", "statement": "What a peer does for an agent does not depend on the other agents at it. A step that does not concern an agent - another agent registering, leaving, fetching its envelopes, or an envelope for another one being routed or kept - leaves all that the peer holds of the agent as it is; and how an envelope between two agents is routed, and how a question for an agent is answered, depends on what the peer holds of these two and on nothing it holds of others. So however many steps of others come in between, envelopes between two agents are treated as they would have been before.", "quantifier": "all states of a peer, agents, envelopes, behaviours of the network, and all interleavings of steps of delegate connections, registration streams, the mailbox service and routing", "why_tests_cant": "It is about every interleaving with any number of other agents; tests run a few agents one after another.", "anchors": ["libs/go/libp2p_node/dht/dhtpeer/dhtpeer.go:857-1008", "libs/go/libp2p_node/dht/dhtpeer/dhtpeer.go:1034-1233", "libs/go/libp2p_node/dht/dhtpeer/dhtpeer.go:1456-1613", "libs/go/libp2p_node/dht/dhtpeer/dhtpeer.go:1700-1793", "libs/go/libp2p_node/dht/dhtpeer/mailbox.go:18-340"]}
{"id": "C130", "title": "The network does not multiply envelopes", "statement": "An envelope that an agent hands in causes at most two messages with envelopes between nodes and is handed over at most twice, and at most four pieces of work are done for it; so when nothing new is handed in, the network comes to rest. Only the node where it was handed in sends it: nodes do not pass on what they get from other nodes, and no envelope goes in circles. A message of a stranger is handed over at most once and never passed on.", "quantifier": "all networks of peers and clients, with tables that change in any way, all envelopes and messages of strangers, all behaviours of the surroundings, and all orders in which the work is done", "why_tests_cant": "It is about all networks and all runs; tests send envelopes through two or three nodes and look for one arrival.", "anchors": ["libs/go/libp2p_node/dht/dhtpeer/dhtpeer.go:1055-1320", "libs/go/libp2p_node/dht/dhtpeer/dhtpeer.go:1456-1526", "libs/go/libp2p_node/dht/dhtclient/dhtclient.go:428-651", "libs/go/libp2p_node/dht/common/handlers.go:55-126"]}
{"id": "C131", "title": "A client learns what became of its envelope", "statement": "If a node in client mode reports that an envelope for another agent was sent, the node at the other end - a peer or another node in client mode - has got that very envelope with a proven record of the sender, and has handed it over exactly once, to the mailbox, delegate or agent that it is addressed to; and if it reports an error, the envelope was not handed over. The same holds for a peer that sends to a node in client mode.", "quantifier": "all states of both nodes, envelopes, behaviours of the network, and all places where the stream may break", "why_tests_cant": "Tests deliver over streams that work. What the sender is told when a stream breaks at any point, with any kind of node at either end, is not tried.", "anchors": ["libs/go/libp2p_node/dht/dhtclient/dhtclient.go:428-651", "libs/go/libp2p_node/dht/common/handlers.go:107-124", "libs/go/libp2p_node/dht/dhtpeer/dhtpeer.go:1456-1613", "libs/go/libp2p_node/dht/dhtpeer/dhtpeer.go:1034-1233"]}
{"id": "C132", "title": "What a dialogue has recorded was said", "statement": "When two agents talk over the network, what a dialogue of one has recorded of the other is what the other's dialogue has said: unaltered, in the order of saying, and each message at most once; and if nothing fails on the way, everything that was said is given to the dialogues of the other in this order.", "quantifier": "all pairs of agents and rules, all calls they make, also about other dialogues and with other agents, all ways of envelopes between them and all places where connections may break", "why_tests_cant": "The tests of dialogues hand messages over directly, and the tests of the network send envelopes without dialogues. That both together keep a dialogue as it was meant is not tried, for any pair of agents.", "anchors": ["libs/go/aealite/protocols/dialogues.go:99-221", "libs/go/aealite/protocols/dialogue.go:237-342", "libs/go/aealite/protocols/message.go:162-205", "libs/go/aealite/connections/p2pclient.go:135-293", "libs/go/libp2p_node/dht/dhtpeer/dhtpeer.go:1034-1320"]}
{"id": "C133", "title": "Nobody can put words into another agent's dialogue", "statement": "In a network whose nodes all run this code, whatever is lost, repeated or reordered on the way and whatever anybody else does, a dialogue has recorded of another agent only messages that this agent's dialogues have said. As long as an agent has not answered in a dialogue that the other has opened, these are the first messages that the other has said in it, in order, without gap or repetition.", "quantifier": "all pairs of agents and rules, all calls they make, all other agents, delegate clients and mailbox sessions, all tables of the nodes, all behaviour of the network and all schedules", "why_tests_cant": "No test has a third party that tries to speak in the name of another; whether one of the many ways an envelope can take lets it through cannot be tried one by one.", "anchors": ["libs/go/aealite/protocols/dialogues.go:155-221", "libs/go/aealite/protocols/dialogue.go:237-267", "libs/go/aealite/protocols/message.go:162-239", "libs/go/libp2p_node/dht/dhtpeer/dhtpeer.go:1034-1320", "libs/go/libp2p_node/dht/dhtpeer/mailbox.go: apiSendEnvelope"]}
{"id": "C134", "title": "An agent gets what was sent to it, in order", "statement": "As long as an agent that was started is not stopped, what Get has returned and what waits in its queue are the envelopes that came for it, in the order in which they came, without gap or repetition, but for at most the last. The queue never holds more than ten. An agent that takes nothing, like the example agent, never reads more than eleven envelopes for it, however many arrive; with eleven it stays as it is until it is stopped.", "quantifier": "all data a peer may send, all calls of Put and Get, all failures of writes and connections, and all schedules of the goroutines", "why_tests_cant": "The example agent is started and stopped at once in tests; the order in which goroutines run and where a connection breaks cannot be enumerated.", "anchors": ["libs/go/aealite_agent_example/main.go:30-83", "libs/go/aealite/connections/p2pclient.go:146-206", "libs/go/aealite/connections/p2pclient.go:262-303", "libs/go/aealite/connections/p2pclient.go:419-482"]}
