# Formal model of the Go code of agents-aea

Source: `/repo` (fetchai/agents-aea at the pinned commit), Go code under
`libs/go/aealite` and `libs/go/libp2p_node` (the copy under
`packages/fetchai/connections/p2p_libp2p/libp2p_node` is byte-identical).
The Go code is read as text; nothing of it is executed.

## Conventions

* Every Go function is modelled by one total computable Lean function with a
  comment citing the file and lines. Simplifications are stated there.
* Go panics are values: `Res.panic` is a third outcome next to `ok` and `err`.
  A model function never hides an out-of-range index, a nil dereference or a
  send on a closed channel behind a default value.
* Go maps are association lists with unique keys (`GoMap`). Where Go iterates
  over a map the result is stated for every order.
* Pointers shared between data structures (dialogues) live in an explicit heap.
* Goroutines and channels are state machines; a schedule is a list of steps and
  theorems quantify over all schedules.
* The network, the clock, hash functions, signature schemes and random numbers
  are parameters; theorems hold for every choice of them. From C88 on the curve, and
  from C91 on the hashes and text codes, are written out as well.
* The properties are stated in `Verif/Props/*.lean`, against small
  specifications in `Verif/Spec/*.lean`; helper lemmas are in `Verif/Lemmas`.
* When a property is false of the code, the negation is proved with a concrete
  witness (`*_counterexample`), the part that does hold is proved with suffix
  `_partial`, and the disagreement is recorded below.

## Plan per property

| id | model | proof |
|----|-------|-------|
| C01 | Dialogue, Storage, Dialogues | invariant over API histories |
| C02 | same | case analysis of every failing path |
| C03 | same | invariant |
| C04 | same | false: counterexample; partial for alternating opponent-initiated dialogues |
| C05 | same | false: counterexample (remote crash in three messages); partial |
| C06 | same | false: counterexample; partial for targets that are own messages |
| C07 | same | frame lemma over all calls |
| C08 | same | invariant on the incomplete-label map |
| C09 | same | invariant / frame |
| C10 | Storage | invariant over API histories |
| C11 | Storage | invariant; exact effect of terminal message |
| C12 | Dialogues | false: counterexample; partial |
| C13 | DialogueLabel | round trip, iff |
| C14 | DialogueLabel + JSON string scanner | false for special characters: counterexample; partial |
| C15 | Message + protobuf | round trip in the int32 range; counterexample outside |
| C16 | two copies of the Dialogues machine | composition |
| C17 | helpers.Set | refinement to mathematical set |
| C18, C19 | protobuf wire format | round trip |
| C20 | Framing over segmented streams | round trip; counterexamples for short reads and read-ahead |
| C21 | Framing | false: counterexample; partial below 3 MiB |
| C22 | record file | refinement: last write wins |
| C23 | record file | false: counterexample; exact characterisation of safe crash points |
| C24 | IsValidProofOfRepresentation | decision logic, iff |
| C25 | same with explicit panics | false: counterexample; exact panic condition |
| C26 | delegate connection handler | invariant over frame sequences |
| C27 | peer stream handler | false: counterexample; partial: record is valid for the remote peer |
| C28 | mailbox | false: counterexample; partial |
| C29, C30 | mailbox | refinement to per-address bounded queues |
| C31 | RouteEnvelope, HandleAeaEnvelope | decision logic |
| C32 | client RouteEnvelope | false: counterexample; partial |
| C33 | lookupAddressDHT | false (empty success): counterexample; partial when a peer is returned |
| C34 | status queue machine | false: counterexample; partial without time-outs |
| C35 | per-pair queues and workers | one connection: invariant; two connections: counterexample |
| C36 | delegate table | false: counterexample; partial |
| C37 | announcement | false: counterexample; partial |
| C38 | gauge trace of routing | false: counterexample; partial on the named paths |
| C39 | retry loops | false: divergence proved; partial |
| C40 | registerWithRetry and delays | bounds over 64-bit integers |
| C41 | aealite receive loop | refinement: filter |
| C42 | aealite receive loop | false: divergence proved |
| C43 | DER conversion | exact characterisation; counterexample |
| C44 | EIP-55 | case-insensitive identity |
| C45 | AeaApi.Init | false for ports: counterexample; partial |
| C46 | agent pipe loop | invariant |
| C47 | FileHistogram | counting |
| C48 | ACN readers | exact panic condition; partial |
| C49 | wallet | decision logic |
| C50 | BootstrapConnect | every completion order |
| C51 | unwrapEnvelope | case analysis |
| C52 | Reply | case analysis on the invariant |
| C53 | two copies of the Dialogues machine | mirrored histories, induction over conversations |
| C54 | Proto, Acn, Wrap | decoding of joined encodings, fold over fields; `Spec/Merge.lean` says what laying one message over another means |
| C55 | Acn, PeerHandlers, AddressStream, Routing, DhtClient | the two programs at the ends of one connection; `Spec/Exchange.lean` says what a connection does |
| C56 | Proto, Acn, Messages, Wrap | every decoder yields values its encoder takes; `Lemmas/Decoded.lean` |
| C57 | PeerTables: all tables of a peer and every program that changes them, as interleaved steps | one invariant (`Lemmas/Tables.lean`) over every history with restarts; `Spec/Tables.lean` says what it is to vouch |
| C58, C59 | PeerTables with Routing, AddressStream, DhtClient | consequences of the invariant, joined with C33 and C55 |
| C60 | PeerTables with RecordFile | invariant relating the relay table and the file |
| C61 | Crypto (`Spec/Signature`, `Lemmas/Signature`) | exact characterisation of the accepted inputs |
| C62 | LiteStart with Wallet, Crypto, PoR | decision logic of the start joined with C25 and C43 |
| C63 | Dialogue, Dialogues | consequence of the dialogue invariant |
| C64 | TlsCheck with Framing | decision logic; TLS is a parameter |
| C65, C66 | NotifGate | invariants of the schedules |
| C67 | DelegateService | induction over the connections |
| C68 | Shutdown | invariant of the schedules |
| C69 | NodeMain with NodeConfig | decision logic, exact conditions |
| C70 | RetryError with Retry | decision logic, exact text |
| C71 | DelegateGauge | invariant over histories |
| C72 | AgentSend | invariant over schedules, exact crash condition |
| C73 | Reconnect | decision logic, exact |
| C74 | FileMonitor, MonitorFile | refinement to one number per name; exact crash conditions |
| C75 | Seller | invariant (no gaps in ids, never more said than heard); exact crash condition |
| C76 | Seller | invariant; induction over histories for the deal behind an `end` |
| C77 | Seller, Dialogues | simulation of one conversation; frame by counterparty and reference |
| C78 | Routing, PeerHandlers, Acn | composition of two peers over a stream that may break |
| C79 | PeerHandlers, PairQueues, Routing, LiteClient | composition of C26, C35, C31 and C41 over wires that may break |
| C80 | MailboxLife | invariant of the schedules, exact condition |
| C81 | PeerStart | decision logic over a list of actions |
| C82 | StartLoad with RecordFile | invariant of the loader, refinement of loadRecords |
| C83 | PeerStart | order of the actions |
| C84 | PromMonitor, FileMonitor | refinement and invariant |
| C85 | Schema, Definitions | round-trip by induction over messages |
| C86 | Schema, Definitions, Messages, Wrap, Seller | refinement |
| C87 | LabelJson | refinement against a grammar |
| C88 | PubKey | exact set of accepted strings, round trips, injectivity over the field |
| C89 | Ecdsa | refinement against the group of the curve, round trips |
| C90 | EthRecover | refinement against the group of the curve, decision logic |
| C91 | Hashes, TextCodes, Nonce | round trip, exact acceptance, instances of earlier claims |
| C92 | TextCodes | injectivity, refinement against BIP-173 |
| C93 | PeerIdText | round trip, exact acceptance, refinement against arithmetic |
| C94 | Multiaddr | round trip through two configurations, exact acceptance |
| C95 | SessionKey | exact acceptance on the curve, round trip, attack for every peer |
| C96 | Sha256, Ripemd, Keccak | refinement of the fast functions to the texts of the standards |
| C97 | AgentLife, AgentRestart | state machine over all schedules, invariants by induction; counterexamples for every honest peer |
| C98 | EnvelopeConn | round trip through the frames of C20 and the encoding of C19; exact conditions; counterexamples for every envelope |
| C99 | LookupTime, SlowQueue | the look-up with times refines the look-up of C33; bounds by induction over the rounds; slow queue as a state machine with ghost records |
| C100 | PeerLocks | programs as lists of lock operations; a ranking of the locks that every program keeps; invariants over all interleavings |
| C101 | ClientTime | the model of client mode with a clock, refining DhtClient; closed form of the retry loops |
| C102 | MapRaces | every use of data lies in a section of its lock, in the right mode (a check of the programs), together with C100_exclusive |
| C103 | Stranger | invariants over all histories with the stranger's connections, sessions and streams written down, from C57 and the step functions; C103_handed_out from the invariant of PeerTables; the counterexamples hold in every state |
| C104 | LockTime | the rules of RWMutex in time and what they imply for readers and writers, a check of the calls in the sections of all programs, together; the counterexample is a run for every number of clients |
| C105 | StartLoad | invariant of the run from its schedule by induction at the end of the schedule; the last of the first and of the second sections coincide if orders agree |
| C106 | PeerTime | the timed call refines the model of C31; bounds by cases from C99; the bounded channel as a recursion with an invariant on sums |
| C107 | RegAck | a measure of how far one registration is, which no step of another lowers; an invariant that an address stays unknown |
| C108 | QueueGrowth | an invariant that names the connection that made each queue; counting by sublists |
| C109 | AcnTable | a state machine of both tables; ghost values say what a status answers; invariants over all histories |
| C110 | Descriptor | the descriptors are read with the schema of descriptor.proto; two schemas that differ in names only write and read alike, by induction on messages and nesting |
| C111 | PyDescriptor | both descriptors say what the definitions say (C110), and what is written by a definition is read by it (C85) |
| C112 | MailSessions | the six effects of a step on the tables; invariants over all histories |
| C113 | Streams | a state machine of sending loops and stream handlers; invariants over all histories |
| C114 | StreamEnds | how each function leaves its stream, over the scripts of Routing, DhtClient, PeerHandlers and AddressStream; cases, and sums over histories |
| C115 | LookupChain | a stack of peers that wait, one request or answer per step; divergence by invariant, termination by rank, and by a frame lemma with the pigeonhole principle |
| C116 | no new model | a calendar as specification; independence of the check and of the two handlers of dates and service; an invariant of the tables for the own record |
| C117 | no new model | relations copied from the diagrams as specification; the handlers composed with the peer's decision functions |
| C118 | no new model | tables of peers (PeerTables) as the network of LookupChain; invariant over histories with restarts, big-step rules for look-ups |
| C119 | no new model | all nodes together as a world of pipes, connections and requests; chain of C46, C26, C31, C32, C27 and the round trips C18, C19 |
| C120 | no new model | invariant of the tables (C57), look-ups (C33) and the routes of peers and clients taken together |
| C121 | no new model | invariant over histories that gives each record its registration; induction over repeated registrations |
| C122 | no new model | two agents and the messages under way; invariant: the ids recorded of the other side are consecutive, and every message answers either the sender's own last message or one with a larger number |
| C123 | no new model | frame theorem per counterparty and opener's reference for every call; the invariants of C53 and C122 survive any call about another dialogue |
| C124 | no new model | invariant: no stored dialogue has a terminal message; measure of the reference table; induction over refused openings |
| C125 | no new model | walking back along the history of a dialogue, the numbers of the counterparty go down one by one; potential argument for the bound; call level for the next message |
| C126 | `Model/MailPoll.lean`: fates of responses, requests one after another | law by induction on the requests |
| C127 | no new model | one plan per receiver and sender, into which the envelope is filled; naturality of the queues under changes of content |
| C128 | no new model | a list of deadly messages per place; `iff` for the readers by cases, for the loops by induction on what is read |
| C129 | no new model | unwinding: a relation between states that agree on an agent, kept by all steps of others, on which alone the outputs depend |
| C130 | Traffic (more runs than the code has: the answer a sender gets need not be the one the receiver sent) | network of any number of nodes built from the calls of Routing and DhtClient; a potential for every piece of work, kept by every step |
| C131 | no new model; `clientRoute`, `clientHandleEnvelope` with `handleEnvelopeStream` | composition: one description of the node at the other end for peers and clients, over streams that break anywhere; exact answer over whole streams |
| C132 | no new model; `Sys.call`, `makeResponseEnvelope`, `unwrapEnvelope` and `Journey` | composition: what calls add to the dialogues, message fields survive the envelope, envelopes arrive in order |
| C133 | no new model; `World` of C119 and the calls of C132 | composition: an envelope given to an agent was written by its sender (C119), a recorded message was given (C132), numbering of a listener's dialogue (C04) |
| C134 | no new model; `AgentLife` of C97 | invariant: what was taken, what is queued and what the goroutine holds are the envelopes in the frames it has read |

## Disagreements between properties and code

Every one is proved as a `*_counterexample` (or a universally quantified effect theorem).

* C04: the id expected of the counterparty continues from the last message in either direction.
* C53: as a consequence, two agents that take turns never get beyond the third message of a dialogue:
  the opener refuses every second message of the responder (`C53_alternating_stuck`).
* C05: a message accepted with a gap in the numbering makes a later call index out of range.
* C06: with gaps or ambiguous signs a target resolves to another message.
* C10, C12: replying on a dropped dialogue breaks the per-counterparty index; a rejected opening
  burns its reference; a refused `Create` leaves an empty dialogue behind.
* C14: `MarshalJSON` writes the components between quotes without escaping them.
* C15: `int32(...)` narrows message ids and targets.
* C20: `conn.Read` results are used without looking at the count, so a split segment pads the data
  with zeros and desynchronises the stream; `ReadBytes` makes a new buffered reader per call
  and loses read-ahead; `WriteBytesConn` sends nothing for empty data; aealite's `Write` panics for
  sizes just below a multiple of 2^32.
* C21: writers allow 2^31-1 bytes, readers 3 MiB.
* C23: a torn append makes the record file unreadable and the peer fails to start.
* C25: ethereum records with a one-character public key or a short signature crash the check
  (`publicKey[2:]`, `signature[64]`).
* C27: the sender of an envelope from another peer is never compared with the record; a message
  without record crashes the node.
* C48: a status message without body crashes `HandleAcnMessageFromPipe` and
  `ReadLookupResponse`; `ReadEnvelopeMessage` does not answer a status message.
* C28: the mailbox does not compare the sender with the address of the session.
* C29: registering an address again discards the envelopes that are pending.
* C31: `HandleAeaEnvelope` prefers a delegate connection to the own agent, unlike `RouteEnvelope`; a
  closing peer drops the envelope and reports success.
* C32: `RouteEnvelope` of a client does not return after giving an envelope to the own agent, and sends
  it to the network as well.
* C33: a look-up where no provider helps reports success without peer or record (the error of
  the exchange with the provider is assigned to a shadowing variable).
* C36: a delegate connection that ends removes the table entry of its address even if it belongs
  to a newer connection.
* C37: an address is marked as announced before it is provided and stays marked whatever happens.
* C38: the gauge is not decreased for unknown senders, mailbox deliveries and a missing agent; it is
  decreased twice when sending to a peer found in the DHT fails, and once per retry.
* C34: a status carries no reference to an envelope, so a status that arrives after a time-out, or during
  a concurrent send, is taken for the wrong envelope.
* C35: two connections of a client can both create the queue of a pair (the check and the creation are
  separate critical sections), which reorders or loses envelopes; retries are not ordered.
* C39: when the time-out has passed the loops `continue` without trying or returning, for ever.
* C40: for delays near 2^63 ns `float64` rounds up, the limit of the shift wraps around and the delay
  overflows. (`config.maxDelay` is never set, so `MaxDelay` has no effect.)
* C41, C42: while closing, errors are ignored: an envelope that could not be decoded is passed on, and
  the goroutine reads a closed socket for ever; a blocked put panics when the queue is closed.
* C43: the text form of a signature has no fixed-width halves and is split in the middle.
* C45: errors of `ParseUint` are ignored, so a mistyped port becomes 0 (and a peer becomes a client) or
  65535; a URI is split at its first colon, so an IPv6 address is cut.
* C46: a status message without body, or an envelope of an agent without record, crashes the node.
* C59: a registration over a stream replaces the record of a delegate that is connected, whose envelopes
  other peers then refuse (`errorWrongPublicKey`); a peer without own agent takes an empty sender for its
  agent and sends an envelope without record, which crashes the peer that receives it.
* C60: a relay client whose libp2p key is not of type secp256k1 is accepted and saved, and the peer
  cannot be started on its file again.
* C57 does not say that the tables agree with each other: two registrations of one address at the same time
  can leave the record of one client with the peer id of the other (`TablesDemo.mixed_up`), since the two
  tables are locked separately.
* C62: `InitFromEnv` of the client takes the address and public key from the environment, although the
  wallet derives them when they are missing; so the record of an agent that has started may be refused.
* C63: a dialogue with oneself does not count as opened by oneself; an opening that failed leaves a dialogue
  that counts as opened by the agent, which then takes the first message of the counterparty.
* C64: the signature is checked for the *last* certificate of the server, while TLS proves possession of the
  key of the first; a type assertion crashes the agent if the last key is no ECDSA key; and an error in the
  configured key text is ignored.
* C65: mailbox clients are not in the tables that a notification goes through; a peer that joins through an
  entry peer announces its stored clients before it enables announcements, without waiting.
* C66: Go's `WaitGroup` must not be used again before all released waiters have run.
* C67: the accept loop does the TLS handshake of each connection itself, without a deadline; connections
  whose handshake fails are never closed.
* C68: `Close` closes channels that other goroutines still send to, and is not safe to call twice. Closing the connections of clients does not stop their handlers when a message is decrypted and not read.
* C69: `time.Duration(registrationDelay)` drops the fraction of the seconds; `StringCast` panics for an entry
  peer that is no multiaddress, e.g. the empty text after a trailing comma.
* C70: `lastErrIndex` is never increased, so each try overwrites the error of the one before; a list with an
  error after a nil would crash in `Error`.
* C71: `nbrConns.Dec()` runs on refusals although `Inc()` comes only after acceptance.
* C72: `Stop` closes the queue to the agent while the node keeps running with `agent.Put` as its handler: the
  next envelope for the agent panics. Envelopes in the queue when the agent goes are lost although reported as
  accepted.
* C74: creating a metric again disconnects pointers to the old one; `GetGauge` of an unknown name returns nil
  and false, which the peer ignores (it looks up only what it created); `Stop` closes a nil channel if nothing
  was started for writing. The gauge `service_relay_clients_count` is created and never changed.
- C75: `Update` returns nil without an error for a message that belongs to no dialogue (dialogues.go:204-219),
  and the seller calls `Reply` on it (aea_end2end/main.go:107, 152). One envelope from anyone, such as a `cfp`
  with the dialogue reference ("", "x"), crashes the agent in every state.
- C76: for the same reason an `end` that belongs to no dialogue is logged as `FIPA INTERACTION COMPLETE`.
  Performatives are read by their JSON names (message.go:144-156) but rules are declared with protobuf names:
  `accept_w_inform` arrives as `acceptWInform`, which no rule allows, and another agent of this library reads
  `match_accept` as `matchAccept`.
- C77: after a counter-proposal of the buyer (id 2), which the rules allow and the seller records but does not
  answer, the buyer can accept its own proposal (id 3) and is confirmed, but its `end` (id 4) is refused, since
  `getIncomingNextMessageId` continues from the last id of either side. C76: the buyer can accept the same
  proposal repeatedly, and is confirmed each time.
- C78: `RouteEnvelope` puts an envelope into the slow queue whenever it has no success from the other peer, also
  if the envelope arrived and only the answer got lost: the retry hands it over a second time
  (`C78_twice_counterexample`). `HandleAeaEnvelope` ignores the error of the own agent (dhtpeer.go:1515) and
  reports success (`C78_agent_counterexample`). A closing peer drops an envelope and returns nil
  (`C78_closing_counterexample`).
- C79: holds of envelopes that do not pass through the retry queue; those may arrive twice or late, see C78 and C35.
- C80: `start` replaces the mutex of a service that is already in use, serves a nil listener if listening fails, and `stop` dereferences a server that may not be there yet; each of them ends the process.
- C81: `New` returns without `Close` if the DHT, the certificate or the record file fails; the host goes on listening.
- C82: registrations are served before the record file is opened, the loader takes no locks, and appending moves the position of the file the loader reads.
- C83: a peer announces its agent, lets in relay clients, and a client registers, before they serve envelopes.
- C84: setting up a second peer with Prometheus monitoring in one process panics: the metrics have no label or name of the peer and go to the default registry. Starting two services panics as well, since both register `/metrics`.
- C88: a peer's key has several texts (capital letters, 65-byte forms) with one identifier, while IsValidProofOfRepresentation compares texts. A version of btcec that does not refuse a compressed coordinate of at least the field's prime gives one point two texts and two identifiers.
- C89: a signature of SignFetchAI is read back as other numbers if its numbers are not balanced (C43), and the public key does not accept those; VerifyFetchAISignatureLibp2p gives an error for every balanced signature one of whose numbers has its highest bit set. A private key that is a multiple of the order is taken, but its public text cannot be read.
- C90: the recovery ids 2 and 3 (29 and 30 in the text) are refused, so signatures whose point has a first coordinate between the order and the field prime cannot be given in any accepted text. A signature can be changed into a second accepted one (the other second number and the other last byte).
- C91: base 64 is not strict, so every signature of 64 bytes has sixteen accepted texts, and more with ends of lines.
- C94: AEA_P2P_URI with a host's name passes the checks of Init (it is resolved and listened on) and makes the start fail afterwards. A public host with slashes is taken as several parts of an address. A negative port in an entry peer's address is taken for another port.
- C95: with the certificate and the signature that a peer gives to everyone (delegate port, or GET /ssl_signature of the mailbox) any server passes the agent's check, by sending its own certificate first and the peer's last.
**C97.** `Disconnect` (p2pclient.go:162-176) does not wait for the goroutine that receives, and that goroutine does not end when the socket is closed by `Stop`: it reads again and again (see C42). When the agent is started again the socket gets a new connection, and the goroutine of the earlier life reads from it; if it takes the signature of the peer, `Start` waits for ever (`C97_restart_counterexample`), and if the peer cannot be reached `sock.conn` is nil and the goroutine ends the process (`C97_redial_counterexample`). `Stop` when the peer has hung up and the goroutine has closed the socket, and a second `Stop`, end the process with `log.Fatal` (`C97_stop_partial`). A call of `Put` that waits for the answer while `Stop` closes the queue gets nil and dereferences it (`C97_put_counterexample`). Even in the first life, an envelope that TLS had decrypted before `Stop` can be read afterwards, since `tls.Conn.Read` gives what is decrypted also when the connection is closed; the goroutine ignores the error of the acknowledgement because the agent is closing, and gives the envelope to the closed queue (p2pclient.go:262-290), which ends the process (`C97_buffered_counterexample`).
**C98.** `WriteEnvelopeConn` (utils.go:653-659) of the empty envelope succeeds and sends nothing (`C98_empty_counterexample`). `ReadBytesConn` ignores how many bytes `Read` gave: when the data of an envelope arrives in two parts, the reader gets, without error, an envelope whose message ends in zeros (`C98_split_counterexample`, for every envelope without URI and every place to split its message), and goes on in the middle of the data.
**C99.** `lookupAddressDHT` opens the stream to a provider with `context.Background()` (dhtpeer.go:1368-1374) and reads the answer without a deadline (1388): whoever announces an address first and sends nothing keeps every look-up of it waiting for ever, whatever the time-out (`C99_silent_counterexample`); so does a peer that never confirms an envelope (1299, `C99_unconfirmed_counterexample`). The loop of the slow queue (1186-1209) tries one envelope after the other, so that such an address stops all slow envelopes, and the 101st call of `RouteEnvelope` for an address that is not found at once waits for ever (`C99_stuck_counterexample`). Without any of this, each envelope to an address that does not exist holds up those behind it for 20 s (`C99_wait_counterexample`).
**C100.** `apiGetEnvelope` (mailbox.go:207-238) writes the response while it holds `MailboxServer.lock`, and the server has no `WriteTimeout` (272-276). An envelope larger than the buffers of the connection and a client that does not read it keep the lock for ever; `RouteEnvelope`, `HandleAeaEnvelope` and `getEnvelopeAcnRecord` ask the mailbox for every envelope, so that the peer forwards nothing any more (`C100_get_envelope_counterexample`).
**C101.** In `newStreamLoopUntilTimeout` (dhtclient.go:344-356) the branch of the expired context sets another error and the loop goes on, without a pause and for ever; the stream may be opened again by then. `RouteEnvelope` is called for one envelope after the other (libp2p_node.go:154-163), so that a relay that is away for five minutes (`C101_relay_counterexample`) or a single peer that is away for one (`C101_peer_counterexample`) stops all envelopes of the agent until the node is started again (`C101_stuck_counterexample`).
**C102.** `New` opens the streams for registrations and notifications (dhtpeer.go:327-335) before it loads the stored records, which writes `agentRecords` and `dhtAddresses` without their locks (498, 503), goes through `dhtAddresses` without its lock while it announces each address for up to 3 s (367-373) and sets `enableAddressAnnouncement` without its lock (380). A registration in that time writes the same maps, and Go ends the process with `fatal error: concurrent map iteration and map write` or `concurrent map writes` (`C102_start_counterexample`). `MailboxServer.start` runs in a goroutine of its own (779) after the stream for envelopes has been opened; it makes the maps, and even sets the lock to a fresh one (mailbox.go:256-259), while `RouteEnvelope` may hold it (`C102_mailbox_counterexample`).
**C103.** A record of representation proves that an agent has once named a peer; it is not bound to a connection and does not expire. `handleAeaAddressStream` gives it to everybody who asks (dhtpeer.go:1533-1613, `C103_handed_out`), and `handleNewDelegationConnection` (837-1010) and the mailbox's `apiRegister` (mailbox.go:18-85) ask for nothing else. So whoever has looked up an agent can register as that agent at the same peer; its connection replaces the agent's in `tcpAddresses`, or its session gets a new list in the mailbox, and it receives what is sent to the agent (`C103_counterexample`, `C103_mailbox_counterexample`). `HandleAeaEnvelope` tries the mailbox and the delegate connections before the peer's own agent (1456-1526), so this also holds for the peer's own agent. Registration over a libp2p stream is safe (`C103_relay`).
**C104.** `handleAeaNotifStream` goes through `dhtAddresses` and `tcpAddresses` with the read lock held and calls `RegisterAgentAddress` for each entry, which calls `dht.Provide` with a time-out of 3 s (dhtpeer.go:1657-1678, 1814-1820). A client that connects meanwhile asks for the write lock (897, 1763), and from then on Go lets no reader in: every `RouteEnvelope`, `HandleAeaEnvelope` and `HandleAeaAddressRequest` stands still until all addresses have been tried, 3 s times the number of clients not announced yet (`C104_counterexample`). That is the case just when a peer that was alone is found by another one, as then no address has been announced.
**C105.** `handleAeaRegisterStream` stores the record under `agentRecordsLock` and then the peer id, with the append to the file, under `dhtAddressesLock` (dhtpeer.go:1758-1772). If an agent registers through two nodes at about the same time, the record of one and the peer id of the other can remain: look-ups then send everybody to one node, while this peer relays envelopes to the other, and after a restart look-ups change their answer (`C105_counterexample`).
**C106.** `RouteEnvelope` is called by one loop (libp2p_node.go:154-163). `WriteBytesConn` to a delegate connection and `ReadAcnStatus` of relay clients and other peers have no deadline (dhtpeer.go:1132, 1289), so one silent receiver stops the agent's sending for good (`C106_client_counterexample`, `C106_stuck_counterexample`). Sending to `slow_queue` blocks when 100 envelopes are in it (dhtpeer.go:1174); as the loop needs 20 s for an address that nobody provides, an agent with many absent partners sends one envelope every 20 s, also to partners that are there (`C106_flood_counterexample`).
**C107.** `handleAeaRegisterStream` sends the success (dhtpeer.go:1744, with a TOFIX) before it takes `agentRecordsLock` and `dhtAddressesLock` (1758-1772); C104 says how long these can be held. A client that starts sending at once can be answered to by an agent whose look-up fails (`C107_early_counterexample`). An error of `saveAgentRecordToPersistentStorage` is logged and dropped, the client is not told and does not register again (`C107_unsaved_counterexample`).
**C108.** Nothing is ever deleted from `syncMessages`, and the goroutine of a pair ends only when the peer is closed (dhtpeer.go:957-985, 659-663). A delegate client that sends one envelope to each of n receivers, which need not exist, costs the peer n goroutines and channels of 1000 entries until it is stopped (`C108_queues_counterexample`); with envelopes of 3 MB each of these channels can hold 3 GB. Records of clients that have left are kept too (`C108_records_counterexample`; TOFIX in line 1004).
**C109.** `tcpAddresses` is set before `acnStatuses` (dhtpeer.go:897-903). `AwaitAcnStatus` looks the queue up once (1854-1856): before the queue exists it waits at a nil channel for 5 s, while the answer goes into the queue made later and is taken by the next send, and so on (`C109_early_counterexample`). When an older connection of the agent ends it deletes the entry of the newer one (1006-1008, as in C36); the next status makes the handler of the newer one send to a nil channel, for ever (1845-1848, `C109_stuck_counterexample`): the agent is connected, and nothing it sends is read.
**C112.** `apiRegister` does not look for a session of the address (mailbox.go:55, "TODO: double register fix!!!") and sessions do not expire: one client can have any number of them. `apiUnregister` deletes the mailbox of the address (116-119) while the other sessions stay; their owner is told with status 200 that there is no envelope, for ever (`C112_counterexample`).
**C113.** A sender gives up on a stream that breaks (dhtpeer.go:1301-1308, dhtclient.go:595-604) while the handler of the other node, which has read the envelope, goes on with it (handlers.go:102-112); nothing tells it. The next envelope has its own stream and its own handler, which may be the faster one (`C113_counterexample`). A client node, and a peer for its relay clients (dhtpeer.go:1164), has reported an error for the envelope that arrives late.
**C114.** `_routeEnvelopeWithNewStream` has no `Close` after the wait for the status (dhtpeer.go:1299-1320): each envelope that a peer delivers to another node leaves a stream open (`C114_delivered_left`, `C114_grows`). `RouteEnvelope` of a client leaves the look-up stream if the look-up fails or the record is refused (dhtclient.go:487-506), and the opened stream if registering again fails (357-364). `HandleAeaAddressStream` does not close a stream that it has answered (handlers.go:169-176), `handleAeaRegisterStream` none that it has refused (dhtpeer.go:1735-1740), `handleAeaNotifStream` none at all (1615-1683).
**C115.** `HandleAeaAddressRequest` looks an address up that it does not have (dhtpeer.go:1584-1603), and `lookupAddressDHT` waits for the answer of a provider without a limit of time (1369-1389; the time-out of line 1341 is only for the search). The handler does not tell a request of a relay client, for which this was meant (line 1585), from a request of another peer. If an agent has been with two peers, which never withdraw what they announced, and leaves, the two ask each other without end (`C115_counterexample`, `C115_endless`). A single envelope to the departed agent starts this, and the sequential send loop of its sender (libp2p_node.go:155-164) does not come back from it.
**C116.** docs/por.md:20 says that `not_after` and `not_before` constrain the validity of the signature, and that it is for one environment. `IsValidProofOfRepresentation` (dhtnode/utils.go:40-111) looks at neither, and the signature is of the key of the peer only, so that anyone can alter dates and service of a record (`C116_counterexample`, `C116_envelope`). The dates are not even passed on: aea/api.go:200-209 does not read them and options.go:50-66 does not copy them (`C116_own_undated`). A peer that an agent has once signed for can speak for it for ever.
**C117.** docs/acn-internals.md prescribes an answer for every frame. A status on an envelope stream gets none (acn/utils.go:441-451, `C117_status_counterexample`), a missing record crashes the peer (`C117_registration_counterexample`, `C117_no_record_counterexample`), and ERROR_AGENT_NOT_READY of the own agent is only sent before `ProcessEnvelope` was called: later the error of `processEnvelope` is ignored and success is answered (dhtpeer.go:1511-1518, `C117_not_ready_counterexample`). The order delegate, own agent of `HandleAeaEnvelope` (see C31) is the documented one.
**C118.** Nothing is ever removed from `dhtAddresses` (the only `delete` calls are dhtpeer.go:1002, 1007 and mailbox.go:117-119), and a restart loads it from the file. So the former relay of an agent answers look-ups with the record of the peer the agent has left (`C118_relay_forever`, `C118_old_record`), the check of the answer cannot tell (C116), and the look-up does not go on to the peer where the agent is (`C118_old_found`, `C118_counterexample`). Envelopes go to the peer named in the old record.
**C119.** `apiSendEnvelope` (mailbox.go:137-190) does not compare the sender of an envelope with the address of the session; `RouteEnvelope` asks only that the sender is known to the peer. So a session of `eve` can write to others as `bob` (`C119_counterexample`). This is the only source within the nodes: all others compare, and no node passes on what arrives over a stream.
**C121.** `agentRecords` has no `delete` (dhtpeer.go:1002 and 1007 remove from `tcpAddresses` and `acnStatuses` only), and `saveAgentRecordToPersistentStorage` appends without looking whether the record is in the file (dhtpeer.go:1763-1771, 431-447). A relay client that restarts registers again, so the file grows with the number of its restarts, and a peer that starts reads it all (`C121_one_client`, `C121_restart`).
**C122.** The number expected of the other side continues from the message recorded last, whoever sent it (dialogue.go:517-526), except for the first message of the other side. So two messages that cross are both refused, and since a plain reply answers the own last message, which the other side does not have, all later ones are refused too (`C122_dead`). Through the exception the opener can get ahead by one refused message, after which the responder accepts a message with a gap before it; `getMessageById` (dialogue.go:481-504) then indexes beyond the list (`C122_counterexample`).
**C123.** An incoming message with a complete reference is taken for an answer in the agent's own dialogue with that opener's reference, if there is one that nobody has answered yet (dialogues.go:223-262), and the look-up tries the agent's own label first (dialogues.go:264-289). If both agents open a dialogue under the same reference, the messages of one complete the reference of the other and are refused (`C123_counterexample`). References are random, so this needs a counterparty that copies the reference it was sent.
**C124.** `RemoveDialogue` deletes the complete label from `incompleteToCompleteDialogueLabels` (storage.go:102), but the keys of that table are incomplete labels, so the entry of a dialogue stays when it is removed. Anyone can make the table of an agent as large as they like with opening messages that are refused (`C124_counterexample`). The entries are also what refuses a second opening (C08).
**C125.** One would expect a dialogue to take each message once. Because the id expected from the counterparty continues from the last message of either side (dialogue.go:517-526), an agent that has sent fewer messages than its counterparty takes old messages of the counterparty again after each answer (`C125_counterexample`). A duplicate made by the network, or a replay, is then recorded and handled as a new message.
**C126.** `apiGetEnvelope` removes an envelope when `res.Write` returns nil (mailbox.go:233-237). For a response that fits into the buffers of net/http this says nothing: it is sent after the handler has returned. So an envelope whose response cannot be sent is lost, and the owner is not told (`C126_counterexample`). There is no acknowledgement by the client.
**C128.** Optional fields of received messages are used without a check for nil: the body of a status in `ReadLookupResponse`, `SendAgentRegisterMessage`, `HandleAcnMessageFromPipe` and after `ReadAcnStatus`, and the record of registrations, envelopes and look-up answers. Two bytes crash the sender of an envelope, a peer that looks up an address, or the peer that serves a client (`C128_counterexample`). The theorems give the complete list.
**C131.** An error that a client reports does not mean that the envelope was not delivered: if the answer gets lost it was (`C131_lost_counterexample`).
**C132.** A dialogue may record a message twice and out of order if its envelope arrives twice: after three messages of the opener and one answer, the opener's second message is taken again (`C132_counterexample`). Without an answer of the receiver this cannot happen, whatever the network repeats or reorders (`C132_listener`); in general it cannot happen where the messages are numbered one after the other (`C132_any_network`).
**C133.** A session of a mailbox may hand in an envelope in the name of another agent that the peer knows; the dialogue of its receiver records the message although that agent has said nothing (`WholeNet.C133_counterexample`).
**C134.** The example agent never takes an envelope. Once eleven have come for it, its receiving goroutine waits for room in the queue, and when the agent is interrupted `Disconnect` closes that queue: the program ends with a panic instead of "Agent stopped" (`C134_example_stop`; C42_crash_on_full_queue is the same for the client alone). While an agent is being stopped, what could not be decoded may be queued as an envelope (`C134_stopping`).

## Trusted base

* Lean 4.33.0 kernel; axioms at most `propext`, `Classical.choice`,
  `Quot.sound` (list per theorem below).
* The reading of the Go source by the author of the model; no mechanical
  extraction.
* The protobuf library (`google.golang.org/protobuf`) is modelled from its wire format
  (`Verif/Model/Proto.lean`, `Verif/Model/Schema.lean`); its source is not in `/repo`. Unknown
  fields are dropped in both. The recursion limit is left out in `Proto.lean` and a parameter in
  `Schema.lean` (which limit v1.25.0 has could not be checked here). C86 shows how far they agree.
* The bytes in `Verif/Model/RawDesc.lean` and `PyDesc.lean` are copied from the generated code by a script; how the
  library reads and numbers them (`Verif/Model/Descriptor.lean`) and the definitions of descriptor.proto and
  struct.proto are from their publication. The Python library is assumed to read a descriptor as the Go library does.
* `encoding/json` (`Verif/Model/LabelJson.lean`), btcec, `crypto/ecdsa`, the secp256k1 keys of go-libp2p-core and
  go-ethereum (`Verif/Model/Crypto.lean`, `PubKey.lean`, `Ecdsa.lean`) are modelled from their published
  behaviour, as far as the code uses them.
* Mathlib's definition of the group of points of a Weierstrass curve, as the meaning of "the group of
  secp256k1" (`Verif/Lemmas/CurveGroup.lean`).
* SHA-256, RIPEMD-160, Keccak-256, HMAC, the nonces of RFC 6979, base 64, bech32,
  base 58, peer ids and multiaddresses (`Verif/Model/Hashes.lean`, `TextCodes.lean`, `Nonce.lean`,
  `PeerIdText.lean`, `Multiaddr.lean`) are written out from the published standards and
  evaluated on the keys, addresses and signatures of the repository's own tests. Claims before C91 take them
  as parameters; C91 shows that these functions have what those claims ask for.
* Not modelled: libp2p, Kademlia, TLS, the Go runtime scheduler beyond
  interleaving, logging.

<!-- generated from the citations and from #print axioms -->

### Code modelled

Per file: the modules of `Verif/Model` that cite it, and the functions none of them cites. What a cited
function is simplified to is stated at its definition.

| file (under libs/go) | modules | functions not cited |
|---|---|---|
| aealite/agent.go | AgentLife, LiteStart | `Address` |
| aealite/connections/acn/acn.go | Acn (as libp2p_node/acn/utils.go, of which it is a copy up to logging and the case of two error texts) | |
| aealite/connections/p2pclient.go | AgentLife, LiteClient, LiteStart, Retry, RetryError, Status | `WrappedErrors`, `Unrecoverable`, `IsRecoverable` |
| aealite/connections/tcpsocket.go | AgentLife, Framing, TlsCheck |  |
| aealite/helpers/base.go | Set |  |
| aealite/protocols/dialogue.go | Dialogue, Dialogues | `DialogueLabel`, `IncompleteDialogueLabel`, `DialogueLabels`, `SelfAddress`, `Role`, `Rules`, `AddTerminalStateCallback` |
| aealite/protocols/dialogue_label.go | Label, LabelJson | `DialogueStarterReference`, `DialogueResponderReference`, `DialogueReference`, `DialogueStarterReference`, `DialogueResponderReference`, `DialogueOpponentAddress`, `DialogueStarterAddress` |
| aealite/protocols/dialogues.go | Dialogue, Dialogues | `newSelfInitiatedDialogueReference`, `IsKeepDialoguesInTerminalStates`, `SelfAddress`, `isMessageBySelf`, `isMessageByOther` |
| aealite/protocols/message.go | Dialogue, Seller, Wrap | `Sender`, `To`, `MessageId`, `DialogueReference`, `Target`, `Performative`, `Body`, `GetField` |
| aealite/protocols/storage.go | Dialogues | `IsTerminalDialoguesKept` |
| aealite/wallet/utils.go | Bootstrap, Crypto, Ecdsa, EthRecover, LiteStart, Multiaddr, NodeMain, Nonce, PeerTables, PubKey, TextCodes, TlsCheck, Wallet | `CosmosAddressFromPublicKey` |
| aealite/wallet/wallet.go | Wallet |  |
| libp2p_node/acn/utils.go | Acn, AcnTable, Bootstrap, Crypto, Ecdsa, EthRecover, Multiaddr, NodeMain, PeerTables, PeerTime, PubKey, Status, TextCodes | `ignore` |
| libp2p_node/aea/api.go | AgentPipe, AgentSend, NodeConfig, Routing, Status | `MailboxUri`, `AeaAddress`, `PrivateKey`, `Address`, `PublicAddress`, `DelegateAddress`, `MonitoringAddress`, `EntryPeers`, `AgentRecord`, `RegistrationDelayInSeconds`, `RecordStoragePath`, `Get`, `Queue`, `Connected`, `AddAcnStatusMessage` |
| libp2p_node/aea/pipe.go | Framing | `Connect`, `Close`, `NewPipe` |
| libp2p_node/aea/utils.go | Acn, AgentPipe, DelegateService, Framing, SessionKey |  |
| libp2p_node/common/common.go | – | `Error`, `Unwrap` |
| libp2p_node/dht/common/handlers.go | AddressStream, PeerHandlers, StreamEnds, Streams, Traffic | `ignore` |
| libp2p_node/dht/dhtclient/dhtclient.go | ClientTime, DhtClient, Multiaddr, NodeMain, PeerIdText, PeerStart, Reconnect, StreamEnds, Streams, Traffic | `ignore`, `Listen`, `ListenClose`, `Connected`, `OpenedStream`, `ClosedStream`, `setupLogger`, `GetLoggers`, `MultiAddr`, `ProcessEnvelope` |
| libp2p_node/dht/dhtclient/options.go | NodeMain | `IdentityFromFetchAIKey`, `BootstrapFrom` |
| libp2p_node/dht/dhtnode/utils.go | DelegateService, Framing, PoR, SessionKey |  |
| libp2p_node/dht/dhtpeer/dhtpeer.go | AcnTable, Announce, DelegateGauge, DelegateService, FileMonitor, LookupChain, LookupTime, MailboxLife, Multiaddr, NodeMain, PairQueues, PeerHandlers, PeerIdText, PeerLocks, PeerStart, PeerTables, PeerTime, PromMonitor, RecordFile, Routing, SessionKey, Shutdown, StartLoad, Status, StreamEnds, Streams, TlsCheck, Traffic | `check`, `ignore`, `closeAgentRecordPersistentStorage`, `setupLogger`, `PeerID`, `GetLoggers`, `SetLogLevel`, `ProcessEnvelope`, `handleAeaAddressStream` |
| libp2p_node/dht/dhtpeer/mailbox.go | MailPoll, Mailbox, MailboxLife, NotifGate, PeerLocks, SessionKey |  |
| libp2p_node/dht/dhtpeer/notifee.go | – | `Listen`, `ListenClose`, `Connected`, `Disconnected`, `OpenedStream`, `ClosedStream` |
| libp2p_node/dht/dhtpeer/options.go | Multiaddr, NodeMain, PeerTables | `IdentityFromFetchAIKey`, `BootstrapFrom`, `EnableDelegateService`, `EnableMailboxService`, `EnableRelayService`, `LoggingLevel`, `EnablePrometheusMonitoring`, `WithRegistrationDelay`, `StoreRecordsTo` |
| libp2p_node/dht/dhtpeer/utils.go | DelegateService, SessionKey, TlsCheck | `Close`, `Addr` |
| libp2p_node/dht/monitoring/file.go | DelegateGauge, FileMonitor, Monitoring |  |
| libp2p_node/dht/monitoring/prometheus.go | PromMonitor |  |
| libp2p_node/dht/monitoring/service.go | Monitoring | `ignore` |
| libp2p_node/libp2p_node.go | AgentPipe, AgentSend, ClientTime, Multiaddr, NodeConfig, NodeMain, PeerTime, Streams | `check` |
| libp2p_node/utils/utils.go | Bootstrap, Crypto, Ecdsa, EnvelopeConn, EthRecover, Framing, Hashes, LiteStart, Multiaddr, NodeMain, Nonce, PeerIdText, PeerTables, PubKey, TextCodes | `SetLoggerLevel`, `ignore`, `newConsoleLogger`, `NewDefaultLogger`, `NewDefaultLoggerWithFields`, `Connect`, `Read`, `Write`, `Close`, `Connect`, `Read`, `Write`, `Close` |
| aea_end2end/main.go | Seller | `main` |

### Axioms per theorem

none (8): `C20_empty_counterexample`, `C43_curve_order`, `C55_status_codes`, `C58_client_refuses`, `C63_label_agrees`, `C67_counterexample`, `C98_empty_counterexample`, `RecordDates.C116_same_proof`.

propext (93): `AgentSend.C72_alone`, `AgentSend.C72_counterexample`, `AgentSend.C72_lost`, `AgentSend.C72_order`, `Bystanders.C129_asked`, `Bystanders.C129_slow`, `C101_peer_counterexample`, `C101_same`, `C102_mailbox_counterexample`, `C134_get`, `C134_put`, `C13_text_unambiguous`, `C15_narrowing_counterexample`, `C20_short_read_counterexample`, `C20_stream_counterexample`, `C20_wire`, `C24_accept_iff`, `C24_first_failure`, `C25_counterexample`, `C27_counterexample`, `C28_session_needed_partial`, `C30_unregister_begin`, `C32_counterexample`, `C32_own_agent_forwards`, `C33_counterexample`, `C33_found_record_proven_partial`, `C34_concurrent_counterexample`, `C34_timeout_counterexample`, `C37_counterexample`, `C40_overflow_counterexample`, `C41_counterexample`, `C43_counterexample`, `C45_counterexample`, `C45_ipv6_counterexample`, `C45_pipes`, `C45_settings`, `C46_crash_counterexample`, `C48_read_error`, `C48_unanswered_counterexample`, `C49_never_panics`, `C51_unwrap_never_crashes`, `C58_client_answer`, `C59_empty_sender_counterexample`, `C61_ledgers`, `C62_counterexample`, `C64_counterexample`, `C64_first_bytes`, `C64_key_text_partial`, `C65_counterexample`, `C65_joining_counterexample`, `C65_rows_start`, `C66_counterexample`, `C67_all_served_partial`, `C67_one_stalls`, `C69_storage`, `C79_crossing_counterexample`, `C80_exclusion_counterexample`, `C80_listen_counterexample`, `C80_listen_failed`, `C80_lookup_counterexample`, `C80_stop_counterexample`, `C81_first_failure`, `C84_page`, `C86_acn_limit_tight`, `C86_envelope_write`, `C86_match`, `C86_proposal`, `C86_response`, `C86_status_codes`, `C88_two_readers`, `C91_keccak_constants`, `C91_ripemd_constants`, `C92_cid`, `C97_redial_counterexample`, `C99_slow_called`, `Deadly.C128_again_partial`, `Deadly.DeadlyDemo.C128_counterexample`, `DelegateGauge.C71_counterexample`, `Descriptor.C110_indices`, `Descriptor.C110_status_codes`, `Descriptor.C111_enums`, `Descriptor.C111_names`, `Documented.C117_no_record_counterexample`, `Documented.C117_registration_counterexample`, `ExchangeDemo.one_sided`, `LookupChain.C115_endless`, `MonitorFile.C74_stop_iff`, `RecordDates.C116_partial`, `StreamEnd.C114_counterexample`, `StreamEnd.C114_delivered_left`, `StreamEnd.C114_envelope_handler`, `Streams.C113_counterexample`, `clientHandleEnvelope_iff`.

Quot.sound, propext (278): `AgentSend.C72_agent_there_partial`, `AgentSend.C72_crash_iff_partial`, `AgentSend.C72_delivered_partial`, `AgentSend.C72_stop_twice`, `Bystanders.C129_handle`, `Bystanders.C129_route`, `Bystanders.C129_run`, `Bystanders.C129_step`, `Bystanders.C129_undisturbed`, `C04_counterexample`, `C04_counterexample_sign`, `C05_counterexample`, `C06_counterexample`, `C06_counterexample_ambiguous`, `C100_get_envelope_counterexample`, `C100_held`, `C101_loop_iff`, `C101_loop_never_iff`, `C101_loop_partial`, `C101_relay_counterexample`, `C101_route_partial`, `C101_route_prompt`, `C101_starts`, `C101_stream_time`, `C101_stuck_counterexample`, `C101_time`, `C102_start_counterexample`, `C103_mailbox_counterexample`, `C104_announced`, `C104_counterexample`, `C104_exclusion`, `C104_reader`, `C104_sections`, `C105_known`, `C106_client_counterexample`, `C106_delegate_silent`, `C106_flood`, `C106_flood_counterexample`, `C106_own`, `C106_same`, `C106_stuck_counterexample`, `C107_early_counterexample`, `C108_each`, `C108_envelopes_partial`, `C108_queues_counterexample`, `C108_queues_partial`, `C108_records_counterexample`, `C109_agent_partial`, `C109_early_counterexample`, `C109_first_counterexample`, `C109_handler_partial`, `C109_stuck_counterexample`, `C10_counterexample`, `C112_counterexample`, `C119_counterexample`, `C122_counterexample`, `C123_counterexample`, `C125_counterexample`, `C12_every_ignored_create_leaves_dialogue`, `C12_failed_create_leaves_dialogue`, `C12_reference_burned`, `C131_lost_counterexample`, `C132_counterexample`, `C132_taken_once`, `C134_delivered`, `C134_hung_up`, `C134_stopping`, `C15_body_roundtrip`, `C18_record_round_trip`, `C19_envelope_round_trip`, `C20_frames_partial`, `C20_lite_write_panics_iff`, `C20_short_read_effect`, `C20_stream_frame`, `C20_stream_result`, `C20_stream_single_frame`, `C21_accepted_iff_partial`, `C21_counterexample`, `C21_refused`, `C21_write_result`, `C21_written`, `C23_counterexample`, `C25_panic_iff_partial`, `C25_short_signature_counterexample`, `C26_sender_is_registered`, `C27_crash_iff`, `C27_record_proven_partial`, `C28_counterexample`, `C28_delivered_counterexample`, `C28_sender_local_partial`, `C29_at_most_once`, `C29_bounded_fifo_partial`, `C29_never_twice`, `C29_refused_iff`, `C29_reregistration_counterexample`, `C29_reregistration_empties`, `C30_isolated`, `C30_opened_proven`, `C30_session_owner`, `C30_unknown_refused`, `C30_unregister`, `C31_handle`, `C31_handle_result`, `C32_route_partial`, `C33_empty_success_iff`, `C34_kth_status`, `C34_own_status_iff`, `C35_discard_iff`, `C35_lost_counterexample`, `C35_race_counterexample`, `C35_retry_counterexample`, `C36_counterexample_handlers`, `C37_never_retried`, `C37_success_provided_partial`, `C38_counterexample`, `C39_attempts_bounded`, `C39_counterexample`, `C39_never_returns`, `C40_combine_in_range`, `C41_get_partial`, `C41_prefix_partial`, `C41_statuses`, `C42_counterexample`, `C42_crash_on_full_queue`, `C42_finishes_iff_partial`, `C42_never_finishes`, `C44_case_only`, `C44_injective`, `C46_closing`, `C46_loop_ends_iff_partial`, `C46_own_envelopes`, `C46_sender`, `C46_statuses`, `C48_crash_counterexample`, `C48_panic_iff_partial`, `C51_no_dialogue_refused`, `C54_acn_unknown_ignored`, `C54_envelope_concat`, `C54_envelope_unknown_ignored`, `C54_extended_registration`, `C54_record_unknown_ignored`, `C56_envelope_passed_on`, `C56_record_passed_on`, `C57_delegate_record`, `C59_counterexample`, `C61_addresses`, `C61_ethereum_signature`, `C61_fetchai_signature`, `C62_port_iff`, `C62_unbalanced_counterexample`, `C63_counterexample`, `C63_failed_opening_counterexample`, `C64_connect_iff_partial`, `C64_honest_peer`, `C64_identity_partial`, `C64_impersonation`, `C64_panic_iff_partial`, `C65_announced_partial`, `C65_own_first`, `C65_pending_partial`, `C65_who_announces`, `C66_no_crash_partial`, `C66_one_notification_partial`, `C66_starvation`, `C67_served_iff`, `C67_time_partial`, `C68_counterexample`, `C68_crash_iff`, `C68_open_connection`, `C68_slow_bound`, `C68_slow_queue`, `C68_slow_sent`, `C68_twice`, `C69_agent`, `C69_client_iff`, `C69_crash_iff`, `C69_entry_peer_crash`, `C69_peer_iff`, `C78_agent_counterexample`, `C78_twice_counterexample`, `C80_no_crash_partial`, `C80_serves`, `C81_client_partial`, `C81_starts_iff`, `C82_lost_counterexample`, `C82_not_saved`, `C82_stale_counterexample`, `C83_client_counterexample`, `C83_own_counterexample`, `C83_relay_counterexample`, `C83_services_partial`, `C84_counterexample`, `C84_create_iff`, `C84_create_names`, `C84_one_peer`, `C84_peer_names`, `C84_same_numbers`, `C84_second_peer`, `C84_start_counterexample`, `C85_missing`, `C85_unknown_ignored`, `C86_acn_write`, `C91_base64_iff`, `C91_base64_roundtrip`, `C91_hash_length`, `C91_nonce`, `C91_prims`, `C91_sha256_constants`, `C91_texts`, `C93_ids`, `C93_multihash_iff`, `C94_counterexample`, `C94_path`, `C94_port_iff`, `C97_put_counterexample`, `C98_envelopes_partial`, `C98_one_iff`, `C98_split_counterexample`, `C99_same_attempt`, `C99_same_result`, `C99_slow_order`, `C99_slow_wait`, `C99_stuck_counterexample`, `C99_unconfirmed_counterexample`, `C99_wait_counterexample`, `Deadly.C128_asked_partial`, `Deadly.C128_envelope_partial`, `Deadly.C128_registration_partial`, `Deadly.C128_request`, `Descriptor.C110_acn`, `Descriptor.C110_base`, `Descriptor.C110_default`, `Descriptor.C110_envelope`, `Descriptor.C110_fipa`, `Descriptor.C110_search`, `DialogueLabel.C14_counterexample`, `Documented.C117_not_ready_counterexample`, `Documented.C117_status_counterexample`, `FileMonitor.C74_counterexample`, `FileMonitor.C74_crash_example`, `FileMonitor.C74_crash_iff`, `FileMonitor.C74_look`, `FileMonitor.C74_peer`, `FileMonitor.C74_report`, `FileMonitor.C74_values_partial`, `LookupChain.C115_answer`, `LookupChain.C115_counterexample`, `LookupChain.C115_ends_partial`, `LookupChain.C115_finds`, `LookupChain.C115_finds_one`, `LookupChain.C115_fresh`, `MonitorFile.C74_one_loop`, `Moved.C118_counterexample`, `Moved.C118_delegate_leaves`, `Moved.C118_mailbox_leaves`, `Moved.C118_old_record`, `PassOnDemo.longer`, `PayloadBlind.C127_queues`, `Reconnect.C73_closed`, `RecordDates.C116_counterexample`, `RecordDates.C116_no_limits`, `RecordDates.C116_own_undated`, `Remembered.C121_departure`, `Remembered.C121_partial`, `Remembered.C121_records_stay`, `RetryError.C70_counterexample`, `Seller.C76_name_counterexample`, `Seller.C76_repeated_counterexample`, `Seller.C77_counterexample`, `StreamEnd.C114_address_handler_partial`, `StreamEnd.C114_asked`, `StreamEnd.C114_client_partial`, `StreamEnd.C114_grows`, `StreamEnd.C114_lookups`, `StreamEnd.C114_peer_send_partial`, `StreamEnd.C114_register_handler_partial`, `TablesDemo.mixed_up`, `WholeNet.C133_counterexample`.

Classical.choice, Quot.sound, propext (407): `C01_recorded_messages_follow_rules`, `C02_refused_call_keeps_histories`, `C03_own_messages_numbered`, `C04_in_order_message_never_accepted`, `C04_numbering_partial`, `C05_create_never_crashes_partial`, `C05_reply_crash_partial`, `C05_update_crash_partial`, `C06_reply_target_partial`, `C06_update_target_partial`, `C07_any_call`, `C07_other_counterparties_untouched`, `C07_other_references_untouched`, `C08_no_second_opening`, `C09_reference_immutable`, `C100_end_partial`, `C100_exclusive`, `C100_outside_partial`, `C100_progress_partial`, `C101_time_own`, `C102_no_race_partial`, `C103_counterexample`, `C103_handed_out`, `C103_place_partial`, `C103_relay`, `C104_short`, `C104_tables_partial`, `C104_writer`, `C105_agree_partial`, `C105_counterexample`, `C105_exact`, `C106_absent`, `C106_provider_counterexample`, `C106_route_partial`, `C106_starts_partial`, `C107_found_partial`, `C107_only`, `C107_unsaved_counterexample`, `C10_index_agrees_partial`, `C10_lookup_by_label`, `C112_mailbox_partial`, `C112_session_partial`, `C119_absent`, `C119_or_session`, `C119_partial`, `C119_unaltered`, `C11_partition`, `C11_terminal_create`, `C11_terminal_create_with`, `C11_terminal_reply`, `C11_terminal_update`, `C120_client`, `C120_handle`, `C120_one_peer`, `C120_retry`, `C120_route`, `C121_counterexample`, `C123_crossing_partial`, `C123_listed_partial`, `C123_next_turn_partial`, `C123_same_history_partial`, `C123_untouched`, `C125_at_most`, `C125_never_again`, `C125_not_at_once`, `C125_taken_again`, `C12_rejected_opening_invisible_partial`, `C131_carried_partial`, `C131_from_client_partial`, `C131_from_peer_partial`, `C131_peer_carried_partial`, `C132_all_given`, `C132_any_network`, `C132_dialogue_partial`, `C132_heard_partial`, `C132_listener`, `C132_recorded`, `C134_arrived`, `C134_example_eleven`, `C134_example_stop`, `C134_in_order`, `C13_text_round_trip`, `C15_ids_on_wire`, `C15_message_survives_mod`, `C15_message_survives_partial`, `C15_packs_iff`, `C16_reply_reaches_dialogue`, `C17_sets_are_mathematical_sets`, `C18_acn_encodes_iff`, `C18_acn_injective`, `C18_acn_round_trip`, `C19_envelope_encodes_iff`, `C22_bad_key_blocks`, `C22_records_survive`, `C22_save_succeeds`, `C23_torn_append_partial`, `C26_own_envelopes_pass`, `C27_answered`, `C27_refusals`, `C27_sender_ignored`, `C29_get_oldest`, `C31_at_most_one`, `C31_closing_drops`, `C31_handle_counterexample`, `C31_queued_iff`, `C31_retry_at_most_one`, `C31_route_partial`, `C31_started_retries`, `C32_sent_iff`, `C32_success_iff`, `C34_sequential_partial`, `C35_order_partial`, `C36_counterexample`, `C36_latest_connection_partial`, `C36_table`, `C38_retry_balance`, `C38_route_balance_partial`, `C39_bootstrap_iff`, `C39_returns_iff_partial`, `C40_backoff_partial`, `C40_exponent_small`, `C40_float`, `C40_jitter_in_range`, `C40_total_wait`, `C40_tries`, `C43_der_unique_partial`, `C43_round_trip_iff_partial`, `C43_strict_der_partial`, `C45_init_iff`, `C45_port_law`, `C45_ports_partial`, `C46_room`, `C48_bad_envelope_answered_partial`, `C48_undecodable_answered_partial`, `C48_unexpected_answered_partial`, `C49_init_iff`, `C50_error_iff`, `C50_which_error`, `C52_default_reply`, `C53_alternating_stuck`, `C53_conversation_iff`, `C53_next_turn_iff`, `C53_same_history`, `C54_acn_concat`, `C54_dialogue_concat`, `C55_client_envelope_agreed`, `C55_envelope_agreed`, `C55_lookup_agreed`, `C55_lookup_refusal_agreed`, `C55_no_crash`, `C55_registration_agreed`, `C55_registration_refusal_agreed`, `C55_registration_reliable`, `C56_acn_passed_on`, `C56_acn_text`, `C56_contained_record_passed_on`, `C56_dialogue_passed_on`, `C57_one_representative`, `C57_tables_proven`, `C58_answer_proven`, `C58_answer_used`, `C58_registered_answered`, `C59_direct_sender_accepted_partial`, `C59_record_of_sender_partial`, `C60_counterexample`, `C60_restart_iff_partial`, `C60_restart_restores`, `C61_checksum`, `C62_agent_ends`, `C62_agent_starts_iff_partial`, `C62_connection_ends`, `C62_no_address`, `C62_signature_accepted_partial`, `C62_started_accepted_partial`, `C62_unbalanced_partial`, `C62_wallet_proves_partial`, `C63_initiator_partial`, `C63_other_opened_partial`, `C65_rows`, `C68_listed_partial`, `C68_no_crash_partial`, `C69_counterexample`, `C69_delay_all`, `C69_delay_partial`, `C69_delay_truncated`, `C72_after_stop`, `C72_one_stop_returns`, `C78_carried`, `C78_closing_counterexample`, `C78_handed_over`, `C78_reported`, `C79_all_arrive`, `C79_crossing`, `C79_crossing_all`, `C79_in_order_partial`, `C80_crash_iff_partial`, `C80_stop`, `C81_counterexample`, `C81_notifies_each`, `C81_peer_partial`, `C82_kept_partial`, `C82_loaded_partial`, `C82_skips`, `C82_start_fails_counterexample`, `C85_injective`, `C85_limit_agrees`, `C85_limit_counterexample`, `C85_limit_iff`, `C85_number`, `C85_number_alternative`, `C85_one_alternative`, `C85_other_type`, `C85_passed_on`, `C85_protocols`, `C85_round_trip`, `C85_unlimited`, `C85_written_iff`, `C86_acn_read`, `C86_acn_unlimited`, `C86_envelope_read`, `C86_message_limited`, `C86_message_read`, `C86_message_write`, `C86_performative`, `C87_label_iff`, `C87_readable_iff`, `C87_unambiguous`, `C88_bytes_roundtrip`, `C88_determined`, `C88_ethereum`, `C88_id_agrees`, `C88_id_iff`, `C88_loose_counterexample`, `C88_other_text_partial`, `C88_parse_iff`, `C88_text_roundtrip`, `C89_der`, `C89_hash_number`, `C89_libp2p`, `C89_libp2p_text_partial`, `C89_malleable`, `C89_private_exists`, `C89_public`, `C89_public_text`, `C89_same_text`, `C89_sign_verify_partial`, `C89_signed`, `C89_text_counterexample`, `C89_verify_iff`, `C90_accepted`, `C90_accepts_iff`, `C90_malleable`, `C90_nonce_counterexample`, `C90_one_id`, `C90_recover_iff`, `C90_signed_partial`, `C91_ethereum_iff`, `C91_fetchai_iff`, `C91_hmac`, `C91_rfc6979`, `C91_sign_partial`, `C92_address_iff`, `C92_checksum`, `C92_text`, `C92_text_iff`, `C92_window`, `C93_base58_iff`, `C93_base58_pair`, `C93_decode_iff`, `C93_hash_text`, `C93_key_text`, `C93_multihash`, `C93_multihash_bytes`, `C93_roundtrip`, `C93_same_text`, `C93_stored`, `C93_text_iff`, `C93_uvarint`, `C94_circuit`, `C94_colon`, `C94_entry_peer`, `C94_join`, `C94_local_iff`, `C94_local_text`, `C94_name_refused`, `C94_printed`, `C94_public`, `C94_round_trip`, `C94_start_hosts`, `C95_connect_iff`, `C95_honest_peer`, `C95_impersonation`, `C95_mailbox`, `C96_keccak256`, `C96_keccak256_iff`, `C96_ripemd160`, `C96_sha256`, `C97_buffered_counterexample`, `C97_connection_partial`, `C97_first_partial`, `C97_five_attempts`, `C97_handed_on`, `C97_hang_up`, `C97_listener`, `C97_no_stop_partial`, `C97_open_partial`, `C97_restart`, `C97_restart_counterexample`, `C97_started`, `C97_stop_partial`, `C98_no_crash`, `C98_written_iff`, `C99_absent`, `C99_absent_attempt`, `C99_attempt_partial`, `C99_lookup_partial`, `C99_never_iff`, `C99_silent_counterexample`, `C99_slow_progress`, `CrossTalk.C122_dead`, `CrossTalk.C122_opener`, `CrossTalk.C122_partial`, `Deadly.C128_client_lookup_partial`, `Deadly.C128_client_routing_partial`, `Deadly.C128_client_sending_partial`, `Deadly.C128_delegate_partial`, `Deadly.C128_handling_partial`, `Deadly.C128_lookup_partial`, `Deadly.C128_registering_partial`, `Deadly.C128_reopening_partial`, `Deadly.C128_routing_partial`, `Deadly.C128_sending_partial`, `Deadly.C128_trying_partial`, `DelegateGauge.C71_clients`, `DelegateGauge.C71_decided`, `DelegateGauge.C71_gauge_iff`, `DelegateGauge.C71_gauge_partial`, `Descriptor.C111_acn`, `Descriptor.C111_base`, `Descriptor.C111_default`, `Descriptor.C111_fipa`, `Descriptor.C111_search`, `DialogueLabel.C14_round_trip_iff`, `DialogueLabel.C14_round_trip_partial`, `DialogueMemory.C124_counterexample`, `DialogueMemory.C124_counterparties_stay`, `DialogueMemory.C124_ended_gone`, `DialogueMemory.C124_references_partial`, `DialogueMemory.C124_references_stay`, `Documented.C117_agent`, `Documented.C117_envelope_partial`, `Documented.C117_envelope_total`, `Documented.C117_lookup_local`, `Documented.C117_lookup_refused`, `Documented.C117_lookup_remote`, `Documented.C117_registration_partial`, `Documented.C117_registration_total`, `FileHistogram.C47_counts`, `FileHistogram.C47_exact`, `LookupChain.C115_distinct`, `LookupChain.C115_iff`, `MailPoll.C126_all_arrive`, `MailPoll.C126_counterexample`, `MailPoll.C126_in_order_partial`, `MailPoll.C126_kept_partial`, `MailPoll.C126_law_partial`, `Moved.C118_forgot_iff`, `Moved.C118_old_found`, `Moved.C118_partial`, `Moved.C118_relay_forever`, `PayloadBlind.C127_client`, `PayloadBlind.C127_handle`, `PayloadBlind.C127_route`, `PayloadBlind.C127_slow`, `Reconnect.C73_outcome`, `RecordDates.C116_envelope`, `RecordDates.C116_registration`, `Remembered.C121_again`, `Remembered.C121_one_client`, `Remembered.C121_restart`, `RetryError.C70_report_partial`, `RetryError.C70_text`, `RetryError.C70_text_crash_iff`, `Seller.C75_counterexample`, `Seller.C75_crash_iff_partial`, `Seller.C76_complete_counterexample`, `Seller.C76_complete_partial`, `Seller.C76_dialogues`, `Seller.C76_sent`, `Seller.C77_deal`, `Seller.C77_unused`, `Streams.C113_all`, `Streams.C113_order_partial`, `Streams.C113_told`, `Streams.C113_unbroken`, `Traffic.C130_bounded`, `Traffic.C130_complete_client`, `Traffic.C130_complete_peer`, `Traffic.C130_nothing_else`, `Traffic.C130_one_way`, `Traffic.C130_rest`, `Traffic.C130_stranger`, `WholeNet.C133_dialogue_partial`, `WholeNet.C133_in_order_partial`, `WholeNet.C133_or_session`, `WholeNet.C133_said_partial`, `WholeNet.C133_silent_partial`.
