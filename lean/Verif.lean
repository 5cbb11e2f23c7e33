import Verif.Model.Go
import Verif.Model.Set
import Verif.Model.Label
import Verif.Model.Dialogue
import Verif.Model.Dialogues
import Verif.Lemmas.Set
import Verif.Spec.Dialogue
import Verif.Lemmas.Dialogue
import Verif.Lemmas.DialogueInv
import Verif.Lemmas.Store
import Verif.Lemmas.Frame
import Verif.Lemmas.Mapping
import Verif.Props.Dialogue1
import Verif.Props.Set
import Verif.Props.LabelText
import Verif.Lemmas.Index
import Verif.Lemmas.Openings
import Verif.Props.Dialogue2
import Verif.Props.Dialogue3
import Verif.Lemmas.Accept
import Verif.Props.Numbering
import Verif.Props.TwoParty
import Verif.Model.Proto
import Verif.Lemmas.Proto
import Verif.Model.Messages
import Verif.Lemmas.Messages
import Verif.Model.Wrap
import Verif.Props.Messages
import Verif.Model.Framing
import Verif.Lemmas.Framing
import Verif.Props.Framing
import Verif.Model.RecordFile
import Verif.Props.RecordFile
import Verif.Model.Crypto
import Verif.Model.PoR
import Verif.Props.PoR
import Verif.Model.Wallet
import Verif.Props.Crypto
import Verif.Model.Acn
import Verif.Props.Acn
import Verif.Model.PeerHandlers
import Verif.Props.PeerHandlers
import Verif.Model.Mailbox
import Verif.Spec.Mailbox
import Verif.Props.Mailbox
import Verif.Model.Routing
import Verif.Props.Routing
import Verif.Model.Announce
import Verif.Props.Announce
import Verif.Model.Status
import Verif.Props.Status
import Verif.Model.PairQueues
import Verif.Props.PairQueues
import Verif.Model.Retry
import Verif.Props.Retry
import Verif.Model.LiteClient
import Verif.Props.LiteClient
import Verif.Model.NodeConfig
import Verif.Props.NodeConfig
import Verif.Model.AgentPipe
import Verif.Props.AgentPipe
import Verif.Model.DhtClient
import Verif.Props.DhtClient
import Verif.Model.LabelJson
import Verif.Props.LabelJson
import Verif.Model.Monitoring
import Verif.Props.Monitoring
import Verif.Model.Bootstrap
import Verif.Props.Bootstrap
import Verif.Spec.Conversation
import Verif.Lemmas.FrameAll
import Verif.Lemmas.Talk
import Verif.Props.Conversation
import Verif.Spec.Text
import Verif.Lemmas.Utf8
import Verif.Spec.Texts
import Verif.Lemmas.Texts
import Verif.Lemmas.ProtoConcat
import Verif.Spec.Merge
import Verif.Props.Compat
import Verif.Model.AddressStream
import Verif.Spec.Exchange
import Verif.Props.Exchange
import Verif.Lemmas.Decoded
import Verif.Props.PassOn
import Verif.Model.PeerTables
import Verif.Spec.Tables
import Verif.Lemmas.Tables
import Verif.Props.PeerTables
import Verif.Model.LiteStart
import Verif.Model.TlsCheck
import Verif.Model.NotifGate
import Verif.Spec.Signature
import Verif.Lemmas.Signature
import Verif.Props.Ledger
import Verif.Props.Initiator
import Verif.Props.TlsCheck
import Verif.Props.NotifGate
import Verif.Model.DelegateService
import Verif.Model.Shutdown
import Verif.Model.NodeMain
import Verif.Props.DelegateService
import Verif.Props.Shutdown
import Verif.Props.NodeMain
import Verif.Model.RetryError
import Verif.Model.DelegateGauge
import Verif.Model.AgentSend
import Verif.Model.Reconnect
import Verif.Model.FileMonitor
import Verif.Props.RetryError
import Verif.Props.DelegateGauge
import Verif.Props.AgentSend
import Verif.Props.Reconnect
import Verif.Props.FileMonitor
import Verif.Model.Seller
import Verif.Lemmas.Calm
import Verif.Props.Seller
import Verif.Lemmas.FrameRef
import Verif.Props.References
import Verif.Props.SellerDeal
import Verif.Props.EndToEnd
import Verif.Props.AgentToAgent
import Verif.Props.MailboxLife
import Verif.Props.PeerStart
import Verif.Props.StartLoad
import Verif.Props.PromMonitor
import Verif.Model.Schema
import Verif.Spec.Schema
import Verif.Lemmas.Schema
import Verif.Lemmas.SchemaRead
import Verif.Lemmas.SchemaTyped
import Verif.Model.Definitions
import Verif.Props.Definitions
import Verif.Lemmas.SchemaAgree
import Verif.Props.SchemaAgree
import Verif.Spec.Json
import Verif.Lemmas.JsonString
import Verif.Lemmas.JsonValue
import Verif.Props.JsonLabel
import Verif.Props.ClientDelivery
import Verif.Props.FrameResults
import Verif.Props.LiteExtra
import Verif.Model.PubKey
import Verif.Lemmas.FieldPrime
import Verif.Lemmas.KeyBytes
import Verif.Props.PubKey
import Verif.Model.Ecdsa
import Verif.Lemmas.OrderPrime
import Verif.Lemmas.CurveGroup
import Verif.Props.Ecdsa
import Verif.Props.EcdsaText
import Verif.Model.EthRecover
import Verif.Props.EthRecover
import Verif.Model.Hashes
import Verif.Model.TextCodes
import Verif.Model.Nonce
import Verif.Props.TextCodes
import Verif.Props.GoPrims
import Verif.Props.GoVectors
import Verif.Props.HashConstants
import Verif.Lemmas.Bech32
import Verif.Props.Addresses
import Verif.Model.PeerIdText
import Verif.Lemmas.Base58
import Verif.Props.PeerIdText
import Verif.Model.Multiaddr
import Verif.Props.Multiaddr
import Verif.Props.StartEnds
import Verif.Props.GateRows
import Verif.Props.ShutdownSteps
import Verif.Props.GoFloat
import Verif.Props.StatusCodes
import Verif.Props.StreamAnswers
import Verif.Props.HandleResults
import Verif.Model.SessionKey
import Verif.Props.SessionKey
import Verif.Props.HashNumber
import Verif.Spec.Sha256
import Verif.Spec.Ripemd
import Verif.Spec.Keccak
import Verif.Lemmas.HashWords
import Verif.Props.Sha256
import Verif.Props.Ripemd
import Verif.Props.Keccak
import Verif.Model.AgentLife
import Verif.Props.AgentLife
import Verif.Props.AgentRestart
import Verif.Model.EnvelopeConn
import Verif.Props.EnvelopeConn
import Verif.Model.LookupTime
import Verif.Props.LookupTime
import Verif.Props.SlowQueue
import Verif.Model.PeerLocks
import Verif.Props.PeerLocks
import Verif.Model.ClientTime
import Verif.Props.ClientTime
import Verif.Props.MapRaces
import Verif.Props.AgentLifeRules
import Verif.Props.AgentSendStop
import Verif.Props.AddrRules
import Verif.Props.NonceRules
import Verif.Props.Stranger
import Verif.Props.LockTime
import Verif.Props.RegRace
import Verif.Props.ClientClock
import Verif.Model.PeerTime
import Verif.Props.PeerTime
import Verif.Props.RegAck
import Verif.Props.QueueGrowth
import Verif.Model.AcnTable
import Verif.Props.AcnTable
import Verif.Model.RawDesc
import Verif.Model.Descriptor
import Verif.Props.Descriptor
import Verif.Model.PyDesc
import Verif.Props.PyDescriptor
import Verif.Props.MailSessions
import Verif.Model.Streams
import Verif.Props.Streams
import Verif.Model.StreamEnds
import Verif.Props.StreamEnds
import Verif.Model.LookupChain
import Verif.Props.LookupChain
import Verif.Props.RecordDates
import Verif.Props.Documented
import Verif.Props.LookupAnswer
import Verif.Props.Moved
import Verif.Props.Crossing
import Verif.Props.Authentic
import Verif.Props.Disclosed
import Verif.Props.Remembered
import Verif.Lemmas.CrossTalk
import Verif.Lemmas.CrossRoute
import Verif.Lemmas.CrossInv
import Verif.Spec.CrossTalk
import Verif.Props.CrossTalk
import Verif.Props.ManyDialogues
import Verif.Spec.DialogueMemory
import Verif.Lemmas.DialogueMemory
import Verif.Props.DialogueMemory
import Verif.Props.CasesPeer
import Verif.Props.CasesAgent
import Verif.Props.MailAccount
import Verif.Props.Replay
import Verif.Model.MailPoll
import Verif.Props.MailPoll
import Verif.Props.PayloadBlind
import Verif.Props.Deadly
import Verif.Props.Bystanders
import Verif.Model.Traffic
import Verif.Props.Traffic
import Verif.Props.DeadlyRoute
import Verif.Props.FarEnd
import Verif.Props.Heard
import Verif.Props.WholeNet
import Verif.Props.Numbers
import Verif.Props.AgentTakes
