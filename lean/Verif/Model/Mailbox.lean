import Verif.Model.PeerHandlers

/-!
# The mailbox service

libs/go/libp2p_node/dht/dhtpeer/mailbox.go.

One step is one critical section of `mailboxServer.lock`; HTTP requests run concurrently, so a
history is any sequence of steps. `apiUnregister` has two critical sections (lines 105-107 and
116-120) and hence two steps. A request is its method, the first `Session-Id` header (net/http never
gives an empty header list) and the body, `none` if reading it failed.
A panic inside a handler is caught by net/http; the request is then aborted.
-/

namespace Verif

/-- An HTTP request. -/
structure HttpReq where
  method : Bytes
  session : Option Bytes
  body : Option Bytes
  deriving DecidableEq, Repr

/-- The tables: mailbox.go:240-251. `leaving` holds the requests between the two critical
sections of `apiUnregister`. -/
structure Mailbox where
  sessions : GoMap Bytes Bytes
  records : GoMap Bytes AgentRecord
  envelopes : GoMap Bytes (List Envelope)
  leaving : List (Bytes × Bytes)

namespace Mailbox

/-- `start`: mailbox.go:256-258 -/
def init : Mailbox := ⟨.empty, .empty, .empty, []⟩

/-- `envelopesLimit`: mailbox.go:260 -/
def limit : Nat := 1000

/-- Responses. A handler that returns without writing anything is answered by net/http with status
200 and no body, like `ok`. `aborted` is a handler that panicked or could not write its response. -/
inductive Resp where
  | bad                       -- 400
  | ok                        -- 200, no body
  | session (id : Bytes)      -- 200 with the session id
  | envelope (b : Bytes)      -- 200 with an envelope
  | forward (e : Envelope)    -- the envelope is given to `RouteEnvelope` of the peer
  | aborted
  | pending                   -- no response yet
  deriving DecidableEq, Repr

/-- The address of a session header. -/
def sessionAddr (s : Mailbox) (session : Option Bytes) : Option Bytes :=
  session.bind s.sessions.get

/-- `apiRegister`: mailbox.go:18-85. `uuid` is the fresh identifier, `announce` tells whether the
announcement (if it is enabled) went well. -/
def register (por : PoRCheck) (myKey : Bytes) (req : HttpReq) (uuid : Bytes) (announce : Bool)
    (s : Mailbox) : Mailbox × Resp :=
  if req.method ≠ b! "POST" then (s, .bad)
  else match req.body with
    | none => (s, .bad)
    | some [] => (s, .bad)
    | some body =>
      match AgentRecord.decode body with
      | none => (s, .bad)
      | some r =>
        match por r r.address myKey with
        | .panic => (s, .aborted)
        | .err _ => (s, .bad)
        | .ok .success =>
          if announce then
            ({ s with
                records := s.records.set r.address r
                sessions := s.sessions.set uuid r.address
                envelopes := s.envelopes.set r.address [] }, .session uuid)
          else (s, .bad)
        | .ok _ => (s, .bad)

/-- `apiUnregister`, first critical section: mailbox.go:87-114 -/
def unregisterBegin (req : HttpReq) (s : Mailbox) : Mailbox × Resp :=
  if req.method ≠ b! "GET" then (s, .bad)
  else match req.session with
    | none => (s, .bad)
    | some id =>
      match s.sessions.get id with
      | none => (s, .bad)
      | some addr => ({ s with leaving := s.leaving ++ [(id, addr)] }, .pending)

/-- `apiUnregister`, second critical section: mailbox.go:116-120, for the `i`-th waiting request. -/
def unregisterEnd (i : Nat) (s : Mailbox) : Mailbox × Resp :=
  match s.leaving[i]? with
  | none => (s, .pending)
  | some (id, addr) =>
    ({ s with
        records := s.records.erase addr
        sessions := s.sessions.erase id
        envelopes := s.envelopes.erase addr
        leaving := s.leaving.eraseIdx i }, .ok)

/-- `apiSendEnvelope`: mailbox.go:137-190, up to the call of `RouteEnvelope`. -/
def sendEnvelope (req : HttpReq) (s : Mailbox) : Resp :=
  if req.method ≠ b! "POST" then .bad
  else match s.sessionAddr req.session with
    | none => .bad
    | some _ =>
      match req.body with
      | none => .bad
      | some [] => .bad
      | some body =>
        match Envelope.decode body with
        | none => .bad
        | some e => .forward e

/-- `apiGetEnvelope`: mailbox.go:192-238. `written` tells whether `Write` of the response returned
nil; this does not mean that it arrives, see `Verif.Model.MailPoll`. A missing list reads as an empty
one. -/
def getEnvelope (req : HttpReq) (written : Bool) (s : Mailbox) : Mailbox × Resp :=
  if req.method ≠ b! "GET" then (s, .bad)
  else match s.sessionAddr req.session with
    | none => (s, .bad)
    | some addr =>
      match (s.envelopes.get addr).getD [] with
      | [] => (s, .ok)
      | e :: rest =>
        match e.encode with
        | none => (s, .ok)
        | some b =>
          if written then ({ s with envelopes := s.envelopes.set addr rest }, .envelope b)
          else (s, .aborted)

/-- `RouteEnvelope`: mailbox.go:299-323 -/
def route (e : Envelope) (s : Mailbox) : Mailbox × Bool :=
  match s.envelopes.get e.to with
  | none => (s, false)
  | some l =>
    if limit ≤ l.length then (s, false)
    else ({ s with envelopes := s.envelopes.set e.to (l ++ [e]) }, true)

/-- `IsAddrRegistered`: mailbox.go:325-330 -/
def isRegistered (s : Mailbox) (addr : Bytes) : Bool := s.envelopes.has addr

/-- `GetAgentRecord`: mailbox.go:332-339 -/
def getRecord (s : Mailbox) (addr : Bytes) : Option AgentRecord :=
  if s.isRegistered addr then s.records.get addr else none

/-- The steps of the service. -/
inductive Step where
  | register (req : HttpReq) (uuid : Bytes) (announce : Bool)
  | unregisterBegin (req : HttpReq)
  | unregisterEnd (i : Nat)
  | send (req : HttpReq)
  | get (req : HttpReq) (written : Bool)
  | route (e : Envelope)
  deriving DecidableEq, Repr

/-- What a step shows to the outside. -/
inductive Out where
  | http (r : Resp)
  | routed (accepted : Bool)
  deriving DecidableEq, Repr

/-- One step. -/
def step (por : PoRCheck) (myKey : Bytes) (s : Mailbox) : Step → Mailbox × Out
  | .register req uuid announce =>
    let (s', r) := register por myKey req uuid announce s
    (s', .http r)
  | .unregisterBegin req => let (s', r) := unregisterBegin req s; (s', .http r)
  | .unregisterEnd i => let (s', r) := unregisterEnd i s; (s', .http r)
  | .send req => (s, .http (sendEnvelope req s))
  | .get req written => let (s', r) := getEnvelope req written s; (s', .http r)
  | .route e => let (s', r) := route e s; (s', .routed r)

/-- A history: every step with the state before it and what it showed. -/
def run (por : PoRCheck) (myKey : Bytes) : Mailbox → List Step → List (Mailbox × Step × Out) × Mailbox
  | s, [] => ([], s)
  | s, st :: rest =>
    let (s', o) := step por myKey s st
    let (tr, sf) := run por myKey s' rest
    ((s, st, o) :: tr, sf)

end Mailbox

end Verif
