import Verif.Model.Routing

/-!
# How long routing takes, and the slow queue

libs/go/libp2p_node/dht/dhtpeer/dhtpeer.go:75-77, 91-96, 1167-1321 and 1324-1445.

Time is in milliseconds. `none` is a call that never returns. What is outside gives the times: when a provider
is found, how long a stream takes to open and how long the other side takes to answer. The look-up of providers
and the opening of a stream for an envelope get a context with a time-out; the opening of a stream to a provider
gets `context.Background()` (1369-1374), and the streams are read without a deadline (1388, 1299), so that these
take as long as the other side wants.

Simplifications. Local work takes no time. Writing to a stream counts as part of waiting for the answer. The
channel of `FindProvidersAsync` delivers each provider not before the time `arrives` and is closed at `closes`.
-/

namespace Verif

/-- A provider with its times. -/
structure TimedProvider where
  provider : Provider
  /-- when `FindProvidersAsync` delivers it -/
  arrives : Nat
  /-- how long `NewStream` takes, 1370 -/
  opening : Option Nat
  /-- how long `PerformAddressLookup` takes, 1388 -/
  answer : Option Nat
  deriving DecidableEq, Repr

/-- One call of `FindProvidersAsync`. -/
structure TimedRound where
  providers : List TimedProvider
  closes : Nat
  deriving DecidableEq, Repr

/-- The loop over the providers, dhtpeer.go:1355-1420, with the time at which it ends. -/
def timedProviders (por : PoRCheck) (idFrom : Bytes → Option Bytes) (address : Bytes) :
    Nat → Bool → Bytes → List TimedProvider → Option (Nat × ProvidersEnd)
  | now, err, last, [] => some (now, .exhausted err last)
  | now, err, last, p :: rest =>
    match p.opening with
    | none => none
    | some d =>
      match p.provider.stream with
      | none => timedProviders por idFrom address (max now p.arrives + d) true p.provider.id rest
      | some _ =>
        match p.answer with
        | none => none
        | some d' =>
          match lookupProviders por idFrom address err last [p.provider] with
          | .done e => some (max now p.arrives + d + d', .done e)
          | .exhausted err last =>
            timedProviders por idFrom address (max now p.arrives + d + d') err last rest

/-- How long a look-up sleeps when no provider was found: dhtpeer.go:1435 -/
def lookupPause : Nat := 200

/-- The rounds, dhtpeer.go:1353-1442. -/
def timedRounds (por : PoRCheck) (idFrom : Bytes → Option Bytes) (address : Bytes) (deadline : Nat) :
    Nat → Bool → Bytes → List TimedRound → Option (Nat × LookupEnd)
  | now, _, _, [] => some (now, .running)
  | now, err, last, r :: rest =>
    match timedProviders por idFrom address now err last r.providers with
    | none => none
    | some (t, .done e) => some (t, e)
    | some (t, .exhausted err last) =>
      if last = [] then
        if deadline ≤ max t r.closes then some (max t r.closes, .error)
        else timedRounds por idFrom address deadline (max t r.closes + lookupPause) err last rest
      else some (max t r.closes, if err then .error else .found [] none)

/-- dhtpeer.go:91 -/
def addressLookupTimeout : Nat := 20000

/-- dhtpeer.go:92 -/
def fastLookupTimeout : Nat := 3000

/-- dhtpeer.go:94 -/
def envelopeStreamTimeout : Nat := 10000

/-- `lookupAddressDHT` with a context that expires `timeout` after the start: dhtpeer.go:1324-1445. -/
def timedLookup (por : PoRCheck) (idFrom : Bytes → Option Bytes) (cid : Bool) (address : Bytes)
    (start timeout : Nat) (rounds : List TimedRound) : Option (Nat × LookupEnd) :=
  if cid then
    timedRounds por idFrom address (start + min timeout addressLookupTimeout) start false [] rounds
  else some (start, .error)

/-- The times of the network during one attempt. -/
structure NetTimes where
  rounds : List TimedRound
  /-- how long `NewStream` for an envelope would take, 1256 -/
  opening : Bytes → Nat
  /-- how long it takes until the status is read or an error occurs, 1283-1299 -/
  status : Bytes → Option Nat

/-- `_routeEnvelopeWithNewStream`, dhtpeer.go:1235-1321, with the time at which it ends. -/
def timedStream (n : Net) (tn : NetTimes) (start : Nat) (peer : Bytes) (record : Option AgentRecord)
    (e : Envelope) : Option (Nat × RouteEnd) :=
  if envelopeStreamTimeout < tn.opening peer then some (start + envelopeStreamTimeout, .err)
  else
    match n.stream peer with
    | none => some (start + tn.opening peer, .err)
    | some _ =>
      match e.encode with
      | none => some (start + tn.opening peer, .err)
      | some _ =>
        match tn.status peer with
        | none => none
        | some d => some (start + tn.opening peer + d, (routeWithNewStream n peer record e).2)

/-- `_routeEnvelopeDHTLookup`, dhtpeer.go:1210-1233, with the time at which it ends. -/
def timedAttempt (s : PeerState) (n : Net) (tn : NetTimes) (start timeout : Nat) (e : Envelope) :
    Option (Nat × RouteEnd) :=
  match envelopeRecord s e with
  | none => some (start, .err)
  | some record =>
    match timedLookup n.por n.idFrom n.cid e.to start timeout tn.rounds with
    | none => none
    | some (t, .found peer _) => timedStream n tn t peer record e
    | some (t, .error) => some (t, .err)
    | some (t, .crashed) => some (t, .crashed)
    | some (t, .running) => some (t, .waiting)

/-! ## The slow queue

dhtpeer.go:1174 and 1186-1209: a channel for 100 envelopes and one loop that takes them. Calls that find the
channel full wait; Go serves them in their order. `called` and `tried` are ghost records: the calls that have come
to line 1174, and the envelopes that the loop has taken, each in order. -/

/-- The state. -/
structure SlowQueue where
  queue : List Envelope
  /-- envelopes of calls that wait at line 1174 -/
  waiting : List Envelope
  /-- the envelope that the loop is sending, 1200 -/
  holding : Option Envelope
  called : List Envelope
  tried : List Envelope
  deriving DecidableEq, Repr

/-- Steps. -/
inductive SlowStep where
  | call (e : Envelope)   -- a call of `RouteEnvelope` comes to line 1174
  | take                  -- the loop takes an envelope, 1190
  | finish                -- the attempt of the loop ends, 1200
  deriving DecidableEq, Repr

namespace SlowQueue

/-- The queue of a new peer. -/
def init : SlowQueue := ⟨[], [], none, [], []⟩

/-- dhtpeer.go:77 -/
def capacity : Nat := 100

/-- One step; a step that is not possible changes nothing. -/
def step (q : SlowQueue) : SlowStep → SlowQueue
  | .call e =>
    if q.queue.length < capacity then { q with queue := q.queue ++ [e], called := q.called ++ [e] }
    else { q with waiting := q.waiting ++ [e], called := q.called ++ [e] }
  | .take =>
    match q.holding, q.queue with
    | none, e :: rest =>
      match q.waiting with
      | [] => { q with queue := rest, holding := some e, tried := q.tried ++ [e] }
      | w :: ws =>
        { q with queue := rest ++ [w], waiting := ws, holding := some e, tried := q.tried ++ [e] }
    | _, _ => q
  | .finish => { q with holding := none }

/-- A history. -/
def run (q : SlowQueue) (ss : List SlowStep) : SlowQueue := ss.foldl step q

end SlowQueue

/-- When the loop starts with each of the envelopes put into the slow queue. The envelopes are given by the time
at which the call comes to line 1174 and how long the attempt takes; `free` is when the loop is free. -/
def slowStarts : Option Nat → List (Nat × Option Nat) → List (Option Nat)
  | _, [] => []
  | none, _ :: rest => none :: slowStarts none rest
  | some free, (call, d) :: rest =>
    some (max free call) :: slowStarts (d.map (max free call + ·)) rest

end Verif
