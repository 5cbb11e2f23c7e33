import Verif.Model.Messages

/-!
# Look-ups that ask peers which look up

- libs/go/libp2p_node/dht/dhtpeer/dhtpeer.go:1324-1445 (`lookupAddressDHT`): the providers of an address are
  asked one after another, each on a stream on which the peer waits without a limit of time (1369-1389);
- libs/go/libp2p_node/dht/dhtpeer/dhtpeer.go:1533-1612 (`HandleAeaAddressRequest`): a peer that is asked for an
  address it does not have looks it up itself, with a context of its own (1587).

One look-up of one address in a network of peers: a stack of peers that wait for an answer, each with the
providers it has not asked yet. One step is one request or one answer; the network may be another one at each
step. A round of `FindProvidersAsync` without any provider, which is repeated until the time is over, is a
search that finds nobody. The error for a record whose key is no peer id ends a look-up in the code; here the
record counts as invalid. A peer that has the address in a table without a record answers with an error; here it
looks the address up as if it did not have it. What one look-up does with the answers, byte by byte, is in `Verif.Model.Routing`.
-/

namespace Verif

/-- What peers know about one address. Peers are numbered. -/
structure LookupNet where
  /-- the record that a peer answers with, from its tables: dhtpeer.go:1542-1582 -/
  records : Nat → Option AgentRecord
  /-- the check of an answer, dhtpeer.go:1400-1404 -/
  valid : AgentRecord → Bool
  /-- the providers that a peer finds in the DHT, in this order -/
  providers : Nat → List Nat
  /-- `NewStream` to a peer goes well -/
  reaches : Nat → Nat → Bool

/-- What happens at the top of the stack. -/
inductive LookupNow where
  | asked (p : Nat)                      -- a peer has been asked
  | answer (r : Option AgentRecord)      -- an answer has come back, `none` is an error
  deriving DecidableEq, Repr

/-- The state: peers that wait, the latest first, with the providers left to them. -/
structure LookupChain where
  waiting : List (Nat × List Nat)
  now : LookupNow
  deriving DecidableEq, Repr

namespace LookupChain

/-- A peer is asked, and nobody waits but the one who asks. -/
def start (p : Nat) : LookupChain := ⟨[], .asked p⟩

/-- The peer asks the next provider that can be reached: dhtpeer.go:1355-1380. If there is none left the
answer is an error: lines 1421-1443 and 1591-1608. -/
def asks (net : LookupNet) (below : List (Nat × List Nat)) (p : Nat) : List Nat → LookupChain
  | [] => ⟨below, .answer none⟩
  | q :: rest => if net.reaches p q then ⟨(p, rest) :: below, .asked q⟩ else asks net below p rest

/-- One step. The look-up is over when there is an answer and nobody waits. -/
def step (net : LookupNet) (s : LookupChain) : LookupChain :=
  match s.now with
  | .asked p =>
    match net.records p with
    | some r => { s with now := .answer (some r) }
    | none => asks net s.waiting p (net.providers p)
  | .answer o =>
    match s.waiting with
    | [] => s
    | (p, rest) :: below =>
      match o with
      | some r => if net.valid r then ⟨below, .answer (some r)⟩ else asks net below p rest
      | none => asks net below p rest

/-- The look-up is over. -/
def over (s : LookupChain) : Bool :=
  match s.now, s.waiting with
  | .answer _, [] => true
  | _, _ => false

/-- The state after a number of steps; `net n` is the network at step `n`. -/
def run (net : Nat → LookupNet) (s : LookupChain) : Nat → LookupChain
  | 0 => s
  | n + 1 => (run net s n).step (net n)

end LookupChain

end Verif
