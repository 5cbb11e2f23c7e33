import Verif.Model.Mailbox

/-!
# What clients of the mailbox can observe

The specification works on events read off the requests and responses of a history. It has no
tables: who owns a session and what is pending are computed from the events.
-/

namespace Verif
namespace MailSpec

open Mailbox

/-- The address that a request acts for: that of the session it names. -/
def ownerOf (s : Mailbox) : Option Bytes → Option Bytes
  | none => none
  | some id => s.sessions.get id

/-- Observable events. -/
inductive Event where
  | opened (id addr : Bytes)          -- registration answered with a session id
  | closed (id addr : Bytes)          -- unregistration finished
  | accepted (e : Envelope)           -- an envelope was accepted for its receiver
  | handed (addr data : Bytes)        -- a session of `addr` was given an envelope
  deriving DecidableEq, Repr

/-- The event of a step, from the state before it and what it showed. -/
def eventOf (pre : Mailbox) (st : Step) (o : Out) : List Event :=
  match st, o with
  | .register req _ _, .http (.session id) =>
    match req.body.bind AgentRecord.decode with
    | some r => [.opened id r.address]
    | none => []
  | .unregisterEnd i, .http .ok =>
    match pre.leaving[i]? with
    | some (id, a) => [.closed id a]
    | none => []
  | .get req _, .http (.envelope b) =>
    match ownerOf pre req.session with
    | some a => [.handed a b]
    | none => []
  | .route e, .routed true => [.accepted e]
  | _, _ => []

/-- The events of a history. -/
def events (tr : List (Mailbox × Step × Out)) : List Event :=
  tr.flatMap fun (pre, st, o) => eventOf pre st o

/-- What was accepted for and handed to an address since it last registered; `none` if it is not
registered. -/
structure Account where
  accepted : List Envelope
  handed : List Bytes
  deriving DecidableEq, Repr

/-- Book-keeping for one address. -/
def book (a : Bytes) (acc : Option Account) : Event → Option Account
  | .opened _ a' => if a' = a then some ⟨[], []⟩ else acc
  | .closed _ a' => if a' = a then none else acc
  | .accepted e => if e.to = a then acc.map fun x => { x with accepted := x.accepted ++ [e] } else acc
  | .handed a' d => if a' = a then acc.map fun x => { x with handed := x.handed ++ [d] } else acc

/-- The account of an address after the events. -/
def account (a : Bytes) (evs : List Event) : Option Account := evs.foldl (book a) none

/-- The owner of a session after the events. -/
def owner (id : Bytes) (evs : List Event) : Option Bytes :=
  evs.foldl (fun o ev =>
    match ev with
    | .opened id' a => if id' = id then some a else o
    | .closed id' _ => if id' = id then none else o
    | _ => o) none

end MailSpec
end Verif
