import Verif.Props.Mailbox
import Verif.Props.PairQueues
import Verif.Props.LookupTime
import Verif.Props.HandleResults
import Verif.Props.StreamAnswers
import Verif.Props.NodeConfig

/-!
# Concrete cases of theorems about the peer

Evaluations of the model beside the theorems that they are cases of, for theorems whose own files have few.
-/

namespace Verif

open Mailbox MailSpec Proto Acn

set_option maxRecDepth 100000

/-! ## C27, StreamAnswers -/

namespace HandlersDemo

/-- What is sent back on a stream with one message. -/
def answersTo (handler : Envelope → Option (StatusCode × Bytes)) (key m : Bytes) : List Bytes :=
  (handleEnvelopeStream T por key handler ⟨[some m], [true], []⟩).2.sent

/-- `C27_refusals`: a message whose envelope cannot be read, and one whose record is for another key. -/
example : (answersTo (fun _ => none) (b! "pk")
      ((AcnMessage.encode (some (.aeaEnvelope [10] none))).getD [])) =
      [(AcnMessage.encode (some (.status (some ⟨4, [b! "while deserializing acn aea envelope message"]⟩)))).getD []] ∧
    (answersTo (fun _ => none) (b! "kp") forgedMsg).length = 1 ∧
    answersTo (fun _ => none) (b! "kp") forgedMsg ≠ answersTo (fun _ => none) (b! "pk") forgedMsg := by
  decide +kernel

/-- `C27_answered`: success, and a refusal by the handler. -/
example : answersTo (fun _ => none) (b! "pk") forgedMsg =
      [(AcnMessage.encode (some (.status (some ⟨0, []⟩)))).getD []] ∧
    answersTo (fun e => if e.to = b! "bob" then some (.errorAgentNotReady, b! "later") else none) (b! "pk") forgedMsg =
      [(AcnMessage.encode (some (.status (some ⟨StatusCode.errorAgentNotReady.toInt, [b! "later"]⟩)))).getD []] := by
  decide +kernel

end HandlersDemo

/-! ## C31, HandleResults -/

namespace RouteDemo

/-- What `handleAeaEnvelope` reports. -/
def reported (s : PeerState) (n : Net) (to : Bytes) : Res StatusCode Unit := (handleAeaEnvelope s n (env to)).2.2

/-- `C31_handle_result`: the mailbox, the own agent, a client that acknowledges, one that does not, one whose connection
is gone, an agent that is not there yet, and a stranger. -/
example : reported peer net (b! "ag") = .ok () ∧ reported peer net (b! "me") = .ok () ∧
    reported peer net (b! "del") = .ok () ∧
    reported peer { net with ack := .err () } (b! "del") = .err .errorAgentNotReady ∧
    reported peer { net with connOk := false } (b! "del") = .err .errorAgentNotReady ∧
    reported { peer with hasAgent := false } net (b! "me") = .err .errorAgentNotReady ∧
    reported peer net (b! "far") = .err .errorUnknownAgentAddress := by decide +kernel

end RouteDemo

/-! ## C29, C30, Mailbox -/

namespace MailDemo

/-- Unregistration of a session. -/
def leave (id : Bytes) : Step := .unregisterBegin ⟨b! "GET", some id, none⟩
/-- The state after a history. -/
def after (steps : List Step) : Mailbox := (Mailbox.run por (b! "pk") .init steps).2
/-- The events of a history. -/
def seen (steps : List Step) : List Event := events (Mailbox.run por (b! "pk") .init steps).1

/-- Two agents register, three envelopes come, one is handed out, one agent leaves. -/
def busy : List Step :=
  [reg (b! "ag") (b! "s1"), reg (b! "bob") (b! "s2"), .route (env (b! "ag") (b! "x")), .route (env (b! "bob") (b! "x")),
   .route (env (b! "ag") (b! "y")), get (b! "s1"), leave (b! "s2"), .unregisterEnd 0]

/-- `C29_bounded_fifo_partial`: the account of an address and its queue. -/
example : account (b! "ag") (seen busy) = some ⟨[env (b! "ag") (b! "x"), env (b! "ag") (b! "y")],
      [(env (b! "ag") (b! "x")).encode.getD []]⟩ ∧
    (after busy).envelopes.get (b! "ag") = some [env (b! "ag") (b! "y")] ∧
    account (b! "bob") (seen busy) = none ∧ (after busy).envelopes.get (b! "bob") = none := by decide +kernel

/-- `C29_refused_iff`: the envelope number 1001 is refused, and accepted after one is fetched. -/
example :
    let full := reg (b! "ag") (b! "s1") :: List.replicate 1000 (.route (env (b! "ag") (b! "x")))
    (step por (b! "pk") (after full) (.route (env (b! "ag") (b! "y")))).2 = .routed false ∧
    (step por (b! "pk") (after (full ++ [get (b! "s1")])) (.route (env (b! "ag") (b! "y")))).2 = .routed true := by
  decide +kernel

/-- `C29_get_oldest`: the second of two, then nothing. -/
example : (step por (b! "pk") (after busy) (get (b! "s1"))).2 =
      .http (.envelope ((env (b! "ag") (b! "y")).encode.getD [])) ∧
    (step por (b! "pk") (after (busy ++ [get (b! "s1")])) (get (b! "s1"))).2 = .http .ok := by decide +kernel

/-- `C30_session_owner`: a session that was closed and one that is open. -/
example : owner (b! "s1") (seen busy) = some (b! "ag") ∧ owner (b! "s2") (seen busy) = none ∧
    (after busy).sessions.get (b! "s1") = some (b! "ag") ∧ (after busy).sessions.get (b! "s2") = none := by
  decide +kernel

/-- `C30_opened_proven`: with a record for another peer no session is opened. -/
example : shown [.register ⟨b! "POST", none, some (recordOf (b! "ag"))⟩ (b! "s1") true] = [.http (.session (b! "s1"))] ∧
    ((Mailbox.run por (b! "kp") .init [reg (b! "ag") (b! "s1")]).1.map (·.2.2)) = [.http .bad] := by decide +kernel

/-- `C30_unknown_refused`: without a session, with one that was closed. -/
example : sendEnvelope ⟨b! "POST", some (b! "s2"), (env (b! "ag") (b! "bob")).encode⟩ (after busy) = .bad ∧
    (getEnvelope ⟨b! "GET", none, none⟩ true (after busy)).2 = .bad ∧
    sendEnvelope ⟨b! "POST", some (b! "s1"), (env (b! "bob") (b! "ag")).encode⟩ (after busy) =
      .forward (env (b! "bob") (b! "ag")) := by decide +kernel

/-- `C30_isolated`: what the session of `bob` does changes nothing for `ag`. -/
example : (after (busy.take 5)).envelopes.get (b! "ag") =
    (after (busy.take 5 ++ [get (b! "s2"), leave (b! "s2"), .unregisterEnd 0])).envelopes.get (b! "ag") ∧
    (after (busy.take 5)).envelopes.get (b! "bob") ≠
    (after (busy.take 5 ++ [get (b! "s2"), leave (b! "s2"), .unregisterEnd 0])).envelopes.get (b! "bob") := by
  decide +kernel

end MailDemo

/-! ## C35, PairQueues -/

namespace PairDemo

/-- `C35_order_partial`: a receiver that is slow; with one connection nothing is overtaken. -/
example : (PairQueues.run .init (single ++ [.recv 0 (env (b! "3")), .put 0])).accepted =
      [env (b! "1"), env (b! "2"), env (b! "3")] ∧
    (PairQueues.run .init (single ++ [.recv 0 (env (b! "3")), .put 0])).routed = [env (b! "1"), env (b! "2")] := by
  decide +kernel

end PairDemo

/-! ## C99, LookupTime -/

namespace LookupDemo

/-- A provider that is delivered at 300 and knows the address, with the times for opening and answering. -/
def slowPeer (opening answer : Option Nat) : TimedProvider :=
  ⟨⟨b! "prov", some ⟨[AcnMessage.encode (some (.lookupResponse (some (RouteDemo.rec (b! "far")))))], [true], []⟩⟩, 300,
    opening, answer⟩

/-- `C99_lookup_partial`, `C99_same_result`: found in the second round. -/
example : timedLookup HandlersDemo.por some true (b! "far") 1000 3000
      [⟨[], 1100⟩, ⟨[slowPeer (some 50) (some 70)], 2000⟩] = some (1420, .found (b! "pk") (some (RouteDemo.rec (b! "far")))) ∧
    lookupAddressDHT HandlersDemo.por some true (b! "far")
      [⟨[], false⟩, ⟨[(slowPeer (some 50) (some 70)).provider], false⟩] =
      .found (b! "pk") (some (RouteDemo.rec (b! "far"))) := by decide +kernel

/-- `C99_absent`: nobody knows the address: an error at the end of the time. -/
example : timedLookup HandlersDemo.por some true (b! "far") 0 600 (List.replicate 4 ⟨[], 0⟩) = some (600, .error) := by
  decide +kernel

/-- `C99_never_iff`: a provider that does not answer. -/
example : timedLookup HandlersDemo.por some true (b! "far") 0 600
      [⟨[slowPeer (some 50) none, slowPeer (some 1) (some 1)], 2000⟩] = none ∧
    timedLookup HandlersDemo.por some true (b! "far") 0 600
      [⟨[slowPeer (some 1) (some 1), slowPeer (some 50) none], 2000⟩] ≠ none := by
  decide +kernel

/-- The times of a network in which the provider answers. -/
def times (opening : Nat) (status : Option Nat) : NetTimes :=
  ⟨[⟨[slowPeer (some 50) (some 70)], 2000⟩], fun _ => opening, fun _ => status⟩

/-- `C99_attempt_partial`, `C99_same_attempt`, `C99_unconfirmed_counterexample`: delivered after 430 ms, given up
because the stream does not open, and a receiver that never confirms. -/
example : timedAttempt RouteDemo.peer RouteDemo.net (times 5 (some 5)) 0 3000 (RouteDemo.env (b! "far")) =
      some (430, (routeDHTLookup RouteDemo.peer RouteDemo.net (RouteDemo.env (b! "far"))).2) ∧
    timedAttempt RouteDemo.peer RouteDemo.net (times 20000 (some 5)) 0 3000 (RouteDemo.env (b! "far")) =
      some (10420, .err) ∧
    timedAttempt RouteDemo.peer RouteDemo.net (times 5 none) 0 3000 (RouteDemo.env (b! "far")) = none := by
  decide +kernel

end LookupDemo

/-! ## C45, NodeConfig -/

/-- `C45_port_law`: a port, one that is too large, signs and nothing. -/
example : parseUint16 (b! "9000") = 9000 ∧ parseUint16 (b! "70000") = 65535 ∧ parseUint16 (b! "+1") = 0 ∧
    parseUint16 [] = 0 ∧ parseUint16 (b! "99999x") = 65535 ∧ parseUint16 (b! "9x") = 0 := by decide +kernel

end Verif
