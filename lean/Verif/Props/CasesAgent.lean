import Verif.Props.AgentRestart
import Verif.Props.SellerDeal
import Verif.Props.AgentSend
import Verif.Props.Shutdown
import Verif.Props.DelegateService
import Verif.Props.EcdsaText
import Verif.Props.StatusCodes
import Verif.Props.NodeMain

/-!
# Concrete cases of theorems about agents, the end of a peer, and keys

Evaluations of the model beside the theorems that they are cases of, for theorems whose own files have few.
-/

namespace Verif

set_option maxRecDepth 100000

/-! ## C97, AgentLife -/

section
open Life AgentLife

/-- One life: the goroutine of `Start` reads the signature and the answer, that of the connection the rest. -/
example (T : AcnTexts) (rest : Bytes → Envelope) :
    let s := (AgentLife.init (b! "ag")).run T rest
      [.start (some fun f => f == [7]), .arrive 0 [7], .go true, .go true, .arrive 0 exAnswer, .arrive 0 [1], .go true]
    s.results = [.started] ∧ s.conns.map (·.log) = [[(.start, [7]), (.start, exAnswer)]] ∧
      s.conns.map (·.input) = [[[1]]] ∧ s.conns.map (·.clean) = [true] ∧ s.dead = none := by
  simp [run, step, stepAlive, init, goMain, mainRead, Conn.read, AgentLife.take, isOpen, finish, registered_exAnswer,
    List.modify_cons]

/-- `C97_stop_partial`: a `Stop` that returns, one whose close fails, one before any `Start`. -/
example (T : AcnTexts) (rest : Bytes → Envelope) :
    let on := (AgentLife.init (b! "ag")).run T rest
      [.start (some fun f => f == [7]), .arrive 0 [7], .go true, .go true, .arrive 0 exAnswer, .go true]
    (on.run T rest [.stop, .go true, .go true, .go true]).results = [.started, .stopped] ∧
      (on.run T rest [.stop, .go false, .go true, .go true]).dead = some .fatal ∧
      ((AgentLife.init (b! "ag")).run T rest [.stop, .go true, .go true, .go true]).dead = some .panic := by
  simp [run, step, stepAlive, init, goMain, mainRead, Conn.read, AgentLife.take, isOpen, finish, registered_exAnswer,
    List.modify_cons, closeConn, closeChan]

end

/-! ## C75 and C76, Seller -/

namespace Seller
open Shop

/-- `C75_crash_iff_partial`: an `accept` for a dialogue that the agent does not have, and an `accept` in one that it
has. -/
example : outcomes (start (b! "seller")) [env (b! "ann") ref0 1 0 7, env (b! "eve") ref1 2 (-1) 5] =
      [reply (b! "ann"), .crashed] ∧
    outcomes (start (b! "seller")) [env (b! "ann") ref0 1 0 7, env (b! "ann") ref1 2 (-1) 5] =
      [reply (b! "ann"), reply (b! "ann")] := by decide +kernel

/-- `C76_sent`, `C76_dialogues`: after a `cfp` the dialogue has that message and the proposal. -/
example : (handle (fun _ => true) (start (b! "seller")) (env (b! "ann") ref0 1 0 7) (b! "r")).1.heap.map (fun d =>
      (d.label.opponent, d.incoming.map (·.performative), d.outgoing.map fun m => (m.performative, m.target))) =
    [(b! "ann", [b! "cfp"], [(b! "propose", 1)])] := by decide +kernel

/-- `C76_complete_partial`: an `end` without the steps before it is refused. -/
example : outcomes (start (b! "seller")) [env (b! "ann") ref0 1 0 7, env (b! "ann") ref1 2 (-1) 9] ≠
    [reply (b! "ann"), .complete] := by decide +kernel

end Seller

/-! ## C72, AgentSend -/

namespace AgentSend
open AgentSend.Demo

/-- `C72_agent_there_partial`, `C72_delivered_partial`: 100 envelopes wait, the next is refused; all are delivered. -/
example :
    let s := run connected (List.replicate 101 (.put (env (b! "1"))) ++ [.put (env (b! "2"))])
    s.queue.length = 100 ∧ s.accepted.length ≤ 101 ∧ (s.step (.put (env (b! "3")))).accepted = s.accepted ∧
      (run s (drain s.queue.length)).sent = s.accepted := by decide +kernel

end AgentSend

/-! ## C68, Shutdown -/

namespace Shutdown
open ShutdownDemo

/-- `C68_twice`, `C68_open_connection`, `C68_slow_queue`: a second `Close`; a client that is not yet in the table when
the peer is closed and then sends; a look-up that fails after it. -/
example : (init.run (closeAll 0 ++ [.close, .closer 1])).crashed = true ∧
    (init.run ([.accept [1], .register 0, .recv 0 [7], .create 0, .put 0, .accept [2]] ++ closeAll 0 ++
      [.register 1, .recv 1 [7], .put 1])).crashed = true ∧
    (init.run ([.route, .lookupFailed 0] ++ closeAll 0 ++ [.send 0])).crashed = true := by decide +kernel

end Shutdown

/-! ## C67, DelegateService -/

/-- `C67_one_stalls`, `C67_served_iff`: nobody after a client that does not finish its handshake is served. -/
example : acceptLoop 0 [⟨5, some 2, true⟩, ⟨6, none, true⟩, ⟨7, some 1, true⟩] = [.handled 7] := by decide

/-! ## C69, NodeMain -/

namespace NodeMainDemo

/-- `C69_storage`: a path of the user, the default of the agent framework, none. -/
example : storageOf W (b! "/data") (b! "k1") = b! "/data" ∧
    storageOf W [] (b! "k1") = b! "./agent_records_store_Qmk1" := by decide

end NodeMainDemo

/-! ## C89, Ecdsa -/

/-- `C89_public`, `C89_same_text`: keys that differ by the order of the group are the same key. -/
example : publicOf (curveN + 1) = publicOf 1 ∧ publicOf curveN = ⟨0, 0⟩ ∧ publicOf 2 ≠ publicOf 1 := by
  decide +kernel

/-- `C89_signed`, `C89_verify_iff`, `C89_malleable`: a signature. -/
example : ecdsaSign 3 5 77 = some (0xf9308a019258c31049344f85f89d5229b531c845836f99b08601f113bce036f9,
    0x60af19fd616c103a30a8d0cb61a4770d476016aed8d740514af6d5f8baf6d174) := by decide +kernel

/-! ## C86, StatusCodes -/

example : StatusCode.errorAgentNotReady.name = b! "ERROR_AGENT_NOT_READY" ∧
    StatusCode.errorAgentNotReady.toInt ≠ StatusCode.success.toInt := by decide

end Verif
