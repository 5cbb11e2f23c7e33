import Verif.Model.Messages

/-!
# Handing envelopes from the network to the agent

`Put`, `Stop` and `envelopeSendLoop`: libs/go/libp2p_node/aea/api.go:136-144, 163-169, 404-430. `Put` is called
for every envelope for the agent that arrives from the network or from another client of the node
(libp2p_node.go:166-169); `Stop` is called by the goroutine that reads from the agent when reading fails
(api.go:375-377).

A state machine of any number of calls of `Put` and `Stop` and of the goroutine of the send loop. Sending to a
closed channel and closing a closed channel panic; a send to a full channel blocks, that is, the step changes
nothing until there is room. How a send ends (`SendEnvelope`, with its time-out) is not part of this machine:
a step `sent` is its return, with or without error. Memory is sequentially consistent.
-/

namespace Verif

/-- Where the goroutine of the send loop is. -/
inductive SendLoop where
  | waiting                          -- at `<-aea.send_queue`
  | sending (e : Envelope)
  | ended
  deriving DecidableEq, Repr

/-- Where a call of `Stop` is. -/
inductive StopCall where
  | start                            -- at `aea.send_queue <- nil`
  | queued                           -- about to set `closing` and to close the pipe
  | flagged                          -- about to close `out_queue`
  | outClosed                        -- about to close `send_queue`
  | done
  deriving DecidableEq, Repr

/-- The state. `accepted` and `sent` are ghosts: the envelopes of the calls of `Put` that returned, and those
given to `SendEnvelope`. -/
structure AgentSend where
  standalone : Bool
  queue : List (Option Envelope)     -- nil is `none`
  loop : SendLoop
  stops : List StopCall
  closing : Bool
  outClosed : Bool
  sendClosed : Bool
  crashed : Bool
  accepted : List Envelope
  sent : List Envelope
  deriving DecidableEq, Repr

namespace AgentSend

/-- After `Connect`: api.go:349-354 -/
def connected : AgentSend := ⟨false, [], .waiting, [], false, false, false, false, [], []⟩

/-- A node without agent: no pipe, no queues, no loops; api.go:335-338. -/
def alone : AgentSend := { connected with standalone := true, loop := .ended }

/-- Steps. -/
inductive Step where
  | put (e : Envelope)               -- `Put`
  | take                             -- the loop takes from the queue
  | sent                             -- `SendEnvelope` returns
  | callStop                         -- somebody calls `Stop`
  | stop (i : Nat)                   -- call `i` of `Stop` goes on
  deriving DecidableEq, Repr

/-- Call `i` of `Stop` goes on to the next line. -/
def moveStop (s : AgentSend) (i : Nat) (pc : StopCall) : List StopCall := s.stops.set i pc

/-- One step. -/
def step (s : AgentSend) (st : Step) : AgentSend :=
  if s.crashed then s
  else match st with
    | .put e =>
      if s.standalone then s
      else if s.sendClosed then { s with crashed := true }
      else if s.queue.length < 100 then
        { s with queue := s.queue ++ [some e], accepted := s.accepted ++ [e] }
      else s
    | .take =>
      match s.loop, s.queue with
      | .waiting, some e :: q => { s with loop := .sending e, queue := q, sent := s.sent ++ [e] }
      | .waiting, none :: q => { s with loop := .ended, queue := q }
      | .waiting, [] => if s.sendClosed then { s with loop := .ended } else s
      | _, _ => s
    | .sent =>
      match s.loop with
      | .sending _ => { s with loop := if s.closing then .ended else .waiting }
      | _ => s
    | .callStop => { s with stops := s.stops ++ [.start] }
    | .stop i =>
      match s.stops[i]? with
      | some .start =>
        if s.standalone then s            -- a nil channel: blocks for ever
        else if s.sendClosed then { s with crashed := true }
        else if s.queue.length < 100 then
          { s with queue := s.queue ++ [none], stops := s.moveStop i .queued }
        else s
      | some .queued => { s with closing := true, stops := s.moveStop i .flagged }
      | some .flagged =>
        if s.outClosed then { s with crashed := true }
        else { s with outClosed := true, stops := s.moveStop i .outClosed }
      | some .outClosed =>
        if s.sendClosed then { s with crashed := true }
        else { s with sendClosed := true, stops := s.moveStop i .done }
      | _ => s

/-- A history. -/
def run (s : AgentSend) (steps : List Step) : AgentSend := steps.foldl step s

end AgentSend

end Verif
