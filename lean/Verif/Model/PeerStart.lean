import Verif.Model.NodeMain

/-!
# What `New` does after its checks

libs/go/libp2p_node/dht/dhtpeer/dhtpeer.go:254-428 (`New` of a peer), 616-667 (`Close`), 730-748
(`launchDelegateService`), 769-780, and dht/dhtclient/dhtclient.go:221-295 (`New` of a client), 394-417
(`Close`).

`Verif.Model.NodeMain` has the checks of the settings. From there on `New` is a list of actions, some of which
may fail; we keep which actions were done and whether `Close` was called. Which actions fail is an oracle.
What an action does is in other models; the records are loaded by `Verif.Model.RecordFile`, the announcements
are in `Verif.Model.Announce`. A retry loop is one action.
-/

namespace Verif

/-- Actions of `New`, with their lines in dhtpeer.go (or dhtclient.go). -/
inductive StartAct where
  | host                   -- libp2p.New, 278 (237)
  | dht                    -- kaddht.New, 284 (243)
  | cert                   -- 289
  | connect                -- to the entry peers, 306 (253)
  | bootstrap              -- 314 (260)
  | monitoring             -- 324
  | relayStream            -- registrations of relay clients are served, 327-332
  | notifStream            -- 335
  | notifyOpen (i : Nat)   -- 341
  | notifyWrite (i : Nat)  -- 347
  | fileOpen               -- 466
  | fileLoad               -- 475-505
  | announceStored         -- 367-373
  | enable                 -- 380
  | announceOwn            -- 387
  | addressStream          -- look-ups are served, 400 (284)
  | envelopeStream         -- envelopes are served, 404 (289)
  | delegateListen         -- 407
  | delegateAccept         -- 412
  | mailbox                -- 418
  | monitorStart           -- 424
  | slowLoop               -- 426
  | register               -- at the relay peer (267)
  | watch                  -- reconnect when the relay peer is lost (273)
  deriving DecidableEq, Repr

/-- What `New` does if an action fails. -/
inductive OnFail where
  | gives                  -- returns the error
  | closes                 -- calls `Close` and returns the error
  | panics
  | goesOn
  deriving DecidableEq, Repr

/-- For each action; those that cannot fail are `goesOn`. -/
def StartAct.onFail : StartAct → OnFail
  | .host => .gives
  | .dht => .gives
  | .cert => .gives
  | .connect => .closes
  | .bootstrap => .closes
  | .notifyOpen _ => .closes
  | .notifyWrite _ => .closes
  | .fileOpen => .gives
  | .fileLoad => .gives
  | .announceOwn => .closes
  | .delegateListen => .panics
  | .register => .closes
  | _ => .goesOn

/-- Notification of the entry peers: dhtpeer.go:339-354, for the peers from number `i` on. -/
def notifyActs (i : Nat) : Nat → List StartAct
  | 0 => []
  | n + 1 => .notifyOpen i :: .notifyWrite i :: notifyActs (i + 1) n

/-- `New` of a peer. `announced` tells whether the address of the own agent has been announced already, with
the stored ones or on a notification. -/
def peerActs {η : Type} (s : PeerSettings η) (announced : Bool) : List StartAct :=
  [.host, .dht, .cert] ++
  (if s.entryPeers.length > 0 then [.connect] else []) ++
  [.bootstrap, .monitoring] ++
  (if s.relay then [.relayStream] else []) ++
  [.notifStream] ++
  notifyActs 0 s.entryPeers.length ++
  [.fileOpen, .fileLoad] ++
  (if s.entryPeers.length > 0 then [.announceStored, .enable] else []) ++
  (if s.entryPeers.length > 0 ∧ (s.agent.map (·.address)).getD [] ≠ [] ∧ announced = false
    then [.announceOwn] else []) ++
  [.addressStream, .envelopeStream] ++
  (if s.delegatePort ≠ 0 then [.delegateListen, .delegateAccept] else []) ++
  (if s.mailbox.length ≠ 0 then [.mailbox] else []) ++
  [.monitorStart, .slowLoop]

/-- `New` of a client. -/
def clientActs : List StartAct :=
  [.host, .dht, .connect, .bootstrap, .register, .watch, .addressStream, .envelopeStream]

/-- How `New` ends. -/
inductive StartEnd where
  | started (done : List StartAct)
  | failed (at_ : StartAct) (done : List StartAct) (closed : Bool)
  | crashed (at_ : StartAct)
  deriving DecidableEq, Repr

/-- Carry out the actions. -/
def startExec (fails : StartAct → Bool) (done : List StartAct) : List StartAct → StartEnd
  | [] => .started done
  | a :: as =>
    if fails a then
      match a.onFail with
      | .gives => .failed a done false
      | .closes => .failed a done true
      | .panics => .crashed a
      | .goesOn => startExec fails (done ++ [a]) as
    else startExec fails (done ++ [a]) as

/-- What `Close` closes: dhtpeer.go:649-655, dhtclient.go:409-412. -/
inductive StartRes where
  | host
  | dht
  | file
  deriving DecidableEq, Repr

/-- What an action opens. -/
def StartAct.opens : StartAct → Option StartRes
  | .host => some .host
  | .dht => some .dht
  | .fileOpen => some .file
  | _ => none

/-- What is open after `New`. -/
def StartEnd.isOpen : StartEnd → List StartRes
  | .started done => done.filterMap StartAct.opens
  | .failed _ done false => done.filterMap StartAct.opens
  | .failed _ _ true => []
  | .crashed _ => []

end Verif
