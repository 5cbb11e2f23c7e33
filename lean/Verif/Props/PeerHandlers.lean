import Verif.Model.PeerHandlers
import Verif.Props.Acn
import Verif.Props.Messages
import Verif.Props.PoR

/-!
# C26, C27: who may send through a peer
-/

namespace Verif

open Acn

/-! ## Pipes -/

theorem bind_ok {α β : Type} {m : PipeM α} {f : α → PipeM β} {p p' : Pipe} {b : β}
    (h : m.bind f p = (.ok b, p')) : ∃ a p1, m p = (.ok a, p1) ∧ f a p1 = (.ok b, p') := by
  unfold PipeM.bind at h
  generalize m p = g at h
  obtain ⟨r, p1⟩ := g
  cases r with
  | ok a => exact ⟨a, p1, rfl, h⟩
  | err e => simp at h
  | panic => simp at h

theorem bind_eq {α β : Type} {m : PipeM α} {f : α → PipeM β} {p p1 : Pipe} {a : α}
    (h : m p = (.ok a, p1)) : m.bind f p = f a p1 := by
  unfold PipeM.bind
  rw [h]

theorem sendError_fail_not_ok {α : Type} {text : Bytes} {code : StatusCode} {e : AcnErr}
    {p p' : Pipe} {a : α}
    (h : ((PipeM.ignoring (sendError text code)).bind fun _ => (.fail e : PipeM α)) p = (.ok a, p')) :
    False := by
  obtain ⟨_, _, _, h⟩ := bind_ok h
  simp [PipeM.fail] at h

/-- `readEnvelope` returns exactly the envelope message that was read. -/
theorem readEnvelope_ok {T : AcnTexts} {p p' : Pipe} {eb : Bytes} {r : Option AgentRecord} :
    readEnvelope T p = (.ok (eb, r), p') ↔
      ∃ buf rest, p.reads = some buf :: rest ∧ p' = { p with reads := rest } ∧
        AcnMessage.decode buf = some (some (.aeaEnvelope eb r)) := by
  constructor
  · intro h
    rcases hr : p.reads with _ | ⟨_ | buf, rest⟩
    · have := (C48_read_error T p (.inl hr)).2.2.1
      rw [h] at this; simp at this
    · have := (C48_read_error T p (.inr ⟨rest, hr⟩)).2.2.1
      rw [h] at this; simp at this
    · refine ⟨buf, rest, rfl, ?_⟩
      unfold readEnvelope at h
      rw [bind_read hr] at h
      cases hd : AcnMessage.decode buf with
      | none =>
        simp only [decodeAcnMessage, hd] at h
        exact (sendError_fail_not_ok h).elim
      | some m =>
        rcases m with _ | ⟨e, r⟩ | a | r | r | b <;> simp only [decodeAcnMessage, hd] at h
        · exact (sendError_fail_not_ok h).elim
        · simp only [PipeM.pure, Prod.mk.injEq, Res.ok.injEq] at h
          obtain ⟨⟨rfl, rfl⟩, rfl⟩ := h
          exact ⟨rfl, rfl⟩
        · exact (sendError_fail_not_ok h).elim
        · exact (sendError_fail_not_ok h).elim
        · exact (sendError_fail_not_ok h).elim
        · simp [PipeM.fail] at h
  · rintro ⟨buf, rest, hr, rfl, hd⟩
    unfold readEnvelope
    rw [bind_read hr]
    simp only [decodeAcnMessage, hd]
    rfl

/-! ## C27 -/

/-- **C27, partial.** An envelope is taken from another peer exactly if it came in a message
together with a record that is a valid proof of representation, for the record's own address and
the key of that peer. Missing from the property: that the sender of the envelope is the address of
the record. -/
theorem C27_record_proven_partial (T : AcnTexts) (por : PoRCheck) (remoteKey : Bytes) (p : Pipe)
    (env : Envelope) :
    (receiveEnvelopeFromPeer T por remoteKey p).1 = .ok env ↔
      ∃ buf rest eb r, p.reads = some buf :: rest ∧
        AcnMessage.decode buf = some (some (.aeaEnvelope eb (some r))) ∧
        Envelope.decode eb = some env ∧ por r r.address remoteKey = .ok .success := by
  constructor
  · intro h
    have h' : receiveEnvelopeFromPeer T por remoteKey p =
        (.ok env, (receiveEnvelopeFromPeer T por remoteKey p).2) := by rw [← h]
    unfold receiveEnvelopeFromPeer at h'
    obtain ⟨⟨eb, rec⟩, p1, h1, h2⟩ := bind_ok h'
    obtain ⟨buf, rest, hr, _, hd⟩ := readEnvelope_ok.1 h1
    dsimp only at h2
    cases he : Envelope.decode eb with
    | none => rw [he] at h2; exact (sendError_fail_not_ok h2).elim
    | some env' =>
      rw [he] at h2
      cases rec with
      | none => simp [PipeM.crash] at h2
      | some r =>
        dsimp only at h2
        refine ⟨buf, rest, eb, r, hr, hd, ?_, ?_⟩
        · cases hp : por r r.address remoteKey with
          | panic => rw [hp] at h2; simp [PipeM.crash] at h2
          | err e => rw [hp] at h2; simp [PipeM.fail] at h2
          | ok c =>
            rw [hp] at h2
            cases c
            case success =>
              simp only [PipeM.pure, Prod.mk.injEq, Res.ok.injEq] at h2
              rw [he, h2.1]
            all_goals exact (sendError_fail_not_ok h2).elim
        · cases hp : por r r.address remoteKey with
          | panic => rw [hp] at h2; simp [PipeM.crash] at h2
          | err e => rw [hp] at h2; simp [PipeM.fail] at h2
          | ok c =>
            rw [hp] at h2
            cases c
            case success => rfl
            all_goals exact (sendError_fail_not_ok h2).elim
  · rintro ⟨buf, rest, eb, r, hr, hd, he, hp⟩
    unfold receiveEnvelopeFromPeer
    rw [bind_eq (readEnvelope_ok.2 ⟨buf, rest, hr, rfl, hd⟩)]
    simp only [he, hp]
    rfl

/-- What the peer does with a message that carries an envelope and a record: nothing depends on
the sender of the envelope. -/
theorem C27_sender_ignored (T : AcnTexts) (por : PoRCheck) (remoteKey : Bytes) (r : AgentRecord)
    (env : Envelope) (eb buf : Bytes) (hp : por r r.address remoteKey = .ok .success)
    (he : env.encode = some eb)
    (hb : AcnMessage.encode (some (.aeaEnvelope eb (some r))) = some buf) (hl : buf.length < 2 ^ 64)
    (hl' : eb.length < 2 ^ 64) (handler : Envelope → Option (StatusCode × Bytes)) (p : Pipe)
    (rest : List (Option Bytes)) (hr : p.reads = some buf :: rest) :
    (handleEnvelopeStream T por remoteKey handler p).1 = .ok env := by
  have hd := C18_acn_round_trip hb (AcnMessage.codeFits (by simp [Performative.inRange])) hl
  have hE := C19_envelope_round_trip he hl'
  have h1 := (C27_record_proven_partial T por remoteKey p env).2 ⟨buf, rest, eb, r, hr, hd, hE, hp⟩
  unfold handleEnvelopeStream
  have h2 : receiveEnvelopeFromPeer T por remoteKey p =
      (.ok env, (receiveEnvelopeFromPeer T por remoteKey p).2) := by rw [← h1]
  rw [bind_eq h2]
  have key : ∀ (m : PipeM Unit) (p : Pipe), (m p).1 ≠ .panic →
      (((PipeM.ignoring m).bind fun _ => PipeM.pure env) p).1 = .ok env := by
    intro m p hm
    unfold PipeM.bind PipeM.ignoring
    generalize m p = g at *
    obtain ⟨x, p'⟩ := g
    cases x with
    | ok a => rfl
    | err e => rfl
    | panic => simp at hm
  cases handler env with
  | none => exact key _ _ (sendMessage_not_panic _ _)
  | some ct => exact key _ _ (sendMessage_not_panic _ _)

/-- The only envelopes that can crash the stream handler: no record, or a record that crashes the
check (C25). -/
theorem C27_crash_iff (T : AcnTexts) (por : PoRCheck) (remoteKey : Bytes) (p : Pipe) :
    (receiveEnvelopeFromPeer T por remoteKey p).1 = .panic ↔
      ∃ buf rest eb rec env, p.reads = some buf :: rest ∧
        AcnMessage.decode buf = some (some (.aeaEnvelope eb rec)) ∧ Envelope.decode eb = some env ∧
        (rec = none ∨ ∃ r, rec = some r ∧ por r r.address remoteKey = .panic) := by
  constructor
  · intro h
    unfold receiveEnvelopeFromPeer PipeM.bind at h
    have hnp := (C48_panic_iff_partial T p).2.2.1
    generalize hg : readEnvelope T p = g at *
    obtain ⟨x, p1⟩ := g
    cases x with
    | panic => simp at hnp
    | err e => simp at h
    | ok v =>
      obtain ⟨eb, rec⟩ := v
      obtain ⟨buf, rest, hr, _, hd⟩ := readEnvelope_ok.1 hg
      dsimp only at h
      cases he : Envelope.decode eb with
      | none => rw [he] at h; exact absurd h (sendError_not_panic _ _ _ _)
      | some env =>
        refine ⟨buf, rest, eb, rec, env, hr, hd, he, ?_⟩
        rw [he] at h
        cases rec with
        | none => exact .inl rfl
        | some r =>
          refine .inr ⟨r, rfl, ?_⟩
          dsimp only at h
          cases hp : por r r.address remoteKey with
          | panic => rfl
          | err e => rw [hp] at h; simp [PipeM.fail] at h
          | ok c =>
            rw [hp] at h
            cases c
            case success => simp [PipeM.pure] at h
            all_goals exact absurd h (sendError_not_panic _ _ _ _)
  · rintro ⟨buf, rest, eb, rec, env, hr, hd, he, h⟩
    unfold receiveEnvelopeFromPeer
    rw [bind_eq (readEnvelope_ok.2 ⟨buf, rest, hr, rfl, hd⟩)]
    simp only [he]
    rcases h with rfl | ⟨r, rfl, hp⟩
    · rfl
    · simp only [hp]
      rfl

namespace HandlersDemo

/-- The check of the code with the toy primitives of `PoRDemo`. -/
def por : PoRCheck := isValidPoR PoRDemo.addr PoRDemo.verify
/-- Fixed texts. -/
def T : AcnTexts := ⟨fun _ => b! "bad", fun _ => b! "odd"⟩
/-- An envelope with another sender than the address of the record. -/
def forged : Envelope := ⟨b! "bob", b! "eve", b! "p", [], []⟩
/-- Its message. -/
def forgedMsg : Bytes :=
  ((forged.encode.bind fun eb =>
    AcnMessage.encode (some (.aeaEnvelope eb (some PoRDemo.good))))).getD []

end HandlersDemo

set_option maxRecDepth 100000 in
/-- **C27 is false**: with a record valid for its own address `ag`, another peer hands in an
envelope of `eve`. -/
theorem C27_counterexample :
    PoRDemo.good.address = b! "ag" ∧
    (handleEnvelopeStream HandlersDemo.T HandlersDemo.por (b! "pk") (fun _ => none)
      ⟨[some HandlersDemo.forgedMsg], [true], []⟩).1 = .ok ⟨b! "bob", b! "eve", b! "p", [], []⟩ := by
  decide

/-! ## C26 -/

/-- Handling one message takes one message from the pipe. -/
theorem handleFromPipe_reads (T : AcnTexts) (p : Pipe) :
    (handleFromPipe T p).2.reads = p.reads.tail := by
  have hs : ∀ (m : AcnMessage) (p : Pipe), (sendMessage m p).2.reads = p.reads := by
    intro m p
    unfold sendMessage
    cases AcnMessage.encode m with
    | none => rfl
    | some b => exact write_reads b p
  have hf : ∀ (α : Type) (text : Bytes) (code : StatusCode) (e : AcnErr) (p : Pipe),
      (((PipeM.ignoring (sendError text code)).bind fun _ => (.fail e : PipeM α)) p).2.reads =
        p.reads := by
    intro α text code e p
    have := hs (some (.status (some ⟨code.toInt, [text]⟩))) p
    unfold PipeM.bind PipeM.ignoring sendError
    generalize sendMessage (some (.status (some ⟨code.toInt, [text]⟩))) p = g at *
    obtain ⟨x, p'⟩ := g
    cases x <;> exact this
  rcases hr : p.reads with _ | ⟨_ | buf, rest⟩
  · unfold handleFromPipe PipeM.bind Pipe.read
    simp [hr]
  · unfold handleFromPipe PipeM.bind Pipe.read
    simp [hr]
  · unfold handleFromPipe
    rw [bind_read hr]
    cases hd : decodeAcnMessage T buf with
    | error ct => exact hf _ _ _ _ _
    | ok d =>
      rcases d with ⟨e, r⟩ | b
      · dsimp only
        cases Envelope.decode e with
        | none => exact hf _ _ _ _ _
        | some env =>
          have := hs (some (.status (some ⟨StatusCode.success.toInt, []⟩))) { p with reads := rest }
          dsimp only
          unfold PipeM.bind sendSuccess
          generalize sendMessage (some (.status (some ⟨StatusCode.success.toInt, []⟩)))
            { p with reads := rest } = g at *
          obtain ⟨x, p'⟩ := g
          cases x <;> exact this
      · cases b <;> rfl

/-- The fuel of the loop does not matter once it exceeds the number of messages. -/
theorem delegateLoop_fuel (T : AcnTexts) (addr : Bytes) (f : Nat) (p : Pipe)
    (h : p.reads.length < f) : delegateLoop T addr f p = delegateLoop T addr (p.reads.length + 1) p := by
  induction f generalizing p with
  | zero => omega
  | succ f ih =>
    rw [delegateLoop, delegateLoop]
    have hr := handleFromPipe_reads T p
    have hnil : p.reads = [] → (handleFromPipe T p).1 = .err .read := fun h =>
      (C48_read_error T p (.inl h)).2.2.2.1
    generalize hg : handleFromPipe T p = g at *
    obtain ⟨x, p'⟩ := g
    dsimp only at hr
    cases x with
    | panic => rfl
    | err e => rfl
    | ok v =>
      have hne : p.reads ≠ [] := by
        intro h0
        have := hnil h0
        simp at this
      have hl : p'.reads.length + 1 = p.reads.length := by
        rw [hr, List.length_tail]
        have : 0 < p.reads.length := List.length_pos_iff.2 hne
        omega
      cases v with
      | status s =>
        dsimp only
        rw [ih p' (by omega), hl]
      | envelope e =>
        dsimp only
        rw [ih p' (by omega), hl]

/-- What the loop emits. -/
theorem delegateLoop_events (T : AcnTexts) (addr : Bytes) (f : Nat) (p : Pipe) :
    ∀ ev ∈ (delegateLoop T addr f p).1,
      (∃ e, ev = .queued e ∧ e.sender = addr) ∨ (∃ s, ev = .status addr s) ∨
      ev = .unregistered addr := by
  induction f generalizing p with
  | zero => simp [delegateLoop]
  | succ f ih =>
    rw [delegateLoop]
    generalize handleFromPipe T p = g
    obtain ⟨x, p'⟩ := g
    cases x with
    | panic => simp
    | err e => simp
    | ok v =>
      cases v with
      | status s =>
        intro ev hev
        dsimp only at hev
        rcases List.mem_cons.1 hev with rfl | hev
        · exact .inr (.inl ⟨s, rfl⟩)
        · exact ih p' ev hev
      | envelope e =>
        intro ev hev
        dsimp only at hev
        split at hev
        · exact ih p' ev hev
        · rename_i hs
          rcases List.mem_cons.1 hev with rfl | hev
          · exact .inl ⟨e, rfl, by simpa using hs⟩
          · exact ih p' ev hev

/-- A registration is accepted only with a valid proof for this peer. -/
theorem acceptRegistration_ok {T : AcnTexts} {por : PoRCheck} {porText : StatusCode → Bytes}
    {key : Bytes} {p : Pipe} {r : AgentRecord}
    (h : (acceptRegistration T por porText key p).1 = .ok r) :
    por r r.address key = .ok .success := by
  have h' : acceptRegistration T por porText key p =
      (.ok r, (acceptRegistration T por porText key p).2) := by rw [← h]
  unfold acceptRegistration at h'
  obtain ⟨rec, p1, h1, h2⟩ := bind_ok h'
  cases rec with
  | none => simp [PipeM.crash] at h2
  | some r' =>
    dsimp only at h2
    cases hp : por r' r'.address key with
    | panic => rw [hp] at h2; simp [PipeM.crash] at h2
    | err e => rw [hp] at h2; simp [PipeM.fail] at h2
    | ok c =>
      rw [hp] at h2
      cases c
      case success =>
        obtain ⟨_, _, _, h3⟩ := bind_ok h2
        simp only [PipeM.pure, Prod.mk.injEq, Res.ok.injEq] at h3
        rw [← h3.1]; exact hp
      all_goals exact (sendError_fail_not_ok h2).elim

/-- **C26.** Whatever a delegate client sends: nothing happens before a registration with a valid
proof of representation for this peer; after it every envelope passed on has the registered
address as its sender, statuses are only credited to that address, and no other address is
removed. -/
theorem C26_sender_is_registered (T : AcnTexts) (por : PoRCheck) (porText : StatusCode → Bytes)
    (myKey : Bytes) (announce : Bool) (p : Pipe) :
    (delegateConnection T por porText myKey announce p).1 = [] ∨
    ∃ r evs, (delegateConnection T por porText myKey announce p).1 = .registered r :: evs ∧
      por r r.address myKey = .ok .success ∧
      ∀ ev ∈ evs, (∃ e, ev = .queued e ∧ e.sender = r.address) ∨ (∃ s, ev = .status r.address s) ∨
        ev = .unregistered r.address := by
  unfold delegateConnection
  have hok : ∀ r, (acceptRegistration T por porText myKey p).1 = .ok r →
      por r r.address myKey = .ok .success := fun r => acceptRegistration_ok
  generalize acceptRegistration T por porText myKey p = g at *
  obtain ⟨x, p'⟩ := g
  cases x with
  | panic => exact .inl rfl
  | err e => exact .inl rfl
  | ok r =>
    right
    dsimp only
    split
    · exact ⟨r, _, rfl, hok r rfl, delegateLoop_events T r.address _ p'⟩
    · exact ⟨r, [], rfl, hok r rfl, by simp⟩

/-- The envelope in a frame, if there is one. -/
def frameEnvelope (f : Bytes) : Option Envelope :=
  match AcnMessage.decode f with
  | some (some (.aeaEnvelope e _)) => Envelope.decode e
  | _ => none

/-- A frame that holds an envelope, or a status with a body. -/
def GoodFrame (f : Bytes) : Prop :=
  (∃ e r env, AcnMessage.decode f = some (some (.aeaEnvelope e r)) ∧ Envelope.decode e = some env) ∨
  (∃ s, AcnMessage.decode f = some (some (.status (some s))))

/-- The envelopes passed on, in order. -/
def queuedOf : List DelegateEvent → List Envelope
  | [] => []
  | .queued e :: evs => e :: queuedOf evs
  | .registered _ :: evs => queuedOf evs
  | .status _ _ :: evs => queuedOf evs
  | .unregistered _ :: evs => queuedOf evs

theorem delegateLoop_complete (T : AcnTexts) (addr : Bytes) (fs : List Bytes) (f : Nat)
    (tl : List (Option Bytes)) (sent : List Bytes) (n : Nat) (hn : fs.length ≤ n)
    (hf : (fs.map some ++ tl).length < f) (hg : ∀ x ∈ fs, GoodFrame x) (ht : tl = [] ∨ ∃ t, tl = none :: t) :
    queuedOf (delegateLoop T addr f ⟨fs.map some ++ tl, List.replicate n true, sent⟩).1 =
      (fs.filterMap frameEnvelope).filter fun e => e.sender == addr := by
  induction fs generalizing f n sent with
  | nil =>
    obtain ⟨f, rfl⟩ : ∃ f', f = f' + 1 := ⟨f - 1, by simp at hf; omega⟩
    have he := (C48_read_error T ⟨tl, List.replicate n true, sent⟩ ht).2.2.2.1
    rw [delegateLoop]
    simp only [List.map_nil, List.nil_append]
    generalize handleFromPipe T ⟨tl, List.replicate n true, sent⟩ = g at *
    obtain ⟨x, p'⟩ := g
    dsimp only at he
    subst he
    rfl
  | cons x fs ih =>
    obtain ⟨f, rfl⟩ : ∃ f', f = f' + 1 := ⟨f - 1, by simp at hf; omega⟩
    obtain ⟨n, rfl⟩ : ∃ n', n = n' + 1 := ⟨n - 1, by simp at hn; omega⟩
    have hlen : (fs.map some ++ tl).length < f := by
      simp only [List.map_cons, List.cons_append, List.length_cons] at hf; omega
    have hgs : ∀ x ∈ fs, GoodFrame x := fun y hy => hg y (by simp [hy])
    rw [delegateLoop]
    rcases hg x (by simp) with ⟨e, r, env, hd, he⟩ | ⟨s, hd⟩
    · have hm : ∃ m, AcnMessage.encode (some (.status (some ⟨StatusCode.success.toInt, []⟩))) = some m := by
        refine ⟨_, if_pos ?_⟩
        decide
      obtain ⟨m, hm⟩ := hm
      have hh : handleFromPipe T ⟨(x :: fs).map some ++ tl, List.replicate (n + 1) true, sent⟩ =
          (.ok (.envelope env), ⟨fs.map some ++ tl, List.replicate n true, sent ++ [m]⟩) := by
        unfold handleFromPipe
        rw [bind_read (buf := x) (rest := fs.map some ++ tl) rfl]
        simp only [decodeAcnMessage, hd, he]
        unfold sendSuccess sendMessage PipeM.bind
        rw [hm]
        rfl
      rw [hh]
      have hfe : frameEnvelope x = some env := by
        unfold frameEnvelope
        rw [hd]; exact he
      have ih' := ih f (sent ++ [m]) n (by simp at hn; omega) hlen hgs
      rw [List.filterMap_cons_some hfe, List.filter_cons]
      dsimp only
      by_cases hs : env.sender = addr
      · rw [if_neg (by simp [hs]), if_pos (by simp [hs]), queuedOf, ih']
      · rw [if_pos hs, if_neg (by simp [hs]), ih']
    · have hh : handleFromPipe T ⟨(x :: fs).map some ++ tl, List.replicate (n + 1) true, sent⟩ =
          (.ok (.status s), ⟨fs.map some ++ tl, List.replicate (n + 1) true, sent⟩) := by
        unfold handleFromPipe
        rw [bind_read (buf := x) (rest := fs.map some ++ tl) rfl]
        simp only [decodeAcnMessage, hd]
        rfl
      rw [hh]
      have hfe : frameEnvelope x = none := by
        unfold frameEnvelope
        rw [hd]
      have ih' := ih f sent (n + 1) (by simp at hn; omega) hlen hgs
      rw [List.filterMap_cons_none hfe]
      dsimp only
      rw [queuedOf, ih']

/-- **C26.** And nothing is lost: after a valid registration, of any sequence of well-formed frames
exactly the envelopes with the registered sender are passed on, in their order. -/
theorem C26_own_envelopes_pass (T : AcnTexts) (por : PoRCheck) (porText : StatusCode → Bytes)
    (myKey reg : Bytes) (r : AgentRecord) (fs : List Bytes) (n : Nat) (hn : fs.length < n)
    (hreg : AcnMessage.decode reg = some (some (.register (some r))))
    (hp : por r r.address myKey = .ok .success) (hg : ∀ x ∈ fs, GoodFrame x) :
    queuedOf (delegateConnection T por porText myKey true
      ⟨some reg :: fs.map some ++ [none], List.replicate n true, []⟩).1 =
      (fs.filterMap frameEnvelope).filter fun e => e.sender == r.address := by
  obtain ⟨n, rfl⟩ : ∃ n', n = n' + 1 := ⟨n - 1, by omega⟩
  have hm : ∃ m, AcnMessage.encode (some (.status (some ⟨StatusCode.success.toInt, []⟩))) = some m := by
    refine ⟨_, if_pos ?_⟩
    decide
  obtain ⟨m, hm⟩ := hm
  have hh : acceptRegistration T por porText myKey
      ⟨some reg :: fs.map some ++ [none], List.replicate (n + 1) true, []⟩ =
      (.ok r, ⟨fs.map some ++ [none], List.replicate n true, [m]⟩) := by
    unfold acceptRegistration
    have : readRegistration T ⟨some reg :: fs.map some ++ [none], List.replicate (n + 1) true, []⟩ =
        (.ok (some r), ⟨fs.map some ++ [none], List.replicate (n + 1) true, []⟩) := by
      unfold readRegistration
      rw [bind_read (buf := reg) (rest := fs.map some ++ [none]) rfl]
      simp only [hreg]
      rfl
    rw [bind_eq this]
    simp only [hp]
    unfold sendSuccess sendMessage PipeM.bind
    rw [hm]
    rfl
  unfold delegateConnection
  rw [hh]
  simp only [if_true]
  rw [queuedOf]
  exact delegateLoop_complete T r.address fs _ [none] [m] n (by omega) (by omega) hg (.inr ⟨[], rfl⟩)

/-! ## Concrete cases -/

namespace HandlersDemo

/-- registration of `ag` -/
def reg : Bytes := (AcnMessage.encode (some (.register (some PoRDemo.good)))).getD []
/-- a frame with an envelope of the given sender -/
def frameOf (sender : Bytes) : Bytes :=
  (((⟨b! "bob", sender, b! "p", [], []⟩ : Envelope).encode.bind fun eb =>
    AcnMessage.encode (some (.aeaEnvelope eb none)))).getD []

set_option maxRecDepth 100000 in
example : (delegateConnection T por (fun _ => []) (b! "pk") true
    ⟨[some reg, some (frameOf (b! "eve")), some (frameOf (b! "ag"))], [true, true, true], []⟩).1 =
    [.registered PoRDemo.good, .queued ⟨b! "bob", b! "ag", b! "p", [], []⟩, .unregistered (b! "ag")] := by
  decide

set_option maxRecDepth 100000 in
example : (delegateConnection T por (fun _ => []) (b! "other") true
    ⟨[some reg, some (frameOf (b! "ag"))], [true, true, true], []⟩).1 = [] := by decide

end HandlersDemo

end Verif
