import Verif.Props.EndToEnd
import Verif.Props.PairQueues
import Verif.Props.LiteClient

/-!
# C79: from agent to agent

The way of envelopes from one delegate client over its peer, and over another peer if need be, to
another delegate client: the parts proved in C26, C35, C31, C78 and C41 put together.
-/

namespace Verif

open Acn

/-! ## The connection of the sender -/

theorem handleFromPipe_envelope {T : AcnTexts} {p p' : Pipe} {e : Envelope}
    (h : handleFromPipe T p = (.ok (.envelope e), p')) :
    ∃ f rest, p.reads = some f :: rest ∧ frameEnvelope f = some e := by
  rcases hr : p.reads with _ | ⟨_ | f, rest⟩
  · have := (C48_read_error T p (.inl hr)).2.2.2.1
    rw [h] at this; simp at this
  · have := (C48_read_error T p (.inr ⟨rest, hr⟩)).2.2.2.1
    rw [h] at this; simp at this
  · refine ⟨f, rest, rfl, ?_⟩
    unfold handleFromPipe at h
    rw [bind_read hr] at h
    unfold frameEnvelope
    cases hd : decodeAcnMessage T f with
    | error ct =>
      rw [hd] at h
      exact (sendError_fail_not_ok h).elim
    | ok d =>
      rw [hd] at h
      have hdec : AcnMessage.decode f = some (some (match d with
          | .aeaEnvelope e r => .aeaEnvelope e r
          | .status b => .status b)) := by
        unfold decodeAcnMessage at hd
        cases hm : AcnMessage.decode f with
        | none => rw [hm] at hd; simp at hd
        | some m =>
          rw [hm] at hd
          rcases m with _ | ⟨e, r⟩ | a | r | r | b <;> simp at hd <;> subst hd <;> rfl
      rw [hdec]
      rcases d with ⟨eb, r⟩ | b
      · dsimp only at h ⊢
        cases hde : Envelope.decode eb with
        | none => rw [hde] at h; exact (sendError_fail_not_ok h).elim
        | some env =>
          rw [hde] at h
          obtain ⟨_, _, _, h3⟩ := bind_ok h
          simp only [PipeM.pure, Prod.mk.injEq, Res.ok.injEq, Handled.envelope.injEq] at h3
          rw [h3.1]
      · cases b <;> simp [PipeM.crash, PipeM.pure] at h

theorem delegateLoop_sublist (T : AcnTexts) (addr : Bytes) (f : Nat) (p : Pipe) :
    (queuedOf (delegateLoop T addr f p).1).Sublist ((p.reads.filterMap id).filterMap frameEnvelope) := by
  induction f generalizing p with
  | zero => simp [delegateLoop, queuedOf]
  | succ f ih =>
    rw [delegateLoop]
    have hr := handleFromPipe_reads T p
    generalize hg : handleFromPipe T p = g at *
    obtain ⟨x, p'⟩ := g
    dsimp only at hr
    have htail : ((p'.reads.filterMap id).filterMap frameEnvelope).Sublist
        ((p.reads.filterMap id).filterMap frameEnvelope) := by
      rw [hr]
      exact ((List.tail_sublist _).filterMap _).filterMap _
    cases x with
    | panic => simp [queuedOf]
    | err e => simp [queuedOf]
    | ok v =>
      cases v with
      | status s =>
        dsimp only
        rw [queuedOf]
        exact (ih p').trans htail
      | envelope e =>
        dsimp only
        split
        · exact (ih p').trans htail
        · obtain ⟨fr, rest, hreads, hfe⟩ := handleFromPipe_envelope hg
          have hp' : p'.reads = rest := by rw [hr, hreads]; rfl
          rw [queuedOf, hreads]
          simp only [List.filterMap_cons, id, hfe]
          have := ih p'
          rw [hp'] at this
          exact this.cons_cons e

theorem readRegistration_ok {T : AcnTexts} {p p' : Pipe} {r : Option AgentRecord}
    (h : readRegistration T p = (.ok r, p')) :
    ∃ buf rest, p.reads = some buf :: rest ∧ p'.reads = rest ∧
      AcnMessage.decode buf = some (some (.register r)) := by
  rcases hr : p.reads with _ | ⟨_ | buf, rest⟩
  · have := (C48_read_error T p (.inl hr)).1
    rw [h] at this; simp at this
  · have := (C48_read_error T p (.inr ⟨rest, hr⟩)).1
    rw [h] at this; simp at this
  · refine ⟨buf, rest, rfl, ?_⟩
    unfold readRegistration at h
    rw [bind_read hr] at h
    cases hd : AcnMessage.decode buf with
    | none =>
      simp only [hd] at h
      exact (sendError_fail_not_ok h).elim
    | some m =>
      rcases m with _ | ⟨e, r⟩ | a | r | r | b <;> simp only [hd] at h
      case some.register =>
        simp only [PipeM.pure, Prod.mk.injEq, Res.ok.injEq] at h
        obtain ⟨rfl, rfl⟩ := h
        exact ⟨rfl, rfl⟩
      all_goals exact (sendError_fail_not_ok h).elim

theorem acceptRegistration_reads (T : AcnTexts) (por : PoRCheck) (txt : StatusCode → Bytes) (key : Bytes)
    (p : Pipe) {r : AgentRecord} {p' : Pipe} (h : acceptRegistration T por txt key p = (.ok r, p')) :
    ∃ f rest, p.reads = some f :: rest ∧ p'.reads = rest ∧ frameEnvelope f = none := by
  unfold acceptRegistration at h
  obtain ⟨rec, p1, h1, h2⟩ := bind_ok h
  obtain ⟨f, rest, hr, hp1, hd⟩ := readRegistration_ok h1
  cases rec with
  | none => simp [PipeM.crash] at h2
  | some r' =>
    dsimp only at h2
    cases hp : por r' r'.address key with
    | panic => rw [hp] at h2; simp [PipeM.crash] at h2
    | err e => rw [hp] at h2; simp [PipeM.fail] at h2
    | ok c =>
      rw [hp] at h2
      cases c
      case success =>
        obtain ⟨_, p2, h4, h3⟩ := bind_ok h2
        have h5 := sendMessage_reads (some (.status (some ⟨StatusCode.success.toInt, []⟩))) p1
        rw [show sendMessage (some (.status (some ⟨StatusCode.success.toInt, []⟩))) p1 = _ from h4] at h5
        simp only [PipeM.pure, Prod.mk.injEq] at h3
        refine ⟨f, rest, hr, ?_, ?_⟩
        · rw [← h3.2, h5, hp1]
        · unfold frameEnvelope; rw [hd]
      all_goals exact (sendError_fail_not_ok h2).elim

/-- Whatever arrives on the connection of a delegate client, the envelopes queued are ones that
arrived, in their order. -/
theorem delegateConnection_sublist (T : AcnTexts) (por : PoRCheck) (txt : StatusCode → Bytes) (key : Bytes)
    (announce : Bool) (p : Pipe) :
    (queuedOf (delegateConnection T por txt key announce p).1).Sublist
      ((p.reads.filterMap id).filterMap frameEnvelope) := by
  unfold delegateConnection
  generalize hg : acceptRegistration T por txt key p = g
  obtain ⟨x, p'⟩ := g
  cases x with
  | panic => simp [queuedOf]
  | err e => simp [queuedOf]
  | ok r =>
    obtain ⟨f, rest, hr, hp', hf⟩ := acceptRegistration_reads T por txt key p hg
    cases announce with
    | false => simp [queuedOf]
    | true =>
      simp only [if_true, queuedOf]
      have := delegateLoop_sublist T r.address (p'.reads.length + 1) p'
      rw [hp'] at this
      rw [hr, hp']
      simpa [List.filterMap_cons, hf] using this

/-! ## The queues of the sender's peer -/

/-- The envelopes that handlers take from their connections. -/
def takenFrom (steps : List PairQueues.Step) : List Envelope :=
  steps.filterMap fun
    | .recv _ e => some e
    | _ => none

theorem received_sublist (steps : List PairQueues.Step) (s : PairQueues) :
    ((s.run steps).received).Sublist (s.received ++ takenFrom steps) := by
  induction steps generalizing s with
  | nil => simp [PairQueues.run, takenFrom]
  | cons st steps ih =>
    have h1 := ih (s.step st)
    have h2 : ((s.step st).received).Sublist (s.received ++ takenFrom [st]) := by
      cases st <;> simp only [PairQueues.step] <;> (try split) <;> (try split) <;> (try split) <;>
        simp [takenFrom]
    have h3 : takenFrom (st :: steps) = takenFrom [st] ++ takenFrom steps := by
      unfold takenFrom
      rw [← List.filterMap_append]; rfl
    rw [h3, ← List.append_assoc]
    exact h1.trans (h2.append_right _)

/-! ## The receiver's peer -/

/-- A call at the peer of the receiver: of `RouteEnvelope` or of `HandleAeaEnvelope`. -/
structure DeliveryCall where
  fromNetwork : Bool
  state : PeerState
  net : Net
  envelope : Envelope

/-- What the call does. -/
def DeliveryCall.acts (k : DeliveryCall) : List Act :=
  if k.fromNetwork then (handleAeaEnvelope k.state k.net k.envelope).2.1
  else (routeEnvelope k.state k.net k.envelope).2.1

/-- The frames written to a connection. -/
def framesTo (c : Nat) (acts : List Act) : List Bytes :=
  acts.filterMap fun
    | .conn c' d => if c' = c then some d else none
    | _ => none

theorem framesTo_deliveries (c : Nat) (acts : List Act) : framesTo c acts = framesTo c (deliveries acts) := by
  induction acts with
  | nil => rfl
  | cons a acts ih =>
    unfold framesTo deliveries at *
    cases a <;> simp [List.filter_cons, Act.isDelivery, List.filterMap_cons, ih]

/-- A call writes at most one frame to a connection, and that is the envelope. -/
theorem DeliveryCall.frames (k : DeliveryCall) (c : Nat) :
    framesTo c k.acts = [] ∨ ∃ d, peerMessage k.envelope none = some d ∧ framesTo c k.acts = [d] := by
  have hone : ∀ (x : Nat) (o : Option Bytes),
      framesTo c ((o.map fun d => Act.conn x d).toList) = [] ∨
        ∃ d, o = some d ∧ framesTo c ((o.map fun d => Act.conn x d).toList) = [d] := by
    intro x o
    cases o with
    | none => exact .inl rfl
    | some d =>
      by_cases hx : x = c
      · exact .inr ⟨d, rfl, by simp [framesTo, hx]⟩
      · exact .inl (by simp [framesTo, hx])
  have hnone : ∀ l : List Act, (∀ a ∈ l, ∀ x d, a ≠ .conn x d) → framesTo c l = [] := by
    intro l hl
    unfold framesTo
    rw [List.filterMap_eq_nil_iff]
    intro a ha
    cases a <;> first | rfl | exact absurd rfl (hl _ ha _ _)
  rw [framesTo_deliveries]
  unfold DeliveryCall.acts
  cases k.fromNetwork with
  | true =>
    simp only [if_true]
    obtain ⟨h1, h2, h3⟩ := C31_handle k.state k.net k.envelope
    by_cases ha : Accepts k.state k.envelope
    · rw [h1 ha]; exact .inl rfl
    · cases ht : k.state.tcpAddresses.get k.envelope.to with
      | some x => rw [h2 ha x ht]; exact hone x _
      | none =>
        rw [h3 ha ht]
        left
        split <;> rfl
  | false =>
    simp only [Bool.false_eq_true, if_false]
    obtain ⟨h1, h2⟩ := C31_route_partial k.state k.net k.envelope
    by_cases hs : SenderLocal k.state k.envelope
    · have h := h2 hs
      have hov : ∀ peer acts, OverStream k.state k.net k.envelope peer acts → framesTo c (deliveries acts) = [] := by
        intro peer acts ho
        apply hnone
        intro a ha x d hx
        obtain ⟨_, _, _, _, h'⟩ := ho.only a ha
        rw [hx] at h'; simp at h'
      split at h
      · rw [h]; exact .inl rfl
      · rw [h]; left; split <;> rfl
      · rw [h]; exact hone _ _
      · split at h
        · rw [h]; exact .inl rfl
        · exact .inl (hov _ _ h)
      · split at h
        · exact .inl (hov _ _ h)
        · rw [h]; exact .inl rfl
    · rw [h1 hs]; exact .inl rfl

/-- What the peer of the receiver writes to its connection: answers, and what calls write. -/
inductive Output where
  | answer (f : Bytes)
  | call (k : DeliveryCall)

/-- The frames of an output. -/
def Output.frames (c : Nat) : Output → List Bytes
  | .answer f => [f]
  | .call k => framesTo c k.acts

/-- The call of an output. -/
def Output.call? : Output → Option DeliveryCall
  | .answer _ => none
  | .call k => some k

/-! ## The receiver -/

theorem lite_handle_reads (T : AcnTexts) (rest : Bytes → Envelope) (p : Pipe) :
    (Lite.handle T rest p).2.reads = p.reads.tail := by
  rcases hr : p.reads with _ | ⟨_ | buf, tl⟩
  · simp [Lite.handle, Pipe.read, hr]
  · simp [Lite.handle, Pipe.read, hr]
  · unfold Lite.handle
    simp only [Pipe.read, hr, List.tail_cons]
    split
    · exact sendMessage_reads _ _
    · split
      · exact sendMessage_reads _ _
      · generalize hs : Acn.sendSuccess _ = g
        have h := sendMessage_reads (some (.status (some ⟨StatusCode.success.toInt, []⟩))) { p with reads := tl }
        rw [show sendMessage (some (.status (some ⟨StatusCode.success.toInt, []⟩))) { p with reads := tl } = g
          from hs] at h
        obtain ⟨x, p'⟩ := g
        cases x <;> exact h
    · rfl
    · rfl

theorem lite_frames_step (T : AcnTexts) (rest : Bytes → Envelope) (c : LiteClient) (st : LiteClient.Step) :
    (c.step T rest st).frames ++ (c.step T rest st).pipe.reads.filterMap id =
      c.frames ++ c.pipe.reads.filterMap id := by
  have hread : ∀ p : Pipe, LiteClient.nextFrame p ++ p.reads.tail.filterMap id = p.reads.filterMap id := by
    intro p
    unfold LiteClient.nextFrame
    rcases p.reads with _ | ⟨_ | b, tl⟩ <;> simp
  cases st with
  | listen =>
    simp only [LiteClient.step, LiteClient.listen]
    cases hp : c.phase with
    | idle =>
      dsimp only
      have h1 := lite_handle_reads T rest c.pipe
      generalize Lite.handle T rest c.pipe = g at *
      obtain ⟨h, p⟩ := g
      dsimp only at h1
      have key : (c.frames ++ LiteClient.nextFrame c.pipe) ++ p.reads.filterMap id =
          c.frames ++ c.pipe.reads.filterMap id := by
        rw [h1, List.append_assoc, hread]
      cases h with
      | crash => exact key
      | status s => exact key
      | result envel failed =>
        dsimp only
        split
        · exact key
        · cases envel with
          | none => exact key
          | some e =>
            dsimp only
            split <;> exact key
    | pushing e => dsimp only; split <;> (try split) <;> rfl
    | pushed => rfl
    | pushingStatus s => dsimp only; split <;> (try split) <;> rfl
    | stopped => rfl
    | crashed => rfl
  | get =>
    simp only [LiteClient.step]
    split
    · rfl
    · split <;> rfl
  | takeStatus => rfl
  | disconnect ok =>
    simp only [LiteClient.step]
    split <;> rfl

/-- The data read is the beginning of what arrives. -/
theorem lite_frames_prefix (T : AcnTexts) (rest : Bytes → Envelope) (address : Bytes) (pipe : Pipe)
    (steps : List LiteClient.Step) :
    (LiteClient.run T rest (.connected address pipe) steps).frames <+: pipe.reads.filterMap id := by
  have key : ∀ (steps : List LiteClient.Step) (c : LiteClient),
      (c.run T rest steps).frames ++ (c.run T rest steps).pipe.reads.filterMap id =
        c.frames ++ c.pipe.reads.filterMap id := by
    intro steps
    induction steps with
    | nil => intro c; rfl
    | cons st steps ih =>
      intro c
      have := ih (c.step T rest st)
      rw [lite_frames_step] at this
      exact this
  have := key steps (.connected address pipe)
  exact ⟨_, this⟩


/-! ## The whole way -/

/-- The way of the envelopes of agent `a` to agent `b`, both delegate clients. Every wire may break and
every scheduling is allowed. The assumption `calls` is that each call of `RouteEnvelope` for such an
envelope at the peer of `a` leads to at most one call at the peer of `b`, in order: the call itself if
both are clients of one peer, otherwise the one that the message sent by it (`C31_at_most_one`)
makes there. It excludes the retry queue. For streams that do not break for the sender it follows from
`Streams.C113_unbroken`; an envelope whose stream broke may come later (`Streams.C113_counterexample`). -/
structure Journey (a b : Bytes) where
  /-- the frames `a` writes to its peer, and that end of the connection -/
  wrote : List Bytes
  T : AcnTexts
  por : PoRCheck
  txt : StatusCode → Bytes
  key : Bytes
  announce : Bool
  inA : Pipe
  wireA : Carries wrote inA.reads
  /-- the queues of the peer -/
  own : Bytes → Nat
  steps : List PairQueues.Step
  queues : ∀ h e, .recv h e ∈ steps → own e.pair = h
  taken : ((takenFrom steps).filter fun e => e.sender == a).Sublist
    (queuedOf (delegateConnection T por txt key announce inA).1)
  /-- what the peer of `b` writes to the connection of `b` -/
  conn : Nat
  out : List Output
  answers : ∀ f, .answer f ∈ out → frameEnvelope f = none
  calls : (between a b ((out.filterMap Output.call?).map (·.envelope))).Sublist
    (between a b (PairQueues.run .init steps).routed)
  small : ∀ k d eb, .call k ∈ out → k.envelope.encode = some eb → peerMessage k.envelope none = some d →
    eb.length < 2 ^ 64 ∧ d.length < 2 ^ 64
  /-- the receiving agent -/
  T' : AcnTexts
  rest : Bytes → Envelope
  inB : Pipe
  wireB : Carries (out.flatMap (Output.frames conn)) inB.reads
  clientSteps : List LiteClient.Step
  connected : (∀ ok, .disconnect ok ∉ clientSteps) ∨
    (b ≠ [] ∧ ∀ x, Envelope.decode x = none → (rest x).to ≠ b)

namespace Journey

variable {a b : Bytes}

/-- The receiving agent in the end. -/
def client (j : Journey a b) : LiteClient := LiteClient.run j.T' j.rest (.connected b j.inB) j.clientSteps

/-- The envelopes to `b` that `a` has written, as `a`. -/
def sent (j : Journey a b) : List Envelope := between a b (j.wrote.filterMap frameEnvelope)

/-- The envelopes of `a` that `Get` has returned to `b`. -/
def got (j : Journey a b) : List Envelope := j.client.received.filter fun e => e.sender == a

end Journey

theorem Carries.prefix {w : List Bytes} {reads : List (Option Bytes)} (h : Carries w reads) :
    reads.filterMap id <+: w := by
  obtain ⟨got, lost, rest, rfl, rfl, hr⟩ := h
  have : rest.filterMap id = [] := by
    rw [List.filterMap_eq_nil_iff]
    intro x hx
    exact hr x hx
  rw [List.filterMap_append, this]
  simp

theorem peerMessage_addressed {e : Envelope} {d : Bytes} (h : peerMessage e none = some d)
    (hs : ∀ eb, e.encode = some eb → eb.length < 2 ^ 64 ∧ d.length < 2 ^ 64) (b : Bytes) :
    addressedTo b d = if e.to = b then some e else none := by
  unfold peerMessage at h
  cases hee : e.encode with
  | none => rw [hee] at h; simp at h
  | some eb =>
    rw [hee] at h
    simp only [Option.bind_some] at h
    obtain ⟨h1, h2⟩ := hs eb hee
    have hdb : AcnMessage.decode d = some (some (.aeaEnvelope eb none)) := C18_acn_round_trip h (AcnMessage.codeFits rfl) h2
    have hdec : Envelope.decode eb = some e := C19_envelope_round_trip hee h1
    unfold addressedTo
    rw [hdb]
    simp only [hdec]

theorem addressedTo_none {f : Bytes} (h : frameEnvelope f = none) (b : Bytes) : addressedTo b f = none := by
  unfold frameEnvelope at h
  unfold addressedTo
  split <;> rename_i hd
  · rw [hd] at h
    dsimp only at h
    rw [h]
  · rfl

/-- What the frames written to the connection hold for `b`, of `a`: envelopes of calls, each at most once. -/
theorem output_sublist (a b : Bytes) (c : Nat) (out : List Output)
    (ha : ∀ f, .answer f ∈ out → frameEnvelope f = none)
    (hs : ∀ k d eb, .call k ∈ out → k.envelope.encode = some eb → peerMessage k.envelope none = some d →
      eb.length < 2 ^ 64 ∧ d.length < 2 ^ 64) :
    ((mine b (out.flatMap (Output.frames c))).filter fun e => e.sender == a).Sublist
      (between a b ((out.filterMap Output.call?).map (·.envelope))) := by
  induction out with
  | nil => simp [mine]
  | cons o out ih =>
    have ih := ih (fun f hf => ha f (List.mem_cons_of_mem _ hf))
      (fun k d eb hk => hs k d eb (List.mem_cons_of_mem _ hk))
    rw [List.flatMap_cons, mine_append, List.filter_append]
    cases o with
    | answer f =>
      have : mine b (Output.frames c (.answer f)) = [] := by
        simp [mine, Output.frames, addressedTo_none (ha f (by simp)) b]
      rw [this]
      simpa [List.filterMap_cons, Output.call?] using ih
    | call k =>
      have hb : between a b (((Output.call k :: out).filterMap Output.call?).map (·.envelope)) =
          between a b [k.envelope] ++ between a b ((out.filterMap Output.call?).map (·.envelope)) := by
        simp only [List.filterMap_cons, Output.call?, List.map_cons, between]
        rw [← List.filter_append]; rfl
      rw [hb]
      refine List.Sublist.append ?_ ih
      rcases k.frames c with h | ⟨d, hd, h⟩
      · simp [Output.frames, h, mine]
      · have hadd := peerMessage_addressed hd (fun eb he => hs k d eb (by simp) he hd) b
        simp only [Output.frames, h, mine, List.filterMap_cons, List.filterMap_nil, hadd]
        by_cases hto : k.envelope.to = b
        · rw [if_pos hto]
          simp only [between, List.filter_cons, List.filter_nil, hto, beq_self_eq_true, Bool.and_true]
          exact List.Sublist.refl _
        · simp [if_neg hto]

/-- **C79, partial.** The envelopes of one agent that another agent gets are envelopes that the first one
sent, as they were sent, each at most once and in the order of sending, wherever the connections break
and however the goroutines are scheduled. Missing from the property: an envelope that goes through the
retry queue may arrive twice (`C78_twice_counterexample`) and late (`C35_retry_counterexample`). -/
theorem C79_in_order_partial {a b : Bytes} (j : Journey a b) : j.got.Sublist j.sent := by
  -- at the receiver
  have h1 : j.client.received <+: mine b j.client.frames :=
    (C41_prefix_partial j.T' j.rest b j.inB j.clientSteps j.connected).1
  have h2 : j.client.frames <+: j.out.flatMap (Output.frames j.conn) :=
    (lite_frames_prefix j.T' j.rest b j.inB j.clientSteps).trans j.wireB.prefix
  have h3 : (mine b j.client.frames).Sublist (mine b (j.out.flatMap (Output.frames j.conn))) :=
    h2.sublist.filterMap _
  have h4 := output_sublist a b j.conn j.out j.answers j.small
  -- at the sender
  have h5 := C35_order_partial j.own j.steps j.queues a b
  have h6 : (between a b (PairQueues.run .init j.steps).received).Sublist (between a b (takenFrom j.steps)) := by
    have := received_sublist j.steps .init
    exact this.filter _
  have h7 : (between a b (takenFrom j.steps)).Sublist
      (between a b (queuedOf (delegateConnection j.T j.por j.txt j.key j.announce j.inA).1)) := by
    have := j.taken.filter fun e => e.sender == a && e.to == b
    rw [List.filter_filter] at this
    unfold between
    refine List.Sublist.trans ?_ this
    rw [show (fun e : Envelope => (e.sender == a && e.to == b) && e.sender == a) =
      fun e => e.sender == a && e.to == b by
        funext e
        cases (e.sender == a) <;> cases (e.to == b) <;> rfl]
    exact List.Sublist.refl _
  have h8 : (between a b (queuedOf (delegateConnection j.T j.por j.txt j.key j.announce j.inA).1)).Sublist
      j.sent := by
    refine List.Sublist.filter _ ?_
    exact (delegateConnection_sublist j.T j.por j.txt j.key j.announce j.inA).trans
      (j.wireA.prefix.sublist.filterMap _)
  have hA := (h5.1.sublist.trans h5.2).trans ((h6.trans h7).trans h8)
  exact (((h1.sublist.trans h3).filter _).trans h4).trans (j.calls.trans hA)

/-- Nothing fails on the way: the sender registers and its well-formed frames are read; all of its
envelopes taken from the connection were queued and routed; every call at the peer of the receiver writes
its envelope to the connection; and the receiver has read everything. -/
structure Journey.Smooth {a b : Bytes} (j : Journey a b) : Prop where
  registered : ∃ reg r fs n, j.wrote = reg :: fs ∧ fs.length < n ∧ r.address = a ∧
    AcnMessage.decode reg = some (some (.register (some r))) ∧ j.por r a j.key = .ok .success ∧
    (∀ f ∈ fs, GoodFrame f) ∧ j.announce = true ∧
    j.inA = ⟨some reg :: fs.map some ++ [none], List.replicate n true, []⟩
  taken : ((takenFrom j.steps).filter fun e => e.sender == a) =
    queuedOf (delegateConnection j.T j.por j.txt j.key j.announce j.inA).1
  routed : between a b (PairQueues.run .init j.steps).routed = between a b (takenFrom j.steps)
  called : between a b ((j.out.filterMap Output.call?).map (·.envelope)) =
    between a b (PairQueues.run .init j.steps).routed
  written : ∀ k, .call k ∈ j.out → k.envelope.sender = a → k.envelope.to = b → framesTo j.conn k.acts ≠ []
  read : j.client.frames = j.out.flatMap (Output.frames j.conn)

theorem output_eq (a b : Bytes) (c : Nat) (out : List Output)
    (ha : ∀ f, .answer f ∈ out → frameEnvelope f = none)
    (hs : ∀ k d eb, .call k ∈ out → k.envelope.encode = some eb → peerMessage k.envelope none = some d →
      eb.length < 2 ^ 64 ∧ d.length < 2 ^ 64)
    (hw : ∀ k, .call k ∈ out → k.envelope.sender = a → k.envelope.to = b → framesTo c k.acts ≠ []) :
    ((mine b (out.flatMap (Output.frames c))).filter fun e => e.sender == a) =
      between a b ((out.filterMap Output.call?).map (·.envelope)) := by
  induction out with
  | nil => rfl
  | cons o out ih =>
    have ih := ih (fun f hf => ha f (List.mem_cons_of_mem _ hf))
      (fun k d eb hk => hs k d eb (List.mem_cons_of_mem _ hk)) (fun k hk => hw k (List.mem_cons_of_mem _ hk))
    rw [List.flatMap_cons, mine_append, List.filter_append]
    cases o with
    | answer f =>
      have : mine b (Output.frames c (.answer f)) = [] := by
        simp [mine, Output.frames, addressedTo_none (ha f (by simp)) b]
      rw [this]
      simpa [List.filterMap_cons, Output.call?] using ih
    | call k =>
      have hb : between a b (((Output.call k :: out).filterMap Output.call?).map (·.envelope)) =
          between a b [k.envelope] ++ between a b ((out.filterMap Output.call?).map (·.envelope)) := by
        simp only [List.filterMap_cons, Output.call?, List.map_cons, between]
        rw [← List.filter_append]; rfl
      rw [hb, ih]
      congr 1
      rcases k.frames c with h | ⟨d, hd, h⟩
      · have : ¬ (k.envelope.sender = a ∧ k.envelope.to = b) := fun ⟨h1, h2⟩ => hw k (by simp) h1 h2 h
        have hf : (k.envelope.sender == a && k.envelope.to == b) = false := by
          simpa [Bool.and_eq_false_iff] using fun h1 h2 => this ⟨h1, h2⟩
        simp [Output.frames, h, mine, between, hf]
      · have hadd := peerMessage_addressed hd (fun eb he => hs k d eb (by simp) he hd) b
        simp only [Output.frames, h, mine, List.filterMap_cons, List.filterMap_nil, hadd]
        by_cases hto : k.envelope.to = b
        · rw [if_pos hto]
          simp only [between, List.filter_cons, List.filter_nil, hto, beq_self_eq_true, Bool.and_true]
        · simp [between, hto]

/-- **C79.** If nothing fails on the way, every envelope arrives: those that the receiver has got, those
in its queue and the one it is putting there are exactly the ones that were sent to it, in order. -/
theorem C79_all_arrive {a b : Bytes} (j : Journey a b) (hs : j.Smooth) (ho : j.client.phase.over = false) :
    ((j.client.received ++ j.client.queue ++ j.client.phase.held).filter fun e => e.sender == a) = j.sent := by
  have h1 := C41_get_partial j.T' j.rest b j.inB j.clientSteps j.connected
  have h2 : j.client.received ++ j.client.queue ++ j.client.phase.held = mine b j.client.frames := by
    rcases h1 with h | ⟨h, _⟩
    · exact h
    · rw [show (LiteClient.run j.T' j.rest (.connected b j.inB) j.clientSteps).phase.over = j.client.phase.over
        from rfl, ho] at h
      simp at h
  rw [h2, hs.read, output_eq a b j.conn j.out j.answers j.small hs.written, hs.called, hs.routed]
  obtain ⟨reg, r, fs, n, hw, hn, rfl, hd, hp, hg, han, hin⟩ := hs.registered
  have h3 := C26_own_envelopes_pass j.T j.por j.txt j.key reg r fs n hn hd hp hg
  have h4 := hs.taken
  rw [han, hin, h3] at h4
  have h5 : ∀ l : List Envelope, between r.address b l = (l.filter fun e => e.sender == r.address).filter
      fun e => e.to == b := by
    intro l
    unfold between
    rw [List.filter_filter]
    congr 1
    funext e
    cases (e.sender == r.address) <;> cases (e.to == b) <;> rfl
  unfold Journey.sent
  rw [h5, h5, h4, hw]
  have : frameEnvelope reg = none := by unfold frameEnvelope; rw [hd]
  rw [List.filterMap_cons_none this]

/-! ## A concrete case -/

namespace JourneyDemo

/-- Envelopes of `ag` to `bob`. -/
def env (m : Bytes) : Envelope := ⟨b! "bob", b! "ag", b! "p", m, []⟩
/-- The frame of an envelope. -/
def frame (e : Envelope) : Bytes := (peerMessage e none).getD []
/-- An answer to `bob`. -/
def status : Bytes := (AcnMessage.encode (some (.status (some ⟨0, []⟩)))).getD []
/-- The peer of both: `bob` has connection 3. -/
def peer : PeerState :=
  ⟨b! "me", none, false, none, (GoMap.empty).set (b! "ag") PoRDemo.good, (GoMap.empty).set (b! "bob") 3, .empty,
    false⟩
/-- The calls. -/
def call (m : Bytes) : DeliveryCall := ⟨false, peer, RouteDemo.net, env m⟩
/-- Steps of the queues: one worker, the second envelope arrives while the first is routed. -/
def steps : List PairQueues.Step :=
  [.recv 0 (env (b! "1")), .create 0, .put 0, .recv 0 (env (b! "2")), .start 0, .take 0, .put 0, .route 0,
   .finish 0, .take 0, .route 0]

set_option maxRecDepth 100000
set_option maxHeartbeats 4000000

/-- What is written to the connection of `bob`. -/
def out : List Output := [.answer status, .call (call (b! "1")), .call (call (b! "2"))]

/-- Two envelopes; the connection of the receiver may break. -/
def journey (inB : Pipe) (wireB : Carries (out.flatMap (Output.frames 3)) inB.reads) :
    Journey (b! "ag") (b! "bob") where
  wrote := [HandlersDemo.reg, frame (env (b! "1")), frame (env (b! "2"))]
  T := HandlersDemo.T
  por := HandlersDemo.por
  txt := fun _ => []
  key := b! "pk"
  announce := true
  inA := ⟨[some HandlersDemo.reg, some (frame (env (b! "1"))), some (frame (env (b! "2"))), none],
    [true, true, true], []⟩
  wireA := ⟨_, [], [none], (List.append_nil _).symm, rfl, by simp⟩
  own := fun _ => 0
  steps := steps
  queues := by
    intro h e he
    simp only [steps, List.mem_cons, reduceCtorEq, PairQueues.Step.recv.injEq, List.not_mem_nil, false_or,
      or_false] at he
    rcases he with he | he <;> exact he.1.symm
  taken := by decide
  conn := 3
  out := out
  answers := by
    intro f hf
    simp only [out, List.mem_cons, Output.answer.injEq, reduceCtorEq, List.not_mem_nil, or_false] at hf
    subst hf
    decide
  calls := by decide
  small := by
    intro k d eb hk he hd
    have hk' : k = call (b! "1") ∨ k = call (b! "2") := by
      simpa [out, List.mem_cons, Output.call.injEq] using hk
    rcases hk' with rfl | rfl
    · have h1 : (env (b! "1")).encode = some ((env (b! "1")).encode.getD []) := by decide
      have h2 : peerMessage (env (b! "1")) none = some (frame (env (b! "1"))) := by decide
      rw [show (call (b! "1")).envelope = env (b! "1") from rfl] at he hd
      rw [h1] at he
      rw [h2] at hd
      cases he; cases hd
      decide
    · have h1 : (env (b! "2")).encode = some ((env (b! "2")).encode.getD []) := by decide
      have h2 : peerMessage (env (b! "2")) none = some (frame (env (b! "2"))) := by decide
      rw [show (call (b! "2")).envelope = env (b! "2") from rfl] at he hd
      rw [h1] at he
      rw [h2] at hd
      cases he; cases hd
      decide
  T' := HandlersDemo.T
  rest := fun _ => ⟨[], [], [], [], []⟩
  inB := inB
  wireB := wireB
  clientSteps := [.listen, .listen, .listen, .listen, .listen, .listen, .get, .get, .listen]
  connected := .inl (by simp)

/-- The connection breaks after the first envelope. -/
def broken : Journey (b! "ag") (b! "bob") :=
  journey ⟨[some status, some (frame (env (b! "1"))), none], [true, true], []⟩
    ⟨[status, frame (env (b! "1"))], [frame (env (b! "2"))], [none], by decide, rfl, by simp⟩

/-- It does not break. -/
def whole : Journey (b! "ag") (b! "bob") :=
  journey ⟨[some status, some (frame (env (b! "1"))), some (frame (env (b! "2")))], [true, true], []⟩
    ⟨[status, frame (env (b! "1")), frame (env (b! "2"))], [], [], by decide, rfl, by simp⟩

example : broken.sent = [env (b! "1"), env (b! "2")] ∧ broken.got = [env (b! "1")] := by decide
example : whole.got = [env (b! "1")] ∧ whole.client.queue = [env (b! "2")] := by decide

/-- The assumptions of `C79_all_arrive` hold of it. -/
theorem whole_smooth : whole.Smooth where
  registered := by
    refine ⟨HandlersDemo.reg, PoRDemo.good, [frame (env (b! "1")), frame (env (b! "2"))], 3, rfl, by decide,
      by decide, by decide, by decide, ?_, rfl, rfl⟩
    intro f hf
    simp only [List.mem_cons, List.not_mem_nil, or_false] at hf
    rcases hf with rfl | rfl
    · exact .inl ⟨((env (b! "1")).encode).getD [], none, env (b! "1"), by decide, by decide⟩
    · exact .inl ⟨((env (b! "2")).encode).getD [], none, env (b! "2"), by decide, by decide⟩
  taken := by decide
  routed := by decide
  called := by decide
  written := by
    intro k hk _ _
    have hk' : k = call (b! "1") ∨ k = call (b! "2") := by
      simpa [whole, journey, out, List.mem_cons, Output.call.injEq] using hk
    rcases hk' with rfl | rfl <;> decide
  read := by decide

end JourneyDemo

end Verif
