import Verif.Props.Exchange

/-!
# C78: envelopes between two peers

`RouteEnvelope` of one peer together with `HandleAeaEnvelopeStream` and `HandleAeaEnvelope` of another,
over a stream that may break at any time.
-/

namespace Verif

open Acn

/-- `HandleAeaEnvelope` as the handler of the stream: common/handlers.go:107-124. `text` is the text of
the error. -/
def peerHandler (s : PeerState) (n : Net) (text : StatusCode → Bytes) (e : Envelope) :
    Option (StatusCode × Bytes) :=
  match (handleAeaEnvelope s n e).2.2 with
  | .ok _ => none
  | .err c => some (c, text c)
  | .panic => none

/-- The action hands the envelope to whom it is addressed: to the mailbox that has room for it, to the
connection of the delegate who acknowledges it, or to the own agent. -/
inductive HandsOver (s : PeerState) (n : Net) (e : Envelope) : Act → Prop
  | mailbox : Accepts s e → HandsOver s n e (.mailbox e)
  | delegate {c d} : ¬ Accepts s e → s.tcpAddresses.get e.to = some c → peerMessage e none = some d →
      n.connOk = true → n.ack = .ok () → HandsOver s n e (.conn c d)
  | agent : ¬ Accepts s e → s.tcpAddresses.get e.to = none → e.to = s.myAgent → s.hasAgent = true →
      HandsOver s n e (.agent e)

/-- **C78.** The receiving peer reports success exactly if it hands the envelope over, and then it does
so once. -/
theorem C78_handed_over (s : PeerState) (n : Net) (e : Envelope) :
    (handleAeaEnvelope s n e).2.2 = .ok () ↔
      ∃ a, HandsOver s n e a ∧ (handleAeaEnvelope s n e).2.1 = [a] := by
  by_cases hacc : Accepts s e
  · have h := (mailboxRoute_snd s e).2 hacc
    have h1 : (handleAeaEnvelope s n e).2 = ([.mailbox e], .ok ()) := by
      unfold handleAeaEnvelope
      simp [h]
    rw [h1]
    simp [HandsOver.mailbox hacc]
  · have h2 : (mailboxRoute s e).2 = false := by
      rw [← Bool.not_eq_true, mailboxRoute_snd]; exact hacc
    have h1 := mailboxRoute_fst s e hacc
    have hroute : mailboxRoute s e = (s, false) := Prod.ext h1 h2
    unfold handleAeaEnvelope
    simp only [hroute, Bool.false_eq_true, if_false]
    cases ht : s.tcpAddresses.get e.to with
    | some c =>
      dsimp only
      cases hm : makeAcnMessage e with
      | none => simp
      | some d =>
        have hpm : peerMessage e none = some d := hm
        have hs : ∀ a, HandsOver s n e a → a = .conn c d → n.connOk = true ∧ n.ack = .ok () := by
          rintro a ha rfl
          cases ha with
          | delegate _ _ _ h1 h2 => exact ⟨h1, h2⟩
        cases hc : n.connOk with
        | false =>
          simp only [Bool.false_eq_true, if_false, reduceCtorEq, List.cons.injEq, and_true, false_iff]
          rintro ⟨a, ha, hae⟩
          have := (hs a ha hae.symm).1
          rw [hc] at this; simp at this
        | true =>
          simp only [if_true, List.cons.injEq, and_true]
          cases hk : n.ack with
          | ok u =>
            simp only [true_iff]
            exact ⟨_, .delegate hacc ht hpm hc (by rw [hk]), rfl⟩
          | err x =>
            simp only [reduceCtorEq, false_iff]
            rintro ⟨a, ha, hae⟩
            have := (hs a ha hae.symm).2
            rw [hk] at this; simp at this
          | panic =>
            simp only [reduceCtorEq, false_iff]
            rintro ⟨a, ha, hae⟩
            have := (hs a ha hae.symm).2
            rw [hk] at this; simp at this
    | none =>
      dsimp only
      by_cases hmy : e.to = s.myAgent
      · cases hh : s.hasAgent with
        | true =>
          simp only [if_pos hmy, if_true, List.cons.injEq, and_true, true_iff]
          exact ⟨_, .agent hacc ht hmy hh, rfl⟩
        | false => simp [hmy]
      · simp [hmy]

theorem peerHandler_none {s : PeerState} {n : Net} {text : StatusCode → Bytes} {e : Envelope}
    (hp : n.ack ≠ .panic) :
    peerHandler s n text e = none ↔ (handleAeaEnvelope s n e).2.2 = .ok () := by
  have hnp : (handleAeaEnvelope s n e).2.2 ≠ .panic := by
    unfold handleAeaEnvelope
    dsimp only
    split
    · simp
    · split
      · split
        · simp
        · dsimp only
          split
          · cases hk : n.ack <;> simp_all
          · simp
      · split
        · split <;> simp
        · simp
  unfold peerHandler
  cases h : (handleAeaEnvelope s n e).2.2 with
  | ok u => simp
  | err c => simp
  | panic => exact absurd h hnp

/-- A peer never reports success as an error. -/
theorem peerHandler_noFalseError (s : PeerState) (n : Net) (text : StatusCode → Bytes) :
    NoFalseError (peerHandler s n text) := by
  intro e t h
  unfold peerHandler at h
  have hne : (handleAeaEnvelope s n e).2.2 ≠ .err .success := by
    unfold handleAeaEnvelope
    dsimp only
    split
    · simp
    · split
      · split
        · simp
        · dsimp only
          split
          · split <;> simp
          · simp
      · split
        · split <;> simp
        · simp
  cases hr : (handleAeaEnvelope s n e).2.2 with
  | ok u => rw [hr] at h; simp at h
  | panic => rw [hr] at h; simp at h
  | err c =>
    rw [hr] at h
    simp only [Option.some.injEq, Prod.mk.injEq] at h
    rw [h.1] at hr
    exact hne hr

/-- The envelope goes to this peer over the network. -/
def GoesTo (s : PeerState) (n : Net) (e : Envelope) (peer : Bytes) : Prop :=
  SenderLocal s e ∧
    ((∃ id, destination s e = .relay id ∧ n.peerDecode id = some peer) ∨
     (destination s e = .dht ∧ ∃ r, lookupAddressDHT n.por n.idFrom n.cid e.to n.rounds = .found peer r))

/-- What a call does with an envelope that goes to a peer. -/
theorem route_goesTo {s : PeerState} {n : Net} {e : Envelope} {peer : Bytes} (h : GoesTo s n e peer) :
    ∃ rec, envelopeRecord s e = some rec ∧
      ((∃ id, destination s e = .relay id) ∧
          (routeEnvelope s n e).2 =
            (.inc :: (routeWithNewStream n peer rec e).1, (routeWithNewStream n peer rec e).2) ∨
        destination s e = .dht ∧
          (routeEnvelope s n e).2 =
            (if (routeWithNewStream n peer rec e).2 = .err then
              (.inc :: (routeWithNewStream n peer rec e).1 ++ [.dec] ++
                (if s.closing then [] else [.slow e]), .ok)
             else (.inc :: (routeWithNewStream n peer rec e).1, (routeWithNewStream n peer rec e).2))) := by
  obtain ⟨hl, hd⟩ := h
  rw [← envelopeRecord_iff] at hl
  obtain ⟨rec, hrec⟩ := Option.ne_none_iff_exists'.1 hl
  refine ⟨rec, hrec, ?_⟩
  have hacc : ¬ Accepts s e := by
    intro ha
    unfold destination at hd
    simp [ha] at hd
  have h2 : (mailboxRoute s e).2 = false := by
    rw [← Bool.not_eq_true, mailboxRoute_snd]; exact hacc
  have hroute : mailboxRoute s e = (s, false) := Prod.ext (mailboxRoute_fst s e hacc) h2
  have hmy : e.to ≠ s.myAgent := by
    intro hm
    unfold destination at hd
    simp [hacc, hm] at hd
  have hdest : destination s e = match s.tcpAddresses.get e.to, s.dhtAddresses.get e.to with
      | some c, _ => .delegate c
      | none, some id => .relay id
      | none, none => .dht := by
    unfold destination
    rw [if_neg hacc, if_neg hmy]
    cases s.tcpAddresses.get e.to <;> cases s.dhtAddresses.get e.to <;> rfl
  cases ht : s.tcpAddresses.get e.to with
  | some c =>
    rw [ht] at hdest
    simp [hdest] at hd
  | none =>
    cases ha : s.dhtAddresses.get e.to with
    | some id =>
      rw [ht, ha] at hdest
      dsimp only at hdest
      rw [hdest] at hd
      simp only [Dest.relay.injEq, reduceCtorEq, false_and, or_false] at hd
      obtain ⟨id', rfl, hid⟩ := hd
      left
      refine ⟨⟨_, hdest⟩, ?_⟩
      simp only [routeEnvelope, hrec, hroute, Bool.false_eq_true, if_false, if_neg hmy, ht, ha, hid]
    | none =>
      rw [ht, ha] at hdest
      dsimp only at hdest
      rw [hdest] at hd
      simp only [reduceCtorEq, false_and, exists_false, true_and, false_or] at hd
      obtain ⟨r, hr⟩ := hd
      right
      refine ⟨hdest, ?_⟩
      simp only [routeEnvelope, hrec, hroute, Bool.false_eq_true, if_false, if_neg hmy, ht, ha,
        routeDHTLookup, hr]
      generalize routeWithNewStream n peer rec e = x
      obtain ⟨acts, o⟩ := x
      cases o <;> simp

/-- The stream between the two peers: what one reads is what the other wrote, cut off at any point. -/
structure Hop (sA : PeerState) (nA : Net) (peer : Bytes) (e : Envelope)
    (receiver : PipeM Envelope) (pa pb : Pipe) : Prop where
  opened : nA.stream peer = some pa
  fresh : pb.sent = []
  forth : ∀ rec, envelopeRecord sA e = some rec →
    Carries (streamed (routeWithNewStream nA peer rec e).1) pb.reads
  back : Carries (receiver pb).2.sent pa.reads
  size : ∀ rec, envelopeRecord sA e = some rec →
    ∀ f ∈ streamed (routeWithNewStream nA peer rec e).1 ++ (receiver pb).2.sent, f.length < 2 ^ 64
  small : ∀ eb, e.encode = some eb → eb.length < 2 ^ 64

/-- **C78.** If a peer sends an envelope to another one, reports success and neither queued the envelope
nor is closing, then the other peer has handed it over, once, to whom it is addressed there; and the
record of the sender was proven for the sending peer. -/
theorem C78_reported {T : AcnTexts} {por : PoRCheck} {key : Bytes} {text : StatusCode → Bytes}
    {sA sB : PeerState} {nA nB : Net} {e : Envelope} {peer : Bytes} {pa pb : Pipe}
    (hk : nB.ack ≠ .panic) (hg : GoesTo sA nA e peer)
    (X : Hop sA nA peer e (handleEnvelopeStream T por key (peerHandler sB nB text)) pa pb)
    (hok : (routeEnvelope sA nA e).2.2 = .ok) (hq : .slow e ∉ (routeEnvelope sA nA e).2.1)
    (hc : sA.closing = false) :
    (handleEnvelopeStream T por key (peerHandler sB nB text) pb).1 = .ok e ∧
    (∃ a, HandsOver sB nB e a ∧ (handleAeaEnvelope sB nB e).2.1 = [a]) ∧
    ∃ r, envelopeRecord sA e = some (some r) ∧ por r r.address key = .ok .success := by
  obtain ⟨rec, hrec, hcase⟩ := route_goesTo hg
  have h : (routeWithNewStream nA peer rec e).2 = .ok := by
    rcases hcase with ⟨_, h⟩ | ⟨_, h⟩
    · rw [h] at hok; exact hok
    · rw [h] at hok hq
      split at hok
      · rename_i he
        rw [if_pos he, hc] at hq
        simp at hq
      · exact hok
  obtain ⟨r, hr, hpor, h1, h2⟩ := C55_envelope_agreed (peerHandler_noFalseError sB nB text) X.small
    X.opened X.fresh (X.forth rec hrec) X.back (X.size rec hrec) h
  subst hr
  exact ⟨h1, (C78_handed_over sB nB e).1 ((peerHandler_none hk).1 h2), r, hrec, hpor⟩

open Classical in
/-- **C78.** If the stream carries everything, then the sender learns the result: it has success exactly
if the record is proven and the other peer handed the envelope over. Otherwise an envelope to a relay
client is an error, and one whose receiver was looked up is queued unless the peer is closing. -/
theorem C78_carried {T : AcnTexts} {por : PoRCheck} {key : Bytes} {text : StatusCode → Bytes}
    {sA sB : PeerState} {nA nB : Net} {e : Envelope} {peer d : Bytes} {r : AgentRecord} {pa pb : Pipe}
    (hk : nB.ack ≠ .panic) (hg : GoesTo sA nA e peer)
    (X : Hop sA nA peer e (handleEnvelopeStream T por key (peerHandler sB nB text)) pa pb)
    (hr : envelopeRecord sA e = some (some r)) (hd : peerMessage e (some r) = some d)
    (hw : pa.writes.head? = some true) (hpb : pb.reads = [some d])
    (hpa : pa.reads = (handleEnvelopeStream T por key (peerHandler sB nB text) pb).2.sent.map some) :
    if por r r.address key = .ok .success ∧
        ∃ a, HandsOver sB nB e a ∧ (handleAeaEnvelope sB nB e).2.1 = [a] then
      (routeEnvelope sA nA e).2 = ([.inc, .stream peer d, .dec], .ok)
    else
      ((∃ id, destination sA e = .relay id) →
        (routeEnvelope sA nA e).2 = ([.inc, .stream peer d, .dec], .err)) ∧
      (destination sA e = .dht →
        (routeEnvelope sA nA e).2 =
          ([.inc, .stream peer d, .dec, .dec] ++ (if sA.closing then [] else [.slow e]), .ok)) := by
  obtain ⟨rec, hrec, hcase⟩ := route_goesTo hg
  rw [hr] at hrec
  cases hrec
  obtain ⟨eb, hee, hm⟩ : ∃ eb, e.encode = some eb ∧ AcnMessage.encode (some (.aeaEnvelope eb (some r))) = some d := by
    unfold peerMessage at hd
    cases hee : e.encode with
    | none => rw [hee] at hd; simp at hd
    | some eb => rw [hee] at hd; exact ⟨eb, rfl, by simpa using hd⟩
  obtain ⟨ws, hws⟩ : ∃ ws, pa.writes = true :: ws := by
    rcases hpw : pa.writes with _ | ⟨b, ws⟩
    · rw [hpw] at hw; simp at hw
    · rw [hpw] at hw; simp only [List.head?_cons, Option.some.injEq] at hw; exact ⟨ws, by rw [hw]⟩
  -- what the sender does
  have hroute : routeWithNewStream nA peer (some r) e =
      match (readStatus { pa with writes := ws, sent := [d] }).1 with
        | .ok (some b) => ([.stream peer d, .dec],
            if b.code ≠ StatusCode.success.toInt then .err else .ok)
        | .ok none => ([.stream peer d], .crashed)
        | .err _ => ([.stream peer d, .dec], .err)
        | .panic => ([.stream peer d], .crashed) := by
    simp only [routeWithNewStream, X.opened, hee, sendEnvelope, sendMessage, hm, Pipe.write, hws]
    rfl
  have hld : d.length < 2 ^ 64 := by
    refine X.size _ hr d (List.mem_append_left _ ?_)
    rw [hroute]
    generalize (readStatus _).1 = st
    rcases st with (_ | b) | _ | _ <;> simp [streamed]
  have hdb : AcnMessage.decode d = some (some (.aeaEnvelope eb (some r))) := C18_acn_round_trip hm (AcnMessage.codeFits rfl) hld
  have hdec : Envelope.decode eb = some e := C19_envelope_round_trip hee (X.small eb hee)
  -- without an answer, or with a refusal
  have hfail : (routeWithNewStream nA peer (some r) e) = ([.stream peer d, .dec], .err) →
      ((∃ id, destination sA e = .relay id) →
        (routeEnvelope sA nA e).2 = ([.inc, .stream peer d, .dec], .err)) ∧
      (destination sA e = .dht →
        (routeEnvelope sA nA e).2 =
          ([.inc, .stream peer d, .dec, .dec] ++ (if sA.closing then [] else [.slow e]), .ok)) := by
    intro h
    rcases hcase with ⟨⟨id, hid⟩, h'⟩ | ⟨hid, h'⟩
    · exact ⟨fun _ => by rw [h', h], fun hx => by rw [hid] at hx; simp at hx⟩
    · refine ⟨fun ⟨id, hx⟩ => by rw [hid] at hx; simp at hx, fun _ => ?_⟩
      rw [h', h]
      simp
  have hempty : (handleEnvelopeStream T por key (peerHandler sB nB text) pb).2.sent = [] →
      routeWithNewStream nA peer (some r) e = ([.stream peer d, .dec], .err) := by
    intro h
    rw [h] at hpa
    rw [hroute]
    have : (readStatus { pa with writes := ws, sent := [d] }).1 = .err .read := by
      simp [readStatus, PipeM.bind, Pipe.read, hpa]
    rw [this]
  have hstatus : ∀ (code : StatusCode) (msgs : List Bytes),
      (handleEnvelopeStream T por key (peerHandler sB nB text) pb).2.sent =
        (AcnMessage.encode (some (.status (some ⟨code.toInt, msgs⟩)))).toList →
      (AcnMessage.encode (some (.status (some ⟨code.toInt, msgs⟩))) = none →
        routeWithNewStream nA peer (some r) e = ([.stream peer d, .dec], .err)) ∧
      (AcnMessage.encode (some (.status (some ⟨code.toInt, msgs⟩))) ≠ none →
        routeWithNewStream nA peer (some r) e =
          ([.stream peer d, .dec], if code = .success then .ok else .err)) := by
    intro code msgs h
    constructor
    · intro hn
      exact hempty (by rw [h, hn]; rfl)
    · intro hn
      obtain ⟨b, hb⟩ := Option.ne_none_iff_exists'.1 hn
      rw [hb] at h
      have hl : b.length < 2 ^ 64 := X.size _ hr b (List.mem_append_right _ (by rw [h]; simp))
      have hdd := decode_status hb hl
      rw [h] at hpa
      rw [hroute]
      have : (readStatus { pa with writes := ws, sent := [d] }).1 = .ok (some ⟨code.toInt, msgs⟩) := by
        simp [readStatus, PipeM.bind, Pipe.read, hpa, hdd, PipeM.pure]
      rw [this]
      dsimp only
      by_cases hcs : code = .success
      · subst hcs; simp
      · have : code.toInt ≠ StatusCode.success.toInt := fun hx => hcs ((C55_status_codes _ _).1 hx)
        rw [if_pos this, if_neg hcs]
  rcases handleEnvelopeStream_sent (T := T) (por := por) (key := key) (handler := peerHandler sB nB text)
    hpb hdb hdec with hx | ⟨r', code, txt, hrr, hp, hc, hx⟩ | ⟨r', hrr, hp, ho, hx⟩
  · rw [X.fresh] at hx
    have hf := hempty hx
    split
    · rename_i hcond
      exfalso
      -- a proven record is answered
      have h1 : readEnvelope T pb = (.ok (eb, some r), { pb with reads := [] }) :=
        readEnvelope_ok.2 ⟨d, [], hpb, rfl, hdb⟩
      have h2 : receiveEnvelopeFromPeer T por key pb = (.ok e, { pb with reads := [] }) := by
        unfold receiveEnvelopeFromPeer
        simp only [PipeM.bind, h1, hdec, hcond.1, PipeM.pure]
      have hn : peerHandler sB nB text e = none :=
        (peerHandler_none hk).2 ((C78_handed_over sB nB e).2 hcond.2)
      have h3 : (handleEnvelopeStream T por key (peerHandler sB nB text) pb).2.sent =
          (AcnMessage.encode (some (.status (some ⟨StatusCode.success.toInt, []⟩)))).toList := by
        unfold handleEnvelopeStream
        rw [bind_eq h2]
        simp only [hn, sendSuccess]
        obtain ⟨p', h, hs, _⟩ := ignoring_sendMessage (α := Envelope)
          (some (.status (some ⟨StatusCode.success.toInt, []⟩))) (fun _ => .pure e)
          { pb with reads := [] }
        rw [h]
        show p'.sent = _
        rw [hs, X.fresh]; rfl
      obtain ⟨b, hb⟩ := status_encodes (c := StatusCode.success.toInt) (msgs := []) (by simp)
      rw [hx, hb] at h3
      simp at h3
    · exact hfail hf
  · cases hrr
    rw [X.fresh, List.nil_append] at hx
    rw [if_neg (by rw [hp]; rintro ⟨h, _⟩; exact hc (Res.ok.inj h))]
    obtain ⟨h1, h2⟩ := hstatus code [txt] hx
    by_cases hn : AcnMessage.encode (some (.status (some ⟨code.toInt, [txt]⟩))) = none
    · exact hfail (h1 hn)
    · have := h2 hn
      rw [if_neg hc] at this
      exact hfail this
  · cases hrr
    rw [X.fresh, List.nil_append] at hx
    cases hh : peerHandler sB nB text e with
    | none =>
      rw [hh] at hx
      rw [if_pos ⟨hp, (C78_handed_over sB nB e).1 ((peerHandler_none hk).1 hh)⟩]
      obtain ⟨b, hb⟩ := status_encodes (c := StatusCode.success.toInt) (msgs := []) (by simp)
      have h2 := (hstatus .success [] hx).2 (by rw [hb]; simp)
      rw [if_pos rfl] at h2
      rcases hcase with ⟨_, h'⟩ | ⟨_, h'⟩
      · rw [h', h2]
      · rw [h', h2]; simp
    | some ct =>
      obtain ⟨code, txt⟩ := ct
      rw [hh] at hx
      have hc : code ≠ .success := by
        rintro rfl
        exact peerHandler_noFalseError sB nB text e txt hh
      rw [if_neg (by
        rintro ⟨_, h⟩
        have := (peerHandler_none (text := text) hk).2 ((C78_handed_over sB nB e).2 h)
        rw [hh] at this; simp at this)]
      obtain ⟨h1, h2⟩ := hstatus code [txt] hx
      by_cases hn : AcnMessage.encode (some (.status (some ⟨code.toInt, [txt]⟩))) = none
      · exact hfail (h1 hn)
      · have := h2 hn
        rw [if_neg hc] at this
        exact hfail this

/-! ## Concrete cases -/

namespace TwoPeers

/-- The receiving peer: its agent is `far`. -/
def there : PeerState := { RouteDemo.peer with myAgent := b! "far", myRecord := some (RouteDemo.rec (b! "far")) }
/-- The envelope. -/
def env : Envelope := RouteDemo.env (b! "far")
/-- What the sending peer writes. -/
def data : Bytes := (peerMessage env (some (RouteDemo.rec (b! "me")))).getD []
/-- The receiving end. -/
def receiving : Pipe := ⟨[some data], [true], []⟩
/-- The receiving program. -/
def receiver (n : Net) : PipeM Envelope :=
  handleEnvelopeStream HandlersDemo.T HandlersDemo.por (b! "pk") (peerHandler there n fun _ => b! "no")
/-- A network over which the answer gets lost. -/
def lossy : Net := { RouteDemo.net with stream := fun _ => some ⟨[none], [true], []⟩ }

set_option maxRecDepth 100000
set_option maxHeartbeats 4000000

/-- The envelope is handed over and the sender knows. -/
example : (routeEnvelope RouteDemo.peer RouteDemo.net env).2 =
      ([.inc, .stream (b! "pk") data, .dec], .ok) ∧
    (receiver RouteDemo.net receiving).1 = .ok env ∧
    (receiver RouteDemo.net receiving).2.sent.map some = RouteDemo.good.reads ∧
    (handleAeaEnvelope there RouteDemo.net env).2.1 = [.agent env] := by decide

/-- The stream of the lossy network is one of those considered. -/
theorem lossy_carries : Carries [data] receiving.reads ∧
    Carries (receiver RouteDemo.net receiving).2.sent [none] :=
  ⟨⟨[data], [], [], rfl, rfl, by simp⟩, ⟨[], _, [none], rfl, rfl, by simp⟩⟩

end TwoPeers

set_option maxRecDepth 100000 in
set_option maxHeartbeats 4000000 in
/-- **C78 is false** of envelopes being delivered once: if the answer is lost, the envelope was handed over
and is queued; the second attempt hands it over again. -/
theorem C78_twice_counterexample :
    (routeEnvelope RouteDemo.peer TwoPeers.lossy TwoPeers.env).2 =
      ([.inc, .stream (b! "pk") TwoPeers.data, .dec, .dec, .slow TwoPeers.env], .ok) ∧
    (slowAttempt RouteDemo.peer RouteDemo.net TwoPeers.env) =
      ([.stream (b! "pk") TwoPeers.data, .dec], .ok) ∧
    (TwoPeers.receiver RouteDemo.net TwoPeers.receiving).1 = .ok TwoPeers.env ∧
    (handleAeaEnvelope TwoPeers.there RouteDemo.net TwoPeers.env).2.1 = [.agent TwoPeers.env] := by
  decide

/-- **C78 is false** of envelopes being delivered: the result of the own agent of the receiving peer is
ignored, so that success is reported for an envelope that the agent did not get. -/
theorem C78_agent_counterexample (s : PeerState) (n : Net) (e : Envelope) (b : Bool) :
    handleAeaEnvelope s { n with agentOk := b } e = handleAeaEnvelope s n e := rfl

/-- **C78 is false** of a closing peer: it drops the envelope and reports success. -/
theorem C78_closing_counterexample {s : PeerState} {n : Net} {e : Envelope} {peer : Bytes}
    (hg : GoesTo s n e peer) (hd : destination s e = .dht) (hc : s.closing = true)
    (hn : n.stream peer = none) :
    (routeEnvelope s n e).2 = ([.inc, .dec, .dec], .ok) := by
  obtain ⟨rec, hrec, ⟨⟨id, hid⟩, _⟩ | ⟨_, h⟩⟩ := route_goesTo hg
  · rw [hd] at hid; simp at hid
  · rw [h, show routeWithNewStream n peer rec e = ([.dec], .err) by simp [routeWithNewStream, hn], hc]
    rfl

end Verif
