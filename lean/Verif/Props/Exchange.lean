import Verif.Model.AddressStream
import Verif.Model.DhtClient
import Verif.Spec.Exchange
import Verif.Props.Routing

/-!
# C55: both sides of an exchange agree on its outcome
-/

namespace Verif

open Acn

/-- **C55.** Different status codes have different numbers, and zero is success only. -/
theorem C55_status_codes (a b : StatusCode) : a.toInt = b.toInt ↔ a = b := by
  cases a <;> cases b <;> decide

theorem StatusCode.toInt_range (c : StatusCode) : -2147483648 ≤ c.toInt ∧ c.toInt ≤ 2147483647 := by
  cases c <;> decide

/-! ## Writing -/

theorem sendMessage_sent (m : AcnMessage) (p : Pipe) :
    (sendMessage m p).2.sent = p.sent ++ m.encode.toList := by
  unfold sendMessage
  cases m.encode with
  | none => simp [PipeM.fail]
  | some b => simp [write_sent]

theorem sendMessage_reads (m : AcnMessage) (p : Pipe) : (sendMessage m p).2.reads = p.reads := by
  unfold sendMessage
  cases m.encode with
  | none => rfl
  | some b => exact write_reads _ _

theorem sendMessage_ok {m : AcnMessage} {p p' : Pipe} {u : Unit} :
    sendMessage m p = (.ok u, p') ↔
      ∃ b rest, m.encode = some b ∧ p.writes = true :: rest ∧
        p' = { p with writes := rest, sent := p.sent ++ [b] } := by
  obtain ⟨reads, writes, sent⟩ := p
  unfold sendMessage
  cases m.encode with
  | none => simp [PipeM.fail]
  | some b =>
    rcases writes with _ | ⟨_ | _, rest⟩ <;> simp [Pipe.write, eq_comm]

theorem sendMessage_cases (m : AcnMessage) (p : Pipe) :
    (∃ p', sendMessage m p = (.ok (), p')) ∨
    (∃ p', sendMessage m p = (.err .write, p') ∧ p.writes.head? ≠ some true) ∨
    (∃ p', sendMessage m p = (.err .marshal, p') ∧ m.encode = none) := by
  obtain ⟨reads, writes, sent⟩ := p
  unfold sendMessage
  cases m.encode with
  | none => exact .inr (.inr ⟨_, rfl, rfl⟩)
  | some b =>
    rcases writes with _ | ⟨_ | _, rest⟩
    · exact .inr (.inl ⟨_, rfl, by simp⟩)
    · exact .inr (.inl ⟨_, rfl, by simp⟩)
    · exact .inl ⟨_, rfl⟩

theorem ignoring_sendMessage {α : Type} (m : AcnMessage) (f : Unit → PipeM α) (p : Pipe) :
    ∃ p', ((PipeM.ignoring (sendMessage m)).bind f) p = f () p' ∧
      p'.sent = p.sent ++ m.encode.toList ∧ p'.reads = p.reads := by
  refine ⟨(sendMessage m p).2, ?_, sendMessage_sent m p, sendMessage_reads m p⟩
  unfold PipeM.bind PipeM.ignoring
  rcases sendMessage_cases m p with ⟨p', h⟩ | ⟨p', h, _⟩ | ⟨p', h, _⟩ <;> rw [h]

/-! ## Reading -/

theorem bind_read_fail {α : Type} {p : Pipe} (hp : ∀ x ∈ p.reads, x = none) (f : Bytes → PipeM α) :
    ∃ p', Pipe.read.bind f p = (.err .read, p') ∧ p'.sent = p.sent := by
  obtain ⟨reads, writes, sent⟩ := p
  rcases reads with _ | ⟨_ | b, rest⟩
  · exact ⟨_, rfl, rfl⟩
  · exact ⟨_, rfl, rfl⟩
  · simp at hp

/-- The first thing read, if any, is the first thing written. -/
theorem Carries.first {w : List Bytes} {reads : List (Option Bytes)} (h : Carries w reads) :
    (∀ x ∈ reads, x = none) ∨ ∃ b w' rest, w = b :: w' ∧ reads = some b :: rest := by
  obtain ⟨got, lost, rest, rfl, rfl, hr⟩ := h
  cases got with
  | nil => exact .inl (by simpa using hr)
  | cons b got => exact .inr ⟨b, _, _, rfl, rfl⟩

theorem Carries.one {b : Bytes} {reads : List (Option Bytes)} (h : Carries [b] reads) :
    (∀ x ∈ reads, x = none) ∨ ∃ rest, reads = some b :: rest := by
  rcases h.first with h | ⟨b', w', rest, hw, h⟩
  · exact .inl h
  · simp only [List.cons.injEq] at hw
    exact .inr ⟨rest, by rw [h, hw.1]⟩

theorem Carries.read {w : List Bytes} {b : Bytes} {reads rest : List (Option Bytes)}
    (h : Carries w reads) (hr : reads = some b :: rest) : ∃ w', w = b :: w' := by
  rcases h.first with h | ⟨b', w', rest', hw, h⟩
  · rw [hr] at h; simp at h
  · rw [hr] at h
    simp only [List.cons.injEq, Option.some.injEq] at h
    exact ⟨w', by rw [hw, h.1]⟩

theorem readStatus_ok {p p' : Pipe} {b : Option StatusBody} (h : readStatus p = (.ok b, p')) :
    ∃ buf rest, p.reads = some buf :: rest ∧ AcnMessage.decode buf = some (some (.status b)) := by
  rcases hr : p.reads with _ | ⟨_ | buf, rest⟩
  · have := (C48_read_error ⟨fun _ => [], fun _ => []⟩ p (.inl hr)).2.2.2.2.1
    rw [h] at this; simp at this
  · have := (C48_read_error ⟨fun _ => [], fun _ => []⟩ p (.inr ⟨rest, hr⟩)).2.2.2.2.1
    rw [h] at this; simp at this
  · refine ⟨buf, rest, rfl, ?_⟩
    unfold readStatus at h
    rw [bind_read hr] at h
    cases hd : AcnMessage.decode buf with
    | none => simp [hd, PipeM.fail] at h
    | some m =>
      rcases m with _ | ⟨e, r⟩ | a | r | r | b' <;> simp [hd, PipeM.fail, PipeM.pure] at h
      rw [h.1]

theorem readLookupResponse_ok {p p' : Pipe} {r : Option AgentRecord}
    (h : readLookupResponse p = (.ok r, p')) :
    ∃ buf rest, p.reads = some buf :: rest ∧ AcnMessage.decode buf = some (some (.lookupResponse r)) := by
  rcases hr : p.reads with _ | ⟨_ | buf, rest⟩
  · have := (C48_read_error ⟨fun _ => [], fun _ => []⟩ p (.inl hr)).2.2.2.2.2
    rw [h] at this; simp at this
  · have := (C48_read_error ⟨fun _ => [], fun _ => []⟩ p (.inr ⟨rest, hr⟩)).2.2.2.2.2
    rw [h] at this; simp at this
  · refine ⟨buf, rest, rfl, ?_⟩
    unfold readLookupResponse at h
    rw [bind_read hr] at h
    cases hd : AcnMessage.decode buf with
    | none => simp [hd, PipeM.fail] at h
    | some m =>
      rcases m with _ | ⟨e, r⟩ | a | r | r | (_ | b) <;>
        simp [hd, PipeM.fail, PipeM.pure, PipeM.crash] at h
      rw [h.1]

/-! ## Status messages -/

/-- The message of a status. -/
theorem decode_status {code : StatusCode} {msgs : List Bytes} {b : Bytes}
    (h : AcnMessage.encode (some (.status (some ⟨code.toInt, msgs⟩))) = some b) (hl : b.length < 2 ^ 64) :
    AcnMessage.decode b = some (some (.status (some ⟨code.toInt, msgs⟩))) := by
  refine C18_acn_round_trip h (AcnMessage.codeFits ?_) hl
  have := code.toInt_range
  simp [Performative.inRange, Proto.isInt32]
  omega

/-- A side that reads a status from a side that sent one gets that one. -/
theorem decode_status_code {code : StatusCode} {msgs : List Bytes} {b : Bytes} {w : List Bytes}
    {x : Option StatusBody} (hw : (AcnMessage.encode (some (.status (some ⟨code.toInt, msgs⟩)))).toList = b :: w)
    (hl : b.length < 2 ^ 64) (hd : AcnMessage.decode b = some (some (.status x))) :
    x = some ⟨code.toInt, msgs⟩ := by
  cases he : AcnMessage.encode (some (.status (some ⟨code.toInt, msgs⟩))) with
  | none => rw [he] at hw; simp at hw
  | some b' =>
    rw [he] at hw
    simp only [Option.toList_some, List.cons.injEq] at hw
    rw [hw.1] at he
    rw [decode_status he hl] at hd
    simpa using hd.symm

/-! ## Registration -/

/-- What the two sides of a registration do. -/
theorem acceptRegistration_sent {T : AcnTexts} {por : PoRCheck} {txt : StatusCode → Bytes}
    {key b : Bytes} {r : AgentRecord} {pb : Pipe} {rest : List (Option Bytes)}
    (hr : pb.reads = some b :: rest) (hd : AcnMessage.decode b = some (some (.register (some r)))) :
    (por r r.address key = .panic ∧ (acceptRegistration T por txt key pb).2.sent = pb.sent) ∨
    ((∃ e, por r r.address key = .err e) ∧ (acceptRegistration T por txt key pb).2.sent = pb.sent) ∨
    (por r r.address key = .ok .success ∧
      (acceptRegistration T por txt key pb).2.sent =
        pb.sent ++ (AcnMessage.encode (some (.status (some ⟨StatusCode.success.toInt, []⟩)))).toList ∧
      ((acceptRegistration T por txt key pb).1 = .ok r ∨
        pb.writes.head? ≠ some true ∧ (acceptRegistration T por txt key pb).1 = .err .write)) ∨
    (∃ code, code ≠ .success ∧ por r r.address key = .ok code ∧
      (acceptRegistration T por txt key pb).1 = .err (.invalidPoR code) ∧
      (acceptRegistration T por txt key pb).2.sent =
        pb.sent ++ (AcnMessage.encode (some (.status (some ⟨code.toInt, [txt code]⟩)))).toList) := by
  have h1 : readRegistration T pb = (.ok (some r), { pb with reads := rest }) := by
    unfold readRegistration
    rw [bind_read hr, hd]
    rfl
  unfold acceptRegistration
  rw [bind_eq h1]
  dsimp only
  cases hp : por r r.address key with
  | panic => exact .inl ⟨rfl, rfl⟩
  | err e => exact .inr (.inl ⟨⟨e, rfl⟩, rfl⟩)
  | ok code =>
    by_cases hc : code = .success
    · subst hc
      refine .inr (.inr (.inl ⟨rfl, ?_, ?_⟩))
      · have := sendMessage_sent (some (.status (some ⟨StatusCode.success.toInt, []⟩))) { pb with reads := rest }
        rcases sendMessage_cases (some (.status (some ⟨StatusCode.success.toInt, []⟩)))
          { pb with reads := rest } with ⟨p', h⟩ | ⟨p', h, _⟩ | ⟨p', h, _⟩ <;>
        · rw [h] at this
          simp only [PipeM.bind, sendSuccess, h]
          exact this
      · rcases sendMessage_cases (some (.status (some ⟨StatusCode.success.toInt, []⟩)))
          { pb with reads := rest } with ⟨p', h⟩ | ⟨p', h, hw⟩ | ⟨p', h, he⟩
        · left; simp only [PipeM.bind, sendSuccess, h, PipeM.pure]
        · right; refine ⟨hw, ?_⟩; simp only [PipeM.bind, sendSuccess, h]
        · exact absurd he (by decide)
    · refine .inr (.inr (.inr ⟨code, hc, rfl, ?_⟩))
      obtain ⟨p', h, hs, _⟩ := ignoring_sendMessage (α := AgentRecord)
        (some (.status (some ⟨code.toInt, [txt code]⟩))) (fun _ => .fail (.invalidPoR code))
        { pb with reads := rest }
      have key : ∀ {X Y : Res AcnErr AgentRecord × Pipe}, X = Y → Y = (.err (.invalidPoR code), p') →
          X.1 = .err (.invalidPoR code) ∧ X.2.sent = p'.sent := by
        intro X Y h1 h2; subst h1; rw [h2]; exact ⟨rfl, rfl⟩
      rw [← hs]
      refine key ?_ (h.trans rfl)
      cases code <;> first | exact absurd rfl hc | rfl

/-- A request that is written and then answered. -/
theorem request_cases {α : Type} (m : AcnMessage) (k : PipeM α) (pa : Pipe) :
    (∃ b p1, m.encode = some b ∧ p1.reads = pa.reads ∧ p1.sent = pa.sent ++ [b] ∧
      ((sendMessage m).bind fun _ => k) pa = k p1) ∨
    (∃ e p', ((sendMessage m).bind fun _ => k) pa = (.err e, p') ∧ (e = .write ∨ e = .marshal) ∧
      (m.encode = none ∨ pa.writes.head? ≠ some true)) := by
  rcases sendMessage_cases m pa with ⟨p', h⟩ | ⟨p', h, hw⟩ | ⟨p', h, hw⟩
  · obtain ⟨b, rest, hb, _, hp⟩ := sendMessage_ok.1 h
    refine .inl ⟨b, p', hb, by rw [hp], by rw [hp], ?_⟩
    simp only [PipeM.bind, h]
  · exact .inr ⟨.write, p', by simp only [PipeM.bind, h], .inl rfl, .inr hw⟩
  · exact .inr ⟨.marshal, p', by simp only [PipeM.bind, h], .inr rfl, .inl hw⟩

/-- The part of `sendRegister` after the write. -/
def awaitRegistered : PipeM Unit :=
  readStatus.bind fun s =>
    match s with
    | none => .crash
    | some b => if b.code ≠ StatusCode.success.toInt then .fail (.refused b.code) else .pure ()

theorem sendRegister_eq (r : Option AgentRecord) :
    sendRegister r = (sendMessage (some (.register r))).bind fun _ => awaitRegistered := rfl

theorem read_sent (p : Pipe) : (Pipe.read p).2.sent = p.sent := by
  unfold Pipe.read
  split <;> rfl

theorem readStatus_sent (p : Pipe) : (readStatus p).2.sent = p.sent := by
  have := read_sent p
  unfold readStatus PipeM.bind
  generalize Pipe.read p = g at *
  obtain ⟨r, p'⟩ := g
  cases r with
  | ok buf =>
    dsimp only
    rcases AcnMessage.decode buf with _ | _ | ⟨e, r⟩ | a | r | r | (_ | b) <;> exact this
  | err e => exact this
  | panic => exact this

theorem readLookupResponse_sent (p : Pipe) : (readLookupResponse p).2.sent = p.sent := by
  have := read_sent p
  unfold readLookupResponse PipeM.bind
  generalize Pipe.read p = g at *
  obtain ⟨r, p'⟩ := g
  cases r with
  | ok buf =>
    dsimp only
    rcases AcnMessage.decode buf with _ | _ | ⟨e, r⟩ | a | r | r | (_ | b) <;> exact this
  | err e => exact this
  | panic => exact this

theorem awaitRegistered_sent (p : Pipe) : (awaitRegistered p).2.sent = p.sent := by
  have := readStatus_sent p
  unfold awaitRegistered
  generalize hg : readStatus p = g at *
  obtain ⟨r, p'⟩ := g
  simp only [PipeM.bind, hg]
  cases r with
  | ok b =>
    cases b with
    | none => exact this
    | some b => dsimp only; split <;> exact this
  | err e => exact this
  | panic => exact this

/-- What comes of waiting for the answer to a registration. -/
theorem awaitRegistered_cases (p : Pipe) :
    (∃ buf rest b, p.reads = some buf :: rest ∧ AcnMessage.decode buf = some (some (.status b)) ∧
      (awaitRegistered p).1 = match b with
        | none => .panic
        | some s => if s.code = 0 then .ok () else .err (.refused s.code)) ∨
    ((∃ e, (awaitRegistered p).1 = .err e ∧ (e = .read ∨ e = .decode ∨ e = .unexpected)) ∧
      ∀ buf rest, p.reads = some buf :: rest → ∀ b, AcnMessage.decode buf ≠ some (some (.status b))) := by
  rcases hr : p.reads with _ | ⟨_ | buf, rest⟩
  · refine .inr ⟨⟨.read, ?_, .inl rfl⟩, by simp⟩
    simp [awaitRegistered, readStatus, PipeM.bind, Pipe.read, hr]
  · refine .inr ⟨⟨.read, ?_, .inl rfl⟩, by simp⟩
    simp [awaitRegistered, readStatus, PipeM.bind, Pipe.read, hr]
  · unfold awaitRegistered readStatus
    cases hd : AcnMessage.decode buf with
    | none =>
      refine .inr ⟨⟨.decode, ?_, .inr (.inl rfl)⟩, ?_⟩
      · simp [PipeM.bind, Pipe.read, hr, hd, PipeM.fail]
      · intro b' r' hb; cases hb; simp [hd]
    | some m =>
      rcases m with _ | ⟨e, r⟩ | a | r | r | b
      case some.status =>
        refine .inl ⟨buf, rest, b, rfl, hd, ?_⟩
        simp only [PipeM.bind, Pipe.read, hr, hd, PipeM.pure]
        cases b with
        | none => rfl
        | some s =>
          by_cases hc : s.code = 0 <;> simp [hc, StatusCode.toInt, PipeM.fail, PipeM.pure]
      all_goals
        refine .inr ⟨⟨.unexpected, ?_, .inr (.inr rfl)⟩, ?_⟩
        · simp [PipeM.bind, Pipe.read, hr, hd, PipeM.fail]
        · intro b' r' hb; cases hb; simp [hd]

theorem decode_register {r : AgentRecord} {b : Bytes}
    (h : AcnMessage.encode (some (.register (some r))) = some b) (hl : b.length < 2 ^ 64) :
    AcnMessage.decode b = some (some (.register (some r))) :=
  C18_acn_round_trip h (AcnMessage.codeFits rfl) hl

/-- If the agent reads an answer, the peer has read the registration. -/
theorem registration_answered {T : AcnTexts} {por : PoRCheck} {txt : StatusCode → Bytes} {key : Bytes}
    {r : AgentRecord} {pa pb : Pipe}
    (X : Exchange (sendRegister (some r)) (acceptRegistration T por txt key) pa pb)
    {b buf : Bytes} {rest : List (Option Bytes)} {x : Option StatusBody}
    (he : AcnMessage.encode (some (.register (some r))) = some b)
    (hs : (sendRegister (some r) pa).2.sent = [b]) (hr : pa.reads = some buf :: rest)
    (hd : AcnMessage.decode buf = some (some (.status x))) :
    (por r r.address key = .ok .success ∧ x = some ⟨0, []⟩ ∧
      ((acceptRegistration T por txt key pb).1 = .ok r ∨
        pb.writes.head? ≠ some true ∧ (acceptRegistration T por txt key pb).1 = .err .write)) ∨
    (∃ code, code ≠ .success ∧ por r r.address key = .ok code ∧ x = some ⟨code.toInt, [txt code]⟩ ∧
      (acceptRegistration T por txt key pb).1 = .err (.invalidPoR code)) := by
  obtain ⟨w', hw⟩ := X.back.read hr
  have hl : b.length < 2 ^ 64 := X.size b (by rw [hs]; simp)
  have hl' : buf.length < 2 ^ 64 := X.size buf (by rw [hw]; simp)
  have hf := X.forth
  rw [hs] at hf
  rcases hf.one with h | ⟨rest', h⟩
  · obtain ⟨p', hp, hsent⟩ := bind_read_fail h (fun buf =>
      match AcnMessage.decode buf with
      | none => (PipeM.ignoring (sendError (T.decodeError buf) .errorDecode)).bind fun _ =>
          .fail .decode
      | some (some (.register r)) => .pure r
      | some _ => (PipeM.ignoring (sendError unexpectedPayloadText .errorUnexpectedPayload)).bind
          fun _ => .fail .unexpected)
    have hread : readRegistration T pb = (.err .read, p') := hp
    have : acceptRegistration T por txt key pb = (.err .read, p') := by
      unfold acceptRegistration PipeM.bind
      rw [hread]
    rw [this, hsent, X.fresh.2] at hw
    simp at hw
  · rcases acceptRegistration_sent (T := T) (por := por) (txt := txt) (key := key) h
        (decode_register he hl) with ⟨_, hx⟩ | ⟨_, hx⟩ | ⟨hp, hx, ho⟩ | ⟨code, hc, hp, ho, hx⟩
    · rw [hw, X.fresh.2] at hx; simp at hx
    · rw [hw, X.fresh.2] at hx; simp at hx
    · rw [hw, X.fresh.2, List.nil_append] at hx
      exact .inl ⟨hp, decode_status_code hx.symm hl' hd, ho⟩
    · rw [hw, X.fresh.2, List.nil_append] at hx
      exact .inr ⟨code, hc, hp, decode_status_code hx.symm hl' hd, ho⟩

/-- What the agent finds out about its registration. -/
theorem registration_outcome {T : AcnTexts} {por : PoRCheck} {txt : StatusCode → Bytes} {key : Bytes}
    {r : AgentRecord} {pa pb : Pipe}
    (X : Exchange (sendRegister (some r)) (acceptRegistration T por txt key) pa pb) :
    ((sendRegister (some r) pa).1 = .ok () ∧ por r r.address key = .ok .success ∧
      ((acceptRegistration T por txt key pb).1 = .ok r ∨
        pb.writes.head? ≠ some true ∧ (acceptRegistration T por txt key pb).1 = .err .write)) ∨
    (∃ code, (sendRegister (some r) pa).1 = .err (.refused code.toInt) ∧ code ≠ .success ∧
      por r r.address key = .ok code ∧
      (acceptRegistration T por txt key pb).1 = .err (.invalidPoR code)) ∨
    (∃ e, (sendRegister (some r) pa).1 = .err e ∧ ∀ c, e ≠ .refused c) := by
  rcases request_cases (some (.register (some r))) awaitRegistered pa with
    ⟨b, p1, he, hreads, hsent, h⟩ | ⟨e, p', h, hor, _⟩
  · rw [← sendRegister_eq] at h
    have hs : (sendRegister (some r) pa).2.sent = [b] := by
      rw [h, awaitRegistered_sent, hsent, X.fresh.1]; rfl
    rcases awaitRegistered_cases p1 with ⟨buf, rest, x, hr, hd, hres⟩ | ⟨⟨e, hres, hor⟩, _⟩
    · rw [hreads] at hr
      rcases registration_answered X he hs hr hd with ⟨hp, hx, ho⟩ | ⟨code, hc, hp, hx, ho⟩
      · refine .inl ⟨?_, hp, ho⟩
        rw [h, hres, hx]; rfl
      · refine .inr (.inl ⟨code, ?_, hc, hp, ho⟩)
        rw [h, hres, hx]
        show (if code.toInt = 0 then _ else _) = _
        rw [if_neg]
        exact fun h0 => hc ((C55_status_codes code .success).1 h0)
    · refine .inr (.inr ⟨e, by rw [h]; exact hres, ?_⟩)
      rcases hor with rfl | rfl | rfl <;> simp
  · rw [← sendRegister_eq] at h
    refine .inr (.inr ⟨e, by rw [h], ?_⟩)
    rcases hor with rfl | rfl <;> simp

/-- **C55.** An agent that is told that it is registered is registered: the peer found its proof of
representation valid and has the very record that was sent, unless writing the answer reported an
error to the peer although it arrived. -/
theorem C55_registration_agreed {T : AcnTexts} {por : PoRCheck} {txt : StatusCode → Bytes} {key : Bytes}
    {r : AgentRecord} {pa pb : Pipe}
    (X : Exchange (sendRegister (some r)) (acceptRegistration T por txt key) pa pb)
    (h : (sendRegister (some r) pa).1 = .ok ()) :
    por r r.address key = .ok .success ∧
      ((acceptRegistration T por txt key pb).1 = .ok r ∨
        pb.writes.head? ≠ some true ∧ (acceptRegistration T por txt key pb).1 = .err .write) := by
  rcases registration_outcome X with ⟨_, h'⟩ | ⟨code, h', _⟩ | ⟨e, h', _⟩
  · exact h'
  all_goals rw [h] at h'; simp at h'

/-- **C55.** An agent that is told that its registration is refused, is told the result of the check
of its proof of representation, and is not registered. -/
theorem C55_registration_refusal_agreed {T : AcnTexts} {por : PoRCheck} {txt : StatusCode → Bytes}
    {key : Bytes} {r : AgentRecord} {pa pb : Pipe}
    (X : Exchange (sendRegister (some r)) (acceptRegistration T por txt key) pa pb) {c : Int}
    (h : (sendRegister (some r) pa).1 = .err (.refused c)) :
    ∃ code, c = code.toInt ∧ code ≠ .success ∧ por r r.address key = .ok code ∧
      (acceptRegistration T por txt key pb).1 = .err (.invalidPoR code) := by
  rcases registration_outcome X with ⟨h', _⟩ | ⟨code, h', h''⟩ | ⟨e, h', hne⟩
  · rw [h] at h'; simp at h'
  · rw [h] at h'; exact ⟨code, by simpa using h', h''⟩
  · rw [h] at h'
    exact absurd (Res.err.inj h').symm (hne c)

theorem ReliableExchange.exchange {α β : Type} {a : PipeM α} {b : PipeM β} {pa pb : Pipe}
    (X : ReliableExchange a b pa pb) : Exchange a b pa pb where
  fresh := X.fresh
  forth := ⟨(a pa).2.sent, [], [], by simp, by simp [X.forth], by simp⟩
  back := ⟨(b pb).2.sent, [], [], by simp, by simp [X.back], by simp⟩
  size := X.size

theorem status_encodes {c : Int} {msgs : List Bytes} (h : ∀ t ∈ msgs, IsText t) :
    ∃ b, AcnMessage.encode (some (.status (some ⟨c, msgs⟩))) = some b :=
  (C18_acn_encodes_iff (some (.status (some ⟨c, msgs⟩)))).2 (by simpa [AcnMessage.texts] using h)

/-- **C55.** Over a connection without faults the agent always learns the result of the check: it is
registered exactly if its proof of representation is valid, and otherwise gets the reason. -/
theorem C55_registration_reliable {T : AcnTexts} {por : PoRCheck} {txt : StatusCode → Bytes} {key : Bytes}
    {r : AgentRecord} {pa pb : Pipe} {code : StatusCode}
    (X : ReliableExchange (sendRegister (some r)) (acceptRegistration T por txt key) pa pb)
    (hr : ∀ t ∈ r.texts, IsText t) (ht : IsText (txt code)) (hp : por r r.address key = .ok code) :
    if code = .success then
      (sendRegister (some r) pa).1 = .ok () ∧ (acceptRegistration T por txt key pb).1 = .ok r
    else (sendRegister (some r) pa).1 = .err (.refused code.toInt) ∧
      (acceptRegistration T por txt key pb).1 = .err (.invalidPoR code) := by
  obtain ⟨b, he⟩ := (C18_acn_encodes_iff (some (.register (some r)))).2 (by
    simpa [AcnMessage.texts] using hr)
  rcases request_cases (some (.register (some r))) awaitRegistered pa with
    ⟨b', p1, he', hreads, hsent, h⟩ | ⟨e, p', h, hor, hx⟩
  rotate_left
  · rcases hx with hx | hx
    · rw [he] at hx; simp at hx
    · rw [X.writes.1] at hx; simp at hx
  rw [← sendRegister_eq] at h
  rw [he] at he'
  cases he'
  have hs : (sendRegister (some r) pa).2.sent = [b] := by
    rw [h, awaitRegistered_sent, hsent, X.fresh.1]; rfl
  have hl : b.length < 2 ^ 64 := X.size b (by rw [hs]; simp)
  have hf := X.forth
  rw [hs] at hf
  have hb := X.back
  have key2 : ∃ msgs buf, (∀ t ∈ msgs, IsText t) ∧
      AcnMessage.encode (some (.status (some ⟨code.toInt, msgs⟩))) = some buf ∧
      (acceptRegistration T por txt key pb).2.sent = [buf] := by
    rcases acceptRegistration_sent (T := T) (por := por) (txt := txt) (key := key)
      (show pb.reads = some b :: [] from hf) (decode_register he hl) with
      ⟨h1, _⟩ | ⟨⟨e, h1⟩, _⟩ | ⟨h1, h2, _⟩ | ⟨code', _, h1, _, h2⟩
    · rw [hp] at h1; simp at h1
    · rw [hp] at h1; simp at h1
    · rw [hp] at h1
      obtain rfl : code = .success := by simpa using h1
      obtain ⟨buf, hbuf⟩ := status_encodes (c := StatusCode.success.toInt) (msgs := []) (by simp)
      exact ⟨[], buf, by simp, hbuf, by rw [h2, hbuf, X.fresh.2]; rfl⟩
    · rw [hp] at h1
      obtain rfl : code = code' := by simpa using h1
      obtain ⟨buf, hbuf⟩ := status_encodes (c := code.toInt) (msgs := [txt code]) (by simpa using ht)
      exact ⟨[txt code], buf, by simpa using ht, hbuf, by rw [h2, hbuf, X.fresh.2]; rfl⟩
  obtain ⟨msgs, buf, _, hbuf, hsb⟩ := key2
  have hl' : buf.length < 2 ^ 64 := X.size buf (by rw [hsb]; simp)
  rw [hsb] at hb
  have hd := decode_status hbuf hl'
  rcases awaitRegistered_cases p1 with ⟨buf', rest, x, hr', hd', hres⟩ | ⟨_, hno⟩
  rotate_left
  · exact absurd hd (hno buf [] (by rw [hreads, hb]; rfl) _)
  rcases registration_outcome X.exchange with ⟨h1, h2, h3⟩ | ⟨code', h1, h2, h3, h4⟩ | ⟨e, h1, h2⟩
  · rw [hp] at h2
    obtain rfl : code = .success := by simpa using h2
    rw [if_pos rfl]
    refine ⟨h1, ?_⟩
    rcases h3 with h3 | ⟨h3, _⟩
    · exact h3
    · rw [X.writes.2] at h3; simp at h3
  · rw [hp] at h3
    obtain rfl : code = code' := by simpa using h3
    rw [if_neg h2]
    exact ⟨h1, h4⟩
  · rw [hreads, hb] at hr'
    simp only [List.map_cons, List.map_nil, List.cons.injEq, Option.some.injEq] at hr'
    rw [← hr'.1, hd] at hd'
    simp only [Option.some.injEq, Performative.status.injEq] at hd'
    rw [h, hres, ← hd'] at h1
    dsimp only at h1
    split at h1
    · simp at h1
    · exact absurd (Res.err.inj h1).symm (h2 _)

/-! ## Look-up -/

/-- What the handler of look-ups does with a request. -/
theorem handleAddressStream_sent {T : AcnTexts}
    {handler : Bytes → Res (StatusCode × Bytes) (Option AgentRecord)} {b address : Bytes} {pb : Pipe}
    {rest : List (Option Bytes)} (hr : pb.reads = some b :: rest)
    (hd : AcnMessage.decode b = some (some (.lookupRequest address))) :
    ((handler address = .panic ∨ handler address = .ok none) ∧
      (handleAddressStream T handler pb).2.sent = pb.sent ∧ (handleAddressStream T handler pb).1 = .panic) ∨
    (∃ code text, handler address = .err (code, text) ∧
      (handleAddressStream T handler pb).2.sent = pb.sent ++
        (AcnMessage.encode (some (.status (some ⟨code.toInt, [text]⟩)))).toList) ∨
    (∃ r, handler address = .ok (some r) ∧
      (handleAddressStream T handler pb).2.sent = pb.sent ++
        (AcnMessage.encode (some (.lookupResponse (some r)))).toList) := by
  have h1 : readLookupRequest T pb = (.ok address, { pb with reads := rest }) := by
    unfold readLookupRequest
    rw [bind_read hr, hd]
    rfl
  unfold handleAddressStream
  rw [bind_eq h1]
  rcases hh : handler address with (_ | r) | ⟨code, text⟩ | _
  · exact .inl ⟨.inr rfl, rfl, rfl⟩
  · refine .inr (.inr ⟨r, rfl, ?_⟩)
    have := sendMessage_sent (some (.lookupResponse (some r))) { pb with reads := rest }
    rcases sendMessage_cases (some (.lookupResponse (some r)))
      { pb with reads := rest } with ⟨p', h⟩ | ⟨p', h, _⟩ | ⟨p', h, _⟩ <;>
    · rw [h] at this
      simp only [PipeM.bind, sendLookupResponse, h]
      exact this
  · refine .inr (.inl ⟨code, text, rfl, ?_⟩)
    obtain ⟨p', h, hs, _⟩ := ignoring_sendMessage (α := AgentRecord)
      (some (.status (some ⟨code.toInt, [text]⟩))) (fun _ => .fail (.refused code.toInt))
      { pb with reads := rest }
    simp only [sendError]
    rw [h]
    exact hs
  · exact .inl ⟨.inl rfl, rfl, rfl⟩

theorem readLookupResponse_cases (p : Pipe) :
    (∃ buf rest, p.reads = some buf :: rest ∧
      ((∃ r, AcnMessage.decode buf = some (some (.lookupResponse r)) ∧ (readLookupResponse p).1 = .ok r) ∨
       (∃ b, AcnMessage.decode buf = some (some (.status b)) ∧
        (readLookupResponse p).1 = match b with
          | none => .panic
          | some s => .err (.refused s.code)))) ∨
    ((∃ e, (readLookupResponse p).1 = .err e ∧ (e = .read ∨ e = .decode ∨ e = .unexpected)) ∧
      ∀ buf rest, p.reads = some buf :: rest →
        (∀ b, AcnMessage.decode buf ≠ some (some (.status b))) ∧
        (∀ r, AcnMessage.decode buf ≠ some (some (.lookupResponse r)))) := by
  rcases hr : p.reads with _ | ⟨_ | buf, rest⟩
  · refine .inr ⟨⟨.read, ?_, .inl rfl⟩, by simp⟩
    simp [readLookupResponse, PipeM.bind, Pipe.read, hr]
  · refine .inr ⟨⟨.read, ?_, .inl rfl⟩, by simp⟩
    simp [readLookupResponse, PipeM.bind, Pipe.read, hr]
  · unfold readLookupResponse
    cases hd : AcnMessage.decode buf with
    | none =>
      refine .inr ⟨⟨.decode, ?_, .inr (.inl rfl)⟩, ?_⟩
      · simp [PipeM.bind, Pipe.read, hr, hd, PipeM.fail]
      · intro b' r' hb; cases hb; simp [hd]
    | some m =>
      rcases m with _ | ⟨e, r⟩ | a | r | r | b
      case some.status =>
        refine .inl ⟨buf, rest, rfl, .inr ⟨b, hd, ?_⟩⟩
        simp only [PipeM.bind, Pipe.read, hr, hd]
        cases b <;> rfl
      case some.lookupResponse =>
        refine .inl ⟨buf, rest, rfl, .inl ⟨r, hd, ?_⟩⟩
        simp only [PipeM.bind, Pipe.read, hr, hd, PipeM.pure]
      all_goals
        refine .inr ⟨⟨.unexpected, ?_, .inr (.inr rfl)⟩, ?_⟩
        · simp [PipeM.bind, Pipe.read, hr, hd, PipeM.fail]
        · intro b' r' hb; cases hb; simp [hd]

theorem performAddressLookup_eq (a : Bytes) :
    performAddressLookup a = (sendMessage (some (.lookupRequest a))).bind fun _ => readLookupResponse := rfl

/-- What the asking side finds out. -/
theorem lookup_outcome {T : AcnTexts}
    {handler : Bytes → Res (StatusCode × Bytes) (Option AgentRecord)} {address : Bytes} {pa pb : Pipe}
    (X : Exchange (performAddressLookup address) (handleAddressStream T handler) pa pb) :
    (∃ r, (performAddressLookup address pa).1 = .ok (some r) ∧ handler address = .ok (some r)) ∨
    (∃ code text, (performAddressLookup address pa).1 = .err (.refused code.toInt) ∧
      handler address = .err (code, text)) ∨
    (∃ e, (performAddressLookup address pa).1 = .err e ∧ ∀ c, e ≠ .refused c) := by
  rcases request_cases (some (.lookupRequest address)) readLookupResponse pa with
    ⟨b, p1, he, hreads, hsent, h⟩ | ⟨e, p', h, hor, _⟩
  · rw [← performAddressLookup_eq] at h
    have hs : (performAddressLookup address pa).2.sent = [b] := by
      rw [h, readLookupResponse_sent, hsent, X.fresh.1]; rfl
    have hl : b.length < 2 ^ 64 := X.size b (by rw [hs]; simp)
    have hdb : AcnMessage.decode b = some (some (.lookupRequest address)) := C18_acn_round_trip he (AcnMessage.codeFits rfl) hl
    rcases readLookupResponse_cases p1 with ⟨buf, rest, hr, hcase⟩ | ⟨⟨e, hres, hor⟩, _⟩
    · rw [hreads] at hr
      obtain ⟨w', hw⟩ := X.back.read hr
      have hl' : buf.length < 2 ^ 64 := X.size buf (by rw [hw]; simp)
      have hf := X.forth
      rw [hs] at hf
      rcases hf.one with h0 | ⟨rest', h0⟩
      · obtain ⟨p', hp, hsent'⟩ := bind_read_fail h0 (fun buf =>
          match AcnMessage.decode buf with
          | none => (PipeM.ignoring (sendError (T.decodeError buf) .errorDecode)).bind fun _ =>
              .fail .decode
          | some (some (.lookupRequest a)) => .pure a
          | some _ => (PipeM.ignoring (sendError unexpectedPayloadText .errorUnexpectedPayload)).bind
              fun _ => .fail .unexpected)
        have hread : readLookupRequest T pb = (.err .read, p') := hp
        have : handleAddressStream T handler pb = (.err .read, p') := by
          unfold handleAddressStream PipeM.bind
          rw [hread]
        rw [this, hsent', X.fresh.2] at hw
        simp at hw
      · rcases handleAddressStream_sent (T := T) (handler := handler) h0 hdb with
          ⟨_, hx, _⟩ | ⟨code, text, hh, hx⟩ | ⟨r, hh, hx⟩
        · rw [hw, X.fresh.2] at hx; simp at hx
        · rw [hw, X.fresh.2, List.nil_append] at hx
          refine .inr (.inl ⟨code, text, ?_, hh⟩)
          rcases hcase with ⟨r, hd, _⟩ | ⟨x, hd, hres⟩
          · exfalso
            cases hee : AcnMessage.encode (some (.status (some ⟨code.toInt, [text]⟩))) with
            | none => rw [hee] at hx; simp at hx
            | some b' =>
              rw [hee] at hx
              simp only [Option.toList_some, List.cons.injEq] at hx
              rw [← hx.1] at hee
              rw [decode_status hee hl'] at hd
              simp at hd
          · rw [h, hres, decode_status_code hx.symm hl' hd]
        · rw [hw, X.fresh.2, List.nil_append] at hx
          refine .inl ⟨r, ?_, hh⟩
          cases hee : AcnMessage.encode (some (.lookupResponse (some r))) with
          | none => rw [hee] at hx; simp at hx
          | some b' =>
            rw [hee] at hx
            simp only [Option.toList_some, List.cons.injEq] at hx
            rw [← hx.1] at hee
            have hd' : AcnMessage.decode buf = some (some (.lookupResponse (some r))) :=
              C18_acn_round_trip hee (AcnMessage.codeFits rfl) hl'
            rcases hcase with ⟨r', hd, hres⟩ | ⟨x, hd, hres⟩
            · rw [hd'] at hd
              simp only [Option.some.injEq, Performative.lookupResponse.injEq] at hd
              rw [h, hres, hd]
            · rw [hd'] at hd; simp at hd
    · refine .inr (.inr ⟨e, by rw [h]; exact hres, ?_⟩)
      rcases hor with rfl | rfl | rfl <;> simp
  · rw [← performAddressLookup_eq] at h
    refine .inr (.inr ⟨e, by rw [h], ?_⟩)
    rcases hor with rfl | rfl <;> simp

/-- **C55.** A look-up returns a record only if it is the one that the asked peer has for the asked
address. -/
theorem C55_lookup_agreed {T : AcnTexts}
    {handler : Bytes → Res (StatusCode × Bytes) (Option AgentRecord)} {address : Bytes} {pa pb : Pipe}
    (X : Exchange (performAddressLookup address) (handleAddressStream T handler) pa pb)
    {rec : Option AgentRecord} (h : (performAddressLookup address pa).1 = .ok rec) :
    rec ≠ none ∧ handler address = .ok rec := by
  rcases lookup_outcome X with ⟨r, h', hh⟩ | ⟨_, _, h', _⟩ | ⟨e, h', _⟩
  · rw [h] at h'
    cases h'
    exact ⟨by simp, hh⟩
  · rw [h] at h'; simp at h'
  · rw [h] at h'; simp at h'

/-- **C55.** A look-up is refused only if the asked peer refused it, with its code. -/
theorem C55_lookup_refusal_agreed {T : AcnTexts}
    {handler : Bytes → Res (StatusCode × Bytes) (Option AgentRecord)} {address : Bytes} {pa pb : Pipe}
    (X : Exchange (performAddressLookup address) (handleAddressStream T handler) pa pb)
    {c : Int} (h : (performAddressLookup address pa).1 = .err (.refused c)) :
    ∃ code text, handler address = .err (code, text) ∧ c = code.toInt := by
  rcases lookup_outcome X with ⟨r, h', hh⟩ | ⟨code, text, h', hh⟩ | ⟨e, h', hne⟩
  · rw [h] at h'; simp at h'
  · rw [h] at h'; exact ⟨code, text, hh, by simpa using h'⟩
  · rw [h] at h'
    exact absurd (Res.err.inj h').symm (hne c)

/-! ## Envelopes -/

/-- What the handler of envelopes does with an envelope message. -/
theorem handleEnvelopeStream_sent {T : AcnTexts} {por : PoRCheck} {key : Bytes}
    {handler : Envelope → Option (StatusCode × Bytes)} {b eb : Bytes} {rec : Option AgentRecord}
    {e : Envelope} {pb : Pipe} {rest : List (Option Bytes)} (hr : pb.reads = some b :: rest)
    (hd : AcnMessage.decode b = some (some (.aeaEnvelope eb rec))) (he : Envelope.decode eb = some e) :
    ((handleEnvelopeStream T por key handler pb).2.sent = pb.sent) ∨
    (∃ r code text, rec = some r ∧ por r r.address key = .ok code ∧ code ≠ .success ∧
      (handleEnvelopeStream T por key handler pb).2.sent = pb.sent ++
        (AcnMessage.encode (some (.status (some ⟨code.toInt, [text]⟩)))).toList) ∨
    (∃ r, rec = some r ∧ por r r.address key = .ok .success ∧
      (handleEnvelopeStream T por key handler pb).1 = .ok e ∧
      (handleEnvelopeStream T por key handler pb).2.sent = pb.sent ++
        (AcnMessage.encode (some (.status (some (match handler e with
          | none => ⟨StatusCode.success.toInt, []⟩
          | some (code, text) => ⟨code.toInt, [text]⟩))))).toList) := by
  have h1 : readEnvelope T pb = (.ok (eb, rec), { pb with reads := rest }) :=
    readEnvelope_ok.2 ⟨b, rest, hr, rfl, hd⟩
  rcases rec with _ | r
  · left
    unfold handleEnvelopeStream receiveEnvelopeFromPeer
    simp only [PipeM.bind, h1, he, PipeM.crash]
  cases hp : por r r.address key with
  | panic =>
    left
    unfold handleEnvelopeStream receiveEnvelopeFromPeer
    simp only [PipeM.bind, h1, he, hp, PipeM.crash]
  | err x =>
    left
    unfold handleEnvelopeStream receiveEnvelopeFromPeer
    simp only [PipeM.bind, h1, he, hp, PipeM.fail]
  | ok code =>
    by_cases hc : code = .success
    · subst hc
      refine .inr (.inr ⟨r, rfl, hp, ?_⟩)
      have h2 : receiveEnvelopeFromPeer T por key pb = (.ok e, { pb with reads := rest }) := by
        unfold receiveEnvelopeFromPeer
        simp only [PipeM.bind, h1, he, hp, PipeM.pure]
      unfold handleEnvelopeStream
      rw [bind_eq h2]
      rcases hh : handler e with _ | ⟨code, text⟩
      · obtain ⟨p', h, hs, _⟩ := ignoring_sendMessage (α := Envelope)
          (some (.status (some ⟨StatusCode.success.toInt, []⟩))) (fun _ => .pure e)
          { pb with reads := rest }
        simp only [sendSuccess]
        rw [h]
        exact ⟨rfl, hs⟩
      · obtain ⟨p', h, hs, _⟩ := ignoring_sendMessage (α := Envelope)
          (some (.status (some ⟨code.toInt, [text]⟩))) (fun _ => .pure e)
          { pb with reads := rest }
        simp only [sendError]
        rw [h]
        exact ⟨rfl, hs⟩
    · refine .inr (.inl ⟨r, code, b! "incoming envelope PoR is not valid", rfl, hp, hc, ?_⟩)
      obtain ⟨p', h, hs, _⟩ := ignoring_sendMessage (α := Envelope)
        (some (.status (some ⟨code.toInt, [b! "incoming envelope PoR is not valid"]⟩)))
        (fun _ => .fail (.invalidPoR code)) { pb with reads := rest }
      have h2 : receiveEnvelopeFromPeer T por key pb = (.err (.invalidPoR code), p') := by
        unfold receiveEnvelopeFromPeer
        rw [bind_eq h1]
        simp only [he, hp]
        refine Eq.trans ?_ (h.trans rfl)
        cases code <;> first | exact absurd rfl hc | rfl
      have h3 : handleEnvelopeStream T por key handler pb = (.err (.invalidPoR code), p') := by
        unfold handleEnvelopeStream PipeM.bind
        rw [h2]
      rw [h3]
      exact hs

/-- Send an envelope and wait for the answer; `_routeEnvelopeWithNewStream` and the node in client mode
do this on a new stream. -/
def sendAndAwait (eb : Bytes) (record : Option AgentRecord) : PipeM (Option StatusBody) :=
  (sendEnvelope eb record).bind fun _ => readStatus

/-- A sender that gets an answer gets the one of the handler. -/
theorem envelope_outcome {T : AcnTexts} {por : PoRCheck} {key : Bytes}
    {handler : Envelope → Option (StatusCode × Bytes)} {e : Envelope} {eb : Bytes}
    {rec : Option AgentRecord} {pa pb : Pipe} {x : Option StatusBody} (hee : e.encode = some eb)
    (hle : eb.length < 2 ^ 64)
    (X : Exchange (sendAndAwait eb rec) (handleEnvelopeStream T por key handler) pa pb)
    (h : (sendAndAwait eb rec pa).1 = .ok x) :
    ∃ r, rec = some r ∧
      ((∃ code text, por r r.address key = .ok code ∧ code ≠ .success ∧ x = some ⟨code.toInt, [text]⟩) ∨
       (por r r.address key = .ok .success ∧
        (handleEnvelopeStream T por key handler pb).1 = .ok e ∧
        x = some (match handler e with
          | none => ⟨StatusCode.success.toInt, []⟩
          | some (code, text) => ⟨code.toInt, [text]⟩))) := by
  rcases request_cases (some (.aeaEnvelope eb rec)) readStatus pa with
    ⟨b, p1, he, hreads, hsent, h0⟩ | ⟨e', p', h0, hor, _⟩
  rotate_left
  · have : sendAndAwait eb rec pa = (.err e', p') := h0
    rw [this] at h; simp at h
  have h0 : sendAndAwait eb rec pa = readStatus p1 := h0
  have hs : (sendAndAwait eb rec pa).2.sent = [b] := by
    rw [h0, readStatus_sent, hsent, X.fresh.1]; rfl
  have hl : b.length < 2 ^ 64 := X.size b (by rw [hs]; simp)
  have hdb : AcnMessage.decode b = some (some (.aeaEnvelope eb rec)) := C18_acn_round_trip he (AcnMessage.codeFits rfl) hl
  have hdec : Envelope.decode eb = some e := C19_envelope_round_trip hee hle
  rw [h0] at h
  obtain ⟨buf, rest, hr, hd⟩ := readStatus_ok (p := p1) (p' := (readStatus p1).2) (b := x)
    (by rw [← h])
  rw [hreads] at hr
  obtain ⟨w', hw⟩ := X.back.read hr
  have hl' : buf.length < 2 ^ 64 := X.size buf (by rw [hw]; simp)
  have hf := X.forth
  rw [hs] at hf
  rcases hf.one with h2 | ⟨rest', h2⟩
  · exfalso
    obtain ⟨p', hp, hsent'⟩ := bind_read_fail h2 (fun buf =>
      match decodeAcnMessage T buf with
      | .error (code, text) => (PipeM.ignoring (sendError text code)).bind fun _ =>
          .fail (if code = .errorDecode then .decode else .unexpected)
      | .ok (.aeaEnvelope e r) => .pure (e, r)
      | .ok (.status _) => .fail .unexpected)
    have hread : readEnvelope T pb = (.err .read, p') := hp
    have : handleEnvelopeStream T por key handler pb = (.err .read, p') := by
      simp only [handleEnvelopeStream, receiveEnvelopeFromPeer, PipeM.bind, hread]
    rw [this, hsent', X.fresh.2] at hw
    simp at hw
  · rcases handleEnvelopeStream_sent (T := T) (por := por) (key := key) (handler := handler) h2 hdb hdec with
      hx | ⟨r, code, text, hrec, hp, hc, hx⟩ | ⟨r, hrec, hp, ho, hx⟩
    · rw [hw, X.fresh.2] at hx; simp at hx
    · rw [hw, X.fresh.2, List.nil_append] at hx
      exact ⟨r, hrec, .inl ⟨code, text, hp, hc, decode_status_code hx.symm hl' hd⟩⟩
    · refine ⟨r, hrec, .inr ⟨hp, ho, ?_⟩⟩
      rw [hw, X.fresh.2, List.nil_append] at hx
      rcases hh : handler e with _ | ⟨code, text⟩
      · rw [hh] at hx
        exact decode_status_code hx.symm hl' hd
      · rw [hh] at hx
        exact decode_status_code hx.symm hl' hd

/-- The frames written to streams. -/
def streamed : List Act → List Bytes
  | [] => []
  | .stream _ d :: rest => d :: streamed rest
  | _ :: rest => streamed rest

/-- The handler of a node does not report success as an error. -/
def NoFalseError (handler : Envelope → Option (StatusCode × Bytes)) : Prop :=
  ∀ e text, handler e ≠ some (.success, text)

/-- **C55.** A peer that sends an envelope to another one over a new stream and reports success has
delivered it: the other peer found the record that came with it proven for the sending peer and its
handler accepted that very envelope. -/
theorem C55_envelope_agreed {T : AcnTexts} {por : PoRCheck} {key : Bytes}
    {handler : Envelope → Option (StatusCode × Bytes)} (hh : NoFalseError handler)
    {n : Net} {peer : Bytes} {rec : Option AgentRecord} {e : Envelope} {p0 pb : Pipe}
    (hsz : ∀ eb, e.encode = some eb → eb.length < 2 ^ 64)
    (hp : n.stream peer = some p0) (hpb : pb.sent = [])
    (forth : Carries (streamed (routeWithNewStream n peer rec e).1) pb.reads)
    (back : Carries (handleEnvelopeStream T por key handler pb).2.sent p0.reads)
    (size : ∀ f ∈ streamed (routeWithNewStream n peer rec e).1 ++
      (handleEnvelopeStream T por key handler pb).2.sent, f.length < 2 ^ 64)
    (h : (routeWithNewStream n peer rec e).2 = .ok) :
    ∃ r, rec = some r ∧ por r r.address key = .ok .success ∧
      (handleEnvelopeStream T por key handler pb).1 = .ok e ∧ handler e = none := by
  cases hee : e.encode with
  | none => simp [routeWithNewStream, hp, hee] at h
  | some eb =>
    have hsd : ∀ l : List Bytes, streamed (l.map (.stream peer) ++ [.dec]) = l := by
      intro l; induction l with
      | nil => rfl
      | cons b l ih => simp only [List.map_cons, List.cons_append, streamed, ih]
    have key2 : ∃ x : StatusBody, (sendAndAwait eb rec { p0 with sent := [] }).1 = .ok (some x) ∧
        x.code = StatusCode.success.toInt ∧
        streamed (routeWithNewStream n peer rec e).1 = (sendAndAwait eb rec { p0 with sent := [] }).2.sent := by
      simp only [routeWithNewStream, hp, hee] at h ⊢
      generalize hg : sendEnvelope eb rec { p0 with sent := [] } = g at h ⊢
      obtain ⟨res, p⟩ := g
      cases res with
      | err _ => simp at h
      | panic => simp at h
      | ok u =>
        have h1 : sendAndAwait eb rec { p0 with sent := [] } = readStatus p := by
          unfold sendAndAwait
          rw [bind_eq hg]
        rw [h1, readStatus_sent]
        dsimp only at h ⊢
        rcases hst : (readStatus p).1 with (_ | x) | _ | _
        · rw [hst] at h; simp at h
        · rw [hst] at h
          refine ⟨x, rfl, ?_, hsd _⟩
          dsimp only at h
          split at h
          · simp at h
          · rename_i hc; exact Decidable.of_not_not hc
        · rw [hst] at h; simp at h
        · rw [hst] at h; simp at h
    obtain ⟨x, hx, hcode, hstr⟩ := key2
    rw [hstr] at forth size
    have X : Exchange (sendAndAwait eb rec) (handleEnvelopeStream T por key handler)
        { p0 with sent := [] } pb := ⟨⟨rfl, hpb⟩, forth, back, size⟩
    obtain ⟨r, hrec, hcase⟩ := envelope_outcome hee (hsz eb hee) X hx
    refine ⟨r, hrec, ?_⟩
    rcases hcase with ⟨code, text, _, hc, hxx⟩ | ⟨hpor, hok, hxx⟩
    · exfalso
      cases hxx
      exact hc ((C55_status_codes code .success).1 hcode)
    · refine ⟨hpor, hok, ?_⟩
      rcases hhe : handler e with _ | ⟨code, text⟩
      · rfl
      · exfalso
        rw [hhe] at hxx
        cases hxx
        have := (C55_status_codes code .success).1 hcode
        subst this
        exact hh e text hhe

/-- The frames written by a client. -/
def clientWritten : List ClientAct → List Bytes
  | [] => []
  | .write _ _ d :: rest => d :: clientWritten rest
  | .agent _ :: rest => clientWritten rest

theorem clientWritten_map (kind : StreamKind) (peer : Bytes) (l : List Bytes) :
    clientWritten (l.map (.write kind peer)) = l := by
  induction l with
  | nil => rfl
  | cons b l ih => simp only [List.map_cons, clientWritten, ih]

/-- **C55.** The same for a node in client mode that sends an envelope to a peer. -/
theorem C55_client_envelope_agreed {T : AcnTexts} {por : PoRCheck} {key : Bytes}
    {handler : Envelope → Option (StatusCode × Bytes)} (hh : NoFalseError handler)
    {c : DhtClient} {peer : Bytes} {e : Envelope} {p0 pb : Pipe}
    (hsz : ∀ eb, e.encode = some eb → eb.length < 2 ^ 64) (hpb : pb.sent = [])
    (forth : Carries (clientWritten (clientTransmit c e peer p0).1) pb.reads)
    (back : Carries (handleEnvelopeStream T por key handler pb).2.sent p0.reads)
    (size : ∀ f ∈ clientWritten (clientTransmit c e peer p0).1 ++
      (handleEnvelopeStream T por key handler pb).2.sent, f.length < 2 ^ 64)
    (h : (clientTransmit c e peer p0).2 = .ok .ok) :
    ∃ r, c.myRecord = some r ∧ por r r.address key = .ok .success ∧
      (handleEnvelopeStream T por key handler pb).1 = .ok e ∧ handler e = none := by
  cases hee : e.encode with
  | none => simp [clientTransmit, hee, ClientM.stop] at h
  | some eb =>
    have key2 : ∃ x : StatusBody, (sendAndAwait eb c.myRecord { p0 with sent := [] }).1 = .ok (some x) ∧
        x.code = StatusCode.success.toInt ∧
        clientWritten (clientTransmit c e peer p0).1 =
          (sendAndAwait eb c.myRecord { p0 with sent := [] }).2.sent := by
      simp only [clientTransmit, hee, ClientM.onStream] at h ⊢
      generalize hg : sendEnvelope eb c.myRecord { p0 with sent := [] } = g at h ⊢
      obtain ⟨res, p⟩ := g
      cases res with
      | err _ => simp [ClientM.bind] at h
      | panic => simp [ClientM.bind] at h
      | ok u =>
        have h1 : sendAndAwait eb c.myRecord { p0 with sent := [] } = readStatus p := by
          unfold sendAndAwait
          rw [bind_eq hg]
        have hsame : ∀ q : Pipe, (readStatus { q with sent := [] }).1 = (readStatus q).1 := by
          intro q
          obtain ⟨reads, writes, sent⟩ := q
          unfold readStatus PipeM.bind Pipe.read
          rcases reads with _ | ⟨_ | b, rest⟩ <;> dsimp only
          rcases AcnMessage.decode b with _ | _ | ⟨e, r⟩ | a | r | r | (_ | b) <;> rfl
        rw [h1, readStatus_sent]
        simp only [ClientM.bind, clientAwait, ClientM.onStream] at h ⊢
        generalize hg2 : readStatus { p with sent := [] } = g2 at h ⊢
        obtain ⟨res2, p2⟩ := g2
        have hp2 : p2.sent = [] := by
          have := readStatus_sent { p with sent := [] }
          rw [hg2] at this; exact this
        have hr2 := hsame p
        rw [hg2] at hr2
        dsimp only at hr2
        rcases res2 with (_ | x) | _ | _
        · simp [ClientM.stop] at h
        · rw [← hr2]
          refine ⟨x, rfl, ?_, ?_⟩
          · simp only [ClientM.pure, Except.ok.injEq] at h
            split at h
            · simp at h
            · rename_i hc; exact Decidable.of_not_not hc
          · simp [ClientM.pure, hp2, clientWritten_map]
        · simp at h
        · simp at h
    obtain ⟨x, hx, hcode, hstr⟩ := key2
    rw [hstr] at forth size
    have X : Exchange (sendAndAwait eb c.myRecord) (handleEnvelopeStream T por key handler)
        { p0 with sent := [] } pb := ⟨⟨rfl, hpb⟩, forth, back, size⟩
    obtain ⟨r, hrec, hcase⟩ := envelope_outcome hee (hsz eb hee) X hx
    refine ⟨r, hrec, ?_⟩
    rcases hcase with ⟨code, text, _, hc, hxx⟩ | ⟨hpor, hok, hxx⟩
    · exfalso
      cases hxx
      exact hc ((C55_status_codes code .success).1 hcode)
    · refine ⟨hpor, hok, ?_⟩
      rcases hhe : handler e with _ | ⟨code, text⟩
      · rfl
      · exfalso
        rw [hhe] at hxx
        cases hxx
        have := (C55_status_codes code .success).1 hcode
        subst this
        exact hh e text hhe

/-- **C55.** Peers that follow the protocol do not crash those that ask them. -/
theorem C55_no_crash {T : AcnTexts} {por : PoRCheck} {txt : StatusCode → Bytes} {key : Bytes}
    {handler : Bytes → Res (StatusCode × Bytes) (Option AgentRecord)} {pa pb : Pipe} :
    (∀ r, Exchange (sendRegister (some r)) (acceptRegistration T por txt key) pa pb →
      (sendRegister (some r) pa).1 ≠ .panic) ∧
    (∀ address, Exchange (performAddressLookup address) (handleAddressStream T handler) pa pb →
      (performAddressLookup address pa).1 ≠ .panic ∧ (performAddressLookup address pa).1 ≠ .ok none) := by
  constructor
  · intro r X
    rcases registration_outcome X with ⟨h', _⟩ | ⟨_, h', _⟩ | ⟨e, h', _⟩ <;> rw [h'] <;> simp
  · intro a X
    rcases lookup_outcome X with ⟨r, h', _⟩ | ⟨_, _, h', _⟩ | ⟨e, h', _⟩ <;> rw [h'] <;> simp

namespace ExchangeDemo

/-- The agent's end of a registration that is accepted. -/
def agentEnd : Pipe :=
  ⟨[AcnMessage.encode (some (.status (some ⟨0, []⟩)))], [true, true], []⟩
/-- The agent's end of a registration that is refused. -/
def refusedEnd : Pipe :=
  ⟨[AcnMessage.encode (some (.status (some ⟨11, [b! "wrong key"]⟩)))], [true, true], []⟩
/-- The peer's end. -/
def peerEnd : Pipe :=
  ⟨[AcnMessage.encode (some (.register (some PoRDemo.good)))], [true, true], []⟩
/-- Text of a refusal. -/
def text : StatusCode → Bytes := fun _ => b! "wrong key"

set_option maxRecDepth 100000 in
/-- An accepted registration between two ends of a connection. -/
example : ReliableExchange (sendRegister (some PoRDemo.good))
    (acceptRegistration HandlersDemo.T HandlersDemo.por text (b! "pk")) agentEnd peerEnd where
  fresh := by decide
  forth := by decide
  back := by decide
  writes := by decide
  size := by decide

set_option maxRecDepth 100000 in
/-- A refused one: the peer has another key. -/
theorem refused : ReliableExchange (sendRegister (some PoRDemo.good))
    (acceptRegistration HandlersDemo.T HandlersDemo.por text (b! "xx")) refusedEnd peerEnd where
  fresh := by decide
  forth := by decide
  back := by decide
  writes := by decide
  size := by decide

set_option maxRecDepth 100000 in
example : (sendRegister (some PoRDemo.good) refusedEnd).1 = .err (.refused 11) ∧
    (acceptRegistration HandlersDemo.T HandlersDemo.por text (b! "xx") peerEnd).1 =
      .err (.invalidPoR .errorWrongPublicKey) :=
  C55_registration_reliable (code := .errorWrongPublicKey) refused (by
    simp only [← Proto.utf8Valid_iff]; decide) (by simp only [← Proto.utf8Valid_iff]; decide) (by decide)

/-- A connection that breaks after the answer was written: the peer has the record, the agent has an
error that is not a refusal. Agreement is one-sided. -/
def brokenEnd : Pipe := ⟨[none], [true, true], []⟩

set_option maxRecDepth 100000 in
example : Exchange (sendRegister (some PoRDemo.good))
    (acceptRegistration HandlersDemo.T HandlersDemo.por text (b! "pk")) brokenEnd peerEnd where
  fresh := by decide
  forth := ⟨(sendRegister (some PoRDemo.good) brokenEnd).2.sent, [], [], by simp, by decide, by simp⟩
  back := ⟨[], _, [none], rfl, rfl, by simp⟩
  size := by decide

set_option maxRecDepth 100000 in
/-- **C55, the converse is false**: the peer may have registered an agent that does not know. -/
theorem one_sided : (sendRegister (some PoRDemo.good) brokenEnd).1 = .err .read ∧
    (acceptRegistration HandlersDemo.T HandlersDemo.por text (b! "pk") peerEnd).1 = .ok PoRDemo.good := by
  decide

end ExchangeDemo

end Verif
