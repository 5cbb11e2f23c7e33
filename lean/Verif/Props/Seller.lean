import Verif.Model.Seller
import Verif.Lemmas.Calm
import Verif.Lemmas.Decoded
import Verif.Props.Conversation
import Verif.Props.Messages

/-!
# Properties C75, C76 and C77

What the seller agent does with arbitrary envelopes: when it crashes, what it sends, and which deals it
completes.
-/

namespace Verif

open Proto

namespace Seller

/-- The agent reads the message `m` in the envelope. -/
def Hears (structOk : Bytes → Bool) (e : Envelope) (m : Message) : Prop :=
  e.protocolId = fipaProtocol ∧ ∃ c, unwrapEnvelope structOk Fipa.performativeOf e = .ok (m, c)

/-- The message is for the agent, but neither opens a dialogue nor belongs to one the agent has. -/
def Astray (address : Bytes) (s : Sys) (m : Message) : Prop :=
  m.sender ≠ [] ∧ m.sender ≠ address ∧ m.to = address ∧
  ((m.reference.starter = [] ∧ m.reference.responder ≠ []) ∨
   (m.reference.starter ≠ [] ∧
    (m.reference.responder ≠ [] ∨ (m.messageId ≠ 1 ∧ m.messageId ≠ 0)) ∧
    s.byLabel.get (s.latestLabel ⟨m.reference, m.sender, m.sender⟩) = none))

/-- The performatives that can be read from an envelope: JSON names. -/
def Wire (p : Bytes) : Prop :=
  p ∈ [b! "accept", b! "acceptWInform", b! "cfp", b! "decline", b! "end", b! "inform", b! "matchAccept",
    b! "matchAcceptWInform", b! "propose"]

/-- The performatives of the agent. -/
def Own (p : Bytes) : Prop := p = b! "propose" ∨ p = b! "match_accept"

/-- What holds between two envelopes. -/
structure Inv (address : Bytes) (s : Sys) : Prop where
  inv : SInv address false rules s
  minv : MInv s
  xinv : XInv s
  calm : AllCalm Own Wire address s

theorem Inv.init (address : Bytes) : Inv address (start address) :=
  ⟨SInv.init, MInv.init _ _ _, XInv.init _ _ _, by intro p d hd; simp [start, Sys.new] at hd⟩

variable {structOk : Bytes → Bool} {address : Bytes} {s : Sys} {e : Envelope} {n : Bytes} {m : Message}

theorem empty_performative : Fipa.performativeOf [] = none := by decide

theorem jsonName_wire (k : Nat) : Wire (Fipa.jsonName k) := by
  unfold Fipa.jsonName
  repeat' split
  all_goals (unfold Wire; decide)

/-- What is known of a message that was read. -/
theorem hears_fields (h : Hears structOk e m) :
    m.sender = e.sender ∧ m.to = e.to ∧ isInt32 m.messageId = true ∧ isInt32 m.target = true ∧
    utf8Valid m.reference.starter = true ∧ utf8Valid m.reference.responder = true ∧ Wire m.performative := by
  obtain ⟨_, c, hu⟩ := h
  unfold unwrapEnvelope at hu
  cases hd : AeaMessage.decode structOk e.message with
  | none => rw [hd] at hu; simp at hu
  | some x =>
    rw [hd] at hu
    dsimp only at hu
    split at hu
    · simp at hu
    · rename_i q hq
      split at hu
      · simp at hu
      · rename_i d hdm
        have hx : x = some (.dialogue d) := by
          split at hdm
          · simp at hdm; rw [hdm]
          · simp at hdm
        rw [hx] at hd
        obtain ⟨g1, g2, g3⟩ := AeaMessage.decode_good hd
        simp only [DialogueMessage.utf8, Bool.and_eq_true] at g1
        simp only [Res.ok.injEq, Prod.mk.injEq] at hu
        rw [← hu.1]
        refine ⟨rfl, rfl, g2, g3, g1.1, g1.2, ?_⟩
        unfold Fipa.performativeOf at hq
        split at hq
        · simp at hq; rw [← hq]; exact jsonName_wire _
        · simp at hq

/-- An envelope in which no message is read has no effect. -/
theorem handle_unheard (h : ¬ ∃ m, Hears structOk e m) :
    (handle structOk s e n).1 = s ∧ (handle structOk s e n).2 ≠ .crashed := by
  unfold handle
  by_cases hp : e.protocolId = fipaProtocol
  · rw [if_neg (not_not_intro hp)]
    have hn := C51_unwrap_never_crashes structOk Fipa.performativeOf empty_performative e
    cases hu : unwrapEnvelope structOk Fipa.performativeOf e with
    | panic => rw [hu] at hn; exact hn.elim
    | err x => simp
    | ok mc =>
      obtain ⟨m, c⟩ := mc
      exact absurd ⟨m, hp, c, hu⟩ h
  · rw [if_pos hp]; simp

/-- What is done with a message that was read. -/
theorem handle_heard (h : Hears structOk e m) : handle structOk s e n =
    match s.update m n with
      | (s1, .panic) => (s1, .crashed)
      | (s1, .err x) => (s1, .refused x)
      | (s1, .ok p) =>
        match answer m.performative with
        | none => (s1, if m.performative = b! "end" then .complete else .unsupported)
        | some (perf, content) =>
          match p with
          | none => (s1, .crashed)
          | some p =>
            match s1.reply p perf (some m) none with
            | (s2, .panic) => (s2, .crashed)
            | (s2, .err x) => (s2, .noReply x)
            | (s2, .ok r) =>
              match makeResponseEnvelope r fipaProtocol content with
              | .ok env => (s2, .sent env)
              | .err x => (s2, .notPacked x)
              | .panic => (s2, .crashed) := by
  obtain ⟨hp, c, hu⟩ := h
  unfold handle
  rw [if_neg (not_not_intro hp), hu]
  rfl

theorem makeResponse_not_panic {r : Message} {pid content : Bytes} :
    makeResponseEnvelope r pid content ≠ .panic := by
  unfold makeResponseEnvelope
  dsimp only
  split <;> simp

theorem answer_cases {perf : Bytes} {x : Bytes × Bytes} (h : answer perf = some x) :
    (perf = b! "cfp" ∧ x = (b! "propose", proposeContent)) ∨
    (perf = b! "accept" ∧ x = (b! "match_accept", matchContent)) := by
  unfold answer at h
  split at h
  · left; exact ⟨by assumption, (Option.some.inj h).symm⟩
  · split at h
    · right; exact ⟨by assumption, (Option.some.inj h).symm⟩
    · simp at h

theorem answered_not_terminal {perf : Bytes} {x : Bytes × Bytes} (h : answer perf = some x) :
    perf ∉ rules.terminal := by
  rcases answer_cases h with ⟨rfl, _⟩ | ⟨rfl, _⟩ <;> decide

theorem answer_own {perf : Bytes} {x : Bytes × Bytes} (h : answer perf = some x) : Own x.1 := by
  rcases answer_cases h with ⟨_, rfl⟩ | ⟨_, rfl⟩
  · exact Or.inl rfl
  · exact Or.inr rfl

theorem answer_isSome {perf : Bytes} : (∃ x, answer perf = some x) ↔ perf = b! "cfp" ∨ perf = b! "accept" := by
  unfold answer
  constructor
  · rintro ⟨x, h⟩
    split at h
    · exact Or.inl ‹_›
    · split at h
      · exact Or.inr ‹_›
      · simp at h
  · rintro (h | h)
    · rw [if_pos h]; exact ⟨_, rfl⟩
    · rw [h]; exact ⟨_, rfl⟩

/-- The invariant, and when the agent crashes. -/
theorem Inv.handle (h : Inv address s) (hm : Hears structOk e m) :
    (((Seller.handle structOk s e n).2 = .crashed ↔
      (m.performative = b! "cfp" ∨ m.performative = b! "accept") ∧ Astray address s m)) ∧
    ((Seller.handle structOk s e n).2 ≠ .crashed → Inv address (Seller.handle structOk s e n).1) := by
  have hnone := h.calm.update_none_iff (n := n) (m := m) h.inv h.xinv h.minv
  rw [handle_heard hm, ← answer_isSome]
  rcases hu : s.update m n with ⟨s1, r⟩
  obtain ⟨hr, hc1, hadd⟩ := h.calm.update h.inv h.xinv (hears_fields hm).2.2.2.2.2.2 hu
  have hi1 := h.inv.update hu hr
  have hm1 := h.minv.update hu hr
  have hx1 := h.xinv.update h.inv hu hr
  rw [hu] at hnone
  simp only at hnone
  change _ ↔ Astray address s m at hnone
  cases r with
  | panic => exact absurd rfl hr
  | err x =>
    simp only [reduceCtorEq, false_iff, not_and, ne_eq, not_false_eq_true, forall_const]
    refine ⟨fun _ ha => ?_, ⟨hi1, hm1, hx1, hc1⟩⟩
    have := hnone.2 ha; simp at this
  | ok p =>
    simp only
    cases ha : answer m.performative with
    | none =>
      simp only [reduceCtorEq, exists_false, false_and, iff_false]
      exact ⟨by split <;> simp, fun _ => ⟨hi1, hm1, hx1, hc1⟩⟩
    | some pc =>
      obtain ⟨perf, content⟩ := pc
      simp only
      cases p with
      | none =>
        refine ⟨⟨fun _ => ⟨⟨_, rfl⟩, hnone.1 rfl⟩, fun _ => rfl⟩, by simp⟩
      | some p =>
        have hna : ¬ Astray address s m := fun hh => by have := hnone.2 hh; simp at this
        obtain ⟨d, hd⟩ := hadd p rfl
        have hnt := answered_not_terminal ha
        simp only
        rcases hrep : s1.reply p perf (some m) none with ⟨s2, r2⟩
        obtain ⟨hr2, hc2⟩ := hc1.reply hi1 hx1 hd (answer_own ha) hnt hrep
        have hi2 := hi1.reply hrep hr2
        have hm2 := hm1.reply hrep hr2
        have hx2 := hx1.reply hi1 (hd.settled hnt) hrep hr2
        have good : Inv address s2 := ⟨hi2, hm2, hx2, hc2⟩
        cases r2 with
        | panic => exact absurd rfl hr2
        | err x => simp [hna, good]
        | ok r =>
          simp only
          cases hmk : makeResponseEnvelope r fipaProtocol content with
          | panic => exact absurd hmk makeResponse_not_panic
          | err x => simp [hna, good]
          | ok env => simp [hna, good]

theorem Reached.inv (h : Reached structOk address s) : Inv address s := by
  induction h with
  | start => exact Inv.init address
  | @next s e n _ hc ih =>
    by_cases hm : ∃ m, Hears structOk e m
    · obtain ⟨m, hm⟩ := hm
      exact (ih.handle hm).2 hc
    · rw [(handle_unheard hm).1]; exact ih

/-! ## C75 -/

/-- **C75.** The agent crashes exactly on a `cfp` or `accept` for it that neither opens a dialogue nor belongs
to one it has. Nothing else that anyone may send, in any order, crashes it; in particular the dialogues never
do. -/
theorem C75_crash_iff_partial (h : Reached structOk address s) (e : Envelope) (n : Bytes) :
    (handle structOk s e n).2 = .crashed ↔
      ∃ m, Hears structOk e m ∧ (m.performative = b! "cfp" ∨ m.performative = b! "accept") ∧
        Astray address s m := by
  by_cases hm : ∃ m, Hears structOk e m
  · obtain ⟨m, hm⟩ := hm
    rw [(h.inv.handle hm).1]
    constructor
    · exact fun hh => ⟨m, hm, hh⟩
    · rintro ⟨m', ⟨_, c', hm'⟩, hh⟩
      obtain ⟨_, c, hm⟩ := hm
      rw [hm] at hm'
      simp only [Res.ok.injEq, Prod.mk.injEq] at hm'
      rw [hm'.1]; exact hh
  · refine ⟨fun hc => absurd hc (handle_unheard hm).2, ?_⟩
    rintro ⟨m, hm', _⟩
    exact absurd ⟨m, hm'⟩ hm

/-- A message for the agent can be put into an envelope. -/
theorem envelope_for {m : Message} {c : Bytes} (hc : Fipa.performativeOf c = some m.performative)
    (hid : isInt32 m.messageId = true) (ht : isInt32 m.target = true)
    (hu : utf8Valid m.reference.starter = true ∧ utf8Valid m.reference.responder = true)
    (hl : (encodeFields (AeaMessage.fields (some (.dialogue
      ⟨m.messageId, m.reference.starter, m.reference.responder, m.target, c⟩)))).length < 2 ^ 64) :
    ∃ e : Envelope, e.sender = m.sender ∧ e.to = m.to ∧ ∀ structOk, Hears structOk e m := by
  have e1 := (toInt32_eq_iff m.messageId).2 hid
  have e2 := (toInt32_eq_iff m.target).2 ht
  have hid' : -2147483648 ≤ m.messageId ∧ m.messageId ≤ 2147483647 := by
    simp [isInt32] at hid; omega
  have ht' : -2147483648 ≤ m.target ∧ m.target ≤ 2147483647 := by
    simp [isInt32] at ht; omega
  have he : makeResponseEnvelope m fipaProtocol c = .ok
      { to := m.to, sender := m.sender, protocolId := fipaProtocol, uri := [],
        message := encodeFields (AeaMessage.fields (some (.dialogue
          ⟨m.messageId, m.reference.starter, m.reference.responder, m.target, c⟩))) } := by
    unfold makeResponseEnvelope
    dsimp only
    rw [e1, e2, if_pos (by simp [DialogueMessage.utf8, hu])]
  exact ⟨_, rfl, rfl, fun structOk => ⟨rfl, c, C15_message_survives_partial he hc hid' ht' hl⟩⟩

/-- A `FipaMessage` whose member is an empty message of the given number below 16. -/
def emptyMember (num : UInt8) : Bytes := [8 * num + 2, 0]

/-- **C75, no envelope crashes the agent: false.** Anyone can crash the agent in any state with one envelope. -/
theorem C75_counterexample (h : Reached structOk address s) (a : Bytes) (ha : a ≠ []) (hne : a ≠ address)
    (n : Bytes) : ∃ e : Envelope, e.sender = a ∧ e.to = address ∧ (handle structOk s e n).2 = .crashed := by
  obtain ⟨e, h1, h2, h3⟩ := envelope_for (m := ⟨address, a, ⟨[], b! "x"⟩, 1, 0, b! "cfp"⟩)
    (c := emptyMember 7) (by show Fipa.performativeOf (emptyMember 7) = some (b! "cfp"); decide)
    (by show isInt32 1 = true; decide)
    (by show isInt32 0 = true; decide) (by show utf8Valid [] = true ∧ utf8Valid (b! "x") = true; decide)
    (by show (encodeFields (AeaMessage.fields (some (.dialogue ⟨1, [], b! "x", 0, emptyMember 7⟩)))).length < 2 ^ 64
        decide)
  refine ⟨e, h1, h2, (C75_crash_iff_partial h e n).2 ⟨_, h3 structOk, Or.inl rfl, ?_⟩⟩
  exact ⟨ha, hne, rfl, Or.inl ⟨rfl, List.cons_ne_nil _ _⟩⟩

/-! ## C76 -/

/-- The declared replies. -/
theorem valid_reply {t p : Bytes} (h : IsValidReply rules t p) :
    (t = b! "cfp" ∧ p ∈ [b! "propose", b! "decline"]) ∨
    (t = b! "propose" ∧ p ∈ [b! "accept", b! "accept_w_inform", b! "decline", b! "propose"]) ∨
    (t = b! "accept" ∧ p ∈ [b! "decline", b! "match_accept", b! "match_accept_w_inform"]) ∨
    (t = b! "accept_w_inform" ∧ p ∈ [b! "decline", b! "match_accept", b! "match_accept_w_inform"]) ∨
    (t = b! "match_accept" ∧ p ∈ [b! "inform", b! "end"]) ∨
    (t = b! "match_accept_w_inform" ∧ p ∈ [b! "inform", b! "end"]) ∨
    (t = b! "inform" ∧ p ∈ [b! "inform", b! "end"]) := by
  obtain ⟨l, hl, hp⟩ := h
  unfold rules at hl
  simp only [GoMap.get_set] at hl
  split at hl
  · rw [← Option.some.inj hl] at hp; simp at hp
  split at hl
  · rename_i ht; rw [← Option.some.inj hl] at hp; exact Or.inr (Or.inr (Or.inr (Or.inr (Or.inr (Or.inr ⟨ht, hp⟩)))))
  split at hl
  · rename_i ht; rw [← Option.some.inj hl] at hp; exact Or.inr (Or.inr (Or.inr (Or.inr (Or.inr (Or.inl ⟨ht, hp⟩)))))
  split at hl
  · rename_i ht; rw [← Option.some.inj hl] at hp; exact Or.inr (Or.inr (Or.inr (Or.inr (Or.inl ⟨ht, hp⟩))))
  split at hl
  · rw [← Option.some.inj hl] at hp; simp at hp
  split at hl
  · rename_i ht; rw [← Option.some.inj hl] at hp; exact Or.inr (Or.inr (Or.inr (Or.inl ⟨ht, hp⟩)))
  split at hl
  · rename_i ht; rw [← Option.some.inj hl] at hp; exact Or.inr (Or.inr (Or.inl ⟨ht, hp⟩))
  split at hl
  · rename_i ht; rw [← Option.some.inj hl] at hp; exact Or.inr (Or.inl ⟨ht, hp⟩)
  split at hl
  · rename_i ht; rw [← Option.some.inj hl] at hp; exact Or.inl ⟨ht, hp⟩
  · simp at hl

/-- How another agent of this library reads the answer. -/
def wireName (perf : Bytes) : Bytes := if perf = b! "propose" then b! "propose" else b! "matchAccept"

theorem contents_read {perf : Bytes} {x : Bytes × Bytes} (h : answer perf = some x) :
    Fipa.performativeOf x.2 = some (wireName x.1) := by
  rcases answer_cases h with ⟨_, rfl⟩ | ⟨_, rfl⟩ <;> decide

/-- **C76.** Whatever the agent sends is the answer to the `cfp` or `accept` it just handled: it goes to the
sender of that envelope, proposes or confirms accordingly, targets that message, and is recorded as the last
own message of a dialogue with that sender, next to the message it answers. Another agent of this library reads
in it exactly that message, except that `match_accept` is read under its JSON name. -/
theorem C76_sent (h : Reached structOk address s) {s' : Sys} {env : Envelope}
    (hs : handle structOk s e n = (s', .sent env)) :
    ∃ (m r : Message) (p : Nat) (d : Dialogue),
      Hears structOk e m ∧ e.to = address ∧ e.sender ≠ address ∧ e.sender ≠ [] ∧
      ((m.performative = b! "cfp" ∧ r.performative = b! "propose") ∨
       (m.performative = b! "accept" ∧ r.performative = b! "match_accept")) ∧
      r.to = e.sender ∧ r.sender = address ∧ r.target = m.messageId ∧
      r.reference.starter = m.reference.starter ∧ r.reference = d.label.reference ∧
      s'.heap[p]? = some d ∧ d.label.opponent = e.sender ∧ d.incoming.getLast? = some m ∧
      d.outgoing.getLast? = some r ∧ r.messageId = -(d.outgoing.length : Int) ∧
      env.to = e.sender ∧ env.sender = address ∧ env.protocolId = fipaProtocol ∧
      (env.message.length < 2 ^ 64 → ∀ structOk', ∃ c,
        unwrapEnvelope structOk' Fipa.performativeOf env =
          .ok ({ r with performative := wireName r.performative }, c)) := by
  have hinv := h.inv
  by_cases hm : ∃ m, Hears structOk e m
  case neg =>
    exfalso
    have := handle_unheard (n := n) (s := s) hm
    unfold handle at hs
    by_cases hp : e.protocolId = fipaProtocol
    · rw [if_neg (not_not_intro hp)] at hs
      cases hu : unwrapEnvelope structOk Fipa.performativeOf e with
      | panic => rw [hu] at hs; simp at hs
      | err x => rw [hu] at hs; simp at hs
      | ok mc => exact hm ⟨mc.1, hp, mc.2, hu⟩
    · rw [if_pos hp] at hs; simp at hs
  obtain ⟨m, hm⟩ := hm
  obtain ⟨f1, f2, f3, f4, f5, f6, f7⟩ := hears_fields hm
  rw [handle_heard hm] at hs
  rcases hu : s.update m n with ⟨s1, r1⟩
  rw [hu] at hs
  obtain ⟨hr, hc1, hadd⟩ := hinv.calm.update hinv.inv hinv.xinv f7 hu
  have hi1 := hinv.inv.update hu hr
  cases r1 with
  | panic => simp at hs
  | err x => simp at hs
  | ok p =>
    simp only at hs
    cases ha : answer m.performative with
    | none => rw [ha] at hs; simp only at hs; split at hs <;> simp at hs
    | some pc =>
      obtain ⟨perf, content⟩ := pc
      rw [ha] at hs
      simp only at hs
      cases p with
      | none => simp at hs
      | some p =>
        simp only at hs
        obtain ⟨d, hd⟩ := hadd p rfl
        rcases hrep : s1.reply p perf (some m) none with ⟨s2, r2⟩
        rw [hrep] at hs
        cases r2 with
        | panic => simp at hs
        | err x => simp at hs
        | ok r =>
          simp only at hs
          cases hmk : makeResponseEnvelope r fipaProtocol content with
          | panic => rw [hmk] at hs; simp at hs
          | err x => rw [hmk] at hs; simp at hs
          | ok env' =>
            rw [hmk] at hs
            simp only [Prod.mk.injEq, Outcome.sent.injEq] at hs
            obtain ⟨rfl, rfl⟩ := hs
            obtain ⟨g1, g2, g3, _⟩ := Sys.update_accepted hinv.inv hu
            obtain ⟨d0, d', t, k1, k2, k3, k4, k5, k6, k7, k8, k9, k10⟩ := Sys.reply_accepted hi1 hrep
            rw [hd.here] at k1
            simp only [Option.some.injEq] at k1
            subst k1
            have hdi := hi1.heap p d hd.here
            have hmem : m ∈ d.incoming := List.mem_of_getLast? hd.last
            have hopp := (hdi.sentByPeer m hmem).1
            have htarget : r.target = m.messageId := by
              rcases Sys.reply_cases hrep with hp | ⟨_, hp, _⟩ | ⟨d1, m1, hd1, hm1, hdu⟩
              · simp at hp
              · simp at hp
              · rw [hd.here] at hd1
                simp only [Option.some.injEq] at hd1
                subst hd1
                have hm1r : r = m1 := by
                  obtain ⟨_, _, hs1, _⟩ := Dialogue.replyMessage_ok hm1
                  obtain ⟨d2, d2', t2, hd2, hc2, _⟩ := Sys.dialogueUpdate_ok hdu
                  rw [hd.here] at hd2
                  simp only [Option.some.injEq] at hd2
                  subst hd2
                  rw [(Dialogue.updateCore_ok hc2).1]
                  unfold Dialogue.withSender
                  split
                  · rfl
                  · rw [← hs1]
                subst hm1r
                unfold Dialogue.replyMessage at hm1
                cases hl : d.lastMessage with
                | none => rw [hl] at hm1; simp at hm1
                | some last =>
                  rw [hl] at hm1
                  simp only [Res.bind] at hm1
                  split at hm1
                  · split at hm1
                    · rw [← Res.ok.inj hm1]
                    · simp at hm1
                  · simp at hm1
                  · simp at hm1
            obtain ⟨hrec, _, _⟩ := (hc1 p d hd.here).own hdi (by rw [k8]; exact answer_own ha) k3 k9 hd.fewer
              (by intro l hl; rw [hd.last] at hl; simp only [Option.some.injEq] at hl; subst hl; exact hd.below)
            have hself : d.isSelfInitiated = false := by
              rcases hdi.kind with hk | ⟨hk, _⟩
              · exact absurd hk (hc1 p d hd.here).starter
              · simp [Dialogue.isSelfInitiated, hk]
            have hid : r.messageId = -((d.outgoing.length : Int) + 1) := by
              rw [k7]
              unfold Dialogue.nextOutgoingId Dialogue.lastOutgoing
              rw [hself]
              cases hl : d.outgoing.getLast? with
              | none => rw [List.getLast?_eq_none_iff] at hl; simp [hl, startingMessageId]
              | some l =>
                have hpos : 0 < d.outgoing.length := by
                  cases ho' : d.outgoing with
                  | nil => rw [ho'] at hl; simp at hl
                  | cons => simp
                rw [List.getLast?_eq_getElem?] at hl
                have := (hdi.ownIds _ _ hl).2 (hc1 p d hd.here).starter
                simp [absId_eq]
                omega
            have hb := hd.below
            have hmid : -2147483648 ≤ m.messageId ∧ m.messageId ≤ 2147483647 := by
              simp [isInt32] at f3; omega
            have henv : env'.to = r.to ∧ env'.sender = r.sender ∧ env'.protocolId = fipaProtocol := by
              unfold makeResponseEnvelope at hmk
              dsimp only at hmk
              split at hmk
              · rw [← Res.ok.inj hmk]; exact ⟨rfl, rfl, rfl⟩
              · simp at hmk
            refine ⟨m, r, p, d', hm, by rw [← f2, g3], by rw [← f1]; exact g2, by rw [← f1]; exact g1, ?_,
              by rw [k4, ← hopp, f1], k3, htarget, ?_, by rw [k6, hrec], k10, ?_, ?_, ?_, ?_,
              by rw [henv.1, k4, ← hopp, f1], by rw [henv.2.1, k3], henv.2.2, ?_⟩
            · rw [k8]
              rcases answer_cases ha with ⟨q1, q2⟩ | ⟨q1, q2⟩
              · simp only [Prod.mk.injEq] at q2; exact Or.inl ⟨q1, q2.1⟩
              · simp only [Prod.mk.injEq] at q2; exact Or.inr ⟨q1, q2.1⟩
            · rw [k6]; exact (hdi.starterRef m (Or.inr hmem)).symm
            · rw [hrec, ← hopp, f1]
            · rw [hrec]; exact hd.last
            · rw [hrec]; simp
            · rw [hrec, hid]; simp
            · intro hl structOk'
              refine ⟨content, ?_⟩
              have hcr := contents_read ha
              rw [← k8] at hcr
              exact C15_message_survives_partial hmk hcr (by omega) (by rw [htarget]; exact hmid) hl

/-- **C76, all dialogues.** Whatever is sent to the agent: every dialogue it has was opened by the other side,
its messages follow the declared rules, the agent only ever proposed or confirmed, and it never said more than
it heard. -/
theorem C76_dialogues (h : Reached structOk address s) {d : Dialogue} (hd : d ∈ s.heap) :
    d.label.starterAddr = d.label.opponent ∧ d.label.opponent ≠ address ∧
    (∃ ms, IsHistory address d ms ∧ FollowsRules rules ms) ∧
    d.outgoing.length ≤ d.incoming.length ∧
    (∀ m ∈ d.outgoing, m.performative = b! "propose" ∨ m.performative = b! "match_accept") ∧
    (∀ m ∈ d.incoming, Wire m.performative) := by
  obtain ⟨p, hp⟩ := List.getElem?_of_mem hd
  have hc := h.inv.calm p d hp
  have hi := h.inv.inv.heap p d hp
  obtain ⟨ms, h1, h2, _⟩ := hi.history
  rcases hi.kind with hk | ⟨hk, hk'⟩
  · exact absurd hk hc.starter
  · exact ⟨hk, hk', ⟨ms, h1, h2⟩, hc.fewer, hc.says, hc.hears⟩

/-- Every message but a `cfp` answers an earlier one. -/
theorem earlier {ms : List Message} (h : FollowsRules rules ms) {pre post : List Message} {m : Message}
    (hm : ms = pre ++ m :: post) (hp : m.performative ≠ b! "cfp") :
    ∃ t ∈ pre, IsValidReply rules t.performative m.performative := by
  cases pre with
  | nil =>
    have := (h.first m post (by simpa using hm)).2.2
    exact absurd (by simpa [rules] using this) hp
  | cons x pre => exact (h.later _ m post hm (by simp)).2

/-- What must have been said before an `inform` or `end`. -/
theorem confirmed {ms : List Message} (h : FollowsRules rules ms)
    (hw : ∀ m ∈ ms, Own m.performative ∨ Wire m.performative) (k : Nat) :
    ∀ (pre post : List Message) (m : Message), pre.length = k → ms = pre ++ m :: post →
      m.performative = b! "end" ∨ m.performative = b! "inform" →
      ∃ x ∈ ms, x.performative = b! "match_accept" := by
  induction k using Nat.strongRecOn with
  | _ k ih =>
    intro pre post m hk hm hp
    obtain ⟨t, ht, hv⟩ := earlier h hm (by rcases hp with hp | hp <;> rw [hp] <;> decide)
    have htm : t ∈ ms := by rw [hm]; exact List.mem_append_left _ ht
    obtain ⟨p1, p2, hpre⟩ := List.append_of_mem ht
    rcases valid_reply hv with ⟨_, h2⟩ | ⟨_, h2⟩ | ⟨_, h2⟩ | ⟨_, h2⟩ | ⟨h1, _⟩ | ⟨h1, _⟩ | ⟨h1, _⟩
    · exfalso; rcases hp with hp | hp <;> rw [hp] at h2 <;> revert h2 <;> decide
    · exfalso; rcases hp with hp | hp <;> rw [hp] at h2 <;> revert h2 <;> decide
    · exfalso; rcases hp with hp | hp <;> rw [hp] at h2 <;> revert h2 <;> decide
    · exfalso; rcases hp with hp | hp <;> rw [hp] at h2 <;> revert h2 <;> decide
    · exact ⟨t, htm, h1⟩
    · exfalso
      rcases hw t htm with hh | hh
      · rw [h1] at hh; revert hh; unfold Own; decide
      · rw [h1] at hh; revert hh; unfold Wire; decide
    · exact ih p1.length (by rw [← hk, hpre]; simp) p1 (p2 ++ m :: post) t rfl
        (by rw [hm, hpre]; simp) (Or.inr h1)

/-- A history with an `end` tells of a deal. -/
theorem deal {d : Dialogue} {ms : List Message} (hh : IsHistory address d ms) (h : FollowsRules rules ms)
    (hs : ∀ m ∈ d.outgoing, Own m.performative) (hw : ∀ m ∈ d.incoming, Wire m.performative)
    (he : ∃ m ∈ ms, m.performative = b! "end") :
    (∃ x ∈ d.incoming, x.performative = b! "cfp") ∧
    (∃ x, (x ∈ d.outgoing ∨ x ∈ d.incoming) ∧ x.performative = b! "propose") ∧
    (∃ x ∈ d.incoming, x.performative = b! "accept") ∧
    (∃ x ∈ d.outgoing, x.performative = b! "match_accept") := by
  have side : ∀ m ∈ ms, m ∈ d.outgoing ∨ m ∈ d.incoming := by
    intro m hm
    rw [hh.outgoing, hh.incoming]
    by_cases hx : m.sender = address
    · left; simp [hm, hx]
    · right; simp [hm, hx]
  have hall : ∀ m ∈ ms, Own m.performative ∨ Wire m.performative := fun m hm =>
    (side m hm).imp (hs m) (hw m)
  have out : ∀ m ∈ ms, ¬ Wire m.performative → m ∈ d.outgoing := fun m hm hn =>
    (side m hm).resolve_right (fun h => hn (hw m h))
  have inc : ∀ m ∈ ms, ¬ Own m.performative → m ∈ d.incoming := fun m hm hn =>
    (side m hm).resolve_left (fun h => hn (hs m h))
  obtain ⟨m, hm, hend⟩ := he
  obtain ⟨pre, post, hms⟩ := List.append_of_mem hm
  obtain ⟨x, hx, hxp⟩ := confirmed h hall _ pre post m rfl hms (Or.inl hend)
  obtain ⟨p1, q1, hx'⟩ := List.append_of_mem hx
  obtain ⟨y, hy, hyv⟩ := earlier h hx' (by rw [hxp]; decide)
  have hyms : y ∈ ms := by rw [hx']; exact List.mem_append_left _ hy
  have hyp : y.performative = b! "accept" := by
    rcases valid_reply hyv with ⟨_, h2⟩ | ⟨_, h2⟩ | ⟨h1, _⟩ | ⟨h1, _⟩ | ⟨_, h2⟩ | ⟨_, h2⟩ | ⟨_, h2⟩
    · exfalso; rw [hxp] at h2; revert h2; decide
    · exfalso; rw [hxp] at h2; revert h2; decide
    · exact h1
    · exfalso
      rcases hall y hyms with hh | hh
      · rw [h1] at hh; revert hh; unfold Own; decide
      · rw [h1] at hh; revert hh; unfold Wire; decide
    · exfalso; rw [hxp] at h2; revert h2; decide
    · exfalso; rw [hxp] at h2; revert h2; decide
    · exfalso; rw [hxp] at h2; revert h2; decide
  obtain ⟨p2, q2, hy'⟩ := List.append_of_mem hyms
  obtain ⟨z, hz, hzv⟩ := earlier h hy' (by rw [hyp]; decide)
  have hzms : z ∈ ms := by rw [hy']; exact List.mem_append_left _ hz
  have hzp : z.performative = b! "propose" := by
    rcases valid_reply hzv with ⟨_, h2⟩ | ⟨h1, _⟩ | ⟨_, h2⟩ | ⟨_, h2⟩ | ⟨_, h2⟩ | ⟨_, h2⟩ | ⟨_, h2⟩
    · exfalso; rw [hyp] at h2; revert h2; decide
    · exact h1
    all_goals (exfalso; rw [hyp] at h2; revert h2; decide)
  refine ⟨?_, ⟨z, side z hzms, hzp⟩, ⟨y, inc y hyms ?_, hyp⟩, ⟨x, out x hx ?_, hxp⟩⟩
  · cases hcs : ms with
    | nil => rw [hcs] at hm; simp at hm
    | cons f rest =>
      have hf := (h.first f rest hcs).2.2
      have hfp : f.performative = b! "cfp" := by simpa [rules] using hf
      refine ⟨f, inc f (by rw [hcs]; simp) ?_, hfp⟩
      rw [hfp]; unfold Own; decide
  · rw [hyp]; unfold Own; decide
  · rw [hxp]; unfold Wire; decide

/-- **C76, completion.** When the agent reports the interaction as complete and the `end` belonged to a dialogue,
that dialogue records the whole deal: a request, a proposal, the counterparty's acceptance and the agent's own
confirmation. -/
theorem C76_complete_partial (h : Reached structOk address s)
    (hs : (handle structOk s e n).2 = .complete) :
    ∃ m, Hears structOk e m ∧ m.performative = b! "end" ∧
      (Astray address s m ∨ ∃ d ∈ (handle structOk s e n).1.heap, d.label.opponent = e.sender ∧
        d.incoming.getLast? = some m ∧
        (∃ x ∈ d.incoming, x.performative = b! "cfp") ∧
        (∃ x, (x ∈ d.outgoing ∨ x ∈ d.incoming) ∧ x.performative = b! "propose") ∧
        (∃ x ∈ d.incoming, x.performative = b! "accept") ∧
        (∃ x ∈ d.outgoing, x.performative = b! "match_accept")) := by
  have hinv := h.inv
  have hr1 : Reached structOk address (handle structOk s e n).1 := .next e n h (by rw [hs]; simp)
  by_cases hm : ∃ m, Hears structOk e m
  case neg =>
    exfalso
    unfold handle at hs
    by_cases hp : e.protocolId = fipaProtocol
    · rw [if_neg (not_not_intro hp)] at hs
      cases hu : unwrapEnvelope structOk Fipa.performativeOf e with
      | panic => rw [hu] at hs; simp at hs
      | err x => rw [hu] at hs; simp at hs
      | ok mc => exact hm ⟨mc.1, hp, mc.2, hu⟩
    · rw [if_pos hp] at hs; simp at hs
  obtain ⟨m, hm⟩ := hm
  obtain ⟨f1, _, _, _, _, _, f7⟩ := hears_fields hm
  have hnone := hinv.calm.update_none_iff (n := n) (m := m) hinv.inv hinv.xinv hinv.minv
  rw [handle_heard hm] at hs hr1 ⊢
  rcases hu : s.update m n with ⟨s1, r1⟩
  rw [hu] at hs hr1 hnone
  obtain ⟨hr, hc1, hadd⟩ := hinv.calm.update hinv.inv hinv.xinv f7 hu
  have hi1 := hinv.inv.update hu hr
  cases r1 with
  | panic => simp at hs
  | err x => simp at hs
  | ok p =>
    simp only at hs hr1 hnone ⊢
    cases ha : answer m.performative with
    | some pc =>
      exfalso
      rw [ha] at hs
      simp only at hs
      cases p with
      | none => simp at hs
      | some p =>
        simp only at hs
        rcases hrep : s1.reply p pc.1 (some m) none with ⟨s2, r2⟩
        rw [hrep] at hs
        cases r2 with
        | panic => simp at hs
        | err x => simp at hs
        | ok r =>
          simp only at hs
          cases hmk : makeResponseEnvelope r fipaProtocol pc.2 <;> rw [hmk] at hs <;> simp at hs
    | none =>
      rw [ha] at hs hr1
      simp only at hs hr1 ⊢
      have hend : m.performative = b! "end" := by
        by_cases hc : m.performative = b! "end"
        · exact hc
        · rw [if_neg hc] at hs; simp at hs
      refine ⟨m, hm, hend, ?_⟩
      cases p with
      | none => exact Or.inl (hnone.1 rfl)
      | some p =>
        obtain ⟨d, hd⟩ := hadd p rfl
        have hdi := hi1.heap p d hd.here
        have hmem : m ∈ d.incoming := List.mem_of_getLast? hd.last
        obtain ⟨ms, h1, h2, _⟩ := hdi.history
        refine Or.inr ⟨d, List.mem_of_getElem? hd.here, by rw [← (hdi.sentByPeer m hmem).1, f1], hd.last, ?_⟩
        refine deal h1 h2 (hc1 p d hd.here).says (hc1 p d hd.here).hears ⟨m, ?_, hend⟩
        rw [h1.incoming] at hmem
        exact (List.mem_filter.1 hmem).1

/-- **C76, completion: false without a dialogue.** In any state, an `end` from anyone that belongs to no dialogue
is reported as a completed interaction. -/
theorem C76_complete_counterexample (h : Reached structOk address s) (a : Bytes) (ha : a ≠ [])
    (hne : a ≠ address) (n : Bytes) :
    ∃ e : Envelope, e.sender = a ∧ e.to = address ∧ handle structOk s e n = (s, .complete) := by
  obtain ⟨e, h1, h2, h3⟩ := envelope_for (m := ⟨address, a, ⟨[], b! "x"⟩, 1, 0, b! "end"⟩)
    (c := emptyMember 9) (by show Fipa.performativeOf (emptyMember 9) = some (b! "end"); decide)
    (by show isInt32 1 = true; decide)
    (by show isInt32 0 = true; decide) (by show utf8Valid [] = true ∧ utf8Valid (b! "x") = true; decide)
    (by show (encodeFields (AeaMessage.fields (some (.dialogue ⟨1, [], b! "x", 0, emptyMember 9⟩)))).length < 2 ^ 64
        decide)
  refine ⟨e, h1, h2, ?_⟩
  rw [handle_heard (h3 structOk)]
  have hself := h.inv.inv.selfEq
  rcases hu : s.update ⟨address, a, ⟨[], b! "x"⟩, 1, 0, b! "end"⟩ n with ⟨s1, r1⟩
  have : s1 = s ∧ r1 = .ok none := by
    rcases Sys.update_cases hu with ⟨_, _, _, hn⟩ | ⟨_, _, _, ⟨_, _, e1, e2⟩ | ⟨e1, _⟩ | ⟨e1, _⟩ | ⟨hh, _⟩⟩
    · exact absurd ⟨ha, by rw [hself]; exact hne, hself.symm⟩ hn
    · exact ⟨e1, e2⟩
    · exact absurd rfl e1
    · exact absurd rfl e1
    · rcases hh with ⟨e1, _⟩ | ⟨_, e1⟩ | ⟨e1, _⟩
      · exact absurd rfl e1
      · simp at e1
      · exact absurd rfl e1
  rw [this.1, this.2]
  rfl

end Seller

end Verif
