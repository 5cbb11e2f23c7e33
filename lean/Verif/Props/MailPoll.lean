import Verif.Model.MailPoll
import Verif.Props.MailSessions

/-!
# Property C126

Envelopes on their way from a mailbox to its owner.
-/

namespace Verif

namespace MailPoll

open Mailbox MailSpec

/-! ## The law, without the tables of the mailbox -/

/-- What becomes of the envelopes of a queue when its owner asks for them: `received` by the owner,
`gone` without having been received, and `left` in the queue. -/
structure Outcome where
  received : List Bytes
  gone : List Bytes
  left : List Bytes
  deriving DecidableEq, Repr

/-- An envelope is lost together with the response that carries it, unless writing the response
failed and it did not fit into the buffers. Then it stays the first of the queue. -/
def law (room : Nat) : List Fate → List Bytes → Outcome
  | [], q => ⟨[], [], q⟩
  | _, [] => ⟨[], [], []⟩
  | .arrives :: fs, b :: q => let o := law room fs q; { o with received := b :: o.received }
  | .lost :: fs, b :: q => let o := law room fs q; { o with gone := b :: o.gone }
  | .broken :: fs, b :: q =>
    if b.length ≤ room then let o := law room fs q; { o with gone := b :: o.gone }
    else law room fs (b :: q)

/-- The envelopes among what the client received. -/
def envelopesOf (rs : List (Option Resp)) : List Bytes :=
  rs.filterMap fun r => match r with
    | some (.envelope b) => some b
    | _ => none

/-- The queue of an address, as bytes. -/
def waitingFor (s : Mailbox) (a : Bytes) : List Bytes :=
  ((s.envelopes.get a).getD []).filterMap Envelope.encode

theorem encode_some {e : Envelope} (h : e.Texts) : ∃ b, e.encode = some b :=
  (C19_envelope_encodes_iff e).2 h

theorem poll_spec (room : Nat) (s : Mailbox) (id a : Bytes) (f : Fate)
    (hs : ownerOf s (some id) = some a) :
    (poll room (some id) f s).1.sessions = s.sessions ∧
    (match (s.envelopes.get a).getD [] with
      | [] => poll room (some id) f s = (s, if f = .arrives then some .ok else none)
      | e :: rest =>
        ∀ b, e.encode = some b →
          (f = .broken ∧ room < b.length → poll room (some id) f s = (s, none)) ∧
          (¬ (f = .broken ∧ room < b.length) →
            poll room (some id) f s = ({ s with envelopes := s.envelopes.set a rest },
              if f = .arrives then some (.envelope b) else none))) := by
  have ha : s.sessionAddr (some id) = some a := hs
  constructor
  · simp only [poll, getEnvelope, ha]
    simp only [ne_eq, not_true_eq_false, if_false]
    split
    · rfl
    · split
      · rfl
      · split <;> rfl
  · split
    · rename_i hq
      simp [poll, getEnvelope, ha, hq]
    · rename_i e rest hq
      intro b hb
      constructor
      · rintro ⟨rfl, hl⟩
        have hw : writeOk room .broken b = false := by
          simp [writeOk]; omega
        simp [poll, getEnvelope, bodyFor, ha, hq, hb, hw]
      · intro hn
        have hw : writeOk room f b = true := by
          simp only [writeOk, Bool.or_eq_true, decide_eq_true_eq, bne_iff_ne, ne_eq]
          by_cases hf : f = .broken
          · left
            apply Classical.byContradiction
            intro hl
            exact hn ⟨hf, by omega⟩
          · exact Or.inr hf
        simp [poll, getEnvelope, bodyFor, ha, hq, hb, hw]

/-- **C126, partial: the law.** A client with a live session that asks any number of times, whatever happens to
the responses: what it receives, what is gone without having been received, and what still waits.
Envelopes from the network have valid text fields, so they can be encoded. Missing from the property:
that nothing is gone (`C126_counterexample`). -/
theorem C126_law_partial (room : Nat) (id a : Bytes) (fs : List Fate) :
    ∀ (s : Mailbox), ownerOf s (some id) = some a →
      (∀ e ∈ (s.envelopes.get a).getD [], e.Texts) →
      envelopesOf (polls room (some id) fs s).2 = (law room fs (waitingFor s a)).received ∧
      waitingFor (polls room (some id) fs s).1 a = (law room fs (waitingFor s a)).left := by
  induction fs with
  | nil =>
    intro s _ _
    simp [polls, law, envelopesOf]
  | cons f fs ih =>
    intro s hs ht
    obtain ⟨hsess, hstep⟩ := poll_spec room s id a f hs
    have hs' : ownerOf (poll room (some id) f s).1 (some id) = some a := by
      simpa [ownerOf, hsess] using hs
    cases hq : (s.envelopes.get a).getD [] with
    | nil =>
      rw [hq] at hstep
      simp only at hstep
      have hw : waitingFor s a = [] := by simp [waitingFor, hq]
      have hl : law room (f :: fs) [] = law room fs [] := by cases f <;> cases fs <;> rfl
      have := ih s hs ht
      rw [hw] at this ⊢
      rw [hl]
      simp only [polls, hstep]
      refine ⟨?_, this.2⟩
      rw [← this.1]
      by_cases hf : f = .arrives <;> simp [envelopesOf, hf]
    | cons e rest =>
      rw [hq] at hstep ht
      simp only at hstep
      obtain ⟨b, hb⟩ := encode_some (ht e (by simp))
      obtain ⟨h1, h2⟩ := hstep b hb
      have hw : waitingFor s a = b :: rest.filterMap Envelope.encode := by simp [waitingFor, hq, hb]
      by_cases hc : f = .broken ∧ room < b.length
      · have hp := h1 hc
        have := ih s hs (by rw [hq]; exact ht)
        obtain ⟨rfl, hl⟩ := hc
        simp only [polls, hp]
        rw [hw] at this ⊢
        simp only [law, if_neg (show ¬ b.length ≤ room by omega)]
        simpa [envelopesOf] using this
      · have hp := h2 hc
        have hw' : waitingFor { s with envelopes := s.envelopes.set a rest } a =
            rest.filterMap Envelope.encode := by simp [waitingFor]
        have := ih { s with envelopes := s.envelopes.set a rest } hs (by
          intro x hx
          simp at hx
          exact ht x (by simp [hx]))
        rw [hw'] at this
        simp only [polls, hp]
        rw [hw]
        cases f with
        | arrives => simpa [law, envelopesOf] using this
        | lost => simpa [law, envelopesOf] using this
        | broken =>
          have : b.length ≤ room := by
            apply Classical.byContradiction
            intro hl
            exact hc ⟨rfl, by omega⟩
          simp only [law, if_pos this]
          simpa [envelopesOf] using ‹_ ∧ _›

/-- Every envelope is received, gone or left, and what is received or left keeps its order. -/
theorem law_account (room : Nat) (fs : List Fate) :
    ∀ q, ((law room fs q).received ++ (law room fs q).gone ++ (law room fs q).left).Perm q ∧
      ((law room fs q).received ++ (law room fs q).left).Sublist q ∧
      ((law room fs q).gone ++ (law room fs q).left).Sublist q := by
  induction fs with
  | nil => intro q; simp [law]
  | cons f fs ih =>
    intro q
    cases q with
    | nil => cases f <;> simp [law]
    | cons b q =>
      have h := ih q
      have mid : ((law room fs q).received ++ b :: (law room fs q).gone ++ (law room fs q).left).Perm
          (b :: q) := by
        rw [List.append_assoc, List.cons_append]
        refine List.perm_middle.trans ?_
        rw [← List.append_assoc]
        exact h.1.cons b
      cases f with
      | arrives => exact ⟨h.1.cons b, h.2.1.cons_cons b, h.2.2.cons b⟩
      | lost => exact ⟨mid, h.2.1.cons b, h.2.2.cons_cons b⟩
      | broken =>
        simp only [law]
        split
        · exact ⟨mid, h.2.1.cons b, h.2.2.cons_cons b⟩
        · exact ih (b :: q)

/-- **C126, partial.** No envelope is received twice or out of order: what the client received followed
by what still waits is part of what waited before, in order. -/
theorem C126_in_order_partial (room : Nat) (id a : Bytes) (fs : List Fate) (s : Mailbox)
    (hs : ownerOf s (some id) = some a) (ht : ∀ e ∈ (s.envelopes.get a).getD [], e.Texts) :
    (envelopesOf (polls room (some id) fs s).2 ++ waitingFor (polls room (some id) fs s).1 a).Sublist
      (waitingFor s a) := by
  rw [(C126_law_partial room id a fs s hs ht).1, (C126_law_partial room id a fs s hs ht).2]
  exact (law_account room fs _).2.1

/-- **C126, partial.** If no envelope that waits fits into the buffers, and no response is lost after it was
written, then nothing is lost: each request whose response arrives gives the next envelope. -/
theorem C126_kept_partial (room : Nat) (id a : Bytes) (fs : List Fate) (s : Mailbox)
    (hs : ownerOf s (some id) = some a) (ht : ∀ e ∈ (s.envelopes.get a).getD [], e.Texts)
    (hb : ∀ b ∈ waitingFor s a, room < b.length) (hf : .lost ∉ fs) :
    envelopesOf (polls room (some id) fs s).2 = (waitingFor s a).take (fs.count .arrives) ∧
      waitingFor (polls room (some id) fs s).1 a = (waitingFor s a).drop (fs.count .arrives) := by
  rw [(C126_law_partial room id a fs s hs ht).1, (C126_law_partial room id a fs s hs ht).2]
  generalize waitingFor s a = q at hb
  clear hs ht
  induction fs generalizing q with
  | nil => simp [law]
  | cons f fs ih =>
    simp only [List.mem_cons, not_or] at hf
    cases q with
    | nil => cases f <;> simp [law]
    | cons b q =>
      cases f with
      | arrives =>
        have := ih hf.2 q (fun x hx => hb x (by simp [hx]))
        simp [law, this]
      | lost => exact absurd rfl hf.1
      | broken =>
        have := ih hf.2 (b :: q) hb
        have h1 := hb b (by simp)
        simp only [law, if_neg (show ¬ b.length ≤ room by omega)]
        simpa using this

/-- **C126.** In the usual case that all responses arrive the client gets what waits, in
order. -/
theorem C126_all_arrive (room : Nat) (id a : Bytes) (n : Nat) (s : Mailbox)
    (hs : ownerOf s (some id) = some a) (ht : ∀ e ∈ (s.envelopes.get a).getD [], e.Texts) :
    envelopesOf (polls room (some id) (List.replicate n .arrives) s).2 = (waitingFor s a).take n ∧
      waitingFor (polls room (some id) (List.replicate n .arrives) s).1 a = (waitingFor s a).drop n := by
  rw [(C126_law_partial room id a _ s hs ht).1, (C126_law_partial room id a _ s hs ht).2]
  generalize waitingFor s a = q
  clear hs ht
  induction n generalizing q with
  | zero => simp [law]
  | succ n ih =>
    cases q with
    | nil => simp [law, List.replicate_succ]
    | cons b q => simp [law, List.replicate_succ, ih q]

/-- **C126 is false**, for every mailbox and every session with something waiting: if the response to
the first request is lost, or if its connection was already broken when the request was handled and the
envelope fits into the buffers, then the first envelope is never received, whatever requests follow. -/
theorem C126_counterexample (room : Nat) (id a b : Bytes) (q : List Bytes) (f : Fate) (fs : List Fate)
    (s : Mailbox) (hs : ownerOf s (some id) = some a)
    (ht : ∀ e ∈ (s.envelopes.get a).getD [], e.Texts) (hq : waitingFor s a = b :: q)
    (hf : f = .lost ∨ f = .broken ∧ b.length ≤ room) :
    (envelopesOf (polls room (some id) (f :: fs) s).2 ++
      waitingFor (polls room (some id) (f :: fs) s).1 a).Sublist q := by
  rw [(C126_law_partial room id a _ s hs ht).1, (C126_law_partial room id a _ s hs ht).2, hq]
  rcases hf with rfl | ⟨rfl, hl⟩
  · exact (law_account room fs q).2.1
  · simp only [law, if_pos hl]
    exact (law_account room fs q).2.1

/-- A mailbox of `ag` with the session `s1` and three envelopes, the second of which is long. -/
def demo : Mailbox :=
  (Mailbox.run MailDemo.por (b! "pk") .init [MailDemo.reg (b! "ag") (b! "s1"),
    .route (MailDemo.env (b! "ag") (b! "x")),
    .route { MailDemo.env (b! "ag") (b! "y") with message := List.replicate 20 7 },
    .route (MailDemo.env (b! "ag") (b! "z"))]).2

set_option maxRecDepth 100000 in
/-- Concrete case: the first envelope is lost with a broken connection, the second is too long for the
buffers, stays, and is received at the second try, the third is lost on the way; the client ends with
one envelope and an empty mailbox. -/
example :
    ownerOf demo (some (b! "s1")) = some (b! "ag") ∧ (waitingFor demo (b! "ag")).length = 3 ∧
    envelopesOf (polls 20 (some (b! "s1")) [.broken, .broken, .arrives, .lost, .arrives] demo).2 =
      ((waitingFor demo (b! "ag")).drop 1).take 1 ∧
    (polls 20 (some (b! "s1")) [.broken, .broken, .arrives, .lost, .arrives] demo).2.getLast? =
      some (some .ok) := by decide

end MailPoll

end Verif
