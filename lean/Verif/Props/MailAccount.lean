import Verif.Props.MailSessions

/-!
# C29: over the whole history of a mailbox

What the sessions of an address are given, over all registrations and unregistrations, compared with everything that
was ever accepted for it.
-/

namespace Verif

open Mailbox MailSpec

namespace MailSpec

/-- Everything accepted for an address. -/
def acceptedFor (a : Bytes) (evs : List Event) : List Envelope :=
  evs.filterMap fun ev => match ev with
    | .accepted e => if e.to = a then some e else none
    | _ => none

/-- Everything given to sessions of an address. -/
def handedTo (a : Bytes) (evs : List Event) : List Bytes :=
  evs.filterMap fun ev => match ev with
    | .handed a' d => if a' = a then some d else none
    | _ => none

end MailSpec

/-- What was given, followed by what waits, is part of what was accepted, in order. -/
def MailPart (H : List Bytes) (q : Option (List Envelope)) (A : List Envelope) : Prop :=
  (H.map some ++ (q.getD []).map Envelope.encode).Sublist (A.map Envelope.encode)

theorem MailPart.dropped {H : List Bytes} {q : Option (List Envelope)} {A : List Envelope} (h : MailPart H q A)
    (q' : Option (List Envelope)) (hq : q'.getD [] = []) : MailPart H q' A := by
  unfold MailPart at h ⊢
  rw [hq]
  exact (List.sublist_append_left ..).trans (by simpa using h)

theorem step_part (por : PoRCheck) (myKey : Bytes) (s : Mailbox) (st : Step) (a : Bytes) (H : List Bytes)
    (A : List Envelope) (h : MailPart H (s.envelopes.get a) A) :
    MailPart (H ++ handedTo a (eventOf s st (step por myKey s st).2)) ((step por myKey s st).1.envelopes.get a)
      (A ++ acceptedFor a (eventOf s st (step por myKey s st).2)) := by
  cases st with
  | register req uuid announce =>
    simp only [step, Mailbox.register]
    split
    · simpa [eventOf, handedTo, acceptedFor] using h
    cases hb : req.body with
    | none => simpa [eventOf, handedTo, acceptedFor] using h
    | some body =>
      rcases body with _ | ⟨x, body⟩
      · simpa [eventOf, handedTo, acceptedFor] using h
      · dsimp only
        cases hd : AgentRecord.decode (x :: body) with
        | none => simpa [eventOf, handedTo, acceptedFor] using h
        | some r =>
          dsimp only
          cases hp : por r r.address myKey with
          | panic => simpa [eventOf, handedTo, acceptedFor] using h
          | err e => simpa [eventOf, handedTo, acceptedFor] using h
          | ok c =>
            cases c
            case success =>
              cases announce
              · simpa [eventOf, handedTo, acceptedFor] using h
              · simp only [if_true, eventOf, hb, Option.bind_some, hd, handedTo, acceptedFor, List.filterMap_cons,
                  List.filterMap_nil, List.append_nil, GoMap.get_set]
                split
                · exact h.dropped _ rfl
                · exact h
            all_goals simpa [eventOf, handedTo, acceptedFor] using h
  | unregisterBegin req =>
    simp only [step, Mailbox.unregisterBegin]
    split
    · simpa [eventOf, handedTo, acceptedFor] using h
    cases hs : req.session with
    | none => simpa [eventOf, handedTo, acceptedFor] using h
    | some id =>
      dsimp only
      cases s.sessions.get id <;> simpa [eventOf, handedTo, acceptedFor] using h
  | unregisterEnd i =>
    simp only [step, Mailbox.unregisterEnd]
    cases hl : s.leaving[i]? with
    | none => simpa [eventOf, handedTo, acceptedFor] using h
    | some x =>
      obtain ⟨id, addr⟩ := x
      simp only [eventOf, hl, handedTo, acceptedFor, List.filterMap_cons, List.filterMap_nil, List.append_nil,
        GoMap.get_erase]
      split
      · exact h.dropped _ rfl
      · exact h
  | send req =>
    simp only [step]
    have : eventOf s (.send req) (.http (sendEnvelope req s)) = [] := by
      unfold eventOf
      cases sendEnvelope req s <;> rfl
    rw [this]
    simpa [handedTo, acceptedFor] using h
  | get req written =>
    simp only [step, Mailbox.getEnvelope]
    split
    · simpa [eventOf, handedTo, acceptedFor] using h
    cases hs : s.sessionAddr req.session with
    | none => simpa [eventOf, handedTo, acceptedFor] using h
    | some addr =>
      dsimp only
      cases hq : (s.envelopes.get addr).getD [] with
      | nil => simpa [eventOf, handedTo, acceptedFor] using h
      | cons e rest =>
        dsimp only
        cases he : e.encode with
        | none => simpa [eventOf, handedTo, acceptedFor] using h
        | some b =>
          cases written
          · simpa [eventOf, handedTo, acceptedFor] using h
          · simp only [if_true, eventOf, ownerOf_eq, hs, handedTo, acceptedFor, List.filterMap_cons,
              List.filterMap_nil, List.append_nil, GoMap.get_set]
            by_cases ha : a = addr
            · subst ha
              unfold MailPart at h ⊢
              rw [hq] at h
              simpa [he] using h
            · rw [if_neg (fun h => ha h.symm), if_neg ha]
              simpa using h
  | route e =>
    simp only [step, Mailbox.route]
    cases hg : s.envelopes.get e.to with
    | none => simpa [eventOf, handedTo, acceptedFor] using h
    | some l =>
      dsimp only
      by_cases hl : Mailbox.limit ≤ l.length
      · simp only [if_pos hl]; simpa [eventOf, handedTo, acceptedFor] using h
      · simp only [if_neg hl, eventOf, handedTo, acceptedFor, List.filterMap_cons, List.filterMap_nil, List.append_nil,
          GoMap.get_set]
        by_cases ha : a = e.to
        · subst ha
          unfold MailPart at h ⊢
          rw [hg] at h
          simp only [Option.getD_some] at h
          simp only [if_true, Option.getD_some, List.map_append, ← List.append_assoc]
          exact h.append (List.Sublist.refl _)
        · have ha' : ¬ e.to = a := fun h => ha h.symm
          simp only [if_neg ha, if_neg ha', List.append_nil]
          exact h

/-- **C29.** In every history, whoever registers and unregisters when: what the sessions of an address were given,
followed by what waits for it, is part of what was accepted for it, in the order in which it was accepted. So nothing
is given twice, nothing is given that was not accepted, and nothing out of order. -/
theorem C29_never_twice (por : PoRCheck) (myKey : Bytes) (steps : List Step) (a : Bytes) :
    let evs := events (run por myKey .init steps).1
    ((handedTo a evs).map some ++
      (((run por myKey .init steps).2.envelopes.get a).getD []).map Envelope.encode).Sublist
        ((acceptedFor a evs).map Envelope.encode) := by
  have key : ∀ (steps : List Step) (s : Mailbox) (H : List Bytes) (A : List Envelope),
      MailPart H (s.envelopes.get a) A →
      MailPart (H ++ handedTo a (events (run por myKey s steps).1)) ((run por myKey s steps).2.envelopes.get a)
        (A ++ acceptedFor a (events (run por myKey s steps).1)) := by
    intro steps
    induction steps with
    | nil => intro s H A h; simpa [run, events, handedTo, acceptedFor] using h
    | cons st steps ih =>
      intro s H A h
      have h2 := ih (step por myKey s st).1 _ _ (step_part por myKey s st a H A h)
      have he : events (run por myKey s (st :: steps)).1 = eventOf s st (step por myKey s st).2 ++
          events (run por myKey (step por myKey s st).1 steps).1 := rfl
      have hf : (run por myKey s (st :: steps)).2 = (run por myKey (step por myKey s st).1 steps).2 := rfl
      rw [he, hf]
      simpa [handedTo, acceptedFor, List.filterMap_append, List.append_assoc] using h2
  have := key steps .init [] [] (by simp [MailPart, Mailbox.init])
  simpa [MailPart] using this

/-- **C29.** So an envelope is given at most as often as it was accepted. -/
theorem C29_at_most_once (por : PoRCheck) (myKey : Bytes) (steps : List Step) (a d : Bytes) :
    let evs := events (run por myKey .init steps).1
    (handedTo a evs).count d ≤ (acceptedFor a evs).countP (fun e => e.encode == some d) := by
  intro evs
  have h := C29_never_twice por myKey steps a
  have h' := ((List.sublist_append_left ..).trans h).count_le (some d)
  have e1 : ((handedTo a evs).map some).count (some d) = (handedTo a evs).count d := by
    simp [List.count, List.countP_map, Function.comp_def]
  have e2 : ((acceptedFor a evs).map Envelope.encode).count (some d) =
      (acceptedFor a evs).countP (fun e => e.encode == some d) := by
    simp [List.count, List.countP_map, Function.comp_def]
  rw [← e1, ← e2]
  exact h'

/-- Concrete case: `ag` registers, an envelope comes, `ag` registers again, another envelope comes, and the second
session asks twice: it is given the second envelope once, and the first is lost. -/
example :
    let e := fun n => MailDemo.env (b! "ag") [n]
    let steps : List Step := [MailDemo.reg (b! "ag") (b! "s1"), .route (e 65), MailDemo.reg (b! "ag") (b! "s2"),
      .route (e 66), .get ⟨b! "GET", some (b! "s2"), none⟩ true, .get ⟨b! "GET", some (b! "s2"), none⟩ true]
    let evs := events (run MailDemo.por (b! "pk") .init steps).1
    acceptedFor (b! "ag") evs = [e 65, e 66] ∧ (handedTo (b! "ag") evs).map some = [(e 66).encode] := by
  decide +kernel

end Verif
