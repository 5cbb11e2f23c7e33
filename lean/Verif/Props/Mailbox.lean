import Verif.Spec.Mailbox
import Verif.Lemmas.Texts
import Verif.Props.PeerHandlers

/-!
# C28, C29, C30: the mailbox
-/

namespace Verif

open Mailbox MailSpec

/-! ## Histories -/

theorem ownerOf_eq (s : Mailbox) (session : Option Bytes) : ownerOf s session = s.sessionAddr session := by
  cases session <;> rfl

/-- The account agrees with the queue of an address. -/
def Agrees (acc : Option Account) (q : Option (List Envelope)) : Prop :=
  match acc, q with
  | none, none => True
  | some acc, some q =>
    acc.handed.map some ++ q.map Envelope.encode = acc.accepted.map Envelope.encode ∧
      q.length ≤ Mailbox.limit
  | _, _ => False

/-- What one step does to the queues, as events. -/
theorem step_agrees (por : PoRCheck) (myKey : Bytes) (s : Mailbox) (st : Step) (a : Bytes)
    (acc : Option Account) (h : Agrees acc (s.envelopes.get a)) :
    Agrees ((eventOf s st (step por myKey s st).2).foldl (book a) acc)
      ((step por myKey s st).1.envelopes.get a) := by
  cases st with
  | register req uuid announce =>
    simp only [step, Mailbox.register]
    split
    · simpa [eventOf] using h
    cases hb : req.body with
    | none => simpa [eventOf] using h
    | some body =>
      rcases body with _ | ⟨x, body⟩
      · simpa [eventOf] using h
      · dsimp only
        cases hd : AgentRecord.decode (x :: body) with
        | none => simpa [eventOf] using h
        | some r =>
          dsimp only
          cases hp : por r r.address myKey with
          | panic => simpa [eventOf] using h
          | err e => simpa [eventOf] using h
          | ok c =>
            cases c
            case success =>
              cases announce
              · simpa [eventOf] using h
              · simp only [if_true, eventOf, hb, Option.bind_some, hd, List.foldl_cons,
                  List.foldl_nil, book, GoMap.get_set]
                by_cases ha : a = r.address
                · rw [if_pos ha.symm, if_pos ha]
                  simp [Agrees]
                · rw [if_neg (fun h => ha h.symm), if_neg ha]; exact h
            all_goals simpa [eventOf] using h
  | unregisterBegin req =>
    simp only [step, Mailbox.unregisterBegin]
    split
    · simpa [eventOf] using h
    cases hs : req.session with
    | none => simpa [eventOf] using h
    | some id =>
      dsimp only
      cases s.sessions.get id <;> simpa [eventOf] using h
  | unregisterEnd i =>
    simp only [step, Mailbox.unregisterEnd]
    cases hl : s.leaving[i]? with
    | none => simpa [eventOf] using h
    | some x =>
      obtain ⟨id, addr⟩ := x
      simp only [eventOf, hl, List.foldl_cons, List.foldl_nil, book, GoMap.get_erase]
      by_cases ha : a = addr
      · rw [if_pos ha.symm, if_pos ha]; simp [Agrees]
      · rw [if_neg (fun h => ha h.symm), if_neg ha]; exact h
  | send req =>
    simp only [step]
    have : eventOf s (.send req) (.http (sendEnvelope req s)) = [] := by
      unfold eventOf
      cases sendEnvelope req s <;> rfl
    rw [this]; exact h
  | get req written =>
    simp only [step, Mailbox.getEnvelope]
    split
    · simpa [eventOf] using h
    cases hs : s.sessionAddr req.session with
    | none => simpa [eventOf] using h
    | some addr =>
      dsimp only
      cases hq : (s.envelopes.get addr).getD [] with
      | nil => simpa [eventOf] using h
      | cons e rest =>
        dsimp only
        cases he : e.encode with
        | none => simpa [eventOf] using h
        | some b =>
          cases written
          · simpa [eventOf] using h
          · simp only [if_true, eventOf, ownerOf_eq, hs, List.foldl_cons, List.foldl_nil, book, GoMap.get_set]
            by_cases ha : a = addr
            · rw [if_pos ha.symm, if_pos ha]
              subst ha
              cases hg : s.envelopes.get a with
              | none => rw [hg] at hq; simp at hq
              | some q =>
                rw [hg] at hq h
                simp only [Option.getD_some] at hq
                subst hq
                cases acc with
                | none => simp [Agrees] at h
                | some acc =>
                  simp only [Agrees, Option.map_some] at h ⊢
                  obtain ⟨h1, h2⟩ := h
                  refine ⟨?_, ?_⟩
                  · rw [← h1]; simp [he]
                  · simp only [List.length_cons] at h2; omega
            · rw [if_neg (fun h => ha h.symm), if_neg ha]; exact h
  | route e =>
    simp only [step, Mailbox.route]
    cases hg : s.envelopes.get e.to with
    | none => simpa [eventOf] using h
    | some l =>
      dsimp only
      by_cases hl : Mailbox.limit ≤ l.length
      · simp only [if_pos hl]; simpa [eventOf] using h
      · simp only [if_neg hl, eventOf, List.foldl_cons, List.foldl_nil, book, GoMap.get_set]
        by_cases ha : a = e.to
        · rw [if_pos ha.symm, if_pos ha]
          subst ha
          rw [hg] at h
          cases acc with
          | none => simp [Agrees] at h
          | some acc =>
            simp only [Agrees, Option.map_some] at h ⊢
            obtain ⟨h1, h2⟩ := h
            refine ⟨?_, ?_⟩
            · rw [List.map_append, ← List.append_assoc, h1]; simp
            · simp only [List.length_append, List.length_singleton]; omega
        · rw [if_neg (fun h => ha h.symm), if_neg ha]; exact h

theorem run_agrees (por : PoRCheck) (myKey : Bytes) (a : Bytes) (steps : List Step) (s : Mailbox)
    (acc : Option Account) (h : Agrees acc (s.envelopes.get a)) :
    Agrees ((events (run por myKey s steps).1).foldl (book a) acc)
      ((run por myKey s steps).2.envelopes.get a) := by
  induction steps generalizing s acc with
  | nil => simpa [run, events] using h
  | cons st steps ih =>
    have h1 := step_agrees por myKey s st a acc h
    have h2 := ih (step por myKey s st).1 _ h1
    simp only [run]
    rw [show events ((s, st, (step por myKey s st).2) ::
        (run por myKey (step por myKey s st).1 steps).1) =
      eventOf s st (step por myKey s st).2 ++ events (run por myKey (step por myKey s st).1 steps).1
      from rfl, List.foldl_append]
    exact h2

/-- **C29, partial.** At any point of any history and for every address: it is registered exactly
if the events say so; what was handed out since it last registered, followed by what is pending,
is what was accepted since then, in order; and at most 1000 are pending. Missing from the
property: registering again while envelopes are pending discards them. -/
theorem C29_bounded_fifo_partial (por : PoRCheck) (myKey : Bytes) (steps : List Step) (a : Bytes) :
    Agrees (account a (events (run por myKey .init steps).1))
      ((run por myKey .init steps).2.envelopes.get a) :=
  run_agrees por myKey a steps .init none (by simp [Agrees, Mailbox.init])

/-- The number of envelopes waiting according to the events. -/
def waiting (acc : Account) : Nat := acc.accepted.length - acc.handed.length

/-- **C29.** An envelope is refused exactly if its receiver is not registered or has 1000 envelopes
waiting. -/
theorem C29_refused_iff (por : PoRCheck) (myKey : Bytes) (steps : List Step) (e : Envelope) :
    (step por myKey (run por myKey .init steps).2 (.route e)).2 = .routed false ↔
      (∀ acc, account e.to (events (run por myKey .init steps).1) = some acc → waiting acc = 1000) := by
  have h := C29_bounded_fifo_partial por myKey steps e.to
  generalize account e.to (events (run por myKey .init steps).1) = acc at *
  generalize (run por myKey .init steps).2 = s at *
  simp only [step, Mailbox.route]
  cases hg : s.envelopes.get e.to with
  | none =>
    rw [hg] at h
    cases acc with
    | none => simp
    | some acc => simp [Agrees] at h
  | some q =>
    rw [hg] at h
    cases acc with
    | none => simp [Agrees] at h
    | some acc =>
      simp only [Agrees] at h
      have hl : waiting acc = q.length := by
        have := congrArg List.length h.1
        simp only [List.length_append, List.length_map] at this
        unfold waiting; omega
      have h2 := h.2
      unfold Mailbox.limit at h2 ⊢
      simp only [Option.some.injEq, forall_eq']
      by_cases hq : 1000 ≤ q.length
      · simp only [if_pos hq, true_iff]; omega
      · simp only [if_neg hq, Out.routed.injEq, Bool.true_eq_false, false_iff]; omega

/-- **C29.** A session of a registered address that asks for an envelope, and to which the response
can be written, gets the oldest one waiting, and an empty answer exactly if none is waiting.
Envelopes that came over the network have valid text fields. -/
theorem C29_get_oldest (por : PoRCheck) (myKey : Bytes) (steps : List Step) (req : HttpReq) (a : Bytes)
    (acc : Account) (hm : req.method = b! "GET")
    (hs : ownerOf (run por myKey .init steps).2 req.session = some a)
    (hacc : account a (events (run por myKey .init steps).1) = some acc)
    (hv : ∀ e ∈ acc.accepted, e.Texts) :
    (step por myKey (run por myKey .init steps).2 (.get req true)).2 =
      match acc.accepted[acc.handed.length]? with
      | none => .http .ok
      | some e => .http (.envelope (e.encode.getD [])) := by
  have h := C29_bounded_fifo_partial por myKey steps a
  rw [hacc] at h
  rw [ownerOf_eq] at hs
  generalize (run por myKey .init steps).2 = s at *
  cases hg : s.envelopes.get a with
  | none => rw [hg] at h; simp [Agrees] at h
  | some q =>
    rw [hg] at h
    simp only [Agrees] at h
    obtain ⟨h1, _⟩ := h
    have hi : (acc.accepted[acc.handed.length]?).map Envelope.encode = q[0]?.map Envelope.encode := by
      have := congrArg (fun l => l[acc.handed.length]?) h1
      simp only [List.getElem?_map] at this
      rw [← this, List.getElem?_append_right (by simp)]
      simp
    simp only [step, Mailbox.getEnvelope]
    rw [if_neg (by simp [hm]), hs]
    dsimp only
    rw [hg, Option.getD_some]
    cases q with
    | nil =>
      simp only [List.getElem?_nil, Option.map_none, Option.map_eq_none_iff] at hi
      rw [hi]
    | cons e rest =>
      simp only [List.getElem?_cons_zero, Option.map_some] at hi
      cases hx : acc.accepted[acc.handed.length]? with
      | none => rw [hx] at hi; simp at hi
      | some x =>
        rw [hx] at hi
        simp only [Option.map_some, Option.some.injEq] at hi
        have hxv : x.utf8 = true := x.utf8_iff.2 (hv x (List.mem_of_getElem? hx))
        have hxe : x.encode = some (Proto.encodeFields x.fields) := by
          unfold Envelope.encode; rw [if_pos hxv]
        have hee : e.encode = some (Proto.encodeFields x.fields) := by rw [← hi, hxe]
        simp only [hee, hxe, if_true, Option.getD_some]

/-! ## C30 -/

theorem owner_step (por : PoRCheck) (myKey : Bytes) (s : Mailbox) (st : Step) (id : Bytes) :
    (step por myKey s st).1.sessions.get id =
      (eventOf s st (step por myKey s st).2).foldl (fun o ev =>
        match ev with
        | .opened id' a => if id' = id then some a else o
        | .closed id' _ => if id' = id then none else o
        | _ => o) (s.sessions.get id) := by
  cases st with
  | register req uuid announce =>
    simp only [step, Mailbox.register]
    split
    · simp [eventOf]
    cases hb : req.body with
    | none => simp [eventOf]
    | some body =>
      rcases body with _ | ⟨x, body⟩
      · simp [eventOf]
      · dsimp only
        cases hd : AgentRecord.decode (x :: body) with
        | none => simp [eventOf]
        | some r =>
          dsimp only
          cases hp : por r r.address myKey with
          | panic => simp [eventOf]
          | err e => simp [eventOf]
          | ok c =>
            cases c
            case success =>
              cases announce
              · simp [eventOf]
              · simp only [if_true, eventOf, hb, Option.bind_some, hd, List.foldl_cons,
                  List.foldl_nil, GoMap.get_set]
                by_cases ha : id = uuid
                · rw [if_pos ha.symm, if_pos ha]
                · rw [if_neg ha, if_neg (fun h => ha h.symm)]
            all_goals simp [eventOf]
  | unregisterBegin req =>
    simp only [step, Mailbox.unregisterBegin]
    split
    · simp [eventOf]
    cases hs : req.session with
    | none => simp [eventOf]
    | some id =>
      dsimp only
      cases s.sessions.get id <;> simp [eventOf]
  | unregisterEnd i =>
    simp only [step, Mailbox.unregisterEnd]
    cases hl : s.leaving[i]? with
    | none => simp [eventOf]
    | some x =>
      obtain ⟨id', addr⟩ := x
      simp only [eventOf, hl, List.foldl_cons, List.foldl_nil, GoMap.get_erase]
      by_cases ha : id = id'
      · rw [if_pos ha.symm, if_pos ha]
      · rw [if_neg ha, if_neg (fun h => ha h.symm)]
  | send req =>
    simp only [step]
    have : eventOf s (.send req) (.http (sendEnvelope req s)) = [] := by
      unfold eventOf
      cases sendEnvelope req s <;> rfl
    rw [this]; rfl
  | get req written =>
    simp only [step, Mailbox.getEnvelope]
    split
    · simp [eventOf]
    cases hs : s.sessionAddr req.session with
    | none => simp [eventOf]
    | some addr =>
      dsimp only
      cases hq : (s.envelopes.get addr).getD [] with
      | nil => simp [eventOf]
      | cons e rest =>
        dsimp only
        cases he : e.encode with
        | none => simp [eventOf]
        | some b => cases written <;> simp [eventOf, ownerOf_eq, hs]
  | route e =>
    simp only [step, Mailbox.route]
    cases hg : s.envelopes.get e.to with
    | none => simp [eventOf]
    | some l =>
      dsimp only
      by_cases hl : Mailbox.limit ≤ l.length
      · simp only [if_pos hl]; simp [eventOf]
      · simp only [if_neg hl]; simp [eventOf]

/-- **C30.** At any point of any history a session belongs to an address exactly if it was opened
for that address and not closed since. -/
theorem C30_session_owner (por : PoRCheck) (myKey : Bytes) (steps : List Step) (id : Bytes) :
    (run por myKey .init steps).2.sessions.get id = owner id (events (run por myKey .init steps).1) := by
  have key : ∀ (steps : List Step) (s : Mailbox) (o : Option Bytes), s.sessions.get id = o →
      (run por myKey s steps).2.sessions.get id =
        (events (run por myKey s steps).1).foldl (fun o ev =>
          match ev with
          | .opened id' a => if id' = id then some a else o
          | .closed id' _ => if id' = id then none else o
          | _ => o) o := by
    intro steps
    induction steps with
    | nil => intro s o h; simpa [run, events] using h
    | cons st steps ih =>
      intro s o h
      subst h
      simp only [run]
      rw [show events ((s, st, (step por myKey s st).2) ::
          (run por myKey (step por myKey s st).1 steps).1) =
        eventOf s st (step por myKey s st).2 ++ events (run por myKey (step por myKey s st).1 steps).1
        from rfl, List.foldl_append]
      exact ih _ _ (owner_step por myKey s st id)
  exact key steps .init none (by simp [Mailbox.init])

/-- **C30.** A session is only opened for a record that is a valid proof of representation for
this peer. -/
theorem C30_opened_proven (por : PoRCheck) (myKey : Bytes) (s : Mailbox) (st : Step) (id a : Bytes)
    (h : .opened id a ∈ eventOf s st (step por myKey s st).2) :
    ∃ req announce r body, st = .register req id announce ∧ req.body = some body ∧
      AgentRecord.decode body = some r ∧ r.address = a ∧ por r a myKey = .ok .success := by
  cases st with
  | register req uuid announce =>
    simp only [step, Mailbox.register] at h
    split at h
    · simp [eventOf] at h
    cases hb : req.body with
    | none => rw [hb] at h; simp [eventOf] at h
    | some body =>
      rw [hb] at h
      rcases body with _ | ⟨x, body⟩
      · simp [eventOf] at h
      · dsimp only at h
        cases hd : AgentRecord.decode (x :: body) with
        | none => rw [hd] at h; simp [eventOf] at h
        | some r =>
          rw [hd] at h
          dsimp only at h
          cases hp : por r r.address myKey with
          | panic => rw [hp] at h; simp [eventOf] at h
          | err e => rw [hp] at h; simp [eventOf] at h
          | ok c =>
            rw [hp] at h
            cases c
            case success =>
              cases announce
              · simp [eventOf] at h
              · simp only [if_true, eventOf, hb, Option.bind_some, hd, List.mem_singleton,
                  Event.opened.injEq] at h
                obtain ⟨rfl, rfl⟩ := h
                exact ⟨req, true, r, x :: body, rfl, hb, hd, rfl, hp⟩
            all_goals simp [eventOf] at h
  | unregisterBegin req => simp [eventOf] at h
  | unregisterEnd i =>
    simp only [eventOf] at h
    split at h <;> simp_all
    split at h <;> simp_all
  | send req => simp [eventOf] at h
  | get req written =>
    simp only [eventOf] at h
    split at h <;> simp_all
    split at h <;> simp_all
  | route e =>
    simp only [eventOf] at h
    split at h <;> simp_all

/-- **C30.** A request with an unknown session id, or without one, is refused by every endpoint and
changes nothing. -/
theorem C30_unknown_refused (s : Mailbox) (req : HttpReq) (written : Bool)
    (h : ownerOf s req.session = none) :
    unregisterBegin req s = (s, .bad) ∧ sendEnvelope req s = .bad ∧
    getEnvelope req written s = (s, .bad) := by
  rw [ownerOf_eq] at h
  refine ⟨?_, ?_, ?_⟩
  · unfold unregisterBegin
    split
    · rfl
    cases hs : req.session with
    | none => rfl
    | some id =>
      have hg : s.sessions.get id = none := by simpa [sessionAddr, hs] using h
      simp [hg]
  · unfold sendEnvelope
    split
    · rfl
    · rw [h]
  · unfold getEnvelope
    split
    · rfl
    · rw [h]

/-- Identifiers in the tables. -/
structure IdInv (used : List Bytes) (s : Mailbox) : Prop where
  session : ∀ id a, s.sessions.get id = some a → id ∈ used
  leaving : ∀ id a, (id, a) ∈ s.leaving → id ∈ used
  owner : ∀ id a b, (id, a) ∈ s.leaving → s.sessions.get id = some b → b = a

/-- The identifier a step uses. -/
def stepId : Step → List Bytes
  | .register _ u _ => [u]
  | _ => []

theorem IdInv.step {por : PoRCheck} {myKey : Bytes} {used : List Bytes} {s : Mailbox} (st : Step)
    (h : IdInv used s) (hf : ∀ u ∈ stepId st, u ∉ used) :
    IdInv (used ++ stepId st) (step por myKey s st).1 := by
  have hmono : IdInv (used ++ stepId st) s :=
    ⟨fun id a hs => by simp [h.session id a hs], fun id a hs => by simp [h.leaving id a hs], h.owner⟩
  cases st with
  | register req uuid announce =>
    simp only [Mailbox.step, Mailbox.register]
    repeat' split
    all_goals first | exact hmono | skip
    rename_i r _ _ _ _
    refine ⟨fun id a hs => ?_, fun id a hs => ?_, fun id a b hl hs => ?_⟩
    · simp only [GoMap.get_set] at hs
      split at hs
      · rename_i hid; simp [stepId, hid]
      · simp [h.session id a hs]
    · simp [h.leaving id a hs]
    · simp only [GoMap.get_set] at hs
      split at hs
      · rename_i hid
        subst hid
        exact absurd (h.leaving _ _ hl) (hf _ (by simp [stepId]))
      · exact h.owner id a b hl hs
  | unregisterBegin req =>
    simp only [Mailbox.step, Mailbox.unregisterBegin]
    split
    · exact hmono
    cases hs : req.session with
    | none => exact hmono
    | some id =>
      dsimp only
      cases hg : s.sessions.get id with
      | none => exact hmono
      | some addr =>
        refine ⟨hmono.session, fun id' a hl => ?_, fun id' a b hl hs => ?_⟩
        · rcases List.mem_append.1 hl with hl | hl
          · exact hmono.leaving _ _ hl
          · simp only [List.mem_singleton, Prod.mk.injEq] at hl
            rw [hl.1]; exact hmono.session id addr hg
        · rcases List.mem_append.1 hl with hl | hl
          · exact h.owner _ _ _ hl hs
          · simp only [List.mem_singleton, Prod.mk.injEq] at hl
            dsimp only at hs
            rw [hl.1, hg] at hs
            rw [hl.2]; exact (Option.some.inj hs).symm
  | unregisterEnd i =>
    simp only [Mailbox.step, Mailbox.unregisterEnd]
    cases hl : s.leaving[i]? with
    | none => exact hmono
    | some x =>
      obtain ⟨id', addr⟩ := x
      have hmem : ∀ x, x ∈ s.leaving.eraseIdx i → x ∈ s.leaving := fun x hx =>
        List.mem_of_mem_eraseIdx hx
      refine ⟨fun id a hs => ?_, fun id a hs => hmono.leaving id a (hmem _ hs), fun id a b hl hs => ?_⟩
      · simp only [GoMap.get_erase] at hs
        split at hs
        · simp at hs
        · exact hmono.session id a hs
      · simp only [GoMap.get_erase] at hs
        split at hs
        · simp at hs
        · exact h.owner id a b (hmem _ hl) hs
  | send req => exact hmono
  | get req written =>
    simp only [Mailbox.step, Mailbox.getEnvelope]
    repeat' split
    all_goals exact ⟨hmono.session, hmono.leaving, hmono.owner⟩
  | route e =>
    simp only [Mailbox.step, Mailbox.route]
    repeat' split
    all_goals exact ⟨hmono.session, hmono.leaving, hmono.owner⟩

theorem IdInv.run {por : PoRCheck} {myKey : Bytes} {used : List Bytes} {s : Mailbox}
    (steps : List Step) (h : IdInv used s)
    (hf : (used ++ steps.flatMap stepId).Nodup) :
    IdInv (used ++ steps.flatMap stepId) (run por myKey s steps).2 := by
  induction steps generalizing used s with
  | nil => simpa [Mailbox.run] using h
  | cons st steps ih =>
    simp only [List.flatMap_cons] at hf ⊢
    rw [← List.append_assoc] at hf ⊢
    have h1 : IdInv (used ++ stepId st) (Mailbox.step por myKey s st).1 :=
      h.step st fun u hu hin => by
        have := (List.nodup_append.1 (List.nodup_append.1 hf).1).2.2
        exact this u hin u hu rfl
    exact ih h1 hf

/-- The address on whose behalf a step acts: the one that registers, or the owner of the session. -/
def actor (s : Mailbox) : Step → Option Bytes
  | .register req _ _ => (req.body.bind AgentRecord.decode).map (·.address)
  | .unregisterBegin req => ownerOf s req.session
  | .unregisterEnd i => s.leaving[i]?.map (·.2)
  | .send req => ownerOf s req.session
  | .get req _ => ownerOf s req.session
  | .route e => some e.to

/-- The mailbox of an address: its queue, its record and its sessions. -/
def SameBox (b : Bytes) (s s' : Mailbox) : Prop :=
  s'.envelopes.get b = s.envelopes.get b ∧ s'.records.get b = s.records.get b ∧
  ∀ id, s'.sessions.get id = some b ↔ s.sessions.get id = some b

theorem SameBox.refl (b : Bytes) (s : Mailbox) : SameBox b s s := ⟨rfl, rfl, fun _ => Iff.rfl⟩

/-- **C30.** Whatever is done on behalf of one address leaves the queue, the record and the
sessions of every other address as they are. Session identifiers are assumed to be fresh. -/
theorem C30_isolated (por : PoRCheck) (myKey : Bytes) (steps : List Step) (st : Step) (b : Bytes)
    (hf : ((steps ++ [st]).flatMap stepId).Nodup)
    (hb : actor (run por myKey .init steps).2 st ≠ some b) :
    SameBox b (run por myKey .init steps).2
      (step por myKey (run por myKey .init steps).2 st).1 := by
  rw [List.flatMap_append] at hf
  have hinv : IdInv (steps.flatMap stepId) (run por myKey .init steps).2 := by
    have := IdInv.run (por := por) (myKey := myKey) (used := []) (s := .init) steps
      ⟨by simp [Mailbox.init], by simp [Mailbox.init], by simp [Mailbox.init]⟩
      (by simpa using (List.nodup_append.1 hf).1)
    simpa using this
  have hfresh : ∀ u ∈ stepId st, u ∉ steps.flatMap stepId := fun u hu hin =>
    (List.nodup_append.1 hf).2.2 u hin u (by simpa using hu) rfl
  generalize (run por myKey .init steps).2 = s at *
  cases st with
  | register req uuid announce =>
    simp only [step, Mailbox.register]
    split
    · exact .refl b s
    cases hbd : req.body with
    | none => exact .refl b s
    | some body =>
      rcases body with _ | ⟨x, body⟩
      · exact .refl b s
      · dsimp only
        cases hd : AgentRecord.decode (x :: body) with
        | none => exact .refl b s
        | some r =>
          dsimp only
          have hne : b ≠ r.address := by
            intro hbr
            apply hb
            simp [actor, hbd, hd, hbr]
          cases hp : por r r.address myKey with
          | panic => exact .refl b s
          | err e => exact .refl b s
          | ok c =>
            cases c
            case success =>
              cases announce
              · exact .refl b s
              · simp only [if_true]
                refine ⟨GoMap.get_set_ne _ _ hne, GoMap.get_set_ne _ _ hne, fun id => ?_⟩
                simp only [GoMap.get_set]
                split
                · rename_i hid
                  subst hid
                  constructor
                  · intro h; exact absurd (Option.some.inj h).symm hne
                  · intro h
                    exact absurd (hinv.session _ _ h) (hfresh _ (by simp [stepId]))
                · exact Iff.rfl
            all_goals exact .refl b s
  | unregisterBegin req =>
    simp only [step, Mailbox.unregisterBegin]
    repeat' split
    all_goals exact ⟨rfl, rfl, fun _ => Iff.rfl⟩
  | unregisterEnd i =>
    simp only [step, Mailbox.unregisterEnd]
    cases hl : s.leaving[i]? with
    | none => exact .refl b s
    | some x =>
      obtain ⟨id', addr⟩ := x
      have hne : b ≠ addr := by
        intro h; apply hb; simp [actor, hl, h]
      refine ⟨GoMap.get_erase_ne _ hne, GoMap.get_erase_ne _ hne, fun id => ?_⟩
      simp only [GoMap.get_erase]
      split
      · rename_i hid
        subst hid
        constructor
        · intro h; simp at h
        · intro h
          exact absurd (hinv.owner _ _ _ (List.mem_of_getElem? hl) h) hne
      · exact Iff.rfl
  | send req => exact .refl b s
  | get req written =>
    simp only [step, Mailbox.getEnvelope]
    split
    · exact .refl b s
    cases hs : s.sessionAddr req.session with
    | none => exact .refl b s
    | some addr =>
      have hne : b ≠ addr := by
        intro h; apply hb; simp [actor, ownerOf_eq, hs, h]
      dsimp only
      repeat' split
      all_goals first | exact .refl b s | exact ⟨GoMap.get_set_ne _ _ hne, rfl, fun _ => Iff.rfl⟩
  | route e =>
    have hne : b ≠ e.to := by
      intro h; apply hb; simp [actor, h]
    simp only [step, Mailbox.route]
    repeat' split
    all_goals first | exact .refl b s | exact ⟨GoMap.get_set_ne _ _ hne, rfl, fun _ => Iff.rfl⟩

/-! ## C28 -/

/-- **C28, partial.** An envelope is taken for routing exactly from a well-formed request of a live
session. Missing from the property: any comparison of the sender with the address of the
session. -/
theorem C28_session_needed_partial (s : Mailbox) (req : HttpReq) (e : Envelope) :
    sendEnvelope req s = .forward e ↔
      req.method = b! "POST" ∧ (∃ a, s.sessionAddr req.session = some a) ∧
      ∃ body, req.body = some body ∧ body ≠ [] ∧ Envelope.decode body = some e := by
  unfold sendEnvelope
  constructor
  · intro h
    split at h
    · simp at h
    rename_i hm
    split at h
    · simp at h
    rename_i a ha
    split at h
    · simp at h
    · simp at h
    rename_i body hne hb
    split at h
    · simp at h
    rename_i e' he
    simp only [Resp.forward.injEq] at h
    subst h
    exact ⟨by simpa using hm, ⟨a, ha⟩, body, hb, hne, he⟩
  · rintro ⟨hm, ⟨a, ha⟩, body, hb, hne, he⟩
    rw [if_neg (by simp [hm]), ha, hb]
    dsimp only
    cases body with
    | nil => exact absurd rfl hne
    | cons x body => simp only [he]

/-! ## Concrete cases and counterexamples -/

namespace MailDemo

open HandlersDemo in
/-- The check with toy primitives. -/
def por : PoRCheck := HandlersDemo.por
/-- A record of the given address. -/
def recordOf (a : Bytes) : Bytes :=
  ((⟨b! "acn", b! "cosmos", a, a, b! "pk", b! "pk", [], []⟩ : AgentRecord).encode).getD []
/-- Registration of an address, with the given session id. -/
def reg (a id : Bytes) : Step := .register ⟨b! "POST", none, some (recordOf a)⟩ id true
/-- An envelope. -/
def env (to sender : Bytes) : Envelope := ⟨to, sender, b! "p", [], []⟩
/-- The request of a session for an envelope. -/
def get (id : Bytes) : Step := .get ⟨b! "GET", some id, none⟩ true
/-- What the steps of a history showed. -/
def shown (steps : List Step) : List Out := (Mailbox.run por (b! "pk") .init steps).1.map (·.2.2)

end MailDemo

set_option maxRecDepth 100000 in
/-- **C29 is false** of an address that registers again: the envelope accepted before is never
handed out, though the address was registered throughout. -/
theorem C29_reregistration_counterexample :
    MailDemo.shown [MailDemo.reg (b! "ag") (b! "s1"), .route (MailDemo.env (b! "ag") (b! "x")),
      MailDemo.reg (b! "ag") (b! "s2"), MailDemo.get (b! "s1"), MailDemo.get (b! "s2")] =
    [.http (.session (b! "s1")), .routed true, .http (.session (b! "s2")), .http .ok, .http .ok] := by
  decide

/-- Registering again always empties the queue. -/
theorem C29_reregistration_empties (por : PoRCheck) (myKey : Bytes) (req : HttpReq) (uuid : Bytes)
    (announce : Bool) (s : Mailbox) (id : Bytes) (r : AgentRecord)
    (hb : req.body.bind AgentRecord.decode = some r)
    (h : (register por myKey req uuid announce s).2 = .session id) :
    (register por myKey req uuid announce s).1.envelopes.get r.address = some [] := by
  cases hbd : req.body with
  | none => rw [hbd] at hb; simp at hb
  | some body =>
    rw [hbd] at hb
    simp only [Option.bind_some] at hb
    unfold register at h ⊢
    split at h
    · simp at h
    rename_i hm
    rw [if_neg hm]
    rw [hbd] at h ⊢
    rcases body with _ | ⟨x, body⟩
    · simp at h
    · simp only [hb] at h ⊢
      cases hp : por r r.address myKey with
      | panic => rw [hp] at h; simp at h
      | err e => rw [hp] at h; simp at h
      | ok c =>
        rw [hp] at h
        cases c
        case success =>
          cases announce
          · simp at h
          · simp
        all_goals simp at h

set_option maxRecDepth 100000 in
/-- **C28 is false**: the session of `eve` submits an envelope as `bob`. -/
theorem C28_counterexample :
    MailDemo.shown [MailDemo.reg (b! "eve") (b! "s1"),
      .send ⟨b! "POST", some (b! "s1"), (MailDemo.env (b! "ag") (b! "bob")).encode⟩] =
    [.http (.session (b! "s1")), .http (.forward ⟨b! "ag", b! "bob", b! "p", [], []⟩)] := by
  decide

namespace MailDemo

set_option maxRecDepth 100000 in
example : shown [reg (b! "ag") (b! "s1"), .route (env (b! "ag") (b! "x")),
    .route (env (b! "ag") (b! "y")), .route (env (b! "no") (b! "y")), get (b! "s1"), get (b! "s1"),
    get (b! "s1"), get (b! "zz")] =
    [.http (.session (b! "s1")), .routed true, .routed true, .routed false,
     .http (.envelope [10, 2, 97, 103, 18, 1, 120, 26, 1, 112]),
     .http (.envelope [10, 2, 97, 103, 18, 1, 121, 26, 1, 112]), .http .ok, .http .bad] := by decide

end MailDemo

end Verif
