import Verif.Props.Mailbox

/-!
# C112: mailboxes and sessions

Specification: every mailbox has a session through which it can be emptied and closed, so that what the service keeps
is bounded by the number of sessions; and every session has a mailbox, so that its owner gets what is sent to it.
-/

namespace Verif

open Mailbox MailSpec

namespace MailSessions

/-! ## What a step can do -/

/-- The six things that a step can do to the tables. -/
inductive Effect (s : Mailbox) (st : Step) (s' : Mailbox) : Prop where
  | none (h : s' = s)
  | opened (req : HttpReq) (id : Bytes) (ok : Bool) (r : AgentRecord) (hst : st = .register req id ok)
      (hr : req.body.bind AgentRecord.decode = some r)
      (h : s' = { s with
        records := s.records.set r.address r
        sessions := s.sessions.set id r.address
        envelopes := s.envelopes.set r.address [] })
  | leaves (id a : Bytes) (hs : s.sessions.get id = some a) (h : s' = { s with leaving := s.leaving ++ [(id, a)] })
  | closed (i : Nat) (id a : Bytes) (hl : s.leaving[i]? = some (id, a))
      (h : s' = { s with
        records := s.records.erase a
        sessions := s.sessions.erase id
        envelopes := s.envelopes.erase a
        leaving := s.leaving.eraseIdx i })
  | taken (a : Bytes) (e : Envelope) (rest : List Envelope) (hq : s.envelopes.get a = some (e :: rest))
      (h : s' = { s with envelopes := s.envelopes.set a rest })
  | routed (e : Envelope) (l : List Envelope) (hq : s.envelopes.get e.to = some l) (hl : l.length < 1000)
      (h : s' = { s with envelopes := s.envelopes.set e.to (l ++ [e]) })

theorem effect (por : PoRCheck) (myKey : Bytes) (s : Mailbox) (st : Step) :
    Effect s st (step por myKey s st).1 := by
  cases st with
  | register req id ok =>
    simp only [step, Mailbox.register]
    split
    · exact .none rfl
    cases hb : req.body with
    | none => exact .none rfl
    | some body =>
      rcases body with _ | ⟨x, body⟩
      · exact .none rfl
      · dsimp only
        cases hd : AgentRecord.decode (x :: body) with
        | none => exact .none rfl
        | some r =>
          dsimp only
          cases hp : por r r.address myKey with
          | panic => exact .none rfl
          | err e => exact .none rfl
          | ok c =>
            cases c
            case success =>
              cases ok
              · exact .none rfl
              · exact .opened req id true r rfl (by rw [hb]; exact hd) rfl
            all_goals exact .none rfl
  | unregisterBegin req =>
    simp only [step, Mailbox.unregisterBegin]
    split
    · exact .none rfl
    cases hs : req.session with
    | none => exact .none rfl
    | some id =>
      dsimp only
      cases hg : s.sessions.get id with
      | none => exact .none rfl
      | some a => exact .leaves id a hg rfl
  | unregisterEnd i =>
    simp only [step, Mailbox.unregisterEnd]
    cases hl : s.leaving[i]? with
    | none => exact .none rfl
    | some x => exact .closed i x.1 x.2 hl rfl
  | send req => exact .none rfl
  | get req written =>
    simp only [step, Mailbox.getEnvelope]
    split
    · exact .none rfl
    cases hs : s.sessionAddr req.session with
    | none => exact .none rfl
    | some a =>
      dsimp only
      cases hq : (s.envelopes.get a).getD [] with
      | nil => exact .none rfl
      | cons e rest =>
        dsimp only
        cases e.encode with
        | none => exact .none rfl
        | some b =>
          cases written
          · exact .none rfl
          · refine .taken a e rest ?_ rfl
            cases hg : s.envelopes.get a with
            | none => rw [hg] at hq; cases hq
            | some l => rw [hg] at hq; exact congrArg some hq
  | route e =>
    simp only [step, Mailbox.route]
    cases hq : s.envelopes.get e.to with
    | none => exact .none rfl
    | some l =>
      dsimp only
      by_cases hl : limit ≤ l.length
      · rw [if_pos hl]; exact .none rfl
      · rw [if_neg hl]
        exact .routed e l hq (by unfold limit at hl; omega) rfl

/-! ## Every mailbox has a session -/

/-- Records, queues and sessions. -/
structure Kept (s : Mailbox) : Prop where
  record : ∀ a, s.records.has a = s.envelopes.has a
  short : ∀ a l, s.envelopes.get a = some l → l.length ≤ 1000

theorem has_set {K V : Type} [DecidableEq K] (m : GoMap K V) (k k' : K) (v : V) :
    (m.set k v).has k' = (decide (k' = k) || m.has k') := by
  unfold GoMap.has
  rw [GoMap.get_set]
  by_cases h : k' = k <;> simp [h]

theorem has_erase {K V : Type} [DecidableEq K] (m : GoMap K V) (k k' : K) :
    (m.erase k).has k' = (!decide (k' = k) && m.has k') := by
  unfold GoMap.has
  rw [GoMap.get_erase]
  by_cases h : k' = k <;> simp [h]

theorem has_of_get {K V : Type} [DecidableEq K] {m : GoMap K V} {k : K} {v : V} (h : m.get k = some v) :
    m.has k = true := by
  unfold GoMap.has
  rw [h]
  rfl

theorem Kept.step {por : PoRCheck} {myKey : Bytes} {s : Mailbox} (st : Step) (h : Kept s) :
    Kept (step por myKey s st).1 := by
  cases effect por myKey s st with
  | none hs => rw [hs]; exact h
  | opened req id ok r hst hr hs =>
    rw [hs]
    refine ⟨fun a => ?_, fun a l hl => ?_⟩
    · dsimp only
      rw [has_set, has_set, h.record]
    · dsimp only at hl
      rw [GoMap.get_set] at hl
      split at hl
      · cases hl; exact Nat.zero_le _
      · exact h.short a l hl
  | leaves id a hg hs => rw [hs]; exact ⟨h.record, h.short⟩
  | closed i id a hg hs =>
    rw [hs]
    refine ⟨fun b => ?_, fun b l hl => ?_⟩
    · dsimp only
      rw [has_erase, has_erase, h.record]
    · dsimp only at hl
      rw [GoMap.get_erase] at hl
      split at hl
      · cases hl
      · exact h.short b l hl
  | taken a e rest hq hs =>
    rw [hs]
    refine ⟨fun b => ?_, fun b l hl => ?_⟩
    · dsimp only
      rw [has_set, h.record]
      by_cases hb : b = a
      · rw [hb, has_of_get hq, Bool.or_true]
      · simp [hb]
    · dsimp only at hl
      rw [GoMap.get_set] at hl
      split at hl
      · cases hl
        have := h.short a _ hq
        simp only [List.length_cons] at this
        omega
      · exact h.short b l hl
  | routed e l hq hl hs =>
    rw [hs]
    refine ⟨fun b => ?_, fun b l' hl' => ?_⟩
    · dsimp only
      rw [has_set, h.record]
      by_cases hb : b = e.to
      · rw [hb, has_of_get hq, Bool.or_true]
      · simp [hb]
    · dsimp only at hl'
      rw [GoMap.get_set] at hl'
      split at hl'
      · cases hl'
        simp only [List.length_append, List.length_singleton]
        omega
      · exact h.short b l' hl'

theorem Kept.run {por : PoRCheck} {myKey : Bytes} (steps : List Step) : ∀ {s : Mailbox}, Kept s →
    Kept (run por myKey s steps).2 := by
  induction steps with
  | nil => exact fun h => h
  | cons st steps ih => exact fun h => ih (h.step st)

/-- Every mailbox has a session. -/
def Covered (s : Mailbox) : Prop := ∀ a, s.envelopes.has a = true → ∃ id, s.sessions.get id = some a

theorem covered_step {por : PoRCheck} {myKey : Bytes} {used : List Bytes} {s : Mailbox} (st : Step)
    (hi : IdInv used s) (h : Covered s) (hf : ∀ u ∈ stepId st, u ∉ used) : Covered (step por myKey s st).1 := by
  intro b hb
  cases effect por myKey s st with
  | none hs => rw [hs] at hb ⊢; exact h b hb
  | opened req id ok r hst hr hs =>
    rw [hs] at hb ⊢
    dsimp only at hb ⊢
    by_cases hbr : b = r.address
    · exact ⟨id, by rw [hbr, GoMap.get_set_self]⟩
    · rw [has_set] at hb
      obtain ⟨id', hid⟩ := h b (by simpa [hbr] using hb)
      refine ⟨id', ?_⟩
      rw [GoMap.get_set_ne _ _ ?_]
      · exact hid
      · intro he
        refine hf id ?_ (he ▸ hi.session _ _ hid)
        rw [hst]
        exact List.mem_singleton.mpr rfl
  | leaves id a hg hs => rw [hs] at hb ⊢; exact h b hb
  | closed i id a hl hs =>
    rw [hs] at hb ⊢
    dsimp only at hb ⊢
    rw [has_erase, Bool.and_eq_true] at hb
    obtain ⟨id', hid⟩ := h b hb.2
    refine ⟨id', ?_⟩
    rw [GoMap.get_erase_ne]
    · exact hid
    · intro he
      have := hi.owner id a b (List.mem_of_getElem? hl) (he ▸ hid)
      simp [this] at hb
  | taken a e rest hq hs =>
    rw [hs] at hb ⊢
    dsimp only at hb ⊢
    rw [has_set] at hb
    by_cases hba : b = a
    · exact h b (hba ▸ has_of_get hq)
    · exact h b (by simpa [hba] using hb)
  | routed e l hq hl hs =>
    rw [hs] at hb ⊢
    dsimp only at hb ⊢
    rw [has_set] at hb
    by_cases hba : b = e.to
    · exact h b (hba ▸ has_of_get hq)
    · exact h b (by simpa [hba] using hb)

theorem covered_run {por : PoRCheck} {myKey : Bytes} (steps : List Step) : ∀ {used : List Bytes} {s : Mailbox},
    IdInv used s → Covered s → (used ++ steps.flatMap stepId).Nodup → Covered (run por myKey s steps).2 := by
  induction steps with
  | nil => exact fun _ h _ => h
  | cons st steps ih =>
    intro used s hi h hf
    simp only [List.flatMap_cons] at hf
    rw [← List.append_assoc] at hf
    have hn : ∀ u ∈ stepId st, u ∉ used := fun u hu hin =>
      (List.nodup_append.1 (List.nodup_append.1 hf).1).2.2 u hin u hu rfl
    exact ih (hi.step st hn) (covered_step st hi h hn) hf

theorem nodup_le {α : Type} [DecidableEq α] : ∀ {l m : List α}, l.Nodup → (∀ x ∈ l, x ∈ m) → l.length ≤ m.length
  | [], _, _, _ => Nat.zero_le _
  | x :: l, m, hn, hm => by
    have hx := hm x (List.mem_cons_self ..)
    have h1 : l.length ≤ (m.erase x).length := nodup_le (List.nodup_cons.mp hn).2 fun y hy =>
      (List.mem_erase_of_ne fun (he : y = x) => (List.nodup_cons.mp hn).1 (he ▸ hy)).mpr (hm y (List.mem_cons_of_mem _ hy))
    have h2 := List.length_erase_of_mem hx
    have h3 := List.length_pos_of_mem hx
    simp only [List.length_cons]
    omega

theorem sum_le {α : Type} (f : α → Nat) (n : Nat) : ∀ (l : List α), (∀ x ∈ l, f x ≤ n) →
    (l.map f).sum ≤ n * l.length
  | [], _ => Nat.zero_le _
  | x :: l, h => by
    have h1 := h x (List.mem_cons_self ..)
    have h2 := sum_le f n l fun y hy => h y (List.mem_cons_of_mem _ hy)
    simp only [List.map_cons, List.sum_cons, List.length_cons, Nat.mul_add, Nat.mul_one]
    omega

end MailSessions

open MailSessions

/-- **C112, partial.** After any requests, each address with a mailbox has a record and a session, and no others have a
record; there are at most as many mailboxes as sessions, and at most 1000 envelopes for each. Session identifiers are
assumed to be fresh. Missing from the property: that each session has a mailbox, and that there is one session for
each. -/
theorem C112_mailbox_partial (por : PoRCheck) (myKey : Bytes) (steps : List Step)
    (hf : (steps.flatMap stepId).Nodup) :
    let s := (run por myKey .init steps).2
    (∀ a, s.records.has a = s.envelopes.has a) ∧
    (∀ a, s.envelopes.has a = true → ∃ id, s.sessions.get id = some a) ∧
    s.envelopes.size ≤ s.sessions.size ∧
    (s.envelopes.entries.map fun e => e.2.length).sum ≤ 1000 * s.envelopes.size := by
  have hk : Kept (run por myKey .init steps).2 :=
    Kept.run steps ⟨fun _ => rfl, fun a l h => by simp [Mailbox.init] at h⟩
  have hi : IdInv [] Mailbox.init :=
    ⟨fun id a h => by simp [Mailbox.init] at h, fun id a h => by simp [Mailbox.init] at h,
      fun id a b h => by simp [Mailbox.init] at h⟩
  have hc : Covered (run por myKey .init steps).2 :=
    covered_run steps hi (fun a h => by cases h) (by simpa using hf)
  dsimp only
  generalize (run por myKey .init steps).2 = s at hk hc
  refine ⟨hk.record, hc, ?_, sum_le _ _ _ fun e he => hk.short e.1 e.2 ((s.envelopes.mem_entries_iff _ _).1 he)⟩
  have := nodup_le (l := s.envelopes.keys) (m := s.sessions.entries.map (·.2)) s.envelopes.nodup fun a ha => by
    obtain ⟨l, hl⟩ := (s.envelopes.mem_keys_iff a).1 ha
    obtain ⟨id, hid⟩ := hc a (has_of_get hl)
    exact List.mem_map.mpr ⟨(id, a), (s.sessions.mem_entries_iff _ _).2 hid, rfl⟩
  simpa [GoMap.keys, GoMap.size] using this

namespace MailSessions

/-- The address has no session and is not about to give one up. -/
def Away (s : Mailbox) (a : Bytes) : Prop :=
  (∀ id, s.sessions.get id ≠ some a) ∧ ∀ id, (id, a) ∉ s.leaving

/-- Nobody registers an address that has a session or is about to give one up. -/
def Once (por : PoRCheck) (myKey : Bytes) : Mailbox → List Step → Prop
  | _, [] => True
  | s, st :: rest =>
    (∀ req id ok r, st = .register req id ok → req.body.bind AgentRecord.decode = some r → Away s r.address) ∧
      Once por myKey (step por myKey s st).1 rest

/-- One session for each address, which has a mailbox. -/
structure Single (s : Mailbox) : Prop where
  box : ∀ id a, s.sessions.get id = some a → s.envelopes.has a = true
  one : ∀ id id' a, s.sessions.get id = some a → s.sessions.get id' = some a → id = id'
  leaving : ∀ id id' a, (id, a) ∈ s.leaving → s.sessions.get id' = some a → id' = id

theorem Single.step {por : PoRCheck} {myKey : Bytes} {s : Mailbox} (st : Step) (h : Single s)
    (ho : ∀ req id ok r, st = .register req id ok → req.body.bind AgentRecord.decode = some r → Away s r.address) :
    Single (step por myKey s st).1 := by
  cases effect por myKey s st with
  | none hs => rw [hs]; exact h
  | opened req id ok r hst hr hs =>
    obtain ⟨h1, h2⟩ := ho req id ok r hst hr
    have hg : ∀ id' a, (s.sessions.set id r.address).get id' = some a →
        (id' = id ∧ a = r.address) ∨ (s.sessions.get id' = some a ∧ a ≠ r.address) := by
      intro id' a ha
      rw [GoMap.get_set] at ha
      split at ha
      · next he => exact .inl ⟨he, (Option.some.inj ha).symm⟩
      · exact .inr ⟨ha, fun he => h1 id' (he ▸ ha)⟩
    rw [hs]
    refine ⟨fun id' a ha => ?_, fun id' id'' a ha ha' => ?_, fun id' id'' a hl ha => ?_⟩
    · dsimp only
      rw [has_set]
      rcases hg id' a ha with ⟨_, he⟩ | ⟨ha, _⟩
      · simp [he]
      · simp [h.box id' a ha]
    · rcases hg id' a ha with ⟨h3, h4⟩ | ⟨h3, h4⟩ <;> rcases hg id'' a ha' with ⟨h5, h6⟩ | ⟨h5, h6⟩
      · rw [h3, h5]
      · exact absurd h4 h6
      · exact absurd h6 h4
      · exact h.one _ _ _ h3 h5
    · rcases hg id'' a ha with ⟨_, h4⟩ | ⟨h3, _⟩
      · exact absurd (h4 ▸ hl) (h2 id')
      · exact h.leaving _ _ _ hl h3
  | leaves id a hg hs =>
    rw [hs]
    refine ⟨h.box, h.one, fun id' id'' b hl hb => ?_⟩
    rcases List.mem_append.1 hl with hl | hl
    · exact h.leaving _ _ _ hl hb
    · simp only [List.mem_singleton, Prod.mk.injEq] at hl
      exact h.one _ _ b hb (by rw [hl.1, hl.2]; exact hg)
  | closed i id a hl hs =>
    have hg : ∀ id' b, (s.sessions.erase id).get id' = some b → s.sessions.get id' = some b ∧ id' ≠ id := by
      intro id' b hb
      rw [GoMap.get_erase] at hb
      split at hb
      · cases hb
      · next he => exact ⟨hb, he⟩
    rw [hs]
    refine ⟨fun id' b hb => ?_, fun id' id'' b hb hb' => h.one _ _ b (hg _ _ hb).1 (hg _ _ hb').1,
      fun id' id'' b hl' hb => h.leaving _ _ b (List.mem_of_mem_eraseIdx hl') (hg _ _ hb).1⟩
    obtain ⟨h1, h2⟩ := hg id' b hb
    dsimp only
    rw [has_erase, h.box id' b h1]
    have : b ≠ a := fun he => h2 (h.leaving id id' a (List.mem_of_getElem? hl) (he ▸ h1))
    simp [this]
  | taken a e rest hq hs =>
    rw [hs]
    refine ⟨fun id b hb => ?_, h.one, h.leaving⟩
    dsimp only
    rw [has_set, h.box id b hb, Bool.or_true]
  | routed e l hq hl hs =>
    rw [hs]
    refine ⟨fun id b hb => ?_, h.one, h.leaving⟩
    dsimp only
    rw [has_set, h.box id b hb, Bool.or_true]

theorem Single.run {por : PoRCheck} {myKey : Bytes} (steps : List Step) : ∀ {s : Mailbox}, Single s →
    Once por myKey s steps → Single (run por myKey s steps).2 := by
  induction steps with
  | nil => exact fun h _ => h
  | cons st steps ih => exact fun h ho => ih (h.step st ho.1) ho.2

end MailSessions

/-- **C112, partial.** If no address is registered while it has a session or is about to give one up, each session has a
mailbox of its own: what is sent to the address is refused only if 1000 envelopes wait for it, and there are as many
sessions as mailboxes. -/
theorem C112_session_partial (por : PoRCheck) (myKey : Bytes) (steps : List Step)
    (hf : (steps.flatMap stepId).Nodup) (ho : Once por myKey .init steps) :
    let s := (run por myKey .init steps).2
    (∀ id a, s.sessions.get id = some a → ∃ l, s.envelopes.get a = some l ∧ ∀ e : Envelope, e.to = a →
      ((route e s).2 = true ↔ l.length < 1000)) ∧
    (∀ id id' a, s.sessions.get id = some a → s.sessions.get id' = some a → id = id') ∧
    s.sessions.size = s.envelopes.size := by
  have hs : Single (run por myKey .init steps).2 :=
    Single.run steps ⟨fun id a h => by simp [Mailbox.init] at h, fun id _ a h => by simp [Mailbox.init] at h,
      fun id _ a h => by simp [Mailbox.init] at h⟩ ho
  obtain ⟨_, _, hle, _⟩ := C112_mailbox_partial por myKey steps hf
  dsimp only
  generalize (run por myKey .init steps).2 = s at hs hle
  refine ⟨fun id a h => ?_, hs.one, Nat.le_antisymm ?_ hle⟩
  · have hb := hs.box id a h
    cases hg : s.envelopes.get a with
    | none => unfold GoMap.has at hb; rw [hg] at hb; cases hb
    | some l =>
      refine ⟨l, rfl, fun e he => ?_⟩
      unfold Mailbox.route
      rw [he, hg]
      dsimp only
      unfold limit
      by_cases hl : 1000 ≤ l.length
      · rw [if_pos hl]; constructor
        · intro h; cases h
        · intro h; omega
      · rw [if_neg hl]; exact ⟨fun _ => by omega, fun _ => rfl⟩
  · have hn : (s.sessions.entries.map (·.2)).Nodup := by
      rw [List.nodup_iff_pairwise_ne, List.pairwise_map]
      have h1 := s.sessions.nodup
      rw [List.nodup_iff_pairwise_ne, List.pairwise_map] at h1
      refine List.Pairwise.imp_of_mem (fun {x y} hx hy hne he => hne ?_) h1
      exact hs.one x.1 y.1 x.2 ((s.sessions.mem_entries_iff _ _).1 hx)
        (he ▸ (s.sessions.mem_entries_iff _ _).1 hy)
    have := nodup_le (m := s.envelopes.keys) hn fun a ha => by
      obtain ⟨x, hx, rfl⟩ := List.mem_map.mp ha
      have hb := hs.box x.1 x.2 ((s.sessions.mem_entries_iff _ _).1 hx)
      rw [s.envelopes.mem_keys_iff]
      exact Option.isSome_iff_exists.mp hb
    simpa [GoMap.keys, GoMap.size] using this

/-! ## One address with many sessions -/

namespace MailDemo

/-- The record of `ag`. -/
def agRecord : AgentRecord := ⟨b! "acn", b! "cosmos", b! "ag", b! "ag", b! "pk", b! "pk", [], []⟩

set_option maxRecDepth 100000 in
theorem reg_step (s : Mailbox) (id : Bytes) : step por (b! "pk") s (reg (b! "ag") id) =
    ({ s with
        records := s.records.set (b! "ag") agRecord
        sessions := s.sessions.set id (b! "ag")
        envelopes := s.envelopes.set (b! "ag") [] }, .http (.session id)) := by
  have hd : AgentRecord.decode (recordOf (b! "ag")) = some agRecord := by decide
  have hp : por agRecord (b! "ag") (b! "pk") = .ok .success := by decide
  have hn : recordOf (b! "ag") ≠ [] := by decide
  simp only [reg, step, Mailbox.register]
  generalize recordOf (b! "ag") = body at hd hn
  cases body with
  | nil => exact absurd rfl hn
  | cons x body =>
    rw [hd]
    have : agRecord.address = b! "ag" := rfl
    simp only [this, hp]
    rfl

theorem run_append (por : PoRCheck) (myKey : Bytes) : ∀ (a b : List Step) (s : Mailbox),
    (Mailbox.run por myKey s (a ++ b)).2 = (Mailbox.run por myKey (Mailbox.run por myKey s a).2 b).2
  | [], _, _ => rfl
  | st :: a, b, s => run_append por myKey a b (step por myKey s st).1

/-- After registering with each of the identifiers. -/
theorem regs_sessions (ids : List Bytes) : ∀ (s : Mailbox),
    (∀ id ∈ ids, (Mailbox.run por (b! "pk") s (ids.map (reg (b! "ag")))).2.sessions.get id = some (b! "ag")) ∧
    (∀ id, s.sessions.get id = some (b! "ag") →
      (Mailbox.run por (b! "pk") s (ids.map (reg (b! "ag")))).2.sessions.get id = some (b! "ag")) ∧
    (Mailbox.run por (b! "pk") s (ids.map (reg (b! "ag")))).2.leaving = s.leaving ∧
    (∀ a, (Mailbox.run por (b! "pk") s (ids.map (reg (b! "ag")))).2.envelopes.has a =
      (s.envelopes.has a || (decide (a = b! "ag") && !ids.isEmpty))) := by
  induction ids with
  | nil => exact fun s => ⟨fun _ h => (List.not_mem_nil h).elim, fun _ h => h, rfl, fun a => by simp [Mailbox.run]⟩
  | cons id ids ih =>
    intro s
    have e : (Mailbox.run por (b! "pk") s ((id :: ids).map (reg (b! "ag")))).2 =
        (Mailbox.run por (b! "pk") (step por (b! "pk") s (reg (b! "ag") id)).1 (ids.map (reg (b! "ag")))).2 := rfl
    rw [e, reg_step]
    obtain ⟨h1, h2, h3, h4⟩ := ih { s with
        records := s.records.set (b! "ag") agRecord
        sessions := s.sessions.set id (b! "ag")
        envelopes := s.envelopes.set (b! "ag") [] }
    refine ⟨fun id' h => ?_, fun id' h => h2 id' ?_, h3, fun a => ?_⟩
    · rcases List.mem_cons.mp h with rfl | h
      · exact h2 id' (GoMap.get_set_self ..)
      · exact h1 id' h
    · dsimp only
      rw [GoMap.get_set]
      split
      · rfl
      · exact h
    · rw [h4 a]
      dsimp only
      rw [MailSessions.has_set]
      by_cases ha : a = b! "ag" <;> simp [ha]

end MailDemo

/-- **C112 is false**: one address can have any number of sessions. When one of them is given up, the others stay and
have no mailbox: a request for an envelope is answered as if there were none, and what is sent to the address is
refused. -/
theorem C112_counterexample (id : Bytes) (ids : List Bytes) (hn : (id :: ids).Nodup) :
    let s := (run MailDemo.por (b! "pk") .init ((id :: ids).map (MailDemo.reg (b! "ag")))).2
    let s' := (run MailDemo.por (b! "pk") s
      [.unregisterBegin ⟨b! "GET", some id, none⟩, .unregisterEnd 0]).2
    (∀ i ∈ id :: ids, s.sessions.get i = some (b! "ag")) ∧
    (∀ a, s.envelopes.has a = true ↔ a = b! "ag") ∧
    (∀ i ∈ ids, s'.sessions.get i = some (b! "ag") ∧
      getEnvelope ⟨b! "GET", some i, none⟩ true s' = (s', .ok)) ∧
    (∀ a, s'.envelopes.has a = false) ∧ ∀ e : Envelope, e.to = b! "ag" → (route e s').2 = false := by
  obtain ⟨h1, _, h3, h4⟩ := MailDemo.regs_sessions (id :: ids) .init
  dsimp only
  generalize (run MailDemo.por (b! "pk") .init ((id :: ids).map (MailDemo.reg (b! "ag")))).2 = s at *
  have h4 : ∀ a, s.envelopes.has a = true ↔ a = b! "ag" := fun a => by
    rw [h4 a]
    simp [Mailbox.init, GoMap.has]
  have hs' : (run MailDemo.por (b! "pk") s
      [.unregisterBegin ⟨b! "GET", some id, none⟩, .unregisterEnd 0]).2 =
      { s with
        records := s.records.erase (b! "ag")
        sessions := s.sessions.erase id
        envelopes := s.envelopes.erase (b! "ag") } := by
    have hg := h1 id (List.mem_cons_self ..)
    obtain ⟨ses, recs, envs, lv⟩ := s
    dsimp only at hg h3
    subst h3
    simp [run, step, unregisterBegin, unregisterEnd, hg, Mailbox.init]
  rw [hs']
  have hb : ∀ a, (s.envelopes.erase (b! "ag")).has a = false := fun a => by
    rw [has_erase]
    by_cases ha : a = b! "ag"
    · simp [ha]
    · have : s.envelopes.has a = false := by
        rw [← Bool.not_eq_true, h4]
        exact ha
      rw [this, Bool.and_false]
  have hbg : (s.envelopes.erase (b! "ag")).get (b! "ag") = none := GoMap.get_erase_self ..
  refine ⟨h1, h4, fun i hi => ?_, hb, fun e he => ?_⟩
  · have hne : i ≠ id := fun he => (List.nodup_cons.mp hn).1 (he ▸ hi)
    have hg : (s.sessions.erase id).get i = some (b! "ag") := by
      rw [GoMap.get_erase_ne _ hne]
      exact h1 i (List.mem_cons_of_mem _ hi)
    refine ⟨hg, ?_⟩
    unfold getEnvelope sessionAddr
    dsimp only [Option.bind_some]
    rw [hg]
    dsimp only
    rw [hbg]
    rfl
  · unfold Mailbox.route
    dsimp only
    rw [he, hbg]

/-- Concrete case: somebody registers, gives the session up and registers again. -/
example (id id' : Bytes) : Once MailDemo.por (b! "pk") .init
    [MailDemo.reg (b! "ag") id, .unregisterBegin ⟨b! "GET", some id, none⟩, .unregisterEnd 0,
      MailDemo.reg (b! "ag") id'] := by
  refine ⟨fun _ _ _ r _ _ => ⟨fun i h => by simp [Mailbox.init] at h, fun i h => by simp [Mailbox.init] at h⟩,
    fun _ _ _ _ h => by simp at h, fun _ _ _ _ h => by simp at h, fun _ _ _ r _ _ => ?_, trivial⟩
  rw [MailDemo.reg_step]
  simp only [step, unregisterBegin, GoMap.get_set_self, Mailbox.init, List.nil_append]
  refine ⟨fun i h => ?_, fun i h => ?_⟩
  · simp [unregisterEnd, GoMap.get_erase, GoMap.get_set] at h
    exact h.1 h.2.1
  · simp [unregisterEnd] at h

end Verif
