import Verif.Model.PeerStart

/-!
# C81: a node that cannot start leaves nothing open
# C83: whoever can be looked up can be reached

Both wrong as stated.
-/

namespace Verif

/-- What a failing action tells: everything before it was done and did not fail, unless that is ignored. -/
theorem startExec_failed {fails : StartAct → Bool} {acts done d : List StartAct} {a : StartAct} {c : Bool}
    (h : startExec fails done acts = .failed a d c) :
    ∃ pre post, acts = pre ++ a :: post ∧ d = done ++ pre ∧ fails a = true ∧
      ((a.onFail = .gives ∧ c = false) ∨ (a.onFail = .closes ∧ c = true)) ∧
      ∀ b ∈ pre, fails b = true → b.onFail = .goesOn := by
  induction acts generalizing done with
  | nil => cases h
  | cons x xs ih =>
    unfold startExec at h
    by_cases hx : fails x = true
    · simp only [hx, if_true] at h
      cases ho : x.onFail with
      | gives =>
        simp only [ho] at h
        cases h
        exact ⟨[], xs, rfl, by simp, hx, .inl ⟨ho, rfl⟩, by simp⟩
      | closes =>
        simp only [ho] at h
        cases h
        exact ⟨[], xs, rfl, by simp, hx, .inr ⟨ho, rfl⟩, by simp⟩
      | panics => simp only [ho] at h; cases h
      | goesOn =>
        simp only [ho] at h
        obtain ⟨pre, post, h1, h2, h3, h4, h5⟩ := ih h
        refine ⟨x :: pre, post, by rw [h1]; rfl, by rw [h2]; simp, h3, h4, ?_⟩
        intro b hb hf
        rcases List.mem_cons.mp hb with rfl | hb
        · exact ho
        · exact h5 b hb hf
    · simp only [hx, if_false, Bool.false_eq_true] at h
      obtain ⟨pre, post, h1, h2, h3, h4, h5⟩ := ih h
      refine ⟨x :: pre, post, by rw [h1]; rfl, by rw [h2]; simp, h3, h4, ?_⟩
      intro b hb hf
      rcases List.mem_cons.mp hb with rfl | hb
      · exact absurd hf hx
      · exact h5 b hb hf

/-- The actions that were not done in vain. -/
theorem startExec_started_iff {fails : StartAct → Bool} {acts done d : List StartAct} :
    startExec fails done acts = .started d ↔
      d = done ++ acts ∧ ∀ a ∈ acts, fails a = true → a.onFail = .goesOn := by
  induction acts generalizing done with
  | nil =>
    simp only [startExec, List.append_nil, List.not_mem_nil, false_implies, implies_true, and_true]
    exact ⟨fun h => by cases h; rfl, fun h => by rw [h]⟩
  | cons x xs ih =>
    unfold startExec
    by_cases hx : fails x = true
    · simp only [hx, if_true]
      cases ho : x.onFail <;> simp [ho, ih, hx]
    · simp only [hx, if_false, Bool.false_eq_true, ih]
      simp [hx]

theorem mem_notifyActs {a : StartAct} {i n : Nat} (h : a ∈ notifyActs i n) :
    ∃ k, a = .notifyOpen k ∨ a = .notifyWrite k := by
  induction n generalizing i with
  | zero => cases h
  | succ n ih =>
    simp only [notifyActs, List.mem_cons] at h
    rcases h with h | h | h
    · exact ⟨i, .inl h⟩
    · exact ⟨i, .inr h⟩
    · exact ih h

/-- Actions that open nothing and do not simply give up. -/
def Quiet (l : List StartAct) : Prop := ∀ a ∈ l, a.opens = none ∧ a.onFail ≠ .gives

theorem startExec_quiet (fails : StartAct → Bool) (done : List StartAct) {l : List StartAct} (hl : Quiet l)
    (rest : List StartAct) :
    (∃ a d, a ∈ l ∧ startExec fails done (l ++ rest) = .failed a d true) ∨
    (∃ a, a ∈ l ∧ startExec fails done (l ++ rest) = .crashed a) ∨
    startExec fails done (l ++ rest) = startExec fails (done ++ l) rest := by
  induction l generalizing done with
  | nil => exact .inr (.inr (by simp))
  | cons x xs ih =>
    have hx := hl x (by simp)
    have hxs : Quiet xs := fun a ha => hl a (List.mem_cons_of_mem _ ha)
    have go : startExec fails done ((x :: xs) ++ rest) = startExec fails (done ++ [x]) (xs ++ rest) →
        (∃ a d, a ∈ x :: xs ∧ startExec fails done ((x :: xs) ++ rest) = .failed a d true) ∨
        (∃ a, a ∈ x :: xs ∧ startExec fails done ((x :: xs) ++ rest) = .crashed a) ∨
        startExec fails done ((x :: xs) ++ rest) = startExec fails (done ++ (x :: xs)) rest := by
      intro he
      rw [he]
      rcases ih (done ++ [x]) hxs with ⟨a, d, ha, h⟩ | ⟨a, ha, h⟩ | h
      · exact .inl ⟨a, d, List.mem_cons_of_mem _ ha, h⟩
      · exact .inr (.inl ⟨a, List.mem_cons_of_mem _ ha, h⟩)
      · right; right; rw [h]; simp
    by_cases hf : fails x = true
    · cases ho : x.onFail with
      | gives => exact absurd ho hx.2
      | closes => exact .inl ⟨x, done, by simp, by simp [startExec, hf, ho]⟩
      | panics => exact .inr (.inl ⟨x, by simp, by simp [startExec, hf, ho]⟩)
      | goesOn => exact go (by simp [startExec, hf, ho])
    · exact go (by simp [startExec, hf])

theorem filterMap_quiet {l : List StartAct} (hl : Quiet l) : l.filterMap StartAct.opens = [] := by
  rw [List.filterMap_eq_nil_iff]
  exact fun a ha => (hl a ha).1

/-- The actions of a peer between its certificate and its file. -/
def peerJoin {η : Type} (s : PeerSettings η) : List StartAct :=
  (if s.entryPeers.length > 0 then [.connect] else []) ++ [.bootstrap, .monitoring] ++
  (if s.relay then [.relayStream] else []) ++ [.notifStream] ++ notifyActs 0 s.entryPeers.length

/-- The actions of a peer after its file has been loaded. -/
def peerServe {η : Type} (s : PeerSettings η) (announced : Bool) : List StartAct :=
  (if s.entryPeers.length > 0 then [.announceStored, .enable] else []) ++
  (if s.entryPeers.length > 0 ∧ (s.agent.map (·.address)).getD [] ≠ [] ∧ announced = false
    then [.announceOwn] else []) ++
  [.addressStream, .envelopeStream] ++
  (if s.delegatePort ≠ 0 then [.delegateListen, .delegateAccept] else []) ++
  (if s.mailbox.length ≠ 0 then [.mailbox] else []) ++
  [.monitorStart, .slowLoop]

theorem peerActs_eq {η : Type} (s : PeerSettings η) (announced : Bool) :
    peerActs s announced =
      [.host, .dht, .cert] ++ (peerJoin s ++ ([.fileOpen, .fileLoad] ++ peerServe s announced)) := by
  simp [peerActs, peerJoin, peerServe]

theorem mem_ite_nil {α : Type} {p : Prop} [Decidable p] {l : List α} {a : α}
    (h : a ∈ (if p then l else [])) : a ∈ l := by
  split at h
  · exact h
  · cases h

theorem peerJoin_quiet {η : Type} (s : PeerSettings η) : Quiet (peerJoin s) := by
  intro a ha
  simp only [peerJoin, List.mem_append] at ha
  rcases ha with (((h | h) | h) | h) | h
  · have := mem_ite_nil h; simp at this; subst this; exact ⟨rfl, by decide⟩
  · simp at h; rcases h with rfl | rfl <;> exact ⟨rfl, by decide⟩
  · have := mem_ite_nil h; simp at this; subst this; exact ⟨rfl, by decide⟩
  · simp at h; subst h; exact ⟨rfl, by decide⟩
  · obtain ⟨k, rfl | rfl⟩ := mem_notifyActs h <;> exact ⟨rfl, by simp [StartAct.onFail]⟩

theorem peerServe_quiet {η : Type} (s : PeerSettings η) (announced : Bool) : Quiet (peerServe s announced) := by
  intro a ha
  simp only [peerServe, List.mem_append] at ha
  rcases ha with ((((h | h) | h) | h) | h) | h
  · have := mem_ite_nil h; simp at this; rcases this with rfl | rfl <;> exact ⟨rfl, by decide⟩
  · have := mem_ite_nil h; simp at this; subst this; exact ⟨rfl, by decide⟩
  · simp at h; rcases h with rfl | rfl <;> exact ⟨rfl, by decide⟩
  · have := mem_ite_nil h; simp at this; rcases this with rfl | rfl <;> exact ⟨rfl, by decide⟩
  · have := mem_ite_nil h; simp at this; subst this; exact ⟨rfl, by decide⟩
  · simp at h; rcases h with rfl | rfl <;> exact ⟨rfl, by decide⟩

/-- What stays open if a peer cannot start, by the action that failed. -/
def leftByPeer : StartAct → List StartRes
  | .dht => [.host]
  | .cert => [.host, .dht]
  | .fileOpen => [.host, .dht]
  | .fileLoad => [.host, .dht, .file]
  | _ => []

/-- What stays open if a client cannot start. -/
def leftByClient : StartAct → List StartRes
  | .dht => [.host]
  | _ => []

/-- Exactly what a peer that cannot start leaves open: nothing if it fails while it joins the network or when
it announces its agent; the host, the DHT and the file if its certificate or its record file is at fault. A
delegate address that cannot be listened on ends the process. -/
theorem C81_peer_partial {η : Type} (s : PeerSettings η) (announced : Bool) (fails : StartAct → Bool) :
    match startExec fails [] (peerActs s announced) with
    | .started d => d = peerActs s announced ∧ (StartEnd.started d).isOpen = [.host, .dht, .file]
    | .failed a d c => fails a = true ∧ (StartEnd.failed a d c).isOpen = leftByPeer a
    | .crashed a => a = .delegateListen ∧ fails a = true ∧ s.delegatePort ≠ 0 := by
  have hopens : ∀ d, startExec fails [] (peerActs s announced) = .started d →
      (StartEnd.started d).isOpen = [.host, .dht, .file] := by
    intro d hd
    rw [startExec_started_iff] at hd
    obtain ⟨rfl, -⟩ := hd
    simp only [StartEnd.isOpen, peerActs_eq, List.nil_append, List.filterMap_append,
      filterMap_quiet (peerJoin_quiet s), filterMap_quiet (peerServe_quiet s announced)]
    rfl
  have hcrash : ∀ (acts done : List StartAct) (a : StartAct), startExec fails done acts = .crashed a →
      a ∈ acts ∧ fails a = true ∧ a.onFail = .panics := by
    intro acts
    induction acts with
    | nil => intro _ _ h; cases h
    | cons x xs ih =>
      intro done a h
      unfold startExec at h
      by_cases hx : fails x = true
      · simp only [hx, if_true] at h
        cases ho : x.onFail with
        | gives => simp only [ho] at h; cases h
        | closes => simp only [ho] at h; cases h
        | panics => simp only [ho] at h; cases h; exact ⟨by simp, hx, ho⟩
        | goesOn =>
          simp only [ho] at h
          have := ih _ _ h
          exact ⟨List.mem_cons_of_mem _ this.1, this.2⟩
      · simp only [hx, if_false, Bool.false_eq_true] at h
        have := ih _ _ h
        exact ⟨List.mem_cons_of_mem _ this.1, this.2⟩
  cases he : startExec fails [] (peerActs s announced) with
  | started d =>
    exact ⟨by simpa using (startExec_started_iff.mp he).1, hopens d he⟩
  | crashed a =>
    obtain ⟨hm, hf, hp⟩ := hcrash _ _ _ he
    have ha : a = .delegateListen := by cases a <;> simp [StartAct.onFail] at hp ⊢
    subst ha
    refine ⟨rfl, hf, ?_⟩
    intro h0
    simp [peerActs, h0] at hm
    have hm := mem_notifyActs hm
    simp at hm
  | failed a d c =>
    refine ⟨(startExec_failed he).choose_spec.choose_spec.2.2.1, ?_⟩
    rw [peerActs_eq] at he
    have hj := startExec_quiet fails [.host, .dht, .cert] (peerJoin_quiet s)
      ([.fileOpen, .fileLoad] ++ peerServe s announced)
    have hs := startExec_quiet fails ([.host, .dht, .cert] ++ peerJoin s ++ [.fileOpen] ++ [.fileLoad])
      (peerServe_quiet s announced) []
    cases h1 : fails .host with
    | true =>
      simp [startExec, h1, StartAct.onFail] at he
      obtain ⟨rfl, rfl, rfl⟩ := he; rfl
    | false =>
    cases h2 : fails .dht with
    | true =>
      simp [startExec, h1, h2, StartAct.onFail] at he
      obtain ⟨rfl, rfl, rfl⟩ := he; rfl
    | false =>
    cases h3 : fails .cert with
    | true =>
      simp [startExec, h1, h2, h3, StartAct.onFail] at he
      obtain ⟨rfl, rfl, rfl⟩ := he; rfl
    | false =>
    have he' : startExec fails [.host, .dht, .cert]
        (peerJoin s ++ ([.fileOpen, .fileLoad] ++ peerServe s announced)) = .failed a d c := by
      simpa [startExec, h1, h2, h3] using he
    have closedNil : ∀ x y, (StartEnd.failed x y true).isOpen = [] := fun _ _ => rfl
    rcases hj with ⟨x, y, hx, h⟩ | ⟨x, hx, h⟩ | h
    · rw [h] at he'
      cases he'
      rw [closedNil]
      have hq := peerJoin_quiet s a hx
      cases a <;> first | rfl | exact absurd rfl hq.2
    · rw [h] at he'; cases he'
    · rw [h] at he'
      have hfm : (StartEnd.failed a ([.host, .dht, .cert] ++ peerJoin s) false).isOpen = [.host, .dht] := by
        simp only [StartEnd.isOpen, List.filterMap_append, filterMap_quiet (peerJoin_quiet s)]
        rfl
      have hfm2 : (StartEnd.failed a ([.host, .dht, .cert] ++ peerJoin s ++ [.fileOpen]) false).isOpen =
          [.host, .dht, .file] := by
        simp only [StartEnd.isOpen, List.filterMap_append, filterMap_quiet (peerJoin_quiet s)]
        rfl
      cases h4 : fails .fileOpen with
      | true =>
        simp only [List.cons_append, startExec, h4, if_true, StartAct.onFail] at he'
        cases he'
        exact hfm
      | false =>
      cases h5 : fails .fileLoad with
      | true =>
        simp only [List.cons_append, startExec, h4, h5, if_true, StartAct.onFail, Bool.false_eq_true,
          if_false] at he'
        cases he'
        exact hfm2
      | false =>
      have he'' : startExec fails ([.host, .dht, .cert] ++ peerJoin s ++ [.fileOpen] ++ [.fileLoad])
          (peerServe s announced ++ []) = .failed a d c := by
        simpa [startExec, h4, h5] using he'
      rcases hs with ⟨x, y, hx, h⟩ | ⟨x, hx, h⟩ | h
      · rw [h] at he''
        cases he''
        rw [closedNil]
        have hq := peerServe_quiet s announced a hx
        cases a <;> first | rfl | exact absurd rfl hq.2
      · rw [h] at he''; cases he''
      · rw [h] at he''; cases he''

/-- The same for a client. -/
theorem C81_client_partial (fails : StartAct → Bool) :
    match startExec fails [] clientActs with
    | .started d => d = clientActs ∧ (StartEnd.started d).isOpen = [.host, .dht]
    | .failed a d c => fails a = true ∧ (StartEnd.failed a d c).isOpen = leftByClient a
    | .crashed _ => False := by
  simp only [clientActs, startExec, StartAct.onFail]
  cases h1 : fails .host <;> simp [StartEnd.isOpen, leftByClient, h1]
  cases h2 : fails .dht <;> simp [StartAct.opens, h2]
  cases h3 : fails .connect <;> simp [h3]
  cases h4 : fails .bootstrap <;> simp [h4]
  cases h5 : fails .register <;> simp [h5, StartAct.opens]

/-- The actions without which a node does not start. -/
def Needed : StartAct → Prop
  | .host | .dht | .cert | .connect | .bootstrap | .notifyOpen _ | .notifyWrite _ | .fileOpen | .fileLoad
  | .announceOwn | .delegateListen | .register => True
  | _ => False

theorem onFail_goesOn (a : StartAct) : a.onFail = .goesOn ↔ ¬ Needed a := by
  cases a <;> simp [StartAct.onFail, Needed]

/-- `New` succeeds exactly if none of the actions that matter fails; a failed announcement of a stored
address is not one of them. -/
theorem C81_starts_iff {η : Type} (s : PeerSettings η) (announced : Bool) (fails : StartAct → Bool) :
    (∃ d, startExec fails [] (peerActs s announced) = .started d) ↔
      ∀ a ∈ peerActs s announced, Needed a → fails a = false := by
  have h : (∀ a ∈ peerActs s announced, Needed a → fails a = false) ↔
      ∀ a ∈ peerActs s announced, fails a = true → a.onFail = .goesOn := by
    refine forall_congr' fun a => forall_congr' fun _ => ?_
    rw [onFail_goesOn]
    cases fails a <;> simp
  rw [h]
  constructor
  · rintro ⟨d, h⟩; exact (startExec_started_iff.mp h).2
  · intro h; exact ⟨_, startExec_started_iff.mpr ⟨rfl, h⟩⟩

/-- The first needed action that fails decides how `New` ends, of a peer and of a client: the process crashes if
it is listening for delegate clients; otherwise `New` returns an error, and has called `Close` before unless
making the host, the DHT, the certificate or the record file has failed. -/
theorem C81_first_failure {fails : StartAct → Bool} {a : StartAct} (hf : fails a = true) (hn : Needed a) :
    ∀ {pre post done : List StartAct}, (∀ b ∈ pre, Needed b → fails b = false) →
      startExec fails done (pre ++ a :: post) =
        if a = .delegateListen then .crashed a
        else .failed a (done ++ pre) (decide (a ∉ [.host, .dht, .cert, .fileOpen, .fileLoad]))
  | [], post, done, _ => by
    rw [List.nil_append, List.append_nil]
    unfold startExec
    rw [if_pos hf]
    cases a <;> first | exact absurd hn id | rfl
  | x :: pre, post, done, hp => by
    have ih := C81_first_failure hf hn (pre := pre) (post := post) (done := done ++ [x])
      fun b hb => hp b (List.mem_cons_of_mem _ hb)
    rw [List.append_assoc] at ih
    rw [List.cons_append]
    unfold startExec
    by_cases hx : fails x = true
    · rw [if_pos hx, (onFail_goesOn x).2 fun h => by rw [hp x (by simp) h] at hx; cases hx]
      exact ih
    · rw [if_neg hx]; exact ih

/-- A peer whose delegate address cannot be listened on: everything before was done. -/
example {η : Type} (s : PeerSettings η) (announced : Bool) (h : s.delegatePort ≠ 0) :
    startExec (fun a => a == .delegateListen) [] (peerActs s announced) = .crashed .delegateListen := by
  have hm : StartAct.delegateListen ∈ peerActs s announced := by simp [peerActs, h]
  obtain ⟨pre, post, he, hp⟩ := List.eq_append_cons_of_mem hm
  rw [he, C81_first_failure (a := .delegateListen) (by simp) trivial fun b hb _ => ?_]
  · rfl
  · exact beq_eq_false_iff_ne.2 fun h => hp (h ▸ hb)

/-- A record file that cannot be read leaves a peer without owner: its host listens, with the handlers for
registrations and notifications set. -/
theorem C81_counterexample {η : Type} (s : PeerSettings η) (announced : Bool) (hr : s.relay = true) :
    ∃ d, startExec (fun a => a == .fileLoad) [] (peerActs s announced) = .failed .fileLoad d false ∧
      (StartEnd.failed .fileLoad d false).isOpen = [.host, .dht, .file] ∧
      .relayStream ∈ d ∧ .notifStream ∈ d := by
  have h := C81_peer_partial s announced (fun a => a == .fileLoad)
  cases he : startExec (fun a => a == .fileLoad) [] (peerActs s announced) with
  | started d =>
    have := (startExec_started_iff.mp he).2 .fileLoad (by simp [peerActs]) (by decide)
    cases this
  | crashed a => rw [he] at h; obtain ⟨rfl, h, -⟩ := h; exact absurd h (by decide)
  | failed a d c =>
    rw [he] at h
    have ha : a = .fileLoad := by simpa using h.1
    subst ha
    obtain ⟨pre, post, h1, h2, h3, h4, -⟩ := startExec_failed he
    have hc : c = false := by
      rcases h4 with h4 | h4
      · exact h4.2
      · exact absurd h4.1 (by decide)
    subst hc
    have hpre : ∀ x, x ∈ [StartAct.host, .dht, .cert] ++ peerJoin s ++ [.fileOpen] → x ∈ pre := by
      have hnot : StartAct.fileLoad ∉ [StartAct.host, .dht, .cert] ++ peerJoin s ++ [.fileOpen] := by
        intro hm
        simp only [List.mem_append] at hm
        rcases hm with (hm | hm) | hm
        · simp at hm
        · exact (peerJoin_quiet s _ hm).2 rfl
        · simp at hm
      have heq : ([StartAct.host, .dht, .cert] ++ peerJoin s ++ [.fileOpen]) ++
          (.fileLoad :: peerServe s announced) = pre ++ .fileLoad :: post := by
        rw [← h1, peerActs_eq]; simp
      intro x hx
      rcases List.append_eq_append_iff.mp heq with ⟨as, e1, -⟩ | ⟨bs, e1, e2⟩
      · rw [e1]; exact List.mem_append_left _ hx
      · cases bs with
        | nil => rw [e1] at hx; simpa using hx
        | cons b bs =>
          exfalso
          simp at e2
          apply hnot
          rw [e1, ← e2.1]; simp
    refine ⟨d, rfl, h.2, ?_, ?_⟩
    · rw [h2]; exact hpre _ (by simp [peerJoin, hr])
    · rw [h2]; exact hpre _ (by simp [peerJoin])

/-- In the list of actions, `a` is done before `b`. -/
def Before (l : List StartAct) (a b : StartAct) : Prop := ∀ pre post, l = pre ++ b :: post → a ∈ pre

theorem Before.of_split {xs ys : List StartAct} {a b : StartAct} (ha : a ∈ xs) (hb : b ∉ xs) :
    Before (xs ++ ys) a b := by
  intro pre post h
  rcases List.append_eq_append_iff.mp h with ⟨as, e1, -⟩ | ⟨bs, e1, e2⟩
  · rw [e1]; exact List.mem_append_left _ ha
  · cases bs with
    | nil => rw [e1] at ha; simpa using ha
    | cons c bs =>
      exfalso
      simp at e2
      apply hb
      rw [e1, ← e2.1]; simp

/-- The actions before the services for delegate and mailbox clients. -/
def beforeServices {η : Type} (s : PeerSettings η) (announced : Bool) : List StartAct :=
  [.host, .dht, .cert] ++ peerJoin s ++ [.fileOpen, .fileLoad] ++
  (if s.entryPeers.length > 0 then [.announceStored, .enable] else []) ++
  (if s.entryPeers.length > 0 ∧ (s.agent.map (·.address)).getD [] ≠ [] ∧ announced = false
    then [.announceOwn] else []) ++
  [.addressStream, .envelopeStream]

theorem peerActs_services {η : Type} (s : PeerSettings η) (announced : Bool) :
    peerActs s announced = beforeServices s announced ++
      ((if s.delegatePort ≠ 0 then [.delegateListen, .delegateAccept] else []) ++
      (if s.mailbox.length ≠ 0 then [.mailbox] else []) ++ [.monitorStart, .slowLoop]) := by
  simp [peerActs_eq, beforeServices, peerServe]

theorem not_mem_beforeServices {η : Type} (s : PeerSettings η) (announced : Bool) {b : StartAct}
    (hb : b = .delegateListen ∨ b = .delegateAccept ∨ b = .mailbox) : b ∉ beforeServices s announced := by
  intro hm
  simp only [beforeServices, peerJoin, List.mem_append] at hm
  have hn : b ∉ notifyActs 0 s.entryPeers.length := by
    intro h
    obtain ⟨k, h | h⟩ := mem_notifyActs h <;> rcases hb with hb | hb | hb <;> rw [hb] at h <;> cases h
  rcases hb with rfl | rfl | rfl <;> simp [hn] at hm

/-- Delegate and mailbox clients are let in after the peer has begun to serve look-ups and envelopes, has
loaded its file and, if it joins a network, announces addresses. Missing: relay clients, the own agent, and
the node that is a client; see the counterexamples. -/
theorem C83_services_partial {η : Type} (s : PeerSettings η) (announced : Bool) {b : StartAct}
    (hb : b = .delegateListen ∨ b = .delegateAccept ∨ b = .mailbox) :
    Before (peerActs s announced) .addressStream b ∧ Before (peerActs s announced) .envelopeStream b ∧
    Before (peerActs s announced) .fileLoad b ∧
    (s.entryPeers ≠ [] → Before (peerActs s announced) .enable b) := by
  have hn := not_mem_beforeServices s announced hb
  rw [peerActs_services]
  refine ⟨.of_split ?_ hn, .of_split ?_ hn, .of_split ?_ hn, fun he => .of_split ?_ hn⟩
  · simp [beforeServices]
  · simp [beforeServices]
  · simp [beforeServices]
  · have : 0 < s.entryPeers.length := List.length_pos_iff.mpr he
    simp [beforeServices, this]

/-- The address of the own agent is announced before envelopes are served: who looks it up at once cannot
send to it. -/
theorem C83_own_counterexample {η : Type} (s : PeerSettings η) (announced : Bool) :
    Before (peerActs s announced) .announceOwn .envelopeStream ↔
      (s.entryPeers ≠ [] ∧ (s.agent.map (·.address)).getD [] ≠ [] ∧ announced = false) := by
  have hn : StartAct.announceOwn ∉ notifyActs 0 s.entryPeers.length := by
    intro h
    obtain ⟨k, h | h⟩ := mem_notifyActs h <;> cases h
  have hne : StartAct.envelopeStream ∉ notifyActs 0 s.entryPeers.length := by
    intro h
    obtain ⟨k, h | h⟩ := mem_notifyActs h <;> cases h
  constructor
  · intro h
    have : StartAct.announceOwn ∈ peerActs s announced := by
      have hm : StartAct.envelopeStream ∈ peerActs s announced := by simp [peerActs]
      obtain ⟨pre, post, hp⟩ := List.append_of_mem hm
      rw [hp]; exact List.mem_append_left _ (h pre post hp)
    simp only [peerActs, List.mem_append] at this
    simp [hn] at this
    obtain ⟨h1, h2, h3⟩ := this
    exact ⟨List.length_pos_iff.mp h1, by simpa using h2, h3⟩
  · rintro ⟨h1, h2, h3⟩
    have hl : 0 < s.entryPeers.length := List.length_pos_iff.mpr h1
    have : peerActs s announced = ([.host, .dht, .cert] ++ peerJoin s ++
        [.fileOpen, .fileLoad, .announceStored, .enable, .announceOwn, .addressStream]) ++
        (.envelopeStream :: ((if s.delegatePort ≠ 0 then [.delegateListen, .delegateAccept] else []) ++
        (if s.mailbox.length ≠ 0 then [.mailbox] else []) ++ [.monitorStart, .slowLoop])) := by
      rw [peerActs_eq, peerServe, if_pos hl, if_pos ⟨hl, h2, h3⟩]
      simp
    rw [this]
    refine .of_split (by simp) ?_
    simp only [peerJoin, List.mem_append]
    simp [hne]

/-- Relay clients are let in before the file is open, and before look-ups and envelopes are served. -/
theorem C83_relay_counterexample {η : Type} (s : PeerSettings η) (announced : Bool) (hr : s.relay = true) :
    Before (peerActs s announced) .relayStream .fileOpen ∧
    Before (peerActs s announced) .relayStream .addressStream ∧
    Before (peerActs s announced) .relayStream .envelopeStream := by
  have hn : ∀ b, (b = .fileOpen ∨ b = .addressStream ∨ b = .envelopeStream) →
      b ∉ [StartAct.host, .dht, .cert] ++ peerJoin s := by
    intro b hb hm
    have hn : b ∉ notifyActs 0 s.entryPeers.length := by
      intro h
      obtain ⟨k, h | h⟩ := mem_notifyActs h <;> rcases hb with hb | hb | hb <;> rw [hb] at h <;> cases h
    simp only [peerJoin, List.mem_append] at hm
    rcases hb with rfl | rfl | rfl <;> simp [hn] at hm
  have hm : StartAct.relayStream ∈ [StartAct.host, .dht, .cert] ++ peerJoin s := by simp [peerJoin, hr]
  rw [peerActs_eq, ← List.append_assoc]
  exact ⟨.of_split hm (hn _ (by simp)), .of_split hm (hn _ (by simp)), .of_split hm (hn _ (by simp))⟩

/-- A client registers at its relay peer before it serves envelopes. -/
theorem C83_client_counterexample : Before clientActs .register .envelopeStream := by
  have : clientActs = [.host, .dht, .connect, .bootstrap, .register, .watch, .addressStream] ++
      [.envelopeStream] := rfl
  rw [this]
  exact .of_split (by decide) (by decide)

/-- **C81, notifications.** A peer tells each of its entry peers once, and nobody else. -/
theorem C81_notifies_each {η : Type} (s : PeerSettings η) (announced : Bool) (i : Nat) :
    (peerActs s announced).count (.notifyOpen i) = (if i < s.entryPeers.length then 1 else 0) ∧
    (peerActs s announced).count (.notifyWrite i) = (if i < s.entryPeers.length then 1 else 0) := by
  have key : ∀ n j, (notifyActs j n).count (.notifyOpen i) = (if j ≤ i ∧ i < j + n then 1 else 0) ∧
      (notifyActs j n).count (.notifyWrite i) = (if j ≤ i ∧ i < j + n then 1 else 0) := by
    intro n
    induction n with
    | zero => intro j; simp [notifyActs]
    | succ n ih =>
      intro j
      obtain ⟨h1, h2⟩ := ih (j + 1)
      simp only [notifyActs, List.count_cons, h1, h2]
      by_cases hj : j = i
      · subst hj; simp; omega
      · have h3 : (StartAct.notifyOpen j == StartAct.notifyOpen i) = false := by simp [hj]
        have h4 : (StartAct.notifyWrite j == StartAct.notifyWrite i) = false := by simp [hj]
        have h5 : (StartAct.notifyWrite j == StartAct.notifyOpen i) = false := by simp
        have h6 : (StartAct.notifyOpen j == StartAct.notifyWrite i) = false := by simp
        rw [h3, h4, h5, h6]
        have : (j + 1 ≤ i ∧ i < j + 1 + n) ↔ (j ≤ i ∧ i < j + (n + 1)) := by omega
        simp [this]
  obtain ⟨h1, h2⟩ := key s.entryPeers.length 0
  simp only [Nat.zero_le, true_and, Nat.zero_add] at h1 h2
  have z : ∀ (p : Prop) [Decidable p] (l : List StartAct) (a : StartAct), a ∉ l →
      (if p then l else []).count a = 0 := by
    intro p _ l a h
    split
    · exact List.count_eq_zero.2 h
    · rfl
  constructor
  · unfold peerActs
    simp only [List.count_append, h1]
    rw [z _ _ _ (by simp), z _ _ _ (by simp), z _ _ _ (by simp), z _ _ _ (by simp), z _ _ _ (by simp),
      z _ _ _ (by simp)]
    simp
  · unfold peerActs
    simp only [List.count_append, h2]
    rw [z _ _ _ (by simp), z _ _ _ (by simp), z _ _ _ (by simp), z _ _ _ (by simp), z _ _ _ (by simp),
      z _ _ _ (by simp)]
    simp

/-- The actions of a peer that joins a network of one entry peer, with an agent and a delegate service. -/
example : peerActs (η := Unit)
    ⟨[], ([], 1), ([], 1), true, 9, 0, [], [()], some { AgentRecord.zero with address := b! "a" }, 0, []⟩ false =
    [.host, .dht, .cert, .connect, .bootstrap, .monitoring, .relayStream, .notifStream, .notifyOpen 0,
      .notifyWrite 0, .fileOpen, .fileLoad, .announceStored, .enable, .announceOwn, .addressStream,
      .envelopeStream, .delegateListen, .delegateAccept, .monitorStart, .slowLoop] := by decide

end Verif
