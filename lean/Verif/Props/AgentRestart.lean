import Verif.Props.AgentLife

/-!
# C97: what goes wrong when an agent is stopped
-/

namespace Verif

open Life AgentLife

/-! ## The connection of a started agent -/

theorem isOpen_modify (s : AgentLife) (k : Nat) (f : Conn → Conn) (hf : ∀ c, (f c).closed = c.closed) :
    ({ s with conns := s.conns.modify k f } : AgentLife).isOpen = s.isOpen := by
  simp only [isOpen]
  split
  · rfl
  · next j _ =>
    rw [List.getElem?_modify]
    cases s.conns[j]? with
    | none => rfl
    | some c =>
      simp only [Option.map_eq_map, Option.map_some, Option.any_some]
      split
      · rw [hf]
      · rfl

theorem isOpen_take (s : AgentLife) (k : Nat) (r : Reader) (f : Bytes) : (s.take k r f).isOpen = s.isOpen :=
  isOpen_modify s k _ fun _ => rfl

/-- `Start` uses the connection. -/
def Life.Dealing (m : Main) : Prop := m = .signature ∨ (∃ n, m = .register n) ∨ ∃ n, m = .status n

def Life.Opened (s : AgentLife) : Prop :=
  ((s.main = .idle ∨ s.main = .flagged) ∧ s.results.getLast? = some .started) ∨ Dealing s.main →
    s.isOpen = true ∨ ∃ l ∈ s.listeners, l.phase = .stopped

theorem stopped_setPhase {s : AgentLife} {i : Nat} {l : Listener} {p : Phase} (hl : s.listeners[i]? = some l)
    (hns : l.phase ≠ .stopped) (h : ∃ l ∈ s.listeners, l.phase = .stopped) :
    ∃ l ∈ (s.setPhase i p).listeners, l.phase = .stopped := by
  obtain ⟨x, hx, hp⟩ := h
  obtain ⟨j, hj⟩ := List.mem_iff_getElem?.1 hx
  have hij : i ≠ j := by
    rintro rfl
    rw [hl] at hj; cases hj; exact hns hp
  refine ⟨x, List.mem_iff_getElem?.2 ⟨j, ?_⟩, hp⟩
  simp only [setPhase]
  rw [List.getElem?_modify, hj]
  simp [hij]

theorem stopped_new {s : AgentLife} {i : Nat} {l : Listener} (hl : s.listeners[i]? = some l) :
    ∃ l ∈ (s.setPhase i .stopped).listeners, l.phase = .stopped := by
  refine ⟨{ l with phase := .stopped }, List.mem_iff_getElem?.2 ⟨i, ?_⟩, rfl⟩
  simp only [setPhase]
  rw [List.getElem?_modify, hl]
  simp

theorem opened_goMain {s : AgentLife} (ok : Bool) (h : Opened s) : Opened (s.goMain ok) := by
  have other : ∀ s' : AgentLife, s'.main ≠ .idle → s'.main ≠ .flagged → ¬ Dealing s'.main → Opened s' := by
    rintro s' h1 h2 h3 (⟨h4 | h4, _⟩ | h4)
    · exact absurd h4 h1
    · exact absurd h4 h2
    · exact absurd h4 h3
  have last : ∀ (s' : AgentLife) (r : List Result) (x : Result), x ≠ .started → s'.results = r ++ [x] →
      s'.main = .idle → Opened s' := by
    rintro s' r x hx e hm (⟨_, hl⟩ | hl)
    · rw [e] at hl
      simp at hl
      exact absurd hl hx
    · simp [hm, Dealing] at hl
  have keeps : ∀ s' : AgentLife, Dealing s.main → s'.isOpen = s.isOpen → s'.listeners = s.listeners → Opened s' := by
    intro s' hd h1 h2 _
    rw [h1, h2]
    exact h (.inr hd)
  unfold goMain
  split
  · exact h
  · next hm =>
    have hd : Dealing s.main := .inl hm
    split
    · exact h
    · exact last _ s.results .notStarted (by simp) rfl rfl
    · dsimp only
      split
      · exact keeps _ hd (isOpen_take s _ _ _) rfl
      · exact last _ s.results .notStarted (by simp) rfl rfl
  · next n hm =>
    have hd : Dealing s.main := .inr (.inl ⟨n, hm⟩)
    split
    · exact keeps _ hd rfl rfl
    · exact keeps _ hd rfl rfl
  · next n hm =>
    have hd : Dealing s.main := .inr (.inr ⟨n, hm⟩)
    split
    · exact h
    · exact keeps _ hd rfl rfl
    · next f hf =>
      have ht := isOpen_take s (s.conn.getD 0) .start f
      dsimp only
      split
      · exact keeps _ hd ht rfl
      · exact keeps _ hd ht rfl
      · intro _
        rcases h (.inr hd) with ho | ⟨l, hl, hp⟩
        · exact .inl (ht.trans ho)
        · exact .inr ⟨l, List.mem_append_left _ hl, hp⟩
  · exact last _ s.results .notStarted (by simp) rfl rfl
  · split
    · exact h
    · split
      · exact other _ (by simp) (by simp) (by simp [Dealing])
      · exact h
  · next hm =>
    split
    · exact other _ (by simp [hm]) (by simp [hm]) (by simp [Dealing, hm])
    · exact other _ (by simp) (by simp) (by simp [Dealing])
  · next hm =>
    split
    · exact other _ (by simp [hm]) (by simp [hm]) (by simp [Dealing, hm])
    · exact last _ s.results .stopped (by simp) rfl rfl

theorem opened_goListener {T : AcnTexts} {rest : Bytes → Envelope} {s : AgentLife} {i : Nat} {l : Listener} (ok : Bool)
    (hl : s.listeners[i]? = some l) (h : Opened s) : Opened (s.goListener T rest i l ok) := by
  have same : ∀ s' : AgentLife, s'.main = s.main → s'.results = s.results → s'.isOpen = s.isOpen →
      s'.listeners = s.listeners → Opened s' := by
    intro s' h1 h2 h3 h4 hm
    rw [h3, h4]
    rw [h1, h2] at hm
    exact h hm
  have set : ∀ (s' : AgentLife) (p : Phase), s'.main = s.main → s'.results = s.results → s'.isOpen = s.isOpen →
      l.phase ≠ .stopped → s'.listeners = (s.setPhase i p).listeners → Opened s' := by
    intro s' p h1 h2 h3 h4 h5 hm
    rw [h3, h5]
    rw [h1, h2] at hm
    rcases h hm with ho | hs
    · exact .inl ho
    · exact .inr (stopped_setPhase hl h4 hs)
  unfold goListener
  split
  · next hp =>
    split
    · exact same _ rfl rfl rfl rfl
    · exact set _ _ rfl rfl rfl (by simp [hp]) rfl
  · next k hp =>
    have hns : l.phase ≠ .stopped := by simp [hp]
    split
    · exact h
    · split
      · exact h
      · exact set _ _ rfl rfl rfl hns rfl
      · next f hf =>
        dsimp only
        have ht := isOpen_take s k (.listener l.born) f
        split
        · exact same _ rfl rfl ht rfl
        · split
          · exact same _ rfl rfl ht rfl
          · exact set _ _ rfl rfl ht hns rfl
        · split
          · exact same _ rfl rfl ht rfl
          · split
            · exact set _ _ rfl rfl ht hns rfl
            · split
              · exact set _ _ rfl rfl ht hns rfl
              · split
                · exact set _ _ rfl rfl ht hns rfl
                · split
                  · exact same _ rfl rfl ht rfl
                  · exact set _ _ rfl rfl ht hns rfl
  · next hp => exact set _ _ rfl rfl rfl (by simp [hp]) rfl
  · next hp =>
    intro _
    right
    have := stopped_new hl
    unfold closeConn
    split <;> exact this
  · next hp =>
    split
    · exact h
    · split
      · exact same _ rfl rfl rfl rfl
      · split
        · exact set _ .pushed rfl rfl rfl (by simp [hp]) rfl
        · exact h
  · next hp => exact set _ _ rfl rfl rfl (by simp [hp]) rfl
  · next hp =>
    split
    · exact h
    · split
      · exact same _ rfl rfl rfl rfl
      · split
        · exact set _ .idle rfl rfl rfl (by simp [hp]) rfl
        · exact h
  · exact h

theorem opened_step (T : AcnTexts) (rest : Bytes → Envelope) {s : AgentLife} (st : AgentLife.Step) (h : Opened s) :
    Opened (s.step T rest st) := by
  have same : ∀ s' : AgentLife, s'.main = s.main → s'.results = s.results → s'.isOpen = s.isOpen →
      s'.listeners = s.listeners → Opened s' := by
    intro s' h1 h2 h3 h4 hm
    rw [h3, h4]
    rw [h1, h2] at hm
    exact h hm
  unfold step
  split
  · cases st with
    | start dial =>
      simp only [stepAlive]
      split
      · exact h
      · next hm =>
        have hm : s.main = .idle := Classical.not_not.1 hm
        split
        · rintro (⟨_, hr⟩ | hr)
          · simp at hr
          · simp [hm, Dealing] at hr
        · exact fun _ => .inl (by simp [isOpen])
    | stop =>
      simp only [stepAlive]
      split
      · exact h
      · next hm =>
        simp only [ne_eq, not_not] at hm
        rintro (⟨_, hr⟩ | hr)
        · exact h (.inl ⟨.inl hm, hr⟩)
        · simp [Dealing] at hr
    | go ok => exact opened_goMain ok h
    | arrive k f =>
      refine same _ rfl rfl (isOpen_modify s k _ ?_) rfl
      intro c; split <;> rfl
    | hangUp k => exact same _ rfl rfl (isOpen_modify s k _ fun _ => rfl) rfl
    | decrypt k n => exact same _ rfl rfl (isOpen_modify s k _ fun c => by split <;> rfl) rfl
    | listen i ok =>
      simp only [stepAlive]
      split
      · exact h
      · exact opened_goListener ok ‹_› h
    | put ok =>
      simp only [stepAlive]
      split
      · exact same _ rfl rfl rfl rfl
      · split
        · exact same _ rfl rfl rfl rfl
        · exact h
    | putGo j =>
      simp only [stepAlive, goPut]
      split
      · split
        · exact h
        · split
          · exact same _ rfl rfl rfl rfl
          · split
            · exact same _ rfl rfl rfl rfl
            · exact h
      · exact h
    | putTimeout j =>
      simp only [stepAlive]
      split
      · exact same _ rfl rfl rfl rfl
      · exact h
    | get =>
      simp only [stepAlive]
      split
      · exact h
      · split
        · exact h
        · split
          · exact same _ rfl rfl rfl rfl
          · split
            · exact same _ rfl rfl rfl rfl
            · exact h
  · exact h

/-- **C97, partial: the connection.** In every history, when `Start` was the last call and it succeeded, the connection
is open unless a receiving goroutine has ended. -/
theorem C97_open_partial (T : AcnTexts) (rest : Bytes → Envelope) (address : Bytes) (steps : List AgentLife.Step) :
    let s := (AgentLife.init address).run T rest steps
    s.main = .idle → s.results.getLast? = some .started →
      s.isOpen = true ∨ ∃ l ∈ s.listeners, l.phase = .stopped := by
  have : ∀ (steps : List AgentLife.Step) (s : AgentLife), Opened s → Opened (s.run T rest steps) := by
    intro steps
    induction steps with
    | nil => intro s h; exact h
    | cons st steps ih => intro s h; exact ih _ (opened_step T rest st h)
  intro s hm hr
  refine this steps (AgentLife.init address) ?_ (.inl ⟨.inl hm, hr⟩)
  rintro (⟨_, h⟩ | h)
  · simp [init] at h
  · simp [init, Dealing] at h

/-! ## Without `Stop` -/

/-- A status message without status was read, or there is no connection. -/
def Life.Excuse (s : AgentLife) : Prop :=
  s.conn = none ∨ ∃ c ∈ s.conns, ∃ r f, (r, f) ∈ c.log ∧ AcnMessage.decode f = some (some (.status none))

structure Life.Calm (s : AgentLife) : Prop where
  closing : s.closing = false
  main : s.main = .idle ∨ s.main.starting = true
  outs : ∀ ch ∈ s.outs, ch.closed = false
  stats : ∀ ch ∈ s.stats, ch.closed = false
  dead : s.dead = none ∨ Excuse s

theorem handled_crash {T : AcnTexts} {rest : Bytes → Envelope} {f : Bytes} {ok : Bool}
    (h : handled T rest f ok = .crash) : AcnMessage.decode f = some (some (.status none)) := by
  simp only [handled, Lite.handle, Pipe.read, Acn.decodeAcnMessage] at h
  revert h
  cases AcnMessage.decode f with
  | none => simp
  | some m =>
    cases m with
    | none => simp
    | some m =>
      cases m with
      | status b => cases b <;> simp
      | aeaEnvelope b r =>
        simp only
        cases Envelope.decode b with
        | none => simp
        | some e =>
          simp only
          split <;> simp
      | _ => simp

theorem registered_panic {f : Bytes} (h : registered f = .panic) :
    AcnMessage.decode f = some (some (.status none)) := by
  unfold registered at h
  split at h
  · assumption
  · split at h <;> cases h
  · cases h

theorem excuse_take {s : AgentLife} {k : Nat} {c : Conn} {r : Reader} {f : Bytes} (hk : s.conns[k]? = some c)
    (hf : AcnMessage.decode f = some (some (.status none))) (s' : AgentLife)
    (hs : s'.conns = (s.take k r f).conns) : Excuse s' := by
  right
  refine ⟨{ c with input := c.input.drop 1, log := c.log ++ [(r, f)], decrypted := c.decrypted - 1 }, ?_, r, f, by simp, hf⟩
  rw [hs, List.mem_iff_getElem?]
  refine ⟨k, ?_⟩
  simp only [AgentLife.take]
  rw [List.getElem?_modify, hk]
  simp

theorem calm_set {α : Type} {cs : List (Chan α)} (h : ∀ ch ∈ cs, ch.closed = false) {q : Nat} {ch : Chan α}
    (hq : cs[q]? = some ch) (items : List α) : ∀ x ∈ cs.set q { ch with items := items }, x.closed = false := by
  intro x hx
  rcases List.mem_or_eq_of_mem_set hx with hx | rfl
  · exact h x hx
  · exact h ch (List.mem_iff_getElem?.2 ⟨q, hq⟩)

theorem calm_goMain {s : AgentLife} (ok : Bool) (hd : s.dead = none) (h : Calm s) : Calm (s.goMain ok) := by
  obtain ⟨h1, h2, h3, h4, _⟩ := h
  have retry : ∀ (s' : AgentLife) n, s'.closing = false → s'.outs = s.outs → s'.stats = s.stats → s'.dead = none →
      Calm (s'.retry n) := by
    intro s' n e1 e2 e3 e4
    refine ⟨e1, .inr ?_, ?_, ?_, .inl e4⟩
    · simp only [AgentLife.retry]; split <;> rfl
    · simp only [AgentLife.retry, e2]; exact h3
    · simp only [AgentLife.retry, e3]; exact h4
  unfold goMain
  split
  · exact ⟨h1, h2, h3, h4, .inl hd⟩
  · split
    · exact ⟨h1, h2, h3, h4, .inl hd⟩
    · exact ⟨h1, .inl rfl, h3, h4, .inl hd⟩
    · dsimp only
      split
      · exact ⟨h1, .inr rfl, h3, h4, .inl hd⟩
      · exact ⟨h1, .inl rfl, h3, h4, .inl hd⟩
  · split
    · exact ⟨h1, .inr rfl, h3, h4, .inl hd⟩
    · exact retry _ _ h1 rfl rfl hd
  · split
    · exact ⟨h1, h2, h3, h4, .inl hd⟩
    · exact retry _ _ h1 rfl rfl hd
    · next f hf =>
      dsimp only
      split
      · next hr =>
        obtain ⟨k, c, e1, e2, _⟩ := mainRead_frame hf
        refine ⟨h1, h2, h3, h4, .inr (excuse_take (r := .start) e2 (registered_panic hr) _ ?_)⟩
        rw [e1, Option.getD_some]
      · exact retry _ _ h1 rfl rfl hd
      · refine ⟨rfl, .inl rfl, ?_, ?_, .inl hd⟩
        · intro ch hch
          simp only [finish, AgentLife.take, List.mem_append, List.mem_singleton] at hch
          rcases hch with hch | rfl
          · exact h3 ch hch
          · rfl
        · intro ch hch
          simp only [finish, AgentLife.take, List.mem_append, List.mem_singleton] at hch
          rcases hch with hch | rfl
          · exact h4 ch hch
          · rfl
  · unfold closeConn
    split
    · next hn => exact ⟨h1, .inl rfl, h3, h4, .inr (.inl hn)⟩
    · exact ⟨h1, .inl rfl, h3, h4, .inl hd⟩
  · next hm => rcases h2 with h2 | h2 <;> simp [hm, Main.starting] at h2
  · next hm => rcases h2 with h2 | h2 <;> simp [hm, Main.starting] at h2
  · next hm => rcases h2 with h2 | h2 <;> simp [hm, Main.starting] at h2

theorem calm_goListener {T : AcnTexts} {rest : Bytes → Envelope} {s : AgentLife} (i : Nat) (l : Listener) (ok : Bool)
    (hd : s.dead = none) (h : Calm s) : Calm (s.goListener T rest i l ok) := by
  have h0 := h
  obtain ⟨h1, h2, h3, h4, _⟩ := h
  have hc := h1
  unfold goListener
  split
  · split
    · next hn => exact ⟨h1, h2, h3, h4, .inr (.inl hn)⟩
    · exact ⟨h1, h2, h3, h4, .inl hd⟩
  · split
    · exact h0
    · next c hk =>
      split
      · exact h0
      · exact ⟨h1, h2, h3, h4, .inl hd⟩
      · next f hf =>
        dsimp only
        split
        · next hx => exact ⟨h1, h2, h3, h4, .inr (excuse_take (r := .listener l.born) hk (handled_crash hx) _ rfl)⟩
        · split <;> exact ⟨h1, h2, h3, h4, .inl hd⟩
        · split
          · next hn => exact ⟨h1, h2, h3, h4, .inr (.inl hn)⟩
          · split
            · exact ⟨h1, h2, h3, h4, .inl hd⟩
            · split
              · exact ⟨h1, h2, h3, h4, .inl hd⟩
              · split
                · exact ⟨h1, h2, h3, h4, .inl hd⟩
                · split <;> exact ⟨h1, h2, h3, h4, .inl hd⟩
  · exact ⟨h1, h2, h3, h4, .inl hd⟩
  · unfold closeConn
    split
    · next hn => exact ⟨h1, h2, h3, h4, .inr (.inl hn)⟩
    · exact ⟨h1, h2, h3, h4, .inl hd⟩
  · next q e _ =>
    split
    · exact h0
    · next ch hq =>
      have := h3 ch (List.mem_iff_getElem?.2 ⟨q, hq⟩)
      rw [if_neg (by simp [this])]
      split
      · exact ⟨h1, h2, calm_set h3 hq _, h4, .inl hd⟩
      · exact h0
  · exact ⟨h1, h2, h3, h4, .inl hd⟩
  · next q e _ =>
    split
    · exact h0
    · next ch hq =>
      have := h4 ch (List.mem_iff_getElem?.2 ⟨q, hq⟩)
      rw [if_neg (by simp [this])]
      split
      · exact ⟨h1, h2, h3, calm_set h4 hq _, .inl hd⟩
      · exact h0
  · exact h0

theorem calm_step (T : AcnTexts) (rest : Bytes → Envelope) {s : AgentLife} (st : AgentLife.Step) (hst : st ≠ .stop)
    (h : Calm s) : Calm (s.step T rest st) := by
  have h0 := h
  obtain ⟨h1, h2, h3, h4, _⟩ := h
  unfold step
  split
  · next hd =>
    cases st with
    | start dial =>
      simp only [stepAlive]
      split
      · exact h0
      · split
        · exact ⟨h1, h2, h3, h4, .inl hd⟩
        · exact ⟨h1, .inr rfl, h3, h4, .inl hd⟩
    | stop => exact absurd rfl hst
    | go ok => exact calm_goMain ok hd h0
    | arrive k f => exact ⟨h1, h2, h3, h4, .inl hd⟩
    | hangUp k => exact ⟨h1, h2, h3, h4, .inl hd⟩
    | decrypt k n => exact ⟨h1, h2, h3, h4, .inl hd⟩
    | listen i ok =>
      simp only [stepAlive]
      split
      · exact h0
      · exact calm_goListener i _ ok hd h0
    | put ok =>
      simp only [stepAlive]
      split
      · next hn => exact ⟨h1, h2, h3, h4, .inr (.inl hn)⟩
      · split
        · exact ⟨h1, h2, h3, h4, .inl hd⟩
        · exact h0
    | putGo j =>
      simp only [stepAlive, goPut]
      split
      · next q _ =>
        split
        · exact h0
        · next ch hq =>
          split
          · exact ⟨h1, h2, h3, calm_set h4 hq _, .inl hd⟩
          · have := h4 ch (List.mem_iff_getElem?.2 ⟨q, hq⟩)
            rw [if_neg (by simp [this])]
            exact h0
      · exact h0
    | putTimeout j =>
      simp only [stepAlive]
      split
      · exact ⟨h1, h2, h3, h4, .inl hd⟩
      · exact h0
    | get =>
      simp only [stepAlive]
      split
      · exact h0
      · split
        · exact h0
        · next ch hq =>
          split
          · exact ⟨h1, h2, calm_set h3 hq _, h4, .inl hd⟩
          · split
            · exact ⟨h1, h2, h3, h4, .inl hd⟩
            · exact h0
  · exact h0

/-- **C97, partial: without `Stop`.** As long as `Stop` is not called the process goes on, whatever the peers send and
in whatever order things happen, unless a peer sent a status message without status, or there is no connection because
`Start` has not been called or could not reach the peer. -/
theorem C97_no_stop_partial (T : AcnTexts) (rest : Bytes → Envelope) (address : Bytes) (steps : List AgentLife.Step)
    (h : AgentLife.Step.stop ∉ steps) :
    let s := (AgentLife.init address).run T rest steps
    s.dead = none ∨ s.conn = none ∨
      ∃ c ∈ s.conns, ∃ r f, (r, f) ∈ c.log ∧ AcnMessage.decode f = some (some (.status none)) := by
  have : ∀ (steps : List AgentLife.Step) (s : AgentLife), AgentLife.Step.stop ∉ steps → Calm s →
      Calm (s.run T rest steps) := by
    intro steps
    induction steps with
    | nil => intro s _ h; exact h
    | cons st steps ih =>
      intro s hs h
      simp only [List.mem_cons, not_or] at hs
      exact ih _ hs.2 (calm_step T rest st (Ne.symm hs.1) h)
  exact (this steps (AgentLife.init address) h ⟨rfl, .inl rfl, by simp [init], by simp [init], .inl rfl⟩).dead

/-! ## The goroutine of the earlier life -/

/-- `Start` waits for the signature on connection `k`, nothing is there, and nobody will close it. -/
structure Life.Waits (k : Nat) (s : AgentLife) : Prop where
  closing : s.closing = true
  main : s.main = .signature
  conn : s.conn = some k
  calm : ∀ l ∈ s.listeners, l.phase ≠ .hangingUp
  empty : ∃ c, s.conns[k]? = some c ∧ c.input = [] ∧ c.ended = false ∧ c.closed = false

theorem noHang_setPhase {s : AgentLife} (h : ∀ l ∈ s.listeners, l.phase ≠ .hangingUp) (i : Nat) {p : Phase}
    (hp : p ≠ .hangingUp) : ∀ l ∈ (s.setPhase i p).listeners, l.phase ≠ .hangingUp := by
  intro l hl
  obtain ⟨j, hj⟩ := List.mem_iff_getElem?.1 hl
  simp only [setPhase, List.getElem?_modify] at hj
  cases hx : s.listeners[j]? with
  | none => simp [hx] at hj
  | some x =>
    have := h x (List.mem_iff_getElem?.2 ⟨j, hx⟩)
    rw [hx] at hj
    simp only [Option.map_eq_map, Option.map_some, Option.some.injEq] at hj
    split at hj
    · subst hj; exact hp
    · subst hj; exact this

theorem empty_modify {cs : List Conn} {k : Nat} (h : ∃ c, cs[k]? = some c ∧ c.input = [] ∧ c.ended = false ∧ c.closed = false)
    (j : Nat) (f : Conn → Conn) (hf : j = k → ∀ c, c.input = [] → c.ended = false → c.closed = false →
      (f c).input = [] ∧ (f c).ended = false ∧ (f c).closed = false) :
    ∃ c, (cs.modify j f)[k]? = some c ∧ c.input = [] ∧ c.ended = false ∧ c.closed = false := by
  obtain ⟨c, h1, h2, h3, h4⟩ := h
  rw [List.getElem?_modify, h1]
  by_cases hj : j = k
  · obtain ⟨e1, e2, e3⟩ := hf hj c h2 h3 h4
    exact ⟨f c, by simp [hj], e1, e2, e3⟩
  · exact ⟨c, by simp [hj], h2, h3, h4⟩

theorem waits_goListener {T : AcnTexts} {rest : Bytes → Envelope} {k : Nat} {s : AgentLife} {i : Nat} {l : Listener}
    (ok : Bool) (hl : s.listeners[i]? = some l) (h : Waits k s) :
    (s.goListener T rest i l ok).dead ≠ none ∨ Waits k (s.goListener T rest i l ok) := by
  have h0 := h
  obtain ⟨h1, h2, h3, h4, h5⟩ := h
  have tk : ∀ j r f, ∃ c, (s.take j r f).conns[k]? = some c ∧ c.input = [] ∧ c.ended = false ∧ c.closed = false :=
    fun j r f => empty_modify h5 j _ fun _ c e1 e2 e3 => ⟨by simp [e1], e2, e3⟩
  have set : ∀ p : Phase, p ≠ .hangingUp → ∀ l ∈ (s.setPhase i p).listeners, l.phase ≠ .hangingUp :=
    fun p hp => noHang_setPhase h4 i hp
  have tset : ∀ j r f (p : Phase), p ≠ .hangingUp → Waits k ((s.take j r f).setPhase i p) :=
    fun j r f p hp => ⟨h1, h2, h3, set p hp, tk j r f⟩
  unfold goListener
  split
  · rw [h3]; exact .inr ⟨h1, h2, h3, set _ (by simp), h5⟩
  · next j hp =>
    split
    · exact .inr h0
    · split
      · exact .inr h0
      · exact .inr ⟨h1, h2, h3, set _ (by simp [h1]), h5⟩
      · dsimp only
        split
        · exact .inl (by simp)
        · split
          · exact .inr ⟨h1, h2, h3, h4, tk _ _ _⟩
          · exact .inr (tset _ _ _ _ (by simp))
        · split
          · exact .inl (by simp)
          · split
            · exact .inr (tset _ _ _ _ (by simp))
            · split
              · exact .inr (tset _ _ _ _ (by simp))
              · split
                · exact .inr (tset _ _ _ _ (by simp))
                · split
                  · exact .inr ⟨h1, h2, h3, h4, tk _ _ _⟩
                  · exact .inr (tset _ _ _ _ (by simp))
  · exact .inr ⟨h1, h2, h3, set _ (by simp [h1]), h5⟩
  · next hp => exact absurd hp (h4 l (List.mem_iff_getElem?.2 ⟨i, hl⟩))
  · split
    · exact .inr h0
    · split
      · exact .inl (by simp)
      · split
        · exact .inr ⟨h1, h2, h3, set _ (by simp), h5⟩
        · exact .inr h0
  · exact .inr ⟨h1, h2, h3, set _ (by simp [h1]), h5⟩
  · split
    · exact .inr h0
    · split
      · exact .inl (by simp)
      · split
        · exact .inr ⟨h1, h2, h3, set _ (by simp), h5⟩
        · exact .inr h0
  · exact .inr h0

theorem waits_step (T : AcnTexts) (rest : Bytes → Envelope) {k : Nat} {s : AgentLife} (st : AgentLife.Step)
    (h : s.dead ≠ none ∨ Waits k s) (ha : ∀ f, st ≠ .arrive k f) (hh : st ≠ .hangUp k) :
    (s.step T rest st).dead ≠ none ∨ Waits k (s.step T rest st) := by
  unfold step
  split
  · next hd =>
    rcases h with h | h
    · exact absurd hd h
    have h0 := h
    obtain ⟨h1, h2, h3, h4, h5⟩ := h
    cases st with
    | start dial => simp only [stepAlive, h2]; exact .inr h0
    | stop => simp only [stepAlive, h2]; exact .inr h0
    | go ok =>
      obtain ⟨c, e1, e2, e3, e4⟩ := h5
      have : s.mainRead = .wait := by simp [mainRead, h3, e1, Conn.read, e2, e3, e4]
      simp only [stepAlive, goMain, h2, this]
      exact .inr h0
    | arrive j f =>
      refine .inr ⟨h1, h2, h3, h4, empty_modify h5 j _ ?_⟩
      rintro rfl
      exact absurd rfl (ha f)
    | hangUp j =>
      refine .inr ⟨h1, h2, h3, h4, empty_modify h5 j _ ?_⟩
      rintro rfl
      exact absurd rfl hh
    | decrypt j n =>
      refine .inr ⟨h1, h2, h3, h4, empty_modify h5 j _ ?_⟩
      intro _ c e1 e2 e3
      split <;> exact ⟨e1, e2, e3⟩
    | listen i ok =>
      simp only [stepAlive]
      split
      · exact .inr h0
      · exact waits_goListener ok ‹_› h0
    | put ok =>
      simp only [stepAlive]
      split
      · exact .inl (by simp)
      · split
        · exact .inr ⟨h1, h2, h3, h4, h5⟩
        · exact .inr h0
    | putGo j =>
      simp only [stepAlive, goPut]
      split
      · split
        · exact .inr h0
        · split
          · exact .inr ⟨h1, h2, h3, h4, h5⟩
          · split
            · exact .inl (by simp)
            · exact .inr h0
      · exact .inr h0
    | putTimeout j =>
      simp only [stepAlive]
      split
      · exact .inr ⟨h1, h2, h3, h4, h5⟩
      · exact .inr h0
    | get =>
      simp only [stepAlive]
      split
      · exact .inr h0
      · split
        · exact .inr h0
        · split
          · exact .inr ⟨h1, h2, h3, h4, h5⟩
          · split
            · exact .inr ⟨h1, h2, h3, h4, h5⟩
            · exact .inr h0
  · next hd => exact .inl hd

theorem waits_run (T : AcnTexts) (rest : Bytes → Envelope) {k : Nat} (steps : List AgentLife.Step) :
    ∀ s : AgentLife, (s.dead ≠ none ∨ Waits k s) → (∀ f, AgentLife.Step.arrive k f ∉ steps) →
      AgentLife.Step.hangUp k ∉ steps → (s.run T rest steps).dead ≠ none ∨ Waits k (s.run T rest steps) := by
  induction steps with
  | nil => intro s h _ _; exact h
  | cons st steps ih =>
    intro s h ha hh
    simp only [List.mem_cons, not_or] at ha hh
    exact ih _ (waits_step T rest st h (fun f e => (ha f).1 e.symm) (fun e => hh.1 e.symm)) (fun f => (ha f).2) hh.2

/-- A goroutine takes the only frame there is. -/
theorem waits_taken (T : AcnTexts) (rest : Bytes → Envelope) {k : Nat} {s : AgentLife} {i : Nat} {l : Listener} {c : Conn}
    {f : Bytes} (ok : Bool) (hd : s.dead = none) (h1 : s.closing = true) (h2 : s.main = .signature)
    (h3 : s.conn = some k) (h4 : ∀ l ∈ s.listeners, l.phase ≠ .hangingUp) (hl : s.listeners[i]? = some l)
    (hp : l.phase = .reading k) (hk : s.conns[k]? = some c) (hi : c.input = [f]) (he : c.ended = false)
    (hc : c.closed = false) :
    (s.step T rest (.listen i ok)).dead ≠ none ∨ Waits k (s.step T rest (.listen i ok)) := by
  have tk : ∃ c, (s.take k (.listener l.born) f).conns[k]? = some c ∧ c.input = [] ∧ c.ended = false ∧
      c.closed = false := by
    refine ⟨{ c with
      input := c.input.drop 1, log := c.log ++ [(.listener l.born, f)], decrypted := c.decrypted - 1 },
    ?_, by simp [hi], he, hc⟩
    simp only [AgentLife.take]
    rw [List.getElem?_modify, hk]
    simp
  have tset : ∀ p : Phase, p ≠ .hangingUp → Waits k ((s.take k (.listener l.born) f).setPhase i p) :=
    fun p hp => ⟨h1, h2, h3, noHang_setPhase (s := s) h4 i hp, tk⟩
  have hr : c.read = .frame f := by simp [Conn.read, hc, hi]
  unfold step
  rw [if_pos hd]
  simp only [stepAlive, hl]
  unfold goListener
  rw [hp]
  dsimp only
  rw [hk]
  dsimp only
  rw [hr]
  dsimp only
  split
  · exact .inl (by simp)
  · split
    · exact .inr ⟨h1, h2, h3, h4, tk⟩
    · exact .inr (tset _ (by simp))
  · split
    · exact .inl (by simp)
    · split
      · exact .inr (tset _ (by simp))
      · split
        · exact .inr (tset _ (by simp))
        · split
          · exact .inr (tset _ (by simp))
          · split
            · exact .inr ⟨h1, h2, h3, h4, tk⟩
            · exact .inr (tset _ (by simp))

/-- A life: `Start` with a peer that signs and accepts, and `Stop`. -/
def Life.once (accepts : Bytes → Bool) (sig answer : Bytes) : List AgentLife.Step :=
  [.start (some accepts), .arrive 0 sig, .go true, .go true, .arrive 0 answer, .go true,
   .stop, .go true, .go true, .go true]

/-- The state after that. -/
def Life.after (address : Bytes) (accepts : Bytes → Bool) (sig answer : Bytes) : AgentLife :=
  { address := address, closing := true, conn := some 0
    conns := [⟨accepts, true, [sig, answer], [], false, true, [(.start, sig), (.start, answer)], 0⟩]
    out := some 0, outs := [⟨[], true⟩], stat := some 0, stats := [⟨[], true⟩]
    listeners := [⟨0, .idle⟩], main := .idle, puts := [], results := [.started, .stopped], got := [], dead := none }

theorem run_once (T : AcnTexts) (rest : Bytes → Envelope) (address : Bytes) {accepts : Bytes → Bool} {sig answer : Bytes}
    (h1 : accepts sig = true) (h2 : registered answer = .ok ()) :
    (AgentLife.init address).run T rest (once accepts sig answer) = after address accepts sig answer := by
  simp [run, once, after, step, stepAlive, init, goMain, mainRead, Conn.read, AgentLife.take, isOpen, finish, h1, h2,
    closeConn, closeChan, List.modify_cons]

/-- **C97, counterexample: a second `Start`.** An agent was started with a peer that does everything right, and
stopped; both calls succeeded. It is started again and the peer sends the signature. If the goroutine of the first life
is first to read, then `Start` never returns, whatever happens, as long as the peer waits for the registration, as peers
do, or the process ends. -/
theorem C97_restart_counterexample (T : AcnTexts) (rest : Bytes → Envelope) (address : Bytes) {accepts : Bytes → Bool}
    {sig answer : Bytes} (h1 : accepts sig = true) (h2 : registered answer = .ok ()) (ok : Bool)
    (steps : List AgentLife.Step) (ha : ∀ f, AgentLife.Step.arrive 1 f ∉ steps) (hh : AgentLife.Step.hangUp 1 ∉ steps) :
    let first := (AgentLife.init address).run T rest (once accepts sig answer)
    let s := first.run T rest
      ([.start (some accepts), .arrive 1 sig, .listen 0 ok, .listen 0 ok] ++ steps)
    first.results = [.started, .stopped] ∧ first.dead = none ∧ (s.main = .signature ∨ s.dead ≠ none) := by
  intro first s
  have hf : first = after address accepts sig answer := run_once T rest address h1 h2
  refine ⟨by rw [hf]; rfl, by rw [hf]; rfl, ?_⟩
  let s2 : AgentLife := { after address accepts sig answer with
    conn := some 1
    conns := (after address accepts sig answer).conns ++ [⟨accepts, false, [sig], [sig], false, false, [], 0⟩]
    listeners := [⟨0, .reading 1⟩]
    main := .signature }
  have hs : s = (s2.step T rest (.listen 0 ok)).run T rest steps := by
    show first.run T rest _ = _
    rw [hf]
    rfl
  have hw : (s2.step T rest (.listen 0 ok)).dead ≠ none ∨ Waits 1 (s2.step T rest (.listen 0 ok)) :=
    waits_taken T rest (l := ⟨0, .reading 1⟩) (c := ⟨accepts, false, [sig], [sig], false, false, [], 0⟩) (f := sig)
      ok rfl rfl rfl rfl (by simp [s2]) rfl rfl rfl rfl rfl rfl
  rw [hs]
  rcases waits_run T rest steps _ hw ha hh with h | h
  · exact .inr h
  · exact .inl h.main

/-- When `Start` reads first it succeeds the second time too. -/
theorem C97_restart (T : AcnTexts) (rest : Bytes → Envelope) (address : Bytes) {accepts : Bytes → Bool}
    {sig answer : Bytes} (h1 : accepts sig = true) (h2 : registered answer = .ok ()) :
    ((AgentLife.init address).run T rest (once accepts sig answer ++
      [.start (some accepts), .arrive 1 sig, .go true, .go true, .arrive 1 answer, .go true])).results =
      [.started, .stopped, .started] := by
  have : ∀ a b, (AgentLife.init address).run T rest (a ++ b) = ((AgentLife.init address).run T rest a).run T rest b := by
    intro a b; exact List.foldl_append
  rw [this, run_once T rest address h1 h2]
  simp [run, after, step, stepAlive, goMain, mainRead, Conn.read, AgentLife.take, isOpen, finish, h1, h2,
    List.modify_cons]

/-- **C97, counterexample: a second `Start` without peer.** A receiving goroutine that is about to read ends the process
when `Start` could not reach the peer. -/
theorem C97_redial_counterexample (T : AcnTexts) (rest : Bytes → Envelope) {s : AgentLife} {i : Nat} {l : Listener}
    (hd : s.dead = none) (hm : s.main = .idle) (hl : s.listeners[i]? = some l) (hp : l.phase = .idle) (ok : Bool) :
    (s.run T rest [.start none, .listen i ok]).dead = some .panic := by
  simp [run, step, stepAlive, hd, hm, hl, goListener, hp]

/-- **C97, counterexample: `Put` and `Stop`.** A call of `Put` that waits for the answer of the peer when the agent is
stopped ends the process. -/
theorem C97_put_counterexample (T : AcnTexts) (rest : Bytes → Envelope) {s : AgentLife} {q : Nat} {a : Chan Envelope}
    {c : Chan StatusBody} {o : Nat} (hd : s.dead = none) (hm : s.main = .idle) (ho : s.isOpen = true)
    (hs : s.stat = some q) (hq : s.stats[q]? = some c) (hc : c.closed = false) (hi : c.items = [])
    (h2 : s.out = some o) (h3 : s.outs[o]? = some a) (h4 : a.closed = false) (w x : Bool) :
    (s.run T rest [.put true, .stop, .go true, .go w, .go x]).results = s.results ++ [.stopped] ∧
    (s.run T rest [.put true, .stop, .go true, .go w, .go x]).dead = none ∧
    (s.run T rest [.put true, .stop, .go true, .go w, .go x, .putGo s.puts.length]).dead = some .panic := by
  obtain ⟨k, hk⟩ : ∃ k, s.conn = some k := by
    cases h : s.conn with
    | none => simp [isOpen, h] at ho
    | some k => exact ⟨k, rfl⟩
  have ho' : ∀ s' : AgentLife, s'.conn = s.conn → s'.conns = s.conns → s'.isOpen = true := by
    intro s' e1 e2; simp only [isOpen, e1, e2]; exact ho
  have hlt : q < s.stats.length := (List.getElem?_eq_some_iff.1 hq).1
  have key : s.run T rest [.put true, .stop, .go true, .go w, .go x] =
      { s with
        closing := true
        conns := s.conns.modify k fun c => { c with closed := true }
        outs := s.outs.set o { a with closed := true }
        stats := s.stats.set q { c with closed := true }
        puts := s.puts ++ [.waiting (some q)]
        results := s.results ++ [.stopped]
        main := .idle } := by
    simp [run, step, stepAlive, hd, hm, hk, ho, goMain, ho', closeConn, closeChan, hs, hq, hc, h2, h3, h4]
  have last : s.run T rest [.put true, .stop, .go true, .go w, .go x, .putGo s.puts.length] =
      (s.run T rest [.put true, .stop, .go true, .go w, .go x]).step T rest (.putGo s.puts.length) := rfl
  refine ⟨by rw [key], by rw [key]; exact hd, ?_⟩
  rw [last, key]
  simp [step, stepAlive, goPut, hd, hlt, hi]

/-! ## The first connection -/

def Life.cleans (s : AgentLife) : List Bool := s.conns.map (·.clean)

theorem cleans_modify (cs : List Conn) (k : Nat) (f : Conn → Conn) (hf : ∀ c, (f c).clean = c.clean) :
    (cs.modify k f).map (·.clean) = cs.map (·.clean) := by
  apply List.ext_getElem?
  intro j
  rw [List.getElem?_map, List.getElem?_modify, List.getElem?_map]
  cases cs[j]? with
  | none => rfl
  | some c =>
    simp only [Option.map_eq_map, Option.map_some, Option.some.injEq]
    split
    · exact hf c
    · rfl

theorem cleans_closeConn (s : AgentLife) : cleans s.closeConn = cleans s := by
  unfold closeConn
  split
  · rfl
  · exact cleans_modify _ _ _ fun _ => rfl

theorem cleans_take (s : AgentLife) (k : Nat) (r : Reader) (f : Bytes) : cleans (s.take k r f) = cleans s :=
  cleans_modify _ _ _ fun _ => rfl

theorem cleans_goMain (s : AgentLife) (ok : Bool) : cleans (s.goMain ok) = cleans s := by
  unfold goMain
  split
  · rfl
  · split
    · rfl
    · rfl
    · dsimp only
      split <;> exact cleans_take _ _ _ _
  · split <;> rfl
  · split
    · rfl
    · rfl
    · dsimp only
      split <;> exact cleans_take _ _ _ _
  · exact cleans_closeConn s
  · split
    · rfl
    · split
      · exact cleans_closeConn s
      · rfl
  · split <;> rfl
  · split <;> rfl

theorem cleans_goListener (T : AcnTexts) (rest : Bytes → Envelope) (s : AgentLife) (i : Nat) (l : Listener) (ok : Bool) :
    cleans (s.goListener T rest i l ok) = cleans s := by
  unfold goListener
  split
  · split <;> rfl
  · split
    · rfl
    · split
      · rfl
      · rfl
      · dsimp only
        split
        · exact cleans_take _ _ _ _
        · split <;> exact cleans_take _ _ _ _
        · split
          · exact cleans_take _ _ _ _
          · split
            · exact cleans_take _ _ _ _
            · split
              · exact cleans_take _ _ _ _
              · split
                · exact cleans_take _ _ _ _
                · split <;> exact cleans_take _ _ _ _
  · rfl
  · exact cleans_closeConn (s.setPhase i .stopped)
  · split
    · rfl
    · split
      · rfl
      · split <;> rfl
  · rfl
  · split
    · rfl
    · split
      · rfl
      · split <;> rfl
  · rfl

theorem cleans_step (T : AcnTexts) (rest : Bytes → Envelope) (s : AgentLife) (st : AgentLife.Step) :
    cleans (s.step T rest st) = cleans s ∨
      cleans (s.step T rest st) = cleans s ++ [s.listeners.all fun l => l.phase == .stopped] := by
  unfold step
  split
  · cases st with
    | start dial =>
      simp only [stepAlive]
      split
      · exact .inl rfl
      · split
        · exact .inl rfl
        · exact .inr (by simp [cleans])
    | stop => left; simp only [stepAlive]; split <;> rfl
    | go ok => exact .inl (cleans_goMain s ok)
    | arrive k f => exact .inl (cleans_modify _ _ _ fun c => by split <;> rfl)
    | hangUp k => exact .inl (cleans_modify _ _ _ fun _ => rfl)
    | decrypt k n => exact .inl (cleans_modify _ _ _ fun c => by split <;> rfl)
    | listen i ok =>
      left
      simp only [stepAlive]
      split
      · rfl
      · exact cleans_goListener T rest s i _ ok
    | put ok => left; simp only [stepAlive]; split; · rfl
                split <;> rfl
    | putGo j =>
      left
      simp only [stepAlive, goPut]
      split
      · split
        · rfl
        · split
          · rfl
          · split <;> rfl
      · rfl
    | putTimeout j => left; simp only [stepAlive]; split <;> rfl
    | get =>
      left
      simp only [stepAlive]
      split
      · rfl
      · split
        · rfl
        · split
          · rfl
          · split <;> rfl
  · exact .inl rfl

/-- **C97, partial: the first life.** The first connection an agent makes is only read by its own goroutines. -/
theorem C97_first_partial (T : AcnTexts) (rest : Bytes → Envelope) (address : Bytes) (steps : List AgentLife.Step)
    {c : Conn} (hc : ((AgentLife.init address).run T rest steps).conns[0]? = some c) :
    ∃ a b : List Bytes, c.log = a.map (Prod.mk Reader.start) ++ b.map (Prod.mk (Reader.listener 0)) ∧
      a ++ b ++ c.input = c.arrived := by
  have hh : ∀ s : AgentLife, Readers s → (∀ x, (cleans s)[0]? = some x → x = true) → ∀ st, ∀ x,
      (cleans (s.step T rest st))[0]? = some x → x = true := by
    intro s hr h st x hx
    rcases cleans_step T rest s st with e | e
    · exact h x (e ▸ hx)
    · rw [e] at hx
      cases hs : s.conns with
      | nil =>
        have : s.listeners = [] := by
          rw [List.eq_nil_iff_forall_not_mem]
          intro l hl
          have := hr.born l hl
          simp [hs] at this
        simp [cleans, hs, this] at hx
        exact hx
      | cons y ys =>
        apply h x
        simpa [cleans, hs] using hx
  have hrun : ∀ (steps : List AgentLife.Step) (s : AgentLife), Readers s → (∀ x, (cleans s)[0]? = some x → x = true) →
      ∀ x, (cleans (s.run T rest steps))[0]? = some x → x = true := by
    intro steps
    induction steps with
    | nil => intro s _ h; exact h
    | cons st steps ih => intro s hr h; exact ih _ (readers_step T rest st hr) (hh s hr h st)
  have : c.clean = true := by
    refine hrun steps (AgentLife.init address) (readers_run T rest address []) (by simp [cleans, init]) c.clean ?_
    rw [cleans, List.getElem?_map, hc]
    rfl
  exact C97_connection_partial T rest address steps hc this

/-! ## Examples -/

/-- The answer for success. -/
def Life.exAnswer : Bytes := (AcnMessage.encode (some (.status (some ⟨0, []⟩)))).getD []

theorem registered_exAnswer : registered exAnswer = .ok () := by decide +kernel

/-- With a peer that signs with `7`: the goroutine of the first life takes the signature and `Start` hangs. -/
example (T : AcnTexts) (rest : Bytes → Envelope) (steps : List AgentLife.Step)
    (ha : ∀ f, AgentLife.Step.arrive 1 f ∉ steps) (hh : AgentLife.Step.hangUp 1 ∉ steps) :=
  C97_restart_counterexample T rest (b! "ag") (accepts := fun f => f == [7]) (sig := [7]) rfl registered_exAnswer true
    steps ha hh

/-- Stopping twice ends the process. -/
example (T : AcnTexts) (rest : Bytes → Envelope) :
    ((AgentLife.init (b! "ag")).run T rest
      (once (fun f => f == [7]) [7] exAnswer ++ [.stop, .go true])).dead = some .fatal := by
  have : ∀ a b, (AgentLife.init (b! "ag")).run T rest (a ++ b) = ((AgentLife.init (b! "ag")).run T rest a).run T rest b := by
    intro a b; exact List.foldl_append
  rw [this, run_once T rest (b! "ag") rfl registered_exAnswer]
  rfl

end Verif
