import Verif.Props.AgentLifeRules

/-!
# C134: what an agent gets, and what becomes of one that takes nothing

libs/go/aealite_agent_example/main.go:30-83 never takes an envelope from the queue of its agent.
-/

namespace Verif

open Life AgentLife

/-- The envelope for `a` in a frame. -/
def Life.wanted (a : Bytes) (f : Bytes) : Option Envelope :=
  match AcnMessage.decode f with
  | some (some (.aeaEnvelope b _)) =>
    match Envelope.decode b with
    | some e => if e.to = a then some e else none
    | none => none
  | _ => none

/-- The frames that a receiving goroutine has read. -/
def Life.Conn.heard (c : Conn) : List Bytes :=
  c.log.filterMap fun x => match x.1 with
    | .listener _ => some x.2
    | .start => none

/-- What a receiving goroutine that has read `f` makes of it: the envelope, whether it could be answered. -/
theorem handled_cases (T : AcnTexts) (rest : Bytes → Envelope) (a f : Bytes) (ok : Bool) :
    match handled T rest f ok with
    | .result (some e) false => wanted a f = if e.to = a then some e else none
    | .result none false => False
    | .result _ true => True
    | .status _ => wanted a f = none
    | .crash => wanted a f = none := by
  obtain ⟨m, hm'⟩ : ∃ m, AcnMessage.encode (some (.status (some ⟨0, []⟩))) = some m := ⟨_, rfl⟩
  unfold handled Lite.handle
  simp only [Pipe.read]
  cases hd : Acn.decodeAcnMessage T f with
  | error x => simp
  | ok p =>
    cases p with
    | aeaEnvelope b r =>
      have hf : AcnMessage.decode f = some (some (.aeaEnvelope b r)) := by
        unfold Acn.decodeAcnMessage at hd
        split at hd <;> simp_all
      cases he : Envelope.decode b with
      | none => simp [he]
      | some e =>
        cases ok <;> simp [he, Acn.sendSuccess, Acn.sendMessage, hm', StatusCode.toInt, Pipe.write, wanted, hf]
    | status st =>
      have hf : AcnMessage.decode f = some (some (.status st)) := by
        unfold Acn.decodeAcnMessage at hd
        split at hd <;> simp_all
      cases st <;> simp [wanted, hf]

/-- What a receiving goroutine has in its hands or, if it ends, has lost. -/
def Life.holds (p : Phase) (more : List Envelope) : Prop :=
  match p with
  | .pushing q e => q = 0 ∧ more = [e]
  | .failing | .hangingUp | .stopped => more.length ≤ 1
  | _ => more = []

/-- An agent that was started once: before it is connected, and then. -/
inductive Life.Taking (a : Bytes) (s : AgentLife) : Prop
  | before (address : s.address = a) (closing : s.closing = false) (main : s.main = .idle ∨ s.main.starting = true)
      (conns : s.conns.length ≤ 1) (listeners : s.listeners = []) (outs : s.outs = []) (out : s.out = none)
      (got : s.got = []) (log : ∀ c ∈ s.conns, c.heard = [])
  | after (address : s.address = a) (closing : s.closing = false) (main : s.main = .idle)
      (l : Listener) (ch : Chan Envelope) (c : Conn) (listeners : s.listeners = [l]) (outs : s.outs = [ch])
      (out : s.out = some 0) (conns : s.conns = [c]) (conn : s.conn = some 0) (opened : ch.closed = false)
      (room : ch.items.length ≤ 10) (more : List Envelope) (hold : holds l.phase more)
      (order : s.got.filterMap id ++ ch.items ++ more = c.heard.filterMap (wanted a))

theorem heard_take_start (c : Conn) (f : Bytes) :
    ({ c with input := c.input.drop 1, log := c.log ++ [(Reader.start, f)], decrypted := c.decrypted - 1 } : Conn).heard =
      c.heard := by
  simp [Conn.heard]

theorem heard_take_listener (c : Conn) (f : Bytes) (b : Nat) :
    ({ c with input := c.input.drop 1, log := c.log ++ [(Reader.listener b, f)], decrypted := c.decrypted - 1 } :
      Conn).heard = c.heard ++ [f] := by
  simp [Conn.heard]

theorem mem_modify_conn {l : List Conn} {k : Nat} {g : Conn → Conn} {x : Conn} (h : x ∈ l.modify k g) :
    x ∈ l ∨ ∃ y ∈ l, x = g y := by
  obtain ⟨j, hj, rfl⟩ := List.getElem_of_mem h
  rw [List.length_modify] at hj
  rw [List.getElem_modify]
  split
  · exact .inr ⟨_, List.getElem_mem hj, rfl⟩
  · exact .inl (List.getElem_mem hj)

theorem heard_modify {l : List Conn} (h : ∀ c ∈ l, c.heard = []) (k : Nat) (g : Conn → Conn)
    (hg : ∀ c, (g c).heard = c.heard) : ∀ c ∈ l.modify k g, c.heard = [] := by
  intro c hc
  rcases mem_modify_conn hc with hc | ⟨y, hy, rfl⟩
  · exact h c hc
  · rw [hg]; exact h y hy

/-- Changes of connections that say nothing of what was read. -/
theorem taking_conns {a : Bytes} {s : AgentLife} (h : Taking a s) (k : Nat) (g : Conn → Conn)
    (hg : ∀ c, (g c).heard = c.heard) : Taking a { s with conns := s.conns.modify k g } := by
  cases h with
  | before h1 h2 h3 h4 h5 h6 h7 h8 h9 =>
    exact .before h1 h2 h3 (by simpa using h4) h5 h6 h7 h8 (heard_modify h9 k g hg)
  | after h1 h2 h3 l ch c h4 h5 h6 h7 h8 h9 h10 more h11 h12 =>
    cases k with
    | zero =>
      exact .after h1 h2 h3 l ch (g c) h4 h5 h6 (by simp [h7]) h8 h9 h10 more h11 (by rw [hg]; exact h12)
    | succ k =>
      exact .after h1 h2 h3 l ch c h4 h5 h6 (by rw [h7]; cases k <;> rfl) h8 h9 h10 more h11 h12

/-- Changes of the queue of statuses, of calls, results and of whether the process has ended. -/
theorem taking_same {a : Bytes} {s s' : AgentLife} (h : Taking a s) (e1 : s'.address = s.address)
    (e2 : s'.closing = s.closing) (e3 : s'.main = s.main) (e4 : s'.conns = s.conns) (e5 : s'.listeners = s.listeners)
    (e6 : s'.outs = s.outs) (e7 : s'.out = s.out) (e8 : s'.got = s.got) (e9 : s'.conn = s.conn) : Taking a s' := by
  cases h with
  | before h1 h2 h3 h4 h5 h6 h7 h8 h9 =>
    exact .before (e1 ▸ h1) (e2 ▸ h2) (e3 ▸ h3) (e4 ▸ h4) (e5 ▸ h5) (e6 ▸ h6) (e7 ▸ h7) (e8 ▸ h8) (e4 ▸ h9)
  | after h1 h2 h3 l ch c h4 h5 h6 h7 h8 h9 h10 more h11 h12 =>
    exact .after (e1 ▸ h1) (e2 ▸ h2) (e3 ▸ h3) l ch c (e5 ▸ h4) (e6 ▸ h5) (e7 ▸ h6) (e4 ▸ h7) (e9 ▸ h8) h9 h10 more
      h11 (e8 ▸ h12)

theorem taking_closeConn {a : Bytes} {s : AgentLife} (h : Taking a s) : Taking a s.closeConn := by
  unfold closeConn
  split
  · exact taking_same h rfl rfl rfl rfl rfl rfl rfl rfl rfl
  · exact taking_conns h _ (fun c => { c with closed := true }) fun _ => rfl

theorem taking_goMain {a : Bytes} {s : AgentLife} (ok : Bool) (h : Taking a s) : Taking a (s.goMain ok) := by
  cases h with
  | after h1 h2 h3 l ch c h4 h5 h6 h7 h8 h9 h10 more h11 h12 =>
    have : s.goMain ok = s := by simp [goMain, h3]
    rw [this]
    exact .after h1 h2 h3 l ch c h4 h5 h6 h7 h8 h9 h10 more h11 h12
  | before h1 h2 h3 h4 h5 h6 h7 h8 h9 =>
    have htake : ∀ f, ∀ c ∈ (s.take (s.conn.getD 0) .start f).conns, c.heard = [] := fun f =>
      heard_modify h9 _ _ fun c => heard_take_start c f
    have hlen : ∀ f, (s.take (s.conn.getD 0) .start f).conns.length ≤ 1 := fun f => by
      simpa [AgentLife.take] using h4
    have hretry : ∀ s' : AgentLife, s'.address = s.address → s'.closing = s.closing → s'.conns.length ≤ 1 →
        s'.listeners = s.listeners → s'.outs = s.outs → s'.out = s.out → s'.got = s.got →
        (∀ c ∈ s'.conns, c.heard = []) → ∀ n, Taking a (s'.retry n) := by
      intro s' e1 e2 e3 e4 e5 e6 e7 e8 n
      refine .before (e1.trans h1) (e2.trans h2) (.inr ?_) e3 (e4.trans h5) (e5.trans h6) (e6.trans h7) (e7.trans h8) e8
      unfold retry
      dsimp only
      split <;> rfl
    cases hm : s.main with
    | idle =>
      have : s.goMain ok = s := by simp [goMain, hm]
      rw [this]
      exact .before h1 h2 h3 h4 h5 h6 h7 h8 h9
    | signature =>
      simp only [goMain, hm]
      split
      · exact .before h1 h2 h3 h4 h5 h6 h7 h8 h9
      · exact .before h1 h2 (.inl rfl) h4 h5 h6 h7 h8 h9
      · rename_i f _
        split
        · exact .before h1 h2 (.inr rfl) (hlen f) h5 h6 h7 h8 (htake f)
        · exact .before h1 h2 (.inl rfl) (hlen f) h5 h6 h7 h8 (htake f)
    | register n =>
      simp only [goMain, hm]
      split
      · exact .before h1 h2 (.inr rfl) h4 h5 h6 h7 h8 h9
      · exact hretry s rfl rfl h4 rfl rfl rfl rfl h9 n
    | status n =>
      simp only [goMain, hm]
      split
      · exact .before h1 h2 h3 h4 h5 h6 h7 h8 h9
      · exact hretry s rfl rfl h4 rfl rfl rfl rfl h9 n
      · rename_i f hr
        split
        · exact .before h1 h2 (.inr (by show s.main.starting = true; rw [hm]; rfl)) (hlen f) h5 h6 h7 h8 (htake f)
        · exact hretry (s.take (s.conn.getD 0) .start f) rfl rfl (hlen f) rfl rfl rfl rfl (htake f) n
        · obtain ⟨k, c, hk, hc, -⟩ := mainRead_frame hr
          obtain ⟨c', hc'⟩ : ∃ c', s.conns = [c'] := by
            match hcs : s.conns with
            | [] => rw [hcs] at hc; cases hc
            | [x] => exact ⟨x, rfl⟩
            | _ :: _ :: _ => rw [hcs] at h4; simp at h4
          have hk0 : k = 0 := by
            rw [hc'] at hc
            cases k with
            | zero => rfl
            | succ k => simp at hc
          subst hk0
          have hh : c'.heard = [] := h9 c' (by rw [hc']; simp)
          refine .after h1 rfl rfl ⟨0, .idle⟩ ⟨[], false⟩
            { c' with input := c'.input.drop 1, log := c'.log ++ [(Reader.start, f)], decrypted := c'.decrypted - 1 }
            ?_ ?_ ?_ ?_ ?_ rfl (by simp) [] rfl ?_
          · simp [finish, AgentLife.take, h5, hk]
          · simp [finish, AgentLife.take, h6]
          · simp [finish, AgentLife.take, h6]
          · simp [finish, AgentLife.take, hc', hk]
          · simp [finish, AgentLife.take, hk]
          · rw [heard_take_start, hh]
            simp [finish, AgentLife.take, h8]
    | giveUp =>
      simp only [goMain, hm]
      have hb := taking_closeConn (.before h1 h2 h3 h4 h5 h6 h7 h8 h9 : Taking a s)
      cases hb with
      | before g1 g2 g3 g4 g5 g6 g7 g8 g9 => exact .before g1 g2 (.inl rfl) g4 g5 g6 g7 g8 g9
      | after g1 g2 g3 l ch c g4 g5 g6 g7 g8 g9 g10 more g11 g12 =>
        have : s.closeConn.listeners = s.listeners := by unfold closeConn; cases s.conn <;> rfl
        rw [this, h5] at g4
        cases g4
    | flagged => rw [hm] at h3; rcases h3 with h3 | h3 <;> cases h3
    | socketClosed => rw [hm] at h3; rcases h3 with h3 | h3 <;> cases h3
    | queueClosed => rw [hm] at h3; rcases h3 with h3 | h3 <;> cases h3

theorem taking_goListener {T : AcnTexts} {rest : Bytes → Envelope} {a : Bytes} {s : AgentLife} {i : Nat} {l' : Listener}
    (ok : Bool) (hl : s.listeners[i]? = some l') (h : Taking a s) : Taking a (s.goListener T rest i l' ok) := by
  cases h with
  | before h1 h2 h3 h4 h5 h6 h7 h8 h9 => rw [h5] at hl; cases hl
  | after h1 h2 h3 l ch c h4 h5 h6 h7 h8 h9 h10 more h11 h12 =>
    have hi : i = 0 := by
      rw [h4] at hl
      cases i with
      | zero => rfl
      | succ i => simp at hl
    subst hi
    have hll : l' = l := by rw [h4] at hl; simpa using hl.symm
    subst hll
    have hphase : ∀ p, holds p more → Taking a (s.setPhase 0 p) := fun p hp =>
      .after h1 h2 h3 { l' with phase := p } ch c (by simp [setPhase, h4]) h5 h6 h7 h8 h9 h10 more hp h12
    unfold goListener
    cases hp : l'.phase with
    | idle =>
      rw [hp] at h11
      simp only [h8]
      exact hphase _ h11
    | reading k =>
      rw [hp] at h11
      have hmore : more = [] := h11
      subst hmore
      dsimp only
      split
      · exact .after h1 h2 h3 l' ch c h4 h5 h6 h7 h8 h9 h10 [] (by rw [hp]; exact rfl) h12
      · rename_i c' hc'
        have hk : k = 0 := by
          rw [h7] at hc'
          cases k with
          | zero => rfl
          | succ k => simp at hc'
        subst hk
        split
        · exact .after h1 h2 h3 l' ch c h4 h5 h6 h7 h8 h9 h10 [] (by rw [hp]; exact rfl) h12
        · simp only [h2, Bool.false_eq_true, if_false]
          exact hphase _ (by simp [holds])
        · rename_i f hf
          have hcase := handled_cases T rest a f (ok && s.isOpen)
          -- what the goroutine does next, and what it then holds
          have htake : ∀ (s' : AgentLife) (p : Phase) (m : List Envelope),
              s' = (s.take 0 (.listener l'.born) f).setPhase 0 p → holds p m → (wanted a f).toList = m →
              Taking a s' := by
            rintro s' p m rfl hh hw
            refine .after h1 h2 h3 { l' with phase := p } ch
              { c with input := c.input.drop 1, log := c.log ++ [(Reader.listener l'.born, f)],
                       decrypted := c.decrypted - 1 }
              (by simp [setPhase, AgentLife.take, h4]) h5 h6 (by simp [setPhase, AgentLife.take, h7]) h8 h9 h10 m hh ?_
            rw [heard_take_listener, List.filterMap_append, ← h12, ← hw]
            show s.got.filterMap id ++ ch.items ++ _ = _
            cases hwf : wanted a f <;> simp [hwf]
          have hstay : ∀ s' : AgentLife, s'.address = s.address → s'.closing = s.closing → s'.main = s.main →
              s'.conns = (s.take 0 (.listener l'.born) f).conns → s'.listeners = s.listeners → s'.outs = s.outs →
              s'.out = s.out → s'.got = s.got → s'.conn = s.conn → wanted a f = none → Taking a s' := by
            intro s' e1 e2 e3 e4 e5 e6 e7 e8 e9 hw
            refine .after (e1.trans h1) (e2.trans h2) (e3.trans h3) l' ch
              { c with input := c.input.drop 1, log := c.log ++ [(Reader.listener l'.born, f)],
                       decrypted := c.decrypted - 1 }
              (e5.trans h4) (e6.trans h5) (e7.trans h6) (e4.trans (by simp [AgentLife.take, h7])) (e9.trans h8) h9 h10 []
              (by rw [hp]; exact rfl) ?_
            rw [heard_take_listener, List.filterMap_append, ← h12, e8]
            simp [hw]
          split
          · rename_i hh
            rw [hh] at hcase
            exact hstay _ rfl rfl rfl rfl rfl rfl rfl rfl rfl hcase
          · rename_i b hh
            rw [hh] at hcase
            split
            · exact hstay _ rfl rfl rfl rfl rfl rfl rfl rfl rfl hcase
            · exact htake _ _ [] rfl rfl (by simp only [] at hcase; rw [hcase]; rfl)
          · rename_i envel failed hh
            rw [hh] at hcase
            rw [if_neg (by rw [h8]; simp)]
            cases failed with
            | true =>
              simp only [h2, Bool.not_false, Bool.and_self, if_true]
              refine htake _ _ _ rfl ?_ rfl
              show (wanted a f).toList.length ≤ 1
              cases wanted a f <;> simp
            | false =>
              simp only [Bool.false_and, Bool.false_eq_true, if_false]
              cases envel with
              | none => exact absurd hcase id
              | some e =>
                simp only [] at hcase
                dsimp only
                rw [h1]
                by_cases ht : e.to = a
                · rw [if_neg (by simpa using ht)]
                  simp only [h6]
                  rw [if_pos ht] at hcase
                  exact htake _ _ [e] rfl ⟨rfl, rfl⟩ (by rw [hcase]; rfl)
                · rw [if_pos ht]
                  rw [if_neg ht] at hcase
                  exact htake _ _ [] rfl rfl (by rw [hcase]; rfl)
    | failing =>
      rw [hp] at h11
      simp only [h2, Bool.false_eq_true, if_false]
      exact hphase _ h11
    | hangingUp =>
      rw [hp] at h11
      exact taking_closeConn (hphase _ h11)
    | pushing q e =>
      rw [hp] at h11
      obtain ⟨rfl, hm⟩ := h11
      subst hm
      simp only [h5, List.getElem?_cons_zero, h9, Bool.false_eq_true, if_false]
      split
      · rename_i hroom
        exact .after h1 h2 h3 { l' with phase := .pushed } { ch with items := ch.items ++ [e] } c
          (by simp [setPhase, h4]) (by simp [h9]) h6 h7 h8 h9 (by simp; omega) [] rfl (by
            show s.got.filterMap id ++ (ch.items ++ [e]) ++ [] = _
            rw [← h12]; simp)
      · exact .after h1 h2 h3 l' ch c h4 h5 h6 h7 h8 h9 h10 [e] (by rw [hp]; exact ⟨rfl, rfl⟩) h12
    | pushed =>
      rw [hp] at h11
      simp only [h2, Bool.false_eq_true, if_false]
      exact hphase _ h11
    | pushingStatus q b =>
      rw [hp] at h11
      have hself : Taking a s := .after h1 h2 h3 l' ch c h4 h5 h6 h7 h8 h9 h10 more (by rw [hp]; exact h11) h12
      dsimp only
      split
      · exact hself
      · split
        · exact taking_same hself rfl rfl rfl rfl rfl rfl rfl rfl rfl
        · split
          · exact taking_same (hphase .idle h11) rfl rfl rfl rfl rfl rfl rfl rfl rfl
          · exact hself
    | stopped => exact .after h1 h2 h3 l' ch c h4 h5 h6 h7 h8 h9 h10 more (by rw [hp] at h11 ⊢; exact h11) h12

theorem taking_step (T : AcnTexts) (rest : Bytes → Envelope) {a : Bytes} {s : AgentLife} (st : AgentLife.Step)
    (hst : st ≠ .stop ∧ ∀ d, st ≠ .start d) (h : Taking a s) : Taking a (s.step T rest st) := by
  by_cases hd : s.dead = none
  case neg => rw [step_dead st hd]; exact h
  simp only [step, hd, if_true]
  cases st with
  | start d => exact absurd rfl (hst.2 d)
  | stop => exact absurd rfl hst.1
  | go ok => exact taking_goMain ok h
  | arrive k f =>
    exact taking_conns h k (fun c => if c.ended then c else
      { c with arrived := c.arrived ++ [f], input := c.input ++ [f] }) fun c => by split <;> rfl
  | hangUp k => exact taking_conns h k (fun c => { c with ended := true }) fun _ => rfl
  | decrypt k n =>
    exact taking_conns h k (fun c => if c.closed then c else { c with decrypted := n }) fun c => by
      split <;> rfl
  | listen i ok =>
    simp only [stepAlive]
    split
    · exact h
    · rename_i l hl
      exact taking_goListener ok hl h
  | put ok =>
    simp only [stepAlive]
    split
    · exact taking_same h rfl rfl rfl rfl rfl rfl rfl rfl rfl
    · split
      · exact taking_same h rfl rfl rfl rfl rfl rfl rfl rfl rfl
      · exact h
  | putGo j =>
    simp only [stepAlive, goPut]
    split
    · split
      · exact h
      · split
        · exact taking_same h rfl rfl rfl rfl rfl rfl rfl rfl rfl
        · split
          · exact taking_same h rfl rfl rfl rfl rfl rfl rfl rfl rfl
          · exact h
    · exact h
  | putTimeout j =>
    simp only [stepAlive]
    split
    · exact taking_same h rfl rfl rfl rfl rfl rfl rfl rfl rfl
    · exact h
  | get =>
    cases h with
    | before h1 h2 h3 h4 h5 h6 h7 h8 h9 =>
      simp only [stepAlive, h7]
      exact .before h1 h2 h3 h4 h5 h6 h7 h8 h9
    | after h1 h2 h3 l ch c h4 h5 h6 h7 h8 h9 h10 more h11 h12 =>
      simp only [stepAlive, h6, h5, List.getElem?_cons_zero, h9, Bool.false_eq_true, if_false]
      split
      · rename_i e items hi
        refine .after h1 h2 h3 l { ch with items := items } c h4 (by simp [h9]) rfl h7 h8 h9
          (by rw [hi] at h10; simp at h10 ⊢; omega) more h11 ?_
        rw [← h12, hi]
        simp
      · exact .after h1 h2 h3 l ch c h4 h5 h6 h7 h8 h9 h10 more h11 h12

theorem taking_run (T : AcnTexts) (rest : Bytes → Envelope) (a : Bytes) (dial : Option (Bytes → Bool))
    (steps : List AgentLife.Step) (hst : ∀ st ∈ steps, st ≠ .stop ∧ ∀ d, st ≠ .start d) :
    Taking a ((AgentLife.init a).run T rest (.start dial :: steps)) := by
  have h0 : Taking a ((AgentLife.init a).step T rest (.start dial)) := by
    cases dial with
    | none =>
      exact .before rfl rfl (.inl rfl) (Nat.zero_le _) rfl rfl rfl rfl fun c hc => by cases hc
    | some d =>
      exact .before rfl rfl (.inr rfl) (Nat.le_refl _) rfl rfl rfl rfl fun c hc => by
        rw [List.mem_singleton.1 hc]; rfl
  show Taking a (steps.foldl (AgentLife.step T rest) ((AgentLife.init a).step T rest (.start dial)))
  generalize (AgentLife.init a).step T rest (.start dial) = s at h0 ⊢
  induction steps generalizing s with
  | nil => exact h0
  | cons st steps ih =>
    exact ih (fun x hx => hst x (by simp [hx])) _ (taking_step T rest st (hst st (by simp)) h0)

/-- What the first connection has brought for the agent, after `Start` has returned: the envelopes in the frames that
its goroutine has read, in the order in which the frames arrived. -/
def Life.brought (s : AgentLife) : List Envelope :=
  (s.conns.flatMap Conn.heard).filterMap (wanted s.address)

/-- The envelopes in all queues. -/
def Life.queued (s : AgentLife) : List Envelope := s.outs.flatMap (·.items)

/-- **C134.** Whatever a peer sends and in whatever order things happen: as long as an agent that was started is not
stopped, `Get` has returned, and the queue holds, the envelopes for the agent in the order in which they came, without
gap or repetition, but for the last one at most. There are never more than ten in the queue. -/
theorem C134_in_order (T : AcnTexts) (rest : Bytes → Envelope) (a : Bytes) (dial : Option (Bytes → Bool))
    (steps : List AgentLife.Step) (hst : ∀ st ∈ steps, st ≠ .stop ∧ ∀ d, st ≠ .start d) :
    let s := (AgentLife.init a).run T rest (.start dial :: steps)
    ∃ last : List Envelope, last.length ≤ 1 ∧ (queued s).length ≤ 10 ∧
      s.got.filterMap id ++ queued s ++ last = brought s := by
  intro s
  have h : Taking a s := taking_run T rest a dial steps hst
  clear_value s
  cases h with
  | before h1 h2 h3 h4 h5 h6 h7 h8 h9 =>
    refine ⟨[], by simp, by simp [queued, h6], ?_⟩
    have : s.conns.flatMap Conn.heard = [] := by simpa using h9
    simp [queued, brought, h6, h8, this]
  | after h1 h2 h3 l ch c h4 h5 h6 h7 h8 h9 h10 more h11 h12 =>
    refine ⟨more, ?_, by simpa [queued, h5] using h10, ?_⟩
    · unfold holds at h11
      split at h11
      · simp [h11.2]
      all_goals first | exact h11 | simp [h11]
    · simpa [queued, brought, h5, h7, h1] using h12

/-- **C134: and nothing else.** The envelopes of C134_in_order are those in the frames that arrived on the connection of
the agent, from the first that `Start` has not read to the first that is still to be read. -/
theorem C134_arrived (T : AcnTexts) (rest : Bytes → Envelope) (a : Bytes) (dial : Option (Bytes → Bool))
    (steps : List AgentLife.Step) (hst : ∀ st ∈ steps, st ≠ .stop ∧ ∀ d, st ≠ .start d) {c : Conn} :
    let s := (AgentLife.init a).run T rest (.start dial :: steps)
    s.conns[0]? = some c → ∃ first read still : List Bytes, first ++ read ++ still = c.arrived ∧
      brought s = read.filterMap (wanted a) := by
  intro s hc
  obtain ⟨x, y, hlog, harr⟩ := C97_first_partial T rest a (.start dial :: steps) hc
  have h : Taking a s := taking_run T rest a dial steps hst
  clear_value s
  refine ⟨x, y, c.input, harr, ?_⟩
  have hy : c.heard = y := by
    have h1 : ∀ l : List Bytes, (l.map (Prod.mk Reader.start)).filterMap (fun z : Reader × Bytes => match z.1 with
        | .listener _ => some z.2
        | .start => none) = [] := by
      intro l
      simp
    have h2 : ∀ l : List Bytes, (l.map (Prod.mk (Reader.listener 0))).filterMap (fun z : Reader × Bytes => match z.1 with
        | .listener _ => some z.2
        | .start => none) = l := by
      intro l
      simp [List.filterMap_map]
    unfold Conn.heard
    rw [hlog, List.filterMap_append, h1, h2, List.nil_append]
  have hconns : s.conns = [c] ∧ s.address = a := by
    cases h with
    | before h1 h2 h3 h4 h5 h6 h7 h8 h9 =>
      refine ⟨?_, h1⟩
      match hcs : s.conns with
      | [] => rw [hcs] at hc; cases hc
      | [z] => rw [hcs] at hc; simpa using hc
      | _ :: _ :: _ => rw [hcs] at h4; simp at h4
    | after h1 h2 h3 l ch c' h4 h5 h6 h7 h8 h9 h10 more h11 h12 =>
      refine ⟨?_, h1⟩
      rw [h7] at hc ⊢
      simpa using hc
  simp [brought, hconns.1, hconns.2, hy]

/-- No step but `Get` changes what was taken. -/
theorem got_step (T : AcnTexts) (rest : Bytes → Envelope) (s : AgentLife) (st : AgentLife.Step) (h : st ≠ .get) :
    (s.step T rest st).got = s.got := by
  have hc : ∀ s : AgentLife, s.closeConn.got = s.got := fun s => by unfold closeConn; split <;> rfl
  unfold step
  split
  case isFalse => rfl
  cases st with
  | get => exact absurd rfl h
  | start d => simp only [stepAlive]; split <;> [rfl; (split <;> rfl)]
  | stop => simp only [stepAlive]; split <;> rfl
  | go ok =>
    simp only [stepAlive, goMain]
    repeat' split
    all_goals first | rfl | exact hc _
  | arrive k f => rfl
  | hangUp k => rfl
  | decrypt k n => rfl
  | listen i ok =>
    simp only [stepAlive, goListener]
    repeat' split
    all_goals first | rfl | exact (hc _).trans rfl
  | put ok =>
    simp only [stepAlive]
    repeat' split
    all_goals rfl
  | putGo j =>
    simp only [stepAlive, goPut]
    repeat' split
    all_goals rfl
  | putTimeout j => simp only [stepAlive]; split <;> rfl

/-- **C134: an agent that takes nothing.** Like the example agent: it never reads more than eleven envelopes that are
for it, however many arrive; the first ten are in the queue. -/
theorem C134_example_eleven (T : AcnTexts) (rest : Bytes → Envelope) (a : Bytes) (dial : Option (Bytes → Bool))
    (steps : List AgentLife.Step)
    (hst : ∀ st ∈ steps, st ≠ .stop ∧ (∀ d, st ≠ .start d) ∧ st ≠ .get) :
    let s := (AgentLife.init a).run T rest (.start dial :: steps)
    (brought s).length ≤ 11 ∧ queued s <+: brought s := by
  intro s
  obtain ⟨last, h1, h2, h3⟩ := C134_in_order T rest a dial steps fun st h => ⟨(hst st h).1, (hst st h).2.1⟩
  have hg : s.got = [] := by
    have : ∀ (l : List AgentLife.Step) (s0 : AgentLife), (∀ st ∈ l, st ≠ .get) → (s0.run T rest l).got = s0.got := by
      intro l
      induction l with
      | nil => intro s0 _; rfl
      | cons x l ih =>
        intro s0 hl
        exact (ih _ fun st h => hl st (by simp [h])).trans (got_step T rest s0 x (hl x (by simp)))
    exact this _ _ fun st h => by
      rcases List.mem_cons.1 h with rfl | h
      · exact fun h => by cases h
      · exact (hst st h).2.2
  change s.got.filterMap id ++ queued s ++ last = brought s at h3
  change (queued s).length ≤ 10 at h2
  rw [hg] at h3
  simp only [List.filterMap_nil, List.nil_append] at h3
  refine ⟨?_, ⟨last, h3⟩⟩
  rw [← h3, List.length_append]
  omega

/-- The goroutine waits for room in the queue. -/
structure Life.Stuck (e : Envelope) (s : AgentLife) : Prop where
  alive : s.dead = none
  main : s.main = .idle
  conn : s.conn = some 0
  out : s.out = some 0
  listeners : s.listeners.map (·.phase) = [.pushing 0 e]
  outs : ∃ ch, s.outs = [ch] ∧ ch.closed = false ∧ ¬ ch.items.length < 10
  conns : ∃ c, s.conns = [c] ∧ c.closed = false

/-- What happens to an agent that nobody uses. -/
def Life.Unused (st : AgentLife.Step) : Prop :=
  st ≠ .stop ∧ (∀ d, st ≠ .start d) ∧ st ≠ .get ∧ (∀ ok, st ≠ .put ok) ∧ ∀ j, st ≠ .putGo j

theorem stuck_conns {e : Envelope} {s : AgentLife} (h : Stuck e s) (k : Nat) (g : Conn → Conn)
    (hg : ∀ c, (g c).closed = c.closed) : Stuck e { s with conns := s.conns.modify k g } := by
  obtain ⟨c, hc, ho⟩ := h.conns
  refine ⟨h.alive, h.main, h.conn, h.out, h.listeners, h.outs, ?_⟩
  cases k with
  | zero => exact ⟨g c, by simp [hc], (hg c).trans ho⟩
  | succ k => exact ⟨c, by rw [hc]; cases k <;> rfl, ho⟩

theorem stuck_step (T : AcnTexts) (rest : Bytes → Envelope) {e : Envelope} {s : AgentLife} (h : Stuck e s)
    {st : AgentLife.Step} (hu : Unused st) : Stuck e (s.step T rest st) := by
  obtain ⟨u1, u2, u3, u4, u5⟩ := hu
  simp only [step, h.alive, if_true]
  cases st with
  | start d => exact absurd rfl (u2 d)
  | stop => exact absurd rfl u1
  | get => exact absurd rfl u3
  | put ok => exact absurd rfl (u4 ok)
  | putGo j => exact absurd rfl (u5 j)
  | go ok =>
    simp only [stepAlive, goMain, h.main]
    exact h
  | arrive k f =>
    exact stuck_conns h k (fun c => if c.ended then c else
      { c with arrived := c.arrived ++ [f], input := c.input ++ [f] }) fun c => by split <;> rfl
  | hangUp k => exact stuck_conns h k (fun c => { c with ended := true }) fun _ => rfl
  | decrypt k n =>
    exact stuck_conns h k (fun c => if c.closed then c else { c with decrypted := n }) fun c => by split <;> rfl
  | putTimeout j =>
    simp only [stepAlive]
    split
    · exact ⟨h.alive, h.main, h.conn, h.out, h.listeners, h.outs, h.conns⟩
    · exact h
  | listen i ok =>
    simp only [stepAlive]
    split
    · exact h
    · rename_i l hl
      obtain ⟨ch, hc, ho, hr⟩ := h.outs
      have hp : l.phase = .pushing 0 e := by
        have := congrArg (·[i]?) h.listeners
        rw [List.getElem?_map, hl] at this
        cases i with
        | zero => simpa using this
        | succ i => simp at this
      simp only [goListener, hp, hc, List.getElem?_cons_zero, ho, Bool.false_eq_true, if_false, if_neg hr]
      exact h

/-- **C134: stopping the example agent.** An agent that was started and takes nothing has ten envelopes in its
queue and an eleventh in hand. Whatever a peer does from then on, nothing more is read, and when the agent is stopped,
which closes the queue, the process ends with a panic. -/
theorem C134_example_stop (T : AcnTexts) (rest : Bytes → Envelope) (a : Bytes) (dial : Option (Bytes → Bool))
    (steps later : List AgentLife.Step) (hst : ∀ st ∈ steps, st ≠ .stop ∧ ∀ d, st ≠ .start d) {e : Envelope}
    (hl : ∀ st ∈ later, Unused st) (w x : Bool) :
    let s := (AgentLife.init a).run T rest (.start dial :: steps)
    s.dead = none → s.isOpen = true → (queued s).length = 10 → s.listeners.map (·.phase) = [.pushing 0 e] →
    (s.run T rest later).dead = none ∧ (s.run T rest later).listeners.map (·.phase) = [.pushing 0 e] ∧
    (s.run T rest (later ++ [.stop, .go true, .go w, .listen 0 x])).dead = some .panic := by
  intro s hd ho hq hp
  have h : Taking a s := taking_run T rest a dial steps hst
  clear_value s
  have h0 : Stuck e s := by
    cases h with
    | before h1 h2 h3 h4 h5 h6 h7 h8 h9 => rw [h5] at hp; cases hp
    | after h1 h2 h3 l ch c h4 h5 h6 h7 h8 h9 h10 more h11 h12 =>
      refine ⟨hd, h3, h8, h6, hp, ⟨ch, h5, h9, ?_⟩, ⟨c, h7, ?_⟩⟩
      · simp [queued, h5] at hq; omega
      · simpa [isOpen, h8, h7] using ho
  have h1 : Stuck e (s.run T rest later) := by
    clear hd ho hq hp h
    induction later generalizing s with
    | nil => exact h0
    | cons st later ih =>
      exact ih (fun x hx => hl x (by simp [hx])) _ (stuck_step T rest h0 (hl st (by simp)))
  refine ⟨h1.alive, h1.listeners, ?_⟩
  have happ : s.run T rest (later ++ [.stop, .go true, .go w, .listen 0 x]) =
      (s.run T rest later).run T rest [.stop, .go true, .go w, .listen 0 x] := by
    simp [run, List.foldl_append]
  rw [happ]
  generalize s.run T rest later = s1 at h1
  obtain ⟨ch, hc, hco, hr⟩ := h1.outs
  obtain ⟨c, hcs, hcc⟩ := h1.conns
  obtain ⟨l, hll, hlp⟩ : ∃ l, s1.listeners = [l] ∧ l.phase = .pushing 0 e := by
    have := h1.listeners
    match hls : s1.listeners with
    | [] => rw [hls] at this; cases this
    | [l] => rw [hls] at this; exact ⟨l, rfl, by simpa using this⟩
    | _ :: _ :: _ => rw [hls] at this; simp at this
  simp [run, step, stepAlive, h1.alive, h1.main, goMain, h1.conn, isOpen, hcs, hcc, closeConn, closeChan, h1.out, hc, hco,
    hll, goListener, hlp]

/-- A frame with an envelope that can be read. -/
def Life.Carries (f : Bytes) (e : Envelope) : Prop :=
  ∃ b r, AcnMessage.decode f = some (some (.aeaEnvelope b r)) ∧ Envelope.decode b = some e

/-- An agent that is connected and whose goroutine is about to read; what is queued and what has arrived. -/
structure Life.Ready (a : Bytes) (s : AgentLife) (items : List Envelope) (input : List Bytes) : Prop where
  alive : s.dead = none
  address : s.address = a
  closing : s.closing = false
  conn : s.conn = some 0
  out : s.out = some 0
  listeners : s.listeners.map (·.phase) = [.idle]
  outs : s.outs = [⟨items, false⟩]
  conns : ∃ c, s.conns = [c] ∧ c.closed = false ∧ c.input = input

theorem handled_carries (T : AcnTexts) (rest : Bytes → Envelope) {f : Bytes} {e : Envelope} (h : Carries f e) :
    handled T rest f true = .result (some e) false := by
  obtain ⟨b, r, hf, he⟩ := h
  have hd' : Acn.decodeAcnMessage T f = .ok (.aeaEnvelope b r) := by simp [Acn.decodeAcnMessage, hf]
  obtain ⟨m, hm'⟩ : ∃ m, AcnMessage.encode (some (.status (some ⟨0, []⟩))) = some m := ⟨_, rfl⟩
  simp [handled, Lite.handle, Pipe.read, hd', he, Acn.sendSuccess, Acn.sendMessage, hm', StatusCode.toInt, Pipe.write]

/-- The next envelope that has arrived is queued if it is for the agent and there is room. -/
theorem ready_next (T : AcnTexts) (rest : Bytes → Envelope) {a : Bytes} {s : AgentLife} {items : List Envelope}
    {f : Bytes} {input : List Bytes} {e : Envelope} (h : Ready a s items (f :: input)) (hf : Carries f e)
    (hroom : e.to = a → items.length < 10) :
    ∃ n, Ready a (s.run T rest (List.replicate n (.listen 0 true))) (items ++ if e.to = a then [e] else []) input := by
  obtain ⟨h1, h2, h3, h4, h5, h6, h7, c, h8, h9, h10⟩ := h
  obtain ⟨l, hl, hp⟩ : ∃ l, s.listeners = [l] ∧ l.phase = .idle := by
    match hls : s.listeners with
    | [] => rw [hls] at h6; cases h6
    | [l] => rw [hls] at h6; exact ⟨l, rfl, by simpa using h6⟩
    | _ :: _ :: _ => rw [hls] at h6; simp at h6
  have hh := handled_carries T rest hf
  by_cases ht : e.to = a
  · refine ⟨4, ?_⟩
    rw [if_pos ht]
    have hr : items.length < 10 := hroom ht
    have : s.run T rest (List.replicate 4 (.listen 0 true)) =
        { s with
          listeners := [{ l with phase := .idle }]
          outs := [⟨items ++ [e], false⟩]
          conns := [{ c with input := input, log := c.log ++ [(Reader.listener l.born, f)],
                             decrypted := c.decrypted - 1 }] } := by
      simp [List.replicate, run, step, stepAlive, h1, hl, goListener, hp, h4, setPhase, h8, Conn.read, h10, h9, hh,
        isOpen, AgentLife.take, h3, h2, ht, h5, h7, hr]
    rw [this]
    exact ⟨h1, h2, h3, h4, h5, rfl, rfl, _, rfl, h9, rfl⟩
  · refine ⟨2, ?_⟩
    rw [if_neg ht, List.append_nil]
    have : s.run T rest (List.replicate 2 (.listen 0 true)) =
        { s with
          listeners := [{ l with phase := .idle }]
          conns := [{ c with input := input, log := c.log ++ [(Reader.listener l.born, f)],
                             decrypted := c.decrypted - 1 }] } := by
      simp [List.replicate, run, step, stepAlive, h1, hl, goListener, hp, h4, setPhase, h8, Conn.read, h10, h9, hh,
        isOpen, AgentLife.take, h2, ht]
    rw [this]
    exact ⟨h1, h2, h3, h4, h5, rfl, h7, _, rfl, h9, rfl⟩

/-- **C134: everything is handed on.** When envelopes have arrived and the queue has room for those that are for the
agent, the goroutine, if nothing prevents it from going on and its answers from being written, queues exactly these, in
order, and is then about to read again. -/
theorem C134_delivered (T : AcnTexts) (rest : Bytes → Envelope) {a : Bytes} (es : List (Bytes × Envelope))
    (hes : ∀ x ∈ es, Carries x.1 x.2) {s : AgentLife} {items : List Envelope}
    (h : Ready a s items (es.map Prod.fst))
    (hroom : items.length + ((es.map Prod.snd).filter (·.to = a)).length ≤ 10) :
    ∃ n, Ready a (s.run T rest (List.replicate n (.listen 0 true)))
      (items ++ (es.map Prod.snd).filter (·.to = a)) [] := by
  induction es generalizing s items with
  | nil => exact ⟨0, by simpa [run] using h⟩
  | cons x es ih =>
    obtain ⟨n, hn⟩ := ready_next T rest (by simpa using h) (hes x (by simp)) (fun ht => by
      simp only [List.map_cons, List.filter_cons, ht, decide_true, if_true, List.length_cons] at hroom
      omega)
    have hsplit : ((x :: es).map Prod.snd).filter (·.to = a) =
        (if x.2.to = a then [x.2] else []) ++ (es.map Prod.snd).filter (·.to = a) := by
      by_cases ht : x.2.to = a <;> simp [ht]
    rw [hsplit] at hroom ⊢
    obtain ⟨m, hm⟩ := ih (fun y hy => hes y (by simp [hy])) hn (by
      rw [List.length_append] at hroom ⊢
      omega)
    refine ⟨n + m, ?_⟩
    have : s.run T rest (List.replicate (n + m) (.listen 0 true)) =
        (s.run T rest (List.replicate n (.listen 0 true))).run T rest (List.replicate m (.listen 0 true)) := by
      rw [List.replicate_add]
      exact List.foldl_append
    rw [this, ← List.append_assoc]
    exact hm

/-- **C134: a connection that breaks.** When the peer hangs up and everything that arrived has been read, the goroutine
closes the connection and ends; what is queued stays, and the process goes on. -/
theorem C134_hung_up (T : AcnTexts) (rest : Bytes → Envelope) {a : Bytes} {s : AgentLife} {items : List Envelope}
    (h : Ready a s items []) (w x y z : Bool) :
    let s' := s.run T rest [.hangUp 0, .listen 0 w, .listen 0 x, .listen 0 y, .listen 0 z]
    s'.listeners.map (·.phase) = [.stopped] ∧ s'.isOpen = false ∧ queued s' = items ∧ s'.dead = none := by
  obtain ⟨h1, h2, h3, h4, h5, h6, h7, c, h8, h9, h10⟩ := h
  obtain ⟨l, hl, hp⟩ : ∃ l, s.listeners = [l] ∧ l.phase = .idle := by
    match hls : s.listeners with
    | [] => rw [hls] at h6; cases h6
    | [l] => rw [hls] at h6; exact ⟨l, rfl, by simpa using h6⟩
    | _ :: _ :: _ => rw [hls] at h6; simp at h6
  simp [queued, run, step, stepAlive, h1, hl, goListener, hp, h4, setPhase, h8, Conn.read, h10, isOpen, h3, h7,
    closeConn]

/-- **C134: `Get`.** At a queue with something in it `Get` returns the first, closed or not; at an empty one it waits, or
returns nil if the agent was stopped. -/
theorem C134_get (T : AcnTexts) (rest : Bytes → Envelope) (s : AgentLife) (hd : s.dead = none) {q : Nat}
    {ch : Chan Envelope} (hq : s.out = some q) (hc : s.outs[q]? = some ch) :
    (∀ e items, ch.items = e :: items → (s.step T rest .get).got = s.got ++ [some e] ∧
      (s.step T rest .get).outs[q]? = some ⟨items, ch.closed⟩) ∧
    (ch.items = [] → ch.closed = true → (s.step T rest .get).got = s.got ++ [none]) ∧
    (ch.items = [] → ch.closed = false → s.step T rest .get = s) := by
  have hl := (List.getElem?_eq_some_iff.1 hc).1
  refine ⟨fun e items h => ?_, fun h h' => ?_, fun h h' => ?_⟩
  · simp only [step, hd, if_true, stepAlive, hq, hc, h]
    exact ⟨trivial, List.getElem?_set_self hl⟩
  · simp only [step, hd, if_true, stepAlive, hq, hc, h, h']
  · simp only [step, hd, if_true, stepAlive, hq, hc, h, h', Bool.false_eq_true, if_false]

/-- **C134: `Put`.** A call of `Put` writes nothing and waits for nothing when the connection is closed, a call that
waits returns after a while, and calls get the statuses in the order in which they came, each one only once. -/
theorem C134_put (T : AcnTexts) (rest : Bytes → Envelope) (s : AgentLife) (hd : s.dead = none) :
    (s.conn ≠ none → s.isOpen = false → ∀ ok, s.step T rest (.put ok) = s) ∧
    (∀ j q, s.puts[j]? = some (.waiting q) → (s.step T rest (.putTimeout j)).puts[j]? = some (.done none)) ∧
    (∀ i j q b l items ok, s.listeners[i]? = some l → l.phase = .pushingStatus q b →
      s.stats[q]? = some ⟨items, false⟩ → items.length < 10 → s.puts[j]? = some (.waiting (some q)) →
      (s.run T rest [.listen i ok, .putGo j]).puts[j]? = some (.done (items ++ [b]).head?) ∧
      (s.run T rest [.listen i ok, .putGo j]).stats[q]? = some ⟨(items ++ [b]).tail, false⟩) := by
  refine ⟨fun h1 h2 ok => by simp [step, hd, stepAlive, h1, h2], fun j q h => ?_, ?_⟩
  · have hj := (List.getElem?_eq_some_iff.1 h).1
    simp only [step, hd, if_true, stepAlive, h]
    exact List.getElem?_set_self hj
  · intro i j q b l items ok hl hp hs hr hj
    have h1 := (List.getElem?_eq_some_iff.1 hj).1
    have h2 := (List.getElem?_eq_some_iff.1 hs).1
    cases items <;>
      simp_all [run, step, stepAlive, goListener, setPhase, goPut]

/-- **C134: not after `Stop` was called.** While an agent is being stopped and its queue is not yet closed, something
that could not be decoded is queued as if it were an envelope for the agent, if what was decoded before the error bears
its address; `rest` is what `proto.Unmarshal` leaves there. -/
theorem C134_stopping (T : AcnTexts) (rest : Bytes → Envelope) {a : Bytes} {s : AgentLife} {items : List Envelope}
    {f b : Bytes} {input : List Bytes} {r : Option AgentRecord} (h : Ready a s items (f :: input)) (hm : s.main = .idle)
    (hf : AcnMessage.decode f = some (some (.aeaEnvelope b r))) (hb : Envelope.decode b = none)
    (hto : (rest b).to = a) (hroom : items.length < 10) (w x y : Bool) :
    wanted a f = none ∧
    queued (s.run T rest [.stop, .listen 0 w, .listen 0 x, .listen 0 y]) = items ++ [rest b] := by
  obtain ⟨h1, h2, h3, h4, h5, h6, h7, c, h8, h9, h10⟩ := h
  refine ⟨by simp [wanted, hf, hb], ?_⟩
  obtain ⟨l, hl, hp⟩ : ∃ l, s.listeners = [l] ∧ l.phase = .idle := by
    match hls : s.listeners with
    | [] => rw [hls] at h6; cases h6
    | [l] => rw [hls] at h6; exact ⟨l, rfl, by simpa using h6⟩
    | _ :: _ :: _ => rw [hls] at h6; simp at h6
  have hh : ∀ ok, handled T rest f ok = .result (some (rest b)) true := by
    intro ok
    have hd' : Acn.decodeAcnMessage T f = .ok (.aeaEnvelope b r) := by simp [Acn.decodeAcnMessage, hf]
    simp [handled, Lite.handle, Pipe.read, hd', hb]
  simp [queued, run, step, stepAlive, h1, hm, hl, goListener, hp, h4, setPhase, h8, Conn.read, h10, h9, hh,
    isOpen, AgentLife.take, h2, hto, h5, h7, hroom]

namespace TakesDemo

def T : AcnTexts := ⟨fun _ => [], fun _ => []⟩
def rest : Bytes → Envelope := fun _ => Lite.emptyEnvelope

/-- The `n`th envelope for the agent. -/
def env (n : Nat) : Envelope := ⟨b! "ag", b! "you", b! "p", List.replicate n 7, []⟩
def frame (e : Envelope) : Bytes := ((e.encode.bind fun b => AcnMessage.encode (some (.aeaEnvelope b none)))).getD []

def begin : List AgentLife.Step := [.arrive 0 [7], .go true, .go true, .arrive 0 exAnswer, .go true]

/-- An envelope comes, and is handed on if there is room. -/
def comes (e : Envelope) : List AgentLife.Step :=
  [.arrive 0 (frame e), .listen 0 true, .listen 0 true, .listen 0 true, .listen 0 true]

/-- Concrete case: of two envelopes for the agent and one for another, the first is taken and the second is there. -/
example :
    let s := (AgentLife.init (b! "ag")).run T rest (.start (some fun f => f == [7]) :: begin ++ comes (env 1) ++
      comes ⟨b! "no", b! "you", b! "p", [7, 7], []⟩ ++ comes (env 3) ++ [.get])
    s.got = [some (env 1)] ∧ queued s = [env 3] ∧ brought s = [env 1, env 3] := by
  decide +kernel

/-- Concrete case: three envelopes have arrived, one of them for another agent. -/
example :
    let s := (AgentLife.init (b! "ag")).run T rest (.start (some fun f => f == [7]) :: begin ++ [.arrive 0 (frame (env 1)),
      .arrive 0 (frame ⟨b! "no", b! "you", b! "p", [7, 7], []⟩), .arrive 0 (frame (env 3))])
    s.conns.map (·.input.length) = [3] ∧ s.listeners.map (·.phase) = [.idle] ∧
    queued (s.run T rest (List.replicate 10 (.listen 0 true))) = [env 1, env 3] := by
  decide +kernel

/-- Concrete case: the peer hangs up after one envelope. -/
example :
    let s := (AgentLife.init (b! "ag")).run T rest (.start (some fun f => f == [7]) :: begin ++ comes (env 1) ++
      .hangUp 0 :: List.replicate 4 (.listen 0 true))
    s.listeners.map (·.phase) = [.stopped] ∧ s.isOpen = false ∧ queued s = [env 1] := by
  decide +kernel

/-- Concrete case: two calls of `Get` after the agent was stopped with one envelope in its queue. -/
example :
    let s := (AgentLife.init (b! "ag")).run T rest (.start (some fun f => f == [7]) :: begin ++ comes (env 1) ++
      [.stop, .go true, .go true, .go true, .get, .get])
    s.results = [.started, .stopped] ∧ s.got = [some (env 1), none] := by
  decide +kernel

/-- Concrete case: a call of `Put` gets the status that comes, the next one nothing. -/
example :
    let s := (AgentLife.init (b! "ag")).run T rest (.start (some fun f => f == [7]) :: begin ++ [.put true, .put true,
      .arrive 0 exAnswer, .listen 0 true, .listen 0 true, .listen 0 true, .putGo 1, .putGo 0, .putTimeout 0])
    s.puts = [.done none, .done (some ⟨0, []⟩)] := by
  decide +kernel

/-- Concrete case: an envelope with a broken field behind its address, before and after `Stop` is called. -/
example :
    let broken : Bytes := (AcnMessage.encode (some (.aeaEnvelope (0x0a :: 2 :: b! "ag" ++ [0x12, 9]) none))).getD []
    let s := (AgentLife.init (b! "ag")).run T (fun _ => env 1)
      (.start (some fun f => f == [7]) :: begin ++ [.arrive 0 broken])
    Envelope.decode (0x0a :: 2 :: b! "ag" ++ [0x12, 9]) = none ∧
    queued (s.run T (fun _ => env 1) (List.replicate 4 (.listen 0 true))) = [] ∧
    queued (s.run T (fun _ => env 1) (.stop :: List.replicate 3 (.listen 0 true))) = [env 1] := by
  decide +kernel

/-- The example agent, to which twelve envelopes were sent. -/
def twelve : List AgentLife.Step := begin ++ (List.range 12).flatMap fun n => comes (env n)

/-- Concrete case: the example agent has read eleven of twelve envelopes, and ends with a panic when it is stopped. -/
example :
    let s := (AgentLife.init (b! "ag")).run T rest (.start (some fun f => f == [7]) :: twelve)
    (brought s).length = 11 ∧ queued s = (List.range 10).map env ∧ s.conns.map (·.input) = [[frame (env 11)]] ∧
    s.dead = none ∧ s.isOpen = true ∧ s.listeners.map (·.phase) = [.pushing 0 (env 10)] ∧
    (s.run T rest [.stop, .go true, .go true, .listen 0 true]).dead = some .panic := by
  decide +kernel

end TakesDemo

end Verif
