import Verif.Model.AcnTable

/-!
# C109: an acknowledgement of a delegate client reaches the send it answers

Wrong as stated: the connection is listed before its queue exists, so that the first send waits at no queue; and the end
of an older connection removes the queue of a newer one, whose handler then blocks for ever.

Specification: the ghost values of the model, which say what a status answers.
-/

namespace Verif

namespace AcnTable

theorem setConn_self (g : AcnTable) (c : Nat) (p : AcnConn) : g.setConn c p c = p := by simp [setConn]

theorem setConn_ne (g : AcnTable) {c c' : Nat} (p : AcnConn) (h : c' ≠ c) : g.setConn c p c' = g.conns c' := by
  simp [setConn, h]

/-- The address a send goes to. -/
def target (g : AcnTable) (i : Nat) : Option Bytes := (g.sends[i]?).map (·.1)

/-- What a status in the channel of an address says: it answers an envelope to this address, if any. -/
def Answers (g : AcnTable) (a : Bytes) (s : AcnAnswer) : Prop :=
  ∀ j, s.1 = some j → g.target j = some a

/-- Everything that concerns an address stays with it. -/
structure Kept (g : AcnTable) : Prop where
  tcp : ∀ a c, g.tcp.get a = some c → (g.conns c).address = some a
  acn : ∀ (a : Bytes) (q : Nat), g.acn.get a = some q → ∃ l, g.chans[q]? = some (a, l)
  chans : ∀ (q : Nat) (a : Bytes) (l : List AcnAnswer), g.chans[q]? = some (a, l) → ∀ s ∈ l, g.Answers a s
  found : ∀ (i : Nat) (a : Bytes) (c : Nat), g.sends[i]? = some (a, .found c) → (g.conns c).address = some a
  waiting : ∀ (i : Nat) (a : Bytes) (q : Nat), g.sends[i]? = some (a, .waiting (some q)) → ∃ l, g.chans[q]? = some (a, l)
  acked : ∀ (i : Nat) (a : Bytes) (s : AcnAnswer), g.sends[i]? = some (a, .acked s) → g.Answers a s
  pending : ∀ c, ∀ j ∈ g.pending c, ∃ a, (g.conns c).address = some a ∧ g.target j = some a
  adding : ∀ c a q s, g.conns c = .adding a q s →
    g.Answers a s ∧ ∀ q', q = some q' → ∃ l, g.chans[q']? = some (a, l)

theorem kept_init : Kept init := by
  constructor <;> simp [init]

/-- A change of the phase of a connection that keeps its address. -/
theorem Kept.conn {g : AcnTable} (k : Kept g) {c : Nat} {p : AcnConn}
    (ha : ∀ a, (g.conns c).address = some a → p.address = some a)
    (hp : ∀ a q s, p = .adding a q s → g.Answers a s ∧ ∀ q', q = some q' → ∃ l, g.chans[q']? = some (a, l)) :
    Kept { g with conns := g.setConn c p } := by
  have addr : ∀ c' a, (g.conns c').address = some a → (g.setConn c p c').address = some a := by
    intro c' a h
    by_cases hc : c' = c
    · subst hc; rw [setConn_self]; exact ha a h
    · rw [setConn_ne g p hc]; exact h
  refine ⟨fun a c' h => addr c' a (k.tcp a c' h), k.acn, k.chans, fun i a c' h => addr c' a (k.found i a c' h),
    k.waiting, k.acked, fun c' j hj => ?_, fun c' a q s h => ?_⟩
  · obtain ⟨a, h1, h2⟩ := k.pending c' j hj
    exact ⟨a, addr c' a h1, h2⟩
  · by_cases hc : c' = c
    · subst hc
      have h : p = .adding a q s := by rw [← setConn_self g c' p]; exact h
      exact hp a q s h
    · have h : g.conns c' = .adding a q s := by rw [← setConn_ne g p hc]; exact h
      exact k.adding c' a q s h

theorem target_set {g : AcnTable} {i : Nat} {a : Bytes} {x y : AcnSend} (h : g.sends[i]? = some (a, x)) (j : Nat) :
    ((g.sends.set i (a, y))[j]?).map (·.1) = g.target j := by
  unfold target
  rw [List.getElem?_set]
  split
  · next hij =>
    subst hij
    rw [h, if_pos (List.getElem?_eq_some_iff.1 h).1]
    rfl
  · rfl

theorem get_set_send {l : List (Bytes × AcnSend)} {i j : Nat} {v w : Bytes × AcnSend}
    (h : (l.set i v)[j]? = some w) : i = j ∧ v = w ∨ l[j]? = some w := by
  rw [List.getElem?_set] at h
  split at h
  · next hij =>
    split at h
    · exact .inl ⟨hij, Option.some.inj h⟩
    · cases h
  · exact .inr h

/-- A change of the phase of a send. -/
theorem Kept.send {g : AcnTable} (k : Kept g) {i : Nat} {a : Bytes} {x y : AcnSend} (h : g.sends[i]? = some (a, x))
    (hf : ∀ c, y ≠ .found c) (hw : ∀ q, y = .waiting (some q) → ∃ l, g.chans[q]? = some (a, l))
    (hk : ∀ s, y = .acked s → g.Answers a s) : Kept { g with sends := g.sends.set i (a, y) } := by
  have ans : ∀ b s, g.Answers b s → Answers { g with sends := g.sends.set i (a, y) } b s := by
    intro b s hs j hj
    exact (target_set h j).trans (hs j hj)
  refine ⟨k.tcp, k.acn, fun q b l hq s hs => ans _ _ (k.chans q b l hq s hs), fun j b c hj => ?_, fun j b q hj => ?_,
    fun j b s hj => ?_, fun c j hj => ?_, fun c b q s hc => ⟨ans _ _ (k.adding c b q s hc).1, (k.adding c b q s hc).2⟩⟩
  · rcases get_set_send hj with ⟨-, he⟩ | hj
    · exact absurd (congrArg Prod.snd he) (hf c)
    · exact k.found j b c hj
  · rcases get_set_send hj with ⟨-, he⟩ | hj
    · cases he; exact hw q rfl
    · exact k.waiting j b q hj
  · rcases get_set_send hj with ⟨-, he⟩ | hj
    · cases he; exact ans _ _ (hk s rfl)
    · exact ans _ _ (k.acked j b s hj)
  · obtain ⟨b, h1, h2⟩ := k.pending c j hj
    exact ⟨b, h1, (target_set h j).trans h2⟩

/-- A change of a channel. -/
theorem Kept.chan {g : AcnTable} (k : Kept g) {q : Nat} {o : Bytes} {l l' : List AcnAnswer}
    (h : g.chans[q]? = some (o, l)) (hl : ∀ s ∈ l', g.Answers o s) :
    Kept { g with chans := g.chans.set q (o, l') } := by
  have look : ∀ (q' : Nat) (b : Bytes), (∃ m, g.chans[q']? = some (b, m)) → ∃ m, (g.chans.set q (o, l'))[q']? = some (b, m) := by
    rintro q' b ⟨m, hm⟩
    rw [List.getElem?_set]
    split
    · next hq =>
      subst hq
      rw [h] at hm
      cases hm
      exact ⟨l', by rw [if_pos (List.getElem?_eq_some_iff.1 h).1]⟩
    · exact ⟨m, hm⟩
  refine ⟨k.tcp, fun a q' hq => look _ _ (k.acn a q' hq), fun q' b m hq s hs => ?_, k.found,
    fun i a q' hi => look _ _ (k.waiting i a q' hi), k.acked, k.pending,
    fun c a q' s hc => ⟨(k.adding c a q' s hc).1, fun q'' he => look _ _ ((k.adding c a q' s hc).2 q'' he)⟩⟩
  rw [List.getElem?_set] at hq
  split at hq
  · split at hq
    · cases hq; exact hl s hs
    · cases hq
  · exact k.chans q' b m hq s hs

theorem Kept.step {g : AcnTable} (k : Kept g) (s : AcnTableStep) : Kept (g.step s) := by
  cases s with
  | register c a =>
    simp only [AcnTable.step]
    split
    · next hc => exact k.conn (by rw [hc]; intro b hb; cases hb) (by intro _ _ _ h; cases h)
    · exact k
  | list c =>
    simp only [AcnTable.step]
    split
    · next a hc =>
      have k' := k.conn (c := c) (p := .listed a) (by rw [hc]; exact fun b hb => hb) (by intro _ _ _ h; cases h)
      refine ⟨fun b c' hb => ?_, k'.acn, k'.chans, k'.found, k'.waiting, k'.acked, k'.pending, k'.adding⟩
      rw [GoMap.get_set] at hb
      split at hb
      · next he =>
        cases hb; subst he
        show (g.setConn c (.listed b) c).address = _
        rw [setConn_self]; rfl
      · exact k'.tcp b c' hb
    · exact k
  | queue c =>
    simp only [AcnTable.step]
    split
    · next a hc =>
      have k' := k.conn (c := c) (p := .reading a) (by rw [hc]; exact fun b hb => hb) (by intro _ _ _ h; cases h)
      have look : ∀ (q' : Nat) (b : Bytes), (∃ m, g.chans[q']? = some (b, m)) → ∃ m, (g.chans ++ [(a, [])])[q']? = some (b, m) := by
        rintro q' b ⟨m, hm⟩
        exact ⟨m, by rw [List.getElem?_append_left (List.getElem?_eq_some_iff.1 hm).1]; exact hm⟩
      refine ⟨k'.tcp, fun b q hq => ?_, fun q b l hq s hs => ?_, k'.found, fun i b q hi => look _ _ (k'.waiting i b q hi),
        k'.acked, k'.pending,
        fun c' b q s hc' => ⟨(k'.adding c' b q s hc').1, fun q' he => look _ _ ((k'.adding c' b q s hc').2 q' he)⟩⟩
      · rw [GoMap.get_set] at hq
        split at hq
        · next he =>
          cases hq; subst he
          exact ⟨[], by simp⟩
        · exact look _ _ (k.acn b q hq)
      · rw [List.getElem?_append] at hq
        split at hq
        · exact k.chans q b l hq s hs
        · rw [List.getElem?_singleton] at hq
          split at hq
          · cases hq; cases hs
          · cases hq
    · exact k
  | unannounced c =>
    simp only [AcnTable.step]
    split
    · next a hc => exact k.conn (by rw [hc]; exact fun b hb => hb) (by intro _ _ _ h; cases h)
    · exact k
  | route a =>
    simp only [AcnTable.step]
    split
    · next c hc =>
      have tgt : ∀ j b, g.target j = some b → ((g.sends ++ [(a, AcnSend.found c)])[j]?).map (·.1) = some b := by
        intro j b hj
        obtain ⟨v, hv, he⟩ := Option.map_eq_some_iff.1 hj
        rw [List.getElem?_append_left (List.getElem?_eq_some_iff.1 hv).1, hv, Option.map_some, he]
      have ans : ∀ b s, g.Answers b s → Answers { g with sends := g.sends ++ [(a, .found c)] } b s :=
        fun b s hs j hj => tgt j b (hs j hj)
      have old : ∀ (j : Nat) (b : Bytes) (x : AcnSend), (g.sends ++ [(a, AcnSend.found c)])[j]? = some (b, x) →
          g.sends[j]? = some (b, x) ∨ b = a ∧ x = AcnSend.found c := by
        intro j b x hj
        rw [List.getElem?_append] at hj
        split at hj
        · exact .inl hj
        · rw [List.getElem?_singleton] at hj
          split at hj
          · cases hj; exact .inr ⟨rfl, rfl⟩
          · cases hj
      refine ⟨k.tcp, k.acn, fun q b l hq s hs => ans _ _ (k.chans q b l hq s hs), fun j b c' hj => ?_,
        fun j b q hj => ?_, fun j b s hj => ?_, fun c' j hj => ?_,
        fun c' b q s hc' => ⟨ans _ _ (k.adding c' b q s hc').1, (k.adding c' b q s hc').2⟩⟩
      · rcases old _ _ _ hj with hj | ⟨rfl, he⟩
        · exact k.found j b c' hj
        · cases he; exact k.tcp b c hc
      · rcases old _ _ _ hj with hj | ⟨rfl, he⟩
        · exact k.waiting j b q hj
        · cases he
      · rcases old _ _ _ hj with hj | ⟨rfl, he⟩
        · exact ans _ _ (k.acked j b s hj)
        · cases he
      · obtain ⟨b, h1, h2⟩ := k.pending c' j hj
        exact ⟨b, h1, tgt j b h2⟩
    · exact k
  | write i ok =>
    simp only [AcnTable.step]
    split
    · next a c hi =>
      split
      · have k' := k.send (y := .written) hi (by intro c; exact AcnSend.noConfusion)
          (by intro q h; cases h) (by intro s h; cases h)
        refine ⟨k'.tcp, k'.acn, k'.chans, k'.found, k'.waiting, k'.acked, fun c' j hj => ?_, k'.adding⟩
        have hj : j ∈ (if c' = c then g.pending c ++ [i] else g.pending c') := hj
        split at hj
        · next he =>
          subst he
          rcases List.mem_append.1 hj with hj | hj
          · exact k'.pending c' j hj
          · rw [List.mem_singleton] at hj
            subst hj
            exact ⟨a, k.found j a c' hi, by
              show ((g.sends.set j (a, .written))[j]?).map (·.1) = some a
              rw [target_set hi j]; unfold target; rw [hi]; rfl⟩
        · exact k'.pending c' j hj
      · exact k.send hi (by intro c; exact AcnSend.noConfusion) (by intro q h; cases h) (by intro s h; cases h)
    · exact k
  | await i =>
    simp only [AcnTable.step]
    split
    · next a hi =>
      exact k.send hi (by intro c; exact AcnSend.noConfusion)
        (by intro q h; exact k.acn a q (AcnSend.waiting.inj h)) (by intro s h; cases h)
    · exact k
  | take i =>
    simp only [AcnTable.step]
    split
    · next a q hi =>
      split
      · next o s rest hq =>
        obtain ⟨l, hl⟩ := k.waiting i a q hi
        rw [hl] at hq
        cases hq
        have k1 := k.chan hl (l' := rest) fun s' hs => k.chans q a _ hl s' (List.mem_cons_of_mem _ hs)
        exact k1.send (i := i) (a := a) hi (by intro c; exact AcnSend.noConfusion) (by intro q h; cases h)
          (by intro s' h; cases h; exact k.chans q a _ hl s List.mem_cons_self)
      · exact k
    · exact k
  | timeout i =>
    simp only [AcnTable.step]
    split
    · next a q hi =>
      exact k.send hi (by intro c; exact AcnSend.noConfusion) (by intro q h; cases h) (by intro s h; cases h)
    · exact k
  | answer c ok =>
    simp only [AcnTable.step]
    split
    · next a j rest hc hp =>
      have hj : g.target j = some a := by
        obtain ⟨b, h1, h2⟩ := k.pending c j (by rw [hp]; exact List.mem_cons_self)
        rw [hc] at h1
        cases h1
        exact h2
      have k' := k.conn (c := c) (p := .adding a (g.acn.get a) (some j, ok)) (by rw [hc]; exact fun b hb => hb) (by
        intro b q s h
        cases h
        exact ⟨fun j' hj' => by cases hj'; exact hj, fun q' hq => k.acn a q' hq⟩)
      refine ⟨k'.tcp, k'.acn, k'.chans, k'.found, k'.waiting, k'.acked, fun c' j' hj' => ?_, k'.adding⟩
      have hj' : j' ∈ (if c' = c then rest else g.pending c') := hj'
      split at hj'
      · next he => exact k'.pending c' j' (by rw [he, hp]; exact List.mem_cons_of_mem _ hj')
      · exact k'.pending c' j' hj'
    · exact k
  | stray c ok =>
    simp only [AcnTable.step]
    split
    · next a hc =>
      exact k.conn (by rw [hc]; exact fun b hb => hb) (by
        intro b q s h
        cases h
        exact ⟨fun j' hj' => absurd hj' (by simp), fun q' hq => k.acn a q' hq⟩)
    · exact k
  | put c =>
    simp only [AcnTable.step]
    split
    · next a q s hc =>
      split
      · next o l hq =>
        split
        · obtain ⟨h1, h2⟩ := k.adding c a (some q) s hc
          obtain ⟨l', hl⟩ := h2 q rfl
          rw [hl] at hq
          cases hq
          have k1 := k.chan hl (l' := l ++ [s]) (by
            intro s' hs
            rcases List.mem_append.1 hs with hs | hs
            · exact k.chans q a _ hl s' hs
            · rw [List.mem_singleton.1 hs]; exact h1)
          exact k1.conn (c := c) (p := .reading a)
            (by show ∀ b, (g.conns c).address = some b → _; rw [hc]; exact fun b hb => hb)
            (by intro _ _ _ h; cases h)
        · exact k
      · exact k
    · exact k
  | unlist c =>
    simp only [AcnTable.step]
    split
    · next a hc =>
      have k' := k.conn (c := c) (p := .ending a) (by rw [hc]; exact fun b hb => hb) (by intro _ _ _ h; cases h)
      refine ⟨fun b c' hb => ?_, k'.acn, k'.chans, k'.found, k'.waiting, k'.acked, k'.pending, k'.adding⟩
      rw [GoMap.get_erase] at hb
      split at hb
      · cases hb
      · exact k'.tcp b c' hb
    · exact k
  | unqueue c =>
    simp only [AcnTable.step]
    split
    · next a hc =>
      have k' := k.conn (c := c) (p := .gone a) (by rw [hc]; exact fun b hb => hb) (by intro _ _ _ h; cases h)
      refine ⟨k'.tcp, fun b q hq => ?_, k'.chans, k'.found, k'.waiting, k'.acked, k'.pending, k'.adding⟩
      rw [GoMap.get_erase] at hq
      split at hq
      · cases hq
      · exact k'.acn b q hq
    · exact k

theorem kept_run (ss : List AcnTableStep) : ∀ {g : AcnTable}, Kept g → Kept (g.run ss) := by
  induction ss with
  | nil => exact id
  | cons s ss ih => exact fun k => ih (k.step s)

end AcnTable

open AcnTable

/-- **C109, partial: the agent.** However the registrations, envelopes and answers of any number of clients are
interleaved, a status that a send takes answers an envelope to the same agent, if it answers one at all. Missing: that
it is the envelope of this send. -/
theorem C109_agent_partial (ss : List AcnTableStep) (i j : Nat) (a : Bytes) (ok : Bool)
    (h : (run .init ss).sends[i]? = some (a, .acked (some j, ok))) :
    ∃ x, (run .init ss).sends[j]? = some (a, x) := by
  have := (kept_run ss kept_init).acked i a _ h j rfl
  obtain ⟨⟨b, x⟩, hv, rfl⟩ := Option.map_eq_some_iff.1 this
  exact ⟨x, hv⟩

namespace AcnTable

/-- What holds if only connection `c` registers with address `a`. -/
structure Alone (a : Bytes) (c : Nat) (g : AcnTable) : Prop where
  others : ∀ c', c' ≠ c → (g.conns c').address ≠ some a
  reading : g.conns c = .reading a → (g.acn.get a).isSome
  adding : ∀ q s, g.conns c = .adding a q s → q.isSome ∧ (g.acn.get a).isSome

theorem Alone.set {a : Bytes} {c : Nat} {g : AcnTable} (h : Alone a c g) (c' : Nat) (p : AcnConn)
    (ho : c' ≠ c → p.address ≠ some a) (hr : c' = c → p = .reading a → (g.acn.get a).isSome)
    (hd : ∀ q s, c' = c → p = .adding a q s → q.isSome ∧ (g.acn.get a).isSome) : Alone a c { g with conns := g.setConn c' p } := by
  refine ⟨fun c'' hne => ?_, fun he => ?_, fun q s he => ?_⟩
  · by_cases hc : c'' = c'
    · subst hc; show (g.setConn c'' p c'').address ≠ _; rw [setConn_self]; exact ho hne
    · show (g.setConn c' p c'').address ≠ _; rw [setConn_ne g p hc]; exact h.others c'' hne
  · by_cases hc : c = c'
    · subst hc; exact hr rfl ((setConn_self g c p).symm.trans he)
    · exact h.reading ((setConn_ne g p hc).symm.trans he)
  · by_cases hc : c = c'
    · subst hc; exact hd q s rfl ((setConn_self g c p).symm.trans he)
    · exact h.adding q s ((setConn_ne g p hc).symm.trans he)

theorem Alone.step {a : Bytes} {c : Nat} {g : AcnTable} (h : Alone a c g) (s : AcnTableStep)
    (hs : ∀ c', s = .register c' a → c' = c) : Alone a c (g.step s) := by
  cases s with
  | register c' b =>
    simp only [AcnTable.step]
    split
    · refine h.set c' _ (fun hne he => ?_) (by intro _ h; cases h) (by intro _ _ _ h; cases h)
      cases he
      exact hne (hs c' rfl)
    · exact h
  | list c' =>
    simp only [AcnTable.step]
    split
    · next b hb =>
      have := h.set c' (.listed b) (fun hne he => h.others c' hne (by rw [hb]; exact he))
        (by intro _ h; cases h) (by intro _ _ _ h; cases h)
      exact ⟨this.others, this.reading, this.adding⟩
    · exact h
  | queue c' =>
    simp only [AcnTable.step]
    split
    · next b hb =>
      by_cases hc : c' = c
      · subst hc
        refine ⟨fun c'' hne => ?_, fun he => ?_, fun q s he => ?_⟩
        · show (g.setConn c' _ c'').address ≠ _; rw [setConn_ne g _ hne]; exact h.others c'' hne
        · have he : AcnConn.reading b = .reading a := (setConn_self g c' _).symm.trans he
          cases he
          show ((g.acn.set a _).get a).isSome = true
          rw [GoMap.get_set_self]; rfl
        · have he : AcnConn.reading b = .adding a q s := (setConn_self g c' _).symm.trans he
          cases he
      · have hba : b ≠ a := fun he => h.others c' hc (by rw [hb, he]; rfl)
        have := h.set c' (.reading b) (fun hne he => h.others c' hne (by rw [hb]; exact he))
          (fun hcc => absurd hcc hc) (fun _ _ hcc => absurd hcc hc)
        have hget : (g.acn.set b g.chans.length).get a = g.acn.get a := by
          rw [GoMap.get_set, if_neg (fun h => hba h.symm)]
        refine ⟨this.others, fun he => ?_, fun q s he => ?_⟩
        · show ((g.acn.set b g.chans.length).get a).isSome = true
          rw [hget]; exact this.reading he
        · show _ ∧ ((g.acn.set b g.chans.length).get a).isSome = true
          rw [hget]; exact this.adding q s he
    · exact h
  | unannounced c' =>
    simp only [AcnTable.step]
    split
    · next b hb =>
      exact h.set c' _ (fun hne he => h.others c' hne (by rw [hb]; exact he)) (by intro _ h; cases h)
        (by intro _ _ _ h; cases h)
    · exact h
  | route b => simp only [AcnTable.step]; split <;> exact ⟨h.others, h.reading, h.adding⟩
  | write i ok =>
    simp only [AcnTable.step]
    split
    · split <;> exact ⟨h.others, h.reading, h.adding⟩
    · exact h
  | await i => simp only [AcnTable.step]; split <;> exact ⟨h.others, h.reading, h.adding⟩
  | take i =>
    simp only [AcnTable.step]
    split
    · split <;> exact ⟨h.others, h.reading, h.adding⟩
    · exact h
  | timeout i => simp only [AcnTable.step]; split <;> exact ⟨h.others, h.reading, h.adding⟩
  | answer c' ok =>
    simp only [AcnTable.step]
    split
    · next b j rest hb hp =>
      have := h.set c' (.adding b (g.acn.get b) (some j, ok))
        (fun hne he => h.others c' hne (by rw [hb]; exact he)) (by intro _ h; cases h) (by
          intro q s hc he
          cases he
          subst hc
          exact ⟨h.reading hb, h.reading hb⟩)
      exact ⟨this.others, this.reading, this.adding⟩
    · exact h
  | stray c' ok =>
    simp only [AcnTable.step]
    split
    · next b hb =>
      exact h.set c' (.adding b (g.acn.get b) (none, ok))
        (fun hne he => h.others c' hne (by rw [hb]; exact he)) (by intro _ h; cases h) (by
          intro q s hc he
          cases he
          subst hc
          exact ⟨h.reading hb, h.reading hb⟩)
    · exact h
  | put c' =>
    simp only [AcnTable.step]
    split
    · next b q s hb =>
      split
      · split
        · have := h.set c' (.reading b) (fun hne he => h.others c' hne (by rw [hb]; exact he))
            (by
              intro hc he
              cases he
              subst hc
              exact (h.adding _ _ hb).2)
            (by intro _ _ _ h; cases h)
          exact ⟨this.others, this.reading, this.adding⟩
        · exact h
      · exact h
    · exact h
  | unlist c' =>
    simp only [AcnTable.step]
    split
    · next b hb =>
      have := h.set c' (.ending b) (fun hne he => h.others c' hne (by rw [hb]; exact he)) (by intro _ h; cases h)
        (by intro _ _ _ h; cases h)
      exact ⟨this.others, this.reading, this.adding⟩
    · exact h
  | unqueue c' =>
    simp only [AcnTable.step]
    split
    · next b hb =>
      by_cases hc : c' = c
      · subst hc
        refine ⟨fun c'' hne => ?_, fun he => ?_, fun q s he => ?_⟩
        · show (g.setConn c' _ c'').address ≠ _; rw [setConn_ne g _ hne]; exact h.others c'' hne
        · have he : AcnConn.gone b = .reading a := (setConn_self g c' _).symm.trans he
          cases he
        · have he : AcnConn.gone b = .adding a q s := (setConn_self g c' _).symm.trans he
          cases he
      · have hba : b ≠ a := fun he => h.others c' hc (by rw [hb, he]; rfl)
        have := h.set c' (.gone b) (fun hne he => h.others c' hne (by rw [hb]; exact he))
          (fun hcc => absurd hcc hc) (fun _ _ hcc => absurd hcc hc)
        have hget : (g.acn.erase b).get a = g.acn.get a := by
          rw [GoMap.get_erase, if_neg (fun h => hba h.symm)]
        refine ⟨this.others, fun he => ?_, fun q s he => ?_⟩
        · show ((g.acn.erase b).get a).isSome = true
          rw [hget]; exact this.reading he
        · show _ ∧ ((g.acn.erase b).get a).isSome = true
          rw [hget]; exact this.adding q s he
    · exact h

theorem alone_run {a : Bytes} {c : Nat} (ss : List AcnTableStep) (hs : ∀ c', .register c' a ∈ ss → c' = c) :
    ∀ {g : AcnTable}, Alone a c g → Alone a c (g.run ss) := by
  induction ss with
  | nil => exact id
  | cons s ss ih =>
    exact fun h => ih (fun c' hm => hs c' (List.mem_cons_of_mem _ hm)) (h.step s fun c' he => hs c' (by simp [he]))

theorem run_append (g : AcnTable) (ss ss' : List AcnTableStep) : g.run (ss ++ ss') = (g.run ss).run ss' := by
  simp [run, List.foldl_append]

end AcnTable

/-- **C109, partial: the handler.** If only one connection ever registers with an address, a status that its handler
has read can be put into a queue of this address, unless 1000 statuses wait in it, and then the handler reads on.
Missing: more than one connection. -/
theorem C109_handler_partial (ss : List AcnTableStep) (a : Bytes) (c : Nat)
    (hs : ∀ c', .register c' a ∈ ss → c' = c) (q : Option Nat) (s : AcnAnswer)
    (h : (run .init ss).conns c = .adding a q s) :
    ∃ q' l, q = some q' ∧ (run .init ss).chans[q']? = some (a, l) ∧
      (l.length < 1000 → (run .init (ss ++ [.put c])).conns c = .reading a ∧
        (run .init (ss ++ [.put c])).chans[q']? = some (a, l ++ [s])) := by
  have hal : Alone a c (run .init ss) :=
    alone_run ss hs ⟨fun c' _ h => absurd h (by simp [init, AcnConn.address]), fun h => absurd h (by simp [init]),
      fun q s h => absurd h (by simp [init])⟩
  obtain ⟨q', rfl⟩ := Option.isSome_iff_exists.1 (hal.adding q s h).1
  obtain ⟨l, hl⟩ := ((kept_run ss kept_init).adding c a _ s h).2 q' rfl
  refine ⟨q', l, rfl, hl, fun hlt => ?_⟩
  rw [AcnTable.run_append]
  show ((run .init ss).step (.put c)).conns c = _ ∧ ((run .init ss).step (.put c)).chans[q']? = _
  simp only [AcnTable.step, h, hl]
  rw [if_pos (show l.length < capacity from hlt)]
  exact ⟨setConn_self _ _ _, List.getElem?_set_self (List.getElem?_eq_some_iff.1 hl).1⟩

namespace AcnTable

/-- A handler that sends to no channel stays there. -/
theorem stuck_step {g : AcnTable} {c : Nat} {a : Bytes} {s : AcnAnswer} (h : g.conns c = .adding a none s)
    (st : AcnTableStep) : (g.step st).conns c = .adding a none s := by
  have other : ∀ c' p, g.conns c' ≠ .adding a none s → g.setConn c' p c = .adding a none s := by
    intro c' p hne
    rw [setConn_ne g p (fun he => hne (by rw [← he]; exact h))]
    exact h
  cases st <;> simp only [AcnTable.step] <;> repeat' split
  all_goals first
    | exact h
    | (apply other; simp_all)

theorem stuck_run {c : Nat} {a : Bytes} {s : AcnAnswer} (ss : List AcnTableStep) :
    ∀ {g : AcnTable}, g.conns c = .adding a none s → (g.run ss).conns c = .adding a none s := by
  induction ss with
  | nil => exact id
  | cons st ss ih => exact fun h => ih (stuck_step h st)

/-- A send that waits at a channel which nobody can put anything into. -/
structure Dead (q i : Nat) (a : Bytes) (g : AcnTable) : Prop where
  chan : g.chans[q]? = some (a, [])
  acn : ∀ b, g.acn.get b ≠ some q
  adding : ∀ c b s, g.conns c ≠ .adding b (some q) s
  send : g.sends[i]? = some (a, .waiting (some q)) ∨ g.sends[i]? = some (a, .failed)

theorem Dead.conn {q i : Nat} {a : Bytes} {g : AcnTable} (h : Dead q i a g) (c : Nat) (p : AcnConn)
    (hp : ∀ b s, p ≠ .adding b (some q) s) : Dead q i a { g with conns := g.setConn c p } := by
  refine ⟨h.chan, h.acn, fun c' b s => ?_, h.send⟩
  by_cases hc : c' = c
  · subst hc; show g.setConn c' p c' ≠ _; rw [setConn_self]; exact hp b s
  · show g.setConn c p c' ≠ _; rw [setConn_ne g p hc]; exact h.adding c' b s

theorem Dead.sends {q i : Nat} {a : Bytes} {g : AcnTable} (h : Dead q i a g) (j : Nat) (b : Bytes) (x y : AcnSend)
    (hj : g.sends[j]? = some (b, x)) (hx : ∀ r, x = .waiting r → y = .failed)
    (hf : x ≠ .failed) : Dead q i a { g with sends := g.sends.set j (b, y) } := by
  refine ⟨h.chan, h.acn, h.adding, ?_⟩
  show (g.sends.set j (b, y))[i]? = _ ∨ (g.sends.set j (b, y))[i]? = _
  by_cases hji : j = i
  · subst hji
    rw [List.getElem?_set_self (List.getElem?_eq_some_iff.1 hj).1]
    rcases h.send with hs | hs
    · rw [hj] at hs
      cases hs
      rw [hx _ rfl]
      exact .inr rfl
    · rw [hj] at hs
      cases hs
      exact absurd rfl hf
  · rw [List.getElem?_set, if_neg hji]
    exact h.send

theorem Dead.step {q i : Nat} {a : Bytes} {g : AcnTable} (h : Dead q i a g) (st : AcnTableStep) :
    Dead q i a (g.step st) := by
  have hq : q < g.chans.length := (List.getElem?_eq_some_iff.1 h.chan).1
  cases st with
  | register c b =>
    simp only [AcnTable.step]; split
    · exact h.conn c _ (by intro _ _ h; cases h)
    · exact h
  | list c =>
    simp only [AcnTable.step]; split
    · next b _ => have := h.conn c (.listed b) (by intro _ _ h; cases h); exact ⟨this.chan, this.acn, this.adding, this.send⟩
    · exact h
  | queue c =>
    simp only [AcnTable.step]; split
    · next b _ =>
      have := h.conn c (.reading b) (by intro _ _ h; cases h)
      refine ⟨?_, fun b' => ?_, this.adding, this.send⟩
      · show (g.chans ++ _)[q]? = _
        rw [List.getElem?_append_left hq]; exact h.chan
      · show (g.acn.set b g.chans.length).get b' ≠ some q
        rw [GoMap.get_set]
        split
        · intro he; cases he; omega
        · exact h.acn b'
    · exact h
  | unannounced c =>
    simp only [AcnTable.step]; split
    · exact h.conn c _ (by intro _ _ h; cases h)
    · exact h
  | route b =>
    simp only [AcnTable.step]; split
    · refine ⟨h.chan, h.acn, h.adding, ?_⟩
      rcases h.send with hs | hs
      · exact .inl (by rw [List.getElem?_append_left (List.getElem?_eq_some_iff.1 hs).1]; exact hs)
      · exact .inr (by rw [List.getElem?_append_left (List.getElem?_eq_some_iff.1 hs).1]; exact hs)
    · exact h
  | write j ok =>
    simp only [AcnTable.step]; split
    · next b c hj =>
      split
      · have := h.sends j b _ .written hj (by intro _ h; cases h) (by simp)
        exact ⟨this.chan, this.acn, this.adding, this.send⟩
      · exact h.sends j b _ _ hj (by intro _ h; cases h) (by simp)
    · exact h
  | await j =>
    simp only [AcnTable.step]; split
    · next b hj => exact h.sends j b _ _ hj (by intro _ h; cases h) (by simp)
    · exact h
  | take j =>
    simp only [AcnTable.step]; split
    · next b q' hj =>
      split
      · next o s rest hc =>
        have hne : q' ≠ q := by
          rintro rfl
          rw [h.chan] at hc
          cases hc
        have hij : j ≠ i := by
          rintro rfl
          rcases h.send with hs | hs
          · rw [hj] at hs; cases hs; exact hne rfl
          · rw [hj] at hs; cases hs
        refine ⟨?_, h.acn, h.adding, ?_⟩
        · show (g.chans.set q' _)[q]? = _
          rw [List.getElem?_set, if_neg hne]; exact h.chan
        · show (g.sends.set j _)[i]? = _ ∨ (g.sends.set j _)[i]? = _
          rw [List.getElem?_set, if_neg hij]; exact h.send
      · exact h
    · exact h
  | timeout j =>
    simp only [AcnTable.step]; split
    · next b r hj => exact h.sends j b _ _ hj (by intro _ _; rfl) (by simp)
    · exact h
  | answer c ok =>
    simp only [AcnTable.step]; split
    · next b j rest _ _ =>
      have := h.conn c (.adding b (g.acn.get b) (some j, ok)) (by
        intro b' s he
        exact h.acn b (AcnConn.adding.inj he).2.1)
      exact ⟨this.chan, this.acn, this.adding, this.send⟩
    · exact h
  | stray c ok =>
    simp only [AcnTable.step]; split
    · next b _ => exact h.conn c _ (by
        intro b' s he
        exact h.acn b (AcnConn.adding.inj he).2.1)
    · exact h
  | put c =>
    simp only [AcnTable.step]; split
    · next b q' s hc =>
      split
      · next o l hl =>
        split
        · have hne : q' ≠ q := by rintro rfl; exact h.adding c b s hc
          have := h.conn c (.reading b) (by intro _ _ h; cases h)
          refine ⟨?_, this.acn, this.adding, this.send⟩
          show (g.chans.set q' _)[q]? = _
          rw [List.getElem?_set, if_neg hne]; exact h.chan
        · exact h
      · exact h
    · exact h
  | unlist c =>
    simp only [AcnTable.step]; split
    · next b _ =>
      have := h.conn c (.ending b) (by intro _ _ h; cases h)
      exact ⟨this.chan, this.acn, this.adding, this.send⟩
    · exact h
  | unqueue c =>
    simp only [AcnTable.step]; split
    · next b _ =>
      have := h.conn c (.gone b) (by intro _ _ h; cases h)
      refine ⟨this.chan, fun b' => ?_, this.adding, this.send⟩
      show (g.acn.erase b).get b' ≠ some q
      rw [GoMap.get_erase]
      split
      · simp
      · exact h.acn b'
    · exact h

theorem dead_run {q i : Nat} {a : Bytes} (ss : List AcnTableStep) :
    ∀ {g : AcnTable}, Dead q i a g → Dead q i a (g.run ss) := by
  induction ss with
  | nil => exact id
  | cons st ss ih => exact fun h => ih (h.step st)

/-- A connection registers. -/
theorem run_connect {g : AcnTable} {c : Nat} {a : Bytes} (h : g.conns c = .fresh) :
    g.run [.register c a, .list c, .queue c] =
      { g with
        conns := g.setConn c (.reading a)
        tcp := g.tcp.set a c
        acn := g.acn.set a g.chans.length
        chans := g.chans ++ [(a, [])] } := by
  have e1 : g.step (.register c a) = { g with conns := g.setConn c (.accepted a) } := by
    simp only [AcnTable.step, h]
  have e2 : (g.step (.register c a)).step (.list c) =
      { g with conns := g.setConn c (.listed a), tcp := g.tcp.set a c } := by
    rw [e1]
    simp only [AcnTable.step, setConn_self, AcnTable.mk.injEq, and_true]
    funext c'
    simp only [setConn]
    split <;> rfl
  show ((g.step (.register c a)).step (.list c)).step (.queue c) = _
  rw [e2]
  simp only [AcnTable.step, setConn_self, AcnTable.mk.injEq, and_true]
  funext c'
  simp only [setConn]
  split <;> rfl

/-- An envelope is written. -/
theorem run_send {g : AcnTable} {c : Nat} {a : Bytes} (h : g.tcp.get a = some c) :
    g.run [.route a, .write g.sends.length true, .await g.sends.length] =
      { g with
        sends := g.sends ++ [(a, .waiting (g.acn.get a))]
        pending := g.setPending c (g.pending c ++ [g.sends.length]) } := by
  have e1 : g.step (.route a) = { g with sends := g.sends ++ [(a, .found c)] } := by
    simp only [AcnTable.step, h]
  have e2 : (g.step (.route a)).step (.write g.sends.length true) =
      { g with
        sends := g.sends ++ [(a, .written)]
        pending := g.setPending c (g.pending c ++ [g.sends.length]) } := by
    rw [e1]; simp [AcnTable.step]; rfl
  show ((g.step (.route a)).step (.write g.sends.length true)).step (.await g.sends.length) = _
  rw [e2]
  simp [AcnTable.step]

/-- A connection ends. -/
theorem run_leave {g : AcnTable} {c : Nat} {a : Bytes} (h : g.conns c = .reading a) :
    g.run [.unlist c, .unqueue c] =
      { g with conns := g.setConn c (.gone a), tcp := g.tcp.erase a, acn := g.acn.erase a } := by
  have e1 : g.step (.unlist c) = { g with conns := g.setConn c (.ending a), tcp := g.tcp.erase a } := by
    simp only [AcnTable.step, h]
  show (g.step (.unlist c)).step (.unqueue c) = _
  rw [e1]
  simp only [AcnTable.step, setConn_self, AcnTable.mk.injEq, and_true]
  funext c'
  simp only [setConn]
  split <;> rfl

/-- An agent connects again, gets an envelope on the new connection, and then the old connection ends before the
agent's answer is read. -/
def twice (a : Bytes) (c1 c2 : Nat) : List AcnTableStep :=
  [.register c1 a, .list c1, .queue c1, .register c2 a, .list c2, .queue c2, .route a, .write 0 true, .await 0,
    .unlist c1, .unqueue c1, .answer c2 true]

end AcnTable

/-- **C109 is false: two connections.** An agent connects again and the old connection ends after the new one has got
an envelope. The agent answers it. Then the handler of the new connection blocks for ever: whatever happens, it never
reads another message of the agent, and the send is not acknowledged. -/
theorem C109_stuck_counterexample (a : Bytes) (c1 c2 : Nat) (hne : c1 ≠ c2) (ss : List AcnTableStep) :
    (run .init (twice a c1 c2 ++ ss)).conns c2 = .adding a none (some 0, true) ∧
    ∀ s, (run .init (twice a c1 c2 ++ ss)).sends[0]? ≠ some (a, .acked s) := by
  have hne' : c2 ≠ c1 := fun h => hne h.symm
  rw [AcnTable.run_append]
  have e : run .init (twice a c1 c2) =
      { conns := fun c => if c = c2 then .adding a none (some 0, true) else if c = c1 then .gone a else .fresh
        tcp := ((GoMap.empty.set a c1).set a c2).erase a
        acn := ((GoMap.empty.set a 0).set a 1).erase a
        chans := [(a, []), (a, [])]
        sends := [(a, .waiting (some 1))]
        pending := fun _ => [] } := by
    show (((((run .init [.register c1 a, .list c1, .queue c1]).run [.register c2 a, .list c2, .queue c2]).run
      [.route a, .write 0 true, .await 0]).run [.unlist c1, .unqueue c1]).step (.answer c2 true)) = _
    rw [run_connect (g := .init) (c := c1) (a := a) rfl, run_connect (by simp [setConn, hne', init])]
    have e2 := run_send (c := c2) (a := a) (g :=
      { conns := fun c => if c = c2 then .reading a else if c = c1 then .reading a else .fresh
        tcp := (GoMap.empty.set a c1).set a c2
        acn := (GoMap.empty.set a 0).set a 1
        chans := [(a, []), (a, [])]
        sends := []
        pending := fun _ => [] }) (by simp)
    have e3 := run_leave (a := a) (c := c1) (g :=
      { conns := fun c => if c = c2 then .reading a else if c = c1 then .reading a else .fresh
        tcp := (GoMap.empty.set a c1).set a c2
        acn := (GoMap.empty.set a 0).set a 1
        chans := [(a, []), (a, [])]
        sends := [(a, .waiting (((GoMap.empty.set a 0).set a 1).get a))]
        pending := fun c => if c = c2 then [0] else [] }) (by simp [hne])
    refine (congrArg (fun g : AcnTable => (g.run [.unlist c1, .unqueue c1]).step (.answer c2 true)) e2).trans ?_
    refine (congrArg (fun g : AcnTable => g.step (.answer c2 true)) e3).trans ?_
    simp only [AcnTable.step, setConn, if_neg hne', if_pos]
    simp only [GoMap.get_set_self, GoMap.get_erase, if_pos, AcnTable.mk.injEq, true_and]
    refine ⟨?_, ?_⟩
    · funext c
      by_cases h1 : c = c2
      · simp [setConn, h1]
      · by_cases h3 : c = c1
        · simp [setConn, h3, hne]
        · simp [setConn, h1, h3]
    · funext c
      simp only [setPending]
      split <;> rfl
  have h1 : (run .init (twice a c1 c2)).conns c2 = .adding a none (some 0, true) := by rw [e]; simp
  have h2 : Dead 1 0 a (run .init (twice a c1 c2)) := by
    rw [e]
    refine ⟨rfl, fun b => ?_, fun c b s => ?_, .inl rfl⟩
    · show (((GoMap.empty.set a 0).set a 1).erase a).get b ≠ some 1
      rw [GoMap.get_erase, GoMap.get_set, GoMap.get_set]
      split
      · simp
      · simp
    · dsimp only
      split
      · simp
      · split <;> simp
  refine ⟨stuck_run ss h1, fun s hs => ?_⟩
  rcases (dead_run ss h2).send with h | h <;> rw [hs] at h <;> cases h

namespace AcnTable

/-- An envelope is written to a connection that has no queue yet, and answered. -/
def early (a : Bytes) (c : Nat) (b : Bool) : List AcnTableStep :=
  [.register c a, .list c, .route a, .write 0 true, .await 0, .queue c, .timeout 0, .answer c b, .put c]

/-- One more envelope, answered at once. -/
def another (a : Bytes) (c i : Nat) (b : Bool) : List AcnTableStep :=
  [.route a, .write i true, .await i, .take i, .answer c b, .put c]

/-- More envelopes. -/
def others (a : Bytes) (c : Nat) : Nat → List Bool → List AcnTableStep
  | _, [] => []
  | i, b :: bs => another a c i b ++ others a c (i + 1) bs

/-- One status is left over. -/
structure Behind (a : Bytes) (c n : Nat) (b : Bool) (g : AcnTable) : Prop where
  conn : g.conns c = .reading a
  tcp : g.tcp.get a = some c
  acn : g.acn.get a = some 0
  chans : g.chans = [(a, [(some n, b)])]
  sends : g.sends.length = n + 1
  pending : g.pending c = []

theorem behind_another {a : Bytes} {c n : Nat} {b : Bool} {g : AcnTable} (h : Behind a c n b g) (b' : Bool) :
    Behind a c (n + 1) b' (g.run (another a c (n + 1) b')) ∧
    (g.run (another a c (n + 1) b')).sends = g.sends ++ [(a, .acked (some n, b))] := by
  have h5 := h.sends
  have e1 : g.step (.route a) = { g with sends := g.sends ++ [(a, .found c)] } := by
    simp [AcnTable.step, h.tcp]
  have e2 : (g.step (.route a)).step (.write (n + 1) true) =
      { g with sends := g.sends ++ [(a, .written)], pending := g.setPending c [n + 1] } := by
    rw [e1]; simp [AcnTable.step, ← h5, h.pending]; rfl
  have e3 : ((g.step (.route a)).step (.write (n + 1) true)).step (.await (n + 1)) =
      { g with sends := g.sends ++ [(a, .waiting (some 0))], pending := g.setPending c [n + 1] } := by
    rw [e2]; simp [AcnTable.step, ← h5, h.acn]
  have e4 : (((g.step (.route a)).step (.write (n + 1) true)).step (.await (n + 1))).step (.take (n + 1)) =
      { g with
        sends := g.sends ++ [(a, .acked (some n, b))]
        pending := g.setPending c [n + 1]
        chans := [(a, [])] } := by
    rw [e3]; simp [AcnTable.step, ← h5, h.chans]
  have e6 : g.run (another a c (n + 1) b') =
      { g with
        conns := fun c' => if c' = c then .reading a else g.conns c'
        sends := g.sends ++ [(a, .acked (some n, b))]
        pending := fun c' => if c' = c then [] else g.pending c'
        chans := [(a, [(some (n + 1), b')])] } := by
    show (((((g.step (.route a)).step (.write (n + 1) true)).step (.await (n + 1))).step (.take (n + 1))).step
      (.answer c b')).step (.put c) = _
    rw [e4]
    simp [AcnTable.step, h.conn, h.acn, setPending, setConn, capacity]
    refine ⟨?_, ?_⟩ <;> funext c' <;> simp only [setConn, setPending] <;> split <;> rfl
  rw [e6]
  exact ⟨⟨by simp, h.tcp, h.acn, rfl, by simp [h5], by simp⟩, rfl⟩

theorem behind_others {a : Bytes} {c : Nat} (bs : List Bool) : ∀ {n : Nat} {b : Bool} {g : AcnTable},
    Behind a c n b g → ∀ k, k < bs.length → ∃ b', (b :: bs)[k]? = some b' ∧
      (g.run (others a c (n + 1) bs)).sends[n + 1 + k]? = some (a, .acked (some (n + k), b')) := by
  have keep : ∀ (bs : List Bool) {n : Nat} {b : Bool} {g : AcnTable}, Behind a c n b g →
      ∃ l, (g.run (others a c (n + 1) bs)).sends = g.sends ++ l := by
    intro bs
    induction bs with
    | nil => exact fun _ => ⟨[], by simp [others, run]⟩
    | cons b1 bs ih =>
      intro n b g h
      obtain ⟨h1, h2⟩ := behind_another h b1
      obtain ⟨l, hl⟩ := ih h1
      refine ⟨(a, .acked (some n, b)) :: l, ?_⟩
      rw [others, AcnTable.run_append, hl, h2]
      simp
  induction bs with
  | nil => intro n b g h k hk; cases hk
  | cons b1 bs ih =>
    intro n b g h k hk
    obtain ⟨h1, h2⟩ := behind_another h b1
    rw [others, AcnTable.run_append]
    cases k with
    | zero =>
      obtain ⟨l, hl⟩ := keep bs h1
      refine ⟨b, rfl, ?_⟩
      rw [hl, h2, Nat.add_zero, ← h.sends]
      simp
    | succ k =>
      obtain ⟨b', e1, e2⟩ := ih h1 k (by simpa using hk)
      refine ⟨b', e1, ?_⟩
      rw [show n + 1 + (k + 1) = n + 1 + 1 + k by omega, show n + (k + 1) = n + 1 + k by omega]
      exact e2

end AcnTable

/-- **C109 is false: one connection.** An envelope that is written to a client between the two sections of its
registration waits at no queue: it is reported as failed after 5 s although the client answers it, and from then on
every send to this client, however many there are, is reported with the answer to the one before it. -/
theorem C109_early_counterexample (a : Bytes) (c : Nat) (b : Bool) (bs : List Bool) (k : Nat) (hk : k < bs.length) :
    ∃ b', (b :: bs)[k]? = some b' ∧
      (run .init (early a c b ++ others a c 1 bs)).sends[k + 1]? = some (a, .acked (some k, b')) := by
  rw [AcnTable.run_append]
  have h : Behind a c 0 b (run .init (early a c b)) := by
    constructor <;> simp [early, run, AcnTable.step, setConn, setPending, init, capacity]
  obtain ⟨b', h1, h2⟩ := behind_others bs h k hk
  exact ⟨b', h1, by simpa [Nat.add_comm] using h2⟩

/-- The first of these sends is reported as failed. -/
theorem C109_first_counterexample (a : Bytes) (c : Nat) (b : Bool) :
    (run .init (early a c b)).sends[0]? = some (a, .failed) ∧
    (run .init (early a c b)).chans = [(a, [(some 0, b)])] := by
  constructor <;> simp [early, run, AcnTable.step, setConn, setPending, init, capacity]

namespace AcnTableDemo

/-- An envelope and its answer, without trouble. -/
example : (run .init [.register 3 (b! "a"), .list 3, .queue 3, .route (b! "a"), .write 0 true, .await 0, .answer 3 true,
    .put 3, .take 0]).sends = [(b! "a", .acked (some 0, true))] := by decide

/-- The second send is reported as a success although the client refused its envelope. -/
example : (run .init (early (b! "a") 3 true ++ others (b! "a") 3 1 [false])).sends =
    [(b! "a", .failed), (b! "a", .acked (some 0, true))] := by decide

/-- The handler of `C109_handler_partial`. -/
example : ∃ q' l, some 0 = some q' ∧
    (run .init [.register 3 (b! "a"), .list 3, .queue 3, .stray 3 false]).chans[q']? = some (b! "a", l) ∧
    l.length < 1000 :=
  ⟨0, [], rfl, by decide, by decide⟩

end AcnTableDemo

end Verif
