import Verif.Model.NotifGate

/-!
# C65, C66: every client of a peer that has joined the network is announced; waiting for notifications
-/

namespace Verif

/-- A notification that has announced the clients of the kind but not yet enabled announcements. -/
def NotifPc.between : ClientKind → NotifPc → Bool
  | .delegate, .looped => true
  | .relay, .relaysDone => true
  | .relay, .looped => true
  | _, _ => false

/-- What is known of the address of a registration: `a` it has been announced, `d` no notification is in
between, `e` announcements are disabled. -/
def RowOk (a d e : Prop) : RegPc → Prop
  | .start => False
  | .asking => True
  | .waiting => True
  | .woken => True
  | .passed => a ∨ d
  | .checked true => True
  | .checked false => a ∨ (d ∧ e)
  | .finished => a ∨ (d ∧ e)

theorem RowOk.mono {a d e a' d' e' : Prop} {pc : RegPc} (h : RowOk a d e pc) (h1 : a ∨ d → a' ∨ d')
    (h2 : a ∨ (d ∧ e) → a' ∨ (d' ∧ e')) : RowOk a' d' e' pc := by
  cases pc with
  | start => exact h
  | asking => trivial
  | waiting => trivial
  | woken => trivial
  | passed => exact h1 h
  | finished => exact h2 h
  | checked b => cases b with
    | true => trivial
    | false => exact h2 h

theorem RowOk.all {a d e : Prop} {pc : RegPc} (h : a) (hp : pc ≠ .start) : RowOk a d e pc := by
  cases pc with
  | start => exact absurd rfl hp
  | asking => trivial
  | waiting => trivial
  | woken => trivial
  | passed => exact .inl h
  | finished => exact .inl h
  | checked b => cases b with
    | true => trivial
    | false => exact .inl h

theorem RowOk.notStart {a d e : Prop} {pc : RegPc} (h : RowOk a d e pc) : pc ≠ .start := by
  intro hp; rw [hp] at h; exact h

namespace Gate

/-- No notification is in between for the kind. -/
def Calm (g : Gate) (k : ClientKind) : Prop := ∀ n ∈ g.notifs, n.between k = false

/-- The kinds for which announcing is right: relay clients only without entry peers. -/
def Covered (entry : Bool) (k : ClientKind) : Prop := k = .delegate ∨ (k = .relay ∧ entry = false)

/-- The invariant. -/
structure Inv (entry : Bool) (g : Gate) : Prop where
  boot : g.boot = .ready ∨ (entry = true ∧ ∀ r ∈ g.regs, r.kind = .relay)
  sleep : g.idle = true → g.sleepers = false
  rows : ∀ k a i, (k, a, i) ∈ g.table → Covered entry k → ∃ r, g.regs[i]? = some r ∧ r.kind = k ∧
    r.addr = a ∧ RowOk (a ∈ g.attempted) (g.Calm k) (g.enabled = false) r.pc
  own : entry = false → (g.enabled = true → g.ownDone = true) ∧
    ∀ n ∈ g.notifs, n = .ownDone ∨ n = .relaysDone ∨ n = .looped ∨ n = .opened → g.ownDone = true

theorem inv_init (entry : Bool) : Inv entry (init entry) where
  boot := by cases entry <;> simp [init]
  sleep := by intro _; rfl
  rows := by intro k a i h; cases h
  own := by intro _; exact ⟨by simp [init], by intro n h; cases h⟩

theorem idle_calm {g : Gate} (h : g.idle = true) (k : ClientKind) : g.Calm k := by
  intro n hn
  have := List.all_eq_true.1 h n hn
  cases n <;> cases k <;> simp_all [NotifPc.counted, NotifPc.between]

/-- Changing the place of a registration that is neither asleep before nor after. -/
theorem inv_setReg {entry : Bool} {g : Gate} (hi : Inv entry g) {i : Nat} {r : GateReg} (hr : g.regs[i]? = some r)
    {pc : RegPc} (hs : pc = .waiting → g.idle = false) (hpc : ∀ k a, (k, a, i) ∈ g.table → Covered entry k →
      RowOk (a ∈ g.attempted) (g.Calm k) (g.enabled = false) r.pc →
      RowOk (a ∈ g.attempted) (g.Calm k) (g.enabled = false) pc) :
    Inv entry (g.setReg i r pc) where
  boot := by
    rcases hi.boot with h | ⟨h1, h2⟩
    · exact .inl h
    · refine .inr ⟨h1, ?_⟩
      intro x hx
      rcases List.mem_or_eq_of_mem_set hx with hx | rfl
      · exact h2 x hx
      · exact h2 r (List.mem_of_getElem? hr)
  sleep := by
    intro hid
    have h0 := hi.sleep hid
    unfold sleepers at h0 ⊢
    rw [List.any_eq_false] at h0 ⊢
    intro x hx
    rcases List.mem_or_eq_of_mem_set hx with hx | rfl
    · exact h0 x hx
    · intro hw
      simp only [beq_iff_eq] at hw
      have := hs hw
      rw [show g.idle = true from hid] at this
      cases this
  rows := by
    intro k a i' hrow hc
    obtain ⟨r', h1, h2, h3, h4⟩ := hi.rows k a i' hrow hc
    by_cases he : i' = i
    · subst he
      rw [hr] at h1
      have h1 := Option.some.inj h1
      subst h1
      refine ⟨{ r with pc := pc }, ?_, h2, h3, hpc k a hrow hc h4⟩
      have := (List.getElem?_eq_some_iff.1 hr).1
      simp [setReg, this]
    · refine ⟨r', ?_, h2, h3, h4⟩
      simp only [setReg]
      rw [List.getElem?_set_ne (Ne.symm he)]
      exact h1
  own := hi.own

theorem inv_insert_mailbox {entry : Bool} {g : Gate} (hi : Inv entry g) (a : Bytes) (i : Nat) :
    Inv entry (g.insert .mailbox a i) where
  boot := hi.boot
  sleep := hi.sleep
  rows := by
    intro k b i' hrow hc
    simp only [insert, List.mem_cons, Prod.mk.injEq, List.mem_filter] at hrow
    rcases hrow with ⟨rfl, _, _⟩ | ⟨hrow, _⟩
    · rcases hc with h | ⟨h, _⟩ <;> cases h
    · exact hi.rows k b i' hrow hc
  own := hi.own

theorem inv_attempt {entry : Bool} {g : Gate} (hi : Inv entry g) (l : List Bytes) :
    Inv entry { g with attempted := l ++ g.attempted } where
  boot := hi.boot
  sleep := hi.sleep
  rows := by
    intro k a i hrow hc
    obtain ⟨r, h1, h2, h3, h4⟩ := hi.rows k a i hrow hc
    refine ⟨r, h1, h2, h3, h4.mono ?_ ?_⟩
    · rintro (h | h)
      · exact .inl (List.mem_append_right _ h)
      · exact .inr h
    · rintro (h | h)
      · exact .inl (List.mem_append_right _ h)
      · exact .inr h
  own := hi.own

theorem inv_insert {entry : Bool} {g : Gate} (hi : Inv entry g) {i : Nat} {r : GateReg} (hr : g.regs[i]? = some r) :
    Inv entry ((g.insert r.kind r.addr i).setReg i r .asking) where
  boot := by
    rcases hi.boot with h | ⟨h1, h2⟩
    · exact .inl h
    · refine .inr ⟨h1, ?_⟩
      intro x hx
      rcases List.mem_or_eq_of_mem_set hx with hx | rfl
      · exact h2 x hx
      · exact h2 r (List.mem_of_getElem? hr)
  sleep := by
    intro hid
    have h0 := hi.sleep hid
    unfold sleepers at h0 ⊢
    rw [List.any_eq_false] at h0 ⊢
    intro x hx
    rcases List.mem_or_eq_of_mem_set hx with hx | rfl
    · exact h0 x hx
    · simp
  rows := by
    intro k a i' hrow hc
    have hlt := (List.getElem?_eq_some_iff.1 hr).1
    have hnew : ((g.insert r.kind r.addr i).setReg i r .asking).regs[i]? = some { r with pc := .asking } := by
      simp [setReg, insert, hlt]
    simp only [setReg, insert, List.mem_cons, Prod.mk.injEq, List.mem_filter] at hrow
    rcases hrow with ⟨rfl, rfl, rfl⟩ | ⟨hrow, _⟩
    · exact ⟨_, hnew, rfl, rfl, trivial⟩
    · obtain ⟨r', h1, h2, h3, h4⟩ := hi.rows k a i' hrow hc
      by_cases he : i' = i
      · subst he
        rw [hr] at h1
        have h1 := Option.some.inj h1
        subst h1
        exact ⟨_, hnew, h2, h3, trivial⟩
      · refine ⟨r', ?_, h2, h3, h4⟩
        simp only [setReg, insert]
        rw [List.getElem?_set_ne (Ne.symm he)]
        exact h1
  own := hi.own

theorem inv_regStep {entry : Bool} {g : Gate} (hi : Inv entry g) {i : Nat} {r : GateReg} (hr : g.regs[i]? = some r) :
    Inv entry (g.regStep i r) := by
  have hrow : ∀ k a, (k, a, i) ∈ g.table → Covered entry k →
      RowOk (a ∈ g.attempted) (g.Calm k) (g.enabled = false) r.pc ∧ r.kind = k ∧ r.addr = a := by
    intro k a h hc
    obtain ⟨r', h1, h2, h3, h4⟩ := hi.rows k a i h hc
    rw [hr] at h1
    have h1 := Option.some.inj h1
    subst h1
    exact ⟨h4, h2, h3⟩
  unfold regStep
  cases hpc : r.pc with
  | start =>
    dsimp only
    split
    · refine inv_setReg hi hr (by simp) ?_
      intro k a h hc _
      trivial
    · exact inv_insert hi hr
  | asking =>
    dsimp only
    cases hid : g.idle with
    | true =>
      simp only [if_true]
      refine inv_setReg hi hr (by simp) ?_
      intro k a _ _ _
      exact .inr (idle_calm hid k)
    | false =>
      simp only [Bool.false_eq_true, if_false]
      exact inv_setReg hi hr (fun _ => hid) (fun _ _ _ _ _ => trivial)
  | waiting => exact hi
  | woken =>
    dsimp only
    split
    · rename_i h
      simp only [Bool.and_eq_true] at h
      refine inv_setReg hi hr (by simp) ?_
      intro k a _ _ _
      exact .inr (idle_calm h.1 k)
    · exact ⟨hi.boot, hi.sleep, hi.rows, hi.own⟩
  | passed =>
    dsimp only
    refine inv_setReg hi hr (by simp) ?_
    intro k a _ _ h
    rw [hpc] at h
    cases he : g.enabled with
    | true => trivial
    | false =>
      rcases h with h | h
      · exact .inl h
      · exact .inr ⟨h, rfl⟩
  | checked saw =>
    dsimp only
    cases saw with
    | false =>
      simp only [Bool.false_eq_true, if_false]
      split
      · refine inv_setReg (inv_insert_mailbox hi _ _) hr (by simp) ?_
        intro k a _ _ h
        rw [hpc] at h
        exact h
      · refine inv_setReg hi hr (by simp) ?_
        intro k a _ _ h
        rw [hpc] at h
        exact h
    | true =>
      simp only [if_true]
      have hi' := inv_attempt hi [r.addr]
      split
      · rename_i hk
        refine inv_setReg (inv_insert_mailbox hi' _ _) hr (by simp) ?_
        intro k a h hc _
        exfalso
        simp only [insert, List.mem_cons, Prod.mk.injEq, List.mem_filter] at h
        have hcov : ¬ Covered entry .mailbox := by rintro (h | ⟨h, _⟩) <;> cases h
        rcases h with ⟨rfl, _, _⟩ | ⟨h, _⟩
        · exact hcov hc
        · have := (hrow k a h hc).2.1
          rw [hk] at this
          rw [← this] at hc
          exact hcov hc
      · refine inv_setReg hi' hr (by simp) ?_
        intro k a h hc _
        have := (hrow k a h hc).2.2
        exact .inl (by simp [this])
  | finished => exact hi

/-- Changing the place of a notification, with other changes that keep the rows. -/
theorem inv_setNotif {entry : Bool} {g g' : Gate} (hi : Inv entry g) {j : Nat} {x : NotifPc}
    (hb : g'.boot = g.boot) (hr : g'.regs = g.regs) (ht : g'.table = g.table)
    (hn : g'.notifs = g.notifs.set j x) (hx : x.counted = true)
    (hrows : ∀ k a i r, (k, a, i) ∈ g.table → Covered entry k → g.regs[i]? = some r → r.kind = k → r.addr = a →
      RowOk (a ∈ g.attempted) (g.Calm k) (g.enabled = false) r.pc →
      RowOk (a ∈ g'.attempted) (g'.Calm k) (g'.enabled = false) r.pc)
    (hlen : j < g.notifs.length)
    (hown : entry = false → (g'.enabled = true → g'.ownDone = true) ∧
      ∀ n ∈ g'.notifs, n = .ownDone ∨ n = .relaysDone ∨ n = .looped ∨ n = .opened → g'.ownDone = true) :
    Inv entry g' where
  boot := by rw [hb, hr]; exact hi.boot
  sleep := by
    intro hid
    exfalso
    unfold idle at hid
    rw [hn, List.all_eq_true] at hid
    have := hid x (List.mem_set hlen x)
    rw [hx] at this
    cases this
  rows := by
    intro k a i h hc
    rw [ht] at h
    obtain ⟨r, h1, h2, h3, h4⟩ := hi.rows k a i h hc
    rw [hr]
    exact ⟨r, h1, h2, h3, hrows k a i r h hc h1 h2 h3 h4⟩
  own := hown

theorem calm_set {g g' : Gate} {k : ClientKind} {j : Nat} {x : NotifPc} (h : g.Calm k)
    (hn : g'.notifs = g.notifs.set j x) (hx : x.between k = false) : g'.Calm k := by
  intro n hm
  rw [hn] at hm
  rcases List.mem_or_eq_of_mem_set hm with hm | rfl
  · exact h n hm
  · exact hx

/-- `Done` at the end of a notification. -/
theorem inv_end {entry : Bool} {g : Gate} (hi : Inv entry g) (j : Nat) :
    Inv entry ({ g with notifs := g.notifs.set j .ended }.wake) := by
  have hcalm : ∀ k, g.Calm k → Calm { g with notifs := g.notifs.set j .ended } k := by
    intro k h
    exact calm_set h rfl (by cases k <;> rfl)
  have hown : entry = false → (g.enabled = true → g.ownDone = true) ∧
      ∀ n ∈ g.notifs.set j .ended, n = .ownDone ∨ n = .relaysDone ∨ n = .looped ∨ n = .opened →
        g.ownDone = true := by
    intro he
    obtain ⟨h1, h2⟩ := hi.own he
    refine ⟨h1, ?_⟩
    intro n hn hcase
    rcases List.mem_or_eq_of_mem_set hn with hn | rfl
    · exact h2 n hn hcase
    · simp at hcase
  unfold wake
  split
  · rename_i hid
    refine ⟨?_, ?_, ?_, hown⟩
    · rcases hi.boot with h | ⟨h1, h2⟩
      · exact .inl h
      · refine .inr ⟨h1, ?_⟩
        intro x hx
        simp only [List.mem_map] at hx
        obtain ⟨y, hy, rfl⟩ := hx
        have := h2 y hy
        split
        · exact this
        · exact this
    · intro _
      unfold sleepers
      rw [List.any_eq_false]
      intro x hx
      simp only [List.mem_map] at hx
      obtain ⟨y, hy, rfl⟩ := hx
      split
      · simp
      · rename_i hne; simpa using hne
    · intro k a i hrow hcv
      obtain ⟨r, h1, h2, h3, h4⟩ := hi.rows k a i hrow hcv
      refine ⟨if r.pc = .waiting then { r with pc := .woken } else r, ?_, ?_, ?_, ?_⟩
      · simp [h1]
      · split <;> exact h2
      · split <;> exact h3
      · split
        · trivial
        · exact h4.mono (fun h => h.imp id (hcalm k)) (fun h => h.imp id (fun ⟨x, y⟩ => ⟨hcalm k x, y⟩))
  · rename_i hid
    refine ⟨hi.boot, fun h => absurd h hid, ?_, hown⟩
    intro k a i hrow hcv
    obtain ⟨r, h1, h2, h3, h4⟩ := hi.rows k a i hrow hcv
    exact ⟨r, h1, h2, h3, h4.mono (fun h => h.imp id (hcalm k))
      (fun h => h.imp id (fun ⟨x, y⟩ => ⟨hcalm k x, y⟩))⟩

theorem inv_notifStep {entry : Bool} {g : Gate} (hi : Inv entry g) {j : Nat} {pc : NotifPc}
    (hj : g.notifs[j]? = some pc) (ok : Bool) : Inv entry (g.notifStep j pc ok) := by
  have hlen := (List.getElem?_eq_some_iff.1 hj).1
  have hmem := List.mem_of_getElem? hj
  have howned : entry = false → ∀ x : NotifPc,
      (x = .ownDone ∨ x = .relaysDone ∨ x = .looped ∨ x = .opened → g.ownDone = true) →
      ∀ n ∈ g.notifs.set j x, n = .ownDone ∨ n = .relaysDone ∨ n = .looped ∨ n = .opened →
        g.ownDone = true := by
    intro he x hx n hn hcase
    rcases List.mem_or_eq_of_mem_set hn with hn | rfl
    · exact (hi.own he).2 n hn hcase
    · exact hx hcase
  have keep : ∀ (x : NotifPc) (g' : Gate), g'.notifs = g.notifs.set j x → g'.enabled = g.enabled →
      (∀ k, x.between k = false) → (∀ a, a ∈ g.attempted → a ∈ g'.attempted) →
      ∀ k a i r, (k, a, i) ∈ g.table → Covered entry k → g.regs[i]? = some r → r.kind = k → r.addr = a →
      RowOk (a ∈ g.attempted) (g.Calm k) (g.enabled = false) r.pc →
      RowOk (a ∈ g'.attempted) (g'.Calm k) (g'.enabled = false) r.pc := by
    intro x g' hn he hb ha k a i r _ _ _ _ _ h
    rw [he]
    exact h.mono (fun h => h.imp (ha a) (fun h => calm_set h hn (hb k)))
      (fun h => h.imp (ha a) (fun ⟨y, z⟩ => ⟨calm_set y hn (hb k), z⟩))
  unfold notifStep
  cases pc with
  | start =>
    dsimp only
    refine inv_setNotif (g' := { g with notifs := g.notifs.set j .added }) hi rfl rfl rfl rfl rfl
      (keep .added _ rfl rfl (by intro k; cases k <;> rfl) (fun _ h => h)) hlen ?_
    intro he
    exact ⟨(hi.own he).1, howned he .added (by simp)⟩
  | added =>
    dsimp only
    cases ok with
    | false => exact inv_end hi j
    | true =>
      simp only [if_true]
      refine inv_setNotif (g' := { g with notifs := g.notifs.set j .ownDone, ownDone := true }) hi rfl rfl rfl rfl rfl
        (keep .ownDone _ rfl rfl (by intro k; cases k <;> rfl) (fun _ h => h)) hlen ?_
      intro _
      exact ⟨fun _ => rfl, fun _ _ _ => rfl⟩
  | ownDone =>
    dsimp only
    refine inv_setNotif (g' := { g.announceAll .relay with notifs := g.notifs.set j .relaysDone })
      hi rfl rfl rfl rfl rfl ?_ hlen ?_
    · intro k a i r hrow hc _ hk _ h
      rcases hc with rfl | ⟨rfl, _⟩
      · exact h.mono (fun h => h.imp (fun h => List.mem_append_right _ h) (fun h => calm_set h rfl rfl))
          (fun h => h.imp (fun h => List.mem_append_right _ h) (fun ⟨y, z⟩ => ⟨calm_set y rfl rfl, z⟩))
      · refine RowOk.all ?_ h.notStart
        refine List.mem_append_left _ ?_
        simp only [List.mem_map, List.mem_filter]
        exact ⟨_, ⟨hrow, by simp⟩, rfl⟩
    · intro he
      exact ⟨(hi.own he).1, howned he .relaysDone (fun _ => (hi.own he).2 _ hmem (.inl rfl))⟩
  | relaysDone =>
    dsimp only
    refine inv_setNotif (g' := { g.announceAll .delegate with notifs := g.notifs.set j .looped })
      hi rfl rfl rfl rfl rfl ?_ hlen ?_
    · intro k a i r hrow hc _ hk _ h
      rcases hc with rfl | ⟨rfl, _⟩
      · refine RowOk.all ?_ h.notStart
        refine List.mem_append_left _ ?_
        simp only [List.mem_map, List.mem_filter]
        exact ⟨_, ⟨hrow, by simp⟩, rfl⟩
      · have hno : ¬ g.Calm .relay := fun hc => by have := hc _ hmem; cases this
        exact h.mono
          (fun h => h.elim (fun h => .inl (List.mem_append_right _ h)) (fun h => absurd h hno))
          (fun h => h.elim (fun h => .inl (List.mem_append_right _ h)) (fun h => absurd h.1 hno))
    · intro he
      exact ⟨(hi.own he).1, howned he .looped (fun _ => (hi.own he).2 _ hmem (.inr (.inl rfl)))⟩
  | looped =>
    dsimp only
    refine inv_setNotif (g' := { g with notifs := g.notifs.set j .opened, enabled := true })
      hi rfl rfl rfl rfl rfl ?_ hlen ?_
    · intro k a i r hrow hc _ hk _ h
      have hno : ¬ g.Calm k := by
        intro hcalm
        have := hcalm _ hmem
        rcases hc with rfl | ⟨rfl, _⟩ <;> cases this
      exact h.mono
        (fun h => h.elim (fun h => .inl h) (fun h => absurd h hno))
        (fun h => h.elim (fun h => .inl h) (fun h => absurd h.1 hno))
    · intro he
      have := (hi.own he).2 _ hmem (.inr (.inr (.inl rfl)))
      exact ⟨fun _ => this, howned he .opened (fun _ => this)⟩
  | opened => exact inv_end hi j
  | ended => exact hi

theorem inv_step {entry : Bool} {g : Gate} (hi : Inv entry g) (s : GateStep) : Inv entry (g.step s) := by
  unfold step
  split
  · exact hi
  cases s with
  | newReg k a =>
    dsimp only
    split
    · rename_i hk
      refine ⟨?_, ?_, ?_, hi.own⟩
      · rcases hi.boot with h | ⟨h1, h2⟩
        · exact .inl h
        · rcases hk with rfl | hk
          · refine .inr ⟨h1, ?_⟩
            intro x hx
            rcases List.mem_append.1 hx with hx | hx
            · exact h2 x hx
            · rw [List.mem_singleton.1 hx]
          · exact .inl hk
      · intro hid
        have := hi.sleep hid
        unfold sleepers at this ⊢
        rw [List.any_append, this]
        rfl
      · intro k' a' i hrow hc
        obtain ⟨r, h1, h2, h3, h4⟩ := hi.rows k' a' i hrow hc
        refine ⟨r, ?_, h2, h3, h4⟩
        rw [List.getElem?_append_left (List.getElem?_eq_some_iff.1 h1).1]
        exact h1
    · exact hi
  | reg i =>
    dsimp only
    split
    · exact hi
    · rename_i r hr
      exact inv_regStep hi hr
  | newNotif =>
    have hcalm : ∀ k, g.Calm k → Calm { g with notifs := g.notifs ++ [.start] } k := by
      intro k h n hn
      rcases List.mem_append.1 hn with hn | hn
      · exact h n hn
      · rw [List.mem_singleton.1 hn]; cases k <;> rfl
    refine ⟨hi.boot, ?_, ?_, ?_⟩
    · intro hid
      refine hi.sleep ?_
      unfold idle at hid ⊢
      rw [List.all_append, Bool.and_eq_true] at hid
      exact hid.1
    · intro k a i hrow hc
      obtain ⟨r, h1, h2, h3, h4⟩ := hi.rows k a i hrow hc
      exact ⟨r, h1, h2, h3, h4.mono (fun h => h.imp id (hcalm k))
        (fun h => h.imp id (fun ⟨x, y⟩ => ⟨hcalm k x, y⟩))⟩
    · intro he
      refine ⟨(hi.own he).1, ?_⟩
      intro n hn hcase
      rcases List.mem_append.1 hn with hn | hn
      · exact (hi.own he).2 n hn hcase
      · rw [List.mem_singleton.1 hn] at hcase
        simp at hcase
  | notif j ok =>
    dsimp only
    split
    · exact hi
    · rename_i pc hj
      exact inv_notifStep hi hj ok
  | leave i =>
    dsimp only
    split
    · refine ⟨hi.boot, hi.sleep, ?_, hi.own⟩
      intro k b i' hrow hc
      exact hi.rows k b i' (List.mem_filter.1 hrow).1 hc
    · exact hi
  | boot =>
    dsimp only
    have hnone : g.boot ≠ .ready → ∀ k a i, (k, a, i) ∈ g.table → Covered entry k → False := by
      intro hb k a i hrow hc
      rcases hi.boot with h | ⟨he, hall⟩
      · exact hb h
      · obtain ⟨r, h1, h2, _⟩ := hi.rows k a i hrow hc
        have := hall r (List.mem_of_getElem? h1)
        rw [h2] at this
        rcases hc with rfl | ⟨_, hf⟩
        · cases this
        · rw [he] at hf; cases hf
    have hentry : g.boot ≠ .ready → entry ≠ false := by
      intro hb he
      rcases hi.boot with h | ⟨h, _⟩
      · exact hb h
      · rw [he] at h; cases h
    split
    · rename_i hb
      have hb' : g.boot ≠ .ready := by rw [hb]; simp
      refine ⟨?_, hi.sleep, ?_, fun he => absurd he (hentry hb')⟩
      · rcases hi.boot with h | h
        · exact absurd h hb'
        · exact .inr h
      · intro k a i hrow hc
        exact (hnone hb' k a i hrow hc).elim
    · rename_i hb
      have hb' : g.boot ≠ .ready := by rw [hb]; simp
      refine ⟨.inl rfl, hi.sleep, ?_, fun he => absurd he (hentry hb')⟩
      intro k a i hrow hc
      exact (hnone hb' k a i hrow hc).elim
    · exact hi

theorem inv_run {entry : Bool} {g : Gate} (hi : Inv entry g) (ss : List GateStep) : Inv entry (g.run ss) := by
  induction ss generalizing g with
  | nil => exact hi
  | cons s ss ih => exact ih (inv_step hi s)

end Gate

/-! ## The property -/

/-- **C65, partial.** In every execution: when announcements are enabled, every delegate client in the table
whose registration is over has been announced, whatever the order in which registrations, notifications and
the start of the peer took their steps. The same for relay clients, if the peer was started without entry
peers. Missing from the property: mailbox clients, and relay clients that register while the peer starts. -/
theorem C65_announced_partial (entry : Bool) (ss : List GateStep) {k : ClientKind} {a : Bytes} {i : Nat}
    {r : GateReg} (hk : k = .delegate ∨ (k = .relay ∧ entry = false))
    (he : ((Gate.init entry).run ss).enabled = true) (hrow : (k, a, i) ∈ ((Gate.init entry).run ss).table)
    (hr : ((Gate.init entry).run ss).regs[i]? = some r) (hf : r.pc = .finished) :
    a ∈ ((Gate.init entry).run ss).attempted := by
  have hi := Gate.inv_run (Gate.inv_init entry) ss
  obtain ⟨r', h1, _, _, h4⟩ := hi.rows k a i hrow hk
  rw [hr] at h1
  have h1 := Option.some.inj h1
  subst h1
  rw [hf] at h4
  rcases h4 with h | ⟨_, h⟩
  · exact h
  · rw [he] at h; cases h

/-- **C65, partial.** A registration that is not over yet either will announce the address itself, or asks
first, or the address has been announced already: none of them has seen that announcements are disabled
and is then left alone. -/
theorem C65_pending_partial (entry : Bool) (ss : List GateStep) {k : ClientKind} {a : Bytes} {i : Nat}
    {r : GateReg} (hk : k = .delegate ∨ (k = .relay ∧ entry = false))
    (he : ((Gate.init entry).run ss).enabled = true) (hrow : (k, a, i) ∈ ((Gate.init entry).run ss).table)
    (hr : ((Gate.init entry).run ss).regs[i]? = some r) (hc : r.pc = .checked false) :
    a ∈ ((Gate.init entry).run ss).attempted := by
  have hi := Gate.inv_run (Gate.inv_init entry) ss
  obtain ⟨r', h1, _, _, h4⟩ := hi.rows k a i hrow hk
  rw [hr] at h1
  have h1 := Option.some.inj h1
  subst h1
  rw [hc] at h4
  rcases h4 with h | ⟨_, h⟩
  · exact h
  · rw [he] at h; cases h

/-- **C65.** A peer without entry peers announces its own agent before it enables announcements. -/
theorem C65_own_first (ss : List GateStep) (he : ((Gate.init false).run ss).enabled = true) :
    ((Gate.init false).run ss).ownDone = true :=
  ((Gate.inv_run (Gate.inv_init false) ss).own rfl).1 he

namespace GateDemo

/-- A notification from beginning to end. -/
def whole (j : Nat) : List GateStep :=
  .newNotif :: List.replicate 6 (.notif j true)

/-- A registration from beginning to end. -/
def client (k : ClientKind) (a : Bytes) (i : Nat) : List GateStep :=
  .newReg k a :: List.replicate 4 (.reg i)

/-- A delegate and a relay client register, then another peer joins, then a third client registers. -/
example :
    let g := (Gate.init false).run (client .delegate [1] 0 ++ client .relay [2] 1 ++ whole 0 ++
      client .delegate [3] 2)
    g.enabled = true ∧ g.attempted = [[3], [1], [2]] ∧ g.crashed = false ∧ g.table.length = 3 := by decide

/-- The registration of a delegate client in the middle of a notification, after the loop: it waits, and
then announces the address itself. -/
example :
    let g := (Gate.init false).run ([.newNotif] ++ List.replicate 4 (.notif 0 true) ++
      [.newReg .delegate [1], .reg 0, .reg 0, .reg 0, .notif 0 true, .notif 0 true] ++
      List.replicate 3 (.reg 0))
    g.enabled = true ∧ g.attempted = [[1]] ∧ g.regs.map (·.pc) = [.finished] := by decide

end GateDemo

open GateDemo

/-- **C65 is false** for a mailbox client that registers before the first notification: it is never
announced. -/
theorem C65_counterexample :
    let g := (Gate.init false).run (client .mailbox [1] 0 ++ whole 0)
    g.enabled = true ∧ g.attempted = [] ∧ g.table = [(.mailbox, [1], 0)] ∧
      g.regs.map (·.pc) = [.finished] := by decide

/-- **C65 is false** for a relay client that registers while the peer joins the network through an entry
peer, between the announcement of the stored addresses and enabling. -/
theorem C65_joining_counterexample :
    let g := (Gate.init true).run ([.boot] ++ client .relay [1] 0 ++ [.boot])
    g.enabled = true ∧ g.boot = .ready ∧ g.attempted = [] ∧ g.table = [(.relay, [1], 0)] ∧
      g.regs.map (·.pc) = [.finished] := by decide

/-- **C65, mailbox, in general.** Notifications and leaving clients never announce a mailbox client: an
address is announced only by a registration for it, or because it is in the table as a delegate or relay
client. -/
theorem C65_who_announces (g : Gate) (s : GateStep) (a : Bytes) (h : a ∈ (g.step s).attempted)
    (hn : a ∉ g.attempted) :
    (∃ i r, s = .reg i ∧ g.regs[i]? = some r ∧ r.addr = a ∧ r.pc = .checked true) ∨
    (∃ i, (.delegate, a, i) ∈ g.table ∨ (.relay, a, i) ∈ g.table) := by
  have hall : ∀ k, a ∈ (g.announceAll k).attempted → ∃ i, (k, a, i) ∈ g.table := by
    intro k h
    simp only [Gate.announceAll, List.mem_append, List.mem_map, List.mem_filter, beq_iff_eq] at h
    rcases h with ⟨e, ⟨he, rfl⟩, rfl⟩ | h
    · exact ⟨e.2.2, he⟩
    · exact absurd h hn
  have hwake : ∀ g' : Gate, g'.wake.attempted = g'.attempted := by
    intro g'; unfold Gate.wake; split <;> rfl
  unfold Gate.step at h
  split at h
  · exact absurd h hn
  cases s with
  | newReg k b => dsimp only at h; split at h <;> exact absurd h hn
  | newNotif => exact absurd h hn
  | leave i => dsimp only at h; split at h <;> exact absurd h hn
  | boot =>
    dsimp only at h
    split at h
    · obtain ⟨i, hi⟩ := hall .relay h
      exact .inr ⟨i, .inr hi⟩
    · exact absurd h hn
    · exact absurd h hn
  | reg i =>
    dsimp only at h
    split at h
    · exact absurd h hn
    · rename_i r hr
      left
      refine ⟨i, r, rfl, hr, ?_⟩
      unfold Gate.regStep at h
      cases hpc : r.pc with
      | start => rw [hpc] at h; dsimp only at h; split at h <;> exact absurd h hn
      | asking => rw [hpc] at h; exact absurd h hn
      | waiting => rw [hpc] at h; exact absurd h hn
      | woken => rw [hpc] at h; dsimp only at h; split at h <;> exact absurd h hn
      | passed => rw [hpc] at h; exact absurd h hn
      | finished => rw [hpc] at h; exact absurd h hn
      | checked saw =>
        rw [hpc] at h
        cases saw with
        | false =>
          dsimp only at h
          simp only [Bool.false_eq_true, if_false] at h
          split at h <;> exact absurd h hn
        | true =>
          dsimp only at h
          simp only [if_true] at h
          have h' : a ∈ r.addr :: g.attempted := by split at h <;> exact h
          rcases List.mem_cons.1 h' with rfl | h'
          · exact ⟨rfl, rfl⟩
          · exact absurd h' hn
  | notif j ok =>
    dsimp only at h
    split at h
    · exact absurd h hn
    · right
      unfold Gate.notifStep at h
      split at h
      · exact absurd h hn
      · split at h
        · exact absurd h hn
        · rw [hwake] at h; exact absurd h hn
      · obtain ⟨i, hi⟩ := hall .relay h; exact ⟨i, .inr hi⟩
      · obtain ⟨i, hi⟩ := hall .delegate h; exact ⟨i, .inl hi⟩
      · exact absurd h hn
      · rw [hwake] at h; exact absurd h hn
      · exact absurd h hn

/-! ## C66: waiting for notifications does not stop the peer -/

/-- The step is the `Add(1)` of a notification. -/
def GateStep.Adds (g : Gate) (s : GateStep) : Prop := ∃ j ok, s = .notif j ok ∧ g.notifs[j]? = some .start

/-- A registration has been released from `Wait` but has not run since. -/
def Gate.Released (g : Gate) : Prop := ∃ r ∈ g.regs, r.pc = .woken

/-- No notification begins while a registration has been released but has not run since. -/
def Patient (g : Gate) (ss : List GateStep) : Prop :=
  ∀ pre s post, ss = pre ++ s :: post → s.Adds (g.run pre) → ¬ (g.run pre).Released

namespace Gate

/-- The invariant: released registrations find the counter at zero. -/
structure Quiet (g : Gate) : Prop where
  alive : g.crashed = false
  idle : g.Released → g.idle = true

theorem quiet_setReg {g : Gate} (h : g.Quiet) (i : Nat) (r : GateReg) (pc : RegPc) (hpc : pc ≠ .woken) :
    (g.setReg i r pc).Quiet := by
  refine ⟨h.alive, ?_⟩
  rintro ⟨x, hx, hw⟩
  rcases List.mem_or_eq_of_mem_set hx with hx | rfl
  · exact h.idle ⟨x, hx, hw⟩
  · exact absurd hw hpc

theorem quiet_insert {g : Gate} (h : g.Quiet) (k : ClientKind) (a : Bytes) (i : Nat) :
    (g.insert k a i).Quiet := ⟨h.alive, h.idle⟩

theorem quiet_attempt {g : Gate} (h : g.Quiet) (l : List Bytes) :
    Quiet { g with attempted := l } := ⟨h.alive, h.idle⟩

theorem quiet_end {g : Gate} (h : g.Quiet) {j : Nat} {pc : NotifPc} (hj : g.notifs[j]? = some pc)
    (hc : pc.counted = true) : ({ g with notifs := g.notifs.set j .ended }.wake).Quiet := by
  have hnot : g.idle = false := by
    cases hid : g.idle with
    | false => rfl
    | true =>
      have := List.all_eq_true.1 hid pc (List.mem_of_getElem? hj)
      rw [hc] at this
      cases this
  unfold wake
  split
  · rename_i hid
    exact ⟨h.alive, fun _ => hid⟩
  · refine ⟨h.alive, ?_⟩
    intro hr
    have := h.idle hr
    rw [hnot] at this
    cases this

theorem quiet_step {entry : Bool} {g : Gate} (hi : g.Inv entry) (h : g.Quiet) (s : GateStep)
    (hp : s.Adds g → ¬ g.Released) : (g.step s).Quiet := by
  unfold step
  rw [if_neg (by rw [h.alive]; simp)]
  cases s with
  | newReg k a =>
    dsimp only
    split
    · refine ⟨h.alive, ?_⟩
      rintro ⟨x, hx, hw⟩
      rcases List.mem_append.1 hx with hx | hx
      · exact h.idle ⟨x, hx, hw⟩
      · rw [List.mem_singleton.1 hx] at hw; cases hw
    · exact h
  | newNotif =>
    refine ⟨h.alive, ?_⟩
    intro hr
    have := h.idle hr
    unfold idle at this ⊢
    rw [List.all_append, this]
    rfl
  | leave i =>
    dsimp only
    split
    · exact ⟨h.alive, h.idle⟩
    · exact h
  | boot =>
    dsimp only
    split
    · exact ⟨h.alive, h.idle⟩
    · exact ⟨h.alive, h.idle⟩
    · exact h
  | reg i =>
    dsimp only
    split
    · exact h
    · rename_i r hr
      unfold regStep
      cases hpc : r.pc with
      | start =>
        dsimp only
        split
        · exact quiet_setReg h _ _ _ (by simp)
        · exact quiet_setReg (quiet_insert h _ _ _) _ _ _ (by simp)
      | asking =>
        dsimp only
        exact quiet_setReg h _ _ _ (by split <;> simp)
      | waiting => exact h
      | woken =>
        dsimp only
        have hid := h.idle ⟨r, List.mem_of_getElem? hr, hpc⟩
        rw [hid, hi.sleep hid]
        exact quiet_setReg h _ _ _ (by simp)
      | passed => exact quiet_setReg h _ _ _ (by simp)
      | checked saw =>
        dsimp only
        cases saw with
        | false =>
          simp only [Bool.false_eq_true, if_false]
          split
          · exact quiet_setReg (quiet_insert h _ _ _) _ _ _ (by simp)
          · exact quiet_setReg h _ _ _ (by simp)
        | true =>
          simp only [if_true]
          split
          · exact quiet_setReg (quiet_insert (quiet_attempt h _) _ _ _) _ _ _ (by simp)
          · exact quiet_setReg (quiet_attempt h _) _ _ _ (by simp)
      | finished => exact h
  | notif j ok =>
    dsimp only
    split
    · exact h
    · rename_i pc hj
      have hnone : pc.counted = true → ¬ g.Released := by
        intro hc hr
        have := List.all_eq_true.1 (h.idle hr) pc (List.mem_of_getElem? hj)
        rw [hc] at this
        cases this
      unfold notifStep
      cases pc with
      | start => exact ⟨h.alive, fun hr => absurd hr (hp ⟨j, ok, rfl, hj⟩)⟩
      | added =>
        dsimp only
        split
        · exact ⟨h.alive, fun hr => absurd hr (hnone rfl)⟩
        · exact quiet_end h hj rfl
      | ownDone => exact ⟨h.alive, fun hr => absurd hr (hnone rfl)⟩
      | relaysDone => exact ⟨h.alive, fun hr => absurd hr (hnone rfl)⟩
      | looped => exact ⟨h.alive, fun hr => absurd hr (hnone rfl)⟩
      | opened => exact quiet_end h hj rfl
      | ended => exact h

theorem quiet_run {entry : Bool} {g : Gate} (hi : g.Inv entry) (h : g.Quiet) {ss : List GateStep}
    (hp : Patient g ss) : (g.run ss).Quiet := by
  induction ss generalizing g with
  | nil => exact h
  | cons s ss ih =>
    refine ih (inv_step hi s) (quiet_step hi h s (hp [] s ss rfl)) ?_
    intro pre t post he
    have := hp (s :: pre) t post (by rw [he]; rfl)
    exact this

end Gate

/-- **C66, partial.** Registrations that wait for notifications never crash the peer if no notification
begins in the moment between the release of a waiting registration and its next step. Missing from the
property: such notifications. -/
theorem C66_no_crash_partial (entry : Bool) (ss : List GateStep) (hp : Patient (Gate.init entry) ss) :
    ((Gate.init entry).run ss).crashed = false :=
  (Gate.quiet_run (Gate.inv_init entry)
    ⟨rfl, by rintro ⟨r, hr, _⟩; cases hr⟩ hp).alive

/-- **C66, partial.** In particular with a single notification. -/
theorem C66_one_notification_partial (entry : Bool) (ss : List GateStep)
    (hone : (ss.filter (· == .newNotif)).length ≤ 1) :
    ((Gate.init entry).run ss).crashed = false := by
  -- after a release, the only notification has ended
  have key : ∀ (ss : List GateStep) (g : Gate), g.notifs.length + (ss.filter (· == .newNotif)).length ≤ 1 →
      (g.Released → ∃ n ∈ g.notifs, n = .ended) →
      (g.run ss).notifs.length ≤ 1 ∧ ((g.run ss).Released → ∃ n ∈ (g.run ss).notifs, n = .ended) := by
    intro ss
    induction ss with
    | nil => intro g hl hr; exact ⟨by simpa [Gate.run] using hl, hr⟩
    | cons s ss ih =>
      intro g hl hr
      have hset : ∀ (i : Nat) (r : GateReg) (pc : RegPc) (g' : Gate), g'.regs = g.regs →
          g'.notifs = g.notifs → pc ≠ .woken → (g'.setReg i r pc).notifs = g.notifs ∧
          ((g'.setReg i r pc).Released → ∃ n ∈ (g'.setReg i r pc).notifs, n = .ended) := by
        intro i r pc g' h1 h2 hpc
        refine ⟨h2, ?_⟩
        rintro ⟨x, hx, hw⟩
        have hx : x ∈ g'.regs.set i { r with pc := pc } := hx
        rw [show (g'.setReg i r pc).notifs = g.notifs from h2]
        rw [h1] at hx
        rcases List.mem_or_eq_of_mem_set hx with hx | rfl
        · exact hr ⟨x, hx, hw⟩
        · exact absurd hw hpc
      have hstep : (g.step s).notifs.length + (ss.filter (· == .newNotif)).length ≤ 1 ∧
          ((g.step s).Released → ∃ n ∈ (g.step s).notifs, n = .ended) := by
        have hl' : s ≠ .newNotif → g.notifs.length + (ss.filter (· == .newNotif)).length ≤ 1 := by
          intro hs
          rw [List.filter_cons_of_neg (by simpa using hs)] at hl
          exact hl
        unfold Gate.step
        split
        · refine ⟨?_, hr⟩
          by_cases hs : s = .newNotif
          · subst hs
            rw [List.filter_cons_of_pos (by simp)] at hl
            simp only [List.length_cons] at hl
            omega
          · exact hl' hs
        cases s with
        | newReg k a =>
          dsimp only
          split
          · refine ⟨hl' (by simp), ?_⟩
            rintro ⟨x, hx, hw⟩
            rcases List.mem_append.1 hx with hx | hx
            · exact hr ⟨x, hx, hw⟩
            · rw [List.mem_singleton.1 hx] at hw; cases hw
          · exact ⟨hl' (by simp), hr⟩
        | newNotif =>
          rw [List.filter_cons_of_pos (by simp)] at hl
          simp only [List.length_cons] at hl
          refine ⟨by simp only [List.length_append, List.length_cons, List.length_nil]; omega, ?_⟩
          intro hrel
          obtain ⟨n, hn, he⟩ := hr hrel
          exact ⟨n, List.mem_append_left _ hn, he⟩
        | leave i =>
          dsimp only
          split
          · exact ⟨hl' (by simp), hr⟩
          · exact ⟨hl' (by simp), hr⟩
        | boot =>
          dsimp only
          split
          · exact ⟨hl' (by simp), hr⟩
          · exact ⟨hl' (by simp), hr⟩
          · exact ⟨hl' (by simp), hr⟩
        | reg i =>
          dsimp only
          split
          · exact ⟨hl' (by simp), hr⟩
          · rename_i r hri
            have hgo : ∀ (pc : RegPc) (g' : Gate), g'.regs = g.regs → g'.notifs = g.notifs → pc ≠ .woken →
                (g'.setReg i r pc).notifs.length + (ss.filter (· == .newNotif)).length ≤ 1 ∧
                ((g'.setReg i r pc).Released → ∃ n ∈ (g'.setReg i r pc).notifs, n = .ended) := by
              intro pc g' h1 h2 h3
              obtain ⟨e1, e2⟩ := hset i r pc g' h1 h2 h3
              exact ⟨by rw [e1]; exact hl' (by simp), e2⟩
            unfold Gate.regStep
            cases hpc : r.pc with
            | start =>
              dsimp only
              split
              · exact hgo _ _ rfl rfl (by simp)
              · exact hgo _ _ rfl rfl (by simp)
            | asking => exact hgo _ _ rfl rfl (by split <;> simp)
            | waiting => exact ⟨hl' (by simp), hr⟩
            | woken =>
              dsimp only
              split
              · exact hgo _ _ rfl rfl (by simp)
              · exact ⟨hl' (by simp), hr⟩
            | passed => exact hgo _ _ rfl rfl (by simp)
            | checked saw =>
              dsimp only
              cases saw <;> simp only [Bool.false_eq_true, if_false, if_true] <;> split <;>
                exact hgo _ _ rfl rfl (by simp)
            | finished => exact ⟨hl' (by simp), hr⟩
        | notif j ok =>
          dsimp only
          split
          · exact ⟨hl' (by simp), hr⟩
          · rename_i pc hj
            have hlen := (List.getElem?_eq_some_iff.1 hj).1
            have hended : pc ≠ .ended → ∀ n ∈ g.notifs, n ≠ .ended := by
              intro hp n hn he
              have hlt := hl' (by simp)
              match hg : g.notifs, hj, hn with
              | [], hj, _ => simp at hj
              | [m], hj, hn =>
                have : m = pc := by
                  match j, hj with
                  | 0, hj => simpa using hj
                rw [List.mem_singleton.1 hn, this] at he
                exact hp he
              | a :: b :: l, _, _ =>
                rw [hg] at hlt
                simp only [List.length_cons] at hlt
                omega
            have hno : pc ≠ .ended → ¬ g.Released := by
              intro hp hrel
              obtain ⟨n, hn, he⟩ := hr hrel
              exact hended hp n hn he
            have hmov : ∀ g' : Gate, pc ≠ .ended → g'.regs = g.regs → g'.notifs.length = g.notifs.length →
                g'.notifs.length + (ss.filter (· == .newNotif)).length ≤ 1 ∧
                (g'.Released → ∃ n ∈ g'.notifs, n = .ended) := by
              intro g' hp h1 h2
              refine ⟨by rw [h2]; exact hl' (by simp), ?_⟩
              rintro ⟨x, hx, hw⟩
              rw [h1] at hx
              exact absurd ⟨x, hx, hw⟩ (hno hp)
            have hfin : (Gate.wake { g with notifs := g.notifs.set j .ended }).notifs.length =
                g.notifs.length := by unfold Gate.wake; split <;> simp
            have hfin2 : NotifPc.ended ∈ (Gate.wake { g with notifs := g.notifs.set j .ended }).notifs := by
              unfold Gate.wake
              split <;> exact List.mem_set hlen _
            unfold Gate.notifStep
            cases pc with
            | start => exact hmov _ (by simp) rfl (by simp)
            | added =>
              dsimp only
              split
              · exact hmov _ (by simp) rfl (by simp)
              · exact ⟨by rw [hfin]; exact hl' (by simp), fun _ => ⟨_, hfin2, rfl⟩⟩
            | ownDone => exact hmov _ (by simp) rfl (by simp)
            | relaysDone => exact hmov _ (by simp) rfl (by simp)
            | looped => exact hmov _ (by simp) rfl (by simp)
            | opened => exact ⟨by rw [hfin]; exact hl' (by simp), fun _ => ⟨_, hfin2, rfl⟩⟩
            | ended => exact ⟨hl' (by simp), hr⟩
      exact ih (g.step s) hstep.1 hstep.2
  refine C66_no_crash_partial entry ss ?_
  intro pre s post he hadd hrel
  obtain ⟨j, ok, rfl, hj⟩ := hadd
  have hcount : (pre.filter (· == .newNotif)).length ≤ 1 := by
    rw [he, List.filter_append, List.length_append] at hone
    omega
  obtain ⟨h1, h2⟩ := key pre (Gate.init entry) (by simpa [Gate.init] using hcount)
    (by rintro ⟨r, hr, _⟩; cases hr)
  obtain ⟨n, hn, hne⟩ := h2 hrel
  generalize hg : ((Gate.init entry).run pre).notifs = l at h1 hn hj
  match l, hj, hn with
  | [], hj, _ => simp at hj
  | [m], hj, hn =>
    have : m = .start := by
      match j, hj with
      | 0, hj => simpa using hj
    rw [List.mem_singleton.1 hn, this] at hne
    cases hne
  | _ :: _ :: _, _, _ =>
    simp only [List.length_cons] at h1
    omega

/-- **C66 is false:** two notifications and one registration crash the peer. The registration waits for the
first notification; when this one ends, the second begins before the registration runs again. -/
theorem C66_counterexample :
    ((Gate.init false).run [.newNotif, .notif 0 true, .newReg .delegate [1], .reg 0, .reg 0,
      .notif 0 false, .newNotif, .notif 1 true, .reg 0]).crashed = true := by decide

/-- One more notification that begins before the previous one ends. -/
def overlap : Nat → List GateStep
  | 0 => []
  | n + 1 => overlap n ++ [.newNotif, .notif (n + 1) true, .notif n false]

/-- **C66 is false, waiting.** Notifications that overlap keep a registration waiting for as long as they come,
even if each of them ends at once without result; any peer can send them. -/
theorem C66_starvation (n : Nat) :
    let g := (Gate.init false).run ([.newNotif, .notif 0 true, .newReg .delegate [1], .reg 0, .reg 0] ++
      overlap n)
    g.regs.map (·.pc) = [.waiting] ∧ g.notifs = List.replicate n .ended ++ [.added] ∧ g.crashed = false := by
  have h : (Gate.init false).run ([.newNotif, .notif 0 true, .newReg .delegate [1], .reg 0, .reg 0] ++
      overlap n) = ⟨.ready, false, [⟨.delegate, [1], .waiting⟩], List.replicate n .ended ++ [.added],
        [(.delegate, [1], 0)], [], false, false⟩ := by
    induction n with
    | zero => decide
    | succ n ih =>
      rw [overlap, ← List.append_assoc, Gate.run, List.foldl_append]
      rw [show List.foldl Gate.step (Gate.init false) ([.newNotif, .notif 0 true, .newReg .delegate [1],
        .reg 0, .reg 0] ++ overlap n) = _ from ih]
      simp only [List.foldl_cons, List.foldl_nil]
      have e1 : Gate.step ⟨.ready, false, [⟨.delegate, [1], .waiting⟩], List.replicate n .ended ++ [.added],
          [(.delegate, [1], 0)], [], false, false⟩ .newNotif = ⟨.ready, false, [⟨.delegate, [1], .waiting⟩],
          List.replicate n .ended ++ [.added, .start], [(.delegate, [1], 0)], [], false, false⟩ := by
        simp [Gate.step]
      have e2 : Gate.step ⟨.ready, false, [⟨.delegate, [1], .waiting⟩],
          List.replicate n .ended ++ [.added, .start], [(.delegate, [1], 0)], [], false, false⟩
          (.notif (n + 1) true) = ⟨.ready, false, [⟨.delegate, [1], .waiting⟩],
          List.replicate n .ended ++ [.added, .added], [(.delegate, [1], 0)], [], false, false⟩ := by
        have hg : (List.replicate n NotifPc.ended ++ [NotifPc.added, NotifPc.start])[n + 1]? = some .start := by
          rw [List.getElem?_append_right (by simp)]
          simp
        simp only [Gate.step, Bool.false_eq_true, if_false, hg, Gate.notifStep]
        congr 1
        rw [List.set_append_right _ _ (by simp)]
        simp
      have e3 : Gate.step ⟨.ready, false, [⟨.delegate, [1], .waiting⟩],
          List.replicate n .ended ++ [.added, .added], [(.delegate, [1], 0)], [], false, false⟩
          (.notif n false) = ⟨.ready, false, [⟨.delegate, [1], .waiting⟩],
          List.replicate (n + 1) .ended ++ [.added], [(.delegate, [1], 0)], [], false, false⟩ := by
        have hg : (List.replicate n NotifPc.ended ++ [NotifPc.added, NotifPc.added])[n]? = some .added := by
          rw [List.getElem?_append_right (by simp)]
          simp
        simp only [Gate.step, Bool.false_eq_true, if_false, hg, Gate.notifStep]
        have hset : (List.replicate n NotifPc.ended ++ [NotifPc.added, NotifPc.added]).set n .ended =
            List.replicate (n + 1) .ended ++ [.added] := by
          rw [List.set_append_right _ _ (by simp), List.replicate_succ']
          simp
        rw [hset]
        unfold Gate.wake
        rw [if_neg]
        simp [Gate.idle, NotifPc.counted]
      rw [e1, e2, e3]
  rw [h]
  exact ⟨rfl, rfl, rfl⟩

end Verif
