import Verif.Props.RegRace

/-!
# C107: a relay client that was told that it is registered is registered

Wrong as stated: the answer goes out first, then the client is entered into the tables, and writing to the file may
fail after that.

Specification: a peer answers a look-up for an address if both tables have it (`Answers`).
-/

namespace Verif

namespace RegAck

/-- The peer answers look-ups for the address: it is in the relay table and there is a record. -/
def Answers (g : StartLoad) (a : Bytes) : Prop :=
  ∃ id r, g.tables.dhtAddresses.get a = some id ∧ g.tables.records.get a = some r

/-- The registrations that got the answer that they succeeded, in this order. -/
def told (ss : List StartLoadStep) : List (AgentRecord × Bytes) :=
  ss.filterMap fun
    | .register r id => some (r, id)
    | _ => none

variable {peerId : Bytes → Option Bytes} {broken : AgentRecord → Bytes}

theorem set_some {V : Type} (m : GoMap Bytes V) (k a : Bytes) (v : V) (h : ∃ x, m.get a = some x) :
    ∃ x, (m.set k v).get a = some x := by
  rw [GoMap.get_set]
  split
  · exact ⟨v, rfl⟩
  · exact h

/-- Nothing leaves the tables. -/
theorem kept_step (g : StartLoad) (s : StartLoadStep) (a : Bytes) :
    ((∃ id, g.tables.dhtAddresses.get a = some id) →
      ∃ id, (g.step peerId broken s).tables.dhtAddresses.get a = some id) ∧
    ((∃ r, g.tables.records.get a = some r) → ∃ r, (g.step peerId broken s).tables.records.get a = some r) := by
  cases s with
  | register r _ => exact ⟨fun h => h, fun h => h⟩
  | record k =>
    simp only [StartLoad.step]
    split
    · exact ⟨id, fun h => set_some _ _ _ _ h⟩
    · exact ⟨id, id⟩
  | list k w =>
    simp only [StartLoad.step]
    split
    · split
      · split
        · exact ⟨fun h => set_some _ _ _ _ h, id⟩
        · exact ⟨fun h => set_some _ _ _ _ h, id⟩
      · exact ⟨fun h => set_some _ _ _ _ h, id⟩
    · exact ⟨id, id⟩
  | openFile =>
    simp only [StartLoad.step]
    split <;> exact ⟨id, id⟩
  | read n =>
    simp only [StartLoad.step]
    split
    · split <;> exact ⟨id, id⟩
    · exact ⟨id, id⟩
  | parse =>
    simp only [StartLoad.step]
    split
    · split
      · exact ⟨id, id⟩
      · split
        · exact ⟨id, fun h => set_some _ _ _ _ h⟩
        · exact ⟨fun h => set_some _ _ _ _ h, fun h => set_some _ _ _ _ h⟩
    · exact ⟨id, id⟩

/-- How far registration `k` is: 0 accepted, 1 first section done, 2 finished; with what is in the tables then. -/
def Stage (g : StartLoad) (k : Nat) (r : AgentRecord) (id : Bytes) : Nat → Prop
  | 0 => g.regs[k]? = some (.accepted r id)
  | 1 => g.regs[k]? = some (.recorded r id) ∧ ∃ x, g.tables.records.get r.address = some x
  | _ => (∃ b, g.regs[k]? = some (.finished b)) ∧ Answers g r.address

theorem regs_other {l : List RelayReg} {j k : Nat} {x : RelayReg} (h : j ≠ k) : (l.set j x)[k]? = l[k]? := by
  rw [List.getElem?_set, if_neg h]

theorem stage_step {g : StartLoad} {k : Nat} {r : AgentRecord} {id : Bytes} {n : Nat}
    (h : Stage g k r id n) (s : StartLoadStep) :
    ∃ m, n ≤ m ∧ Stage (g.step peerId broken s) k r id m ∧ (s = .record k → 1 ≤ m) ∧
      ((∃ w, s = .list k w) → 1 ≤ n → 2 ≤ m) := by
  have hk := kept_step (peerId := peerId) (broken := broken) g s r.address
  have same : (g.step peerId broken s).regs[k]? = g.regs[k]? → Stage (g.step peerId broken s) k r id n := by
    intro hr
    match n, h with
    | 0, h => exact hr.trans h
    | 1, h => exact ⟨hr.trans h.1, hk.2 h.2⟩
    | n + 2, h =>
      obtain ⟨⟨b, hb⟩, i, x, h1, h2⟩ := h
      obtain ⟨i', h1'⟩ := hk.1 ⟨i, h1⟩
      obtain ⟨x', h2'⟩ := hk.2 ⟨x, h2⟩
      exact ⟨⟨b, hr.trans hb⟩, i', x', h1', h2'⟩
  have hlen : ∃ y, g.regs[k]? = some y := by
    match n, h with
    | 0, h => exact ⟨_, h⟩
    | 1, h => exact ⟨_, h.1⟩
    | n + 2, h => exact h.1.elim fun b hb => ⟨_, hb⟩
  cases s with
  | register r' id' =>
    refine ⟨n, Nat.le_refl _, same ?_, (by simp), by simp⟩
    obtain ⟨y, hy⟩ := hlen
    simp only [StartLoad.step]
    rw [List.getElem?_append_left (List.getElem?_eq_some_iff.1 hy).1]
  | openFile =>
    refine ⟨n, Nat.le_refl _, same ?_, (by simp), by simp⟩
    simp only [StartLoad.step]; split <;> rfl
  | read c =>
    refine ⟨n, Nat.le_refl _, same ?_, (by simp), by simp⟩
    simp only [StartLoad.step]
    split
    · split <;> rfl
    · rfl
  | parse =>
    refine ⟨n, Nat.le_refl _, same ?_, (by simp), by simp⟩
    simp only [StartLoad.step]
    split
    · split
      · rfl
      · split <;> rfl
    · rfl
  | record j =>
    by_cases hj : j = k
    · subst hj
      match n, h with
      | 0, h =>
        have h : g.regs[j]? = some (.accepted r id) := h
        have hl := (List.getElem?_eq_some_iff.1 h).1
        refine ⟨1, by omega, ?_, fun _ => Nat.le_refl _, by simp⟩
        simp only [StartLoad.step, h, Stage]
        exact ⟨by rw [List.getElem?_set_self hl], _, GoMap.get_set_self _ _ _⟩
      | 1, h =>
        refine ⟨1, Nat.le_refl _, same ?_, fun _ => Nat.le_refl _, by simp⟩
        simp only [StartLoad.step, h.1]
      | n + 2, h =>
        refine ⟨n + 2, Nat.le_refl _, same ?_, fun _ => by omega, by simp⟩
        obtain ⟨b, hb⟩ := h.1
        simp only [StartLoad.step, hb]
    · refine ⟨n, Nat.le_refl _, same ?_, (by simpa using fun h => absurd h hj), by simp⟩
      simp only [StartLoad.step]
      split
      · exact regs_other hj
      · rfl
  | list j w =>
    by_cases hj : j = k
    · subst hj
      match n, h with
      | 0, h =>
        refine ⟨0, Nat.le_refl _, same ?_, (by simp), fun _ h => absurd h (by omega)⟩
        have h : g.regs[j]? = some (.accepted r id) := h
        simp only [StartLoad.step, h]
      | 1, h =>
        obtain ⟨h, x, hx⟩ := h
        have hl := (List.getElem?_eq_some_iff.1 h).1
        refine ⟨2, by omega, ?_, (by simp), fun _ _ => Nat.le_refl _⟩
        have ha : ∀ f o b, Stage { g with
            tables := { g.tables with dhtAddresses := g.tables.dhtAddresses.set r.address id }
            file := f, off := o, regs := g.regs.set j (.finished b) } j r id 2 := fun f o b =>
          ⟨⟨b, by rw [List.getElem?_set_self hl]⟩, id, x, GoMap.get_set_self _ _ _, hx⟩
        simp only [StartLoad.step, h]
        split
        · split
          · exact ha _ _ _
          · exact ha _ _ _
        · exact ha _ _ _
      | n + 2, h =>
        refine ⟨n + 2, Nat.le_refl _, same ?_, (by simp), fun _ _ => by omega⟩
        obtain ⟨b, hb⟩ := h.1
        simp only [StartLoad.step, hb]
    · refine ⟨n, Nat.le_refl _, same ?_, (by simp), by simpa using fun h => absurd h hj⟩
      simp only [StartLoad.step]
      split
      · split
        · split
          · exact regs_other hj
          · exact regs_other hj
        · exact regs_other hj
      · rfl

theorem stage_run {k : Nat} {r : AgentRecord} {id : Bytes} (ss : List StartLoadStep) :
    ∀ {g : StartLoad} {n : Nat}, Stage g k r id n → ∃ m, n ≤ m ∧ Stage (g.run peerId broken ss) k r id m := by
  induction ss with
  | nil => exact fun h => ⟨_, Nat.le_refl _, h⟩
  | cons s ss ih =>
    intro g n h
    obtain ⟨m, h1, h2, -, -⟩ := stage_step (peerId := peerId) (broken := broken) h s
    obtain ⟨m', h3, h4⟩ := ih h2
    exact ⟨m', by omega, h4⟩

theorem run_append (g : StartLoad) (ss ss' : List StartLoadStep) :
    g.run peerId broken (ss ++ ss') = (g.run peerId broken ss).run peerId broken ss' := by
  simp [StartLoad.run, List.foldl_append]

theorem regs_length (ss : List StartLoadStep) :
    ∀ g : StartLoad, (g.run peerId broken ss).regs.length = g.regs.length + (told ss).length := by
  induction ss with
  | nil => intro g; rfl
  | cons s ss ih =>
    intro g
    have h : (g.step peerId broken s).regs.length = g.regs.length + (told [s]).length := by
      cases s with
      | register r id => simp [StartLoad.step, told]
      | record k => simp only [StartLoad.step]; split <;> simp [told]
      | list k w => simp only [StartLoad.step]; repeat' split
                    all_goals simp [told]
      | openFile => simp only [StartLoad.step]; split <;> simp [told]
      | read n => simp only [StartLoad.step]; repeat' split
                  all_goals simp [told]
      | parse => simp only [StartLoad.step]; repeat' split
                 all_goals simp [told]
    have h2 : (told (s :: ss)).length = (told [s]).length + (told ss).length := by
      rw [show s :: ss = [s] ++ ss from rfl]; unfold told; rw [List.filterMap_append, List.length_append]
    rw [h2, ← Nat.add_assoc, ← h]
    exact ih _

end RegAck

open RegAck

/-- **C107, partial.** Once the two sections of a registration are done, and whatever happens before, between and
after, at the start of the peer too, the peer answers look-ups for the client, for ever. Missing: the time between the
answer to the client and the second section. -/
theorem C107_found_partial (peerId : Bytes → Option Bytes) (broken : AgentRecord → Bytes) (file : Bytes)
    (s0 s1 s2 s3 : List StartLoadStep) (r : AgentRecord) (id : Bytes) (w : Bool) :
    Answers ((StartLoad.init file).run peerId broken
      (s0 ++ .register r id :: s1 ++ .record (told s0).length :: s2 ++ .list (told s0).length w :: s3)) r.address := by
  generalize hk : (told s0).length = k
  simp only [List.append_assoc, List.cons_append]
  rw [run_append]
  have hlen := regs_length (peerId := peerId) (broken := broken) s0 (StartLoad.init file)
  generalize (StartLoad.init file).run peerId broken s0 = g0 at hlen
  have hlen : g0.regs.length = k := by rw [hlen, ← hk]; simp [StartLoad.init]
  have h0 : Stage (g0.step peerId broken (.register r id)) k r id 0 := by
    show (g0.regs ++ [_])[k]? = _
    rw [List.getElem?_append_right (by omega), hlen]
    simp
  show Answers ((g0.step peerId broken (.register r id)).run peerId broken
    (s1 ++ .record k :: (s2 ++ .list k w :: s3))) r.address
  rw [run_append]
  obtain ⟨m1, -, h1⟩ := stage_run (peerId := peerId) (broken := broken) s1 h0
  generalize (g0.step peerId broken (.register r id)).run peerId broken s1 = g1 at h1
  obtain ⟨m2, -, h2, h2', -⟩ := stage_step (peerId := peerId) (broken := broken) h1 (.record k)
  have h2' := h2' rfl
  show Answers ((g1.step peerId broken (.record k)).run peerId broken (s2 ++ .list k w :: s3)) r.address
  generalize g1.step peerId broken (.record k) = g2 at h2
  rw [run_append]
  obtain ⟨m3, h3', h3⟩ := stage_run (peerId := peerId) (broken := broken) s2 h2
  generalize g2.run peerId broken s2 = g3 at h3
  obtain ⟨m4, -, h4, -, h4'⟩ := stage_step (peerId := peerId) (broken := broken) h3 (.list k w)
  have h4' := h4' ⟨w, rfl⟩ (by omega)
  show Answers ((g3.step peerId broken (.list k w)).run peerId broken s3) r.address
  obtain ⟨m5, h5', h5⟩ := stage_run (peerId := peerId) (broken := broken) s3 h4
  match m5, h5 with
  | 0, _ => omega
  | 1, _ => omega
  | n + 2, h => exact h.2

namespace RegAck

variable {peerId : Bytes → Option Bytes} {broken : AgentRecord → Bytes}

/-- The address of a registration that is not finished. -/
def addressOf : RelayReg → Option Bytes
  | .accepted r _ => some r.address
  | .recorded r _ => some r.address
  | .finished _ => none

/-- The peer runs and does not relay for `a`; only registration `k` is for this address. -/
structure Unknown (g : StartLoad) (a : Bytes) (k : Nat) : Prop where
  phase : g.phase = .loaded
  dht : g.tables.dhtAddresses.get a = none
  regs : ∀ j x, j ≠ k → g.regs[j]? = some x → addressOf x ≠ some a

theorem unknown_step {g : StartLoad} {a : Bytes} {k : Nat} (h : Unknown g a k) (s : StartLoadStep)
    (hl : ∀ w, s ≠ .list k w) (hr : ∀ r id, s = .register r id → r.address ≠ a) :
    Unknown (g.step peerId broken s) a k := by
  obtain ⟨h1, h2, h3⟩ := h
  have setOther : ∀ (j : Nat) (y x : RelayReg) (i : Nat), addressOf y ≠ some a ∨ j = k → i ≠ k →
      (g.regs.set j y)[i]? = some x → addressOf x ≠ some a := by
    intro j y x i hy hi hx
    rw [List.getElem?_set] at hx
    split at hx
    · next hji =>
      split at hx
      · simp only [Option.some.injEq] at hx
        rcases hy with hy | hy
        · rw [← hx]; exact hy
        · exact absurd (hji.symm.trans hy) hi
      · cases hx
    · exact h3 i x hi hx
  cases s with
  | register r id =>
    refine ⟨h1, h2, fun j x hj hx => ?_⟩
    simp only [StartLoad.step] at hx
    rw [List.getElem?_append] at hx
    split at hx
    · exact h3 j x hj hx
    · next hlt =>
      rw [List.getElem?_singleton] at hx
      split at hx
      · cases hx
        simpa [addressOf] using hr r id rfl
      · cases hx
  | record j =>
    simp only [StartLoad.step]
    split
    · next r id hj =>
      refine ⟨h1, h2, fun i x hi hx => ?_⟩
      refine setOther j (.recorded r id) x i ?_ hi hx
      by_cases hjk : j = k
      · exact .inr hjk
      · exact .inl (h3 j (.accepted r id) hjk hj)
    · exact ⟨h1, h2, h3⟩
  | list j w =>
    have hjk : j ≠ k := fun h => hl w (by rw [h])
    simp only [StartLoad.step]
    split
    · next r id hj =>
      have ha : r.address ≠ a := fun h => h3 j _ hjk hj (by simp [addressOf, h])
      have hd : (g.tables.dhtAddresses.set r.address id).get a = none := by
        rw [GoMap.get_set, if_neg (fun h => ha h.symm)]; exact h2
      have hb : ∀ b, addressOf (.finished b) ≠ some a := by simp [addressOf]
      split
      · split
        · exact ⟨h1, hd, fun i x hi hx => setOther j _ x i (.inl (hb _)) hi hx⟩
        · exact ⟨h1, hd, fun i x hi hx => setOther j _ x i (.inl (hb _)) hi hx⟩
      · exact ⟨h1, hd, fun i x hi hx => setOther j _ x i (.inl (hb _)) hi hx⟩
    · exact ⟨h1, h2, h3⟩
  | openFile =>
    simp only [StartLoad.step]
    rw [if_neg (by simp [h1])]
    exact ⟨h1, h2, h3⟩
  | read n =>
    simp only [StartLoad.step]
    rw [if_neg (by simp [h1])]
    exact ⟨h1, h2, h3⟩
  | parse =>
    simp only [StartLoad.step]
    rw [if_neg (by simp [h1])]
    exact ⟨h1, h2, h3⟩

theorem unknown_run {a : Bytes} {k : Nat} (ss : List StartLoadStep) (hl : ∀ w, .list k w ∉ ss)
    (hr : ∀ r id, .register r id ∈ ss → r.address ≠ a) :
    ∀ {g : StartLoad}, Unknown g a k → Unknown (g.run peerId broken ss) a k := by
  induction ss with
  | nil => exact id
  | cons s ss ih =>
    intro g h0
    exact ih (fun w hm => hl w (List.mem_cons_of_mem _ hm)) (fun r' id' hm => hr r' id' (List.mem_cons_of_mem _ hm))
      (unknown_step h0 s (fun w hw => hl w (by simp [hw])) (fun r' id' h => hr r' id' (by simp [h])))

/-- Some number is the number of no second section. -/
theorem fresh (ss : List StartLoadStep) : ∃ n, ∀ k, n ≤ k → ∀ w, .list k w ∉ ss := by
  induction ss with
  | nil => exact ⟨0, fun k _ w h => by cases h⟩
  | cons s ss ih =>
    obtain ⟨n, hn⟩ := ih
    cases s with
    | list j v =>
      refine ⟨max n (j + 1), fun k hk w h => ?_⟩
      rcases List.mem_cons.1 h with h | h
      · cases h; omega
      · exact hn k (by omega) w h
    | register | record | openFile | read | parse =>
      refine ⟨n, fun k hk w h => ?_⟩
      rcases List.mem_cons.1 h with h | h
      · cases h
      · exact hn k hk w h

end RegAck

/-- Only who was told: an address that a running peer relays for was in its file at the start or belongs to a
registration that got the answer that it succeeded. -/
theorem C107_only {peerId : Bytes → Option Bytes} (broken : AgentRecord → Bytes) {g : StartLoad}
    {old : List AgentRecord} (h : RegRace.Running peerId g old []) (ss : List StartLoadStep) (a : Bytes)
    (ha : Answers (g.run peerId broken ss) a) :
    (∃ r ∈ old, r.address = a) ∨ ∃ r id, (r, id) ∈ told ss ∧ r.address = a := by
  by_cases hold : ∃ r ∈ old, r.address = a
  · exact .inl hold
  by_cases ht : ∃ r id, (r, id) ∈ told ss ∧ r.address = a
  · exact .inr ht
  exfalso
  have hnone : lastRecord old a = none := by
    rcases hl : lastRecord old a with _ | r
    · rfl
    · exact absurd ⟨r, List.mem_reverse.1 (List.mem_of_find?_eq_some hl), by simpa using List.find?_some hl⟩ hold
  have h0 : ∀ k, Unknown g a k := fun k => by
    refine ⟨h.phase, by rw [h.dht, hnone]; rfl, fun j x _ hx => ?_⟩
    rw [h.regs] at hx
    cases hx
  obtain ⟨n, hn⟩ := fresh ss
  have hrun := unknown_run (peerId := peerId) (broken := broken) ss (hn n (Nat.le_refl _))
    (fun r id hm he => ht ⟨r, id, List.mem_filterMap.2 ⟨_, hm, rfl⟩, he⟩) (h0 n)
  obtain ⟨i, x, h1, -⟩ := ha
  rw [hrun.dht] at h1
  cases h1

/-- **C107 is false: the time between.** A client of a running peer is told that it is registered, and the peer does
not answer look-ups for it until the second section of this registration, however long that takes and whatever
happens, unless it registers again. -/
theorem C107_early_counterexample (peerId : Bytes → Option Bytes) (broken : AgentRecord → Bytes) (g : StartLoad)
    (hp : g.phase = .loaded) (r : AgentRecord) (id : Bytes) (hd : g.tables.dhtAddresses.get r.address = none)
    (hno : ∀ x ∈ g.regs, addressOf x ≠ some r.address) (ss : List StartLoadStep)
    (hl : ∀ w, .list g.regs.length w ∉ ss) (hr : ∀ r' id', .register r' id' ∈ ss → r'.address ≠ r.address) :
    ¬ Answers (g.run peerId broken (.register r id :: ss)) r.address := by
  have h0 : Unknown (g.step peerId broken (.register r id)) r.address g.regs.length := by
    refine ⟨hp, hd, fun j x hj hx => ?_⟩
    simp only [StartLoad.step] at hx
    rw [List.getElem?_append] at hx
    split at hx
    · exact hno x (List.mem_of_getElem? hx)
    · rw [List.getElem?_singleton] at hx
      split at hx
      · omega
      · cases hx
  show ¬ Answers ((g.step peerId broken (.register r id)).run peerId broken ss) r.address
  generalize g.step peerId broken (.register r id) = g0 at h0
  have hrun := unknown_run (peerId := peerId) (broken := broken) ss hl hr h0
  rintro ⟨i, x, h1, -⟩
  rw [hrun.dht] at h1
  cases h1

/-- **C107 is false: the file.** If writing to the file fails, the client has been told that it is registered, the
peer answers look-ups for it, and after the next start of the peer it does not. -/
theorem C107_unsaved_counterexample {peerId : Bytes → Option Bytes} (broken : AgentRecord → Bytes) {g : StartLoad}
    {old : List AgentRecord} (h : RegRace.Running peerId g old []) (r : AgentRecord) (id : Bytes)
    (hnew : lastRecord old r.address = none) :
    let g' := g.run peerId broken [.register r id, .record 0, .list 0 false]
    Answers g' r.address ∧
    ∃ st n, loadRecords peerId g'.file = .ok (st, n) ∧ st.dhtAddresses.get r.address = none ∧
      st.records.get r.address = none := by
  intro g'
  have hregs : g.regs = [] := h.regs
  have e1 : g.step peerId broken (.register r id) = { g with regs := [.accepted r id] } := by
    simp [StartLoad.step, hregs]
  have e2 : (g.step peerId broken (.register r id)).step peerId broken (.record 0) =
      { g with
        tables := { g.tables with records := g.tables.records.set r.address r }
        regs := [.recorded r id] } := by
    rw [e1]; simp [StartLoad.step]
  have hfile : g'.file = g.file ∧ Answers g' r.address := by
    show (((g.step peerId broken (.register r id)).step peerId broken (.record 0)).step peerId broken
      (.list 0 false)).file = _ ∧ Answers (((g.step peerId broken (.register r id)).step peerId broken
      (.record 0)).step peerId broken (.list 0 false)) r.address
    rw [e2]
    simp only [StartLoad.step, List.getElem?_cons_zero]
    split
    · rw [if_neg (by simp)]
      exact ⟨rfl, id, r, GoMap.get_set_self _ _ _, GoMap.get_set_self _ _ _⟩
    · exact ⟨rfl, id, r, GoMap.get_set_self _ _ _, GoMap.get_set_self _ _ _⟩
  refine ⟨hfile.2, loadOnto peerId .empty old, 0 + old.length, ?_, ?_, ?_⟩
  · rw [hfile.1, h.file]; exact StartLoad.outcome_records h.oldSavable .empty 0
  · rw [(loadOnto_get peerId _ _).2, hnew]; rfl
  · rw [(loadOnto_get peerId _ _).1, hnew]

namespace RegAckDemo

open StartLoadDemo

/-- A peer that has started without clients. -/
def peer : StartLoad := (StartLoad.init []).run some (fun _ => []) [.openFile, .read 1]

theorem running : RegRace.Running some peer [] [] where
  phase := rfl
  regs := rfl
  savable := by simp
  id := by simp
  oldSavable := by simp
  file := rfl
  records a := rfl
  dht a := rfl

/-- Told, and not found while others register. -/
example : ¬ Answers (peer.run some (fun _ => [])
    [.register old (b! "k"), .register other (b! "l"), .record 1, .list 1 true, .record 0]) (b! "a") :=
  C107_early_counterexample some _ peer rfl old (b! "k") rfl (fun x hx => by cases hx) _
    (by intro w h; simp at h; exact absurd h.1 (by decide)) (by
      intro r' id' h
      simp at h
      rw [h.1]; decide)

/-- Found after the second section. -/
example : Answers ((StartLoad.init []).run some (fun _ => [])
    [.openFile, .read 1, .register old (b! "k"), .record 0, .register other (b! "l"), .list 0 true, .record 1])
    (b! "a") :=
  C107_found_partial some _ [] [.openFile, .read 1] [] [.register other (b! "l")] [.record 1] old (b! "k") true

/-- Only the two. -/
example (a : Bytes) (h : Answers (peer.run some (fun _ => [])
    [.register old (b! "k"), .record 0, .register other (b! "l"), .list 0 true]) a) :
    a = b! "a" ∨ a = b! "b" := by
  rcases C107_only _ running _ a h with ⟨r, hr, -⟩ | ⟨r, id, hr, rfl⟩
  · cases hr
  · simp [told] at hr
    rcases hr with ⟨rfl, -⟩ | ⟨rfl, -⟩
    · exact .inl rfl
    · exact .inr rfl

/-- Lost. -/
example : let g' := peer.run some (fun _ => []) [.register old (b! "k"), .record 0, .list 0 false]
    Answers g' (b! "a") ∧ ∃ st n, loadRecords some g'.file = .ok (st, n) ∧ st.dhtAddresses.get (b! "a") = none ∧
      st.records.get (b! "a") = none :=
  C107_unsaved_counterexample _ running old (b! "k") rfl

end RegAckDemo

end Verif
