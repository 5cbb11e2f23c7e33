import Verif.Props.NodeMain

/-!
# C69: how a start ends

A node that does not start reports an error or crashes; which of the two, for every configuration. And the delay of
every configuration whose number of seconds is in the range of 64-bit integers.
-/

namespace Verif

variable {η : Type}

/-- The entry peers are all fine up to one that is no multiaddress. -/
def NoAddressFirst (W : StartWorld η) (as : List Bytes) : Prop :=
  ∃ before a after, as = before ++ a :: after ∧ (∀ x ∈ before, ∃ p, W.addrInfo x = some (some p)) ∧
    W.addrInfo a = none

theorem peersAddrInfo_panic (W : StartWorld η) (as : List Bytes) :
    peersAddrInfo W as = .panic ↔ NoAddressFirst W as := by
  induction as with
  | nil =>
    simp only [peersAddrInfo, reduceCtorEq, false_iff]
    rintro ⟨b, a, c, h, _⟩
    simp at h
  | cons a as ih =>
    unfold peersAddrInfo
    cases ha : W.addrInfo a with
    | none => exact ⟨fun _ => ⟨[], a, as, rfl, by simp, ha⟩, fun _ => rfl⟩
    | some o =>
      cases o with
      | none =>
        simp only [reduceCtorEq, false_iff]
        rintro ⟨b, x, c, h, hb, hx⟩
        cases b with
        | nil =>
          simp only [List.nil_append, List.cons.injEq] at h
          rw [← h.1, ha] at hx
          cases hx
        | cons y b =>
          simp only [List.cons_append, List.cons.injEq] at h
          obtain ⟨p, hp⟩ := hb y (by simp)
          rw [← h.1, ha] at hp
          cases hp
      | some p =>
        have hs : ((peersAddrInfo W as).bind fun ps => (.ok (p :: ps) : Res StartErr (List η))) = .panic ↔
            peersAddrInfo W as = .panic := by
          cases peersAddrInfo W as <;> simp [Res.bind]
        dsimp only
        rw [hs, ih]
        constructor
        · rintro ⟨b, x, c, rfl, hb, hx⟩
          refine ⟨a :: b, x, c, rfl, ?_, hx⟩
          intro y hy
          rcases List.mem_cons.1 hy with rfl | hy
          · exact ⟨p, ha⟩
          · exact hb y hy
        · rintro ⟨b, x, c, h, hb, hx⟩
          cases b with
          | nil =>
            simp only [List.nil_append, List.cons.injEq] at h
            rw [← h.1, ha] at hx
            cases hx
          | cons y b =>
            simp only [List.cons_append, List.cons.injEq] at h
            exact ⟨b, x, c, h.2, fun z hz => hb z (List.mem_cons_of_mem _ hz), hx⟩

theorem checkOwnRecord_panic (W : StartWorld η) (r : AgentRecord) (k : Bytes) :
    checkOwnRecord W r k = .panic ↔ W.porCheck r r.address k = .panic := by
  unfold checkOwnRecord
  cases W.porCheck r r.address k with
  | panic => simp
  | err e => simp
  | ok c => cases c <;> simp

theorem bind_panic {ε α β : Type} (r : Res ε α) (f : α → Res ε β) :
    r.bind f = .panic ↔ r = .panic ∨ ∃ a, r = .ok a ∧ f a = .panic := by
  cases r <;> simp [Res.bind]

/-- **C69.** Exactly which starts crash; all others either run with the settings of `C69_peer_iff` and
`C69_client_iff` or report an error. -/
theorem C69_crash_iff (W : StartWorld η) (c : NodeConfig GoFloat) :
    startNode W c = .panic ↔
      (c.portPublic ≠ 0 → W.ip4 c.host c.port = true ∧ W.dns4 c.hostPublic c.portPublic = true) ∧
      ∃ key, W.publicKeyOf c.id = some key ∧
        (NoAddressFirst W c.entryPeers ∨
          ((∀ a ∈ c.entryPeers, ∃ p, W.addrInfo a = some (some p)) ∧
            ∃ r, c.record = some r ∧ (c.portPublic = 0 → r.address ≠ []) ∧
              W.porCheck r.copied r.address key = .panic)) := by
  have hall : (∃ ps, peersAddrInfo W c.entryPeers = .ok ps) ↔
      ∀ a ∈ c.entryPeers, ∃ p, W.addrInfo a = some (some p) := by
    generalize c.entryPeers = as
    constructor
    · rintro ⟨ps, h⟩ a ha
      have h := (peersAddrInfo_ok W _ _).1 h
      have : W.addrInfo a ∈ as.map W.addrInfo := List.mem_map_of_mem ha
      rw [h] at this
      obtain ⟨p, _, hp⟩ := List.mem_map.1 this
      exact ⟨p, hp.symm⟩
    · intro h
      induction as with
      | nil => exact ⟨[], rfl⟩
      | cons a as ih =>
        obtain ⟨ps, hps⟩ := ih fun x hx => h x (List.mem_cons_of_mem _ hx)
        obtain ⟨p, hp⟩ := h a (by simp)
        exact ⟨p :: ps, by simp [peersAddrInfo, hp, hps, Res.bind]⟩
  unfold startNode NodeConfig.runsAsPeer
  by_cases h0 : c.portPublic = 0
  · simp only [h0, bne_self_eq_false, Bool.false_eq_true, if_false, ne_eq, not_true, false_implies, true_and,
      true_implies]
    unfold startClient
    cases W.publicKeyOf c.id with
    | none => simp
    | some key =>
      dsimp only
      rw [bind_panic, peersAddrInfo_panic, ← hall]
      simp only [Option.some.injEq, exists_eq_left']
      apply or_congr_right
      constructor
      · rintro ⟨ps, hps, h⟩
        refine ⟨⟨ps, hps⟩, ?_⟩
        cases hr : c.record with
        | none => rw [hr] at h; cases h
        | some r =>
          rw [hr] at h
          dsimp only at h
          split at h
          · cases h
          · rename_i ha
            rw [bind_panic, checkOwnRecord_panic] at h
            rcases h with h | ⟨_, _, h⟩
            · exact ⟨r, rfl, ha, h⟩
            · split at h <;> cases h
      · rintro ⟨⟨ps, hps⟩, r, hr, ha, hp⟩
        refine ⟨ps, hps, ?_⟩
        rw [hr]
        dsimp only
        rw [if_neg ha, bind_panic, checkOwnRecord_panic]
        exact Or.inl hp
  · rw [if_pos (by simpa using h0)]
    simp only [ne_eq, h0, not_false_eq_true, true_implies, false_implies, true_and]
    unfold startPeer
    cases h1 : W.ip4 c.host c.port with
    | false => simp
    | true =>
      cases h2 : W.dns4 c.hostPublic c.portPublic with
      | false => simp
      | true =>
        simp only [Bool.true_eq_false, if_false, and_self, true_and]
        cases W.publicKeyOf c.id with
        | none => simp
        | some key =>
          dsimp only
          rw [bind_panic, peersAddrInfo_panic, ← hall]
          simp only [Option.some.injEq, exists_eq_left']
          apply or_congr_right
          constructor
          · rintro ⟨ps, hps, h⟩
            refine ⟨⟨ps, hps⟩, ?_⟩
            cases hr : c.record with
            | none => rw [hr] at h; cases h
            | some r =>
              rw [hr] at h
              simp only [Option.map_some] at h
              rw [bind_panic, checkOwnRecord_panic] at h
              rcases h with h | ⟨_, _, h⟩
              · exact ⟨r, rfl, h⟩
              · cases h
          · rintro ⟨⟨ps, hps⟩, r, hr, hp⟩
            refine ⟨ps, hps, ?_⟩
            rw [hr]
            simp only [Option.map_some]
            rw [bind_panic, checkOwnRecord_panic]
            exact Or.inl hp

/-- A rational number without its fraction. -/
def Truncated (q : Rat) (n : Int) : Prop :=
  (0 ≤ q → (n : Rat) ≤ q ∧ q < n + 1) ∧ (q < 0 → (n : Rat) - 1 < q ∧ q ≤ n)

/-- **C69.** The delay of every configuration: none without one, and otherwise the seconds without their fraction,
in nanoseconds, kept in 64 bits. -/
theorem C69_delay_all (W : StartWorld η) :
    delayOf W none = 0 ∧
    ∀ q n, Truncated q n → -(2 ^ 63) ≤ n → n < 2 ^ 63 →
      ∃ k : Int, delayOf W (some (.finite q)) = n * 1000000000 + k * 2 ^ 64 ∧
        -(2 ^ 63) ≤ delayOf W (some (.finite q)) ∧ delayOf W (some (.finite q)) < 2 ^ 63 := by
  refine ⟨rfl, ?_⟩
  intro q n ht h1 h2
  have hn : (if 0 ≤ q then q.floor else q.ceil) = n := by
    split
    · rename_i h
      obtain ⟨a, b⟩ := ht.1 h
      have := Rat.le_floor_iff.2 a
      have := Rat.floor_lt_iff.2 (show q < ((n + 1 : Int) : Rat) by simpa using b)
      omega
    · rename_i h
      obtain ⟨a, b⟩ := ht.2 (Rat.not_le.1 h)
      have := Rat.ceil_le_iff.2 b
      have := Rat.lt_ceil_iff.2 (show ((n - 1 : Int) : Rat) < q by simpa using a)
      omega
  have hd : delayOf W (some (.finite q)) = wrapInt64 (n * 1000000 * 1000) := by
    unfold delayOf
    dsimp only
    by_cases hz : q = 0
    · subst hz
      rw [if_pos rfl]
      have : n = 0 := by rw [← hn]; rfl
      rw [this]
      rfl
    · rw [if_neg (by simpa using hz)]
      simp only [GoFloat.toInt64, hn]
      rw [if_pos ⟨h1, h2⟩]
  rw [hd]
  unfold wrapInt64
  refine ⟨-((n * 1000000 * 1000 + 2 ^ 63) / 2 ^ 64), ?_, ?_, ?_⟩ <;> omega

/-- Half a second, and minus two seconds. -/
example : Truncated (1 / 2) 0 ∧ Truncated (-2) (-2) ∧ ¬ Truncated (-2) (-1) := by
  refine ⟨⟨fun _ => ?_, fun h => ?_⟩, ⟨fun h => ?_, fun _ => ?_⟩, fun h => ?_⟩
  · decide +kernel
  · exact absurd h (by decide +kernel)
  · exact absurd h (by decide +kernel)
  · decide +kernel
  · exact absurd (h.2 (by decide +kernel)) (by decide +kernel)

end Verif
