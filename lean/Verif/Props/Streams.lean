import Verif.Model.Streams

/-!
# C113: one stream for each envelope

Spec. A sender sends its envelopes one after another, so they should be handed over at the other node
in this order, and what the sender is told should be what happened.
-/

namespace Verif

namespace Streams

/-- The sender of a stream. -/
def owner (s : Streams) (i : Nat) : Option Nat := (s.streams[i]?).map (·.sender)

/-- The envelopes that a sender has sent, in order. -/
def sentBy (s : Streams) (k : Nat) : List Envelope := (s.streams.filter fun x => x.sender == k).map (·.envelope)

/-- The envelopes of a sender that have been handed over, in order. -/
def handedFrom (s : Streams) (k : Nat) : List Envelope :=
  ((s.handed.filterMap fun i => s.streams[i]?).filter fun x => x.sender == k).map (·.envelope)

/-- The handler has handed the envelope over or refused it. -/
def settled : StreamPhase → Bool
  | .answered _ => true
  | _ => false

/-- What holds at all times. -/
structure Inv (s : Streams) : Prop where
  /-- a sender waits at its latest stream -/
  latest : ∀ k i, s.waiting k = some i → s.owner i = some k ∧ ∀ j, i < j → s.owner j ≠ some k
  /-- the others of its streams are answered or broken -/
  done : ∀ i x, s.streams[i]? = some x → s.waiting x.sender ≠ some i → i ∉ s.broken →
    settled x.phase = true ∧ ∃ ok, (i, ok) ∈ s.told
  handed : ∀ i, i ∈ s.handed → ∃ x, s.streams[i]? = some x ∧ x.phase ≠ .underway ∧ x.phase ≠ .read
  success : ∀ i x, s.streams[i]? = some x → x.phase = .over ∨ x.phase = .answered true → i ∈ s.handed
  told : ∀ i ok, (i, ok) ∈ s.told → (∃ x, s.streams[i]? = some x ∧ x.phase = .answered ok) ∧
    ∀ k, s.waiting k ≠ some i
  order : s.handed.Pairwise fun i j => s.owner i = s.owner j → i < j ∨ j ∈ s.broken
  once : s.handed.Nodup
  brokenOnce : s.broken.Nodup ∧ ∀ i ∈ s.broken, i < s.streams.length ∧ (∀ k, s.waiting k ≠ some i) ∧
    ∀ ok, (i, ok) ∉ s.told

theorem owner_some {s : Streams} {i k : Nat} (h : s.owner i = some k) : ∃ x, s.streams[i]? = some x ∧ x.sender = k := by
  unfold owner at h
  cases hx : s.streams[i]? with
  | none => simp [hx] at h
  | some x => exact ⟨x, rfl, by simpa [hx] using h⟩

theorem owner_goes (s : Streams) {i : Nat} {x : EnvelopeStream} (h : s.streams[i]? = some x) (p : StreamPhase)
    (j : Nat) : (s.goes i x p).owner j = s.owner j := by
  unfold owner goes
  by_cases hj : i = j
  · subst hj
    have : i < s.streams.length := by
      rw [List.getElem?_eq_some_iff] at h; exact h.1
    have hx : s.streams[i] = x := by
      rw [List.getElem?_eq_some_iff] at h; exact h.2
    simp [this, hx]
  · simp [List.getElem?_set_ne hj]

theorem goes_get (s : Streams) {i : Nat} {x : EnvelopeStream} (h : s.streams[i]? = some x) (p : StreamPhase)
    (j : Nat) : (s.goes i x p).streams[j]? = if i = j then some { x with phase := p } else s.streams[j]? := by
  have : i < s.streams.length := by
    rw [List.getElem?_eq_some_iff] at h; exact h.1
  unfold goes
  by_cases hj : i = j
  · subst hj; simp [this]
  · simp [List.getElem?_set_ne hj, hj]

/-- A handler goes on, and perhaps hands its envelope over. -/
theorem Inv.goes {s : Streams} (h : s.Inv) {i : Nat} {x : EnvelopeStream} (hx : s.streams[i]? = some x)
    (p : StreamPhase) (hd : List Nat)
    (hset : settled x.phase = false)
    (hp : (hd = [] ∧ (x.phase = .underway ∧ p = .read ∨ x.phase = .read ∧ p = .answered false ∨
      x.phase = .over ∧ ∃ ok, p = .answered ok)) ∨ (hd = [i] ∧ x.phase = .read ∧ p = .over)) :
    Inv { s.goes i x p with handed := s.handed ++ hd } := by
  have hw : i ∉ s.broken → s.waiting x.sender = some i := by
    intro hb
    apply Classical.byContradiction
    intro hc
    have := (h.done i x hx hc hb).1
    rw [hset] at this; cases this
  refine ⟨?_, ?_, ?_, ?_, ?_, ?_, ?_, ?_⟩
  · intro k j hk
    have := h.latest k j hk
    refine ⟨?_, fun j' hj' => ?_⟩
    · exact (owner_goes s hx p j).trans this.1
    · intro hc
      exact this.2 j' hj' ((owner_goes s hx p j').symm.trans hc)
  · intro j y hy hwj hb
    have hy' : (s.goes i x p).streams[j]? = some y := hy
    rw [goes_get s hx] at hy'
    split at hy'
    · next hij =>
      subst hij
      simp only [Option.some.injEq] at hy'
      subst hy'
      exact absurd (hw hb) hwj
    · exact h.done j y hy' hwj hb
  · intro j hj
    have hg := goes_get s hx p j
    rw [List.mem_append] at hj
    show ∃ y, (s.goes i x p).streams[j]? = some y ∧ _
    rw [hg]
    by_cases hij : i = j
    · rw [if_pos hij]
      refine ⟨_, rfl, ?_⟩
      subst hij
      rcases hp with ⟨rfl, hp⟩ | ⟨rfl, hp⟩
      · obtain ⟨y, hy, h1, h2⟩ := h.handed i (by simpa using hj)
        rw [hx] at hy
        simp only [Option.some.injEq] at hy
        subst hy
        rcases hp with hp | hp | ⟨_, ok, rfl⟩
        · exact absurd hp.1 h1
        · exact absurd hp.1 h2
        · simp
      · rw [hp.2]; simp
    · rw [if_neg hij]
      rcases hj with hj | hj
      · exact h.handed j hj
      · rcases hp with ⟨rfl, _⟩ | ⟨rfl, _⟩
        · simp at hj
        · simp at hj; exact absurd hj.symm hij
  · intro j y hy hph
    have hy' : (s.goes i x p).streams[j]? = some y := hy
    rw [goes_get s hx] at hy'
    show j ∈ s.handed ++ hd
    split at hy'
    · next hij =>
      subst hij
      simp only [Option.some.injEq] at hy'
      subst hy'
      rcases hp with ⟨rfl, hp⟩ | ⟨rfl, _⟩
      · rcases hp with ⟨_, rfl⟩ | ⟨_, rfl⟩ | ⟨ho, ok, rfl⟩
        · simp at hph
        · simp at hph
        · simpa using h.success i x hx (.inl ho)
      · simp
    · exact List.mem_append_left _ (h.success j y hy' hph)
  · intro j ok hj
    obtain ⟨⟨y, hy, hph⟩, hnw⟩ := h.told j ok hj
    refine ⟨?_, hnw⟩
    show ∃ y, (s.goes i x p).streams[j]? = some y ∧ _
    rw [goes_get s hx]
    have : i ≠ j := by
      rintro rfl
      rw [hx] at hy
      simp only [Option.some.injEq] at hy
      subst hy
      rw [hph] at hset; simp [settled] at hset
    rw [if_neg this]
    exact ⟨y, hy, hph⟩
  · show (s.handed ++ hd).Pairwise fun a b => (s.goes i x p).owner a = (s.goes i x p).owner b → a < b ∨ b ∈ s.broken
    simp only [owner_goes s hx p]
    rcases hp with ⟨rfl, _⟩ | ⟨rfl, hph, _⟩
    · simpa using h.order
    · rw [List.pairwise_append]
      refine ⟨h.order, by simp, ?_⟩
      intro a ha b hb hab
      simp only [List.mem_singleton] at hb
      subst hb
      by_cases hbr : b ∈ s.broken
      · exact .inr hbr
      · left
        have hwb := h.latest _ _ (hw hbr)
        rw [hwb.1] at hab
        rcases Nat.lt_trichotomy a b with hlt | heq | hgt
        · exact hlt
        · subst heq
          obtain ⟨y, hy, _, h2⟩ := h.handed a ha
          rw [hx] at hy
          simp only [Option.some.injEq] at hy
          subst hy
          exact absurd hph h2
        · exact absurd hab (hwb.2 a hgt)
  · show (s.handed ++ hd).Nodup
    rcases hp with ⟨rfl, _⟩ | ⟨rfl, hph, _⟩
    · simpa using h.once
    · rw [List.nodup_append]
      refine ⟨h.once, by simp, ?_⟩
      intro a ha b hb hab
      simp only [List.mem_singleton] at hb
      subst hb hab
      obtain ⟨y, hy, _, h2⟩ := h.handed a ha
      rw [hx] at hy
      simp only [Option.some.injEq] at hy
      subst hy
      exact h2 hph
  · refine ⟨h.brokenOnce.1, fun j hj => ?_⟩
    have := h.brokenOnce.2 j hj
    refine ⟨?_, this.2⟩
    show j < (s.streams.set i _).length
    simpa using this.1

theorem inv_init : Inv init := by
  refine ⟨?_, ?_, ?_, ?_, ?_, ?_, ?_, ?_⟩ <;> simp [init]

theorem inv_step {s : Streams} (h : s.Inv) (a : Step) : (s.step a).Inv := by
  cases a with
  | opens k e =>
    rw [step]
    cases hk : s.waiting k with
    | some _ => simpa [hk] using h
    | none =>
      simp only []
      have hget : ∀ (j : Nat) x, (s.streams ++ [(⟨k, e, .underway⟩ : EnvelopeStream)])[j]? = some x →
          s.streams[j]? = some x ∨ (j = s.streams.length ∧ x = ⟨k, e, .underway⟩) := by
        intro j x hj
        rcases Nat.lt_or_ge j s.streams.length with hlt | hge
        · rw [List.getElem?_append_left hlt] at hj; exact .inl hj
        · rw [List.getElem?_append_right hge] at hj
          right
          rcases hz : j - s.streams.length with _ | n
          · rw [hz] at hj
            simp only [List.getElem?_cons_zero, Option.some.injEq] at hj
            exact ⟨by omega, hj.symm⟩
          · rw [hz] at hj; simp at hj
      have hleft : ∀ {j : Nat} {x}, s.streams[j]? = some x →
          (s.streams ++ [(⟨k, e, .underway⟩ : EnvelopeStream)])[j]? = some x := by
        intro j x hj
        have : j < s.streams.length := by rw [List.getElem?_eq_some_iff] at hj; exact hj.1
        rw [List.getElem?_append_left this]; exact hj
      have hown : ∀ j, j < s.streams.length →
          owner { s with
            streams := s.streams ++ [⟨k, e, .underway⟩], waiting := s.await k (some s.streams.length) } j =
          s.owner j := by
        intro j hj
        simp [owner, List.getElem?_append_left hj]
      refine ⟨?_, ?_, ?_, ?_, ?_, ?_, ?_, ?_⟩
      · intro k' i hk'
        simp only [await] at hk'
        split at hk'
        · next heq =>
          subst heq
          simp only [Option.some.injEq] at hk'
          subst hk'
          refine ⟨by simp [owner], fun j hj => ?_⟩
          simp only [owner]
          rw [List.getElem?_eq_none (by simp; omega)]
          simp
        · next hne =>
          have := h.latest k' i hk'
          obtain ⟨x, hx, rfl⟩ := owner_some this.1
          have hi : i < s.streams.length := by rw [List.getElem?_eq_some_iff] at hx; exact hx.1
          refine ⟨(hown i hi).trans this.1, fun j hj hc => ?_⟩
          obtain ⟨y, hy, hyk⟩ := owner_some hc
          rcases hget j y hy with hy | ⟨_, rfl⟩
          · exact this.2 j hj (by simp [owner, hy, hyk])
          · exact hne hyk.symm
      · intro i x hx hw hb
        rcases hget i x hx with hx | ⟨rfl, rfl⟩
        · refine h.done i x hx ?_ hb
          simp only [await] at hw
          intro hc
          split at hw
          · next heq => rw [heq, hk] at hc; cases hc
          · exact hw hc
        · simp [await] at hw
      · intro i hi
        obtain ⟨x, hx, h1, h2⟩ := h.handed i hi
        exact ⟨x, hleft hx, h1, h2⟩
      · intro i x hx hp
        rcases hget i x hx with hx | ⟨rfl, rfl⟩
        · exact h.success i x hx hp
        · simp at hp
      · intro i ok hi
        obtain ⟨⟨x, hx, h1⟩, h2⟩ := h.told i ok hi
        have hi' : i < s.streams.length := by rw [List.getElem?_eq_some_iff] at hx; exact hx.1
        refine ⟨⟨x, hleft hx, h1⟩, fun k' hc => ?_⟩
        simp only [await] at hc
        split at hc
        · simp at hc; omega
        · exact h2 k' hc
      · refine h.order.imp_of_mem ?_
        intro a b ha hb hab hown'
        have hlen : ∀ {c}, c ∈ s.handed → c < s.streams.length := by
          intro c hc
          obtain ⟨x, hx, _⟩ := h.handed c hc
          rw [List.getElem?_eq_some_iff] at hx; exact hx.1
        rw [hown a (hlen ha), hown b (hlen hb)] at hown'
        exact hab hown'
      · exact h.once
      · refine ⟨h.brokenOnce.1, fun j hj => ?_⟩
        obtain ⟨h1, h2, h3⟩ := h.brokenOnce.2 j hj
        refine ⟨by simp; omega, fun k' hc => ?_, h3⟩
        simp only [await] at hc
        split at hc
        · simp at hc; omega
        · exact h2 k' hc
  | reads i =>
    rw [step]
    split
    · next k e hx =>
      have := h.goes hx .read [] rfl (.inl ⟨rfl, .inl ⟨rfl, rfl⟩⟩)
      rw [List.append_nil] at this
      exact this
    · exact h
  | refuses i =>
    rw [step]
    split
    · next k e hx =>
      have := h.goes hx (.answered false) [] rfl (.inl ⟨rfl, .inr (.inl ⟨rfl, rfl⟩)⟩)
      rw [List.append_nil] at this
      exact this
    · exact h
  | hands i =>
    rw [step]
    split
    · next k e hx => exact h.goes hx .over [i] rfl (.inr ⟨rfl, rfl, rfl⟩)
    · exact h
  | answers i ok =>
    rw [step]
    split
    · next k e hx =>
      have := h.goes hx (.answered ok) [] rfl (.inl ⟨rfl, .inr (.inr ⟨rfl, ok, rfl⟩)⟩)
      rw [List.append_nil] at this
      exact this
    · exact h
  | gets k =>
    rw [step]
    split
    · next i hk =>
      split
      · next k' e ok hx =>
        refine ⟨?_, ?_, h.handed, h.success, ?_, h.order, h.once, h.brokenOnce.1, ?_⟩
        · intro k'' j hj
          simp only [await] at hj
          split at hj
          · cases hj
          · exact h.latest k'' j hj
        · intro j y hy hw hb
          by_cases hij : j = i
          · subst hij
            rw [hx] at hy
            simp only [Option.some.injEq] at hy
            subst hy
            exact ⟨rfl, ok, by simp⟩
          · have hd : settled y.phase = true ∧ ∃ ok, (j, ok) ∈ s.told := by
              refine h.done j y hy ?_ hb
              intro hc
              simp only [await] at hw
              split at hw
              · next heq =>
                rw [heq, hk] at hc
                simp only [Option.some.injEq] at hc
                exact hij hc.symm
              · exact hw hc
            obtain ⟨h1, ok', h2⟩ := hd
            exact ⟨h1, ok', List.mem_append_left _ h2⟩
        · intro j ok' hj
          simp only [List.mem_append, List.mem_singleton, Prod.mk.injEq] at hj
          rcases hj with hj | ⟨rfl, rfl⟩
          · obtain ⟨h1, h2⟩ := h.told j ok' hj
            refine ⟨h1, fun k'' hc => ?_⟩
            simp only [await] at hc
            split at hc
            · cases hc
            · exact h2 k'' hc
          · refine ⟨⟨_, hx, rfl⟩, fun k'' hc => ?_⟩
            simp only [await] at hc
            split at hc
            · cases hc
            · next hne =>
              have h1 := (h.latest k'' j hc).1
              rw [(h.latest k j hk).1] at h1
              simp only [Option.some.injEq] at h1
              exact hne h1.symm
        · intro j hj
          obtain ⟨h1, h2, h3⟩ := h.brokenOnce.2 j hj
          refine ⟨h1, fun k'' hc => ?_, fun ok' hc => ?_⟩
          · simp only [await] at hc
            split at hc
            · cases hc
            · exact h2 k'' hc
          · simp only [List.mem_append, List.mem_singleton, Prod.mk.injEq] at hc
            rcases hc with hc | ⟨rfl, _⟩
            · exact h3 ok' hc
            · exact h2 k hk
      · exact h
    · exact h
  | breaks k =>
    rw [step]
    split
    · next i hk =>
      refine ⟨?_, ?_, h.handed, h.success, ?_, ?_, h.once, ?_, ?_⟩
      · intro k'' j hj
        simp only [await] at hj
        split at hj
        · cases hj
        · exact h.latest k'' j hj
      · intro j y hy hw hb
        simp only [List.mem_append, List.mem_singleton, not_or] at hb
        refine h.done j y hy ?_ hb.1
        intro hc
        simp only [await] at hw
        split at hw
        · next heq =>
          rw [heq, hk] at hc
          simp only [Option.some.injEq] at hc
          exact hb.2 hc.symm
        · exact hw hc
      · intro j ok hj
        obtain ⟨h1, h2⟩ := h.told j ok hj
        refine ⟨h1, fun k'' hc => ?_⟩
        simp only [await] at hc
        split at hc
        · cases hc
        · exact h2 k'' hc
      · refine h.order.imp ?_
        intro a b hab ho
        rcases hab ho with h1 | h1
        · exact .inl h1
        · exact .inr (List.mem_append_left _ h1)
      · show (s.broken ++ [i]).Nodup
        rw [List.nodup_append]
        refine ⟨h.brokenOnce.1, by simp, ?_⟩
        intro a ha b hb hab
        simp only [List.mem_singleton] at hb
        subst hb hab
        exact (h.brokenOnce.2 a ha).2.1 k hk
      · intro j hj
        rw [List.mem_append] at hj
        rcases hj with hj | hj
        · obtain ⟨h1, h2, h3⟩ := h.brokenOnce.2 j hj
          refine ⟨h1, fun k'' hc => ?_, h3⟩
          simp only [await] at hc
          split at hc
          · cases hc
          · exact h2 k'' hc
        · simp only [List.mem_singleton] at hj
          subst hj
          obtain ⟨hl, _⟩ := h.latest k j hk
          obtain ⟨x, hx, hxk⟩ := owner_some hl
          refine ⟨by rw [List.getElem?_eq_some_iff] at hx; exact hx.1, fun k'' hc => ?_, fun ok hc => ?_⟩
          · simp only [await] at hc
            split at hc
            · cases hc
            · next hne =>
              have := (h.latest k'' j hc).1
              rw [hl] at this
              simp only [Option.some.injEq] at this
              exact hne this.symm
          · exact (h.told j ok hc).2 k hk
    · exact h

theorem inv_run (steps : List Step) : Inv (run init steps) := by
  suffices ∀ s, Inv s → Inv (run s steps) from this _ inv_init
  induction steps with
  | nil => exact fun s h => h
  | cons a steps ih => exact fun s h => ih _ (inv_step h a)

/-! ## Lists of positions -/

theorem filterMap_sublist {α : Type} (xs : List α) (l : List Nat) (h : l.Pairwise (· < ·)) :
    (l.filterMap fun i => xs[i]?).Sublist xs := by
  induction xs generalizing l with
  | nil => simp
  | cons x xs ih =>
    have key : ∀ l : List Nat, l.Pairwise (· < ·) → (∀ i ∈ l, 0 < i) →
        (l.filterMap fun i => (x :: xs)[i]?).Sublist xs := by
      intro l hl hpos
      have h1 : (l.filterMap fun i => (x :: xs)[i]?) = (l.map (· - 1)).filterMap fun i => xs[i]? := by
        clear hl
        induction l with
        | nil => rfl
        | cons i l ihl =>
          have hi := hpos i (by simp)
          obtain ⟨n, rfl⟩ : ∃ n, i = n + 1 := ⟨i - 1, by omega⟩
          rw [List.filterMap_cons, List.map_cons, List.filterMap_cons, ihl (fun j hj => hpos j (by simp [hj]))]
          simp
      rw [h1]
      apply ih
      rw [List.pairwise_map]
      refine hl.imp_of_mem ?_
      intro a b ha hb hab
      have := hpos a ha
      omega
    cases l with
    | nil => simp
    | cons i l =>
      rw [List.pairwise_cons] at h
      rcases Nat.eq_zero_or_pos i with rfl | hi
      · rw [List.filterMap_cons]
        simp only [List.getElem?_cons_zero]
        exact (key l h.2 h.1).cons_cons x
      · refine (key (i :: l) (List.pairwise_cons.mpr h) ?_).cons x
        intro j hj
        rcases List.mem_cons.mp hj with rfl | hj
        · exact hi
        · exact Nat.lt_trans hi (h.1 j hj)

theorem sorted_ext (l l' : List Nat) (h : l.Pairwise (· < ·)) (h' : l'.Pairwise (· < ·))
    (hm : ∀ i, i ∈ l ↔ i ∈ l') : l = l' := by
  induction l generalizing l' with
  | nil =>
    cases l' with
    | nil => rfl
    | cons a l' => exact absurd ((hm a).mpr (by simp)) (by simp)
  | cons a l ih =>
    cases l' with
    | nil => exact absurd ((hm a).mp (by simp)) (by simp)
    | cons b l' =>
      rw [List.pairwise_cons] at h h'
      have hab : a = b := by
        have h1 := (hm a).mp (by simp)
        have h2 := (hm b).mpr (by simp)
        rcases List.mem_cons.mp h1 with h1 | h1
        · exact h1
        · rcases List.mem_cons.mp h2 with h2 | h2
          · exact h2.symm
          · have := h'.1 a h1
            have := h.1 b h2
            omega
      subst hab
      congr 1
      apply ih l' h.2 h'.2
      intro i
      have := hm i
      simp only [List.mem_cons] at this
      constructor
      · intro hi
        rcases this.mp (.inr hi) with rfl | h3
        · exact absurd (h.1 i hi) (by omega)
        · exact h3
      · intro hi
        rcases this.mpr (.inr hi) with rfl | h3
        · exact absurd (h'.1 i hi) (by omega)
        · exact h3

theorem filterMap_owner (s : Streams) (k : Nat) (l : List Nat) :
    ((l.filterMap fun i => s.streams[i]?).filter fun x => x.sender == k) =
      (l.filter fun i => s.owner i == some k).filterMap fun i => s.streams[i]? := by
  induction l with
  | nil => rfl
  | cons i l ih =>
    rw [List.filterMap_cons, List.filter_cons]
    cases hx : s.streams[i]? with
    | none =>
      have : s.owner i = none := by simp [owner, hx]
      simpa [this] using ih
    | some x =>
      have : s.owner i = some x.sender := by simp [owner, hx]
      simp only [this]
      by_cases hk : x.sender = k
      · simp [hk, ih, hx]
      · simp [hk, ih]

theorem range_get {α : Type} (xs : List α) : ((List.range xs.length).filterMap fun i => xs[i]?) = xs := by
  induction xs with
  | nil => rfl
  | cons x xs ih =>
    rw [List.length_cons, List.range_succ_eq_map, List.filterMap_cons, List.filterMap_map]
    simp only [List.getElem?_cons_zero]
    congr 1

/-- The positions of what a sender had handed over, if none of its streams broke. -/
theorem sorted_unbroken {s : Streams} (h : s.Inv) (k : Nat) (hb : ∀ i ∈ s.broken, s.owner i ≠ some k) :
    (s.handed.filter fun i => s.owner i == some k).Pairwise (· < ·) := by
  rw [List.pairwise_filter]
  refine h.order.imp ?_
  intro i j hij hi hj
  simp only [beq_iff_eq] at hi hj
  rcases hij (hi.trans hj.symm) with h1 | h1
  · exact h1
  · exact absurd hj (hb j h1)

/-- **C113, partial.** An envelope is handed over after a later one of the same sender only if its stream
broke for the sender. Missing from the property: then it may be, `C113_counterexample`. -/
theorem C113_order_partial (steps : List Step) :
    (run init steps).handed.Pairwise fun i j =>
      (run init steps).owner i = (run init steps).owner j → i < j ∨ j ∈ (run init steps).broken :=
  (inv_run steps).order

/-- **C113.** If none of its streams broke, the envelopes of a sender are handed over in the order in
which they were sent, each at most once. -/
theorem C113_unbroken (steps : List Step) (k : Nat)
    (hb : ∀ i ∈ (run init steps).broken, (run init steps).owner i ≠ some k) :
    ((run init steps).handedFrom k).Sublist ((run init steps).sentBy k) := by
  have h := inv_run steps
  unfold handedFrom sentBy
  rw [filterMap_owner]
  have h1 := filterMap_sublist (run init steps).streams _ (sorted_unbroken h k hb)
  have h2 := h1.filter fun x => x.sender == k
  rw [← filterMap_owner, List.filter_filter] at h2
  rw [← filterMap_owner]
  simp only [Bool.and_self] at h2
  exact h2.map _

/-- **C113.** Whatever breaks, every stream's envelope is handed over at most once; and a sender is told
what happened: nothing about a stream that broke for it, and success only after the envelope was handed
over. -/
theorem C113_told (steps : List Step) :
    (run init steps).handed.Nodup ∧ (∀ i, (i, true) ∈ (run init steps).told → i ∈ (run init steps).handed) ∧
      ∀ i ∈ (run init steps).broken, ∀ ok, (i, ok) ∉ (run init steps).told := by
  have h := inv_run steps
  refine ⟨h.once, fun i hi => ?_, fun i hi => (h.brokenOnce.2 i hi).2.2⟩
  obtain ⟨⟨x, hx, hp⟩, _⟩ := h.told i true hi
  exact h.success i x hx (.inr hp)

/-- **C113.** When a sender is done, none of its streams broke, and it was not told of a failure, exactly
what it sent has been handed over, in this order. -/
theorem C113_all (steps : List Step) (k : Nat) (hw : (run init steps).waiting k = none)
    (hb : ∀ i ∈ (run init steps).broken, (run init steps).owner i ≠ some k)
    (hf : ∀ i, (i, false) ∈ (run init steps).told → (run init steps).owner i ≠ some k) :
    (run init steps).handedFrom k = (run init steps).sentBy k := by
  have h := inv_run steps
  have hs := sorted_unbroken h k hb
  have hr : ((List.range (run init steps).streams.length).filter
      fun i => (run init steps).owner i == some k).Pairwise (· < ·) :=
    (List.pairwise_lt_range).filter _
  have := sorted_ext _ _ hs hr ?_
  · unfold handedFrom sentBy
    rw [filterMap_owner, this, ← filterMap_owner, range_get]
  · intro i
    simp only [List.mem_filter, List.mem_range, beq_iff_eq, and_congr_left_iff]
    intro hi
    obtain ⟨x, hx, hxk⟩ := owner_some hi
    have hlt : i < (run init steps).streams.length := by
      rw [List.getElem?_eq_some_iff] at hx; exact hx.1
    refine ⟨fun _ => hlt, fun _ => ?_⟩
    have hd := h.done i x hx (by rw [hxk, hw]; simp) (fun hc => hb i hc hi)
    obtain ⟨_, ok, hok⟩ := hd
    cases ok with
    | false => exact absurd hi (hf i hok)
    | true => exact (C113_told steps).2.1 i hok

/-! ## What goes wrong -/

/-- An envelope of the example. -/
def word (b : UInt8) : Envelope := ⟨b! "bob", b! "alice", b! "p", [b], b! ""⟩

/-- The stream of the first envelope breaks after the other node has read it; the second one is handed
over before it. -/
def overtaking : List Step :=
  [.opens 0 (word 1), .reads 0, .breaks 0, .opens 0 (word 2), .reads 1, .hands 1, .answers 1 true, .gets 0, .hands 0]

/-- **C113 is false as stated.** The envelopes are handed over the other way round, although only one
stream broke and each was sent when the one before was dealt with; and the sender has an error about an
envelope that was handed over. -/
theorem C113_counterexample :
    (run init overtaking).sentBy 0 = [word 1, word 2] ∧ (run init overtaking).handedFrom 0 = [word 2, word 1] ∧
      (run init overtaking).broken = [0] ∧ (run init overtaking).told = [(1, true)] := by
  decide

/-- Nothing broke: two senders, four envelopes, one refused. -/
example :
    let s := run init [.opens 0 (word 1), .opens 1 (word 7), .reads 1, .reads 0, .hands 0, .answers 0 true, .gets 0,
      .opens 0 (word 2), .reads 2, .refuses 2, .hands 1, .gets 0, .opens 0 (word 3), .reads 3, .hands 3,
      .answers 1 true, .gets 1]
    s.sentBy 0 = [word 1, word 2, word 3] ∧ s.handedFrom 0 = [word 1, word 3] ∧ s.handed = [0, 1, 3] ∧
      s.told = [(0, true), (2, false), (1, true)] ∧ s.waiting 0 = some 3 := by
  decide

end Streams

end Verif
