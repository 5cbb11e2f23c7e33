import Verif.Props.Dialogue2

/-!
# Property C12

Rejected opening messages.
-/

namespace Verif

/-- **C12 (partial).** An opening message that is rejected leaves every existing dialogue, every
look-up, every per-counterparty list and the active and terminal reports unchanged. Partial:
the full claim also says that a later valid opening with the same reference is accepted, which
is false (`C12_reference_burned`), and that a failed `Create` stores nothing, which is false
too (`C12_failed_create_leaves_dialogue`). -/
theorem C12_rejected_opening_invisible_partial {me : Bytes} {keep : Bool} {rules : RulesDecl}
    {s : Sys} (h : Later Orderly (Sys.new me keep rules) s) {m : Message} {nonce : Bytes}
    (ho : IsOpening me m) {e : DErr} (hf : (s.call (.update m nonce)).2 = .failed e) :
    SameView s (s.call (.update m nonce)).1 := by
  obtain ⟨hi, hm, hx⟩ := orderly_inv h
  rcases hu : s.update m nonce with ⟨s', r⟩
  have e1 : s.call (.update m nonce) = (s', r.report fun p => .accepted p none) := by
    simp [Sys.call, hu]
  rw [e1] at hf ⊢
  simp only at hf ⊢
  have hr : r = .err e := by
    cases r with
    | ok q => simp [Res.report] at hf
    | err e' => simp [Res.report] at hf; rw [hf]
    | panic => simp [Res.report] at hf
  subst hr
  have same : SameView s s :=
    ⟨fun _ _ h => h, fun _ => rfl, fun _ => rfl, fun _ => Iff.rfl, fun _ => Iff.rfl⟩
  have hm' : MInv s' := hm.update hu (by simp)
  -- it is enough to compare the heap, the label map, the lists and the terminal set
  have build : (∀ (p : Nat) (d : Dialogue), s.heap[p]? = some d → s'.heap[p]? = some d) →
      (∀ l, s'.byLabel.get l = s.byLabel.get l) → (∀ a, s'.addressList a = s.addressList a) →
      (∀ l p, s.byLabel.get l = some p → s'.terminal.contains l = s.terminal.contains l) →
      SameView s s' := by
    intro h1 h2 h3 h4
    refine ⟨h1, h2, h3, ?_, ?_⟩
    · intro p
      rw [mem_inActiveState, mem_inActiveState]
      constructor
      · rintro ⟨l, ha, hb⟩; rw [h2] at hb; rw [h4 l p hb] at ha; exact ⟨l, ha, hb⟩
      · rintro ⟨l, ha, hb⟩; rw [← h4 l p hb] at ha; rw [← h2] at hb; exact ⟨l, ha, hb⟩
    · intro p
      rw [mem_inTerminalState hm, mem_inTerminalState hm']
      constructor
      · rintro ⟨l, ha, hb⟩; rw [h2] at hb; rw [h4 l p hb] at ha; exact ⟨l, ha, hb⟩
      · rintro ⟨l, ha, hb⟩; rw [← h4 l p hb] at ha; rw [← h2] at hb; exact ⟨l, ha, hb⟩
  rcases Sys.update_cases hu with ⟨_, _, rfl, _⟩ | ⟨h1, h2, h3, hcase⟩
  · exact same
  rw [hi.selfEq] at h2 h3
  rcases hcase with ⟨_, _, _, hp⟩ | ⟨_, _, _, ⟨s1, p, hc, hf⟩ | ⟨e', hc, _⟩ | ⟨_, hp⟩⟩ |
    ⟨_, _, hid, _⟩ | ⟨hno, _⟩
  · simp at hp
  · -- created, refused and removed
    have hx1 := hx.createOpponentInitiated hi h2 hc
    have hi1 := hi.createOpponentInitiated h2 hc
    rcases Sys.createOpponentInitiated_cases hc with ⟨he, _⟩ | ⟨_, _, hcr⟩
    · simp at he
    rcases Sys.create_cases hcr with ⟨he, _⟩ | ⟨he, _⟩ | ⟨hp, hinc, hpres, hs1⟩
    · simp at he
    · simp at he
    simp only [Res.ok.injEq] at hp
    simp only [Option.getD_some] at hpres hs1
    obtain ⟨_, hheap, hbl⟩ := Sys.create_heap hcr
    simp only [Option.getD_some] at hheap hbl
    rcases Sys.updateFound_cases hf with ⟨hp, _⟩ | hp | ⟨q, hq, ⟨m', _, he⟩ | ⟨e', hd, _, ⟨hp, _⟩ | ⟨_, d, hd', hrm⟩⟩⟩
    · simp at hp
    · simp at hp
    · simp at he
    · simp at hp
    simp only [Option.some.injEq] at hq
    subst hq
    have hpn : s1.byLabel.get ⟨⟨m.reference.starter, nonce⟩, m.sender, m.sender⟩ = some p := by
      rw [hbl]; exact GoMap.get_set_self _ _ _
    have hdl : d.label = ⟨⟨m.reference.starter, nonce⟩, m.sender, m.sender⟩ := hi1.labelOf hpn hd'
    rw [hdl] at hrm
    obtain ⟨_, _, _, r4, r5, r6, r7, r8⟩ := Sys.removeDialogue_ok hrm
    rw [GoMap.has_eq_false_iff] at hpres
    have hhas : s1.byLabel.has ⟨⟨m.reference.starter, nonce⟩, m.sender, m.sender⟩ = true := by
      rw [GoMap.has_iff]; exact ⟨p, hpn⟩
    rw [if_pos hhas] at r8
    obtain ⟨arr, harr, hba⟩ := r8
    have hrm' := Sys.removeFromArray_eq (hx1.mem hi1 hpn) (hx1.recognise hi1 hpn) (hx1.nodup _)
    rw [hrm'] at harr
    simp only [Res.ok.injEq] at harr
    have hnp : p ∉ s.addressList m.sender := by
      intro hin
      obtain ⟨x, hx', _⟩ := (hx.index _ _).1 hin
      have := (List.getElem?_eq_some_iff.1 hx').1
      rw [hp] at this
      exact absurd this (Nat.lt_irrefl _)
    have hl1 : ∀ a, s1.addressList a = if a = m.sender then s.addressList m.sender ++ [p]
        else s.addressList a := by
      intro a
      rw [hs1, hp]
      exact Sys.addressList_set _ _ _ _ _ rfl
    refine build ?_ ?_ ?_ ?_
    · intro q x hq
      rw [r4, hheap, List.getElem?_append_left (List.getElem?_eq_some_iff.1 hq).1]
      exact hq
    · intro l
      rw [r5, hbl, GoMap.get_erase, GoMap.get_set]
      split
      · rename_i hl; rw [hl, hpres]
      · rfl
    · intro a
      rw [Sys.addressList_set s1 _ a _ s' hba, ← harr, hl1, hl1]
      simp only [if_true]
      split
      · rename_i ha
        rw [ha, List.erase_append_right _ hnp]
        simp
      · rfl
    · intro l q hq
      have hne : l ≠ ⟨⟨m.reference.starter, nonce⟩, m.sender, m.sender⟩ := by
        rintro rfl; rw [hpres] at hq; simp at hq
      have ht : s1.terminal = s.terminal := by rw [hs1]; rfl
      rw [Bool.eq_iff_iff, r7, GSet.contains_remove, ht]
      exact ⟨fun h => h.2, fun h => ⟨hne, h⟩⟩
  · -- refused before anything was stored
    rcases Sys.createOpponentInitiated_cases hc with ⟨_, rfl⟩ | ⟨_, _, hcr⟩
    · exact same
    rcases Sys.create_cases hcr with ⟨_, rfl, _⟩ | ⟨_, rfl, _⟩ | ⟨he, _⟩
    · exact same
    · exact build (fun _ _ h => h) (fun _ => rfl) (fun _ => rfl) (fun _ _ _ => rfl)
    · simp at he
  · simp at hp
  · exact absurd ho.id hid
  · rcases hno with ⟨_, hn⟩ | ⟨hn, _⟩ | ⟨_, _, hn⟩
    · exact absurd ho.reference.2 hn
    · exact absurd hn ho.reference.1
    · rw [ho.id] at hn; simp at hn

/-- Non-vacuity: `eve` opens with a performative that is not initial. -/
example : IsOpening Demo.me (Demo.msg (b! "eve") Demo.me (b! "e7") [] 1 0 (b! "propose")) ∧
    (Demo.s4.call (.update (Demo.msg (b! "eve") Demo.me (b! "e7") [] 1 0 (b! "propose"))
      (b! "n9"))).2 = .failed .badInitialPerformative :=
  ⟨⟨by decide, rfl, by decide, rfl⟩, by decide⟩

/-- **C12 is false: the reference is used up.** A valid opening message that would have been accepted is
refused because an invalid one with the same reference came before it. By `C08_no_second_opening` this is
so for every opening message with this reference from this sender, forever. -/
theorem C12_reference_burned :
    ∃ (s : Sys) (bad good : Message), Reachable Demo.me false Demo.rules s ∧
      IsOpening Demo.me bad ∧ IsOpening Demo.me good ∧
      (s.call (.update bad (b! "x"))).2 = .failed .badInitialPerformative ∧
      (s.call (.update good (b! "y"))).2 = .accepted (some 2) none ∧
      ((s.call (.update bad (b! "x"))).1.call (.update good (b! "y"))).2 =
        .failed .incompletePresent :=
  ⟨Demo.s4, Demo.msg (b! "eve") Demo.me (b! "e7") [] 1 0 (b! "propose"),
    Demo.msg (b! "eve") Demo.me (b! "e7") [] 1 0 (b! "cfp"), Demo.r4,
    ⟨by decide, rfl, by decide, rfl⟩, ⟨by decide, rfl, by decide, rfl⟩,
    by decide, by decide, by decide⟩

/-- **C12 is false: a failed `Create` leaves a stored, empty dialogue** and reports no error. -/
theorem C12_failed_create_leaves_dialogue :
    ∃ (s : Sys) (c : Call), Reachable Demo.me false Demo.rules s ∧
      (∃ m, (s.call c).2 = .accepted none m) ∧
      s.withCounterparty (b! "zoe") = [] ∧
      ∃ p d, (s.call c).1.withCounterparty (b! "zoe") = [p] ∧ (s.call c).1.heap[p]? = some d ∧
        Stored (s.call c).1 p ∧ d.outgoing = [] ∧ d.incoming = [] :=
  ⟨Demo.s4, .create (b! "zoe") (b! "propose") (b! "n7"), Demo.r4, ⟨_, rfl⟩, by decide, 2, _,
    by decide, rfl, ⟨⟨⟨b! "n7", []⟩, b! "zoe", Demo.me⟩, by decide⟩, rfl, rfl⟩

/-- Every failed `Create` on a working store leaves such a dialogue: whenever the call reports
neither a dialogue nor an error, the store holds a new dialogue without messages. -/
theorem C12_every_ignored_create_leaves_dialogue (s : Sys) (cp perf nonce : Bytes)
    {x : Option Message} (h : (s.call (.create cp perf nonce)).2 = .accepted none x) :
    ∃ d, (s.call (.create cp perf nonce)).1.heap[s.heap.length]? = some d ∧
      d.outgoing = [] ∧ d.incoming = [] ∧ Stored (s.call (.create cp perf nonce)).1 s.heap.length := by
  rcases hu : s.createNew cp perf nonce with ⟨s', r⟩
  have e1 : s.call (.create cp perf nonce) = (s', r.report fun (m, p) => .accepted p (some m)) := by
    simp [Sys.call, hu]
  rw [e1] at h ⊢
  simp only at h ⊢
  obtain ⟨r0, hd, hr0⟩ := Sys.createNew_cases hu
  have hr : r0 = .ok none := by
    subst hr0
    cases r0 with
    | ok q =>
      cases q with
      | none => rfl
      | some q => simp [Res.bind, Res.report] at h
    | err e => simp [Res.bind, Res.report] at h
    | panic => simp [Res.bind, Res.report] at h
  subst hr
  rcases Sys.createDialogue_cases hd with ⟨e, he, _⟩ | hp | ⟨s1, p, hc1, ⟨m', _, he⟩ | ⟨e, hdu, _⟩⟩
  · simp at he
  · simp at hp
  · simp at he
  · rcases Sys.createSelfInitiated_cases hc1 with ⟨he, _⟩ | ⟨_, _, hcr⟩
    · simp at he
    obtain ⟨hp, hheap, hbl⟩ := Sys.create_heap hcr
    have hs' : s' = s1 := by
      rcases Sys.dialogueUpdate_cases hdu with hp | ⟨_, _, h'⟩ | ⟨_, _, _, _, _, _, h', _⟩
      · simp at hp
      · exact h'
      · simp at h'
    subst hs'
    refine ⟨{ Dialogue.new ⟨(s.freshMessage cp perf nonce).reference, cp, s.self⟩ s.self s.rules with
      callbacks := 1 }, ?_, ?_, ?_, ?_⟩
    · rw [hheap, List.getElem?_append_right (Nat.le_refl _), Nat.sub_self]
      rfl
    · rfl
    · rfl
    · refine ⟨⟨(s.freshMessage cp perf nonce).reference, cp, s.self⟩, ?_⟩
      unfold Sys.getByLabel
      rw [hbl, ← hp]
      exact GoMap.get_set_self _ _ _

end Verif
