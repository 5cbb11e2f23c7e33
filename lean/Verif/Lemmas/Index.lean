import Verif.Lemmas.Mapping

/-! The per-counterparty index and the label map agree, as long as `Reply` is only used on
dialogues that are stored or have a complete reference. -/

namespace Verif

/-- Consistency of the store's indices. -/
structure XInv (s : Sys) : Prop where
  nodup : ∀ a, (s.addressList a).Nodup
  index : ∀ (a : Bytes) (p : Nat), p ∈ s.addressList a ↔
    ∃ d, s.heap[p]? = some d ∧ d.label.opponent = a ∧ s.byLabel.get d.label = some p
  mapped : ∀ (l : DialogueLabel) (p : Nat), s.byLabel.get l = some p →
    (l.starterAddr = s.self ∧ l.reference.responder = [] ∧ s.incomplete.get l = none) ∨
    s.incomplete.get l.incompleteVersion = some l

theorem XInv.init (me : Bytes) (keep : Bool) (rules : RulesDecl) :
    XInv (Sys.new me keep rules) where
  nodup a := by simp [Sys.addressList, Sys.new]
  index a p := by simp [Sys.addressList, Sys.new]
  mapped l p h := by simp [Sys.new] at h

theorem incompleteVersion_of_responder {l : DialogueLabel} (h : l.reference.responder = []) :
    l.incompleteVersion = l := by
  obtain ⟨⟨a, b⟩, c, d⟩ := l
  simp only at h
  subst h
  rfl

theorem incompleteVersion_responder (l : DialogueLabel) :
    l.incompleteVersion.reference.responder = [] := rfl

namespace Sys

theorem searchIndex_spec {heap : List Dialogue} {l : DialogueLabel} {p : Nat} {arr : List Ptr}
    (hp : p ∈ arr) (hl : ∀ q ∈ arr, heap[q]?.map (·.label) = some l ↔ q = p) (hn : arr.Nodup) :
    arr.take (searchIndex heap l arr) ++ arr.drop (searchIndex heap l arr + 1) = arr.erase p ∧
    searchIndex heap l arr + 1 ≤ arr.length := by
  induction arr with
  | nil => simp at hp
  | cons a arr ih =>
    cases arr with
    | nil =>
      simp only [List.mem_singleton] at hp
      subst hp
      simp [searchIndex]
    | cons b rest =>
      unfold searchIndex
      by_cases ha : heap[a]?.map (·.label) = some l
      · rw [if_pos ha]
        have : a = p := (hl a (by simp)).1 ha
        subst this
        simp
      · rw [if_neg ha]
        have hap : a ≠ p := fun e => ha ((hl a (by simp)).2 e)
        have hp' : p ∈ b :: rest := by
          rcases List.mem_cons.1 hp with h | h
          · exact absurd h.symm hap
          · exact h
        have := ih hp' (fun q hq => hl q (List.mem_cons_of_mem _ hq)) (List.nodup_cons.1 hn).2
        have hb : (a == p) = false := by simpa using hap
        rw [List.erase_cons, hb]
        simp only [List.take_succ_cons, List.drop_succ_cons, List.cons_append, List.length_cons,
          Bool.false_eq_true, if_false] at this ⊢
        exact ⟨by rw [this.1], by omega⟩

theorem removeFromArray_eq {heap : List Dialogue} {l : DialogueLabel} {p : Nat} {arr : List Ptr}
    (hp : p ∈ arr) (hl : ∀ q ∈ arr, heap[q]?.map (·.label) = some l ↔ q = p) (hn : arr.Nodup) :
    removeFromArray heap arr l = .ok (arr.erase p) := by
  obtain ⟨h1, h2⟩ := searchIndex_spec hp hl hn
  unfold removeFromArray
  simp only
  rw [if_neg (by omega), h1]

end Sys

section
variable {me : Bytes} {keep : Bool} {rules : RulesDecl}

theorem SInv.labelOf {s : Sys} (hi : SInv me keep rules s) {l : DialogueLabel} {p : Nat}
    (hp : s.byLabel.get l = some p) {d : Dialogue} (hd : s.heap[p]? = some d) : d.label = l := by
  obtain ⟨d', hd', hl⟩ := hi.label l p hp
  rw [hd] at hd'
  simp only [Option.some.injEq] at hd'
  rw [hd', hl]

/-- Elements of an address list are recognised by their label. -/
theorem XInv.recognise {s : Sys} (hi : SInv me keep rules s) (hx : XInv s) {l : DialogueLabel}
    {p : Nat} (hp : s.byLabel.get l = some p) {a : Bytes} :
    ∀ q ∈ s.addressList a, s.heap[q]?.map (·.label) = some l ↔ q = p := by
  intro q hq
  obtain ⟨d, hd, _, hb⟩ := (hx.index a q).1 hq
  constructor
  · intro h
    rw [hd] at h
    simp only [Option.map_some, Option.some.injEq] at h
    rw [h, hp] at hb
    simp only [Option.some.injEq] at hb
    exact hb.symm
  · rintro rfl
    rw [hd, Option.map_some, hi.labelOf hp hd]

theorem XInv.mem {s : Sys} (hi : SInv me keep rules s) (hx : XInv s) {l : DialogueLabel} {p : Nat}
    (hp : s.byLabel.get l = some p) : p ∈ s.addressList l.opponent := by
  obtain ⟨d, hd, hl⟩ := hi.label l p hp
  exact (hx.index _ _).2 ⟨d, hd, by rw [hl], by rw [hl]; exact hp⟩

theorem Sys.addressList_set (s : Sys) (a b : Bytes) (arr : List Ptr) (s' : Sys)
    (h : s'.byAddress = s.byAddress.set a arr) :
    s'.addressList b = if b = a then arr else s.addressList b := by
  unfold Sys.addressList
  rw [h, GoMap.get_set]
  split <;> rfl

/-- Removing a stored dialogue, or a label that is neither stored nor incomplete. -/
theorem XInv.removeDialogue {s s' : Sys} (hi : SInv me keep rules s) (hx : XInv s)
    {l : DialogueLabel}
    (hl : (∃ p, s.byLabel.get l = some p) ∨ s.incomplete.get l = none)
    (h : s.removeDialogue l = .ok s') : XInv s' := by
  obtain ⟨h1, _, _, h4, h5, h6, _, h8⟩ := Sys.removeDialogue_ok h
  cases hp : s.byLabel.get l with
  | none =>
    have hinc : s.incomplete.get l = none := by
      rcases hl with ⟨p, hl⟩ | hl
      · rw [hp] at hl; simp at hl
      · exact hl
    have hh : s.byLabel.has l = false := by rw [GoMap.has_eq_false_iff]; exact hp
    rw [hh] at h8
    simp only [Bool.false_eq_true, if_false] at h8
    have hbl : ∀ x, s'.byLabel.get x = s.byLabel.get x := by
      intro x
      rw [h5, GoMap.get_erase]
      split
      · rename_i e; rw [e, hp]
      · rfl
    have hin : ∀ x, s'.incomplete.get x = s.incomplete.get x := by
      intro x
      rw [h6, GoMap.get_erase]
      split
      · rename_i e; rw [e, hinc]
      · rfl
    have ha : ∀ a, s'.addressList a = s.addressList a := by
      intro a; unfold Sys.addressList; rw [h8]
    refine ⟨?_, ?_, ?_⟩
    · intro a; rw [ha]; exact hx.nodup a
    · intro a p; rw [ha, hx.index, h4]; simp only [hbl]
    · intro x p hxp
      rw [hbl] at hxp
      rw [h1, hin, hin]
      exact hx.mapped x p hxp
  | some p =>
    have hh : s.byLabel.has l = true := by rw [GoMap.has_iff]; exact ⟨p, hp⟩
    rw [hh] at h8
    simp only [if_true] at h8
    obtain ⟨arr, harr, h8⟩ := h8
    have hpm := hx.mem hi hp
    rw [Sys.removeFromArray_eq hpm (hx.recognise hi hp) (hx.nodup _)] at harr
    simp only [Res.ok.injEq] at harr
    have ha := fun b => Sys.addressList_set s l.opponent b arr s' h8
    have hbl : ∀ x, s'.byLabel.get x = if x = l then none else s.byLabel.get x := by
      intro x; rw [h5, GoMap.get_erase]
    obtain ⟨d0, hd0, hl0⟩ := hi.label l p hp
    refine ⟨?_, ?_, ?_⟩
    · intro a
      rw [ha]
      split
      · rw [← harr]; exact (hx.nodup _).erase p
      · exact hx.nodup a
    · intro a q
      rw [ha, h4]
      by_cases hao : a = l.opponent
      · rw [if_pos hao, ← harr, (hx.nodup _).mem_erase_iff, hx.index, hao]
        constructor
        · rintro ⟨hqp, d, hd, ho, hb⟩
          refine ⟨d, hd, ho, ?_⟩
          rw [hbl, if_neg]
          · exact hb
          · intro e; rw [e, hp] at hb; simp only [Option.some.injEq] at hb; exact hqp hb.symm
        · rintro ⟨d, hd, ho, hb⟩
          rw [hbl] at hb
          split at hb
          · simp at hb
          · rename_i hne
            refine ⟨?_, d, hd, ho, hb⟩
            rintro rfl
            rw [hd0] at hd
            simp only [Option.some.injEq] at hd
            rw [← hd] at hne
            exact hne hl0
      · rw [if_neg hao, hx.index]
        constructor
        · rintro ⟨d, hd, ho, hb⟩
          refine ⟨d, hd, ho, ?_⟩
          rw [hbl, if_neg]
          · exact hb
          · intro e; rw [← ho, e] at hao; exact hao rfl
        · rintro ⟨d, hd, ho, hb⟩
          rw [hbl] at hb
          split at hb
          · simp at hb
          · exact ⟨d, hd, ho, hb⟩
    · intro x q hxq
      rw [hbl] at hxq
      split at hxq
      · simp at hxq
      · rename_i hne
        have := hx.mapped x q hxq
        rw [h1]
        rcases this with ⟨c1, c2, c3⟩ | c
        · left
          refine ⟨c1, c2, ?_⟩
          rw [h6, GoMap.get_erase, c3]
          split <;> rfl
        · right
          rw [h6, GoMap.get_erase, if_neg]
          · exact c
          · intro e
            have hresp : l.reference.responder = [] := by rw [← e]; rfl
            rcases hx.mapped l p hp with ⟨_, _, c3⟩ | c'
            · rw [e, c3] at c; simp at c
            · rw [incompleteVersion_of_responder hresp] at c'
              rw [e, c'] at c
              simp only [Option.some.injEq] at c
              exact hne c.symm

/-- Under the index invariant, removal does not panic. -/
theorem XInv.removeDialogue_total {s : Sys} (hi : SInv me keep rules s) (hx : XInv s)
    (l : DialogueLabel) : ∃ s', s.removeDialogue l = .ok s' := by
  unfold Sys.removeDialogue
  simp only
  cases hp : s.byLabel.get l with
  | none =>
    have hh : s.byLabel.has l = false := by rw [GoMap.has_eq_false_iff]; exact hp
    rw [hh]
    exact ⟨_, rfl⟩
  | some p =>
    have hh : s.byLabel.has l = true := by rw [GoMap.has_iff]; exact ⟨p, hp⟩
    rw [hh]
    have := Sys.removeFromArray_eq (hx.mem hi hp) (hx.recognise hi hp) (hx.nodup _)
    refine ⟨{ s with
      byLabel := s.byLabel.erase l
      incomplete := s.incomplete.erase l
      terminal := s.terminal.remove l
      byAddress := s.byAddress.set l.opponent ((s.addressList l.opponent).erase p) }, ?_⟩
    rw [if_pos rfl]
    change (Sys.removeFromArray s.heap (s.addressList l.opponent) l).bind _ = _
    rw [this]
    rfl

theorem XInv.runCallbacks {n : Nat} {s s' : Sys} (hi : SInv me keep rules s) (hx : XInv s)
    {l : DialogueLabel}
    (hl : (∃ p, s.byLabel.get l = some p) ∨ s.incomplete.get l = none)
    (h : s.runCallbacks l n = .ok s') : XInv s' := by
  induction n generalizing s with
  | zero => simp only [Sys.runCallbacks, Res.ok.injEq] at h; subst h; exact hx
  | succ n ih =>
    unfold Sys.runCallbacks at h
    rw [Res.bind_eq_ok] at h
    obtain ⟨s1, h1, h2⟩ := h
    have hi1 := hi.shrinks (Sys.terminalCallback_shrinks h1)
    unfold Sys.terminalCallback at h1
    split at h1
    · simp only [Res.ok.injEq] at h1
      subst h1
      exact ih hi1 ⟨hx.nodup, hx.index, hx.mapped⟩ hl h2
    · refine ih hi1 (hx.removeDialogue hi hl h1) (Or.inr ?_) h2
      rw [(Sys.removeDialogue_ok h1).2.2.2.2.2.1]
      simp

theorem XInv.runCallbacks_total {n : Nat} {s : Sys} (hi : SInv me keep rules s) (hx : XInv s)
    {l : DialogueLabel}
    (hl : (∃ p, s.byLabel.get l = some p) ∨ s.incomplete.get l = none) :
    ∃ s', s.runCallbacks l n = .ok s' := by
  induction n generalizing s with
  | zero => exact ⟨s, rfl⟩
  | succ n ih =>
    unfold Sys.runCallbacks
    cases h1 : s.terminalCallback l with
    | err e => exact absurd h1 Sys.terminalCallback_not_err
    | panic =>
      unfold Sys.terminalCallback at h1
      split at h1
      · simp at h1
      · obtain ⟨s', hs'⟩ := hx.removeDialogue_total hi l
        rw [hs'] at h1
        simp at h1
    | ok s1 =>
      have hi1 := hi.shrinks (Sys.terminalCallback_shrinks h1)
      show ∃ s', s1.runCallbacks l n = .ok s'
      unfold Sys.terminalCallback at h1
      split at h1
      · simp only [Res.ok.injEq] at h1
        subst h1
        exact ih hi1 ⟨hx.nodup, hx.index, hx.mapped⟩ hl
      · refine ih hi1 (hx.removeDialogue hi hl h1) (Or.inr ?_)
        rw [(Sys.removeDialogue_ok h1).2.2.2.2.2.1]
        simp

theorem XInv.setHeap {s : Sys} (hx : XInv s) {p : Nat} {d d' : Dialogue}
    (hd : s.heap[p]? = some d) (hl : d'.label = d.label) : XInv (s.setHeap p d') := by
  refine ⟨hx.nodup, ?_, hx.mapped⟩
  intro a q
  show q ∈ s.addressList a ↔ ∃ x, (s.heap.set p d')[q]? = some x ∧ x.label.opponent = a ∧
    s.byLabel.get x.label = some q
  rw [hx.index]
  by_cases hqp : q = p
  · subst hqp
    rw [getElem?_set_self_of_some hd, hd]
    constructor
    · rintro ⟨x, hx', h1, h2⟩
      simp only [Option.some.injEq] at hx'
      subst hx'
      exact ⟨d', rfl, by rw [hl]; exact h1, by rw [hl]; exact h2⟩
    · rintro ⟨x, hx', h1, h2⟩
      simp only [Option.some.injEq] at hx'
      subst hx'
      exact ⟨d, rfl, by rw [← hl]; exact h1, by rw [← hl]; exact h2⟩
  · rw [List.getElem?_set_ne (fun e => hqp e.symm)]

/-- The condition under which `update` of a dialogue keeps the indices consistent. -/
def Settled (s : Sys) (p : Nat) : Prop :=
  ∀ d, s.heap[p]? = some d → (∃ q, s.byLabel.get d.label = some q) ∨ s.incomplete.get d.label = none

theorem XInv.dialogueUpdate {s s' : Sys} {p : Ptr} {m : Message} {r : Res DErr Message}
    (hi : SInv me keep rules s) (hx : XInv s) (hset : Settled s p)
    (ho : ∀ d, s.heap[p]? = some d → Offered me d m)
    (h : s.dialogueUpdate p m = (s', r)) (hr : r ≠ .panic) : XInv s' := by
  rcases Sys.dialogueUpdate_cases h with hp | ⟨_, _, rfl⟩ | ⟨d, d', m', t, hd, hc, _, ht⟩
  · exact absurd hp hr
  · exact hx
  · have hl : d'.label = d.label := by
      rw [(Dialogue.updateCore_ok hc).2.2.2.2, Dialogue.record_eq]
    have hx1 := hx.setHeap hd hl
    have hi1 := hi.setHeap hd hl ((hi.heap p d hd).update (ho d hd) hc)
    split at ht
    · refine hx1.runCallbacks hi1 ?_ ht
      rw [hl]
      exact hset d hd
    · rw [ht]; exact hx1

theorem XInv.addDialogue {s : Sys} (hx : XInv s) {p : Nat}
    {d : Dialogue} (hnew : ∀ l, s.byLabel.get l ≠ some p)
    (hlen : p < s.heap.length)
    (habs : s.byLabel.get d.label = none)
    (hmap : (d.label.starterAddr = s.self ∧ d.label.reference.responder = [] ∧
        s.incomplete.get d.label = none) ∨
      s.incomplete.get d.label.incompleteVersion = some d.label) : XInv (s.addDialogue p d) := by
  have ha := fun b => Sys.addressList_set s d.label.opponent b
    (s.addressList d.label.opponent ++ [p]) (s.addDialogue p d) rfl
  have hpl : ∀ a, p ∉ s.addressList a := by
    intro a hpa
    obtain ⟨x, _, _, hb⟩ := (hx.index a p).1 hpa
    exact hnew _ hb
  have hbl : ∀ x, (s.addDialogue p d).byLabel.get x = if x = d.label then some p else s.byLabel.get x := by
    intro x
    show (s.byLabel.set d.label p).get x = _
    rw [GoMap.get_set]
  have hheap : ∀ (q : Nat), (s.addDialogue p d).heap[q]? =
      if q = p then some { d with callbacks := d.callbacks + 1 } else s.heap[q]? := by
    intro q
    show (s.heap.set p _)[q]? = _
    by_cases hqp : q = p
    · subst hqp
      rw [if_pos rfl, List.getElem?_set]
      simp [hlen]
    · rw [if_neg hqp, List.getElem?_set_ne (fun e => hqp e.symm)]
  refine ⟨?_, ?_, ?_⟩
  · intro a
    rw [ha]
    split
    · rw [List.nodup_append]
      refine ⟨hx.nodup _, by simp, ?_⟩
      intro x hx' y hy
      simp only [List.mem_singleton] at hy
      subst hy
      rintro rfl
      exact hpl _ hx'
    · exact hx.nodup a
  · intro a q
    rw [ha, hheap]
    by_cases hqp : q = p
    · rw [if_pos hqp]
      constructor
      · intro hq
        refine ⟨_, rfl, ?_, ?_⟩
        · split at hq
          · rename_i e; exact e.symm
          · rw [hqp] at hq; exact absurd hq (hpl a)
        · rw [hbl]; simp [hqp]
      · rintro ⟨x, hx', ho, _⟩
        simp only [Option.some.injEq] at hx'
        subst hx'
        rw [if_pos ho.symm, hqp]
        simp
    · rw [if_neg hqp]
      have : (q ∈ if a = d.label.opponent then s.addressList d.label.opponent ++ [p]
          else s.addressList a) ↔ q ∈ s.addressList a := by
        split
        · rename_i e; subst e; simp [hqp]
        · rfl
      rw [this, hx.index]
      constructor
      · rintro ⟨x, hx', ho, hb⟩
        refine ⟨x, hx', ho, ?_⟩
        rw [hbl, if_neg]
        · exact hb
        · intro e; rw [e, habs] at hb; simp at hb
      · rintro ⟨x, hx', ho, hb⟩
        refine ⟨x, hx', ho, ?_⟩
        rw [hbl] at hb
        split at hb
        · simp only [Option.some.injEq] at hb; exact absurd hb.symm hqp
        · exact hb
  · intro x q hxq
    rw [hbl] at hxq
    split at hxq
    · rename_i e; subst e; exact hmap
    · exact hx.mapped x q hxq

/-- Extending the heap with a dialogue that is not stored. -/
theorem XInv.grow {s : Sys} (hi : SInv me keep rules s) (hx : XInv s) (d : Dialogue) :
    XInv ({ s with heap := s.heap ++ [d] } : Sys) := by
  refine ⟨hx.nodup, ?_, hx.mapped⟩
  intro a q
  show q ∈ s.addressList a ↔ ∃ x, (s.heap ++ [d])[q]? = some x ∧ x.label.opponent = a ∧
    s.byLabel.get x.label = some q
  rw [hx.index]
  constructor
  · rintro ⟨x, h1, h2, h3⟩
    refine ⟨x, ?_, h2, h3⟩
    rw [List.getElem?_append_left (List.getElem?_eq_some_iff.1 h1).1]
    exact h1
  · rintro ⟨x, h1, h2, h3⟩
    obtain ⟨y, hy, _⟩ := hi.label _ _ h3
    rw [List.getElem?_append_left (List.getElem?_eq_some_iff.1 hy).1] at h1
    exact ⟨x, h1, h2, h3⟩

theorem SInv.fresh {s : Sys} (hi : SInv me keep rules s) (l : DialogueLabel) :
    s.byLabel.get l ≠ some s.heap.length := by
  intro h
  obtain ⟨y, hy, _⟩ := hi.label _ _ h
  have := (List.getElem?_eq_some_iff.1 hy).1
  omega

theorem XInv.setIncomplete {s : Sys} (hx : XInv s) {i : DialogueLabel} (c : DialogueLabel)
    (h1 : ∀ p, s.byLabel.get i = some p → i.starterAddr ≠ s.self ∨ i.reference.responder ≠ [])
    (h2 : s.incomplete.get i = none) : XInv (s.setIncomplete i c) := by
  refine ⟨hx.nodup, hx.index, ?_⟩
  intro l p hp
  have hin : ∀ x, (s.setIncomplete i c).incomplete.get x =
      if x = i then some c else s.incomplete.get x := by
    intro x
    show (s.incomplete.set i c).get x = _
    rw [GoMap.get_set]
  rw [hin, hin]
  rcases hx.mapped l p hp with ⟨c1, c2, c3⟩ | c'
  · left
    refine ⟨c1, c2, ?_⟩
    rw [if_neg]
    · exact c3
    · rintro rfl
      rcases h1 p hp with h | h
      · exact h c1
      · exact h c2
  · right
    rw [if_neg]
    · exact c'
    · intro e; rw [e, h2] at c'; simp at c'

theorem XInv.alloc {s : Sys} (hi : SInv me keep rules s) (hx : XInv s) (l : DialogueLabel)
    (habs : s.byLabel.get l = none)
    (hmap : (l.starterAddr = s.self ∧ l.reference.responder = [] ∧ s.incomplete.get l = none) ∨
      s.incomplete.get l.incompleteVersion = some l) :
    XInv (({ s with heap := s.heap ++ [Dialogue.new l s.self s.rules] } : Sys).addDialogue
      s.heap.length (Dialogue.new l s.self s.rules)) := by
  refine (hx.grow hi _).addDialogue ?_ ?_ ?_ ?_
  · exact fun l' => hi.fresh l'
  · simp
  · exact habs
  · exact hmap

theorem XInv.createSelfInitiated {s s' : Sys} {o : Bytes} {ref : DialogueReference}
    {r : Res DErr Ptr} (hi : SInv me keep rules s) (hx : XInv s)
    (h : s.createSelfInitiated o ref = (s', r)) : XInv s' := by
  rcases Sys.createSelfInitiated_cases h with ⟨_, rfl⟩ | ⟨_, h2, h⟩
  · exact hx
  · rcases Sys.create_cases h with ⟨_, rfl, _⟩ | ⟨_, rfl, _⟩ | ⟨_, h3, h4, rfl⟩
    · exact hx
    · exact hx
    · rw [GoMap.has_eq_false_iff] at h3 h4
      exact hx.alloc hi ⟨ref, o, s.self⟩ h4 (Or.inl ⟨rfl, h2, h3⟩)

theorem XInv.createOpponentInitiated {s s' : Sys} {o n : Bytes} {ref : DialogueReference}
    {r : Res DErr Ptr} (hi : SInv me keep rules s) (hx : XInv s) (ho : o ≠ me)
    (h : s.createOpponentInitiated o ref n = (s', r)) : XInv s' := by
  rcases Sys.createOpponentInitiated_cases h with ⟨_, rfl⟩ | ⟨_, h2, h⟩
  · exact hx
  · have hmapped : s.incomplete.has ⟨ref, o, o⟩ = false →
        XInv (s.mapped ⟨ref, o, o⟩ (some ⟨⟨ref.starter, n⟩, o, o⟩)) := by
      intro h3
      rw [GoMap.has_eq_false_iff] at h3
      exact hx.setIncomplete _ (fun p _ => Or.inl (by rw [hi.selfEq]; exact ho)) h3
    rcases Sys.create_cases h with ⟨_, rfl, _⟩ | ⟨_, rfl, h3, _⟩ | ⟨_, h3, h4, rfl⟩
    · exact hx
    · exact hmapped h3
    · rw [GoMap.has_eq_false_iff] at h4
      refine (hmapped h3).alloc (hi.setIncomplete _ _) ⟨⟨ref.starter, n⟩, o, o⟩ h4 (Or.inr ?_)
      show (s.incomplete.set ⟨ref, o, o⟩ _).get _ = _
      have : (DialogueLabel.incompleteVersion ⟨⟨ref.starter, n⟩, o, o⟩) = ⟨ref, o, o⟩ := by
        obtain ⟨a, b⟩ := ref
        simp only at h2
        subst h2
        rfl
      rw [this, GoMap.get_set_self]

theorem XInv.createDialogue {s s' : Sys} {cp : Bytes} {m : Message} {r : Res DErr (Option Ptr)}
    (hi : SInv me keep rules s) (hx : XInv s) (hs : m.sender = me) (ht : m.to = cp)
    (h : s.createDialogue cp m = (s', r)) (hr : r ≠ .panic) : XInv s' := by
  rcases Sys.createDialogue_cases h with ⟨e, _, h⟩ | hp | ⟨s1, p, hc1, h⟩
  · exact hx.createSelfInitiated hi h
  · exact absurd hp hr
  · have hi1 := hi.createSelfInitiated hc1
    have hx1 := hx.createSelfInitiated hi hc1
    rcases Sys.createSelfInitiated_cases hc1 with ⟨he, _⟩ | ⟨_, _, hcr⟩
    · simp at he
    obtain ⟨hp, hheap, hbl⟩ := Sys.create_heap hcr
    have hd : ∀ d, s1.heap[p]? = some d →
        d = { Dialogue.new ⟨m.reference, cp, s.self⟩ s.self s.rules with callbacks := 1 } := by
      intro d hd
      rw [hheap, hp] at hd
      simp at hd
      exact hd.symm
    have ho : ∀ d, s1.heap[p]? = some d → Offered me d m := by
      intro d hd'
      rw [hd d hd']
      refine Offered.own hs ?_ ?_ ?_
      · simpa [Dialogue.new] using ht
      · intro _; simpa [Dialogue.new] using hi.selfEq
      · intro he; simp [Dialogue.new, Dialogue.isEmpty] at he
    have hset : Settled s1 p := by
      intro d hd'
      rw [hd d hd']
      refine Or.inl ⟨p, ?_⟩
      rw [hbl]
      exact GoMap.get_set_self _ _ _
    rcases h with ⟨m', hu, _⟩ | ⟨e, hu, _⟩
    · exact hx1.dialogueUpdate hi1 hset ho hu (by simp)
    · exact hx1.dialogueUpdate hi1 hset ho hu (by simp)

theorem XInv.completeReference {s s' : Sys} {m : Message} {r : Res DErr Unit}
    (hi : SInv me keep rules s) (hx : XInv s)
    (h : s.completeReference m = (s', r)) (hr : r ≠ .panic) : XInv s' := by
  rcases Sys.completeReference_cases h with hp | ⟨e, rfl, _⟩ |
    ⟨_, _, hresp, rfl | ⟨p, s1, d, hp, hinc, hrm, hd, rfl⟩⟩
  · exact absurd hp hr
  · rw [Sys.completeReference_err h]; exact hx
  · exact hx
  · rw [GoMap.has_eq_false_iff] at hinc
    have hi1 := hi.shrinks (Sys.removeDialogue_shrinks hrm)
    have hx1 := hx.removeDialogue hi (Or.inl ⟨p, hp⟩) hrm
    obtain ⟨r1, _, _, r4, r5, r6, _⟩ := Sys.removeDialogue_ok hrm
    obtain ⟨d0, hd0, hl0⟩ := hi.label _ _ hp
    rw [r4, hd0] at hd
    simp only [Option.some.injEq] at hd
    subst hd
    have hlen : p < s1.heap.length := by rw [r4]; exact (List.getElem?_eq_some_iff.1 hd0).1
    have hnew : ∀ l, s1.byLabel.get l ≠ some p := by
      intro l hl
      have := hi1.labelOf hl (by rw [r4]; exact hd0)
      rw [hl0] at this
      rw [← this, r5] at hl
      simp at hl
    have hfin : s.byLabel.get ⟨m.reference, m.sender, s.self⟩ = none := by
      cases hq : s.byLabel.get ⟨m.reference, m.sender, s.self⟩ with
      | none => rfl
      | some q =>
        exfalso
        rcases hx.mapped _ _ hq with ⟨_, c2, _⟩ | c
        · exact hresp c2
        · have e : (DialogueLabel.incompleteVersion ⟨m.reference, m.sender, s.self⟩) =
            ⟨⟨m.reference.starter, []⟩, m.sender, s.self⟩ := rfl
          rw [e, hinc] at c
          simp at c
    have hfin1 : s1.byLabel.get ⟨m.reference, m.sender, s.self⟩ = none := by
      rw [r5, GoMap.get_erase, hfin]
      split <;> rfl
    -- first set the mapping, then add; the two writes commute
    have hx2 : XInv (s1.setIncomplete ⟨⟨m.reference.starter, []⟩, m.sender, s.self⟩
        ⟨m.reference, m.sender, s.self⟩) := by
      refine hx1.setIncomplete _ ?_ ?_
      · intro q hq
        rw [r5] at hq
        simp at hq
      · rw [r6]; simp
    refine hx2.addDialogue (p := p)
      (d := { d0 with label := ⟨m.reference, m.sender, s.self⟩ }) hnew hlen hfin1 (Or.inr ?_)
    show (s1.incomplete.set _ _).get _ = _
    exact GoMap.get_set_self _ _ _

theorem XInv.updateFound {s s' : Sys} {m : Message} {isNew : Bool} {f : Option Ptr}
    {r : Res DErr (Option Ptr)} (hi : SInv me keep rules s) (hx : XInv s)
    (h1 : m.sender ≠ me) (h2 : m.sender ≠ []) (h3 : m.to = me)
    (hset : ∀ p, f = some p → Settled s p)
    (hu : s.updateFound m isNew f = (s', r)) (hr : r ≠ .panic) : XInv s' := by
  rcases Sys.updateFound_cases hu with ⟨_, rfl, _⟩ | hp | ⟨p, hf, ⟨m', hd, _⟩ | ⟨e, hd, _, ⟨_, rfl⟩ | ⟨_, d, hd', hrm⟩⟩⟩
  · exact hx
  · exact absurd hp hr
  · exact hx.dialogueUpdate hi (hset p hf) (fun _ _ => Offered.other h1 h2 h3) hd (by simp)
  · exact hx
  · exact hx.removeDialogue hi (hset p hf d hd') hrm

theorem Sys.getDialogue_some {s : Sys} {m : Message} {p : Ptr} (h : s.getDialogue m = some p) :
    ∃ l, s.byLabel.get l = some p := by
  unfold Sys.getDialogue at h
  simp only at h
  split at h
  · rename_i q hq
    simp only [Option.some.injEq] at h
    subst h
    exact ⟨_, hq⟩
  · exact ⟨_, h⟩

theorem Settled.stored {s : Sys} (hi : SInv me keep rules s) {l : DialogueLabel} {p : Nat}
    (h : s.byLabel.get l = some p) : Settled s p := by
  intro d hd
  rw [hi.labelOf h hd]
  exact Or.inl ⟨p, h⟩

theorem Settled.getDialogue {s : Sys} (hi : SInv me keep rules s) {m : Message} {p : Ptr}
    (h : s.getDialogue m = some p) : Settled s p := by
  obtain ⟨l, hl⟩ := Sys.getDialogue_some h
  exact Settled.stored hi hl

theorem XInv.update {s s' : Sys} {m : Message} {n : Bytes} {r : Res DErr (Option Ptr)}
    (hi : SInv me keep rules s) (hx : XInv s)
    (h : s.update m n = (s', r)) (hnp : r ≠ .panic) : XInv s' := by
  rcases Sys.update_cases h with ⟨_, _, rfl, _⟩ | ⟨h1, h2, h3, hcase⟩
  · exact hx
  rw [hi.selfEq] at h2 h3
  rcases hcase with ⟨_, _, rfl, _⟩ | ⟨_, _, _, ⟨s1, p, hc, hf⟩ | ⟨e, hc, _⟩ | ⟨_, hp⟩⟩ |
    ⟨_, _, _, _, hf⟩ | ⟨_, ⟨s1, hc, hf⟩ | ⟨e, hc, _⟩ | ⟨_, hp⟩⟩
  · exact hx
  · have hi1 := hi.createOpponentInitiated h2 hc
    have hx1 := hx.createOpponentInitiated hi h2 hc
    refine hx1.updateFound hi1 h2 h1 h3 ?_ hf hnp
    intro q hq
    simp only [Option.some.injEq] at hq
    subst hq
    rcases Sys.createOpponentInitiated_cases hc with ⟨he, _⟩ | ⟨_, _, hcr⟩
    · simp at he
    obtain ⟨_, _, hbl⟩ := Sys.create_heap hcr
    refine Settled.stored hi1 (l := ⟨⟨m.reference.starter, n⟩, m.sender, m.sender⟩) ?_
    rw [hbl]
    exact GoMap.get_set_self _ _ _
  · exact hx.createOpponentInitiated hi h2 hc
  · exact absurd hp hnp
  · exact hx.updateFound hi h2 h1 h3 (fun p hp => Settled.getDialogue hi hp) hf hnp
  · have hi1 := hi.completeReference hc (by simp)
    exact (hx.completeReference hi hc (by simp)).updateFound hi1 h2 h1 h3
      (fun p hp => Settled.getDialogue hi1 hp) hf hnp
  · exact hx.completeReference hi hc (by simp)
  · exact absurd hp hnp

theorem XInv.reply {s s' : Sys} {p : Ptr} {perf : Bytes} {tm : Option Message}
    {tp : Option Int} {r : Res DErr Message} (hi : SInv me keep rules s) (hx : XInv s)
    (hset : Settled s p)
    (h : s.reply p perf tm tp = (s', r)) (hr : r ≠ .panic) : XInv s' := by
  rcases Sys.reply_cases h with h' | ⟨_, _, rfl⟩ | ⟨d, m, hd, hm, hu⟩
  · exact absurd h' hr
  · exact hx
  · obtain ⟨he, ht, hs, hto, _⟩ := Dialogue.replyMessage_ok hm
    refine hx.dialogueUpdate hi hset ?_ hu hr
    intro d' hd'
    rw [hd] at hd'
    simp only [Option.some.injEq] at hd'
    subst hd'
    refine Offered.own (by rw [hs]; exact (hi.heap p d hd).selfAddr) hto ?_ (fun _ => ht)
    intro he'; rw [he] at he'; simp at he'

/-- An orderly call keeps the indices consistent. -/
theorem XInv.call {s : Sys} (hi : SInv me keep rules s) (hm : MInv s) (hx : XInv s) {c : Call}
    (ho : Orderly s c) (hc : (s.call c).2 ≠ .crashed) : XInv (s.call c).1 := by
  refine Sys.call_cases hc (P := XInv) ?_ ?_ ?_ hx
  · intro cp m s' r h1 h2 h hr
    exact hx.createDialogue hi (by rw [h1, hi.selfEq]) h2 h hr
  · intro m n s' r _ h hr; exact hx.update hi h hr
  · intro p perf tm tp s' r hcc h hr
    subst hcc
    refine hx.reply hi ?_ h hr
    intro d hd
    rcases ho d hd with h1 | h1
    · exact Or.inl ⟨p, h1⟩
    · refine Or.inr ?_
      cases hg : Sys.incomplete _ |>.get d.label with
      | none => rfl
      | some l' => exact absurd (hm.key _ _ hg).1 h1

end

end Verif
