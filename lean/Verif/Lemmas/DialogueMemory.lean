import Verif.Spec.DialogueMemory
import Verif.Lemmas.Openings
import Verif.Props.Dialogue2

/-! Lemmas about what the dialogue store keeps. -/

namespace Verif

theorem CallHistory.later {P : Sys → Call → Prop} {s0 s : Sys} {cs : List Call} (h : CallHistory P s0 cs s) :
    Later P s0 s := by
  induction h with
  | nil => exact .refl _
  | snoc c _ hp hc ih => exact .step c ih hp hc

theorem received_append (a b : List Call) : received (a ++ b) = received a ++ received b := by
  induction a with
  | nil => rfl
  | cons c a ih => cases c <;> simp [received, ih]

/-! ### Dialogues that are over are not stored -/

/-- Nothing that is over is in the store, and nothing is marked as terminal. -/
structure KInv (rules : RulesDecl) (s : Sys) : Prop where
  empty : ∀ l, s.terminal.contains l = false
  goes : ∀ (l : DialogueLabel) (p : Nat) (d : Dialogue), s.byLabel.get l = some p → s.heap[p]? = some d →
    ¬ Ended rules d

section
variable {me : Bytes} {rules : RulesDecl}

theorem KInv.removeDialogue {s s' : Sys} {l : DialogueLabel} (h : KInv rules s)
    (hr : s.removeDialogue l = .ok s') : KInv rules s' := by
  obtain ⟨_, _, _, h4, _, _, h7, _⟩ := Sys.removeDialogue_ok hr
  refine ⟨fun x => ?_, fun x p d hx hd => ?_⟩
  · rw [h7]
    cases hc : (s.terminal.remove l).contains x with
    | false => rfl
    | true =>
      have := ((GSet.contains_remove _ _ _).1 hc).2
      rw [h.empty] at this
      simp at this
  · rw [h4] at hd
    exact h.goes x p d ((Sys.removeDialogue_shrinks hr).byLabel x p hx) hd

theorem KInv.runCallbacks_empty {n : Nat} {s s' : Sys} {l : DialogueLabel} (hk : s.keepTerminal = false)
    (h : ∀ x, s.terminal.contains x = false) (hr : s.runCallbacks l n = .ok s') :
    ∀ x, s'.terminal.contains x = false := by
  induction n generalizing s with
  | zero => simp only [Sys.runCallbacks, Res.ok.injEq] at hr; subst hr; exact h
  | succ n ih =>
    unfold Sys.runCallbacks at hr
    rw [Res.bind_eq_ok] at hr
    obtain ⟨s1, h1, h2⟩ := hr
    unfold Sys.terminalCallback at h1
    rw [hk] at h1
    simp only [Bool.false_eq_true, if_false] at h1
    obtain ⟨_, h3, _, _, _, _, h7, _⟩ := Sys.removeDialogue_ok h1
    refine ih (h3.trans hk) ?_ h2
    intro x
    rw [h7]
    cases hc : (s.terminal.remove l).contains x with
    | false => rfl
    | true =>
      have := ((GSet.contains_remove _ _ _).1 hc).2
      rw [h] at this
      simp at this

theorem ended_record {d : Dialogue} {m : Message} (h : Ended rules (d.record m)) :
    Ended rules d ∨ m.performative ∈ rules.terminal := by
  obtain ⟨x, hx, ht⟩ := h
  rw [Dialogue.record_eq] at hx
  simp only at hx
  by_cases hs : m.sender = d.selfAddress
  · rw [if_pos hs, if_pos hs, List.mem_append, List.mem_singleton] at hx
    rcases hx with (hx | rfl) | hx
    · exact .inl ⟨x, .inl hx, ht⟩
    · exact .inr ht
    · exact .inl ⟨x, .inr hx, ht⟩
  · rw [if_neg hs, if_neg hs, List.mem_append, List.mem_singleton] at hx
    rcases hx with hx | hx | rfl
    · exact .inl ⟨x, .inl hx, ht⟩
    · exact .inl ⟨x, .inr hx, ht⟩
    · exact .inr ht

theorem KInv.dialogueUpdate {s s' : Sys} {p : Ptr} {m : Message} {r : Res DErr Message}
    (hi : SInv me false rules s) (h : KInv rules s) (hu : s.dialogueUpdate p m = (s', r)) (hr : r ≠ .panic) :
    KInv rules s' := by
  rcases Sys.dialogueUpdate_cases hu with hp | ⟨_, _, rfl⟩ | ⟨d, d', m', t, hd, hc, _, ht⟩
  · exact absurd hp hr
  · exact h
  obtain ⟨_, _, _, e4, e5⟩ := Dialogue.updateCore_ok hc
  have hdi := hi.heap p d hd
  have hl : d'.label = d.label := by rw [e5, Dialogue.record_eq]
  have hcb : d'.callbacks = d.callbacks := by rw [e5, Dialogue.record_eq]
  have hterm : t = true ↔ m'.performative ∈ rules.terminal := by rw [e4, hdi.rulesEq, newRules_terminal]
  by_cases htt : t = true
  · rw [if_pos htt] at ht
    have hreg := hdi.registered
    obtain ⟨n, hn⟩ : ∃ n, d'.callbacks = n + 1 := ⟨d'.callbacks - 1, by omega⟩
    have hdrop : s'.byLabel.get d'.label = none := by
      rw [hn] at ht
      exact runCallbacks_drop (s := s.setHeap p d') hi.keepEq ht
    have hsh := Sys.runCallbacks_shrinks ht
    refine ⟨KInv.runCallbacks_empty (s := s.setHeap p d') hi.keepEq h.empty ht, ?_⟩
    intro l q x hq hx
    have hq0 : s.byLabel.get l = some q := hsh.byLabel l q hq
    rw [hsh.heap] at hx
    rcases getElem?_set_cases hx with ⟨rfl, rfl⟩ | ⟨_, hx⟩
    · exfalso
      have := hi.labelOf hq0 hd
      rw [hl, this, hq] at hdrop
      simp at hdrop
    · exact h.goes l q x hq0 hx
  · rw [if_neg htt] at ht
    subst ht
    refine ⟨h.empty, ?_⟩
    intro l q x hq hx
    rcases getElem?_set_cases hx with ⟨rfl, rfl⟩ | ⟨_, hx⟩
    · intro he
      rw [e5] at he
      rcases ended_record he with he | he
      · exact h.goes l q d hq hd he
      · exact htt (hterm.2 he)
    · exact h.goes l q x hq hx

theorem KInv.create {s s' : Sys} {i : DialogueLabel} {c : Option DialogueLabel} {r : Res DErr Ptr}
    (hi : SInv me false rules s) (h : KInv rules s) (hc : s.create i c = (s', r)) : KInv rules s' := by
  have h1 : KInv rules (s.mapped i c) := by
    cases c with
    | none => exact h
    | some c => exact ⟨h.empty, h.goes⟩
  have hh : (s.mapped i c).heap = s.heap := by cases c <;> rfl
  have hb : (s.mapped i c).byLabel = s.byLabel := by cases c <;> rfl
  rcases Sys.create_cases hc with ⟨_, rfl, _⟩ | ⟨_, rfl, _⟩ | ⟨_, _, _, rfl⟩
  · exact h
  · exact h1
  · refine ⟨h1.empty, ?_⟩
    intro l q x hq hx
    simp only [Sys.addDialogue] at hq hx
    rw [GoMap.get_set, hb] at hq
    rw [hh] at hx
    rcases getElem?_set_cases hx with ⟨_, rfl⟩ | ⟨hne, hx⟩
    · rintro ⟨m, hm | hm, _⟩ <;> simp [Dialogue.new] at hm
    · split at hq
      · simp only [Option.some.injEq] at hq
        rw [hh] at hq
        exact absurd hq.symm hne
      · obtain ⟨y, hy, _⟩ := hi.label l q hq
        have hlt : q < s.heap.length := (List.getElem?_eq_some_iff.1 hy).1
        rw [List.getElem?_append_left hlt] at hx
        exact h.goes l q x hq hx

theorem KInv.completeReference {s s' : Sys} {m : Message} {r : Res DErr Unit} (hi : SInv me false rules s)
    (h : KInv rules s) (hc : s.completeReference m = (s', r)) (hr : r ≠ .panic) : KInv rules s' := by
  rcases Sys.completeReference_cases hc with hp | ⟨e, rfl, _⟩ |
    ⟨_, _, _, rfl | ⟨p, s1, d, hp, _, hrm, hd, rfl⟩⟩
  · exact absurd hp hr
  · rw [Sys.completeReference_err hc]; exact h
  · exact h
  · have h1 := h.removeDialogue hrm
    refine ⟨h1.empty, ?_⟩
    intro l q x hq hx
    simp only [Sys.setIncomplete, Sys.addDialogue] at hq hx
    have hd0 : s.heap[p]? = some d := by rw [← (Sys.removeDialogue_ok hrm).2.2.2.1]; exact hd
    rcases getElem?_set_cases hx with ⟨rfl, rfl⟩ | ⟨hne, hx⟩
    · intro he
      exact h.goes _ _ d hp hd0 he
    · rw [GoMap.get_set] at hq
      split at hq
      · simp only [Option.some.injEq] at hq
        exact absurd hq.symm hne
      · exact h1.goes l q x hq hx

theorem KInv.updateFound {s s' : Sys} {m : Message} {isNew : Bool} {f : Option Ptr} {r : Res DErr (Option Ptr)}
    (hi : SInv me false rules s) (h : KInv rules s) (hf : s.updateFound m isNew f = (s', r)) (hr : r ≠ .panic) :
    KInv rules s' := by
  rcases Sys.updateFound_cases hf with ⟨_, rfl, _⟩ | hp | ⟨p, _, ⟨m', hu, _⟩ | ⟨e, _, _, ⟨_, rfl⟩ | ⟨_, d, _, hrm⟩⟩⟩
  · exact h
  · exact absurd hp hr
  · exact h.dialogueUpdate hi hu (by simp)
  · exact h
  · exact h.removeDialogue hrm

theorem KInv.call {s : Sys} (hi : SInv me false rules s) (h : KInv rules s) (c : Call)
    (hc : (s.call c).2 ≠ .crashed) : KInv rules (s.call c).1 := by
  refine Sys.call_cases hc (P := KInv rules) ?_ ?_ ?_ h
  · intro cp m s' r hms hmt hd hr
    have base : ∀ {s1 r1}, s.createSelfInitiated cp m.reference = (s1, r1) → KInv rules s1 := by
      intro s1 r1 h1
      rcases Sys.createSelfInitiated_cases h1 with ⟨_, rfl⟩ | ⟨_, _, h1⟩
      · exact h
      · exact h.create hi h1
    rcases Sys.createDialogue_cases hd with ⟨e, _, h1⟩ | hp | ⟨s1, p, hc1, ⟨m', hu, _⟩ | ⟨e, hu, _⟩⟩
    · exact base h1
    · exact absurd hp hr
    · exact (base hc1).dialogueUpdate (hi.createSelfInitiated hc1) hu (by simp)
    · exact (base hc1).dialogueUpdate (hi.createSelfInitiated hc1) hu (by simp)
  · intro m n s' r _ hd hr
    have opp : ∀ {s1 r1}, s.createOpponentInitiated m.sender m.reference n = (s1, r1) → KInv rules s1 := by
      intro s1 r1 h1
      rcases Sys.createOpponentInitiated_cases h1 with ⟨_, rfl⟩ | ⟨_, _, h1⟩
      · exact h
      · exact h.create hi h1
    rcases Sys.update_cases hd with ⟨_, _, rfl, _⟩ | ⟨_, h2, _, hcase⟩
    · exact h
    rw [hi.selfEq] at h2
    rcases hcase with ⟨_, _, rfl, _⟩ | ⟨_, _, _, ⟨s1, p, hc, hf⟩ | ⟨e, hc, _⟩ | ⟨_, hp⟩⟩ |
      ⟨_, _, _, _, hf⟩ | ⟨_, ⟨s1, hc, hf⟩ | ⟨e, hc, _⟩ | ⟨_, hp⟩⟩
    · exact h
    · exact (opp hc).updateFound (hi.createOpponentInitiated h2 hc) hf hr
    · exact opp hc
    · exact absurd hp hr
    · exact h.updateFound hi hf hr
    · exact (h.completeReference hi hc (by simp)).updateFound (hi.completeReference hc (by simp)) hf hr
    · exact h.completeReference hi hc (by simp)
    · exact absurd hp hr
  · intro p perf tm tp s' r _ hd hr
    rcases Sys.reply_cases hd with h' | ⟨_, _, rfl⟩ | ⟨d, m, _, _, hu⟩
    · exact absurd h' hr
    · exact h
    · exact h.dialogueUpdate hi hu hr

theorem Reachable.kinv {s : Sys} (h : Reachable me false rules s) : KInv rules s := by
  induction h with
  | init => exact ⟨fun _ => rfl, by intro l p d h; simp [Sys.new] at h⟩
  | step c h hc ih => exact ih.call h.inv c hc

end

/-! ### How much is kept -/

theorem GoMap.size_erase_le {K V : Type} [DecidableEq K] (m : GoMap K V) (k : K) : (m.erase k).size ≤ m.size :=
  List.length_filter_le _ _

theorem GoMap.size_set_le {K V : Type} [DecidableEq K] (m : GoMap K V) (k : K) (v : V) :
    (m.set k v).size ≤ m.size + 1 := by
  have := m.size_erase_le k
  simp only [GoMap.size, GoMap.set, List.length_cons] at *
  omega

theorem nodup_length_le {α : Type} [DecidableEq α] {l k : List α} (hn : l.Nodup) (h : ∀ x ∈ l, x ∈ k) :
    l.length ≤ k.length := by
  induction l generalizing k with
  | nil => simp
  | cons x l ih =>
    rw [List.nodup_cons] at hn
    have hx := h x (by simp)
    have := ih hn.2 (k := k.erase x) (fun y hy =>
      (List.mem_erase_of_ne (fun e : y = x => hn.1 (by rw [← e]; exact hy))).2 (h y (by simp [hy])))
    rw [List.length_erase_of_mem hx] at this
    have := List.length_pos_of_mem hx
    simp only [List.length_cons]
    omega

theorem GoMap.length_le_size {K V : Type} [DecidableEq K] (m : GoMap K V) (l : List K) (hn : l.Nodup)
    (h : ∀ k ∈ l, m.has k = true) : l.length ≤ m.size := by
  have hs : ∀ k ∈ l, k ∈ m.keys := by
    intro k hk
    obtain ⟨v, hv⟩ := (GoMap.has_iff m k).1 (h k hk)
    exact List.mem_map.2 ⟨(k, v), (m.mem_entries_iff k v).2 hv, rfl⟩
  have := nodup_length_le hn hs
  simpa [GoMap.keys, GoMap.size] using this

/-- At most `n` more entries in the table of incomplete labels, and no counterparty is forgotten. -/
structure Keeps (n : Nat) (s s' : Sys) : Prop where
  incomplete : s'.incomplete.size ≤ s.incomplete.size + n
  address : ∀ a, s.byAddress.has a = true → s'.byAddress.has a = true

theorem Keeps.refl (s : Sys) : Keeps 0 s s := ⟨Nat.le_refl _, fun _ h => h⟩

theorem Keeps.trans {n k : Nat} {a b c : Sys} (h : Keeps n a b) (h' : Keeps k b c) : Keeps (n + k) a c :=
  ⟨by have := h.1; have := h'.1; omega, fun x hx => h'.2 x (h.2 x hx)⟩

theorem Keeps.mono {n k : Nat} {a b : Sys} (h : Keeps n a b) (hk : n ≤ k) : Keeps k a b :=
  ⟨by have := h.1; omega, h.2⟩

theorem GoMap.has_set {K V : Type} [DecidableEq K] (m : GoMap K V) (k k' : K) (v : V) (h : m.has k' = true) :
    (m.set k v).has k' = true := by
  rw [GoMap.has_iff] at h ⊢
  rw [GoMap.get_set]
  split
  · exact ⟨_, rfl⟩
  · exact h

theorem Keeps.removeDialogue {s s' : Sys} {l : DialogueLabel} (h : s.removeDialogue l = .ok s') : Keeps 0 s s' := by
  obtain ⟨_, _, _, _, _, h6, _, h8⟩ := Sys.removeDialogue_ok h
  refine ⟨by rw [h6]; exact GoMap.size_erase_le _ _, fun a ha => ?_⟩
  split at h8
  · obtain ⟨arr, _, h8⟩ := h8
    rw [h8]
    exact GoMap.has_set _ _ _ _ ha
  · rw [h8]; exact ha

theorem Keeps.runCallbacks {n : Nat} {s s' : Sys} {l : DialogueLabel} (h : s.runCallbacks l n = .ok s') :
    Keeps 0 s s' := by
  induction n generalizing s with
  | zero => simp only [Sys.runCallbacks, Res.ok.injEq] at h; subst h; exact .refl _
  | succ n ih =>
    unfold Sys.runCallbacks at h
    rw [Res.bind_eq_ok] at h
    obtain ⟨s1, h1, h2⟩ := h
    refine Keeps.trans ?_ (ih h2)
    unfold Sys.terminalCallback at h1
    split at h1
    · simp only [Res.ok.injEq] at h1; subst h1; exact ⟨Nat.le_refl _, fun _ h => h⟩
    · exact .removeDialogue h1

theorem Keeps.dialogueUpdate {s s' : Sys} {p : Ptr} {m : Message} {r : Res DErr Message}
    (hu : s.dialogueUpdate p m = (s', r)) (hr : r ≠ .panic) : Keeps 0 s s' := by
  rcases Sys.dialogueUpdate_cases hu with hp | ⟨_, _, rfl⟩ | ⟨d, d', m', t, hd, hc, _, ht⟩
  · exact absurd hp hr
  · exact .refl _
  · split at ht
    · have := Keeps.runCallbacks ht
      exact ⟨this.1, this.2⟩
    · subst ht; exact ⟨Nat.le_refl _, fun _ h => h⟩

theorem Keeps.addDialogue (s : Sys) (p : Ptr) (d : Dialogue) : Keeps 0 s (s.addDialogue p d) :=
  ⟨Nat.le_refl _, fun _ h => GoMap.has_set _ _ _ _ h⟩

theorem Keeps.setIncomplete (s : Sys) (i c : DialogueLabel) : Keeps 1 s (s.setIncomplete i c) :=
  ⟨GoMap.size_set_le _ _ _, fun _ h => h⟩

theorem Keeps.create {s s' : Sys} {i : DialogueLabel} {c : Option DialogueLabel} {r : Res DErr Ptr}
    (h : s.create i c = (s', r)) : Keeps c.toList.length s s' := by
  have h1 : Keeps c.toList.length s (s.mapped i c) := by
    cases c with
    | none => exact .refl _
    | some c => exact .setIncomplete s i c
  rcases Sys.create_cases h with ⟨_, rfl, _⟩ | ⟨_, rfl, _⟩ | ⟨_, _, _, rfl⟩
  · exact (Keeps.refl _).mono (Nat.zero_le _)
  · exact h1
  · refine ⟨h1.1, fun a ha => ?_⟩
    exact GoMap.has_set _ _ _ _ (h1.2 a ha)

theorem Keeps.completeReference {s s' : Sys} {m : Message} {r : Res DErr Unit}
    (hc : s.completeReference m = (s', r)) (hr : r ≠ .panic) : Keeps 1 s s' := by
  rcases Sys.completeReference_cases hc with hp | ⟨e, rfl, _⟩ |
    ⟨_, _, _, rfl | ⟨p, s1, d, hp, _, hrm, hd, rfl⟩⟩
  · exact absurd hp hr
  · rw [Sys.completeReference_err hc]; exact (Keeps.refl _).mono (Nat.zero_le _)
  · exact (Keeps.refl _).mono (Nat.zero_le _)
  · exact ((Keeps.removeDialogue hrm).trans (.addDialogue _ _ _)).trans (.setIncomplete _ _ _)

theorem Keeps.updateFound {s s' : Sys} {m : Message} {isNew : Bool} {f : Option Ptr} {r : Res DErr (Option Ptr)}
    (hf : s.updateFound m isNew f = (s', r)) (hr : r ≠ .panic) : Keeps 0 s s' := by
  rcases Sys.updateFound_cases hf with ⟨_, rfl, _⟩ | hp | ⟨p, _, ⟨m', hu, _⟩ | ⟨e, _, _, ⟨_, rfl⟩ | ⟨_, d, _, hrm⟩⟩⟩
  · exact .refl _
  · exact absurd hp hr
  · exact .dialogueUpdate hu (by simp)
  · exact .refl _
  · exact .removeDialogue hrm

theorem Keeps.call {s : Sys} (c : Call) (hc : (s.call c).2 ≠ .crashed) :
    Keeps (received [c]).length s (s.call c).1 := by
  refine Sys.call_cases hc (P := Keeps (received [c]).length s) ?_ ?_ ?_ ((Keeps.refl _).mono (Nat.zero_le _))
  · intro cp m s' r _ _ hd hr
    have base : ∀ {s1 r1}, s.createSelfInitiated cp m.reference = (s1, r1) → Keeps 0 s s1 := by
      intro s1 r1 h1
      rcases Sys.createSelfInitiated_cases h1 with ⟨_, rfl⟩ | ⟨_, _, h1⟩
      · exact .refl _
      · exact .create h1
    refine Keeps.mono (n := 0) ?_ (Nat.zero_le _)
    rcases Sys.createDialogue_cases hd with ⟨e, _, h1⟩ | hp | ⟨s1, p, hc1, ⟨m', hu, _⟩ | ⟨e, hu, _⟩⟩
    · exact base h1
    · exact absurd hp hr
    · exact (base hc1).trans (.dialogueUpdate hu (by simp))
    · exact (base hc1).trans (.dialogueUpdate hu (by simp))
  · intro m n s' r hcm hd hr
    subst hcm
    show Keeps 1 s s'
    have opp : ∀ {s1 r1}, s.createOpponentInitiated m.sender m.reference n = (s1, r1) → Keeps 1 s s1 := by
      intro s1 r1 h1
      rcases Sys.createOpponentInitiated_cases h1 with ⟨_, rfl⟩ | ⟨_, _, h1⟩
      · exact (Keeps.refl _).mono (Nat.zero_le _)
      · exact .create h1
    rcases Sys.update_cases hd with ⟨_, _, rfl, _⟩ | ⟨_, _, _, hcase⟩
    · exact (Keeps.refl _).mono (Nat.zero_le _)
    rcases hcase with ⟨_, _, rfl, _⟩ | ⟨_, _, _, ⟨s1, p, hc, hf⟩ | ⟨e, hc, _⟩ | ⟨_, hp⟩⟩ |
      ⟨_, _, _, _, hf⟩ | ⟨_, ⟨s1, hc, hf⟩ | ⟨e, hc, _⟩ | ⟨_, hp⟩⟩
    · exact (Keeps.refl _).mono (Nat.zero_le _)
    · exact (opp hc).trans (.updateFound hf hr)
    · exact opp hc
    · exact absurd hp hr
    · exact (Keeps.updateFound hf hr).mono (Nat.zero_le _)
    · exact (Keeps.completeReference hc (by simp)).trans (.updateFound hf hr)
    · exact .completeReference hc (by simp)
    · exact absurd hp hr
  · intro p perf tm tp s' r _ hd hr
    refine Keeps.mono (n := 0) ?_ (Nat.zero_le _)
    rcases Sys.reply_cases hd with h' | ⟨_, _, rfl⟩ | ⟨d, m, _, _, hu⟩
    · exact absurd h' hr
    · exact .refl _
    · exact .dialogueUpdate hu hr

theorem CallHistory.keeps {P : Sys → Call → Prop} {s0 s : Sys} {cs : List Call} (h : CallHistory P s0 cs s) :
    Keeps (received cs).length s0 s := by
  induction h with
  | nil => exact .refl _
  | snoc c _ _ hc ih =>
    rw [received_append, List.length_append]
    exact ih.trans (.call c hc)

end Verif
