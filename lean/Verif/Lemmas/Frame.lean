import Verif.Lemmas.Store

/-! What API calls leave unchanged. -/

namespace Verif

theorem SameMessages.refl (d : Dialogue) : SameMessages d d := ⟨rfl, rfl, rfl, rfl⟩

theorem SameMessages.trans {a b c : Dialogue} (h1 : SameMessages a b) (h2 : SameMessages b c) :
    SameMessages a c :=
  ⟨h2.outgoing.trans h1.outgoing, h2.incoming.trans h1.incoming, h2.ids.trans h1.ids,
   h2.last.trans h1.last⟩

/-- Every dialogue of the first heap has the same messages in the second. -/
def HeapSame (h h' : List Dialogue) : Prop :=
  ∀ (p : Nat) (d : Dialogue), h[p]? = some d → ∃ d', h'[p]? = some d' ∧ SameMessages d d'

theorem HeapSame.refl (h : List Dialogue) : HeapSame h h := fun _ d hd => ⟨d, hd, SameMessages.refl d⟩

theorem HeapSame.trans {a b c : List Dialogue} (h1 : HeapSame a b) (h2 : HeapSame b c) :
    HeapSame a c := by
  intro p d hd
  obtain ⟨d1, hd1, hs1⟩ := h1 p d hd
  obtain ⟨d2, hd2, hs2⟩ := h2 p d1 hd1
  exact ⟨d2, hd2, hs1.trans hs2⟩

theorem HeapSame.append (h l : List Dialogue) : HeapSame h (h ++ l) := by
  intro p d hd
  refine ⟨d, ?_, SameMessages.refl d⟩
  rw [List.getElem?_append_left (List.getElem?_eq_some_iff.1 hd).1]
  exact hd

theorem HeapSame.set {h : List Dialogue} {p : Nat} {d d' : Dialogue} (hd : h[p]? = some d)
    (hs : SameMessages d d') : HeapSame h (h.set p d') := by
  intro q x hx
  by_cases hq : q = p
  · subst hq
    rw [hd] at hx
    simp only [Option.some.injEq] at hx
    subst hx
    exact ⟨d', getElem?_set_self_of_some hd, hs⟩
  · exact ⟨x, by rw [List.getElem?_set_ne (fun e => hq e.symm)]; exact hx, SameMessages.refl x⟩

namespace Sys

theorem create_heap_any {s s' : Sys} {i : DialogueLabel} {c : Option DialogueLabel}
    {r : Res DErr Ptr} (h : s.create i c = (s', r)) :
    s'.heap = s.heap ∨ ∃ d, s'.heap = s.heap ++ [d] := by
  cases r with
  | ok p => obtain ⟨_, h2, _⟩ := Sys.create_heap h; exact Or.inr ⟨_, h2⟩
  | err e =>
    rcases Sys.create_cases h with ⟨_, rfl, _⟩ | ⟨_, rfl, _⟩ | ⟨h, _⟩
    · exact Or.inl rfl
    · cases c <;> exact Or.inl rfl
    · simp at h
  | panic =>
    rcases Sys.create_cases h with ⟨h, _⟩ | ⟨h, _⟩ | ⟨h, _⟩ <;> simp at h

theorem create_same {s s' : Sys} {i : DialogueLabel} {c : Option DialogueLabel}
    {r : Res DErr Ptr} (h : s.create i c = (s', r)) : HeapSame s.heap s'.heap := by
  rcases create_heap_any h with h | ⟨d, h⟩
  · rw [h]; exact HeapSame.refl _
  · rw [h]; exact HeapSame.append _ _

theorem createSelfInitiated_same {s s' : Sys} {o : Bytes} {ref : DialogueReference}
    {r : Res DErr Ptr} (h : s.createSelfInitiated o ref = (s', r)) :
    HeapSame s.heap s'.heap := by
  rcases createSelfInitiated_cases h with ⟨_, rfl⟩ | ⟨_, _, h⟩
  · exact HeapSame.refl _
  · exact create_same h

theorem createOpponentInitiated_same {s s' : Sys} {o n : Bytes} {ref : DialogueReference}
    {r : Res DErr Ptr} (h : s.createOpponentInitiated o ref n = (s', r)) :
    HeapSame s.heap s'.heap := by
  rcases createOpponentInitiated_cases h with ⟨_, rfl⟩ | ⟨_, _, h⟩
  · exact HeapSame.refl _
  · exact create_same h

theorem dialogueUpdate_err {s s' : Sys} {p : Ptr} {msg : Message} {e : DErr}
    (h : s.dialogueUpdate p msg = (s', .err e)) : s' = s := by
  rcases dialogueUpdate_cases h with hp | ⟨_, _, h'⟩ | ⟨_, _, _, _, _, _, hp, _⟩
  · simp at hp
  · exact h'
  · simp at hp

theorem createDialogue_same {s s' : Sys} {cp : Bytes} {m : Message} {r : Res DErr (Option Ptr)}
    (h : s.createDialogue cp m = (s', r)) (hr : (∃ e, r = .err e) ∨ r = .ok none) :
    HeapSame s.heap s'.heap := by
  rcases createDialogue_cases h with ⟨e, _, h⟩ | hp | ⟨s1, p, hc, h⟩
  · exact createSelfInitiated_same h
  · rcases hr with ⟨e, hr⟩ | hr <;> rw [hp] at hr <;> simp at hr
  · rcases h with ⟨m', _, h⟩ | ⟨e, hu, _⟩
    · rcases hr with ⟨e, hr⟩ | hr <;> rw [h] at hr <;> simp at hr
    · rw [dialogueUpdate_err hu]; exact createSelfInitiated_same hc

theorem completeReference_same {s s' : Sys} {m : Message} {r : Res DErr Unit}
    (h : s.completeReference m = (s', r)) (hr : r ≠ .panic) : HeapSame s.heap s'.heap := by
  rcases completeReference_cases h with hp | ⟨e, rfl, _⟩ |
    ⟨_, _, _, rfl | ⟨p, s1, d, hp, _, hrm, hd, rfl⟩⟩
  · exact absurd hp hr
  · rw [completeReference_err h]; exact HeapSame.refl _
  · exact HeapSame.refl _
  · have hheap := (removeDialogue_ok hrm).2.2.2.1
    rw [hheap] at hd
    show HeapSame s.heap (s1.heap.set p _)
    rw [hheap]
    exact HeapSame.set hd ⟨rfl, rfl, rfl, rfl⟩

theorem updateFound_same {s s' : Sys} {m : Message} {isNew : Bool} {f : Option Ptr}
    {r : Res DErr (Option Ptr)} (h : s.updateFound m isNew f = (s', r))
    (hr : (∃ e, r = .err e) ∨ r = .ok none) : HeapSame s.heap s'.heap := by
  rcases updateFound_cases h with ⟨_, rfl, _⟩ | hp | ⟨p, _, ⟨m', _, h⟩ | ⟨e, _, _, ⟨_, rfl⟩ | ⟨_, d, _, hrm⟩⟩⟩
  · exact HeapSame.refl _
  · rcases hr with ⟨e, hr⟩ | hr <;> rw [hp] at hr <;> simp at hr
  · rcases hr with ⟨e, hr⟩ | hr <;> rw [h] at hr <;> simp at hr
  · exact HeapSame.refl _
  · rw [(removeDialogue_ok hrm).2.2.2.1]; exact HeapSame.refl _

theorem update_same {s s' : Sys} {m : Message} {n : Bytes} {r : Res DErr (Option Ptr)}
    (h : s.update m n = (s', r)) (hr : (∃ e, r = .err e) ∨ r = .ok none) :
    HeapSame s.heap s'.heap := by
  have hnp : r ≠ .panic := by rcases hr with ⟨e, hr⟩ | hr <;> simp [hr]
  rcases update_cases h with ⟨_, _, rfl, _⟩ | ⟨_, _, _, hcase⟩
  · exact HeapSame.refl _
  rcases hcase with ⟨_, _, rfl, _⟩ | ⟨_, _, _, ⟨s1, p, hc, hf⟩ | ⟨e, hc, _⟩ | ⟨_, hp⟩⟩ |
    ⟨_, _, _, _, hf⟩ | ⟨_, ⟨s1, hc, hf⟩ | ⟨e, hc, _⟩ | ⟨_, hp⟩⟩
  · exact HeapSame.refl _
  · exact (createOpponentInitiated_same hc).trans (updateFound_same hf hr)
  · exact createOpponentInitiated_same hc
  · exact absurd hp hnp
  · exact updateFound_same hf hr
  · exact (completeReference_same hc (by simp)).trans (updateFound_same hf hr)
  · exact completeReference_same hc (by simp)
  · exact absurd hp hnp

theorem reply_err {s s' : Sys} {p : Ptr} {perf : Bytes} {tm : Option Message}
    {tp : Option Int} {e : DErr} (h : s.reply p perf tm tp = (s', .err e)) : s' = s := by
  rcases reply_cases h with h' | ⟨_, _, rfl⟩ | ⟨d, m, _, _, hu⟩
  · simp at h'
  · rfl
  · exact dialogueUpdate_err hu

/-- A refused call leaves all message histories unchanged. -/
theorem call_same (s : Sys) (c : Call) (h : (s.call c).2.isRefusal) :
    HeapSame s.heap (s.call c).1.heap := by
  cases c with
  | create cp perf nonce =>
    simp only [Sys.call] at h ⊢
    rcases hr : s.createNew cp perf nonce with ⟨s', r⟩
    rw [hr] at h
    obtain ⟨r0, hd, hr0⟩ := Sys.createNew_cases hr
    refine createDialogue_same hd ?_
    rw [hr0] at h
    cases r0 with
    | err e => exact Or.inl ⟨e, rfl⟩
    | panic => exact False.elim h
    | ok p =>
      cases p with
      | none => exact Or.inr rfl
      | some p => exact False.elim h
  | createWith cp m =>
    simp only [Sys.call] at h ⊢
    rcases hr : s.createWithMessage cp m with ⟨s', r⟩
    rw [hr] at h
    rcases Sys.createWithMessage_cases hr with ⟨_, _, rfl⟩ | ⟨_, _, hd⟩
    · exact HeapSame.refl _
    · refine createDialogue_same hd ?_
      cases r with
      | err e => exact Or.inl ⟨e, rfl⟩
      | panic => exact False.elim h
      | ok p =>
        cases p with
        | none => exact Or.inr rfl
        | some p => exact False.elim h
  | update m nonce =>
    simp only [Sys.call] at h ⊢
    rcases hr : s.update m nonce with ⟨s', r⟩
    rw [hr] at h
    refine update_same hr ?_
    cases r with
    | err e => exact Or.inl ⟨e, rfl⟩
    | panic => exact False.elim h
    | ok p =>
      cases p with
      | none => exact Or.inr rfl
      | some p => exact False.elim h
  | reply p perf tm tp =>
    simp only [Sys.call] at h ⊢
    rcases hr : s.reply p perf tm tp with ⟨s', r⟩
    rw [hr] at h
    cases r with
    | err e => simp only; rw [reply_err hr]; exact HeapSame.refl _
    | panic => exact False.elim h
    | ok p => exact False.elim h

end Sys

/-! ### Identity of dialogues -/

/-- `d'` is a later state of the dialogue `d`. -/
structure Evolves (d d' : Dialogue) : Prop where
  selfAddr : d'.selfAddress = d.selfAddress
  starter : d'.label.reference.starter = d.label.reference.starter
  opponent : d'.label.opponent = d.label.opponent
  starterAddr : d'.label.starterAddr = d.label.starterAddr
  responder : d.label.reference.responder ≠ [] →
    d'.label.reference.responder = d.label.reference.responder
  outgoing : d.outgoing <+: d'.outgoing
  incoming : d.incoming <+: d'.incoming
  ids : d.orderedIds <+: d'.orderedIds

theorem Evolves.refl (d : Dialogue) : Evolves d d :=
  ⟨rfl, rfl, rfl, rfl, fun _ => rfl, List.prefix_refl _, List.prefix_refl _, List.prefix_refl _⟩

theorem Evolves.trans {a b c : Dialogue} (h1 : Evolves a b) (h2 : Evolves b c) : Evolves a c where
  selfAddr := h2.selfAddr.trans h1.selfAddr
  starter := h2.starter.trans h1.starter
  opponent := h2.opponent.trans h1.opponent
  starterAddr := h2.starterAddr.trans h1.starterAddr
  responder h := by
    have e1 := h1.responder h
    rw [h2.responder (by rw [e1]; exact h), e1]
  outgoing := h1.outgoing.trans h2.outgoing
  incoming := h1.incoming.trans h2.incoming
  ids := h1.ids.trans h2.ids

theorem Evolves.record (d : Dialogue) (m : Message) : Evolves d (d.record m) := by
  rw [Dialogue.record_eq]
  refine ⟨rfl, rfl, rfl, rfl, fun _ => rfl, ?_, ?_, List.prefix_append _ _⟩ <;> simp only <;>
    split <;> first | exact List.prefix_refl _ | exact List.prefix_append _ _

/-- Every dialogue of the first heap is present in the second at the same place. -/
def HeapEvolves (h h' : List Dialogue) : Prop :=
  ∀ (p : Nat) (d : Dialogue), h[p]? = some d → ∃ d', h'[p]? = some d' ∧ Evolves d d'

theorem HeapEvolves.refl (h : List Dialogue) : HeapEvolves h h := fun _ d hd => ⟨d, hd, Evolves.refl d⟩

theorem HeapEvolves.trans {a b c : List Dialogue} (h1 : HeapEvolves a b) (h2 : HeapEvolves b c) :
    HeapEvolves a c := by
  intro p d hd
  obtain ⟨d1, hd1, hs1⟩ := h1 p d hd
  obtain ⟨d2, hd2, hs2⟩ := h2 p d1 hd1
  exact ⟨d2, hd2, hs1.trans hs2⟩

theorem HeapEvolves.append (h l : List Dialogue) : HeapEvolves h (h ++ l) := by
  intro p d hd
  refine ⟨d, ?_, Evolves.refl d⟩
  rw [List.getElem?_append_left (List.getElem?_eq_some_iff.1 hd).1]
  exact hd

theorem HeapEvolves.set {h : List Dialogue} {p : Nat} {d d' : Dialogue} (hd : h[p]? = some d)
    (hs : Evolves d d') : HeapEvolves h (h.set p d') := by
  intro q x hx
  by_cases hq : q = p
  · subst hq
    rw [hd] at hx
    simp only [Option.some.injEq] at hx
    subst hx
    exact ⟨d', getElem?_set_self_of_some hd, hs⟩
  · exact ⟨x, by rw [List.getElem?_set_ne (fun e => hq e.symm)]; exact hx, Evolves.refl x⟩

namespace Sys

theorem create_evolves {s s' : Sys} {i : DialogueLabel} {c : Option DialogueLabel}
    {r : Res DErr Ptr} (h : s.create i c = (s', r)) : HeapEvolves s.heap s'.heap := by
  rcases create_heap_any h with h | ⟨d, h⟩
  · rw [h]; exact HeapEvolves.refl _
  · rw [h]; exact HeapEvolves.append _ _

theorem createSelfInitiated_evolves {s s' : Sys} {o : Bytes} {ref : DialogueReference}
    {r : Res DErr Ptr} (h : s.createSelfInitiated o ref = (s', r)) :
    HeapEvolves s.heap s'.heap := by
  rcases createSelfInitiated_cases h with ⟨_, rfl⟩ | ⟨_, _, h⟩
  · exact HeapEvolves.refl _
  · exact create_evolves h

theorem createOpponentInitiated_evolves {s s' : Sys} {o n : Bytes} {ref : DialogueReference}
    {r : Res DErr Ptr} (h : s.createOpponentInitiated o ref n = (s', r)) :
    HeapEvolves s.heap s'.heap := by
  rcases createOpponentInitiated_cases h with ⟨_, rfl⟩ | ⟨_, _, h⟩
  · exact HeapEvolves.refl _
  · exact create_evolves h

theorem dialogueUpdate_evolves {s s' : Sys} {p : Ptr} {msg : Message} {r : Res DErr Message}
    (h : s.dialogueUpdate p msg = (s', r)) (hr : r ≠ .panic) : HeapEvolves s.heap s'.heap := by
  rcases dialogueUpdate_cases h with hp | ⟨_, _, rfl⟩ | ⟨d, d', m, t, hd, hc, _, ht⟩
  · exact absurd hp hr
  · exact HeapEvolves.refl _
  · have h1 : HeapEvolves s.heap (s.setHeap p d').heap := by
      refine HeapEvolves.set hd ?_
      rw [(Dialogue.updateCore_ok hc).2.2.2.2]
      exact Evolves.record d _
    split at ht
    · rw [(runCallbacks_shrinks ht).heap]; exact h1
    · rw [ht]; exact h1

theorem createDialogue_evolves {s s' : Sys} {cp : Bytes} {m : Message} {r : Res DErr (Option Ptr)}
    (h : s.createDialogue cp m = (s', r)) (hr : r ≠ .panic) : HeapEvolves s.heap s'.heap := by
  rcases createDialogue_cases h with ⟨e, _, h⟩ | hp | ⟨s1, p, hc, h⟩
  · exact createSelfInitiated_evolves h
  · exact absurd hp hr
  · rcases h with ⟨m', hu, _⟩ | ⟨e, hu, _⟩
    · exact (createSelfInitiated_evolves hc).trans (dialogueUpdate_evolves hu (by simp))
    · exact (createSelfInitiated_evolves hc).trans (dialogueUpdate_evolves hu (by simp))

theorem completeReference_evolves {me : Bytes} {keep : Bool} {rules : RulesDecl} {s s' : Sys}
    {m : Message} {r : Res DErr Unit} (hi : SInv me keep rules s)
    (h : s.completeReference m = (s', r)) (hr : r ≠ .panic) : HeapEvolves s.heap s'.heap := by
  rcases completeReference_cases h with hp | ⟨e, rfl, _⟩ |
    ⟨_, _, _, rfl | ⟨p, s1, d, hp, _, hrm, hd, rfl⟩⟩
  · exact absurd hp hr
  · rw [completeReference_err h]; exact HeapEvolves.refl _
  · exact HeapEvolves.refl _
  · have hheap := (removeDialogue_ok hrm).2.2.2.1
    rw [hheap] at hd
    show HeapEvolves s.heap (s1.heap.set p _)
    rw [hheap]
    obtain ⟨d0, hd0, hl0⟩ := hi.label _ _ hp
    rw [hd] at hd0
    simp only [Option.some.injEq] at hd0
    subst hd0
    refine HeapEvolves.set hd ⟨rfl, ?_, ?_, ?_, ?_, List.prefix_refl _, List.prefix_refl _,
      List.prefix_refl _⟩ <;> rw [hl0]
    intro hx
    exact absurd rfl hx

theorem updateFound_evolves {s s' : Sys} {m : Message} {isNew : Bool} {f : Option Ptr}
    {r : Res DErr (Option Ptr)} (h : s.updateFound m isNew f = (s', r)) (hr : r ≠ .panic) :
    HeapEvolves s.heap s'.heap := by
  rcases updateFound_cases h with ⟨_, rfl, _⟩ | hp | ⟨p, _, ⟨m', hu, _⟩ | ⟨e, _, _, ⟨_, rfl⟩ | ⟨_, d, _, hrm⟩⟩⟩
  · exact HeapEvolves.refl _
  · exact absurd hp hr
  · exact dialogueUpdate_evolves hu (by simp)
  · exact HeapEvolves.refl _
  · rw [(removeDialogue_ok hrm).2.2.2.1]; exact HeapEvolves.refl _

theorem update_evolves {me : Bytes} {keep : Bool} {rules : RulesDecl} {s s' : Sys}
    {m : Message} {n : Bytes} {r : Res DErr (Option Ptr)} (hi : SInv me keep rules s)
    (h : s.update m n = (s', r)) (hnp : r ≠ .panic) : HeapEvolves s.heap s'.heap := by
  rcases update_cases h with ⟨_, _, rfl, _⟩ | ⟨_, _, _, hcase⟩
  · exact HeapEvolves.refl _
  rcases hcase with ⟨_, _, rfl, _⟩ | ⟨_, _, _, ⟨s1, p, hc, hf⟩ | ⟨e, hc, _⟩ | ⟨_, hp⟩⟩ |
    ⟨_, _, _, _, hf⟩ | ⟨_, ⟨s1, hc, hf⟩ | ⟨e, hc, _⟩ | ⟨_, hp⟩⟩
  · exact HeapEvolves.refl _
  · exact (createOpponentInitiated_evolves hc).trans (updateFound_evolves hf hnp)
  · exact createOpponentInitiated_evolves hc
  · exact absurd hp hnp
  · exact updateFound_evolves hf hnp
  · exact (completeReference_evolves hi hc (by simp)).trans (updateFound_evolves hf hnp)
  · exact completeReference_evolves hi hc (by simp)
  · exact absurd hp hnp

theorem reply_evolves {s s' : Sys} {p : Ptr} {perf : Bytes} {tm : Option Message}
    {tp : Option Int} {r : Res DErr Message} (h : s.reply p perf tm tp = (s', r))
    (hr : r ≠ .panic) : HeapEvolves s.heap s'.heap := by
  rcases reply_cases h with h' | ⟨_, _, rfl⟩ | ⟨d, m, _, _, hu⟩
  · exact absurd h' hr
  · exact HeapEvolves.refl _
  · exact dialogueUpdate_evolves hu hr

/-- Induction over calls in terms of the functions called. -/
theorem call_cases {s : Sys} {c : Call} (hc : (s.call c).2 ≠ .crashed) {P : Sys → Prop}
    (hdlg : ∀ (cp : Bytes) (m : Message) (s' : Sys) (r : Res DErr (Option Ptr)),
      m.sender = s.self → m.to = cp → s.createDialogue cp m = (s', r) → r ≠ .panic → P s')
    (hupd : ∀ (m : Message) (n : Bytes) (s' : Sys) (r : Res DErr (Option Ptr)),
      c = .update m n → s.update m n = (s', r) → r ≠ .panic → P s')
    (hrep : ∀ (p : Ptr) (perf : Bytes) (tm : Option Message) (tp : Option Int) (s' : Sys)
      (r : Res DErr Message), c = .reply p perf tm tp → s.reply p perf tm tp = (s', r) →
      r ≠ .panic → P s')
    (hid : P s) : P (s.call c).1 := by
  cases c with
  | create cp perf nonce =>
    simp only [Sys.call] at hc ⊢
    rcases hr : s.createNew cp perf nonce with ⟨s', r⟩
    rw [hr] at hc
    obtain ⟨r0, hd, hr0⟩ := Sys.createNew_cases hr
    refine hdlg cp _ s' r0 rfl rfl hd ?_
    rintro rfl
    rw [hr0] at hc
    exact hc rfl
  | createWith cp m =>
    simp only [Sys.call] at hc ⊢
    rcases hr : s.createWithMessage cp m with ⟨s', r⟩
    rw [hr] at hc
    rcases Sys.createWithMessage_cases hr with ⟨_, _, rfl⟩ | ⟨_, _, hd⟩
    · exact hid
    · refine hdlg cp _ s' r rfl rfl hd ?_
      rintro rfl
      exact hc rfl
  | update m nonce =>
    simp only [Sys.call] at hc ⊢
    rcases hr : s.update m nonce with ⟨s', r⟩
    rw [hr] at hc
    refine hupd m nonce s' r rfl hr ?_
    rintro rfl
    exact hc rfl
  | reply p perf tm tp =>
    simp only [Sys.call] at hc ⊢
    rcases hr : s.reply p perf tm tp with ⟨s', r⟩
    rw [hr] at hc
    refine hrep p perf tm tp s' r rfl hr ?_
    rintro rfl
    exact hc rfl

theorem call_evolves {me : Bytes} {keep : Bool} {rules : RulesDecl} {s : Sys}
    (hi : SInv me keep rules s) (c : Call) (hc : (s.call c).2 ≠ .crashed) :
    HeapEvolves s.heap (s.call c).1.heap := by
  refine call_cases hc (P := fun s' => HeapEvolves s.heap s'.heap) ?_ ?_ ?_ (HeapEvolves.refl _)
  · intro cp m s' r _ _ h hr; exact createDialogue_evolves h hr
  · intro m n s' r _ h hr; exact update_evolves hi h hr
  · intro p perf tm tp s' r _ h hr; exact reply_evolves h hr

end Sys

theorem Later.evolves {me : Bytes} {keep : Bool} {rules : RulesDecl} {P : Sys → Call → Prop}
    {s s' : Sys} (hi : SInv me keep rules s) (h : Later P s s') :
    SInv me keep rules s' ∧ HeapEvolves s.heap s'.heap := by
  induction h with
  | refl => exact ⟨hi, HeapEvolves.refl _⟩
  | step c _ _ hc ih =>
    exact ⟨ih.1.call c hc, ih.2.trans (Sys.call_evolves ih.1 c hc)⟩

/-! ### Other counterparties -/

/-- The parts of the state that concern counterparties other than `x` are unchanged. -/
structure Frame (x : Bytes) (s s' : Sys) : Prop where
  selfEq : s'.self = s.self
  heap : ∀ (p : Nat) (d : Dialogue), s.heap[p]? = some d → d.label.opponent ≠ x →
    s'.heap[p]? = some d
  byLabel : ∀ l : DialogueLabel, l.opponent ≠ x → s'.byLabel.get l = s.byLabel.get l
  byAddress : ∀ a : Bytes, a ≠ x → s'.byAddress.get a = s.byAddress.get a
  incomplete : ∀ l : DialogueLabel, l.opponent ≠ x → s'.incomplete.get l = s.incomplete.get l
  terminal : ∀ l : DialogueLabel, l.opponent ≠ x → s'.terminal.contains l = s.terminal.contains l

theorem Frame.refl (x : Bytes) (s : Sys) : Frame x s s :=
  ⟨rfl, fun _ _ h _ => h, fun _ _ => rfl, fun _ _ => rfl, fun _ _ => rfl, fun _ _ => rfl⟩

theorem Frame.trans {x : Bytes} {a b c : Sys} (h1 : Frame x a b) (h2 : Frame x b c) :
    Frame x a c :=
  ⟨h2.selfEq.trans h1.selfEq, fun p d h hx => h2.heap p d (h1.heap p d h hx) hx,
   fun l h => (h2.byLabel l h).trans (h1.byLabel l h),
   fun l h => (h2.byAddress l h).trans (h1.byAddress l h),
   fun l h => (h2.incomplete l h).trans (h1.incomplete l h),
   fun l h => (h2.terminal l h).trans (h1.terminal l h)⟩

theorem Frame.removeDialogue {s s' : Sys} {l : DialogueLabel} (h : s.removeDialogue l = .ok s') :
    Frame l.opponent s s' := by
  obtain ⟨h1, _, _, h4, h5, h6, h7, h8⟩ := Sys.removeDialogue_ok h
  refine ⟨h1, ?_, ?_, ?_, ?_, ?_⟩
  · intro p d hd _; rw [h4]; exact hd
  · intro l' hl; rw [h5, GoMap.get_erase_ne]; rintro rfl; exact hl rfl
  · intro a ha
    split at h8
    · obtain ⟨arr, _, h8⟩ := h8
      rw [h8, GoMap.get_set_ne]
      exact ha
    · rw [h8]
  · intro l' hl; rw [h6, GoMap.get_erase_ne]; rintro rfl; exact hl rfl
  · intro l' hl
    have hne : l' ≠ l := by rintro rfl; exact hl rfl
    rw [h7, Bool.eq_iff_iff, GSet.contains_remove]; simp [hne]

theorem Frame.terminalCallback {s s' : Sys} {l : DialogueLabel}
    (h : s.terminalCallback l = .ok s') : Frame l.opponent s s' := by
  unfold Sys.terminalCallback at h
  split at h
  · simp only [Res.ok.injEq] at h
    subst h
    refine ⟨rfl, fun _ _ h _ => h, fun _ _ => rfl, fun _ _ => rfl, fun _ _ => rfl, ?_⟩
    intro l' hl
    have hne : l' ≠ l := by rintro rfl; exact hl rfl
    show (s.terminal.add l).contains l' = _
    rw [Bool.eq_iff_iff, GSet.contains_add]; simp [hne]
  · exact Frame.removeDialogue h

theorem Frame.runCallbacks {n : Nat} {s s' : Sys} {l : DialogueLabel}
    (h : s.runCallbacks l n = .ok s') : Frame l.opponent s s' := by
  induction n generalizing s with
  | zero => simp only [Sys.runCallbacks, Res.ok.injEq] at h; subst h; exact Frame.refl _ _
  | succ n ih =>
    unfold Sys.runCallbacks at h
    rw [Res.bind_eq_ok] at h
    obtain ⟨s1, h1, h2⟩ := h
    exact (Frame.terminalCallback h1).trans (ih h2)

theorem Frame.setHeap {x : Bytes} {s : Sys} {p : Ptr} {d d' : Dialogue}
    (hd : s.heap[p]? = some d) (hx : d.label.opponent = x) : Frame x s (s.setHeap p d') := by
  refine ⟨rfl, ?_, fun _ _ => rfl, fun _ _ => rfl, fun _ _ => rfl, fun _ _ => rfl⟩
  intro q y hy hne
  have hqp : q ≠ p := by
    rintro rfl
    rw [hd] at hy
    simp only [Option.some.injEq] at hy
    subst hy
    exact hne hx
  show (s.heap.set p d')[q]? = some y
  rw [List.getElem?_set_ne (fun e => hqp e.symm)]
  exact hy

/-- A message whose sender is not the agent is accepted by a dialogue only if the dialogue's
counterparty sent it. -/
theorem Frame.dialogueUpdate {me : Bytes} {keep : Bool} {rules : RulesDecl} {s s' : Sys}
    {p : Ptr} {m : Message} {r : Res DErr Message} (hi : SInv me keep rules s)
    (h1 : m.sender ≠ me) (h2 : m.sender ≠ []) (h3 : m.to = me)
    (hu : s.dialogueUpdate p m = (s', r)) (hr : r ≠ .panic) : Frame m.sender s s' := by
  rcases Sys.dialogueUpdate_cases hu with hp | ⟨_, _, rfl⟩ | ⟨d, d', m', t, hd, hc, _, ht⟩
  · exact absurd hp hr
  · exact Frame.refl _ _
  · have hdi := hi.heap p d hd
    have hd' := hdi.update (Offered.other h1 h2 h3) hc
    have hrec := (Dialogue.updateCore_ok hc)
    have hl : d'.label = d.label := by rw [hrec.2.2.2.2, Dialogue.record_eq]
    have hsnd : d.label.opponent = m.sender := by
      have hm : d.withSender m = m := by
        simp [Dialogue.withSender, Message.hasSender, h2]
      have hb := hrec.2.1
      rw [hrec.1, hm] at hb
      have hop := Dialogue.isBelonging_opponent hb
      rw [← hop]
      have : d.isMessageBySelf m = false := by
        simp [Dialogue.isMessageBySelf, hdi.selfAddr, h1]
      simp [Dialogue.counterParty, this]
    have hf := Frame.setHeap (d' := d') hd hsnd
    split at ht
    · have := Frame.runCallbacks ht
      rw [hl, hsnd] at this
      exact hf.trans this
    · rw [ht]; exact hf

theorem Frame.setIncomplete (s : Sys) (i c : DialogueLabel) :
    Frame i.opponent s (s.setIncomplete i c) := by
  refine ⟨rfl, fun _ _ h _ => h, fun _ _ => rfl, fun _ _ => rfl, ?_, fun _ _ => rfl⟩
  intro l hl
  show (s.incomplete.set i c).get l = _
  rw [GoMap.get_set_ne]
  rintro rfl; exact hl rfl

theorem Frame.alloc (s : Sys) (l : DialogueLabel) (d : Dialogue) (hd : d.label = l) :
    Frame l.opponent s (({ s with heap := s.heap ++ [d] } : Sys).addDialogue s.heap.length d) := by
  refine ⟨rfl, ?_, ?_, ?_, fun _ _ => rfl, fun _ _ => rfl⟩
  · intro q x hx _
    have hlt : q < s.heap.length := (List.getElem?_eq_some_iff.1 hx).1
    show ((s.heap ++ [d]).set s.heap.length _)[q]? = some x
    rw [List.getElem?_set_ne (by omega), List.getElem?_append_left hlt]
    exact hx
  · intro l' hl
    show (s.byLabel.set d.label _).get l' = _
    rw [GoMap.get_set_ne]
    rintro rfl; rw [hd] at hl; exact hl rfl
  · intro a ha
    show (s.byAddress.set d.label.opponent _).get a = _
    rw [GoMap.get_set_ne]
    rw [hd]; exact ha

theorem Frame.createOpponentInitiated {s s' : Sys} {o n : Bytes} {ref : DialogueReference}
    {r : Res DErr Ptr} (h : s.createOpponentInitiated o ref n = (s', r)) : Frame o s s' := by
  rcases Sys.createOpponentInitiated_cases h with ⟨_, rfl⟩ | ⟨_, _, h⟩
  · exact Frame.refl _ _
  · have hm : Frame o s (s.mapped ⟨ref, o, o⟩ (some ⟨⟨ref.starter, n⟩, o, o⟩)) :=
      Frame.setIncomplete s ⟨ref, o, o⟩ ⟨⟨ref.starter, n⟩, o, o⟩
    rcases Sys.create_cases h with ⟨_, rfl, _⟩ | ⟨_, rfl, _⟩ | ⟨_, _, _, rfl⟩
    · exact Frame.refl _ _
    · exact hm
    · refine hm.trans ?_
      exact Frame.alloc _ ⟨⟨ref.starter, n⟩, o, o⟩ _ rfl

theorem Frame.completeReference {me : Bytes} {keep : Bool} {rules : RulesDecl} {s s' : Sys}
    {m : Message} {r : Res DErr Unit} (hi : SInv me keep rules s)
    (h : s.completeReference m = (s', r)) (hr : r ≠ .panic) : Frame m.sender s s' := by
  rcases Sys.completeReference_cases h with hp | ⟨e, rfl, _⟩ |
    ⟨_, _, _, rfl | ⟨p, s1, d, hp, _, hrm, hd, rfl⟩⟩
  · exact absurd hp hr
  · rw [Sys.completeReference_err h]; exact Frame.refl _ _
  · exact Frame.refl _ _
  · have h1 := Frame.removeDialogue hrm
    obtain ⟨d0, hd0, hl0⟩ := hi.label _ _ hp
    have hd0' := hd0
    rw [← (Sys.removeDialogue_ok hrm).2.2.2.1] at hd0'
    rw [hd] at hd0'
    simp only [Option.some.injEq] at hd0'
    subst hd0'
    refine (h1.trans ?_).trans (Frame.setIncomplete _ ⟨⟨m.reference.starter, []⟩, m.sender, s.self⟩ _)
    refine ⟨rfl, ?_, ?_, ?_, fun _ _ => rfl, fun _ _ => rfl⟩
    · intro q x hx hne
      have hqp : q ≠ p := by
        rintro rfl
        rw [hd] at hx
        simp only [Option.some.injEq] at hx
        subst hx
        rw [hl0] at hne
        exact hne rfl
      show (s1.heap.set p _)[q]? = some x
      rw [List.getElem?_set_ne (fun e => hqp e.symm)]
      exact hx
    · intro l' hl
      show (s1.byLabel.set _ _).get l' = _
      rw [GoMap.get_set_ne]
      rintro rfl; exact hl rfl
    · intro a ha
      show (s1.byAddress.set _ _).get a = _
      rw [GoMap.get_set_ne]
      exact ha

theorem Frame.updateFound {me : Bytes} {keep : Bool} {rules : RulesDecl} {s s' : Sys}
    {m : Message} {isNew : Bool} {f : Option Ptr} {r : Res DErr (Option Ptr)}
    (hi : SInv me keep rules s)
    (h1 : m.sender ≠ me) (h2 : m.sender ≠ []) (h3 : m.to = me)
    (hn : isNew = true → ∀ (p : Nat) (d : Dialogue), f = some p → s.heap[p]? = some d →
      d.label.opponent = m.sender)
    (h : s.updateFound m isNew f = (s', r)) (hr : r ≠ .panic) : Frame m.sender s s' := by
  rcases Sys.updateFound_cases h with ⟨_, rfl, _⟩ | hp | ⟨p, hf, ⟨m', hu, _⟩ | ⟨e, _, _, ⟨_, rfl⟩ | ⟨hnew, d, hd, hrm⟩⟩⟩
  · exact Frame.refl _ _
  · exact absurd hp hr
  · exact Frame.dialogueUpdate hi h1 h2 h3 hu (by simp)
  · exact Frame.refl _ _
  · have := Frame.removeDialogue hrm
    rw [hn hnew p d hf hd] at this
    exact this

theorem Frame.update {me : Bytes} {keep : Bool} {rules : RulesDecl} {s s' : Sys}
    {m : Message} {n : Bytes} {r : Res DErr (Option Ptr)} (hi : SInv me keep rules s)
    (h : s.update m n = (s', r)) (hnp : r ≠ .panic) : Frame m.sender s s' := by
  rcases Sys.update_cases h with ⟨_, _, rfl, _⟩ | ⟨h1, h2, h3, hcase⟩
  · exact Frame.refl _ _
  rw [hi.selfEq] at h2 h3
  rcases hcase with ⟨_, _, rfl, _⟩ | ⟨_, _, _, ⟨s1, p, hc, hf⟩ | ⟨e, hc, _⟩ | ⟨_, hp⟩⟩ |
    ⟨_, _, _, _, hf⟩ | ⟨_, ⟨s1, hc, hf⟩ | ⟨e, hc, _⟩ | ⟨_, hp⟩⟩
  · exact Frame.refl _ _
  · have hi1 := hi.createOpponentInitiated h2 hc
    refine (Frame.createOpponentInitiated hc).trans (Frame.updateFound hi1 h2 h1 h3 ?_ hf hnp)
    rcases Sys.createOpponentInitiated_cases hc with ⟨he, _⟩ | ⟨_, _, hcr⟩
    · simp at he
    obtain ⟨hp, hheap, _⟩ := Sys.create_heap hcr
    rintro - q d hq hd
    simp only [Option.some.injEq] at hq
    subst hq
    rw [hheap, hp] at hd
    simp at hd
    subst hd
    rfl
  · exact Frame.createOpponentInitiated hc
  · exact absurd hp hnp
  · exact Frame.updateFound hi h2 h1 h3 (by simp) hf hnp
  · have hi1 := hi.completeReference hc (by simp)
    exact (Frame.completeReference hi hc (by simp)).trans
      (Frame.updateFound hi1 h2 h1 h3 (by simp) hf hnp)
  · exact Frame.completeReference hi hc (by simp)
  · exact absurd hp hnp

theorem Frame.others {x : Bytes} {s s' : Sys} (h : Frame x s s')
    (hm : ∀ l l', s.incomplete.get l = some l' → l'.opponent = l.opponent) :
    OthersUntouched x s s' where
  dialogues := h.heap
  byLabel := h.byLabel
  byCounterparty a ha := by
    simp only [Sys.withCounterparty, Sys.addressList, h.byAddress a ha]
  byMessage m hx := by
    have hcp : s'.counterparty m = s.counterparty m := by
      simp only [Sys.counterparty, h.selfEq]
    have key : ∀ l : DialogueLabel, l.opponent ≠ x →
        s'.getByLabel (s'.latestLabel l) = s.getByLabel (s.latestLabel l) := by
      intro l hl
      have e : s'.latestLabel l = s.latestLabel l := by
        simp only [Sys.latestLabel, h.incomplete l hl]
      rw [e]
      apply h.byLabel
      unfold Sys.latestLabel
      cases hg : s.incomplete.get l with
      | none => exact hl
      | some l' => simp only; rw [hm l l' hg]; exact hl
    unfold Sys.getDialogue
    simp only [hcp, h.selfEq]
    rw [key _ hx, key _ hx]
  terminal := h.terminal

end Verif
