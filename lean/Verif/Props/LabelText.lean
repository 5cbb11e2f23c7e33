import Verif.Model.Label

/-!
# C13: text form of dialogue labels
-/

namespace Verif

namespace DialogueLabel

theorem splitBytes_ne_nil (sep : UInt8) (s : Bytes) : splitBytes sep s ≠ [] := by
  cases s with
  | nil => simp [splitBytes]
  | cons c cs =>
    unfold splitBytes
    split
    · simp
    · split <;> simp

theorem join_split (sep : UInt8) (s : Bytes) : joinBytes sep (splitBytes sep s) = s := by
  induction s with
  | nil => rfl
  | cons c cs ih =>
    unfold splitBytes
    split
    · rename_i h
      subst h
      cases hs : splitBytes c cs with
      | nil => exact absurd hs (splitBytes_ne_nil _ _)
      | cons p ps => rw [hs] at ih; simp [joinBytes, ih]
    · cases hs : splitBytes sep cs with
      | nil => exact absurd hs (splitBytes_ne_nil _ _)
      | cons p ps =>
        rw [hs] at ih
        cases ps with
        | nil => simp only [joinBytes] at ih ⊢; rw [ih]
        | cons q qs => simp only [joinBytes, List.cons_append] at ih ⊢; rw [ih]

theorem split_no_sep (sep : UInt8) (s : Bytes) (h : sep ∉ s) : splitBytes sep s = [s] := by
  induction s with
  | nil => rfl
  | cons c cs ih =>
    simp only [List.mem_cons, not_or] at h
    unfold splitBytes
    rw [if_neg (fun e => h.1 e.symm), ih h.2]

theorem split_no_sep_mem (sep : UInt8) (s : Bytes) : ∀ p ∈ splitBytes sep s, sep ∉ p := by
  induction s with
  | nil => intro p hp; simp [splitBytes] at hp; simp [hp]
  | cons c cs ih =>
    intro p hp
    unfold splitBytes at hp
    split at hp
    · rcases List.mem_cons.1 hp with rfl | hp
      · simp
      · exact ih p hp
    · rename_i hne
      cases hs : splitBytes sep cs with
      | nil => exact absurd hs (splitBytes_ne_nil _ _)
      | cons q qs =>
        rw [hs] at hp ih
        dsimp only at hp
        rcases List.mem_cons.1 hp with rfl | hp
        · have := ih q (by simp)
          simp only [List.mem_cons, not_or]
          exact ⟨fun e => hne e.symm, this⟩
        · exact ih p (List.mem_cons_of_mem _ hp)

theorem split_append (sep : UInt8) (s t : Bytes) (h : sep ∉ s) :
    splitBytes sep (s ++ sep :: t) = s :: splitBytes sep t := by
  induction s with
  | nil => simp [splitBytes]
  | cons c cs ih =>
    simp only [List.mem_cons, not_or] at h
    rw [List.cons_append]
    conv => lhs; unfold splitBytes
    rw [if_neg (fun e => h.1 e.symm), ih h.2]

theorem split_length (sep : UInt8) (s : Bytes) : (splitBytes sep s).length = s.count sep + 1 := by
  induction s with
  | nil => simp [splitBytes]
  | cons c cs ih =>
    unfold splitBytes
    split
    · rename_i h; subst h; simp [ih]
    · rename_i h
      have hb : (c == sep) = false := by simpa using h
      cases hs : splitBytes sep cs with
      | nil => exact absurd hs (splitBytes_ne_nil _ _)
      | cons p ps =>
        rw [hs] at ih
        simp only [List.length_cons, List.count_cons, hb] at ih ⊢
        simpa using ih

theorem toStr_eq (l : DialogueLabel) : l.toStr = l.reference.starter ++ separator ::
    (l.reference.responder ++ separator :: (l.opponent ++ separator :: l.starterAddr)) := rfl

theorem toStr_count (l : DialogueLabel) : l.toStr.count separator =
    l.reference.starter.count separator + l.reference.responder.count separator +
      l.opponent.count separator + l.starterAddr.count separator + 3 := by
  rw [toStr_eq]
  simp only [List.count_append, List.count_cons, beq_self_eq_true, if_true]
  omega

end DialogueLabel

/-- No component of the label contains an underscore (byte 95). -/
def NoUnderscore (l : DialogueLabel) : Prop :=
  (95 : UInt8) ∉ l.reference.starter ∧ (95 : UInt8) ∉ l.reference.responder ∧
  (95 : UInt8) ∉ l.opponent ∧ (95 : UInt8) ∉ l.starterAddr

/-- **C13, round trip.** Parsing the text form gives back the label exactly when no component
contains an underscore, and is an error otherwise. -/
theorem C13_text_round_trip (l : DialogueLabel) :
    (NoUnderscore l → DialogueLabel.fromStr l.toStr = .ok l) ∧
    (¬ NoUnderscore l → ∃ n, DialogueLabel.fromStr l.toStr = .err n) := by
  constructor
  · rintro ⟨h1, h2, h3, h4⟩
    unfold DialogueLabel.fromStr
    simp only
    rw [DialogueLabel.toStr_eq, DialogueLabel.split_append _ _ _ h1,
      DialogueLabel.split_append _ _ _ h2, DialogueLabel.split_append _ _ _ h3,
      DialogueLabel.split_no_sep _ _ h4]
  · intro hn
    refine ⟨(DialogueLabel.splitBytes DialogueLabel.separator l.toStr).length, ?_⟩
    have hlen : (DialogueLabel.splitBytes DialogueLabel.separator l.toStr).length ≠ 4 := by
      rw [DialogueLabel.split_length, DialogueLabel.toStr_count]
      intro h
      apply hn
      have z : ∀ b : Bytes, b.count DialogueLabel.separator = 0 → (95 : UInt8) ∉ b :=
        fun b hb => List.count_eq_zero.1 hb
      exact ⟨z _ (by omega), z _ (by omega), z _ (by omega), z _ (by omega)⟩
    unfold DialogueLabel.fromStr
    simp only
    split
    · rename_i h; rw [h] at hlen; simp at hlen
    · rfl

/-- **C13, unambiguity.** Whatever text parses as a label is the text form of that label; so two
different texts never parse as the same label. -/
theorem C13_text_unambiguous (s : Bytes) (l : DialogueLabel)
    (h : DialogueLabel.fromStr s = .ok l) : l.toStr = s := by
  unfold DialogueLabel.fromStr at h
  simp only at h
  split at h
  · rename_i a b c d hs
    simp only [Res.ok.injEq] at h
    subst h
    show DialogueLabel.joinBytes DialogueLabel.separator [a, b, c, d] = s
    rw [← hs]
    exact DialogueLabel.join_split _ s
  · simp at h

/-- Non-vacuity: a label with and one without underscore, and a text that parses. -/
example : NoUnderscore ⟨⟨b! "n1", []⟩, b! "bob", b! "me"⟩ ∧
    ¬ NoUnderscore ⟨⟨b! "n_1", []⟩, b! "bob", b! "me"⟩ ∧
    DialogueLabel.fromStr (b! "n1__bob_me") = .ok ⟨⟨b! "n1", []⟩, b! "bob", b! "me"⟩ := by
  unfold NoUnderscore
  decide

end Verif
