import Verif.Lemmas.JsonString

/-!
# JSON values: the decoder and the grammar agree
-/

namespace Verif.Json

/-! ## White space -/

theorem isSpace_iff (c : UInt8) : isSpace c = true ↔ c = 32 ∨ c = 9 ∨ c = 10 ∨ c = 13 := by
  simp [isSpace, or_assoc]

/-- What is skipped is white space. -/
theorem skipSpace_spec (s : Bytes) : ∃ w, JsonSpace w ∧ s = w ++ skipSpace s := by
  induction s with
  | nil => exact ⟨[], by simp [JsonSpace], rfl⟩
  | cons c r ih =>
    rw [skipSpace]
    split
    · next h =>
      obtain ⟨w, hw, he⟩ := ih
      refine ⟨c :: w, ?_, by rw [List.cons_append, ← he]⟩
      intro x hx
      rcases List.mem_cons.1 hx with rfl | hx
      · exact (isSpace_iff _).1 h
      · exact hw x hx
    · exact ⟨[], by simp [JsonSpace], rfl⟩

theorem skipSpace_append {w : Bytes} (hw : JsonSpace w) (r : Bytes) : skipSpace (w ++ r) = skipSpace r := by
  induction w with
  | nil => rfl
  | cons c w ih =>
    rw [List.cons_append, skipSpace, if_pos ((isSpace_iff c).2 (hw c (by simp)))]
    exact ih fun x hx => hw x (by simp [hx])

theorem skipSpace_cons {c : UInt8} (h : isSpace c = false) (r : Bytes) : skipSpace (c :: r) = c :: r := by
  rw [skipSpace, if_neg (by simp [h])]

theorem JsonSpace.append {a b : Bytes} (ha : JsonSpace a) (hb : JsonSpace b) : JsonSpace (a ++ b) := by
  intro c hc
  rcases List.mem_append.1 hc with h | h
  · exact ha c h
  · exact hb c h

theorem jsonSpace_nil : JsonSpace [] := by simp [JsonSpace]

theorem skipSpace_nil_iff (s : Bytes) : skipSpace s = [] ↔ JsonSpace s := by
  constructor
  · intro h
    obtain ⟨w, hw, he⟩ := skipSpace_spec s
    rw [h, List.append_nil] at he
    rw [he]; exact hw
  · intro h
    have := skipSpace_append h []
    rw [List.append_nil] at this
    rw [this]; rfl

/-! ## Numbers -/

theorem isDigit_iff (c : UInt8) : isDigit c = true ↔ 48 ≤ c.toNat ∧ c.toNat ≤ 57 := by
  simp [isDigit, UInt8.le_iff_toNat_le]

/-- All are digits. -/
def AllDigits (b : Bytes) : Prop := ∀ c ∈ b, 48 ≤ c.toNat ∧ c.toNat ≤ 57

theorem skipDigits_spec (s : Bytes) : ∃ d, AllDigits d ∧ s = d ++ skipDigits s := by
  induction s with
  | nil => exact ⟨[], by simp [AllDigits], rfl⟩
  | cons c r ih =>
    rw [skipDigits]
    split
    · next h =>
      obtain ⟨d, hd, he⟩ := ih
      refine ⟨c :: d, ?_, by rw [List.cons_append, ← he]⟩
      intro x hx
      rcases List.mem_cons.1 hx with rfl | hx
      · exact (isDigit_iff _).1 h
      · exact hd x hx
    · exact ⟨[], by simp [AllDigits], rfl⟩

/-- What comes next is no digit. -/
def NoDigit (r : Bytes) : Prop := ∀ c t, r = c :: t → isDigit c = false

theorem skipDigits_append {d r : Bytes} (hd : AllDigits d) (hr : NoDigit r) : skipDigits (d ++ r) = r := by
  induction d with
  | nil =>
    cases r with
    | nil => rfl
    | cons c t => rw [List.nil_append, skipDigits, if_neg (by simp [hr c t rfl])]
  | cons c d ih =>
    rw [List.cons_append, skipDigits, if_pos ((isDigit_iff c).2 (hd c (by simp)))]
    exact ih fun x hx => hd x (by simp [hx])

theorem someDigits_spec {s r : Bytes} (h : someDigits s = some r) : ∃ d, JsonDigits d ∧ s = d ++ r := by
  cases s with
  | nil => cases h
  | cons c s =>
    rw [someDigits] at h
    split at h
    · next hc =>
      cases h
      obtain ⟨d, hd, he⟩ := skipDigits_spec s
      refine ⟨c :: d, ⟨by simp, ?_⟩, by rw [List.cons_append, ← he]⟩
      intro x hx
      rcases List.mem_cons.1 hx with rfl | hx
      · exact (isDigit_iff _).1 hc
      · exact hd x hx
    · cases h

theorem someDigits_append {d r : Bytes} (hd : JsonDigits d) (hr : NoDigit r) : someDigits (d ++ r) = some r := by
  obtain ⟨hne, hall⟩ := hd
  cases d with
  | nil => exact absurd rfl hne
  | cons c d =>
    rw [List.cons_append, someDigits, if_pos ((isDigit_iff c).2 (hall c (by simp))),
      skipDigits_append (fun x hx => hall x (by simp [hx])) hr]

/-- The exponent of a number. -/
def IsExp (exp : Bytes) : Prop :=
  exp = [] ∨ ∃ e s d, exp = e ++ s ++ d ∧ (e = b! "e" ∨ e = b! "E") ∧ (s = [] ∨ s = b! "+" ∨ s = b! "-") ∧
    JsonDigits d

/-- The fraction of a number. -/
def IsFrac (frac : Bytes) : Prop := frac = [] ∨ ∃ d, frac = b! "." ++ d ∧ JsonDigits d

theorem exponent_spec {s r : Bytes} (h : exponent s = some r) : ∃ e, IsExp e ∧ s = e ++ r := by
  cases s with
  | nil => cases h; exact ⟨[], .inl rfl, rfl⟩
  | cons c s =>
    rw [exponent.eq_def] at h
    dsimp only at h
    split at h
    · next hc =>
      have hc' : [c] = b! "e" ∨ [c] = b! "E" := by
        rcases hc with rfl | rfl
        · exact .inl rfl
        · exact .inr rfl
      cases s with
      | nil => cases h
      | cons x s =>
        dsimp only at h
        split at h
        · next hx =>
          obtain ⟨d, hd, rfl⟩ := someDigits_spec h
          refine ⟨[c] ++ [x] ++ d, .inr ⟨[c], [x], d, rfl, hc', ?_, hd⟩, by simp⟩
          rcases hx with rfl | rfl
          · exact .inr (.inl rfl)
          · exact .inr (.inr rfl)
        · obtain ⟨d, hd, he⟩ := someDigits_spec h
          refine ⟨[c] ++ [] ++ d, .inr ⟨[c], [], d, rfl, hc', .inl rfl, hd⟩, ?_⟩
          rw [he]; simp
    · cases h
      exact ⟨[], .inl rfl, rfl⟩

theorem fraction_spec {s r : Bytes} (h : fraction s = some r) :
    ∃ f e, IsFrac f ∧ IsExp e ∧ s = f ++ e ++ r := by
  cases s with
  | nil => cases h; exact ⟨[], [], .inl rfl, .inl rfl, rfl⟩
  | cons c s =>
    rw [fraction] at h
    split at h
    · next hc =>
      subst hc
      cases hd : someDigits s with
      | none => rw [hd] at h; cases h
      | some t =>
        rw [hd] at h
        obtain ⟨d, hd', rfl⟩ := someDigits_spec hd
        obtain ⟨e, he, rfl⟩ := exponent_spec h
        exact ⟨[46] ++ d, e, .inr ⟨d, rfl, hd'⟩, he, by simp⟩
    · obtain ⟨e, he, hs⟩ := exponent_spec h
      exact ⟨[], e, .inl rfl, he, by rw [hs]; rfl⟩

theorem number_spec {s r : Bytes} (h : number s = some r) :
    ∃ i f e, (i = b! "0" ∨ (JsonDigits i ∧ i.head? ≠ some 48)) ∧ IsFrac f ∧ IsExp e ∧ s = i ++ f ++ e ++ r := by
  cases s with
  | nil => cases h
  | cons c s =>
    rw [number] at h
    split at h
    · next hc =>
      subst hc
      obtain ⟨f, e, hf, he, rfl⟩ := fraction_spec h
      exact ⟨[48], f, e, .inl rfl, hf, he, by simp⟩
    · next hc =>
      split at h
      · next hd =>
        obtain ⟨f, e, hf, he, hs⟩ := fraction_spec h
        obtain ⟨d, hdd, hs'⟩ := skipDigits_spec s
        refine ⟨c :: d, f, e, .inr ⟨⟨by simp, ?_⟩, by simpa using hc⟩, hf, he, ?_⟩
        · intro x hx
          rcases List.mem_cons.1 hx with rfl | hx
          · exact (isDigit_iff _).1 hd
          · exact hdd x hx
        · rw [hs', hs]; simp
      · cases h

/-- A number has ended: nothing follows, or white space, a comma or a closing bracket. -/
def Ended (r : Bytes) : Prop :=
  ∀ c t, r = c :: t → isSpace c = true ∨ c = 44 ∨ c = 93 ∨ c = 125

theorem Ended.head {c : UInt8} {t : Bytes} (h : Ended (c :: t)) :
    c = 32 ∨ c = 9 ∨ c = 10 ∨ c = 13 ∨ c = 44 ∨ c = 93 ∨ c = 125 := by
  rcases h c t rfl with h | h | h | h
  · rcases (isSpace_iff c).1 h with h | h | h | h <;> simp [h]
  · simp [h]
  · simp [h]
  · simp [h]

theorem Ended.noDigit {r : Bytes} (h : Ended r) : NoDigit r := by
  rintro c t rfl
  rcases h.head with rfl | rfl | rfl | rfl | rfl | rfl | rfl <;> rfl

theorem exponent_ended {r : Bytes} (h : Ended r) : exponent r = some r := by
  cases r with
  | nil => rfl
  | cons c t =>
    rw [exponent.eq_def]
    dsimp only
    rw [if_neg]
    rcases h.head with rfl | rfl | rfl | rfl | rfl | rfl | rfl <;> decide

theorem exponent_append {e r : Bytes} (he : IsExp e) (hr : Ended r) : exponent (e ++ r) = some r := by
  rcases he with rfl | ⟨e, s, d, rfl, he, hs, hd⟩
  · exact exponent_ended hr
  · have key : ∀ c : UInt8, c = 101 ∨ c = 69 → exponent (c :: (s ++ d ++ r)) = some r := by
      intro c hc
      rw [exponent.eq_def]
      dsimp only
      rw [if_pos hc]
      have h1 := someDigits_append hd hr.noDigit
      rcases hs with rfl | rfl | rfl
      · obtain ⟨hne, hall⟩ := hd
        cases d with
        | nil => exact absurd rfl hne
        | cons x d =>
          simp only [List.nil_append, List.cons_append]
          have hx := hall x (by simp)
          rw [if_neg]
          · exact h1
          · rintro (rfl | rfl)
            · exact absurd hx (by decide)
            · exact absurd hx (by decide)
      · simpa using h1
      · simpa using h1
    rcases he with rfl | rfl
    · simpa only [List.cons_append, List.nil_append, List.append_assoc] using key 101 (.inl rfl)
    · simpa only [List.cons_append, List.nil_append, List.append_assoc] using key 69 (.inr rfl)

theorem exp_noDigit {e r : Bytes} (he : IsExp e) (hr : Ended r) : NoDigit (e ++ r) := by
  rcases he with rfl | ⟨e, s, d, rfl, he, hs, hd⟩
  · exact hr.noDigit
  · rintro c t h
    rcases he with rfl | rfl
    · simp only [List.cons_append, List.cons.injEq] at h
      rw [← h.1]; rfl
    · simp only [List.cons_append, List.cons.injEq] at h
      rw [← h.1]; rfl

theorem fraction_append {f e r : Bytes} (hf : IsFrac f) (he : IsExp e) (hr : Ended r) :
    fraction (f ++ e ++ r) = some r := by
  rcases hf with rfl | ⟨d, rfl, hd⟩
  · rw [List.nil_append]
    have h1 := exponent_append he hr
    cases h : e ++ r with
    | nil =>
      have : r = [] := (List.append_eq_nil_iff.1 h).2
      subst this
      rfl
    | cons c t =>
      rw [h] at h1
      rw [fraction, if_neg]
      · exact h1
      · rintro rfl
        rcases he with rfl | ⟨e, s, d, rfl, he, hs, hd⟩
        · rw [List.nil_append] at h
          subst h
          have := hr.head
          revert this
          decide
        · rcases he with rfl | rfl
          · simp at h
          · simp at h
  · show fraction (46 :: (d ++ e ++ r)) = some r
    rw [fraction, if_pos rfl, List.append_assoc, someDigits_append hd (exp_noDigit he hr)]
    exact exponent_append he hr

theorem frac_noDigit {f e r : Bytes} (hf : IsFrac f) (he : IsExp e) (hr : Ended r) : NoDigit (f ++ e ++ r) := by
  rcases hf with rfl | ⟨d, rfl, hd⟩
  · exact exp_noDigit he hr
  · rintro c t h
    simp only [List.cons_append, List.cons.injEq] at h
    rw [← h.1]; rfl

theorem number_append {i f e r : Bytes} (hi : i = b! "0" ∨ (JsonDigits i ∧ i.head? ≠ some 48)) (hf : IsFrac f)
    (he : IsExp e) (hr : Ended r) : number (i ++ f ++ e ++ r) = some r := by
  rcases hi with rfl | ⟨⟨hne, hall⟩, hz⟩
  · show number (48 :: (f ++ e ++ r)) = some r
    rw [number, if_pos rfl]
    exact fraction_append hf he hr
  · cases i with
    | nil => exact absurd rfl hne
    | cons c d =>
      show number (c :: (d ++ f ++ e ++ r)) = some r
      rw [number, if_neg (by simpa using hz), if_pos ((isDigit_iff c).2 (hall c (by simp)))]
      rw [show d ++ f ++ e ++ r = d ++ (f ++ e ++ r) by simp,
        skipDigits_append (fun x hx => hall x (by simp [hx])) (frac_noDigit hf he hr)]
      exact fraction_append hf he hr

/-! ## Values, elements, members -/

/-- The value of the grammar. -/
def Val.spec : Val → JsonValue
  | .str s => .text s
  | .null => .null
  | .other => .other

/-- The value of the model. -/
def valOf : JsonValue → Val
  | .text s => .str s
  | .null => .null
  | .other => .other

theorem valOf_spec (v : JsonValue) : (valOf v).spec = v := by cases v <;> rfl

theorem spec_valOf (v : Val) : valOf v.spec = v := by cases v <;> rfl

theorem IsJson.space_members {w b : Bytes} {l : List (Bytes × JsonValue)} (hw : JsonSpace w)
    (h : IsJson (.members l) b) : IsJson (.members l) (w ++ b) := by
  cases h with
  | lastMember h1 h2 h3 h4 hs hv =>
    simpa only [List.append_assoc] using IsJson.lastMember (JsonSpace.append hw h1) h2 h3 h4 hs hv
  | member h1 h2 h3 h4 hs hv hr =>
    simpa only [List.append_assoc] using IsJson.member (JsonSpace.append hw h1) h2 h3 h4 hs hv hr

theorem IsJson.space_elements {w b : Bytes} (hw : JsonSpace w) (h : IsJson .elements b) :
    IsJson .elements (w ++ b) := by
  cases h with
  | lastElement h1 h2 hv =>
    simpa only [List.append_assoc] using IsJson.lastElement (JsonSpace.append hw h1) h2 hv
  | element h1 h2 hv hr =>
    simpa only [List.append_assoc] using IsJson.element (JsonSpace.append hw h1) h2 hv hr

/-- The pairs of the grammar. -/
abbrev specs (l : List (Bytes × Val)) : List (Bytes × JsonValue) := l.map fun p => (p.1, p.2.spec)

/-- What the decoder accepts is in the grammar. -/
theorem decoder_sound (f : Nat) :
    (∀ s v r, value f s = some (v, r) → ∃ b, s = b ++ r ∧ IsJson (.val v.spec) b) ∧
    (∀ s l r, members f s = some (l, r) → ∃ b, s = b ++ 125 :: r ∧ IsJson (.members (specs l)) b) ∧
    (∀ s r, elements f s = some r → ∃ b, s = b ++ 93 :: r ∧ IsJson .elements b) := by
  induction f with
  | zero =>
    refine ⟨?_, ?_, ?_⟩
    · intro s v r h; simp [value] at h
    · intro s l r h; simp [members] at h
    · intro s r h; simp [elements] at h
  | succ f ih =>
    obtain ⟨ihv, ihm, ihe⟩ := ih
    refine ⟨?_, ?_, ?_⟩
    · intro s v r h
      cases s with
      | nil => simp [value] at h
      | cons c s =>
        rw [value.eq_def] at h
        dsimp only at h
        split at h
        · next hc =>
          simp only [Option.map_eq_some_iff, Prod.mk.injEq] at h
          obtain ⟨⟨raw, b⟩, hs, rfl, rfl⟩ := h
          obtain ⟨rfl, hj⟩ := scan_iff.1 hs
          have hc' : c = 34 := hc
          subst hc'
          exact ⟨b! "\"" ++ raw ++ b! "\"", by simp, .string hj⟩
        split at h
        · next hc =>
          subst hc
          obtain ⟨w, hw, he⟩ := skipSpace_spec s
          split at h
          · next rest hr =>
            cases h
            refine ⟨b! "{" ++ w ++ b! "}", ?_, .emptyObject hw⟩
            rw [he, hr]; simp
          · simp only [Option.map_eq_some_iff, Prod.mk.injEq] at h
            obtain ⟨⟨l, b⟩, hm, rfl, rfl⟩ := h
            obtain ⟨b', hb', hj⟩ := ihm _ _ _ hm
            refine ⟨b! "{" ++ (w ++ b') ++ b! "}", ?_, .object (IsJson.space_members hw hj)⟩
            rw [he, hb']; simp
        split at h
        · next hc =>
          subst hc
          obtain ⟨w, hw, he⟩ := skipSpace_spec s
          split at h
          · next rest hr =>
            cases h
            refine ⟨b! "[" ++ w ++ b! "]", ?_, .emptyArray hw⟩
            rw [he, hr]; simp
          · simp only [Option.map_eq_some_iff, Prod.mk.injEq] at h
            obtain ⟨b, hm, rfl, rfl⟩ := h
            obtain ⟨b', hb', hj⟩ := ihe _ _ hm
            refine ⟨b! "[" ++ (w ++ b') ++ b! "]", ?_, .array (IsJson.space_elements hw hj)⟩
            rw [he, hb']; simp
        split at h
        · next hc =>
          subst hc
          split at h
          · cases h; exact ⟨b! "true", rfl, .true⟩
          · cases h
        split at h
        · next hc =>
          subst hc
          split at h
          · cases h; exact ⟨b! "false", rfl, .false⟩
          · cases h
        split at h
        · next hc =>
          subst hc
          split at h
          · cases h; exact ⟨b! "null", rfl, .null⟩
          · cases h
        split at h
        · next hc =>
          subst hc
          simp only [Option.map_eq_some_iff, Prod.mk.injEq] at h
          obtain ⟨b, hm, rfl, rfl⟩ := h
          obtain ⟨i, fr, e, hi, hf, he, rfl⟩ := number_spec hm
          exact ⟨b! "-" ++ i ++ fr ++ e, by simp, .number ⟨b! "-", i, fr, e, rfl, .inr rfl, hi, hf, he⟩⟩
        · simp only [Option.map_eq_some_iff, Prod.mk.injEq] at h
          obtain ⟨b, hm, rfl, rfl⟩ := h
          obtain ⟨i, fr, e, hi, hf, he, hs⟩ := number_spec hm
          exact ⟨[] ++ i ++ fr ++ e, by rw [hs]; simp, .number ⟨[], i, fr, e, rfl, .inl rfl, hi, hf, he⟩⟩
    · intro s l r h
      cases s with
      | nil => simp [members] at h
      | cons c s =>
        rw [members.eq_def] at h
        dsimp only at h
        split at h
        · next hc =>
          have hc' : c = 34 := hc
          subst hc'
          split at h
          · cases h
          · next raw r1 hs =>
            obtain ⟨rfl, hj⟩ := scan_iff.1 hs
            obtain ⟨w2, hw2, he2⟩ := skipSpace_spec r1
            split at h
            · cases h
            · next d r2 hr2 =>
              split at h
              · next hd =>
                subst hd
                obtain ⟨w3, hw3, he3⟩ := skipSpace_spec r2
                split at h
                · cases h
                · next v r3 hv =>
                  obtain ⟨bv, hbv, hjv⟩ := ihv _ _ _ hv
                  obtain ⟨w4, hw4, he4⟩ := skipSpace_spec r3
                  split at h
                  · cases h
                  · next d r4 hr4 =>
                    split at h
                    · next hd =>
                      subst hd
                      simp only [Option.map_eq_some_iff, Prod.mk.injEq] at h
                      obtain ⟨⟨l', b⟩, hm, rfl, rfl⟩ := h
                      obtain ⟨w5, hw5, he5⟩ := skipSpace_spec r4
                      obtain ⟨bm, hbm, hjm⟩ := ihm _ _ _ hm
                      refine ⟨_, ?_, IsJson.member jsonSpace_nil hw2 hw3 hw4 hj hjv (IsJson.space_members hw5 hjm)⟩
                      rw [he2, hr2, he3, hbv, he4, hr4, he5, hbm]
                      simp
                    · split at h
                      · next hd =>
                        subst hd
                        cases h
                        refine ⟨_, ?_, IsJson.lastMember jsonSpace_nil hw2 hw3 hw4 hj hjv⟩
                        rw [he2, hr2, he3, hbv, he4, hr4]
                        simp
                      · cases h
              · cases h
        · cases h
    · intro s r h
      rw [elements] at h
      split at h
      · cases h
      · next v r1 hv =>
        obtain ⟨bv, rfl, hjv⟩ := ihv _ _ _ hv
        obtain ⟨w, hw, he⟩ := skipSpace_spec r1
        split at h
        · next r' hr =>
          obtain ⟨w2, hw2, he2⟩ := skipSpace_spec r'
          obtain ⟨be, hbe, hje⟩ := ihe _ _ h
          refine ⟨_, ?_, IsJson.element jsonSpace_nil hw hjv (IsJson.space_elements hw2 hje)⟩
          rw [he, hr, he2, hbe]
          simp
        · next rest hr =>
          cases h
          refine ⟨_, ?_, IsJson.lastElement jsonSpace_nil hw hjv⟩
          rw [he, hr]
          simp
        · cases h

/-- A value begins with a byte that is no white space and no closing bracket. -/
theorem value_head {v : JsonValue} {b : Bytes} (h : IsJson (.val v) b) :
    ∃ c t, b = c :: t ∧ isSpace c = false ∧ c ≠ 93 ∧ c ≠ 125 := by
  cases h with
  | string _ => exact ⟨_, _, rfl, by decide, by decide, by decide⟩
  | null => exact ⟨_, _, rfl, by decide, by decide, by decide⟩
  | true => exact ⟨_, _, rfl, by decide, by decide, by decide⟩
  | false => exact ⟨_, _, rfl, by decide, by decide, by decide⟩
  | emptyArray _ => exact ⟨_, _, rfl, by decide, by decide, by decide⟩
  | array _ => exact ⟨_, _, rfl, by decide, by decide, by decide⟩
  | emptyObject _ => exact ⟨_, _, rfl, by decide, by decide, by decide⟩
  | object _ => exact ⟨_, _, rfl, by decide, by decide, by decide⟩
  | number hn =>
    obtain ⟨sign, int, frac, exp, rfl, hs, hi, -, -⟩ := hn
    rcases hs with rfl | rfl
    · rcases hi with rfl | ⟨⟨hne, hall⟩, -⟩
      · exact ⟨_, _, rfl, by decide, by decide, by decide⟩
      · cases int with
        | nil => exact absurd rfl hne
        | cons c d =>
          have hc := hall c (by simp)
          refine ⟨c, d ++ frac ++ exp, by simp, ?_, ?_, ?_⟩
          · cases hsp : isSpace c with
            | false => rfl
            | true =>
              rcases (isSpace_iff c).1 hsp with rfl | rfl | rfl | rfl
              all_goals exact absurd hc (by decide)
          · rintro rfl; exact absurd hc (by decide)
          · rintro rfl; exact absurd hc (by decide)
    · exact ⟨_, _, rfl, by decide, by decide, by decide⟩

/-- What begins a number. -/
theorem number_value {b r : Bytes} (hn : JsonNumber b) (hr : Ended r) (f : Nat) :
    value (f + 1) (b ++ r) = some (.other, r) := by
  obtain ⟨sign, int, frac, exp, rfl, hs, hi, hf, he⟩ := hn
  have hnum := number_append hi hf he hr
  rcases hs with rfl | rfl
  · simp only [List.nil_append]
    have hhead : ∃ c t, int ++ frac ++ exp ++ r = c :: t ∧ 48 ≤ c.toNat ∧ c.toNat ≤ 57 := by
      rcases hi with rfl | ⟨⟨hne, hall⟩, -⟩
      · exact ⟨_, _, rfl, by decide, by decide⟩
      · cases int with
        | nil => exact absurd rfl hne
        | cons c d => exact ⟨c, d ++ frac ++ exp ++ r, by simp, hall c (by simp)⟩
    obtain ⟨c, t, e, hc⟩ := hhead
    rw [e] at hnum ⊢
    have hne : ∀ k : UInt8, (k.toNat < 48 ∨ 57 < k.toNat) → c ≠ k := by
      rintro k hk rfl
      omega
    rw [value.eq_def]
    dsimp only
    rw [if_neg (hne _ (by decide)), if_neg (hne _ (by decide)), if_neg (hne _ (by decide)), if_neg (hne _ (by decide)),
      if_neg (hne _ (by decide)), if_neg (hne _ (by decide)), if_neg (hne _ (by decide)), hnum]
    rfl
  · show value (f + 1) (45 :: (int ++ frac ++ exp ++ r)) = _
    rw [value.eq_def]
    dsimp only
    rw [if_neg (by decide), if_neg (by decide), if_neg (by decide), if_neg (by decide), if_neg (by decide),
      if_neg (by decide), if_pos rfl, hnum]
    rfl

theorem ended_space {w r : Bytes} (hw : JsonSpace w) (hr : Ended r) : Ended (w ++ r) := by
  cases w with
  | nil => exact hr
  | cons c w =>
    rintro x t h
    simp only [List.cons_append, List.cons.injEq] at h
    rw [← h.1]
    exact .inl ((isSpace_iff c).2 (hw c (by simp)))

theorem ended_cons {c : UInt8} {t : Bytes} (h : c = 44 ∨ c = 93 ∨ c = 125) : Ended (c :: t) := by
  rintro x t' h'
  cases h'
  exact .inr h

/-- Elements begin with a value. -/
theorem elements_head {b : Bytes} (h : IsJson .elements b) (r : Bytes) :
    ∃ c t, skipSpace (b ++ r) = c :: t ∧ c ≠ 93 := by
  cases h with
  | @lastElement w w' b v hw hw' hv =>
    obtain ⟨c, t, rfl, hs, h1, -⟩ := value_head hv
    exact ⟨c, t ++ w' ++ r, by
      simp only [List.append_assoc]
      rw [skipSpace_append hw, List.cons_append, skipSpace_cons hs], h1⟩
  | @element w w' b r' v hw hw' hv hr =>
    obtain ⟨c, t, rfl, hs, h1, -⟩ := value_head hv
    exact ⟨c, t ++ w' ++ b! "," ++ r' ++ r, by
      simp only [List.append_assoc]
      rw [skipSpace_append hw, List.cons_append, skipSpace_cons hs], h1⟩

/-- Members begin with a name. -/
theorem members_head {b : Bytes} {l : List (Bytes × JsonValue)} (h : IsJson (.members l) b) (r : Bytes) :
    ∃ t, skipSpace (b ++ r) = 34 :: t := by
  cases h with
  | @lastMember w1 w2 w3 w4 raw k b v h1 h2 h3 h4 hs hv =>
    refine ⟨raw ++ b! "\"" ++ w2 ++ b! ":" ++ w3 ++ b ++ w4 ++ r, ?_⟩
    simp only [List.append_assoc]
    rw [skipSpace_append h1]
    simp only [List.cons_append, List.nil_append]
    rw [skipSpace_cons (by decide)]
  | @member w1 w2 w3 w4 raw k b r' v l h1 h2 h3 h4 hs hv hr =>
    refine ⟨raw ++ b! "\"" ++ w2 ++ b! ":" ++ w3 ++ b ++ w4 ++ b! "," ++ r' ++ r, ?_⟩
    simp only [List.append_assoc]
    rw [skipSpace_append h1]
    simp only [List.cons_append, List.nil_append]
    rw [skipSpace_cons (by decide)]

/-- The pairs of the model. -/
abbrev valsOf (l : List (Bytes × JsonValue)) : List (Bytes × Val) := l.map fun p => (p.1, valOf p.2)

/-- What the decoder makes of a piece of the grammar. -/
def Decodes : JsonPart → Bytes → Prop
  | .val v, b => ∀ f r, 2 * b.length ≤ f → Ended r → value f (b ++ r) = some (valOf v, r)
  | .elements, b => ∀ f r, 2 * b.length + 1 ≤ f → elements f (skipSpace (b ++ 93 :: r)) = some r
  | .members l, b => ∀ f r, 2 * b.length ≤ f → members f (skipSpace (b ++ 125 :: r)) = some (valsOf l, r)

theorem value_pos {v : JsonValue} {b : Bytes} (h : IsJson (.val v) b) : 1 ≤ b.length := by
  obtain ⟨c, t, rfl, -⟩ := value_head h
  simp

/-- One round of the members. -/
theorem members_step {w1 w2 w3 w4 raw k b r : Bytes} {v : JsonValue} (h1 : JsonSpace w1) (h2 : JsonSpace w2)
    (h3 : JsonSpace w3) (h4 : JsonSpace w4) (hs : JsonString raw k) (hj : IsJson (.val v) b)
    (hv : Decodes (.val v) b) (f : Nat) (hf : 2 * b.length ≤ f) (d : UInt8) (hd : d = 44 ∨ d = 125) :
    members (f + 1) (skipSpace (w1 ++ 34 :: (raw ++ 34 :: (w2 ++ 58 :: (w3 ++ (b ++ (w4 ++ d :: r))))))) =
      if d = 44 then (members f (skipSpace r)).map fun (l, rest) => ((k, valOf v) :: l, rest)
      else some ([(k, valOf v)], r) := by
  rw [skipSpace_append h1, skipSpace_cons (by decide), members.eq_def]
  dsimp only
  rw [if_pos rfl, scan_body (JsonString.body hs)]
  dsimp only
  rw [skipSpace_append h2, skipSpace_cons (by decide)]
  dsimp only
  rw [if_pos rfl, skipSpace_append h3]
  obtain ⟨c, t, rfl, hsp, -⟩ := value_head hj
  rw [List.cons_append, skipSpace_cons hsp, ← List.cons_append]
  have hd' : isSpace d = false := by rcases hd with rfl | rfl <;> decide
  rw [hv f (w4 ++ d :: r) hf (ended_space h4 (ended_cons (by rcases hd with rfl | rfl <;> simp)))]
  dsimp only
  rw [skipSpace_append h4, skipSpace_cons hd']
  dsimp only
  rw [unquote_eq hs]
  rcases hd with rfl | rfl
  · rfl
  · rfl

/-- What is in the grammar, the decoder accepts. -/
theorem decoder_complete {p : JsonPart} {b : Bytes} (h : IsJson p b) : Decodes p b := by
  induction h with
  | @string raw s hs =>
    intro f r hf hr
    simp only [List.cons_append, List.nil_append, List.length_cons, List.length_append, List.append_assoc] at hf ⊢
    obtain ⟨f, rfl⟩ : ∃ g, f = g + 1 := ⟨f - 1, by omega⟩
    rw [value.eq_def]
    dsimp only
    rw [if_pos rfl, scan_body (JsonString.body hs)]
    simp only [Option.map_some, unquote_eq hs]
    rfl
  | null =>
    intro f r hf hr
    obtain ⟨f, rfl⟩ : ∃ g, f = g + 1 := ⟨f - 1, by simp at hf; omega⟩
    rfl
  | true =>
    intro f r hf hr
    obtain ⟨f, rfl⟩ : ∃ g, f = g + 1 := ⟨f - 1, by simp at hf; omega⟩
    rfl
  | false =>
    intro f r hf hr
    obtain ⟨f, rfl⟩ : ∃ g, f = g + 1 := ⟨f - 1, by simp at hf; omega⟩
    rfl
  | @number b hn =>
    intro f r hf hr
    have := value_pos (IsJson.number hn)
    obtain ⟨f, rfl⟩ : ∃ g, f = g + 1 := ⟨f - 1, by omega⟩
    exact number_value hn hr f
  | @emptyArray w hw =>
    intro f r hf hr
    simp only [List.cons_append, List.nil_append, List.length_cons, List.length_append, List.append_assoc] at hf ⊢
    obtain ⟨f, rfl⟩ : ∃ g, f = g + 1 := ⟨f - 1, by omega⟩
    rw [value.eq_def]
    dsimp only
    rw [if_neg (by decide), if_neg (by decide), if_pos rfl, skipSpace_append hw, skipSpace_cons (by decide)]
    rfl
  | @array b hb ih =>
    intro f r hf hr
    simp only [List.cons_append, List.nil_append, List.length_cons, List.length_append, List.length_nil,
      List.append_assoc] at hf ⊢
    obtain ⟨f, rfl⟩ : ∃ g, f = g + 1 := ⟨f - 1, by omega⟩
    rw [value.eq_def]
    dsimp only
    rw [if_neg (by decide), if_neg (by decide), if_pos rfl]
    have he := ih f r (by omega)
    obtain ⟨c, t, hc, hne⟩ := elements_head hb (93 :: r)
    rw [hc] at he ⊢
    split
    · next rest hrest =>
      cases hrest
      exact absurd rfl hne
    · rw [he]
      rfl
  | @lastElement w w' b v hw hw' hv ih =>
    intro f r hf
    simp only [List.length_append] at hf
    obtain ⟨f, rfl⟩ : ∃ g, f = g + 1 := ⟨f - 1, by omega⟩
    have hval := ih f (w' ++ 93 :: r) (by omega) (ended_space hw' (ended_cons (by simp)))
    obtain ⟨c, t, rfl, hsp, -⟩ := value_head hv
    simp only [List.append_assoc]
    rw [skipSpace_append hw, List.cons_append, skipSpace_cons hsp, ← List.cons_append, elements, hval]
    dsimp only
    rw [skipSpace_append hw', skipSpace_cons (by decide)]
    rfl
  | @element w w' b r' v hw hw' hv hr' ih ihr =>
    intro f r hf
    simp only [List.length_append] at hf
    have hpos := value_pos hv
    obtain ⟨f, rfl⟩ : ∃ g, f = g + 1 := ⟨f - 1, by omega⟩
    have hval := ih f (w' ++ 44 :: (r' ++ 93 :: r)) (by omega) (ended_space hw' (ended_cons (by simp)))
    obtain ⟨c, t, rfl, hsp, -⟩ := value_head hv
    simp only [List.append_assoc]
    rw [skipSpace_append hw, List.cons_append, skipSpace_cons hsp, ← List.cons_append, elements]
    simp only [List.cons_append, List.nil_append] at hval ⊢
    rw [hval]
    dsimp only
    rw [skipSpace_append hw', skipSpace_cons (by decide)]
    refine Eq.trans (b := elements f (skipSpace (r' ++ 93 :: r))) rfl ?_
    exact ihr f r (by simp only [List.length_cons, List.length_nil] at hf hpos ⊢; omega)
  | @emptyObject w hw =>
    intro f r hf hr
    simp only [List.cons_append, List.nil_append, List.length_cons, List.length_append, List.append_assoc] at hf ⊢
    obtain ⟨f, rfl⟩ : ∃ g, f = g + 1 := ⟨f - 1, by omega⟩
    rw [value.eq_def]
    dsimp only
    rw [if_neg (by decide), if_pos rfl, skipSpace_append hw, skipSpace_cons (by decide)]
    rfl
  | @object b l hb ih =>
    intro f r hf hr
    simp only [List.cons_append, List.nil_append, List.length_cons, List.length_append, List.length_nil,
      List.append_assoc] at hf ⊢
    obtain ⟨f, rfl⟩ : ∃ g, f = g + 1 := ⟨f - 1, by omega⟩
    rw [value.eq_def]
    dsimp only
    rw [if_neg (by decide), if_pos rfl]
    have he := ih f r (by omega)
    obtain ⟨t, hc⟩ := members_head hb (125 :: r)
    rw [hc] at he ⊢
    split
    · next rest hrest => cases hrest
    · rw [he]
      rfl
  | @lastMember w1 w2 w3 w4 raw k b v h1 h2 h3 h4 hs hv ih =>
    intro f r hf
    simp only [List.length_append, List.length_cons, List.length_nil] at hf
    obtain ⟨f, rfl⟩ : ∃ g, f = g + 1 := ⟨f - 1, by omega⟩
    have := members_step (r := r) h1 h2 h3 h4 hs hv ih f (by omega) 125 (by simp)
    simp only [List.append_assoc, List.cons_append, List.nil_append]
    rw [this]
    rfl
  | @member w1 w2 w3 w4 raw k b r' v l h1 h2 h3 h4 hs hv hr ih ihr =>
    intro f r hf
    simp only [List.length_append, List.length_cons, List.length_nil] at hf
    obtain ⟨f, rfl⟩ : ∃ g, f = g + 1 := ⟨f - 1, by omega⟩
    have := members_step (r := r' ++ 125 :: r) h1 h2 h3 h4 hs hv ih f (by omega) 44 (by simp)
    simp only [List.append_assoc, List.cons_append, List.nil_append]
    rw [this, if_pos rfl, ihr f r (by omega)]
    rfl

end Verif.Json
