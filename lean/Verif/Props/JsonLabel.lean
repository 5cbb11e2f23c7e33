import Verif.Lemmas.JsonValue

/-!
# C87: a dialogue label is read from any JSON object
-/

namespace Verif

open Json

/-! ## Objects -/

theorem members_of_json {l : List (Bytes × JsonValue)} {b : Bytes} (h : IsJson (.members l) b) (f : Nat) (r : Bytes)
    (hf : 2 * b.length ≤ f) : members f (skipSpace (b ++ 125 :: r)) = some (valsOf l, r) :=
  decoder_complete h f r hf

theorem specs_valsOf (l : List (Bytes × JsonValue)) : specs (valsOf l) = l := by
  simp only [specs, valsOf, List.map_map]
  induction l with
  | nil => rfl
  | cons p l ih => rw [List.map_cons, ih]; simp [valOf_spec]

/-- The decoder of maps: an object whose members go into a map, or `null`. -/
theorem unmarshalMap_iff {b : Bytes} {m : GoMap Bytes Bytes} :
    unmarshalMap b = some m ↔
      (IsJsonNull b ∧ m = GoMap.empty) ∨ ∃ l, IsJsonObject l b ∧ toMap (valsOf l) GoMap.empty = some m := by
  constructor
  · intro h
    unfold unmarshalMap at h
    obtain ⟨w, hw, hb⟩ := skipSpace_spec b
    split at h
    · next r hr =>
      obtain ⟨w1, hw1, hr1⟩ := skipSpace_spec r
      split at h
      · next rest hrest =>
        split at h
        · next he =>
          cases h
          refine .inr ⟨[], ⟨w, w1, rest, hw, (skipSpace_nil_iff _).1 he, ?_, .inl ⟨rfl, hw1⟩⟩, rfl⟩
          rw [hb, hr, hr1, hrest]; simp
        · cases h
      · split at h
        · cases h
        · next l rest hm =>
          split at h
          · next he =>
            obtain ⟨body, hbody, hj⟩ := (decoder_sound _).2.1 _ _ _ hm
            refine .inr ⟨specs l, ⟨w, w1 ++ body, rest, hw, (skipSpace_nil_iff _).1 he, ?_,
              .inr (IsJson.space_members hw1 hj)⟩, ?_⟩
            · rw [hb, hr, hr1, hbody]; simp
            · have : valsOf (specs l) = l := by
                simp only [specs, valsOf, List.map_map]
                conv => rhs; rw [← List.map_id l]
                apply List.map_congr_left
                intro p _
                simp [spec_valOf]
              rw [this]; exact h
          · cases h
    · split at h
      · next rest hv =>
        split at h
        · next he =>
          cases h
          obtain ⟨b', hb', hj⟩ := (decoder_sound _).1 _ _ _ hv
          have : b' = b! "null" := by
            generalize hp : JsonPart.val Val.null.spec = p at hj
            cases hj with
            | null => rfl
            | _ => simp [Val.spec] at hp
          subst this
          refine .inl ⟨⟨w, rest, hw, (skipSpace_nil_iff _).1 he, ?_⟩, rfl⟩
          rw [hb, hb']; simp
        · cases h
      · cases h
  · rintro (⟨⟨w, w', hw, hw', rfl⟩, rfl⟩ | ⟨l, ⟨w, body, w', hw, hw', rfl, hl⟩, hm⟩)
    · unfold unmarshalMap
      have e : skipSpace (w ++ b! "null" ++ w') = b! "null" ++ w' := by
        rw [List.append_assoc, skipSpace_append hw]
        simp only [List.cons_append, List.nil_append]
        rw [skipSpace_cons (by decide)]
      rw [e]
      have hv : ∀ f, value (f + 1) (b! "null" ++ w') = some (.null, w') := fun f => rfl
      split
      · next hr => simp at hr
      · rw [show 2 * (w ++ b! "null" ++ w').length + 2 = (2 * (w ++ b! "null" ++ w').length + 1) + 1 from rfl, hv]
        simp only
        rw [if_pos ((skipSpace_nil_iff _).2 hw')]
    · unfold unmarshalMap
      have e : skipSpace (w ++ b! "{" ++ body ++ b! "}" ++ w') = 123 :: (body ++ 125 :: w') := by
        simp only [List.append_assoc]
        rw [skipSpace_append hw]
        simp only [List.cons_append, List.nil_append]
        rw [skipSpace_cons (by decide)]
      rw [e]
      simp only
      rcases hl with ⟨rfl, hs⟩ | hj
      · rw [skipSpace_append hs, skipSpace_cons (by decide)]
        refine Eq.trans (b := if skipSpace w' = [] then some GoMap.empty else none) rfl ?_
        rw [if_pos ((skipSpace_nil_iff _).2 hw')]
        exact hm
      · have hmem := members_of_json hj (2 * (w ++ b! "{" ++ body ++ b! "}" ++ w').length + 2) w'
          (by simp only [List.length_append]; omega)
        obtain ⟨t, ht⟩ := members_head hj (125 :: w')
        rw [ht] at hmem ⊢
        split
        · next hr => simp at hr
        · rw [hmem]
          dsimp only
          rw [if_pos ((skipSpace_nil_iff _).2 hw')]
          exact hm

/-- The members of a text are those the decoder finds. -/
theorem object_unique {l l' : List (Bytes × JsonValue)} {b : Bytes} (h : IsJsonObject l b) (h' : IsJsonObject l' b) :
    l = l' := by
  have key : ∀ l, IsJsonObject l b → ∃ r, skipSpace b = 123 :: r ∧
      ((∃ t, skipSpace r = 125 :: t ∧ l = []) ∨
        (∃ t w, skipSpace r = 34 :: t ∧ members (2 * b.length) (skipSpace r) = some (valsOf l, w))) := by
    rintro l ⟨w, body, w', hw, hw', rfl, hl⟩
    refine ⟨body ++ 125 :: w', ?_, ?_⟩
    · simp only [List.append_assoc]
      rw [skipSpace_append hw]
      simp only [List.cons_append, List.nil_append]
      rw [skipSpace_cons (by decide)]
    · rcases hl with ⟨rfl, hs⟩ | hj
      · exact .inl ⟨w', by rw [skipSpace_append hs, skipSpace_cons (by decide)], rfl⟩
      · obtain ⟨t, ht⟩ := members_head hj (125 :: w')
        exact .inr ⟨t, w', ht, members_of_json hj _ _ (by simp only [List.length_append]; omega)⟩
  obtain ⟨r, h1, h2⟩ := key l h
  obtain ⟨r', h1', h2'⟩ := key l' h'
  rw [h1] at h1'
  cases h1'
  rcases h2 with ⟨t, h3, rfl⟩ | ⟨t, w, h3, h4⟩
  · rcases h2' with ⟨t', h3', rfl⟩ | ⟨t', w', h3', h4'⟩
    · rfl
    · rw [h3] at h3'; simp at h3'
  · rcases h2' with ⟨t', h3', rfl⟩ | ⟨t', w', h3', h4'⟩
    · rw [h3] at h3'; simp at h3'
    · rw [h4] at h4'
      simp only [Option.some.injEq, Prod.mk.injEq] at h4'
      rw [← specs_valsOf l, ← specs_valsOf l', h4'.1]

/-- What entering members into a map gives. -/
theorem toMap_get (l : List (Bytes × JsonValue)) (m : GoMap Bytes Bytes) :
    ((∀ p ∈ l, p.2 ≠ .other) ∧ ∃ m', toMap (valsOf l) m = some m' ∧ ∀ k, (m'.get k).getD [] =
      match (l.filter (·.1 = k)).getLast? with
      | some (_, .text s) => s
      | some _ => []
      | none => (m.get k).getD []) ∨
    ((∃ p ∈ l, p.2 = .other) ∧ toMap (valsOf l) m = none) := by
  induction l generalizing m with
  | nil => exact .inl ⟨by simp, m, rfl, fun k => rfl⟩
  | cons p l ih =>
    obtain ⟨key, v⟩ := p
    have hstep : ∀ t, (valOf v).text = some t → v ≠ .other →
        (t = match v with | .text s => s | _ => []) →
        ((∀ p ∈ (key, v) :: l, p.2 ≠ .other) ∧ ∃ m', toMap (valsOf ((key, v) :: l)) m = some m' ∧ ∀ k, (m'.get k).getD [] =
          match (((key, v) :: l).filter (·.1 = k)).getLast? with
          | some (_, .text s) => s
          | some _ => []
          | none => (m.get k).getD []) ∨
        ((∃ p ∈ (key, v) :: l, p.2 = .other) ∧ toMap (valsOf ((key, v) :: l)) m = none) := by
      intro t ht hv htv
      have hun : toMap (valsOf ((key, v) :: l)) m = toMap (valsOf l) (m.set key t) := by
        simp only [valsOf, List.map_cons, toMap, ht, Option.bind_some]
      rcases ih (m.set key t) with ⟨h1, m', h2, h3⟩ | ⟨⟨p, hp, hpo⟩, h2⟩
      · refine .inl ⟨?_, m', by rw [hun, h2], ?_⟩
        · intro p hp
          rcases List.mem_cons.1 hp with rfl | hp
          · exact hv
          · exact h1 p hp
        · intro k
          rw [h3 k]
          by_cases hk : key = k
          · subst hk
            rw [List.filter_cons_of_pos (by simp), List.getLast?_cons]
            cases hl : (l.filter (·.1 = key)).getLast? with
            | none =>
              simp only [Option.getD_none, GoMap.get_set_self, Option.getD_some]
              rw [htv]
              cases v <;> rfl
            | some q =>
              obtain ⟨a, v'⟩ := q
              cases v' <;> rfl
          · rw [List.filter_cons_of_neg (by simp [hk])]
            rw [GoMap.get_set_ne _ _ (fun h => hk h.symm)]
      · exact .inr ⟨⟨p, by simp [hp], hpo⟩, by rw [hun, h2]⟩
    cases v with
    | text s => exact hstep s rfl (by simp) rfl
    | null => exact hstep [] rfl (by simp) rfl
    | other => exact .inr ⟨⟨(key, .other), by simp, rfl⟩, rfl⟩

/-! ## Labels -/

/-- **C87.** A label is read exactly from `null`, which gives the empty label, and from the objects all of
whose members are texts or `null`, which give what stands under the four names. -/
theorem C87_label_iff (b : Bytes) (label : DialogueLabel) :
    DialogueLabel.unmarshalJson b = some label ↔
      (IsJsonNull b ∧ label = ⟨⟨[], []⟩, [], []⟩) ∨
      ∃ l, IsJsonObject l b ∧ (∀ p ∈ l, p.2 ≠ .other) ∧
        label = ⟨⟨memberText l (b! "dialogue_starter_reference"), memberText l (b! "dialogue_responder_reference")⟩,
          memberText l (b! "dialogue_opponent_addr"), memberText l (b! "dialogue_starter_addr")⟩ := by
  have hget : ∀ (l : List (Bytes × JsonValue)) (m' : GoMap Bytes Bytes),
      (∀ k, (m'.get k).getD [] =
        match (l.filter (·.1 = k)).getLast? with
        | some (_, .text s) => s
        | some _ => []
        | none => ((GoMap.empty : GoMap Bytes Bytes).get k).getD []) → ∀ k, (m'.get k).getD [] = memberText l k := by
    intro l m' h k
    rw [h k, memberText]
    cases (l.filter (·.1 = k)).getLast? with
    | none => rfl
    | some p =>
      obtain ⟨a, v⟩ := p
      cases v <;> rfl
  unfold DialogueLabel.unmarshalJson
  simp only [Option.map_eq_some_iff]
  constructor
  · rintro ⟨m, hm, rfl⟩
    rcases unmarshalMap_iff.1 hm with ⟨hn, rfl⟩ | ⟨l, hl, ht⟩
    · exact .inl ⟨hn, rfl⟩
    · right
      rcases toMap_get l GoMap.empty with ⟨h1, m', h2, h3⟩ | ⟨-, h2⟩
      · rw [h2] at ht
        cases ht
        refine ⟨l, hl, h1, ?_⟩
        have := hget l m h3
        rw [this, this, this, this]
        rfl
      · rw [h2] at ht; cases ht
  · rintro (⟨hn, rfl⟩ | ⟨l, hl, h1, rfl⟩)
    · exact ⟨GoMap.empty, unmarshalMap_iff.2 (.inl ⟨hn, rfl⟩), rfl⟩
    · rcases toMap_get l GoMap.empty with ⟨-, m', h2, h3⟩ | ⟨⟨p, hp, hpo⟩, -⟩
      · refine ⟨m', unmarshalMap_iff.2 (.inr ⟨l, hl, h2⟩), ?_⟩
        have := hget l m' h3
        rw [this, this, this, this]
        rfl
      · exact absurd hpo (h1 p hp)

/-- **C87.** The grammar is unambiguous where it matters: the members of an object and the meaning of a
string are determined by the bytes. -/
theorem C87_unambiguous :
    (∀ {b : Bytes} {l l' : List (Bytes × JsonValue)}, IsJsonObject l b → IsJsonObject l' b → l = l') ∧
    (∀ {raw s s' : Bytes}, JsonString raw s → JsonString raw s' → s = s') := by
  refine ⟨object_unique, ?_⟩
  intro raw s s' h h'
  rw [← unquote_eq h, ← unquote_eq h']

/-! ### Which labels can be read -/

theorem hexDigit_exists {n : Nat} (h : n < 16) : ∃ c, IsHexDigit c n := by
  have : ∀ i : Fin 16, ((b! "0123456789abcdef")[i.val]?).isSome = true := by decide
  obtain ⟨c, hc⟩ := Option.isSome_iff_exists.1 (this ⟨n, h⟩)
  exact ⟨c, .inl hc⟩

theorem hex4_exists {n : Nat} (h : n < 65536) : ∃ d, IsHex4 d n := by
  obtain ⟨c0, h0⟩ := hexDigit_exists (n := n / 4096) (by omega)
  obtain ⟨c1, h1⟩ := hexDigit_exists (n := n / 256 % 16) (by omega)
  obtain ⟨c2, h2⟩ := hexDigit_exists (n := n / 16 % 16) (by omega)
  obtain ⟨c3, h3⟩ := hexDigit_exists (n := n % 16) (by omega)
  exact ⟨_, c0, c1, c2, c3, _, _, _, _, rfl, h0, h1, h2, h3, by omega⟩

/-- Every text is the meaning of a string. -/
theorem string_of_text {s : Bytes} (h : IsText s) : ∃ raw, JsonString raw s := by
  obtain ⟨cs, rfl⟩ := h
  induction cs with
  | nil => exact ⟨[], .nil⟩
  | cons c cs ih =>
    obtain ⟨raw, hr⟩ := ih
    rw [List.flatMap_cons]
    by_cases h1 : c.toNat < 65536
    · obtain ⟨d, hd⟩ := hex4_exists h1
      exact ⟨_, .unicode c hd hr⟩
    · refine ⟨_, .char c (by omega) ?_ ?_ hr⟩
      · rintro rfl; exact h1 (by decide)
      · rintro rfl; exact h1 (by decide)

/-- The meaning of a string is a text. -/
theorem text_of_string {raw s : Bytes} (h : JsonString raw s) : IsText s := by
  have : Proto.utf8Valid s = true := by
    rw [← unquote_eq h]
    exact utf8Valid_unquoteAux _ _
  exact (Proto.utf8Valid_iff s).1 this

/-- **C87.** The labels that can be read are those made of text: each is the meaning of some JSON, and what
is read is text, whatever the bytes. -/
theorem C87_readable_iff (label : DialogueLabel) :
    (∃ b, DialogueLabel.unmarshalJson b = some label) ↔
      IsText label.reference.starter ∧ IsText label.reference.responder ∧ IsText label.opponent ∧
        IsText label.starterAddr := by
  constructor
  · rintro ⟨b, hb⟩
    have hnil : IsText [] := ⟨[], rfl⟩
    rcases (C87_label_iff b label).1 hb with ⟨-, rfl⟩ | ⟨l, ⟨w, body, w', -, -, -, hl⟩, -, rfl⟩
    · exact ⟨hnil, hnil, hnil, hnil⟩
    · have hall : ∀ k s, (k, JsonValue.text s) ∈ l → IsText s := by
        rcases hl with ⟨rfl, -⟩ | hj
        · intro k s h; cases h
        · have hval : ∀ {v : JsonValue} {b : Bytes}, IsJson (.val v) b → ∀ s, v = .text s → IsText s := by
            intro v b h s hv
            subst hv
            cases h with
            | string hs => exact text_of_string hs
          clear hb
          generalize hp : JsonPart.members l = p at hj
          induction hj generalizing l with
          | lastMember _ _ _ _ _ hv _ =>
            cases hp
            intro k s h
            simp only [List.mem_singleton, Prod.mk.injEq] at h
            exact hval hv s h.2.symm
          | member _ _ _ _ _ hv _ _ ih =>
            cases hp
            intro k s h
            rcases List.mem_cons.1 h with h | h
            · cases h; exact hval hv s rfl
            · exact ih _ rfl k s h
          | _ => cases hp
      have hm : ∀ k, IsText (memberText l k) := by
        intro k
        unfold memberText
        split
        · next a s h => exact hall a s ((List.mem_filter.1 (List.mem_of_getLast? h)).1)
        · exact hnil
      exact ⟨hm _, hm _, hm _, hm _⟩
  · rintro ⟨h1, h2, h3, h4⟩
    obtain ⟨r1, j1⟩ := string_of_text h1
    obtain ⟨r2, j2⟩ := string_of_text h2
    obtain ⟨r3, j3⟩ := string_of_text h3
    obtain ⟨r4, j4⟩ := string_of_text h4
    have key : ∀ k : Bytes, unquote k = k → scanString .plain (k ++ 34 :: []) = some (k, []) → JsonString k k := by
      intro k hk hs
      have := (scan_iff.1 hs).2
      rw [hk] at this
      exact this
    have k1 := key (b! "dialogue_starter_reference") (by decide +kernel) (by decide +kernel)
    have k2 := key (b! "dialogue_responder_reference") (by decide +kernel) (by decide +kernel)
    have k3 := key (b! "dialogue_opponent_addr") (by decide +kernel) (by decide +kernel)
    have k4 := key (b! "dialogue_starter_addr") (by decide +kernel) (by decide +kernel)
    have n := jsonSpace_nil
    have hj := IsJson.member n n n n k1 (.string j1) (IsJson.member n n n n k2 (.string j2)
      (IsJson.member n n n n k3 (.string j3) (IsJson.lastMember n n n n k4 (.string j4))))
    refine ⟨_, (C87_label_iff _ _).2 (.inr ⟨_, ⟨[], _, [], n, n, rfl, .inr hj⟩, ?_, ?_⟩)⟩
    · intro p hp
      simp only [List.mem_cons, List.not_mem_nil, or_false] at hp
      rcases hp with rfl | rfl | rfl | rfl <;> simp
    · obtain ⟨⟨a, b⟩, c, d⟩ := label
      rfl

/-- Names in any order, white space, a surrogate pair, an escaped letter in a name, `null`, and a member
that is given twice. -/
example : DialogueLabel.unmarshalJson
    (b! " {\"dialogue_opponent_addr\":\"\\ud83d\\ude00\\/\",\"dialogue_starter_addr\" : null,\"x\":\"\",\"dialogue_starter_\\u0072eference\":\"1\",\n\"dialogue_opponent_addr\":\"\\ud83d\\ude00\" } ") =
    some ⟨⟨b! "1", []⟩, [0xF0, 0x9F, 0x98, 0x80], []⟩ := by
  decide +kernel

/-- A member that is neither a text nor `null`; a comma too many. -/
example : DialogueLabel.unmarshalJson (b! "{\"x\":[1.5e3,{}]}") = none ∧
    DialogueLabel.unmarshalJson (b! "{\"x\":\"1\",}") = none := by
  decide +kernel

end Verif
