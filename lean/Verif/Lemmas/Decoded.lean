import Verif.Lemmas.ProtoConcat
import Verif.Lemmas.Messages

/-!
# What can be said of decoded messages
-/

namespace Verif

namespace Proto

theorem varintAux_fuel {f f' n : Nat} (h : n ≤ f) (h' : n ≤ f') : varintAux f n = varintAux f' n := by
  induction f generalizing f' n with
  | zero =>
    have : n = 0 := by omega
    subst this
    cases f' <;> simp [varintAux]
  | succ f ih =>
    cases f' with
    | zero =>
      have : n = 0 := by omega
      subst this
      simp [varintAux]
    | succ f' =>
      simp only [varintAux]
      split
      · rfl
      · rw [ih (f' := f') (n := n / 128) (by omega) (by omega)]

theorem varint_small {n : Nat} (h : n < 128) : (varint n).length = 1 := by
  unfold varint
  cases n with
  | zero => simp [varintAux]
  | succ n => simp only [varintAux, if_pos h]; rfl

theorem varint_big {n : Nat} (h : 128 ≤ n) : (varint n).length = 1 + (varint (n / 128)).length := by
  unfold varint
  cases n with
  | zero => omega
  | succ n =>
    simp only [varintAux, if_neg (by omega : ¬ n + 1 < 128), List.length_cons]
    rw [varintAux_fuel (f := n) (f' := (n + 1) / 128) (by omega) (by omega)]
    omega

/-- A varint that was read is at least as long as the one that would be written. -/
theorem consumeVarintAux_minimal {g : Nat} {b r : Bytes} {n : Nat}
    (h : consumeVarintAux g b = some (n, r)) : (varint n).length + r.length ≤ b.length := by
  induction g generalizing b n r with
  | zero =>
    cases b with
    | nil => simp [consumeVarintAux] at h
    | cons y rest =>
      simp only [consumeVarintAux] at h
      split at h
      · rename_i hy
        simp only [Option.some.injEq, Prod.mk.injEq] at h
        rw [← h.1, ← h.2, varint_small (by have := UInt8.lt_iff_toNat_lt.1 hy; simp at this; omega)]
        simp; omega
      · simp at h
  | succ g ih =>
    cases b with
    | nil => simp [consumeVarintAux] at h
    | cons y rest =>
      simp only [consumeVarintAux] at h
      split at h
      · rename_i hy
        simp only [Option.some.injEq, Prod.mk.injEq] at h
        rw [← h.1, ← h.2, varint_small (by have := UInt8.lt_iff_toNat_lt.1 hy; simp at this; omega)]
        simp; omega
      · rename_i hy
        cases hc : consumeVarintAux g rest with
        | none => rw [hc] at h; simp at h
        | some p =>
          obtain ⟨v, r'⟩ := p
          rw [hc] at h
          simp only [Option.some.injEq, Prod.mk.injEq] at h
          have hi := ih hc
          have h256 : y.toNat < 256 := y.toNat_lt
          have h128 : 128 ≤ y.toNat := by
            have := mt UInt8.lt_iff_toNat_lt.2 hy
            simpa using this
          rw [← h.1, ← h.2, List.length_cons]
          by_cases hs : y.toNat - 128 + 128 * v < 128
          · rw [varint_small hs]
            have := varint_length_pos v
            omega
          · rw [varint_big (by omega)]
            have : (y.toNat - 128 + 128 * v) / 128 = v := by omega
            rw [this]; omega

theorem consumeVarint_minimal {b r : Bytes} {n : Nat} (h : consumeVarint b = some (n, r)) :
    (varint n).length + r.length ≤ b.length := consumeVarintAux_minimal h

/-- A field that was read is at least as long as the one that would be written. -/
theorem field_minimal {b r r' : Bytes} {num typ : Nat} {v : WireVal}
    (ht : consumeTag b = some (num, typ, r)) (hv : consumeValue num typ r = some (v, r')) :
    (encodeField ⟨num, v⟩).length + r'.length ≤ b.length := by
  have h1 : (varint (num * 8 + typ)).length + r.length ≤ b.length ∧ typ < 8 := by
    unfold consumeTag at ht
    cases hc : consumeVarint b with
    | none => rw [hc] at ht; simp at ht
    | some p =>
      obtain ⟨t, x⟩ := p
      rw [hc] at ht
      simp only at ht
      split at ht
      · simp at ht
      · simp only [Option.some.injEq, Prod.mk.injEq] at ht
        have := consumeVarint_minimal hc
        rw [← ht.1, ← ht.2.1, ← ht.2.2]
        exact ⟨by rw [Nat.mul_comm, Nat.div_add_mod]; exact this, by omega⟩
  have h2 := consumeValue_length hv
  unfold consumeValue at hv
  split at hv
  · cases hs : skipGroup (r.length + 1) [num] r with
    | none => rw [hs] at hv; simp at hv
    | some x =>
      rw [hs] at hv
      simp at hv
      rw [← hv.1]
      simp [encodeField]
      omega
  · unfold consumeScalar at hv
    split at hv
    · cases hc : consumeVarint r with
      | none => rw [hc] at hv; simp at hv
      | some p =>
        rw [hc] at hv
        simp at hv
        have := consumeVarint_minimal (r := p.2) (n := p.1) hc
        rw [← hv.1, ← hv.2]
        simp [encodeField]
        simp at h1
        omega
    · cases hc : takeExact 8 r with
      | none => rw [hc] at hv; simp at hv
      | some p =>
        rw [hc] at hv
        simp at hv
        have := takeExact_some (v := p.1) (r := p.2) hc
        rw [← hv.1, ← hv.2]
        rw [this.1] at h1
        simp [encodeField]
        simp at h1
        omega
    · cases hc : consumeVarint r with
      | none => rw [hc] at hv; simp at hv
      | some p =>
        rw [hc] at hv
        simp at hv
        obtain ⟨x, hy, rfl⟩ := hv
        have h3 := takeExact_some hy
        have := consumeVarint_minimal (r := p.2) (n := p.1) hc
        rw [h3.1, ← h3.2] at this
        simp [encodeField]
        simp at this
        omega
    · cases hc : takeExact 4 r with
      | none => rw [hc] at hv; simp at hv
      | some p =>
        rw [hc] at hv
        simp at hv
        have := takeExact_some (v := p.1) (r := p.2) hc
        rw [← hv.1, ← hv.2]
        rw [this.1] at h1
        simp [encodeField]
        simp at h1
        omega
    · simp at hv

/-- The fields of a message, written again, are not longer than the message. -/
theorem parse_minimal {b : Bytes} {fs : List RawField} (h : parse b = some fs) :
    (encodeFields fs).length ≤ b.length := by
  induction hn : b.length using Nat.strongRecOn generalizing b fs with
  | _ n ih =>
    subst hn
    cases b with
    | nil =>
      have : fs = [] := by simpa [parse, parseAux] using h.symm
      subst this
      simp [encodeFields]
    | cons x xs =>
      have h' := h
      unfold parse at h
      simp only [List.length_cons, parseAux] at h
      cases ht : consumeTag (x :: xs) with
      | none => rw [ht] at h; simp at h
      | some p =>
        obtain ⟨num, typ, rest⟩ := p
        rw [ht] at h
        simp only at h
        cases hv : consumeValue num typ rest with
        | none => rw [hv] at h; simp at h
        | some q =>
          obtain ⟨v, rest'⟩ := q
          have h1 := consumeTag_length ht
          have h2 := consumeValue_length hv
          rw [parse_cons ht hv] at h'
          cases hr : parse rest' with
          | none => rw [hr] at h'; simp at h'
          | some gs =>
            rw [hr] at h'
            simp at h'
            subst h'
            have := ih rest'.length (by simp at h1 ⊢; omega) hr rfl
            have hm := field_minimal ht hv
            simp only [encodeFields, List.map_cons, List.flatten_cons, List.length_append] at this ⊢
            omega

theorem foldlM_inv {M : Type} {step : M → RawField → Option M} {P : M → Prop}
    (hs : ∀ m f m', step m f = some m' → P m → P m') {fs : List RawField} {m m' : M}
    (h : fs.foldlM step m = some m') (hm : P m) : P m' := by
  induction fs generalizing m with
  | nil => simp at h; rwa [← h]
  | cons f fs ih =>
    simp only [List.foldlM_cons] at h
    cases hf : step m f with
    | none => rw [hf] at h; simp at h
    | some m1 =>
      rw [hf] at h
      exact ih h (hs _ _ _ hf hm)

/-- What every field keeps, decoding keeps. -/
theorem decodeInto_inv {M : Type} {step : M → RawField → Option M} {P : M → Prop}
    (hs : ∀ m f m', step m f = some m' → P m → P m') {b : Bytes} {m m' : M}
    (h : decodeInto step m b = some m') (hm : P m) : P m' := by
  unfold decodeInto at h
  cases hp : parse b with
  | none => rw [hp] at h; simp at h
  | some fs =>
    rw [hp] at h
    exact foldlM_inv hs h hm

theorem foldlM_size {M : Type} {step : M → RawField → Option M} {size : M → Nat}
    (hs : ∀ m f m', step m f = some m' → size m' ≤ size m + (encodeField f).length)
    {fs : List RawField} {m m' : M} (h : fs.foldlM step m = some m') :
    size m' ≤ size m + (encodeFields fs).length := by
  induction fs generalizing m with
  | nil => simp at h; rw [← h]; omega
  | cons f fs ih =>
    simp only [List.foldlM_cons] at h
    cases hf : step m f with
    | none => rw [hf] at h; simp at h
    | some m1 =>
      rw [hf] at h
      have h1 := ih h
      have h2 := hs _ _ _ hf
      simp only [encodeFields, List.map_cons, List.flatten_cons, List.length_append] at h1 ⊢
      omega

/-- A size that grows with every field by at most its length grows by at most the length of the
message. -/
theorem decodeInto_size {M : Type} {step : M → RawField → Option M} {size : M → Nat}
    (hs : ∀ m f m', step m f = some m' → size m' ≤ size m + (encodeField f).length)
    {b : Bytes} {m m' : M} (h : decodeInto step m b = some m') : size m' ≤ size m + b.length := by
  unfold decodeInto at h
  cases hp : parse b with
  | none => rw [hp] at h; simp at h
  | some fs =>
    rw [hp] at h
    have h1 := foldlM_size hs h
    have h2 := parse_minimal hp
    omega

theorem strField_some {M : Type} {v : Bytes} {set : Bytes → M} {m : M} (h : strField v set = some m) :
    utf8Valid v = true ∧ m = set v := by
  unfold strField at h
  split at h
  · rename_i hu; exact ⟨hu, (Option.some.inj h).symm⟩
  · simp at h

theorem int32OfWire_range (n : Nat) : isInt32 (int32OfWire n) = true := by
  unfold int32OfWire isInt32
  simp only
  split <;> simp <;> omega

/-- The length of an optional field. -/
def optLen (num : Nat) (v : Bytes) : Nat := if v = [] then 0 else (encodeField ⟨num, .bytes v⟩).length

theorem encodeFields_optBytes (num : Nat) (v : Bytes) :
    (encodeFields (optBytes num v)).length = optLen num v := by
  unfold optBytes optLen
  split <;> simp [encodeFields]

theorem encodeFields_append (a b : List RawField) :
    encodeFields (a ++ b) = encodeFields a ++ encodeFields b := by
  simp [encodeFields]

theorem optLen_le (num : Nat) (v : Bytes) : optLen num v ≤ (encodeField ⟨num, .bytes v⟩).length := by
  unfold optLen
  split <;> omega

end Proto

open Proto

/-! ## Records -/

theorem AgentRecord.step_utf8 (r : AgentRecord) (f : RawField) (r' : AgentRecord)
    (h : AgentRecord.step r f = some r') (hr : r.utf8 = true) : r'.utf8 = true := by
  unfold AgentRecord.step at h
  simp only [AgentRecord.utf8, Bool.and_eq_true] at hr
  split at h
  all_goals first
    | (obtain ⟨hu, rfl⟩ := strField_some h
       simp only [AgentRecord.utf8, hr, hu, Bool.and_self])
    | (rw [← Option.some.inj h]; simp only [AgentRecord.utf8, hr, Bool.and_self])

theorem AgentRecord.decodeInto_utf8 {r r' : AgentRecord} {b : Bytes}
    (h : decodeInto AgentRecord.step r b = some r') (hr : r.utf8 = true) : r'.utf8 = true :=
  decodeInto_inv (P := fun r => r.utf8 = true) AgentRecord.step_utf8 h hr

theorem AgentRecord.zero_utf8 : AgentRecord.zero.utf8 = true := by decide

theorem AgentRecord.fields_length (r : AgentRecord) : (encodeFields r.fields).length =
    optLen 1 r.serviceId + optLen 2 r.ledgerId + optLen 3 r.address + optLen 4 r.publicKey +
    optLen 5 r.peerPublicKey + optLen 6 r.signature + optLen 7 r.notBefore + optLen 8 r.notAfter := by
  simp only [AgentRecord.fields, encodeFields_append, List.length_append, encodeFields_optBytes]

theorem AgentRecord.step_size (r : AgentRecord) (f : RawField) (r' : AgentRecord)
    (h : AgentRecord.step r f = some r') :
    (encodeFields r'.fields).length ≤ (encodeFields r.fields).length + (encodeField f).length := by
  obtain ⟨num, val⟩ := f
  simp only [AgentRecord.fields_length]
  unfold AgentRecord.step at h
  dsimp only at h
  split at h
  all_goals first
    | (rename_i v
       obtain ⟨hu, rfl⟩ := strField_some h
       have := optLen_le
       dsimp only
       first
         | (have := this 1 v; omega)
         | (have := this 2 v; omega)
         | (have := this 3 v; omega)
         | (have := this 4 v; omega)
         | (have := this 5 v; omega)
         | (have := this 6 v; omega)
         | (have := this 7 v; omega)
         | (have := this 8 v; omega))
    | (rw [← Option.some.inj h]; omega)

theorem AgentRecord.decodeInto_size {r r' : AgentRecord} {b : Bytes}
    (h : decodeInto AgentRecord.step r b = some r') :
    (encodeFields r'.fields).length ≤ (encodeFields r.fields).length + b.length :=
  Proto.decodeInto_size (size := fun r => (encodeFields r.fields).length) AgentRecord.step_size h

/-! ## ACN messages -/

theorem StatusBody.step_ok (s : StatusBody) (f : RawField) (s' : StatusBody)
    (h : StatusBody.step s f = some s') (hs : s.utf8 = true ∧ isInt32 s.code = true) :
    s'.utf8 = true ∧ isInt32 s'.code = true := by
  unfold StatusBody.step at h
  split at h
  · rw [← Option.some.inj h]; exact ⟨hs.1, int32OfWire_range _⟩
  · obtain ⟨hu, rfl⟩ := strField_some h
    exact ⟨by
      have := hs.1
      simp only [StatusBody.utf8, List.all_append, List.all_cons, List.all_nil, hu, Bool.and_self,
        Bool.and_true] at this ⊢
      exact this, hs.2⟩
  · rw [← Option.some.inj h]; exact hs

theorem StatusBody.decodeInto_ok {s s' : StatusBody} {b : Bytes}
    (h : decodeInto StatusBody.step s b = some s') (hs : s.utf8 = true ∧ isInt32 s.code = true) :
    s'.utf8 = true ∧ isInt32 s'.code = true :=
  decodeInto_inv (P := fun s => s.utf8 = true ∧ isInt32 s.code = true) StatusBody.step_ok h hs

theorem Performative.intoRecord_ok {r r' : Option AgentRecord} {v : Bytes}
    (h : Performative.intoRecord r v = some r') (hr : r.all AgentRecord.utf8 = true) :
    r'.all AgentRecord.utf8 = true := by
  unfold Performative.intoRecord at h
  cases hd : decodeInto AgentRecord.step (r.getD .zero) v with
  | none => rw [hd] at h; simp at h
  | some x =>
    rw [hd] at h
    simp at h
    rw [← h]
    refine AgentRecord.decodeInto_utf8 hd ?_
    cases r with
    | none => exact AgentRecord.zero_utf8
    | some r => exact hr

/-- Valid text and codes. -/
def Performative.good (p : Performative) : Prop := p.utf8 = true ∧ p.inRange = true

theorem Performative.step_good (p : Performative) (f : RawField) (p' : Performative)
    (h : Performative.step p f = some p') (hp : p.good) : p'.good := by
  cases p with
  | aeaEnvelope e r =>
    simp only [Performative.step] at h
    split at h
    · rw [← Option.some.inj h]; exact hp
    · rename_i v _ _
      cases hi : Performative.intoRecord r _ with
      | none => rw [hi] at h; simp at h
      | some r' =>
        rw [hi] at h
        rw [← Option.some.inj h]
        exact ⟨Performative.intoRecord_ok hi hp.1, rfl⟩
    · rw [← Option.some.inj h]; exact hp
  | lookupRequest a =>
    simp only [Performative.step] at h
    split at h
    · obtain ⟨hu, rfl⟩ := strField_some h
      exact ⟨hu, rfl⟩
    · rw [← Option.some.inj h]; exact hp
  | lookupResponse r =>
    simp only [Performative.step] at h
    split at h
    · cases hi : Performative.intoRecord r _ with
      | none => rw [hi] at h; simp at h
      | some r' =>
        rw [hi] at h
        rw [← Option.some.inj h]
        exact ⟨Performative.intoRecord_ok hi hp.1, rfl⟩
    · rw [← Option.some.inj h]; exact hp
  | register r =>
    simp only [Performative.step] at h
    split at h
    · cases hi : Performative.intoRecord r _ with
      | none => rw [hi] at h; simp at h
      | some r' =>
        rw [hi] at h
        rw [← Option.some.inj h]
        exact ⟨Performative.intoRecord_ok hi hp.1, rfl⟩
    · rw [← Option.some.inj h]; exact hp
  | status b =>
    simp only [Performative.step] at h
    split at h
    · rename_i v _ _
      cases hd : decodeInto StatusBody.step (b.getD .zero) v with
      | none => rw [hd] at h; simp at h
      | some s =>
        rw [hd] at h
        rw [← Option.some.inj h]
        have hb : (b.getD .zero).utf8 = true ∧ isInt32 (b.getD .zero).code = true := by
          cases b with
          | none => decide
          | some b => exact ⟨by simpa [Performative.utf8] using hp.1, by
              simpa [Performative.inRange] using hp.2⟩
        have := StatusBody.decodeInto_ok hd hb
        exact ⟨by simpa [Performative.utf8] using this.1, this.2⟩
    · rw [← Option.some.inj h]; exact hp

theorem AcnMessage.step_good (m : AcnMessage) (f : RawField) (m' : AcnMessage)
    (h : AcnMessage.step m f = some m') (hm : ∀ p, m = some p → p.good) :
    ∀ p, m' = some p → p.good := by
  have key : ∀ (num : Nat) (fresh : Performative) (v : Bytes), fresh.good →
      (decodeInto Performative.step (AcnMessage.member m num fresh) v).map some = some m' →
      ∀ p, m' = some p → p.good := by
    intro num fresh v hf h p hp
    cases hd : decodeInto Performative.step (AcnMessage.member m num fresh) v with
    | none => rw [hd] at h; simp at h
    | some q =>
      rw [hd] at h
      simp at h
      rw [← h] at hp
      rw [← Option.some.inj hp]
      refine decodeInto_inv (P := Performative.good) Performative.step_good hd ?_
      unfold AcnMessage.member
      split
      · split
        · exact hm _ rfl
        · exact hf
      · exact hf
  unfold AcnMessage.step at h
  split at h
  · exact key _ _ _ ⟨rfl, rfl⟩ h
  · exact key _ _ _ ⟨rfl, rfl⟩ h
  · exact key _ _ _ ⟨rfl, rfl⟩ h
  · exact key _ _ _ ⟨rfl, rfl⟩ h
  · exact key _ _ _ ⟨rfl, rfl⟩ h
  · rw [← Option.some.inj h]; exact hm

theorem AcnMessage.decode_good {b : Bytes} {p : Performative} (h : AcnMessage.decode b = some (some p)) :
    p.good :=
  decodeInto_inv (P := fun m => ∀ p, m = some p → p.good) AcnMessage.step_good h (by simp) p rfl

/-- The length of the encoding of a record. -/
def recordLength : Option AgentRecord → Nat
  | none => 0
  | some r => (encodeFields r.fields).length

/-- The record in a message. -/
def Performative.record : Performative → Option AgentRecord
  | .aeaEnvelope _ r => r
  | .lookupRequest _ => none
  | .lookupResponse r => r
  | .register r => r
  | .status _ => none

/-- The length of its encoding. -/
def Performative.recordSize (p : Performative) : Nat := recordLength p.record

theorem encodeField_bytes_length (num : Nat) (v : Bytes) :
    v.length ≤ (encodeField ⟨num, .bytes v⟩).length := by
  simp [encodeField]
  omega

theorem Performative.intoRecord_size {r r' : Option AgentRecord} {v : Bytes}
    (h : Performative.intoRecord r v = some r') :
    recordLength r' ≤ recordLength r + v.length := by
  unfold Performative.intoRecord at h
  cases hd : decodeInto AgentRecord.step (r.getD .zero) v with
  | none => rw [hd] at h; simp at h
  | some x =>
    rw [hd] at h
    simp at h
    rw [← h]
    have := AgentRecord.decodeInto_size hd
    cases r with
    | none =>
      simpa [AgentRecord.zero, AgentRecord.fields, optBytes, encodeFields, recordLength] using this
    | some r => exact this

theorem Performative.step_size (p : Performative) (f : RawField) (p' : Performative)
    (h : Performative.step p f = some p') :
    p'.recordSize ≤ p.recordSize + (encodeField f).length := by
  obtain ⟨num, val⟩ := f
  cases p with
  | aeaEnvelope e r =>
    simp only [Performative.step] at h
    split at h
    · rw [← Option.some.inj h]; simp [Performative.recordSize, Performative.record]
    · rename_i v
      cases hi : Performative.intoRecord r v with
      | none => rw [hi] at h; simp at h
      | some r' =>
        rw [hi] at h
        rw [← Option.some.inj h]
        have h1 := Performative.intoRecord_size hi
        have h2 := encodeField_bytes_length 2 v
        simp only [Performative.recordSize, Performative.record]
        omega
    · rw [← Option.some.inj h]; simp [Performative.recordSize, Performative.record]
  | lookupRequest a =>
    simp only [Performative.step] at h
    split at h
    · obtain ⟨hu, rfl⟩ := strField_some h
      simp [Performative.recordSize, Performative.record]
    · rw [← Option.some.inj h]; simp [Performative.recordSize, Performative.record]
  | lookupResponse r =>
    simp only [Performative.step] at h
    split at h
    · rename_i v
      cases hi : Performative.intoRecord r v with
      | none => rw [hi] at h; simp at h
      | some r' =>
        rw [hi] at h
        rw [← Option.some.inj h]
        have h1 := Performative.intoRecord_size hi
        have h2 := encodeField_bytes_length 1 v
        simp only [Performative.recordSize, Performative.record]
        omega
    · rw [← Option.some.inj h]; simp [Performative.recordSize, Performative.record]
  | register r =>
    simp only [Performative.step] at h
    split at h
    · rename_i v
      cases hi : Performative.intoRecord r v with
      | none => rw [hi] at h; simp at h
      | some r' =>
        rw [hi] at h
        rw [← Option.some.inj h]
        have h1 := Performative.intoRecord_size hi
        have h2 := encodeField_bytes_length 1 v
        simp only [Performative.recordSize, Performative.record]
        omega
    · rw [← Option.some.inj h]; simp [Performative.recordSize, Performative.record]
  | status b =>
    simp only [Performative.step] at h
    split at h
    · rename_i v
      cases hd : decodeInto StatusBody.step (b.getD .zero) v with
      | none => rw [hd] at h; simp at h
      | some s =>
        rw [hd] at h
        rw [← Option.some.inj h]
        simp [Performative.recordSize, Performative.record]
    · rw [← Option.some.inj h]; simp [Performative.recordSize, Performative.record]

/-- The length of the encoding of the record in a message, zero without one. -/
def AcnMessage.recordSize (m : AcnMessage) : Nat :=
  match m with
  | none => 0
  | some p => p.recordSize

theorem AcnMessage.step_size (m : AcnMessage) (f : RawField) (m' : AcnMessage)
    (h : AcnMessage.step m f = some m') :
    m'.recordSize ≤ m.recordSize + (encodeField f).length := by
  obtain ⟨fn, fv⟩ := f
  have key : ∀ (num : Nat) (fresh : Performative) (v : Bytes), fresh.recordSize = 0 →
      (decodeInto Performative.step (AcnMessage.member m num fresh) v).map some = some m' →
      m'.recordSize ≤ m.recordSize + (encodeField ⟨num, .bytes v⟩).length := by
    intro num fresh v hf h
    cases hd : decodeInto Performative.step (AcnMessage.member m num fresh) v with
    | none => rw [hd] at h; simp at h
    | some q =>
      rw [hd] at h
      simp at h
      rw [← h]
      have h1 := Proto.decodeInto_size (size := Performative.recordSize) Performative.step_size hd
      have h2 := encodeField_bytes_length num v
      have h3 : (AcnMessage.member m num fresh).recordSize ≤ m.recordSize := by
        unfold AcnMessage.member
        split
        · split
          · exact Nat.le_refl _
          · rw [hf]; omega
        · rw [hf]; omega
      show q.recordSize ≤ _
      omega
  unfold AcnMessage.step at h
  dsimp only at h
  split at h
  · exact key _ _ _ rfl h
  · exact key _ _ _ rfl h
  · exact key _ _ _ rfl h
  · exact key _ _ _ rfl h
  · exact key _ _ _ rfl h
  · rw [← Option.some.inj h]; omega

theorem AcnMessage.decode_size {b : Bytes} {m : AcnMessage} (h : AcnMessage.decode b = some m) :
    m.recordSize ≤ b.length := by
  have := Proto.decodeInto_size (size := AcnMessage.recordSize) AcnMessage.step_size h
  simpa [AcnMessage.recordSize] using this

/-! ## Envelopes -/

theorem Envelope.step_utf8 (e : Envelope) (f : RawField) (e' : Envelope)
    (h : Envelope.step e f = some e') (he : e.utf8 = true) : e'.utf8 = true := by
  unfold Envelope.step at h
  simp only [Envelope.utf8, Bool.and_eq_true] at he
  split at h
  all_goals first
    | (obtain ⟨hu, rfl⟩ := strField_some h
       simp only [Envelope.utf8, he, hu, Bool.and_self])
    | (rw [← Option.some.inj h]; simp only [Envelope.utf8, he, Bool.and_self])

theorem Envelope.fields_length (e : Envelope) : (encodeFields e.fields).length =
    optLen 1 e.to + optLen 2 e.sender + optLen 3 e.protocolId + optLen 4 e.message + optLen 5 e.uri := by
  simp only [Envelope.fields, encodeFields_append, List.length_append, encodeFields_optBytes]

theorem Envelope.step_size (e : Envelope) (f : RawField) (e' : Envelope)
    (h : Envelope.step e f = some e') :
    (encodeFields e'.fields).length ≤ (encodeFields e.fields).length + (encodeField f).length := by
  obtain ⟨num, val⟩ := f
  simp only [Envelope.fields_length]
  unfold Envelope.step at h
  dsimp only at h
  split at h
  · rename_i v; obtain ⟨hu, rfl⟩ := strField_some h; have := optLen_le 1 v; dsimp only; omega
  · rename_i v; obtain ⟨hu, rfl⟩ := strField_some h; have := optLen_le 2 v; dsimp only; omega
  · rename_i v; obtain ⟨hu, rfl⟩ := strField_some h; have := optLen_le 3 v; dsimp only; omega
  · rename_i v; rw [← Option.some.inj h]; have := optLen_le 4 v; dsimp only; omega
  · rename_i v; obtain ⟨hu, rfl⟩ := strField_some h; have := optLen_le 5 v; dsimp only; omega
  · rw [← Option.some.inj h]; omega

/-! ## Dialogue messages -/

theorem DialogueMessage.step_good (d : DialogueMessage) (f : RawField) (d' : DialogueMessage)
    (h : DialogueMessage.step d f = some d')
    (hd : d.utf8 = true ∧ isInt32 d.messageId = true ∧ isInt32 d.target = true) :
    d'.utf8 = true ∧ isInt32 d'.messageId = true ∧ isInt32 d'.target = true := by
  obtain ⟨h1, h2, h3⟩ := hd
  simp only [DialogueMessage.utf8, Bool.and_eq_true] at h1
  unfold DialogueMessage.step at h
  split at h
  all_goals first
    | (obtain ⟨hu, rfl⟩ := strField_some h
       exact ⟨by simp only [DialogueMessage.utf8, h1, hu, Bool.and_self], h2, h3⟩)
    | (rw [← Option.some.inj h]
       refine ⟨by simp only [DialogueMessage.utf8, h1, Bool.and_self], ?_, ?_⟩ <;>
         first | exact h2 | exact h3 | exact int32OfWire_range _)

theorem AeaMessage.step_good (structOk : Bytes → Bool) (m : AeaMessage) (f : RawField) (m' : AeaMessage)
    (h : AeaMessage.step structOk m f = some m')
    (hm : ∀ d, m = some (.dialogue d) →
      d.utf8 = true ∧ isInt32 d.messageId = true ∧ isInt32 d.target = true) :
    ∀ d, m' = some (.dialogue d) →
      d.utf8 = true ∧ isInt32 d.messageId = true ∧ isInt32 d.target = true := by
  intro d hd
  unfold AeaMessage.step at h
  split at h
  · split at h
    · rw [← Option.some.inj h] at hd; simp at hd
    · simp at h
  · rename_i v _ _
    obtain ⟨y, hx, hy⟩ := Option.map_eq_some_iff.1 h
    rw [← hy] at hd
    simp at hd
    rw [← hd]
    refine decodeInto_inv (P := fun d => d.utf8 = true ∧ isInt32 d.messageId = true ∧
      isInt32 d.target = true) DialogueMessage.step_good hx ?_
    split
    · exact hm _ rfl
    · decide
  · rw [← Option.some.inj h] at hd; exact hm d hd

theorem AeaMessage.decode_good {structOk : Bytes → Bool} {b : Bytes} {d : DialogueMessage}
    (h : AeaMessage.decode structOk b = some (some (.dialogue d))) :
    d.utf8 = true ∧ isInt32 d.messageId = true ∧ isInt32 d.target = true :=
  decodeInto_inv (P := fun m => ∀ d, m = some (.dialogue d) →
      d.utf8 = true ∧ isInt32 d.messageId = true ∧ isInt32 d.target = true)
    (AeaMessage.step_good structOk) h (by simp) d rfl

end Verif
