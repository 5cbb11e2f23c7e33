import Verif.Model.Wallet
import Verif.Props.PoR

/-!
# C43, C44, C49: signature formats, checksum addresses, wallet
-/

namespace Verif

/-- A statement about all bytes follows from the 256 cases. -/
theorem forall_byte {p : UInt8 → Prop} (h : ∀ n : Fin 256, p (UInt8.ofFin n)) (x : UInt8) : p x := by
  have := h x.toFin
  simpa using this

/-! ## Numbers and bytes -/

theorem natOfBytes_foldl (b : Bytes) (n : Nat) :
    b.foldl (fun n (x : UInt8) => n * 256 + x.toNat) n = n * 256 ^ b.length + natOfBytes b := by
  induction b generalizing n with
  | nil => simp [natOfBytes]
  | cons x b ih =>
    have h0 : natOfBytes (x :: b) = x.toNat * 256 ^ b.length + natOfBytes b := by
      unfold natOfBytes
      rw [List.foldl_cons, ih]
      simp [natOfBytes]
    rw [List.foldl_cons, ih, h0, List.length_cons, Nat.pow_succ, Nat.add_mul, Nat.mul_assoc,
      Nat.mul_comm 256, Nat.add_assoc]

theorem natOfBytes_append (a b : Bytes) :
    natOfBytes (a ++ b) = natOfBytes a * 256 ^ b.length + natOfBytes b := by
  conv => lhs; unfold natOfBytes
  rw [List.foldl_append, natOfBytes_foldl]
  rfl

theorem natOfBytes_lt (b : Bytes) : natOfBytes b < 256 ^ b.length := by
  induction b with
  | nil => simp [natOfBytes]
  | cons x b ih =>
    have h0 : natOfBytes (x :: b) = x.toNat * 256 ^ b.length + natOfBytes b := by
      have := natOfBytes_append [x] b
      simpa [natOfBytes] using this
    have hx := x.toNat_lt
    rw [h0, List.length_cons, Nat.pow_succ]
    have : x.toNat * 256 ^ b.length ≤ 255 * 256 ^ b.length :=
      Nat.mul_le_mul_right _ (by omega)
    omega

theorem natOfBytes_bytesOfNatAux {f n : Nat} (h : n ≤ f) : natOfBytes (bytesOfNatAux f n) = n := by
  induction f generalizing n with
  | zero =>
    have : n = 0 := by omega
    subst this; rfl
  | succ f ih =>
    rw [bytesOfNatAux]
    split
    · rename_i h0; subst h0; rfl
    · rw [natOfBytes_append, ih (by omega)]
      have : natOfBytes [(n % 256).toUInt8] = n % 256 := by
        have := Nat.mod_lt n (show 256 > 0 by decide)
        simp [natOfBytes, Nat.toUInt8, Nat.mod_eq_of_lt this]
      rw [this]
      simp only [List.length_cons, List.length_nil, Nat.zero_add, Nat.pow_one]
      omega

theorem natOfBytes_bytesOfNat (n : Nat) : natOfBytes (bytesOfNat n) = n :=
  natOfBytes_bytesOfNatAux (Nat.le_refl n)

theorem bytesOfNatAux_length {f n : Nat} (h : n ≤ f) :
    (n = 0 → bytesOfNatAux f n = []) ∧
    (n ≠ 0 → 256 ^ ((bytesOfNatAux f n).length - 1) ≤ n ∧ bytesOfNatAux f n ≠ []) := by
  induction f generalizing n with
  | zero =>
    have : n = 0 := by omega
    subst this
    exact ⟨fun _ => rfl, fun h => absurd rfl h⟩
  | succ f ih =>
    rw [bytesOfNatAux]
    constructor
    · intro h0; simp [h0]
    · intro h0
      rw [if_neg h0]
      refine ⟨?_, by simp⟩
      rw [List.length_append, List.length_singleton, Nat.add_sub_cancel]
      have := ih (n := n / 256) (by omega)
      by_cases hz : n / 256 = 0
      · rw [this.1 hz]; simp; omega
      · obtain ⟨h1, h2⟩ := this.2 hz
        have hl : 0 < (bytesOfNatAux f (n / 256)).length := List.length_pos_iff.2 h2
        obtain ⟨k, hk⟩ : ∃ k, (bytesOfNatAux f (n / 256)).length = k + 1 :=
          ⟨(bytesOfNatAux f (n / 256)).length - 1, by omega⟩
        rw [hk] at h1 ⊢
        rw [Nat.add_sub_cancel] at h1
        rw [Nat.pow_succ]
        omega

/-- The number of bytes of a number. -/
def byteLen (n : Nat) : Nat := (bytesOfNat n).length

theorem byteLen_le {n k : Nat} (h : n < 256 ^ k) : byteLen n ≤ k := by
  unfold byteLen
  by_cases h0 : n = 0
  · have := (bytesOfNatAux_length (Nat.le_refl n)).1 h0
    unfold bytesOfNat
    rw [this]; simp
  · obtain ⟨h1, h2⟩ := (bytesOfNatAux_length (Nat.le_refl n)).2 h0
    have h1' : 256 ^ ((bytesOfNat n).length - 1) ≤ n := h1
    have : 256 ^ ((bytesOfNat n).length - 1) < 256 ^ k := by omega
    have := (Nat.pow_lt_pow_iff_right (by decide : 1 < 256)).1 this
    omega

theorem byteLen_pos {n : Nat} (h : n ≠ 0) : 0 < byteLen n := by
  obtain ⟨_, h2⟩ := (bytesOfNatAux_length (Nat.le_refl n)).2 h
  exact List.length_pos_iff.2 h2

/-! ## Signatures -/

theorem parseSig_range {der : Bool} {sig : Bytes} {r s : Nat} (h : parseSig der sig = some (r, s)) :
    r ≠ 0 ∧ s ≠ 0 ∧ r < curveN ∧ s < curveN := by
  unfold parseSig at h
  split at h
  · simp at h
  split at h
  case h_2 => simp at h
  dsimp only at h
  split at h
  · simp at h
  split at h
  case h_2 => simp at h
  split at h
  · simp at h
  split at h
  · simp at h
  split at h
  case h_2 => simp at h
  split at h
  · simp at h
  split at h
  · simp at h
  split at h
  · simp at h
  split at h
  · simp at h
  rename_i hn
  simp only [Option.some.injEq, Prod.mk.injEq] at h
  obtain ⟨rfl, rfl⟩ := h
  simp only [not_or, Nat.not_le] at hn
  exact hn

theorem toUInt8_small {n : Nat} (h : n < 256) : n.toUInt8.toNat = n := by
  simp [Nat.toUInt8, Nat.mod_eq_of_lt h]

/-- Parsing what `strToDer` makes: the two halves. -/
theorem parseSig_strToDer {x : Bytes} (h2 : 2 ≤ x.length) (hl : x.length ≤ 64) :
    parseSig false (strToDer x) =
      (let r := natOfBytes (x.take (x.length / 2))
       let s := natOfBytes (x.drop (x.length / 2))
       if r = 0 ∨ s = 0 ∨ curveN ≤ r ∨ curveN ≤ s then none else some (r, s)) := by
  have hrb : (x.take (x.length / 2)).length = x.length / 2 := by rw [List.length_take]; omega
  have hsb : (x.drop (x.length / 2)).length = x.length - x.length / 2 := by rw [List.length_drop]
  generalize hr : x.take (x.length / 2) = rb at *
  generalize hs : x.drop (x.length / 2) = sb at *
  have e : strToDer x = 0x30 :: (4 + rb.length + sb.length).toUInt8 ::
      (0x02 :: rb.length.toUInt8 :: (rb ++ 0x02 :: sb.length.toUInt8 :: sb)) := by
    simp [strToDer, hr, hs]
  have t1 : ((4 + rb.length + sb.length).toUInt8 + 2).toNat = 6 + rb.length + sb.length := by
    rw [UInt8.toNat_add, toUInt8_small (by omega)]
    simp only [UInt8.reduceToNat]
    omega
  have t2 : rb.length.toUInt8.toNat = rb.length := toUInt8_small (by omega)
  have t3 : sb.length.toUInt8.toNat = sb.length := toUInt8_small (by omega)
  rw [e]
  unfold parseSig
  simp only [t1]
  rw [if_neg (by simp only [List.length_cons, List.length_append]; omega)]
  rw [if_neg (by simp only [List.length_cons, List.length_append]; omega)]
  rw [List.take_of_length_le (by simp only [List.length_cons, List.length_append]; omega)]
  simp only [t2]
  rw [if_neg (by simp only [List.length_cons, List.length_append]; omega)]
  simp only [Bool.false_and, Bool.false_eq_true, if_false]
  rw [List.drop_left' rfl, List.take_left' rfl]
  simp only [t3]
  rw [if_neg (by omega), if_neg (by simp)]

/-- **C43, partial.** Turning a DER signature into the text form and back gives the same two
numbers exactly if the second has as many bytes as the first, or one more. Missing from the
property: all other signatures, for which it is false. -/
theorem C43_round_trip_iff_partial {sig : Bytes} {r s : Nat} (h : parseSig true sig = some (r, s)) :
    (∃ t, derToStr sig = some t ∧ parseSig false (strToDer t) = some (r, s)) ↔
      byteLen s = byteLen r ∨ byteLen s = byteLen r + 1 := by
  obtain ⟨h1, h2, h3, h4⟩ := parseSig_range h
  have hN : curveN < 256 ^ 32 := by decide
  have lr := byteLen_le (n := r) (k := 32) (by omega)
  have ls := byteLen_le (n := s) (k := 32) (by omega)
  have pr := byteLen_pos h1
  have ps := byteLen_pos h2
  have hd : derToStr sig = some (bytesOfNat r ++ bytesOfNat s) := by simp [derToStr, h]
  have hlen : (bytesOfNat r ++ bytesOfNat s).length = byteLen r + byteLen s := by
    rw [List.length_append]; rfl
  have hp := parseSig_strToDer (x := bytesOfNat r ++ bytesOfNat s) (by omega) (by omega)
  constructor
  · intro ⟨t, ht, hpt⟩
    rw [hd] at ht
    have := Option.some.inj ht
    subst this
    rw [hp, hlen] at hpt
    dsimp only at hpt
    split at hpt
    · simp at hpt
    · simp only [Option.some.injEq, Prod.mk.injEq] at hpt
      obtain ⟨hr, _⟩ := hpt
      by_cases hc : (byteLen r + byteLen s) / 2 = byteLen r
      · omega
      exfalso
      by_cases hlt : (byteLen r + byteLen s) / 2 < byteLen r
      · -- the first half is a proper prefix of the first number
        generalize hk : (byteLen r + byteLen s) / 2 = k at *
        rw [List.take_append_of_le_length (by show k ≤ byteLen r; omega)] at hr
        have hsplit := natOfBytes_append ((bytesOfNat r).take k) ((bytesOfNat r).drop k)
        rw [List.take_append_drop, natOfBytes_bytesOfNat, hr, List.length_drop] at hsplit
        have hpow : 256 ≤ 256 ^ ((bytesOfNat r).length - k) := by
          have : 1 ≤ (bytesOfNat r).length - k := by
            have : (bytesOfNat r).length = byteLen r := rfl
            omega
          calc 256 = 256 ^ 1 := by simp
            _ ≤ _ := Nat.pow_le_pow_right (by decide) this
        have : r * 256 ≤ r * 256 ^ ((bytesOfNat r).length - k) := Nat.mul_le_mul_left _ hpow
        omega
      · -- the first half is longer than the first number
        generalize hk : (byteLen r + byteLen s) / 2 = k at *
        have hge : (bytesOfNat r).length ≤ k := by show byteLen r ≤ k; omega
        rw [List.take_append, List.take_of_length_le hge, natOfBytes_append,
          natOfBytes_bytesOfNat] at hr
        have hpow : 256 ≤ 256 ^ ((bytesOfNat s).take (k - (bytesOfNat r).length)).length := by
          have : 1 ≤ ((bytesOfNat s).take (k - (bytesOfNat r).length)).length := by
            rw [List.length_take]
            have : (bytesOfNat r).length = byteLen r := rfl
            have : (bytesOfNat s).length = byteLen s := rfl
            omega
          calc 256 = 256 ^ 1 := by simp
            _ ≤ _ := Nat.pow_le_pow_right (by decide) this
        have : r * 256 ≤ r * 256 ^ ((bytesOfNat s).take (k - (bytesOfNat r).length)).length :=
          Nat.mul_le_mul_left _ hpow
        omega
  · intro hc
    refine ⟨_, hd, ?_⟩
    rw [hp, hlen]
    have hk : (byteLen r + byteLen s) / 2 = byteLen r := by omega
    dsimp only
    have e1 : List.take (byteLen r) (bytesOfNat r ++ bytesOfNat s) = bytesOfNat r :=
      List.take_left' rfl
    have e2 : List.drop (byteLen r) (bytesOfNat r ++ bytesOfNat s) = bytesOfNat s :=
      List.drop_left' rfl
    rw [hk, e1, e2, natOfBytes_bytesOfNat, natOfBytes_bytesOfNat, if_neg (by omega)]

/-- **C43 is false**: a signature whose second number is short comes back with other numbers. -/
theorem C43_counterexample :
    ∃ sig t : Bytes, parseSig true sig = some (0x010203, 7) ∧ derToStr sig = some t ∧
      parseSig false (strToDer t) = some (0x0102, 0x0307) := by
  refine ⟨[0x30, 8, 2, 3, 1, 2, 3, 2, 1, 7], [1, 2, 3, 7], ?_, ?_, ?_⟩
  · decide
  · simp [derToStr, parseSig, canonicalPadding, natOfBytes, curveN, bytesOfNat, bytesOfNatAux]
  · decide

/-! ## Checksum addresses -/

/-- Lower case of ASCII letters. -/
def lower (b : Bytes) : Bytes := b.map fun c => if 65 ≤ c ∧ c ≤ 90 then c + 32 else c

set_option maxRecDepth 100000 in
theorem hexDigit_lower (v : UInt8) (h : v < 16) :
    (48 ≤ hexDigit v ∧ hexDigit v ≤ 57) ∨ (97 ≤ hexDigit v ∧ hexDigit v ≤ 102) := by
  have key : ∀ n : Fin 256, UInt8.ofFin n < 16 →
      (48 ≤ hexDigit (UInt8.ofFin n) ∧ hexDigit (UInt8.ofFin n) ≤ 57) ∨
      (97 ≤ hexDigit (UInt8.ofFin n) ∧ hexDigit (UInt8.ofFin n) ≤ 102) := by decide
  exact forall_byte (p := fun v => v < 16 →
      (48 ≤ hexDigit v ∧ hexDigit v ≤ 57) ∨ (97 ≤ hexDigit v ∧ hexDigit v ≤ 102)) key v h

set_option maxRecDepth 100000 in
theorem eip55Aux_lower {hash : Bytes} {i : Nat} {t r : Bytes}
    (ht : ∀ c ∈ t, (48 ≤ c ∧ c ≤ 57) ∨ (97 ≤ c ∧ c ≤ 102))
    (h : eip55Aux hash i t = .ok r) : lower r = t := by
  induction t generalizing i r with
  | nil =>
    simp only [eip55Aux, Res.ok.injEq] at h
    subst h; rfl
  | cons c t ih =>
    rw [eip55Aux] at h
    cases hg : hash[i / 2]? with
    | none => rw [hg] at h; simp at h
    | some x =>
      rw [hg] at h
      dsimp only at h
      cases hr : eip55Aux hash (i + 1) t with
      | panic => rw [hr] at h; simp [Res.bind] at h
      | err e => rw [hr] at h; simp [Res.bind] at h
      | ok r' =>
        rw [hr] at h
        simp only [Res.bind, Res.ok.injEq] at h
        subst h
        have hc := ht c (by simp)
        have ih' := ih (fun y hy => ht y (by simp [hy])) hr
        rw [lower, List.map_cons]
        have : lower r' = List.map (fun c => if 65 ≤ c ∧ c ≤ 90 then c + 32 else c) r' := rfl
        rw [← this, ih']
        congr 1
        have key : ∀ c : UInt8, ((48 ≤ c ∧ c ≤ 57) ∨ (97 ≤ c ∧ c ≤ 102)) →
            (if 65 ≤ c ∧ c ≤ 90 then c + 32 else c) = c ∧
            (57 < c → (if 65 ≤ c - 32 ∧ c - 32 ≤ 90 then c - 32 + 32 else c - 32) = c) := by
          intro c
          exact forall_byte (p := fun c => ((48 ≤ c ∧ c ≤ 57) ∨ (97 ≤ c ∧ c ≤ 102)) →
            (if 65 ≤ c ∧ c ≤ 90 then c + 32 else c) = c ∧
            (57 < c → (if 65 ≤ c - 32 ∧ c - 32 ≤ 90 then c - 32 + 32 else c - 32) = c))
            (by decide) c
        obtain ⟨k1, k2⟩ := key c hc
        generalize (if i % 2 = 0 then x / 16 else x % 16) = v
        by_cases hv : 57 < c ∧ 7 < v
        · rw [if_pos hv]; exact k2 hv.1
        · rw [if_neg hv]; exact k1

set_option maxRecDepth 100000 in
theorem hexEncode_digits (b : Bytes) :
    ∀ c ∈ hexEncode b, (48 ≤ c ∧ c ≤ 57) ∨ (97 ≤ c ∧ c ≤ 102) := by
  intro c hc
  simp only [hexEncode, List.mem_flatMap, List.mem_cons, List.not_mem_nil, or_false] at hc
  obtain ⟨x, _, hc | hc⟩ := hc
  · subst hc
    exact hexDigit_lower _ (forall_byte (p := fun x => x / 16 < 16) (by decide) x)
  · subst hc
    exact hexDigit_lower _ (forall_byte (p := fun x => x % 16 < 16) (by decide) x)

set_option maxRecDepth 100000 in
theorem hexDecode_hexEncode (b : Bytes) : hexDecode (hexEncode b) = some b := by
  induction b with
  | nil => rfl
  | cons x b ih =>
    have e : hexEncode (x :: b) = hexDigit (x / 16) :: hexDigit (x % 16) :: hexEncode b := by
      simp [hexEncode]
    have key : ∀ x : UInt8, hexVal (hexDigit (x / 16)) = some (x / 16) ∧
        hexVal (hexDigit (x % 16)) = some (x % 16) ∧ x / 16 * 16 + x % 16 = x := by
      intro x
      exact forall_byte (p := fun x => hexVal (hexDigit (x / 16)) = some (x / 16) ∧
        hexVal (hexDigit (x % 16)) = some (x % 16) ∧ x / 16 * 16 + x % 16 = x) (by decide) x
    obtain ⟨k1, k2, k3⟩ := key x
    rw [e, hexDecode, k1, k2, ih]
    simp only [k3]

/-- **C44.** For every hash with 32 bytes and every address of at most 32 bytes (ethereum has 20),
the checksum address exists, begins with `0x`, and the rest differs from the lower-case
hexadecimal text only in letter case. -/
theorem C44_case_only (P : Prims) (hk : ∀ x, (P.keccak x).length = 32) (a : Bytes)
    (ha : a.length ≤ 32) :
    ∃ r, eip55 P a = .ok (b! "0x" ++ r) ∧ lower r = hexEncode a ∧ hexDecode (lower r) = some a := by
  obtain ⟨r, hr⟩ := eip55Aux_ok (P.keccak (hexEncode a)) 0 (hexEncode a) (by
    rw [hexEncode_length, hk]; omega)
  have hl := eip55Aux_lower (hexEncode_digits a) hr
  refine ⟨r, ?_, hl, ?_⟩
  · unfold eip55
    simp only [hr, Res.bind]
  · rw [hl, hexDecode_hexEncode]

/-- **C44.** Two addresses are equal if and only if their checksum forms are. -/
theorem C44_injective (P : Prims) (hk : ∀ x, (P.keccak x).length = 32) (a b : Bytes)
    (ha : a.length ≤ 32) (hb : b.length ≤ 32) : eip55 P a = eip55 P b ↔ a = b := by
  constructor
  · intro h
    obtain ⟨r, h1, _, h2⟩ := C44_case_only P hk a ha
    obtain ⟨r', h1', _, h2'⟩ := C44_case_only P hk b hb
    rw [h1, h1', Res.ok.injEq, List.append_cancel_left_eq] at h
    subst h
    rw [h2] at h2'
    exact Option.some.inj h2'
  · intro h; rw [h]

/-! ## Wallet -/

/-- **C49.** The wallet initialises exactly if the environment file loads, the ledger and a
private key are given, the keys can be derived, and a given public key and address agree with
the derived ones; it then holds the derived ones. -/
theorem C49_init_iff (P : Prims) (pubOf : Bytes → Option Bytes) (env : Option (Bytes → Bytes))
    (w : Wallet) :
    walletInit P pubOf env = .ok w ↔
      ∃ e, env = some e ∧ w.ledgerId = e (b! "AEA_LEDGER_ID") ∧
        w.privateKey = e (b! "AEA_PRIVATE_KEY") ∧ w.privateKey ≠ [] ∧
        w.ledgerId = b! "fetchai" ∧
        pubOf w.privateKey = some w.publicKey ∧
        addressOf P w.ledgerId w.publicKey = .ok w.address ∧
        (e (b! "AEA_PUBLIC_KEY") = [] ∨ e (b! "AEA_PUBLIC_KEY") = w.publicKey) ∧
        (e (b! "AEA_ADDRESS") = [] ∨ e (b! "AEA_ADDRESS") = w.address) := by
  unfold walletInit
  cases env with
  | none => simp
  | some e =>
    simp only [Option.some.injEq, exists_eq_left']
    generalize e (b! "AEA_LEDGER_ID") = l
    generalize e (b! "AEA_PRIVATE_KEY") = k
    generalize e (b! "AEA_PUBLIC_KEY") = pk0
    generalize e (b! "AEA_ADDRESS") = a0
    obtain ⟨wl, wa, wp, wk⟩ := w
    dsimp only
    constructor
    · intro h
      split at h
      · simp at h
      rename_i hl
      split at h
      · simp at h
      rename_i hk
      split at h
      · simp at h
      rename_i pk hp
      split at h
      · simp at h
      rename_i hpk
      split at h
      · simp at h
      · simp at h
      rename_i a haddr
      split at h
      · simp at h
      rename_i ha
      simp only [Res.ok.injEq, Wallet.mk.injEq] at h
      obtain ⟨rfl, rfl, rfl, rfl⟩ := h
      unfold publicKeyOfLedger at hp
      split at hp
      · rename_i hf
        refine ⟨rfl, rfl, hk, hf, hp, haddr, ?_, ?_⟩
        · simp only [ne_eq, not_and, Decidable.not_not] at hpk
          by_cases h0 : pk0 = []
          · exact .inl h0
          · exact .inr (hpk h0).symm
        · simp only [ne_eq, not_and, Decidable.not_not] at ha
          by_cases h0 : a0 = []
          · exact .inl h0
          · exact .inr (ha h0).symm
      · simp at hp
    · rintro ⟨rfl, rfl, hk, hf, hp, haddr, hpk, ha⟩
      have hpl : publicKeyOfLedger pubOf wl wk = some wp := by
        unfold publicKeyOfLedger
        rw [if_pos hf, hp]
      have hl : wl ≠ [] := by rw [hf]; decide
      rw [if_neg hl, if_neg hk, hpl]
      dsimp only
      rw [if_neg (by
        rintro ⟨h1, h2⟩
        rcases hpk with h | h
        · exact h1 h
        · exact h2 h.symm), haddr]
      dsimp only
      rw [if_neg (by
        rintro ⟨h1, h2⟩
        rcases ha with h | h
        · exact h1 h
        · exact h2 h.symm)]

/-- **C49.** Wallet start-up never panics. -/
theorem C49_never_panics (P : Prims) (pubOf : Bytes → Option Bytes) (env : Option (Bytes → Bytes)) :
    walletInit P pubOf env ≠ .panic := by
  unfold walletInit
  cases env with
  | none => simp
  | some e =>
    dsimp only
    generalize e (b! "AEA_LEDGER_ID") = l
    split
    · simp
    split
    · simp
    split
    · simp
    rename_i pk hp
    split
    · simp
    have hf : l = b! "fetchai" := by
      unfold publicKeyOfLedger at hp
      split at hp
      · assumption
      · simp at hp
    have hn : addressOf P l pk ≠ .panic := by
      subst hf
      unfold addressOf
      rw [if_pos rfl]
      unfold cosmosAddress
      split
      · simp
      · split <;> simp
    split
    · rename_i h; exact absurd h hn
    · simp
    · split <;> simp

/-! ## Concrete cases -/

example : parseSig true [0x30, 6, 2, 1, 5, 2, 1, 7] = some (5, 7) := by decide
example : parseSig true [0x30, 7, 2, 2, 0, 5, 2, 1, 7] = none := by decide
example : hexDecode (b! "0aFf") = some [10, 255] := by decide

end Verif
