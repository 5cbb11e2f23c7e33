import Verif.Lemmas.Signature
import Verif.Model.LiteStart
import Verif.Props.PoR

/-!
# C43, C61, C62: signatures, addresses, and agents that start with them
-/

namespace Verif

/-! ## Strict DER -/

/-- **C43, partial.** The strict parser accepts exactly the DER form of two numbers below the group order,
and ignores what follows it. -/
theorem C43_strict_der_partial (sig : Bytes) (r s : Nat) :
    parseSig true sig = some (r, s) ↔
      (∃ d junk, sig = d ++ junk ∧ IsDerSig d r s) ∧ 0 < r ∧ r < curveN ∧ 0 < s ∧ s < curveN := by
  rw [parseSig_some_iff]
  constructor
  · rintro ⟨rb, sb, junk, l, lr, ls, rfl, hl, hl2, hlr, hls, hrb, hsb, hc, hr, hs, h1, h2, h3, h4⟩
    obtain ⟨c1, c2⟩ := hc rfl
    refine ⟨⟨[0x30, l, 0x02, lr] ++ rb ++ [0x02, ls] ++ sb, junk, by simp, rb, sb, l, lr, ls, rfl, hl, hl2,
      hlr, hls, ?_, ?_⟩, by omega, h3, by omega, h4⟩
    · rw [hr]; exact (canonicalPadding_iff hrb).1 c1
    · rw [hs]; exact (canonicalPadding_iff hsb).1 c2
  · rintro ⟨⟨_, junk, rfl, rb, sb, l, lr, ls, rfl, hl, hl2, hlr, hls, i1, i2⟩, h1, h2, h3, h4⟩
    have n1 : rb ≠ [] := by obtain ⟨x, xs, e, _⟩ := i1.notNegative; rw [e]; simp
    have n2 : sb ≠ [] := by obtain ⟨x, xs, e, _⟩ := i2.notNegative; rw [e]; simp
    have v1 : natOfBytes rb = r := by rw [← bigEndian_eq]; exact i1.value
    have v2 : natOfBytes sb = s := by rw [← bigEndian_eq]; exact i2.value
    refine ⟨rb, sb, junk, l, lr, ls, by simp, hl, hl2, hlr, hls, n1, n2, fun _ => ⟨?_, ?_⟩, v1.symm, v2.symm,
      by omega, by omega, h2, h4⟩
    · rw [canonicalPadding_iff n1, v1]; exact i1
    · rw [canonicalPadding_iff n2, v2]; exact i2

/-- **C43, partial.** The DER form of a signature is unique, so besides trailing bytes the strict parser
accepts one text per signature. -/
theorem C43_der_unique_partial {d d' : Bytes} {r s : Nat} (h : IsDerSig d r s) (h' : IsDerSig d' r s) :
    d = d' := by
  obtain ⟨rb, sb, l, lr, ls, rfl, hl, _, hlr, hls, i1, i2⟩ := h
  obtain ⟨rb', sb', l', lr', ls', rfl, hl', _, hlr', hls', i1', i2'⟩ := h'
  have e1 := i1.unique i1'
  have e2 := i2.unique i2'
  subst e1 e2
  have : l = l' := UInt8.toNat_inj.1 (by omega)
  have : lr = lr' := UInt8.toNat_inj.1 (by omega)
  have : ls = ls' := UInt8.toNat_inj.1 (by omega)
  simp_all

/-! ## C61: what is accepted as a signature, and what an address is -/

/-- **C61.** A fetchai or cosmos signature is accepted exactly if it is the base64 text of two numbers of
equal length (the second may be one byte longer) that verify for the hash of the message and the key.
Signatures up to 249 bytes; real ones have 64. -/
theorem C61_fetchai_signature (P : Prims) (message signature pubKey : Bytes)
    (hlen : ∀ sb, P.base64 signature = some sb → sb.length ≤ 249) :
    verifyFetchAI P message signature pubKey = .ok true ↔
      ∃ k a b, hexDecode pubKey = some k ∧ P.pubKeyOk k = true ∧ P.base64 signature = some (a ++ b) ∧
        (b.length = a.length ∨ b.length = a.length + 1) ∧
        0 < bigEndian a ∧ bigEndian a < curveN ∧ 0 < bigEndian b ∧ bigEndian b < curveN ∧
        P.ecdsa (P.sha256 message) (bigEndian a) (bigEndian b) k = true := by
  unfold verifyFetchAI
  cases hk : hexDecode pubKey with
  | none => simp
  | some k =>
    dsimp only
    cases hp : P.pubKeyOk k with
    | false => simp [hp]
    | true =>
      simp only [Bool.not_true, Bool.false_eq_true, if_false]
      cases hs : P.base64 signature with
      | none => simp
      | some sb =>
        dsimp only
        have hiff := parseSig_strToDer_long (hlen sb hs)
        constructor
        · intro h
          cases hx : parseSig false (strToDer sb) with
          | none => rw [hx] at h; simp at h
          | some p =>
            obtain ⟨r, s⟩ := p
            rw [hx] at h
            obtain ⟨e1, e2, h1, h2, h3, h4⟩ := (hiff r s).1 hx
            refine ⟨k, sb.take (sb.length / 2), sb.drop (sb.length / 2), rfl, hp,
              by rw [List.take_append_drop], ?_, ?_⟩
            · rw [List.length_take, List.length_drop]; omega
            · rw [← e1, ← e2]
              exact ⟨h1, h2, h3, h4, by simpa using h⟩
        · rintro ⟨k', a, b, hk', _, he, hab, h1, h2, h3, h4, hv⟩
          have hk' := Option.some.inj hk'
          have he := Option.some.inj he
          subst hk' he
          have hh : (a ++ b).length / 2 = a.length := by rw [List.length_append]; omega
          have := (hiff (bigEndian a) (bigEndian b)).2 ⟨by rw [hh, List.take_left' rfl],
            by rw [hh, List.drop_left' rfl], h1, h2, h3, h4⟩
          rw [this]
          simp [hv]

/-- **C61.** An ethereum signature is accepted exactly if it is the hexadecimal text, after `0x`, of bytes
whose recovery id is 27 or 28 and from which the address of the key is recovered; otherwise there is an
error or a crash, never the result `false`. The first two characters of the key are not looked at. -/
theorem C61_ethereum_signature (P : Prims) (message signature pubKey : Bytes) :
    (verifyEth P message signature pubKey = .ok true ↔
      ∃ c1 c2 key kb x t sb v addr, pubKey = c1 :: c2 :: key ∧ hexDecode key = some kb ∧
        12 ≤ (P.keccak kb).length ∧ eip55 P ((P.keccak kb).drop 12) = .ok addr ∧
        signature = 48 :: x :: t ∧ (x = 120 ∨ x = 88) ∧ hexDecode t = some sb ∧
        sb[64]? = some v ∧ (v = 27 ∨ v = 28) ∧ P.ethRecover message (sb.set 64 (v - 27)) = some addr) ∧
    verifyEth P message signature pubKey ≠ .ok false := by
  have haddr : ∀ a, ethAddress P pubKey = .ok a ↔ ∃ c1 c2 key kb, pubKey = c1 :: c2 :: key ∧
      hexDecode key = some kb ∧ 12 ≤ (P.keccak kb).length ∧ eip55 P ((P.keccak kb).drop 12) = .ok a := by
    intro a
    unfold ethAddress
    match pubKey with
    | [] => simp
    | [_] => simp
    | c1 :: c2 :: key =>
      simp only [List.length_cons, List.drop_succ_cons, List.drop_zero]
      rw [if_neg (by omega)]
      cases hk : hexDecode key with
      | none => simp [hk]
      | some kb =>
        dsimp only
        by_cases hl : (P.keccak kb).length < 12
        · rw [if_pos hl]
          simp only [List.cons.injEq]
          constructor
          · intro h; simp at h
          · rintro ⟨_, _, _, _, ⟨rfl, rfl, rfl⟩, h2, h3, _⟩
            rw [hk] at h2
            have := Option.some.inj h2
            subst this
            omega
        · rw [if_neg hl]
          constructor
          · intro h
            exact ⟨c1, c2, key, kb, rfl, hk, by omega, h⟩
          · rintro ⟨_, _, _, _, h1, h2, _, h4⟩
            simp only [List.cons.injEq] at h1
            obtain ⟨rfl, rfl, rfl⟩ := h1
            rw [hk] at h2
            have := Option.some.inj h2
            subst this
            exact h4
  have hrec : ∀ a, ethRecoverAddress P message signature = .ok a ↔ ∃ x t sb v,
      signature = 48 :: x :: t ∧ (x = 120 ∨ x = 88) ∧ hexDecode t = some sb ∧
        sb[64]? = some v ∧ (v = 27 ∨ v = 28) ∧ P.ethRecover message (sb.set 64 (v - 27)) = some a := by
    intro a
    have hhex : ∀ sb, hexutilDecode signature = some sb ↔ ∃ x t, signature = 48 :: x :: t ∧
        (x = 120 ∨ x = 88) ∧ hexDecode t = some sb := by
      intro sb
      unfold hexutilDecode
      split
      · rename_i x rest
        simp only [List.cons.injEq, true_and]
        split
        · rename_i hx
          constructor
          · intro h; exact ⟨x, rest, ⟨rfl, rfl⟩, hx, h⟩
          · rintro ⟨_, _, ⟨rfl, rfl⟩, _, h⟩; exact h
        · rename_i hx
          constructor
          · intro h; simp at h
          · rintro ⟨_, _, ⟨rfl, rfl⟩, h, _⟩; exact absurd h hx
      · rename_i hne
        constructor
        · intro h; simp at h
        · rintro ⟨x, t, h, _⟩; exact absurd h (hne x t)
    unfold ethRecoverAddress
    constructor
    · intro h
      cases hd : hexutilDecode signature with
      | none => rw [hd] at h; simp at h
      | some sb =>
        rw [hd] at h
        dsimp only at h
        obtain ⟨x, t, h1, h2, h3⟩ := (hhex sb).1 hd
        cases hv : sb[64]? with
        | none => rw [hv] at h; simp at h
        | some v =>
          rw [hv] at h
          dsimp only at h
          split at h
          · simp at h
          · rename_i hn
            cases hr : P.ethRecover message (sb.set 64 (v - 27)) with
            | none => rw [hr] at h; simp at h
            | some a' =>
              rw [hr] at h
              simp only [Res.ok.injEq] at h
              subst h
              refine ⟨x, t, sb, v, h1, h2, h3, hv, ?_, hr⟩
              by_cases h27 : v = 27
              · exact .inl h27
              · refine .inr ?_
                simp only [ne_eq, not_and, Decidable.not_not] at hn
                exact hn h27
    · rintro ⟨x, t, sb, v, h1, h2, h3, hv, h27, hr⟩
      rw [(hhex sb).2 ⟨x, t, h1, h2, h3⟩]
      dsimp only
      rw [hv]
      dsimp only
      rw [if_neg (by rcases h27 with rfl | rfl <;> simp), hr]
  have hcase : verifyEth P message signature pubKey = .ok true ↔
      ∃ a, ethAddress P pubKey = .ok a ∧ ethRecoverAddress P message signature = .ok a := by
    unfold verifyEth
    cases h1 : ethAddress P pubKey with
    | err e => simp [Res.bind]
    | panic => simp [Res.bind]
    | ok a =>
      cases h2 : ethRecoverAddress P message signature with
      | err e => simp [Res.bind]
      | panic => simp [Res.bind]
      | ok b =>
        simp only [Res.bind, Res.ok.injEq]
        by_cases hab : b = a
        · subst hab; simp
        · rw [if_pos hab]
          simp only [reduceCtorEq, false_iff, not_exists, not_and]
          rintro x rfl; exact hab
  constructor
  · rw [hcase]
    constructor
    · rintro ⟨a, h1, h2⟩
      obtain ⟨c1, c2, key, kb, x1, x2, x3, x4⟩ := (haddr a).1 h1
      obtain ⟨x, t, sb, v, y1, y2, y3, y4, y5, y6⟩ := (hrec a).1 h2
      exact ⟨c1, c2, key, kb, x, t, sb, v, a, x1, x2, x3, x4, y1, y2, y3, y4, y5, y6⟩
    · rintro ⟨c1, c2, key, kb, x, t, sb, v, a, x1, x2, x3, x4, y1, y2, y3, y4, y5, y6⟩
      exact ⟨a, (haddr a).2 ⟨c1, c2, key, kb, x1, x2, x3, x4⟩, (hrec a).2 ⟨x, t, sb, v, y1, y2, y3, y4, y5, y6⟩⟩
  · unfold verifyEth
    cases ethAddress P pubKey with
    | err e => simp [Res.bind]
    | panic => simp [Res.bind]
    | ok a =>
      cases ethRecoverAddress P message signature with
      | err e => simp [Res.bind]
      | panic => simp [Res.bind]
      | ok b =>
        simp only [Res.bind]
        split <;> simp

/-- **C61.** The address of a key on each ledger. -/
theorem C61_addresses (P : Prims) (ledger pubKey addr : Bytes) :
    addressOf P ledger pubKey = .ok addr ↔
      (∃ k, hexDecode pubKey = some k ∧
        ((ledger = b! "fetchai" ∧ P.bech32 (b! "fetch") (P.ripemd160 (P.sha256 k)) = some addr) ∨
         (ledger = b! "cosmos" ∧ P.bech32 (b! "cosmos") (P.ripemd160 (P.sha256 k)) = some addr))) ∨
      (ledger = b! "ethereum" ∧ ∃ c1 c2 key k, pubKey = c1 :: c2 :: key ∧ hexDecode key = some k ∧
        12 ≤ (P.keccak k).length ∧ eip55 P ((P.keccak k).drop 12) = .ok addr) := by
  have hcos : ∀ pre, cosmosAddress P pre pubKey = .ok addr ↔
      ∃ k, hexDecode pubKey = some k ∧ P.bech32 pre (P.ripemd160 (P.sha256 k)) = some addr := by
    intro pre
    unfold cosmosAddress
    cases hexDecode pubKey with
    | none => simp
    | some k =>
      dsimp only
      cases hb : P.bech32 pre (P.ripemd160 (P.sha256 k)) <;> simp [hb]
  have n1 : (b! "fetchai") ≠ b! "cosmos" := by decide
  have n2 : (b! "fetchai") ≠ b! "ethereum" := by decide
  have n3 : (b! "cosmos") ≠ b! "ethereum" := by decide
  unfold addressOf
  split
  · rename_i h
    subst h
    rw [hcos]
    constructor
    · rintro ⟨k, h1, h2⟩; exact .inl ⟨k, h1, .inl ⟨rfl, h2⟩⟩
    · rintro (⟨k, h1, ⟨_, h2⟩ | ⟨h, _⟩⟩ | ⟨h, _⟩)
      · exact ⟨k, h1, h2⟩
      · exact absurd h n1
      · exact absurd h n2
  · rename_i hf
    split
    · rename_i h
      subst h
      rw [hcos]
      constructor
      · rintro ⟨k, h1, h2⟩; exact .inl ⟨k, h1, .inr ⟨rfl, h2⟩⟩
      · rintro (⟨k, h1, ⟨h, _⟩ | ⟨_, h2⟩⟩ | ⟨h, _⟩)
        · exact absurd h hf
        · exact ⟨k, h1, h2⟩
        · exact absurd h n3
    · rename_i hc
      split
      · rename_i h
        subst h
        unfold ethAddress
        match pubKey with
        | [] => simp [hf, hc]
        | [_] => simp [hf, hc]
        | c1 :: c2 :: key =>
          simp only [List.length_cons, List.drop_succ_cons, List.drop_zero]
          rw [if_neg (by omega)]
          constructor
          · intro h'
            cases hk : hexDecode key with
            | none => rw [hk] at h'; simp at h'
            | some k =>
              rw [hk] at h'
              dsimp only at h'
              split at h'
              · simp at h'
              · exact .inr ⟨trivial, c1, c2, key, k, rfl, hk, by omega, h'⟩
          · rintro (⟨_, _, ⟨h, _⟩ | ⟨h, _⟩⟩ | ⟨_, _, _, _, k, h1, h2, h3, h4⟩)
            · exact absurd h hf
            · exact absurd h hc
            · simp only [List.cons.injEq] at h1
              obtain ⟨rfl, rfl, rfl⟩ := h1
              rw [h2]
              dsimp only
              rw [if_neg (by omega)]
              exact h4
      · rename_i he
        simp [hf, hc, he]

/-- The `i`-th half byte of a hash. -/
def nibble (hash : Bytes) (i : Nat) : Option UInt8 :=
  (hash[i / 2]?).map fun h => if i % 2 = 0 then h / 16 else h % 16

/-- **C61.** The checksum of an ethereum address (EIP 55): the hexadecimal digits after `0x`, with a letter
in upper case exactly if the half byte of the hash of the digits at its place is 8 or more. -/
theorem C61_checksum (P : Prims) (address t : Bytes) :
    eip55 P address = .ok t ↔ ∃ ds, t = b! "0x" ++ ds ∧ ds.length = (hexEncode address).length ∧
      ∀ i c, (hexEncode address)[i]? = some c → ∃ v, nibble (P.keccak (hexEncode address)) i = some v ∧
        ds[i]? = some (if 57 < c ∧ 8 ≤ v then c - 32 else c) := by
  have aux : ∀ (hash text : Bytes) (n : Nat) (ds : Bytes), eip55Aux hash n text = .ok ds ↔
      ds.length = text.length ∧ ∀ i c, text[i]? = some c → ∃ v, nibble hash (n + i) = some v ∧
        ds[i]? = some (if 57 < c ∧ 8 ≤ v then c - 32 else c) := by
    intro hash text
    induction text with
    | nil => intro n ds; cases ds <;> simp [eip55Aux]
    | cons c rest ih =>
      intro n ds
      rw [eip55Aux]
      cases hh : hash[n / 2]? with
      | none =>
        simp only [reduceCtorEq, false_iff, not_and]
        intro _ hall
        obtain ⟨v, hv, _⟩ := hall 0 c rfl
        simp [nibble, hh] at hv
      | some h =>
        dsimp only
        have hn : nibble hash n = some (if n % 2 = 0 then h / 16 else h % 16) := by simp [nibble, hh]
        generalize hv : (if n % 2 = 0 then h / 16 else h % 16) = v at hn
        have h78 : (if 57 < c ∧ 7 < v then c - 32 else c) = if 57 < c ∧ 8 ≤ v then c - 32 else c := by
          have : 7 < v ↔ 8 ≤ v := by
            simp only [UInt8.lt_iff_toNat_lt, UInt8.le_iff_toNat_le]
            exact Iff.rfl
          simp only [this]
        rw [h78]
        constructor
        · intro hx
          cases hr : eip55Aux hash (n + 1) rest with
          | err e => rw [hr] at hx; simp [Res.bind] at hx
          | panic => rw [hr] at hx; simp [Res.bind] at hx
          | ok r =>
            rw [hr] at hx
            simp only [Res.bind, Res.ok.injEq] at hx
            subst hx
            obtain ⟨hlen, hall⟩ := (ih (n + 1) r).1 hr
            refine ⟨by simp [hlen], ?_⟩
            intro i c' hc'
            cases i with
            | zero =>
              simp only [List.getElem?_cons_zero, Option.some.injEq] at hc'
              subst hc'
              exact ⟨v, hn, rfl⟩
            | succ i =>
              have := hall i c' (by simpa using hc')
              rw [Nat.add_assoc, Nat.add_comm 1 i] at this
              simpa using this
        · rintro ⟨hlen, hall⟩
          cases ds with
          | nil => simp at hlen
          | cons d ds =>
            have h0 := hall 0 c rfl
            obtain ⟨v', e1, e2⟩ := h0
            rw [Nat.add_zero, hn] at e1
            have e1 := Option.some.inj e1
            subst e1
            simp only [List.getElem?_cons_zero, Option.some.injEq] at e2
            have := (ih (n + 1) ds).2 ⟨by simpa using hlen, fun i c' hc' => by
              have := hall (i + 1) c' (by simpa using hc')
              rw [Nat.add_assoc, Nat.add_comm 1 i]
              simpa using this⟩
            rw [this, e2]
            rfl
  unfold eip55
  dsimp only
  constructor
  · intro h
    cases hr : eip55Aux (P.keccak (hexEncode address)) 0 (hexEncode address) with
    | err e => rw [hr] at h; simp [Res.bind] at h
    | panic => rw [hr] at h; simp [Res.bind] at h
    | ok r =>
      rw [hr] at h
      simp only [Res.bind, Res.ok.injEq] at h
      obtain ⟨h1, h2⟩ := (aux _ _ _ _).1 hr
      exact ⟨r, h.symm, h1, by simpa using h2⟩
  · rintro ⟨ds, rfl, h1, h2⟩
    rw [(aux _ _ _ ds).2 ⟨h1, by simpa using h2⟩]
    rfl

/-- **C61.** Which check a ledger uses. -/
theorem C61_ledgers (P : Prims) (ledger message signature pubKey : Bytes) :
    verifyLedger P ledger message signature pubKey = .ok true ↔
      ((ledger = b! "fetchai" ∨ ledger = b! "cosmos") ∧ verifyFetchAI P message signature pubKey = .ok true) ∨
      (ledger = b! "ethereum" ∧ verifyEth P message signature pubKey = .ok true) := by
  have n2 : (b! "fetchai") ≠ b! "ethereum" := by decide
  have n3 : (b! "cosmos") ≠ b! "ethereum" := by decide
  unfold verifyLedger
  split
  · rename_i h; subst h; simp
  · rename_i hf
    split
    · rename_i h; subst h; simp
    · rename_i hc
      split
      · rename_i h; subst h; simp
      · rename_i he; simp [hf, hc, he]

/-! ## C62: an agent that starts -/

/-- Numbers whose text form is read back: C43. -/
def Balanced (r s : Nat) : Prop := byteLen s = byteLen r ∨ byteLen s = byteLen r + 1

/-- **C62, partial.** A signature made by `SignFetchAI` is accepted if the two numbers of the DER signature
are balanced. Missing: unbalanced ones. `hsign` says that the library signs correctly. -/
theorem C62_signature_accepted_partial (P : Prims) (sign : Bytes → Bytes → Option Bytes)
    (enc : Bytes → Bytes) (henc : ∀ x, P.base64 (enc x) = some x) {priv pubKey k message der text : Bytes}
    {r s : Nat} (hk : hexDecode pubKey = some k) (hok : P.pubKeyOk k = true)
    (hsign : sign priv message = some der) (hder : parseSig true der = some (r, s))
    (hver : P.ecdsa (P.sha256 message) r s k = true)
    (ht : signFetchAI sign enc message priv = some text) (hb : Balanced r s) :
    verifyFetchAI P message text pubKey = .ok true := by
  obtain ⟨t, h1, h2⟩ := (C43_round_trip_iff_partial hder).2 hb
  have : text = enc t := by
    simp only [signFetchAI, hsign, Option.bind_some, h1, Option.map_some, Option.some.injEq] at ht
    exact ht.symm
  subst this
  unfold verifyFetchAI
  rw [hk]
  dsimp only
  rw [hok, henc]
  simp only [Bool.not_true, Bool.false_eq_true, if_false]
  rw [h2]
  simp [hver]

/-- **C62, partial.** An unbalanced signature is checked with other numbers than the ones that were signed
with, or refused at once. -/
theorem C62_unbalanced_partial (P : Prims) (sign : Bytes → Bytes → Option Bytes)
    (enc : Bytes → Bytes) (henc : ∀ x, P.base64 (enc x) = some x) {priv pubKey message der text : Bytes}
    {r s : Nat} (hsign : sign priv message = some der) (hder : parseSig true der = some (r, s))
    (ht : signFetchAI sign enc message priv = some text) (hb : ¬ Balanced r s)
    (hacc : verifyFetchAI P message text pubKey = .ok true) :
    ∃ k r' s', hexDecode pubKey = some k ∧ (r', s') ≠ (r, s) ∧
      P.ecdsa (P.sha256 message) r' s' k = true := by
  have hd : derToStr der = some (bytesOfNat r ++ bytesOfNat s) := by simp [derToStr, hder]
  have htx : text = enc (bytesOfNat r ++ bytesOfNat s) := by
    simp only [signFetchAI, hsign, Option.bind_some, hd, Option.map_some, Option.some.injEq] at ht
    exact ht.symm
  subst htx
  unfold verifyFetchAI at hacc
  cases hk : hexDecode pubKey with
  | none => rw [hk] at hacc; simp at hacc
  | some k =>
    rw [hk] at hacc
    dsimp only at hacc
    split at hacc
    · simp at hacc
    rw [henc] at hacc
    dsimp only at hacc
    cases hp : parseSig false (strToDer (bytesOfNat r ++ bytesOfNat s)) with
    | none => rw [hp] at hacc; simp at hacc
    | some p =>
      obtain ⟨r', s'⟩ := p
      rw [hp] at hacc
      refine ⟨k, r', s', rfl, ?_, by simpa using hacc⟩
      rintro ⟨⟩
      exact hb ((C43_round_trip_iff_partial hder).1 ⟨_, hd, hp⟩)

/-- The record that an agent makes for a peer. -/
def recordFor (w : Wallet) (peerKey signature service : Bytes) : AgentRecord where
  serviceId := service
  ledgerId := w.ledgerId
  address := w.address
  publicKey := w.publicKey
  peerPublicKey := peerKey
  signature := signature
  notBefore := []
  notAfter := []

/-- **C62, partial.** An agent whose wallet has started can prove to a peer that it represents it, with a
record signed with its key, if the signature is balanced. -/
theorem C62_wallet_proves_partial (P : Prims) (pubOf : Bytes → Option Bytes) (env : Option (Bytes → Bytes))
    (sign : Bytes → Bytes → Option Bytes) (enc : Bytes → Bytes) (henc : ∀ x, P.base64 (enc x) = some x)
    {w : Wallet} (hw : walletInit P pubOf env = .ok w) {k peerKey der text service : Bytes} {r s : Nat}
    (hk : hexDecode w.publicKey = some k) (hok : P.pubKeyOk k = true)
    (hsign : sign w.privateKey peerKey = some der) (hder : parseSig true der = some (r, s))
    (hver : P.ecdsa (P.sha256 peerKey) r s k = true)
    (ht : signFetchAI sign enc peerKey w.privateKey = some text) (hb : Balanced r s) :
    isValidPoR (addressOf P) (verifyLedger P) (recordFor w peerKey text service) w.address peerKey =
      .ok .success := by
  obtain ⟨e, _, _, _, _, hl, _, ha, _⟩ := (C49_init_iff P pubOf env w).1 hw
  rw [C24_accept_iff]
  refine ⟨rfl, .inl hl, rfl, ha, ?_⟩
  rw [C61_ledgers]
  exact .inl ⟨.inl hl, C62_signature_accepted_partial P sign enc henc hk hok hsign hder hver ht hb⟩

/-- **C62, partial.** The agent starts exactly if the wallet does, the signature of the record is valid for the
peer key and the public key of the environment, and the port is a number; its record is the one of the
environment. -/
theorem C62_agent_starts_iff_partial (P : Prims) (pubOf : Bytes → Option Bytes) (env : Option (Bytes → Bytes))
    (w : Wallet) (c : LiteConfig) :
    agentInit P pubOf env = .ok (w, c) ↔
      ∃ e, env = some e ∧ walletInit P pubOf (some e) = .ok w ∧
        c.record = ⟨e (b! "AEA_P2P_POR_SERVICE_ID"), e (b! "AEA_P2P_POR_LEDGER_ID"), e (b! "AEA_ADDRESS"),
          e (b! "AEA_PUBLIC_KEY"), e (b! "AEA_P2P_POR_PEER_PUBKEY"), e (b! "AEA_P2P_POR_SIGNATURE"), [], []⟩ ∧
        verifyLedger P c.record.ledgerId c.record.peerPublicKey c.record.signature c.record.publicKey =
          .ok true ∧
        c.host = e (b! "AEA_P2P_DELEGATE_HOST") ∧
        parsePort (e (b! "AEA_P2P_DELEGATE_PORT")) = some c.port := by
  unfold agentInit
  cases env with
  | none => simp [walletInit]
  | some e =>
    cases hw : walletInit P pubOf (some e) with
    | panic => simp [hw]
    | err x => simp [hw]
    | ok w' =>
      simp only [liteInit]
      cases hv : verifyLedger P (liteRecord e).ledgerId (liteRecord e).peerPublicKey (liteRecord e).signature
          (liteRecord e).publicKey with
      | panic =>
        simp only [reduceCtorEq, Option.some.injEq, exists_eq_left', false_iff]
        rintro ⟨_, h1, h2, _⟩
        rw [h1] at h2
        exact absurd (h2.symm.trans hv) (by simp)
      | err x =>
        simp only [reduceCtorEq, Option.some.injEq, exists_eq_left', false_iff]
        rintro ⟨_, h1, h2, _⟩
        rw [h1] at h2
        exact absurd (h2.symm.trans hv) (by simp)
      | ok b =>
        cases b with
        | false =>
          simp only [reduceCtorEq, Option.some.injEq, exists_eq_left', false_iff]
          rintro ⟨_, h1, h2, _⟩
          rw [h1] at h2
          exact absurd (h2.symm.trans hv) (by simp)
        | true =>
          cases hp : parsePort (e (b! "AEA_P2P_DELEGATE_PORT")) with
          | none => simp [hp]
          | some port =>
            simp only [Res.ok.injEq, Prod.mk.injEq, Option.some.injEq, exists_eq_left', hw, hp]
            constructor
            · rintro ⟨rfl, rfl⟩
              exact ⟨rfl, rfl, hv, rfl, rfl⟩
            · rintro ⟨rfl, h1, h2, h3, h4⟩
              refine ⟨rfl, ?_⟩
              obtain ⟨cr, ch, cp⟩ := c
              dsimp only at h1 h3 h4
              rw [h1, h3, h4]
              rfl

/-- **C62, partial.** The record of an agent that has started is accepted by the peer it names exactly if the
address in the environment is the address of the key on the ledger of the record. So it is accepted, and the
agent is reachable at the address of its wallet, if the environment gives the address and the public key
and the ledger of the record is the one of the wallet. -/
theorem C62_started_accepted_partial (P : Prims) (pubOf : Bytes → Option Bytes) (e : Bytes → Bytes)
    {w : Wallet} {c : LiteConfig} (h : agentInit P pubOf (some e) = .ok (w, c)) :
    (isValidPoR (addressOf P) (verifyLedger P) c.record c.record.address c.record.peerPublicKey =
        .ok .success ↔
      addressOf P (e (b! "AEA_P2P_POR_LEDGER_ID")) (e (b! "AEA_PUBLIC_KEY")) =
        .ok (e (b! "AEA_ADDRESS"))) ∧
    (e (b! "AEA_ADDRESS") ≠ [] → e (b! "AEA_PUBLIC_KEY") ≠ [] →
      e (b! "AEA_P2P_POR_LEDGER_ID") = e (b! "AEA_LEDGER_ID") →
      isValidPoR (addressOf P) (verifyLedger P) c.record c.record.address c.record.peerPublicKey =
        .ok .success ∧ c.record.address = w.address) := by
  obtain ⟨e', he, hw, hr, hv, _, _⟩ := (C62_agent_starts_iff_partial P pubOf _ w c).1 h
  have he := Option.some.inj he
  subst he
  have hiff : isValidPoR (addressOf P) (verifyLedger P) c.record c.record.address c.record.peerPublicKey =
        .ok .success ↔
      addressOf P (e (b! "AEA_P2P_POR_LEDGER_ID")) (e (b! "AEA_PUBLIC_KEY")) =
        .ok (e (b! "AEA_ADDRESS")) := by
    rw [C24_accept_iff]
    constructor
    · rintro ⟨_, _, _, h4, _⟩
      rw [hr] at h4
      exact h4
    · intro ha
      refine ⟨rfl, ?_, rfl, ?_, hv⟩
      · rw [C61_addresses] at ha
        rw [hr]
        rcases ha with ⟨_, _, ⟨hl, _⟩ | ⟨hl, _⟩⟩ | ⟨hl, _⟩
        · exact .inl hl
        · exact .inr (.inl hl)
        · exact .inr (.inr hl)
      · rw [hr]; exact ha
  refine ⟨hiff, ?_⟩
  intro h1 h2 h3
  obtain ⟨e', he, hl, _, _, _, _, ha, hpk, had⟩ := (C49_init_iff P pubOf _ w).1 hw
  have he := Option.some.inj he
  subst he
  have hpk := hpk.resolve_left h2
  have had := had.resolve_left h1
  refine ⟨hiff.2 ?_, ?_⟩
  · rw [h3, hpk, had, ← hl]
    exact ha
  · rw [hr]; exact had

/-- **C62 is false**: without `AEA_ADDRESS` the agent starts, since the wallet derives the address; but the
record has no address and no peer accepts it, whatever its key. Stated for every such environment; addresses
are never empty. -/
theorem C62_no_address (P : Prims) (hne : ∀ pre h a, P.bech32 pre h = some a → a ≠ [])
    (pubOf : Bytes → Option Bytes) (e : Bytes → Bytes) {w : Wallet} {c : LiteConfig}
    (h : agentInit P pubOf (some e) = .ok (w, c)) (hno : e (b! "AEA_ADDRESS") = []) (k : Bytes) :
    isValidPoR (addressOf P) (verifyLedger P) c.record c.record.address k ≠ .ok .success := by
  obtain ⟨e', he, hw, hr, hv, _, _⟩ := (C62_agent_starts_iff_partial P pubOf _ w c).1 h
  have he := Option.some.inj he
  subst he
  rw [Ne, C24_accept_iff]
  rintro ⟨_, _, _, h4, _⟩
  rw [hr] at h4
  dsimp only at h4
  rw [hno, C61_addresses] at h4
  rcases h4 with ⟨_, _, ⟨_, hb⟩ | ⟨_, hb⟩⟩ | ⟨_, _, _, _, k', _, _, _, hb⟩
  · exact hne _ _ _ hb rfl
  · exact hne _ _ _ hb rfl
  · unfold eip55 at hb
    dsimp only at hb
    cases hx : eip55Aux (P.keccak (hexEncode ((P.keccak k').drop 12))) 0
        (hexEncode ((P.keccak k').drop 12)) with
    | err x => rw [hx] at hb; simp [Res.bind] at hb
    | panic => rw [hx] at hb; simp [Res.bind] at hb
    | ok x => rw [hx] at hb; simp [Res.bind] at hb

namespace LedgerDemo

/-- Toy primitives: hashes are the identity, a signature verifies if the first number is 258 and the second
515, and addresses show their prefix. -/
def P : Prims where
  sha256 := id
  ripemd160 := id
  keccak := fun _ => List.replicate 32 0
  bech32 := fun pre h => some (pre ++ b! "1" ++ h)
  base64 := some
  pubKeyOk := fun k => k.length == 2
  ecdsa := fun _ r s _ => r == 258 && s == 515
  ethRecover := fun _ _ => none

/-- A complete environment except for the given variable. -/
def env (without : Bytes) (v : Bytes) : Bytes :=
  if v = without then []
  else if v = b! "AEA_LEDGER_ID" then b! "fetchai"
  else if v = b! "AEA_ADDRESS" then b! "fetch1" ++ [2, 3]
  else if v = b! "AEA_PUBLIC_KEY" then b! "0203"
  else if v = b! "AEA_PRIVATE_KEY" then b! "05"
  else if v = b! "AEA_P2P_POR_LEDGER_ID" then b! "fetchai"
  else if v = b! "AEA_P2P_POR_PEER_PUBKEY" then b! "pk"
  else if v = b! "AEA_P2P_POR_SIGNATURE" then [1, 2, 2, 3]
  else if v = b! "AEA_P2P_DELEGATE_PORT" then b! "11000"
  else []

/-- The public key of the key `05`. -/
def pubOf (_ : Bytes) : Option Bytes := some (b! "0203")

/-- Whether the agent starts, and whether its record is accepted. -/
def outcome (without : Bytes) : Option (Bytes × Res Unit StatusCode) :=
  match agentInit P pubOf (some (env without)) with
  | .ok (w, c) => some (w.address, isValidPoR (addressOf P) (verifyLedger P) c.record c.record.address
      c.record.peerPublicKey)
  | _ => none

set_option maxRecDepth 100000 in
example : outcome (b! "OTHER") = some (b! "fetch1" ++ [2, 3], .ok .success) := by decide
set_option maxRecDepth 100000 in
example : outcome (b! "AEA_PUBLIC_KEY") = none := by decide
set_option maxRecDepth 100000 in
/-- **C62 is false**: the environment lacks only the address. -/
theorem _root_.Verif.C62_counterexample :
    outcome (b! "AEA_ADDRESS") = some (b! "fetch1" ++ [2, 3], .ok .errorWrongAgentAddress) := by decide

set_option maxRecDepth 100000 in
/-- **C62 is false** also for the signature: a correct signature with a short second number is refused. -/
theorem _root_.Verif.C62_unbalanced_counterexample :
    let P' : Prims := { P with ecdsa := fun _ r s _ => r == 66051 && s == 7 }
    let der : Bytes := [0x30, 8, 2, 3, 1, 2, 3, 2, 1, 7]
    parseSig true der = some (66051, 7) ∧ P'.ecdsa (b! "pk") 66051 7 [2, 3] = true ∧
      signFetchAI (fun _ _ => some der) id (b! "pk") (b! "05") = some [1, 2, 3, 7] ∧
      verifyFetchAI P' (b! "pk") [1, 2, 3, 7] (b! "0203") = .ok false := by
  refine ⟨by decide, by decide, ?_, by decide⟩
  simp [signFetchAI, derToStr, parseSig, canonicalPadding, natOfBytes, curveN, bytesOfNat, bytesOfNatAux]

/-- Addresses on the three ledgers, and on none. -/
example : addressOf P (b! "fetchai") (b! "0203") = .ok (b! "fetch1" ++ [2, 3]) ∧
    addressOf P (b! "cosmos") (b! "0203") = .ok (b! "cosmos1" ++ [2, 3]) ∧
    addressOf P (b! "ethereum") (b! "0xab") = .ok (b! "0x" ++ List.replicate 40 48) ∧
    addressOf P (b! "ethereum") (b! "0") = .panic ∧ addressOf P (b! "bitcoin") (b! "0203") = .err () := by decide

/-- The letters of a checksum address are capitals where the hash says so. -/
example : eip55 { P with keccak := fun _ => 0x80 :: List.replicate 31 0 } [0xab, 0xcd] = .ok (b! "0xAbcd") := by
  decide

/-- A signature with a short text crashes the check on Ethereum; a wrong recovery byte is refused. -/
example : verifyLedger P (b! "ethereum") (b! "pk") (b! "0xab") (b! "0xab") = .panic ∧
    verifyLedger P (b! "ethereum") (b! "pk") (b! "0x" ++ List.replicate 130 48) (b! "0xab") = .err () := by
  decide +kernel

set_option maxRecDepth 100000 in
/-- A port that is no number crashes the agent. -/
example : liteInit P (some fun v => if v = b! "AEA_P2P_DELEGATE_PORT" then b! "+1" else env [] v) = .panic := by
  decide

end LedgerDemo

end Verif
