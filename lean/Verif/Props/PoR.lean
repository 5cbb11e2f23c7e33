import Verif.Model.PoR

/-!
# C24, C25: proof of representation
-/

namespace Verif

/-- The code of the first check that does not hold, `success` if all do. -/
def firstFailure : List (Bool × StatusCode) → StatusCode
  | [] => .success
  | (holds, code) :: rest => if holds then firstFailure rest else code

/-- **C24.** Accepted exactly if all five checks hold, whatever the two primitives do. -/
theorem C24_accept_iff (addr : Bytes → Bytes → Res Unit Bytes)
    (verify : Bytes → Bytes → Bytes → Bytes → Res Unit Bool) (r : AgentRecord) (a k : Bytes) :
    isValidPoR addr verify r a k = .ok .success ↔
      r.address = a ∧
      (r.ledgerId = b! "fetchai" ∨ r.ledgerId = b! "cosmos" ∨ r.ledgerId = b! "ethereum") ∧
      r.peerPublicKey = k ∧
      addr r.ledgerId r.publicKey = .ok a ∧
      verify r.ledgerId k r.signature r.publicKey = .ok true := by
  have hsup : supportedLedgers.contains r.ledgerId = true ↔
      (r.ledgerId = b! "fetchai" ∨ r.ledgerId = b! "cosmos" ∨ r.ledgerId = b! "ethereum") := by
    simp [supportedLedgers]
  unfold isValidPoR
  by_cases h1 : r.address = a
  · by_cases h2 : supportedLedgers.contains r.ledgerId = true
    · by_cases h3 : r.peerPublicKey = k
      · rw [if_neg (by simpa using h1), if_neg (by rw [h2]; decide), if_neg (by simpa using h3)]
        have h2' := hsup.1 h2
        subst h1 h3
        cases h4 : addr r.ledgerId r.publicKey with
        | panic => simp
        | err e => simp
        | ok x =>
          by_cases h5 : x = r.address
          · subst h5
            cases h6 : verify r.ledgerId r.peerPublicKey r.signature r.publicKey with
            | panic => simp
            | err e => simp
            | ok b => cases b <;> simp [h2']
          · simp [h5]
      · rw [if_neg (by simpa using h1), if_neg (by rw [h2]; decide), if_pos (by simpa using h3)]
        simp [h3]
    · rw [if_neg (by simpa using h1), if_pos (by simpa using h2)]
      have h2' : ¬ _ := fun h => h2 (hsup.2 h)
      simp only [Res.ok.injEq, reduceCtorEq, false_iff]
      exact fun h => h2' h.2.1
  · rw [if_pos (by simpa using h1)]
    simp [h1]

/-- **C24.** If the primitives return (value or error), the reported status names the first
failing check, in the order address, ledger, peer key, derived address, signature. -/
theorem C24_first_failure (addr : Bytes → Bytes → Res Unit Bytes)
    (verify : Bytes → Bytes → Bytes → Bytes → Res Unit Bool) (r : AgentRecord) (a k : Bytes)
    (ha : addr r.ledgerId r.publicKey ≠ .panic)
    (hv : verify r.ledgerId k r.signature r.publicKey ≠ .panic) :
    isValidPoR addr verify r a k = .ok (firstFailure
      [(r.address = a, .errorWrongAgentAddress),
       ([b! "fetchai", b! "cosmos", b! "ethereum"].contains r.ledgerId, .errorUnsupportedLedger),
       (r.peerPublicKey = k, .errorWrongPublicKey),
       (addr r.ledgerId r.publicKey = .ok a, .errorWrongAgentAddress),
       (verify r.ledgerId k r.signature r.publicKey = .ok true, .errorInvalidProof)]) := by
  have hsup : supportedLedgers = [b! "fetchai", b! "cosmos", b! "ethereum"] := rfl
  unfold isValidPoR
  rw [hsup]
  by_cases h1 : r.address = a
  · subst h1
    cases h2 : [b! "fetchai", b! "cosmos", b! "ethereum"].contains r.ledgerId with
    | false => simp [firstFailure]
    | true =>
      by_cases h3 : r.peerPublicKey = k
      · subst h3
        cases h4 : addr r.ledgerId r.publicKey with
        | panic => exact absurd h4 ha
        | err e => simp [firstFailure]
        | ok x =>
          by_cases h5 : x = r.address
          · subst h5
            cases h6 : verify r.ledgerId r.peerPublicKey r.signature r.publicKey with
            | panic => exact absurd h6 hv
            | err e => simp [firstFailure]
            | ok b => cases b <;> simp [firstFailure]
          · simp [firstFailure, h5]
      · simp [firstFailure, h3]
  · simp [firstFailure, h1]

/-! ## The primitives -/

theorem eip55Aux_ok (hash : Bytes) (i : Nat) (t : Bytes) (h : i + t.length ≤ 2 * hash.length) :
    ∃ r, eip55Aux hash i t = .ok r := by
  induction t generalizing i with
  | nil => exact ⟨[], by simp [eip55Aux]⟩
  | cons c t ih =>
    rw [List.length_cons] at h
    have hi : i / 2 < hash.length := by omega
    obtain ⟨r, hr⟩ := ih (i + 1) (by omega)
    rw [eip55Aux, List.getElem?_eq_getElem hi]
    simp only [hr]
    exact ⟨_, rfl⟩

theorem hexEncode_length (b : Bytes) : (hexEncode b).length = 2 * b.length := by
  induction b with
  | nil => rfl
  | cons x b ih =>
    simp only [hexEncode, List.flatMap_cons, List.length_append, List.length_cons,
      List.length_nil] at ih ⊢
    omega

theorem eip55_ok {P : Prims} (hk : ∀ x, (P.keccak x).length = 32) {a : Bytes} (ha : a.length ≤ 32) :
    ∃ r, eip55 P a = .ok r := by
  unfold eip55
  obtain ⟨r, hr⟩ := eip55Aux_ok (P.keccak (hexEncode a)) 0 (hexEncode a) (by
    rw [hexEncode_length, hk]; omega)
  simp only [hr]
  exact ⟨_, rfl⟩

theorem ethAddress_panic {P : Prims} (hk : ∀ x, (P.keccak x).length = 32) (pk : Bytes) :
    ethAddress P pk = .panic ↔ pk.length < 2 := by
  unfold ethAddress
  by_cases h : pk.length < 2
  · simp [h]
  · rw [if_neg h]
    simp only [h, iff_false]
    split
    · simp
    · rename_i b _
      have hl := hk b
      rw [if_neg (by omega)]
      obtain ⟨r, hr⟩ := eip55_ok hk (a := (P.keccak b).drop 12) (by rw [List.length_drop]; omega)
      rw [hr]
      simp

theorem addressOf_panic {P : Prims} (hk : ∀ x, (P.keccak x).length = 32) (l pk : Bytes) :
    addressOf P l pk = .panic ↔ l = b! "ethereum" ∧ pk.length < 2 := by
  have cosmos : ∀ p, cosmosAddress P p pk ≠ .panic := by
    intro p
    unfold cosmosAddress
    split
    · simp
    · split <;> simp
  unfold addressOf
  by_cases h1 : l = b! "fetchai"
  · rw [if_pos h1]
    subst h1
    simp [cosmos]
  · rw [if_neg h1]
    by_cases h2 : l = b! "cosmos"
    · rw [if_pos h2]
      subst h2
      simp [cosmos]
    · rw [if_neg h2]
      by_cases h3 : l = b! "ethereum"
      · rw [if_pos h3, ethAddress_panic hk]
        simp [h3]
      · rw [if_neg h3]
        simp [h3]

theorem ethRecoverAddress_panic {P : Prims} (m sig : Bytes) :
    ethRecoverAddress P m sig = .panic ↔ ∃ sb, hexutilDecode sig = some sb ∧ sb.length ≤ 64 := by
  unfold ethRecoverAddress
  cases h : hexutilDecode sig with
  | none => simp
  | some sb =>
    simp only [Option.some.injEq, exists_eq_left']
    cases hg : sb[64]? with
    | none =>
      simp only [List.getElem?_eq_none_iff] at hg
      simp [hg]
    | some v =>
      have : 64 < sb.length := (List.getElem?_eq_some_iff.1 hg).1
      have hn : ¬ sb.length ≤ 64 := by omega
      simp only [hn, iff_false]
      split
      · simp
      · split <;> simp

theorem verifyFetchAI_no_panic (P : Prims) (m s k : Bytes) : verifyFetchAI P m s k ≠ .panic := by
  unfold verifyFetchAI
  split
  · simp
  · split
    · simp
    · split
      · simp
      · split <;> simp

/-- **C25, partial.** Exactly when checking a record crashes the process: the address, ledger
and peer key checks pass, the ledger is ethereum, and either the public key has fewer than two
characters, or the address belongs to the public key and the signature decodes to at most 64
bytes. For the ledgers fetchai and cosmos it never crashes. Missing from the property: these
ethereum records, for which it is false (`C25_counterexample`). The hypothesis is that Keccak-256
has 32 bytes. -/
theorem C25_panic_iff_partial (P : Prims) (hk : ∀ x, (P.keccak x).length = 32) (r : AgentRecord)
    (a k : Bytes) :
    isValidPoR (addressOf P) (verifyLedger P) r a k = .panic ↔
      r.address = a ∧ r.ledgerId = b! "ethereum" ∧ r.peerPublicKey = k ∧
      (r.publicKey.length < 2 ∨
        (ethAddress P r.publicKey = .ok r.address ∧
          ∃ sb, hexutilDecode r.signature = some sb ∧ sb.length ≤ 64)) := by
  unfold isValidPoR
  by_cases h1 : r.address = a
  · rw [if_neg (by simpa using h1)]
    simp only [h1, true_and]
    by_cases h2 : supportedLedgers.contains r.ledgerId = true
    · rw [if_neg (by rw [h2]; decide)]
      by_cases h3 : r.peerPublicKey = k
      · rw [if_neg (by simpa using h3)]
        simp only [h3, true_and]
        have hp := addressOf_panic hk r.ledgerId r.publicKey
        by_cases hl : r.ledgerId = b! "ethereum"
        · simp only [hl, true_and]
          simp only [hl, true_and] at hp
          have hae : addressOf P (b! "ethereum") r.publicKey = ethAddress P r.publicKey := by
            unfold addressOf
            rw [if_neg (by decide), if_neg (by decide), if_pos rfl]
          have hve : ∀ m s p, verifyLedger P (b! "ethereum") m s p = verifyEth P m s p := by
            intro m s p
            unfold verifyLedger
            rw [if_neg (by decide), if_neg (by decide), if_pos rfl]
          rw [hae] at hp ⊢
          cases h4 : ethAddress P r.publicKey with
          | panic =>
            have := hp.1 h4
            simp [this]
          | err e =>
            have : ¬ r.publicKey.length < 2 := fun h => by rw [hp.2 h] at h4; simp at h4
            simp [this]
          | ok x =>
            have hn : ¬ r.publicKey.length < 2 := fun h => by rw [hp.2 h] at h4; simp at h4
            by_cases h5 : x = a
            · simp only [h5, ne_eq, not_true_eq_false, if_false, hn, false_or, true_and]
              rw [hve]
              unfold verifyEth
              rw [h4]
              simp only [Res.bind]
              have hr := ethRecoverAddress_panic (P := P) k r.signature
              cases h6 : ethRecoverAddress P k r.signature with
              | panic =>
                simp only [true_iff]
                exact hr.1 h6
              | err e =>
                rw [h6] at hr
                simpa using hr
              | ok y =>
                rw [h6] at hr
                simp only [reduceCtorEq, false_iff] at hr
                by_cases h7 : y = x
                · simpa [h7] using hr
                · simpa [h7] using hr
            · simp [h5, hn]
        · simp only [hl, false_and, iff_false]
          have hnp : addressOf P r.ledgerId r.publicKey ≠ .panic := fun h => hl (hp.1 h).1
          have hv : ∀ m s p, verifyLedger P r.ledgerId m s p ≠ .panic := by
            intro m s p
            unfold verifyLedger
            split
            · exact verifyFetchAI_no_panic P m s p
            · split
              · exact verifyFetchAI_no_panic P m s p
              · simp [hl]
          cases h4 : addressOf P r.ledgerId r.publicKey with
          | panic => exact absurd h4 hnp
          | err e => simp
          | ok x =>
            dsimp only
            split
            · simp
            · cases h6 : verifyLedger P r.ledgerId k r.signature r.publicKey with
              | panic => exact absurd h6 (hv _ _ _)
              | err e => simp
              | ok b => cases b <;> simp
      · rw [if_pos (by simpa using h3)]
        simp [h3]
    · rw [if_pos (by simpa using h2)]
      simp only [reduceCtorEq, false_iff]
      intro h
      exact h2 (by rw [h.1]; decide)
  · rw [if_pos (by simpa using h1)]
    simp [h1]

/-- **C25 is false**: for every key of this peer there is a registration record whose check
crashes the peer. The record only needs an empty public key. -/
theorem C25_counterexample (P : Prims) (peerKey : Bytes) :
    ∃ r : AgentRecord, r.publicKey = [] ∧
      isValidPoR (addressOf P) (verifyLedger P) r r.address peerKey = .panic := by
  refine ⟨⟨[], b! "ethereum", b! "x", [], peerKey, [], [], []⟩, rfl, ?_⟩
  simp [isValidPoR, supportedLedgers, addressOf, ethAddress]

/-- **C25 is false** also with a correct ethereum key and address: the signature text `0x` is
enough. -/
theorem C25_short_signature_counterexample (P : Prims) (hk : ∀ x, (P.keccak x).length = 32)
    (peerKey pubKey address : Bytes) (h : ethAddress P pubKey = .ok address) :
    isValidPoR (addressOf P) (verifyLedger P)
      ⟨[], b! "ethereum", address, pubKey, peerKey, b! "0x", [], []⟩ address peerKey = .panic := by
  rw [C25_panic_iff_partial P hk]
  exact ⟨rfl, rfl, rfl, .inr ⟨h, [], rfl, by decide⟩⟩

/-! ## Concrete cases -/

namespace PoRDemo

/-- Toy primitives: the address of a key is the key, a signature is valid if it equals the
message. -/
def addr (_ k : Bytes) : Res Unit Bytes := .ok k
/-- see `addr` -/
def verify (_ m s _ : Bytes) : Res Unit Bool := .ok (m == s)
/-- a good record -/
def good : AgentRecord := ⟨b! "acn", b! "cosmos", b! "ag", b! "ag", b! "pk", b! "pk", [], []⟩

example : isValidPoR addr verify good (b! "ag") (b! "pk") = .ok .success := by decide
example : isValidPoR addr verify { good with signature := b! "no" } (b! "ag") (b! "pk") =
    .ok .errorInvalidProof := by decide
example : isValidPoR addr verify { good with ledgerId := b! "bitcoin" } (b! "ag") (b! "xx") =
    .ok .errorUnsupportedLedger := by decide
example : isValidPoR addr verify good (b! "other") (b! "xx") = .ok .errorWrongAgentAddress := by decide
example : isValidPoR addr verify good (b! "ag") (b! "xx") = .ok .errorWrongPublicKey := by decide

end PoRDemo

end Verif
