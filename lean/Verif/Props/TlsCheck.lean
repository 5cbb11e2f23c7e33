import Verif.Model.TlsCheck
import Verif.Lemmas.Framing

/-!
# C64: an agent that connects talks to the peer it was told
-/

namespace Verif

/-- The other end has proved to have the private key of `key`: TLS does this for the first certificate. -/
def TlsConn.heldBy (c : TlsConn) (key : Bytes) : Prop := c.certs.head? = some (.ecdsa key)

/-- The peer with the long-term key `pk` has signed nothing but its session key `key`. -/
def SignsOnly (K : PeerKeys) (pk key : Bytes) : Prop :=
  ∀ data sig, K.verify pk data sig = some true → data = key

/-- **C64, partial.** What the check establishes, exactly: the first message is a signature, by the given
peer, of the key in the *last* certificate. -/
theorem C64_connect_iff_partial (K : PeerKeys) (text : Bytes) (conn : Option TlsConn) (rest : List Bytes) :
    tlsConnect K text conn = .ok rest ↔
      ∃ c key pre sig, conn = some c ∧ c.certs = pre ++ [.ecdsa key] ∧
        readConn none c.input = (.ok sig, rest) ∧ K.keyOk (hexPrefix text) = true ∧
        K.verify (hexPrefix text) key sig = some true := by
  cases conn with
  | none => simp [tlsConnect]
  | some c =>
    simp only [tlsConnect]
    constructor
    · intro h
      cases hc : c.certs.getLast? with
      | none => rw [hc] at h; simp at h
      | some k =>
        rw [hc] at h
        cases k with
        | other => simp at h
        | ecdsa key =>
          dsimp only at h
          obtain ⟨pre, hpre⟩ := List.getLast?_eq_some_iff.1 hc
          rcases hr : readConn none c.input with ⟨r, rest'⟩
          rw [hr] at h
          cases r with
          | err e => simp at h
          | panic => simp at h
          | ok sig =>
            dsimp only at h
            unfold peerKeyOf at h
            cases hk : K.keyOk (hexPrefix text) with
            | false => simp [hk] at h
            | true =>
              rw [hk] at h
              simp only [if_true] at h
              cases hv : K.verify (hexPrefix text) key sig with
              | none => rw [hv] at h; simp at h
              | some b =>
                rw [hv] at h
                cases b with
                | false => simp at h
                | true =>
                  simp only [Res.ok.injEq] at h
                  subst h
                  exact ⟨c, key, pre, sig, rfl, hpre, hr, rfl, hv⟩
    · rintro ⟨_, key, pre, sig, he, hc, hr, hk, hv⟩
      have he := Option.some.inj he
      subst he
      rw [hc]
      simp only [List.getLast?_concat]
      rw [hr]
      simp [peerKeyOf, hk, hv]

/-- **C64, partial.** If the server sends one certificate and the peer signs only its own session key, an
agent that connects talks to the one who has this key. Missing from the property: longer lists. -/
theorem C64_identity_partial {K : PeerKeys} {text key : Bytes} {c : TlsConn} {rest : List Bytes}
    (h : tlsConnect K text (some c) = .ok rest) (hs : SignsOnly K (hexPrefix text) key)
    (hone : c.certs.length ≤ 1) : c.heldBy key := by
  obtain ⟨_, key', pre, sig, he, hc, _, _, hv⟩ := (C64_connect_iff_partial K text _ rest).1 h
  have he := Option.some.inj he
  subst he
  have := hs key' sig hv
  subst this
  have hp : pre = [] := by
    rw [hc] at hone
    simp only [List.length_append, List.length_cons, List.length_nil] at hone
    exact List.length_eq_zero_iff.1 (by omega)
  simp [TlsConn.heldBy, hc, hp]

/-- **C64 is false, in general.** Whatever connection an agent accepts, it accepts too if someone else puts
a certificate of their own in front: anybody who can connect to the peer, and so knows its certificate and
its signature, passes for the peer. -/
theorem C64_impersonation {K : PeerKeys} {text : Bytes} {c : TlsConn} {rest : List Bytes}
    (h : tlsConnect K text (some c) = .ok rest) (mine : Bytes) :
    tlsConnect K text (some { c with certs := .ecdsa mine :: c.certs }) = .ok rest ∧
    TlsConn.heldBy { c with certs := .ecdsa mine :: c.certs } mine := by
  refine ⟨?_, rfl⟩
  rw [C64_connect_iff_partial] at h ⊢
  obtain ⟨_, key, pre, sig, he, hc, hr, hk, hv⟩ := h
  have he := Option.some.inj he
  subst he
  exact ⟨_, key, .ecdsa mine :: pre, sig, rfl, by simp [hc], hr, hk, hv⟩

/-- **C64.** An agent always connects to a peer that runs the code: one certificate, whose key it has signed,
and the signature as the first message, if the transport does not split it. The messages that follow are
left. -/
theorem C64_honest_peer {K : PeerKeys} {text key sig : Bytes} {sign : Bytes → Option Bytes}
    {later cs : List Bytes} (hk : K.keyOk (hexPrefix text) = true)
    (hsign : ∀ d s, sign d = some s → K.verify (hexPrefix text) d s = some true)
    (hs : sessionSignature sign key = some sig) (hlen : sig.length < 2 ^ 32)
    (hw : Whole (pieces (sig :: later)) cs) :
    ∃ rest, tlsConnect K text (some ⟨[.ecdsa key], cs⟩) = .ok rest ∧ Whole (pieces later) rest := by
  obtain ⟨rest, hr, hw'⟩ := readConn_whole (limit := none) hlen (by simp) hw
  exact ⟨rest, (C64_connect_iff_partial K text _ rest).2
    ⟨_, key, [], sig, rfl, rfl, hr, hk, hsign key sig hs⟩, hw'⟩

/-- **C64.** The bytes that a peer writes first are those pieces. -/
theorem C64_first_bytes {sig w : Bytes} (hne : sig ≠ []) (h : acceptWrites sig = .ok w) :
    w = (pieces [sig]).flatten := by
  unfold acceptWrites writeBytes at h
  rw [if_neg (fun h : sig.length = 0 => hne (List.length_eq_zero_iff.1 h))] at h
  split at h
  · simp at h
  · simp only [Res.ok.injEq] at h
    rw [← h, pieces_flatten]
    simp

/-- **C64, partial.** The check crashes the agent exactly if the last certificate has no ECDSA key: any
server can do this. -/
theorem C64_panic_iff_partial (K : PeerKeys) (text : Bytes) (conn : Option TlsConn) :
    tlsConnect K text conn = .panic ↔
      ∃ c, conn = some c ∧ (c.certs = [] ∨ ∃ pre, c.certs = pre ++ [.other]) := by
  have hread : ∀ cs, (readConn none cs).1 ≠ .panic := by
    intro cs
    unfold readConn
    split
    · simp
    · dsimp only
      split
      · simp
      · split <;> simp
  cases conn with
  | none => simp [tlsConnect]
  | some c =>
    simp only [tlsConnect, Option.some.injEq, exists_eq_left']
    cases hc : c.certs.getLast? with
    | none =>
      simp only [true_iff]
      exact .inl (List.getLast?_eq_none_iff.1 hc)
    | some k =>
      obtain ⟨pre, hpre⟩ := List.getLast?_eq_some_iff.1 hc
      cases k with
      | other => simp only [true_iff]; exact .inr ⟨pre, hpre⟩
      | ecdsa key =>
        dsimp only
        constructor
        · intro h
          exfalso
          have := hread c.input
          split at h
          · rename_i heq; rw [heq] at this; exact this rfl
          · simp at h
          · split at h
            · simp at h
            · split at h <;> simp at h
        · rintro (h | ⟨pre', h⟩)
          · rw [hpre] at h; simp at h
          · rw [h] at hpre
            have := List.append_inj_right' hpre rfl
            simp at this

/-- **C64, partial.** A key text that goes wrong after a key is taken for that key. -/
theorem C64_key_text_partial (key junk : Bytes) (x y : UInt8) (h : hexVal x = none ∨ hexVal y = none) :
    hexPrefix (hexEncode key ++ x :: y :: junk) = hexPrefix (hexEncode key) := by
  induction key with
  | nil =>
    simp only [hexEncode, List.flatMap_nil, List.nil_append]
    rw [hexPrefix]
    split
    · rename_i h1 h2
      rcases h with h | h
      · rw [h] at h1; simp at h1
      · rw [h] at h2; simp at h2
    · rfl
  | cons k ks ih =>
    have hsplit : ∀ t : Bytes, hexEncode (k :: ks) ++ t =
        hexDigit (k / 16) :: hexDigit (k % 16) :: (hexEncode ks ++ t) := by
      intro t; simp [hexEncode]
    have h0 := hsplit []
    rw [List.append_nil, List.append_nil] at h0
    rw [hsplit, h0, hexPrefix, hexPrefix, ih]

namespace TlsDemo

/-- A toy signature scheme: the key `[7]` has signed `[50]`, with the signature `[1, 50]`. -/
def K : PeerKeys where
  keyOk := fun k => k == [7]
  verify := fun pk d s => if pk = [7] then some (d == [50] && s == [1, 50]) else none

/-- The first frame of the peer with the session key `[50]`. -/
def honest : TlsConn := ⟨[.ecdsa [50]], [frame [1, 50]]⟩

example : tlsConnect K (b! "07") (some honest) = .ok [] := by decide
example : honest.heldBy [50] := rfl
example : tlsConnect K (b! "07") (some ⟨[.ecdsa [66]], [frame [1, 50]]⟩) = .err () := by decide
example : tlsConnect K (b! "07zz") (some honest) = .ok [] := by decide
example : tlsConnect K (b! "07") (some ⟨[.other], [frame [1, 50]]⟩) = .panic := by decide

/-- **C64 is false**: the peer has signed only its own session key 50, and the other end has the key 66,
but the check succeeds. -/
theorem _root_.Verif.C64_counterexample :
    SignsOnly K (hexPrefix (b! "07")) [50] ∧
    ∃ c, tlsConnect K (b! "07") (some c) = .ok [] ∧ c.heldBy [66] ∧ ¬ c.heldBy [50] := by
  refine ⟨?_, ⟨[.ecdsa [66], .ecdsa [50]], [frame [1, 50]]⟩, by decide, rfl, by simp [TlsConn.heldBy]⟩
  intro d sig h
  rw [show hexPrefix (b! "07") = [7] by decide] at h
  simp [K] at h
  exact h.1

end TlsDemo

end Verif
