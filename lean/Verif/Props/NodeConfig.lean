import Verif.Model.NodeConfig
import Verif.Props.LabelText

/-!
# C45: configuration of the node
-/

namespace Verif

open DialogueLabel (splitBytes split_length split_append split_no_sep)

/-- The value of a decimal numeral. -/
def decimal (s : Bytes) : Nat := s.foldl (fun n c => 10 * n + (c.toNat - 48)) 0

/-- A decimal numeral. -/
def IsNumeral (s : Bytes) : Prop := s ≠ [] ∧ ∀ c ∈ s, 48 ≤ c.toNat ∧ c.toNat ≤ 57

/-- A URI of the form `host:port` with a port between 0 and 65535. -/
structure Written (uri host : Bytes) (port : Nat) : Prop where
  noColon : (58 : UInt8) ∉ host
  form : ∃ digits, uri = host ++ 58 :: digits ∧ IsNumeral digits ∧ decimal digits = port
  range : port ≤ 65535

theorem decimal_ge (s : Bytes) (n : Nat) :
    n ≤ s.foldl (fun n c => 10 * n + (c.toNat - 48)) n := by
  induction s generalizing n with
  | nil => exact Nat.le_refl _
  | cons c cs ih =>
    rw [List.foldl_cons]
    exact Nat.le_trans (by omega) (ih _)

theorem parse_numeral (s : Bytes) (n : Nat) (h : ∀ c ∈ s, 48 ≤ c.toNat ∧ c.toNat ≤ 57) (hn : n ≤ 65535) :
    parseUint16Loop n s = min (s.foldl (fun n c => 10 * n + (c.toNat - 48)) n) 65535 := by
  induction s generalizing n with
  | nil => simp only [parseUint16Loop, List.foldl_nil]; omega
  | cons c cs ih =>
    have hc := h c (by simp)
    simp only [parseUint16Loop, digit?, if_pos hc, List.foldl_cons]
    split
    · rename_i hbig
      have := decimal_ge cs (10 * n + (c.toNat - 48))
      omega
    · rename_i hsmall
      exact ih _ (fun x hx => h x (List.mem_cons_of_mem _ hx)) (by omega)

/-- **C45, ports: the exact law.** A port text is read as its value if it is a numeral up to 65535 and as
65535 if it is a larger numeral. Any other text is read as 65535 if it begins with a numeral above
65535, and as 0 otherwise. None of these is an error. -/
theorem C45_port_law (s : Bytes) :
    (IsNumeral s → parseUint16 s = min (decimal s) 65535) ∧
    (¬ IsNumeral s → parseUint16 s = 0 ∨
      (parseUint16 s = 65535 ∧ ∃ p t, s = p ++ t ∧ IsNumeral p ∧ 65535 < decimal p)) := by
  refine ⟨fun h => parse_numeral s 0 h.2 (by decide), fun h => ?_⟩
  by_cases hs : s = []
  · subst hs; left; rfl
  have hbad : ∃ c ∈ s, ¬ (48 ≤ c.toNat ∧ c.toNat ≤ 57) := by
    apply Classical.byContradiction
    intro hall
    refine h ⟨hs, fun c hc => ?_⟩
    apply Classical.byContradiction
    intro hn
    exact hall ⟨c, hc, hn⟩
  have key : ∀ (s : Bytes) (n : Nat), (∃ c ∈ s, ¬ (48 ≤ c.toNat ∧ c.toNat ≤ 57)) →
      parseUint16Loop n s = 0 ∨ (parseUint16Loop n s = 65535 ∧ ∃ p t, s = p ++ t ∧ IsNumeral p ∧
        65535 < p.foldl (fun n c => 10 * n + (c.toNat - 48)) n) := by
    intro s
    induction s with
    | nil => intro n h; simp at h
    | cons c cs ih =>
      intro n h
      by_cases hc : 48 ≤ c.toNat ∧ c.toNat ≤ 57
      · simp only [parseUint16Loop, digit?, if_pos hc]
        split
        · rename_i hbig
          refine .inr ⟨rfl, [c], cs, rfl, ⟨by simp, ?_⟩, hbig⟩
          intro x hx
          simp only [List.mem_singleton] at hx
          rw [hx]; exact hc
        · have hrest : ∃ c ∈ cs, ¬ (48 ≤ c.toNat ∧ c.toNat ≤ 57) := by
            obtain ⟨x, hx, hn⟩ := h
            rcases List.mem_cons.1 hx with rfl | hx
            · exact absurd hc hn
            · exact ⟨x, hx, hn⟩
          rcases ih (10 * n + (c.toNat - 48)) hrest with h1 | ⟨h1, p, t, h2, h3, h4⟩
          · exact .inl h1
          · refine .inr ⟨h1, c :: p, t, by rw [h2]; rfl, ⟨by simp, ?_⟩, h4⟩
            intro x hx
            rcases List.mem_cons.1 hx with rfl | hx
            · exact hc
            · exact h3.2 x hx
      · left
        simp only [parseUint16Loop, digit?, if_neg hc]
  exact key s 0 hbad

theorem numeral_no_colon {s : Bytes} (h : IsNumeral s) : (58 : UInt8) ∉ s := by
  intro hc
  have := h.2 58 hc
  exact absurd this.2 (by decide)

theorem parseUri_written {uri host : Bytes} {port : Nat} (h : Written uri host port) :
    parseUri uri = .ok (host, port) := by
  obtain ⟨hh, ⟨digits, hu, hn, hv⟩, hr⟩ := h
  unfold parseUri
  rw [hu, split_append _ _ _ hh, split_no_sep _ _ (numeral_no_colon hn)]
  dsimp only
  rw [(C45_port_law digits).1 hn, hv]
  congr 2
  omega

theorem parseUri_isOk (uri : Bytes) : (∃ r, parseUri uri = .ok r) ↔ (58 : UInt8) ∈ uri := by
  unfold parseUri
  have hl := split_length 58 uri
  split
  · rename_i h p t hs
    rw [hs] at hl
    simp only [List.length_cons] at hl
    have : 0 < uri.count 58 := by omega
    simp [List.count_pos_iff.1 this]
  · rename_i hne
    have hz : uri.count 58 = 0 := by
      match hs : splitBytes 58 uri with
      | [] => rw [hs] at hl; simp at hl
      | [x] => rw [hs] at hl; simp at hl; omega
      | x :: y :: t => exact absurd hs (hne x y t)
    simp [List.count_eq_zero.1 hz]

section

variable {δ : Type} (H : Host δ)

/-- The steps of a successful initialisation. -/
theorem initNode_ok {c : NodeConfig δ} (h : initNode H = .ok c) :
    (H.getenv (b! "AEA_P2P_ID") ≠ [] ∧ H.getenv (b! "AEA_P2P_URI") ≠ []) ∧
    c.msgIn = H.getenv (b! "AEA_TO_NODE") ∧ c.msgOut = H.getenv (b! "NODE_TO_AEA") ∧
    c.agentAddr = H.getenv (b! "AEA_AGENT_ADDR") ∧
    c.standalone = decide (c.msgIn = [] ∧ c.msgOut = [] ∧ c.agentAddr = []) ∧
    ¬ (c.standalone = false ∧ (c.msgIn = [] ∨ c.msgOut = [] ∨ c.agentAddr = [])) ∧
    c.pipe = (if c.standalone then none else some (c.msgIn, c.msgOut)) ∧
    parseUri (H.getenv (b! "AEA_P2P_URI")) = .ok (c.host, c.port) ∧
    H.resolves (H.getenv (b! "AEA_P2P_URI")) = true ∧ H.canListen (H.getenv (b! "AEA_P2P_URI")) = true ∧
    parseOptionalUri (H.getenv (b! "AEA_P2P_URI_PUBLIC")) = .ok (c.hostPublic, c.portPublic) ∧
    parseOptionalUri (H.getenv (b! "AEA_P2P_DELEGATE_URI")) = .ok (c.hostDelegate, c.portDelegate) ∧
    parseOptionalUri (H.getenv (b! "AEA_P2P_URI_MONITORING")) = .ok (c.hostMonitoring, c.portMonitoring) ∧
    c.id = H.getenv (b! "AEA_P2P_ID") ∧ c.record = recordOf H.getenv := by
  unfold initNode at h
  dsimp only at h
  split at h
  case isTrue => simp at h
  rename_i h1
  split at h
  case isTrue => simp at h
  rename_i h2
  split at h
  case h_1 => simp at h
  rename_i host port h3
  split at h
  case isTrue => simp at h
  rename_i h4
  split at h
  case isTrue => simp at h
  rename_i h5
  split at h
  case h_1 => simp at h
  rename_i hp pp h6
  split at h
  case h_1 => simp at h
  rename_i hd pd h7
  split at h
  case h_1 => simp at h
  rename_i hm pm h8
  have h1' : H.getenv (b! "AEA_P2P_ID") ≠ [] ∧ H.getenv (b! "AEA_P2P_URI") ≠ [] :=
    ⟨fun h => h1 (.inl h), fun h => h1 (.inr h)⟩
  split at h
  · simp only [Except.ok.injEq] at h
    subst h
    exact ⟨h1', rfl, rfl, rfl, rfl, h2, rfl, h3, by simpa using h4, by simpa using h5, h6, h7, h8, rfl, rfl⟩
  · split at h
    case h_1 => simp at h
    simp only [Except.ok.injEq] at h
    subst h
    exact ⟨h1', rfl, rfl, rfl, rfl, h2, rfl, h3, by simpa using h4, by simpa using h5, h6, h7, h8, rfl, rfl⟩

/-- **C45, agent and pipes.** After a successful initialisation either there is no agent and all
three settings are missing, or there is one and all three are present; a pipe is made exactly in the
second case, from these settings. -/
theorem C45_pipes {c : NodeConfig δ} (h : initNode H = .ok c) :
    (c.standalone = true ∧ c.msgIn = [] ∧ c.msgOut = [] ∧ c.agentAddr = [] ∧ c.pipe = none) ∨
    (c.standalone = false ∧ c.msgIn ≠ [] ∧ c.msgOut ≠ [] ∧ c.agentAddr ≠ [] ∧
      c.pipe = some (H.getenv (b! "AEA_TO_NODE"), H.getenv (b! "NODE_TO_AEA"))) := by
  obtain ⟨_, h1, h2, h3, h4, h5, h6, _⟩ := initNode_ok H h
  cases hs : c.standalone with
  | true =>
    left
    rw [hs] at h4 h6
    have := of_decide_eq_true h4.symm
    exact ⟨rfl, this.1, this.2.1, this.2.2, by simpa using h6⟩
  | false =>
    right
    rw [hs] at h5 h6
    refine ⟨rfl, fun h => h5 ⟨rfl, .inl h⟩, fun h => h5 ⟨rfl, .inr (.inl h)⟩,
      fun h => h5 ⟨rfl, .inr (.inr h)⟩, ?_⟩
    rw [h6, h1, h2]; simp

/-- **C45, the other settings.** The record that proves the representation is made exactly if its address is
given, from the six variables; the entry peers are the parts of the comma-separated list; the identity, the
mailbox address and the storage path are the variables, and the delay is the number read from its variable. -/
theorem C45_settings {c : NodeConfig δ} (h : initNode H = .ok c) :
    (∀ r, c.record = some r ↔ H.getenv (b! "AEA_P2P_POR_ADDRESS") ≠ [] ∧
      r = ⟨H.getenv (b! "AEA_P2P_POR_SERVICE_ID"), H.getenv (b! "AEA_P2P_POR_LEDGER_ID"),
        H.getenv (b! "AEA_P2P_POR_ADDRESS"), H.getenv (b! "AEA_P2P_POR_PUBKEY"),
        H.getenv (b! "AEA_P2P_POR_PEER_PUBKEY"), H.getenv (b! "AEA_P2P_POR_SIGNATURE"), [], []⟩) ∧
    (H.getenv (b! "AEA_P2P_ENTRY_URIS") = [] → c.entryPeers = []) ∧
    (H.getenv (b! "AEA_P2P_ENTRY_URIS") ≠ [] → (∀ p ∈ c.entryPeers, (44 : UInt8) ∉ p) ∧
      DialogueLabel.joinBytes 44 c.entryPeers = H.getenv (b! "AEA_P2P_ENTRY_URIS")) ∧
    c.id = H.getenv (b! "AEA_P2P_ID") ∧ c.mailboxUri = H.getenv (b! "AEA_P2P_MAILBOX_URI") ∧
    c.storagePath = H.getenv (b! "AEA_P2P_CFG_STORAGE_PATH") ∧
    ((H.getenv (b! "AEA_P2P_CFG_REGISTRATION_DELAY") = [] ∧ c.delay = none) ∨
      ∃ d, H.getenv (b! "AEA_P2P_CFG_REGISTRATION_DELAY") ≠ [] ∧
        H.parseFloat (H.getenv (b! "AEA_P2P_CFG_REGISTRATION_DELAY")) = some d ∧ c.delay = some d) := by
  have hpeers : c.entryPeers = (if H.getenv (b! "AEA_P2P_ENTRY_URIS") = [] then []
      else splitBytes 44 (H.getenv (b! "AEA_P2P_ENTRY_URIS"))) ∧
      c.mailboxUri = H.getenv (b! "AEA_P2P_MAILBOX_URI") ∧
      c.storagePath = H.getenv (b! "AEA_P2P_CFG_STORAGE_PATH") ∧
      ((H.getenv (b! "AEA_P2P_CFG_REGISTRATION_DELAY") = [] ∧ c.delay = none) ∨
      ∃ d, H.getenv (b! "AEA_P2P_CFG_REGISTRATION_DELAY") ≠ [] ∧
        H.parseFloat (H.getenv (b! "AEA_P2P_CFG_REGISTRATION_DELAY")) = some d ∧ c.delay = some d) := by
    unfold initNode at h
    dsimp only at h
    split at h
    case isTrue => simp at h
    split at h
    case isTrue => simp at h
    split at h
    case h_1 => simp at h
    split at h
    case isTrue => simp at h
    split at h
    case isTrue => simp at h
    split at h
    case h_1 => simp at h
    split at h
    case h_1 => simp at h
    split at h
    case h_1 => simp at h
    split at h
    · rename_i hd
      simp only [Except.ok.injEq] at h
      subst h
      exact ⟨rfl, rfl, rfl, .inl ⟨hd, rfl⟩⟩
    · rename_i hd
      split at h
      case h_1 => simp at h
      rename_i d hp
      simp only [Except.ok.injEq] at h
      subst h
      exact ⟨rfl, rfl, rfl, .inr ⟨d, hd, hp, rfl⟩⟩
  obtain ⟨_, _, _, _, _, _, _, _, _, _, _, _, _, hid, hrec⟩ := initNode_ok H h
  obtain ⟨hp, hm, hs, hd⟩ := hpeers
  refine ⟨?_, fun he => by rw [hp, if_pos he], ?_, hid, hm, hs, hd⟩
  · intro r
    rw [hrec]
    unfold recordOf
    dsimp only
    split
    · rename_i ha
      simp only [Option.some.injEq, ne_eq, ha, not_false_iff, true_and]
      exact eq_comm
    · rename_i ha
      simp [ha]
  · intro he
    rw [hp, if_neg he]
    exact ⟨fun p hp' => DialogueLabel.split_no_sep_mem 44 _ p hp', DialogueLabel.join_split 44 _⟩

/-- **C45, ports, partial.** After a successful initialisation every host and port that is written in
the form `host:port`, with a port between 0 and 65535, is the one in use; a missing one is unset. Missing
from the property: other texts are not refused, see `C45_port_law` and the counterexamples. -/
theorem C45_ports_partial {c : NodeConfig δ} (h : initNode H = .ok c) :
    (∀ host port, Written (H.getenv (b! "AEA_P2P_URI")) host port → c.host = host ∧ c.port = port) ∧
    (∀ host port, Written (H.getenv (b! "AEA_P2P_URI_PUBLIC")) host port →
      c.hostPublic = host ∧ c.portPublic = port) ∧
    (∀ host port, Written (H.getenv (b! "AEA_P2P_DELEGATE_URI")) host port →
      c.hostDelegate = host ∧ c.portDelegate = port) ∧
    (∀ host port, Written (H.getenv (b! "AEA_P2P_URI_MONITORING")) host port →
      c.hostMonitoring = host ∧ c.portMonitoring = port) ∧
    (H.getenv (b! "AEA_P2P_URI_PUBLIC") = [] → c.portPublic = 0 ∧ c.runsAsPeer = false) ∧
    (H.getenv (b! "AEA_P2P_DELEGATE_URI") = [] → c.portDelegate = 0) ∧
    (H.getenv (b! "AEA_P2P_URI_MONITORING") = [] → c.portMonitoring = 0) := by
  obtain ⟨_, _, _, _, _, _, _, h1, _, _, h2, h3, h4, _⟩ := initNode_ok H h
  have opt : ∀ (uri host : Bytes) (port : Nat) (a : Bytes) (p : Nat), Written uri host port →
      parseOptionalUri uri = .ok (a, p) → a = host ∧ p = port := by
    intro uri host port a p hw ho
    unfold parseOptionalUri at ho
    have hne : uri ≠ [] := by
      obtain ⟨_, ⟨d, hd, _⟩, _⟩ := hw
      rw [hd]; simp
    rw [if_pos hne, parseUri_written hw] at ho
    simp only [Except.ok.injEq, Prod.mk.injEq] at ho
    exact ⟨ho.1.symm, ho.2.symm⟩
  have unset : ∀ (uri : Bytes) (a : Bytes) (p : Nat), uri = [] →
      parseOptionalUri uri = .ok (a, p) → p = 0 := by
    intro uri a p hu ho
    subst hu
    simp only [parseOptionalUri, ne_eq, not_true, if_false, Except.ok.injEq, Prod.mk.injEq] at ho
    exact ho.2.symm
  refine ⟨?_, fun a p hw => opt _ a p _ _ hw h2, fun a p hw => opt _ a p _ _ hw h3,
    fun a p hw => opt _ a p _ _ hw h4, fun he => ?_, fun he => unset _ _ _ he h3,
    fun he => unset _ _ _ he h4⟩
  · intro host port hw
    rw [parseUri_written hw] at h1
    simp only [Except.ok.injEq, Prod.mk.injEq] at h1
    exact ⟨h1.1.symm, h1.2.symm⟩
  · have := unset _ _ _ he h2
    exact ⟨this, by simp [NodeConfig.runsAsPeer, this]⟩

/-- **C45, errors.** Initialisation succeeds exactly under these conditions. -/
theorem C45_init_iff :
    (∃ c, initNode H = .ok c) ↔
      H.getenv (b! "AEA_P2P_ID") ≠ [] ∧
      ((H.getenv (b! "AEA_TO_NODE") = [] ∧ H.getenv (b! "NODE_TO_AEA") = [] ∧
          H.getenv (b! "AEA_AGENT_ADDR") = []) ∨
        (H.getenv (b! "AEA_TO_NODE") ≠ [] ∧ H.getenv (b! "NODE_TO_AEA") ≠ [] ∧
          H.getenv (b! "AEA_AGENT_ADDR") ≠ [])) ∧
      (58 : UInt8) ∈ H.getenv (b! "AEA_P2P_URI") ∧
      H.resolves (H.getenv (b! "AEA_P2P_URI")) = true ∧ H.canListen (H.getenv (b! "AEA_P2P_URI")) = true ∧
      (∀ v ∈ [b! "AEA_P2P_URI_PUBLIC", b! "AEA_P2P_DELEGATE_URI", b! "AEA_P2P_URI_MONITORING"],
        H.getenv v = [] ∨ (58 : UInt8) ∈ H.getenv v) ∧
      (H.getenv (b! "AEA_P2P_CFG_REGISTRATION_DELAY") = [] ∨
        H.parseFloat (H.getenv (b! "AEA_P2P_CFG_REGISTRATION_DELAY")) ≠ none) := by
  have opt : ∀ uri, (∃ r, parseOptionalUri uri = .ok r) ↔ uri = [] ∨ (58 : UInt8) ∈ uri := by
    intro uri
    unfold parseOptionalUri
    by_cases hu : uri = []
    · simp [hu]
    · rw [if_pos hu, parseUri_isOk]; simp [hu]
  constructor
  · rintro ⟨c, h⟩
    have hp := C45_pipes H h
    obtain ⟨h0, e1, e2, e3, _, _, _, h1, h2, h3, h4, h5, h6, _⟩ := initNode_ok H h
    refine ⟨h0.1, ?_, (parseUri_isOk _).1 ⟨_, h1⟩, h2, h3, ?_, ?_⟩
    · rw [← e1, ← e2, ← e3]
      rcases hp with ⟨_, a, b, c, _⟩ | ⟨_, a, b, c, _⟩
      · exact .inl ⟨a, b, c⟩
      · exact .inr ⟨a, b, c⟩
    · intro v hv
      simp only [List.mem_cons, List.not_mem_nil, or_false] at hv
      rcases hv with rfl | rfl | rfl
      · exact (opt _).1 ⟨_, h4⟩
      · exact (opt _).1 ⟨_, h5⟩
      · exact (opt _).1 ⟨_, h6⟩
    · by_cases hd : H.getenv (b! "AEA_P2P_CFG_REGISTRATION_DELAY") = []
      · exact .inl hd
      · right
        intro hf
        unfold initNode at h
        dsimp only at h
        split at h
        case isTrue => simp at h
        split at h
        case isTrue => simp at h
        split at h
        case h_1 => simp at h
        split at h
        case isTrue => simp at h
        split at h
        case isTrue => simp at h
        split at h
        case h_1 => simp at h
        split at h
        case h_1 => simp at h
        split at h
        case h_1 => simp at h
        simp [hd, hf] at h
  · rintro ⟨h0, h1, h2, h3, h4, h5, h6⟩
    obtain ⟨⟨r1a, r1b⟩, hr1⟩ := (parseUri_isOk _).2 h2
    obtain ⟨⟨r2a, r2b⟩, hr2⟩ := (opt _).2 (h5 (b! "AEA_P2P_URI_PUBLIC") (by simp))
    obtain ⟨⟨r3a, r3b⟩, hr3⟩ := (opt _).2 (h5 (b! "AEA_P2P_DELEGATE_URI") (by simp))
    obtain ⟨⟨r4a, r4b⟩, hr4⟩ := (opt _).2 (h5 (b! "AEA_P2P_URI_MONITORING") (by simp))
    have hu : H.getenv (b! "AEA_P2P_URI") ≠ [] := by
      intro hu; rw [hu] at h2; simp at h2
    unfold initNode
    dsimp only
    rw [if_neg (by rintro (h | h); exact h0 h; exact hu h)]
    rw [if_neg (by
      rintro ⟨hs, he⟩
      rcases h1 with ⟨a, b, c⟩ | ⟨a, b, c⟩
      · simp [a, b, c] at hs
      · rcases he with he | he | he
        · exact a he
        · exact b he
        · exact c he)]
    rw [hr1]
    dsimp only
    rw [if_neg (by simp [h3]), if_neg (by simp [h4]), hr2]
    dsimp only
    rw [hr3]
    dsimp only
    rw [hr4]
    dsimp only
    split
    · exact ⟨_, rfl⟩
    · rename_i hd
      cases hf : H.parseFloat (H.getenv (b! "AEA_P2P_CFG_REGISTRATION_DELAY")) with
      | none => rcases h6 with h6 | h6
                · exact absurd h6 hd
                · exact absurd hf h6
      | some d => exact ⟨_, rfl⟩

end

/-! ## Cases -/

namespace ConfigDemo

/-- An environment with the given URIs. -/
def host (uri pub : Bytes) : Host Unit :=
  ⟨fun v => if v = b! "AEA_P2P_ID" then b! "key" else if v = b! "AEA_P2P_URI" then uri
      else if v = b! "AEA_P2P_URI_PUBLIC" then pub else [],
    fun _ => true, fun _ => true, fun _ => none⟩

/-- The parts of the result that matter here. -/
def brief (r : Except InitErr (NodeConfig Unit)) : Option (Bytes × Nat × Nat × Bool) :=
  match r with
  | .ok c => some (c.host, c.port, c.portPublic, c.runsAsPeer)
  | .error _ => none

end ConfigDemo

open ConfigDemo

set_option maxRecDepth 100000 in
set_option maxHeartbeats 4000000 in
/-- A peer with two well-formed URIs. -/
example : brief (initNode (host (b! "0.0.0.0:9000") (b! "1.2.3.4:80"))) =
    some (b! "0.0.0.0", 9000, 80, true) := by decide

set_option maxRecDepth 100000 in
set_option maxHeartbeats 4000000 in
/-- **C45 is false:** a mistyped public port is read as 0, and the node runs as a client instead of a
peer; a port above the range becomes 65535. -/
theorem C45_counterexample :
    brief (initNode (host (b! "0.0.0.0:9000") (b! "1.2.3.4:9OOO"))) =
      some (b! "0.0.0.0", 9000, 0, false) ∧
    brief (initNode (host (b! "0.0.0.0:9000") (b! "1.2.3.4:70000"))) =
      some (b! "0.0.0.0", 9000, 65535, true) := by decide

set_option maxRecDepth 100000 in
set_option maxHeartbeats 4000000 in
/-- The local URI can name another address than the one in use: an IPv6 address, which can be resolved
and listened on, is cut at its first colon. -/
theorem C45_ipv6_counterexample :
    brief (initNode (host (b! "[::1]:9000") [])) = some (b! "[", 0, 0, false) := by decide

end Verif
