import Verif.Props.LiteClient
import Verif.Props.Ledger
import Verif.Props.Mailbox
import Verif.Props.NodeConfig

/-!
# C30, C41, C62: unregistering, the statuses of a client, and how a start ends
-/

namespace Verif

/-! ## C41: statuses -/

section statuses

open Lite LiteClient

/-- The statuses in data from the node. -/
def statusesOf (frames : List Bytes) : List StatusBody :=
  frames.filterMap fun f =>
    match AcnMessage.decode f with
    | some (some (.status s)) => s
    | _ => none

/-- The status being put into its queue. -/
def Lite.Phase.heldStatus : Lite.Phase → List StatusBody
  | .pushingStatus s => [s]
  | _ => []

/-- The statuses that waits took during a history. -/
def LiteClient.statusesTaken (T : AcnTexts) (rest : Bytes → Envelope) :
    LiteClient → List LiteClient.Step → List StatusBody
  | _, [] => []
  | c, .takeStatus :: ss => c.statuses.take 1 ++ statusesTaken T rest (c.step T rest .takeStatus) ss
  | c, st :: ss => statusesTaken T rest (c.step T rest st) ss

theorem handle_statuses (T : AcnTexts) (rest : Bytes → Envelope) (p : Pipe) :
    statusesOf (LiteClient.nextFrame p) =
      match (Lite.handle T rest p).1 with
      | .status s => [s]
      | _ => [] := by
  unfold Lite.handle
  cases hr : p.reads with
  | nil => simp [Pipe.read, hr, LiteClient.nextFrame, statusesOf]
  | cons r rs =>
    cases r with
    | none => simp [Pipe.read, hr, LiteClient.nextFrame, statusesOf]
    | some f =>
      simp only [Pipe.read, hr, LiteClient.nextFrame, statusesOf, List.filterMap_cons, List.filterMap_nil]
      cases hd : AcnMessage.decode f with
      | none => simp [Acn.decodeAcnMessage, hd]
      | some m =>
        rcases m with _ | m
        · simp [Acn.decodeAcnMessage, hd]
        · cases m
          case aeaEnvelope b r =>
            simp only [Acn.decodeAcnMessage, hd]
            cases he : Envelope.decode b with
            | none => rfl
            | some e =>
              rcases Acn.sendSuccess _ with ⟨r, q⟩
              cases r <;> rfl
          case status s =>
            simp only [Acn.decodeAcnMessage, hd]
            cases s <;> rfl
          all_goals simp [Acn.decodeAcnMessage, hd]

/-- What became of the statuses, `taken` being the ones that were taken. -/
def StatusesAccounted (taken : List StatusBody) (c : LiteClient) : Prop :=
  taken ++ c.statuses ++ c.phase.heldStatus = statusesOf c.frames ∨
  (c.phase = .crashed ∧ c.closing = .done ∧ ∃ s, taken ++ c.statuses ++ [s] = statusesOf c.frames)

theorem statuses_step {T : AcnTexts} {rest : Bytes → Envelope} {c : LiteClient} {taken : List StatusBody}
    (st : LiteClient.Step) (h : StatusesAccounted taken c) :
    StatusesAccounted (taken ++ (if st = .takeStatus then c.statuses.take 1 else [])) (c.step T rest st) := by
  cases st with
  | get =>
    simp only [LiteClient.step, reduceCtorEq, if_false, List.append_nil]
    split
    · exact h
    · split <;> exact h
  | takeStatus =>
    simp only [LiteClient.step, if_true, StatusesAccounted, List.append_assoc] at h ⊢
    simp only [← List.append_assoc (c.statuses.take 1), List.take_append_drop]
    exact h
  | disconnect ok =>
    simp only [LiteClient.step, reduceCtorEq, if_false, List.append_nil]
    split
    · rename_i hc; rcases h with h | ⟨_, h, _⟩
      · exact .inl h
      · simp [hc] at h
    · rename_i hc; rcases h with h | ⟨_, h, _⟩
      · exact .inl h
      · simp [hc] at h
    · rename_i hc; rcases h with h | ⟨_, h, _⟩
      · exact .inl h
      · simp [hc] at h
    · rename_i hc; rcases h with h | ⟨_, h, _⟩
      · exact .inl h
      · simp [hc] at h
    · exact h
    · exact h
  | listen =>
    simp only [LiteClient.step, LiteClient.listen, reduceCtorEq, if_false, List.append_nil]
    split
    · rename_i hph
      have h0 : taken ++ c.statuses = statusesOf c.frames := by
        rcases h with h | ⟨h, _⟩
        · simpa [Phase.heldStatus, hph] using h
        · simp [hph] at h
      have hc := handle_statuses T rest c.pipe
      have happ : statusesOf (c.frames ++ LiteClient.nextFrame c.pipe) =
          statusesOf c.frames ++ statusesOf (LiteClient.nextFrame c.pipe) := List.filterMap_append ..
      rw [hc, ← h0] at happ
      generalize Lite.handle T rest c.pipe = hp at *
      obtain ⟨hd, p⟩ := hp
      dsimp only at *
      left
      cases hd with
      | crash => simpa [Phase.heldStatus] using happ.symm
      | status s => simpa [Phase.heldStatus] using happ.symm
      | result envel failed =>
        dsimp only
        split
        · simpa [Phase.heldStatus] using happ.symm
        · split
          · simpa [Phase.heldStatus, hph] using happ.symm
          · split <;> simpa [Phase.heldStatus, hph] using happ.symm
    · rename_i e hph
      have h0 : taken ++ c.statuses = statusesOf c.frames := by
        rcases h with h | ⟨h, _⟩
        · simpa [Phase.heldStatus, hph] using h
        · simp [hph] at h
      left
      split
      · simpa [Phase.heldStatus] using h0
      · split <;> simpa [Phase.heldStatus, hph] using h0
    · rename_i hph
      have h0 : taken ++ c.statuses = statusesOf c.frames := by
        rcases h with h | ⟨h, _⟩
        · simpa [Phase.heldStatus, hph] using h
        · simp [hph] at h
      left
      dsimp only
      split <;> simpa [Phase.heldStatus] using h0
    · rename_i s hph
      have h0 : taken ++ c.statuses ++ [s] = statusesOf c.frames := by
        rcases h with h | ⟨h, _⟩
        · simpa [Phase.heldStatus, hph] using h
        · simp [hph] at h
      split
      · rename_i hd
        exact .inr ⟨rfl, hd, s, h0⟩
      · left
        split
        · simpa [Phase.heldStatus] using h0
        · simpa [Phase.heldStatus, hph] using h0
    · exact h
    · exact h

/-- **C41, statuses.** For all data from the node and every scheduling: the statuses that waits took, the ones
in the queue and the one about to be queued are the statuses in the data, each once and in order. One is lost
exactly when the goroutine crashes while it queues it, and then `Disconnect` is done. -/
theorem C41_statuses (T : AcnTexts) (rest : Bytes → Envelope) (address : Bytes) (pipe : Pipe)
    (steps : List LiteClient.Step) :
    let c := LiteClient.run T rest (.connected address pipe) steps
    let taken := LiteClient.statusesTaken T rest (.connected address pipe) steps
    taken ++ c.statuses ++ c.phase.heldStatus = statusesOf c.frames ∨
    (c.phase = .crashed ∧ c.closing = .done ∧
      ∃ s, taken ++ c.statuses ++ [s] = statusesOf c.frames) := by
  have key : ∀ (steps : List LiteClient.Step) (c : LiteClient) (taken : List StatusBody),
      StatusesAccounted taken c →
      StatusesAccounted (taken ++ LiteClient.statusesTaken T rest c steps) (LiteClient.run T rest c steps) := by
    intro steps
    induction steps with
    | nil => intro c taken h; simpa [LiteClient.statusesTaken, LiteClient.run] using h
    | cons st steps ih =>
      intro c taken h
      have h1 := ih _ _ (statuses_step (T := T) (rest := rest) st h)
      cases st <;> simpa [LiteClient.statusesTaken, LiteClient.run] using h1
  have := key steps (.connected address pipe) [] (.inl rfl)
  simpa [StatusesAccounted] using this

/-- A frame with a status, which a wait gets. -/
example :
    let f := (AcnMessage.encode (some (.status (some ⟨0, []⟩)))).getD []
    let c : LiteClient := .connected [1] ⟨[some f], [], []⟩
    LiteClient.statusesTaken ⟨id, fun _ => []⟩ (fun _ => emptyEnvelope) c [.listen, .listen, .takeStatus] = [⟨0, []⟩] := by
  decide

end statuses

/-! ## C30: unregistering -/

section mailbox

open Mailbox

/-- **C30.** A request to unregister is taken exactly if it is a GET request of an open session, and then the
address of that session is going to leave. Otherwise nothing changes. -/
theorem C30_unregister_begin (req : HttpReq) (s : Mailbox) :
    (∀ id a, req.method = b! "GET" → req.session = some id → s.sessions.get id = some a →
      (unregisterBegin req s).2 = .pending ∧
      (unregisterBegin req s).1 = { s with leaving := s.leaving ++ [(id, a)] }) ∧
    ((¬ ∃ id a, req.method = b! "GET" ∧ req.session = some id ∧ s.sessions.get id = some a) →
      unregisterBegin req s = (s, .bad)) := by
  constructor
  · intro id a h1 h2 h3
    simp [unregisterBegin, h1, h2, h3]
  · intro h
    unfold unregisterBegin
    split
    · rfl
    · rename_i hm
      cases hs : req.session with
      | none => rfl
      | some id =>
        dsimp only
        cases hg : s.sessions.get id with
        | none => rfl
        | some a => exact absurd ⟨id, a, by simpa using hm, hs, hg⟩ h

/-- **C30.** A session that unregisters, with no other request in between, is closed: its identifier, its
record and its box are gone, the answer is 200, and every other session, record and box is as before. -/
theorem C30_unregister (req : HttpReq) (s : Mailbox) {id a : Bytes} (hm : req.method = b! "GET")
    (hs : req.session = some id) (hg : s.sessions.get id = some a) :
    let s' := (unregisterEnd s.leaving.length (unregisterBegin req s).1)
    s'.2 = .ok ∧ s'.1.leaving = s.leaving ∧
    s'.1.sessions.get id = none ∧ s'.1.isRegistered a = false ∧ s'.1.getRecord a = none ∧
    (∀ i, i ≠ id → s'.1.sessions.get i = s.sessions.get i) ∧
    (∀ b, b ≠ a → s'.1.envelopes.get b = s.envelopes.get b ∧ s'.1.records.get b = s.records.get b) := by
  rw [((C30_unregister_begin req s).1 id a hm hs hg).2]
  simp only [unregisterEnd, List.getElem?_concat_length]
  refine ⟨trivial, ?_, ?_, ?_, ?_, ?_, ?_⟩
  · simp [List.eraseIdx_append_of_length_le]
  · simp
  · simp [isRegistered, GoMap.has_eq_false_iff]
  · have : (s.envelopes.erase a).has a = false := by simp [GoMap.has_eq_false_iff]
    simp [getRecord, isRegistered, this]
  · intro i hi; exact GoMap.get_erase_ne _ hi
  · intro b hb; exact ⟨GoMap.get_erase_ne _ hb, GoMap.get_erase_ne _ hb⟩

end mailbox

/-! ## C62: how a start ends -/

/-- The text of a port. -/
def IsPortText (s : Bytes) (n : Nat) : Prop := IsNumeral s ∧ decimal s = n ∧ n ≤ 65535

theorem parsePort_loop_none (s : Bytes) :
    s.foldl (fun acc c => acc.bind fun n => (digit? c).bind fun d =>
      if 10 * n + d > 65535 then none else some (10 * n + d)) none = (none : Option Nat) := by
  induction s with
  | nil => rfl
  | cons c cs ih => exact ih

theorem parsePort_loop (s : Bytes) (k n : Nat) :
    s.foldl (fun acc c => acc.bind fun n => (digit? c).bind fun d =>
      if 10 * n + d > 65535 then none else some (10 * n + d)) (some k) = some n ↔
    (∀ c ∈ s, 48 ≤ c.toNat ∧ c.toNat ≤ 57) ∧ s.foldl (fun n c => 10 * n + (c.toNat - 48)) k = n ∧
      (s ≠ [] → n ≤ 65535) := by
  induction s generalizing k with
  | nil => simp
  | cons c cs ih =>
    rw [List.foldl_cons, List.foldl_cons]
    by_cases hc : 48 ≤ c.toNat ∧ c.toNat ≤ 57
    · have hd : digit? c = some (c.toNat - 48) := by simp [digit?, hc]
      simp only [hd, Option.bind_some]
      by_cases hb : 10 * k + (c.toNat - 48) > 65535
      · rw [if_pos hb, parsePort_loop_none]
        have := decimal_ge cs (10 * k + (c.toNat - 48))
        simp only [reduceCtorEq, false_iff]
        rintro ⟨_, h2, h3⟩
        have := h3 (by simp)
        omega
      · rw [if_neg hb, ih]
        simp only [List.mem_cons, forall_eq_or_imp]
        constructor
        · rintro ⟨h1, h2, h3⟩
          refine ⟨⟨hc, h1⟩, h2, fun _ => ?_⟩
          by_cases hcs : cs = []
          · subst hcs; simp at h2; omega
          · exact h3 hcs
        · rintro ⟨⟨_, h1⟩, h2, h3⟩
          exact ⟨h1, h2, fun _ => h3 (by simp)⟩
    · have hd : digit? c = none := by simp [digit?, hc]
      simp only [hd, Option.bind_none, Option.bind_some]
      rw [parsePort_loop_none]
      simp only [reduceCtorEq, false_iff]
      rintro ⟨h1, _⟩
      exact hc (h1 c (by simp))

/-- **C62, ports.** The port is read exactly if it is a decimal numeral up to 65535, as its value. -/
theorem C62_port_iff (s : Bytes) (n : Nat) : parsePort s = some n ↔ IsPortText s n := by
  unfold parsePort IsPortText IsNumeral decimal
  split
  · rename_i h; simp [h]
  · rename_i h
    rw [parsePort_loop]
    constructor
    · rintro ⟨h1, h2, h3⟩; exact ⟨⟨h, h1⟩, h2, h3 h⟩
    · rintro ⟨⟨_, h1⟩, h2, h3⟩; exact ⟨h1, h2, fun _ => h3⟩

example : IsPortText (b! "11001") 11001 := ⟨⟨by decide, by decide⟩, by decide, by decide⟩

/-- **C62, the connection.** Its start ends the process with a message or panics, and the latter exactly if
the environment is there and the check of the signature panics, or the signature is valid and the port is no
decimal numeral up to 65535. -/
theorem C62_connection_ends (P : Prims) (env : Option (Bytes → Bytes)) :
    (∀ x, liteInit P env = .err x → x = .fatal) ∧
    (liteInit P env = .panic ↔ ∃ e v, env = some e ∧
      verifyLedger P (e (b! "AEA_P2P_POR_LEDGER_ID")) (e (b! "AEA_P2P_POR_PEER_PUBKEY"))
        (e (b! "AEA_P2P_POR_SIGNATURE")) (e (b! "AEA_PUBLIC_KEY")) = v ∧
      (v = .panic ∨ v = .ok true ∧ ∀ n, ¬ IsPortText (e (b! "AEA_P2P_DELEGATE_PORT")) n)) := by
  cases env with
  | none => simp [liteInit]
  | some e =>
    simp only [liteInit, liteRecord, Option.some.injEq, exists_eq_left', exists_and_left,
      ← C62_port_iff]
    cases hv : verifyLedger P (e (b! "AEA_P2P_POR_LEDGER_ID")) (e (b! "AEA_P2P_POR_PEER_PUBKEY"))
        (e (b! "AEA_P2P_POR_SIGNATURE")) (e (b! "AEA_PUBLIC_KEY")) with
    | panic => simp
    | err x => simp
    | ok b =>
      cases b
      · simp
      · cases hp : parsePort (e (b! "AEA_P2P_DELEGATE_PORT")) <;> simp

/-- A session leaves, another stays. -/
example :
    let s : Mailbox := ⟨(GoMap.empty.set (b! "s1") (b! "ann")).set (b! "s2") (b! "bob"), .empty,
      (GoMap.empty.set (b! "ann") []).set (b! "bob") [], []⟩
    let s' := (Mailbox.unregisterEnd 0 (Mailbox.unregisterBegin ⟨b! "GET", some (b! "s1"), none⟩ s).1).1
    s'.isRegistered (b! "ann") = false ∧ s'.isRegistered (b! "bob") = true ∧
      (Mailbox.unregisterBegin ⟨b! "POST", some (b! "s1"), none⟩ s).2 = .bad ∧
      (Mailbox.unregisterBegin ⟨b! "GET", some (b! "s3"), none⟩ s).2 = .bad := by decide

end Verif
