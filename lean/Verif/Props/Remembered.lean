import Verif.Props.PeerTables

/-!
# C121: what a peer remembers is bounded by its clients

Spec. What a peer keeps in memory and in its file is bounded by the agents it serves: an agent that registers
again needs no further room, and an agent that has left is forgotten. Room is counted in addresses with a record
and in bytes of the file.
-/

namespace Verif

namespace Remembered

open Tables

/-- The step is the registration of this record, and the peer accepts it. -/
def Registers (E : PeerEnv) (r : AgentRecord) : Step → Prop
  | .delegate _ p => (acceptRegistration E.T E.por E.porText E.myKey p).1 = .ok r
  | .relay _ rem p => (acceptRegistration E.T E.por E.porText rem.key p).1 = .ok r
  | _ => False

/-- Among the steps is a registration on this stream that the peer accepts. -/
def AcceptedOn (E : PeerEnv) (steps : List Step) (k : Nat) : Prop :=
  ∃ rem p r, .relay k rem p ∈ steps ∧ (acceptRegistration E.T E.por E.porText rem.key p).1 = .ok r

/-! ## Nothing is forgotten -/

/-- **C121 is false: records stay.** No step removes the record of an agent, its departure included: while the
peer runs, there are records of all agents that have ever registered. -/
theorem C121_records_stay (E : PeerEnv) (s : Tables) (steps : List Step) {a : Bytes}
    (h : (s.peer.agentRecords.get a).isSome) : ((s.run E steps).peer.agentRecords.get a).isSome := by
  have one : ∀ (s : Tables) (st : Step), (s.peer.agentRecords.get a).isSome →
      ((s.step E st).peer.agentRecords.get a).isSome := by
    intro s st h
    have key : ∀ r : AgentRecord, ((s.peer.agentRecords.set r.address r).get a).isSome := by
      intro r
      rw [GoMap.get_set]
      split
      · rfl
      · exact h
    cases st with
    | delegate c p => unfold Tables.step; dsimp only; split <;> exact h
    | delegateRecord c =>
      unfold Tables.step; dsimp only; split
      · exact key _
      · exact h
    | delegateConn c => unfold Tables.step; dsimp only; split <;> exact h
    | delegateFail c => unfold Tables.step; dsimp only; split <;> exact h
    | delegateEnd c => unfold Tables.step; dsimp only; split <;> exact h
    | relay k rem p => unfold Tables.step; dsimp only; split <;> exact h
    | relayRecord k =>
      unfold Tables.step; dsimp only; split
      · exact key _
      · exact h
    | relayPeer k w =>
      unfold Tables.step; dsimp only; split
      · split <;> exact h
      · exact h
    | mailbox st => exact h
    | route n e =>
      obtain ⟨mb, he, _⟩ := routeEnvelope_tables s.peer n e
      unfold Tables.step; dsimp only; rw [he]; exact h
    | handle n e =>
      obtain ⟨mb, he, _⟩ := handleAeaEnvelope_tables s.peer n e
      unfold Tables.step; dsimp only; rw [he]; exact h
  unfold Tables.run
  induction steps generalizing s with
  | nil => exact h
  | cons st rest ih => exact ih _ (one s st h)

/-- **C121 is false: a departure frees a connection, not a record.** When a delegate client leaves, its connection
is forgotten and its record is still there. -/
theorem C121_departure (E : PeerEnv) (s : Tables) {c : Nat} {r : AgentRecord} (hc : s.conns c = .listed r) :
    (s.step E (.delegateEnd c)).peer.tcpAddresses.get r.address = none ∧
      (s.step E (.delegateEnd c)).peer.agentRecords = s.peer.agentRecords := by
  unfold Tables.step
  dsimp only
  rw [hc]
  refine ⟨?_, rfl⟩
  dsimp only
  rw [GoMap.get_erase, if_pos rfl]

/-- The steps of a registration on a stream. -/
def registration (rem : Remote) (p : Pipe) (k : Nat) : List Step := [.relay k rem p, .relayRecord k, .relayPeer k true]

theorem registration_run {E : PeerEnv} {s : Tables} {k : Nat} {rem : Remote} {p : Pipe} {r : AgentRecord}
    {b : Bytes} (hk : s.relays k = .fresh) (hr : Registers E r (.relay k rem p)) (hb : saveRecord E.broken r = some b) :
    s.run E (registration rem p k) =
      { s with
          peer := { s.peer with
            agentRecords := s.peer.agentRecords.set r.address r
            dhtAddresses := s.peer.dhtAddresses.set r.address rem.id }
          file := s.file ++ b
          saved := s.saved ++ [r]
          relays := fun k' => if k' = k then .done else s.relays k' } := by
  have hr' : (acceptRegistration E.T E.por E.porText rem.key p).1 = .ok r := hr
  have h1 : s.step E (.relay k rem p) = { s with relays := s.setRelay k (.accepted r rem) } := by
    unfold Tables.step
    dsimp only
    rw [hk, hr']
  unfold Tables.run registration
  simp only [List.foldl_cons, List.foldl_nil]
  rw [h1]
  have h2 : ({ s with relays := s.setRelay k (.accepted r rem) } : Tables).relays k = .accepted r rem := by
    simp [setRelay]
  generalize hs1 : ({ s with relays := s.setRelay k (.accepted r rem) } : Tables) = s1 at h2
  have h3 : s1.step E (.relayRecord k) =
      { s1 with
          peer := { s1.peer with agentRecords := s1.peer.agentRecords.set r.address r }
          relays := s1.setRelay k (.recorded r rem) } := by
    unfold Tables.step
    dsimp only
    rw [h2]
  rw [h3]
  have h4 : ({ s1 with
          peer := { s1.peer with agentRecords := s1.peer.agentRecords.set r.address r }
          relays := s1.setRelay k (.recorded r rem) } : Tables).relays k = .recorded r rem := by
    simp [setRelay]
  unfold Tables.step
  dsimp only at h4 ⊢
  rw [h4]
  dsimp only
  rw [hb]
  dsimp only
  subst hs1
  dsimp only
  congr 1
  funext k'
  simp only [setRelay]
  split <;> rfl

theorem sound_of_registers {E : PeerEnv} (hl : LawfulPoR E.por) {s : Tables} (h : Reachable E (Sensible E) s)
    {k : Nat} {rem : Remote} {p : Pipe} {r : AgentRecord} (hk : s.relays k = .fresh)
    (hp : Sensible E (.relay k rem p)) (hr : Registers E r (.relay k rem p)) : Sound r := by
  have hi := (Reachable.step (.relay k rem p) h hp).inv hl (fun _ h => h)
  refine (hi.relay k r rem ?_).2.2
  have hr' : (acceptRegistration E.T E.por E.porText rem.key p).1 = .ok r := hr
  unfold Tables.step
  dsimp only
  rw [hk, hr']
  simp [setRelay, relayRecord]

/-- **C121 is false: every registration is written.** A relay client that registers, for the first time or again,
makes the file longer by its record after four bytes of size, whatever is in the file already. -/
theorem C121_again {E : PeerEnv} (hl : LawfulPoR E.por) {s : Tables} (h : Reachable E (Sensible E) s) {k : Nat}
    {rem : Remote} {p : Pipe} {r : AgentRecord} (hk : s.relays k = .fresh) (hp : Sensible E (.relay k rem p))
    (hr : Registers E r (.relay k rem p)) :
    ∃ b, b ≠ [] ∧ AgentRecord.decode b = some r ∧
      (s.run E (registration rem p k)).file = s.file ++ be32 b.length ++ b ∧
      (s.run E (registration rem p k)).saved = s.saved ++ [r] := by
  have hs := sound_of_registers hl h hk hp hr
  have hsv : saveRecord E.broken r = some (frame (Proto.encodeFields r.fields)) :=
    saveRecord_eq (peerId := fun _ => some []) ⟨hs.texts, hs.nonzero, hs.small, rfl⟩
  refine ⟨Proto.encodeFields r.fields, ?_, ?_, ?_⟩
  · intro hc
    have := AgentRecord.encoding_pos hs.nonzero
    rw [hc] at this
    simp at this
  · exact C18_record_round_trip (by unfold AgentRecord.encode; rw [if_pos (AgentRecord.utf8_iff _ |>.2 hs.texts)]) (by have := hs.small; omega)
  · rw [registration_run hk hr hsv]
    refine ⟨?_, rfl⟩
    show s.file ++ frame _ = _
    unfold frame
    rw [List.append_assoc]

/-- Registrations of one client on one stream after the other. -/
def manyTimes (rem : Remote) (p : Pipe) : Nat → List Step
  | 0 => []
  | n + 1 => manyTimes rem p n ++ registration rem p n

/-- **C121 is false: one client fills the file.** A single relay client that registers again and again, as it does
whenever it restarts, makes the file as long as one likes, while there is one record in memory, its own. -/
theorem C121_one_client {E : PeerEnv} (hl : LawfulPoR E.por) {s : Tables} (h : Reachable E (Sensible E) s)
    (hk : ∀ k, s.relays k = .fresh) {rem : Remote} {p : Pipe} {r : AgentRecord}
    (hp : Sensible E (.relay 0 rem p)) (hr : Registers E r (.relay 0 rem p)) (n : Nat) :
    Reachable E (Sensible E) (s.run E (manyTimes rem p n)) ∧
    s.file.length + 5 * n ≤ (s.run E (manyTimes rem p n)).file.length ∧
    (s.run E (manyTimes rem p n)).saved = s.saved ++ List.replicate n r ∧
    ∀ a, a ≠ r.address →
      (s.run E (manyTimes rem p n)).peer.agentRecords.get a = s.peer.agentRecords.get a := by
  have main : ∀ n, Reachable E (Sensible E) (s.run E (manyTimes rem p n)) ∧
      s.file.length + 5 * n ≤ (s.run E (manyTimes rem p n)).file.length ∧
      (s.run E (manyTimes rem p n)).saved = s.saved ++ List.replicate n r ∧
      (∀ a, a ≠ r.address →
        (s.run E (manyTimes rem p n)).peer.agentRecords.get a = s.peer.agentRecords.get a) ∧
      ∀ k, n ≤ k → (s.run E (manyTimes rem p n)).relays k = .fresh := by
    intro n
    induction n with
    | zero =>
      refine ⟨h, Nat.le_refl _, ?_, fun _ _ => rfl, fun k _ => hk k⟩
      simp [manyTimes, Tables.run]
    | succ n ih =>
      obtain ⟨i1, i2, i3, i4, i5⟩ := ih
      have hrun : s.run E (manyTimes rem p (n + 1)) =
          (s.run E (manyTimes rem p n)).run E (registration rem p n) := by
        simp [manyTimes, Tables.run, List.foldl_append]
      rw [hrun]
      generalize s.run E (manyTimes rem p n) = t at i1 i2 i3 i4 i5
      have hpn : Sensible E (.relay n rem p) := hp
      have hrn : Registers E r (.relay n rem p) := hr
      have hkn := i5 n (Nat.le_refl n)
      obtain ⟨b, hb, _, hf, hv⟩ := C121_again hl i1 hkn hpn hrn
      have hs := sound_of_registers hl i1 hkn hpn hrn
      have hsv : saveRecord E.broken r = some (frame (Proto.encodeFields r.fields)) :=
        saveRecord_eq (peerId := fun _ => some []) ⟨hs.texts, hs.nonzero, hs.small, rfl⟩
      refine ⟨?_, ?_, ?_, ?_, ?_⟩
      · exact .step (.relayPeer n true) (.step (.relayRecord n) (.step _ i1 hpn) trivial) trivial
      · rw [hf]
        simp only [List.length_append]
        have : 0 < b.length := List.length_pos_iff.2 hb
        have h4 : (be32 b.length).length = 4 := rfl
        omega
      · rw [hv, i3, List.append_assoc, ← List.replicate_succ']
      · intro a ha
        rw [registration_run hkn hrn hsv]
        dsimp only
        rw [GoMap.get_set, if_neg ha, i4 a ha]
      · intro k hk
        rw [registration_run hkn hrn hsv]
        dsimp only
        rw [if_neg (by omega)]
        exact i5 k (by omega)
  exact ⟨(main n).1, (main n).2.1, (main n).2.2.1, (main n).2.2.2.1⟩

/-! ## What there is instead -/

/-- What is in memory and in the file has been registered. -/
structure Origin (E : PeerEnv) (s0 : Tables) (steps : List Step) (s : Tables) : Prop where
  conns : ∀ c r, connRecord (s.conns c) = some r → ∃ st ∈ steps, Registers E r st
  relays : ∀ k, s.relays k ≠ .fresh → AcceptedOn E steps k
  relayRec : ∀ k r rem, relayRecord (s.relays k) = some (r, rem) → ∃ st ∈ steps, Registers E r st
  records : ∀ a r, s.peer.agentRecords.get a = some r →
    s0.peer.agentRecords.get a = some r ∨ r.address = a ∧ ∃ st ∈ steps, Registers E r st
  saved : ∃ rs, s.saved = s0.saved ++ rs ∧ (∀ r ∈ rs, ∃ st ∈ steps, Registers E r st) ∧
    ∃ ks : List Nat, ks.Nodup ∧ rs.length = ks.length ∧ ∀ k ∈ ks, s.relays k = .done

theorem Origin.step {E : PeerEnv} {s0 s : Tables} {steps : List Step} (h : Origin E s0 steps s) (st : Step) :
    Origin E s0 (steps ++ [st]) (s.step E st) := by
  have more : ∀ {r : AgentRecord}, (∃ st ∈ steps, Registers E r st) → ∃ st' ∈ steps ++ [st], Registers E r st' :=
    fun ⟨x, hx, hr⟩ => ⟨x, List.mem_append_left _ hx, hr⟩
  have moreOn : ∀ {k : Nat}, AcceptedOn E steps k → AcceptedOn E (steps ++ [st]) k :=
    fun ⟨rem, p, r, hm, hr⟩ => ⟨rem, p, r, List.mem_append_left _ hm, hr⟩
  have keep : Origin E s0 (steps ++ [st]) s := by
    obtain ⟨rs, h1, h2, ks, h3⟩ := h.saved
    exact ⟨fun c r hr => more (h.conns c r hr), fun k hk => moreOn (h.relays k hk),
      fun k r rem hr => more (h.relayRec k r rem hr),
      fun a r hr => (h.records a r hr).imp id fun ⟨x, y⟩ => ⟨x, more y⟩,
      ⟨rs, h1, fun r hr => more (h2 r hr), ks, h3⟩⟩
  have setC : ∀ (c : Nat) (ph : ConnPhase),
      (∀ r, connRecord ph = some r → ∃ st' ∈ steps ++ [st], Registers E r st') → ∀ c' r,
      connRecord (s.setConn c ph c') = some r → ∃ st' ∈ steps ++ [st], Registers E r st' := by
    intro c ph hp c' r hr
    unfold setConn at hr
    split at hr
    · exact hp r hr
    · exact keep.conns c' r hr
  have setR : ∀ (k : Nat) (ph : RelayPhase),
      (∀ r rem, relayRecord ph = some (r, rem) → ∃ st' ∈ steps ++ [st], Registers E r st') → ∀ k' r rem,
      relayRecord (s.setRelay k ph k') = some (r, rem) → ∃ st' ∈ steps ++ [st], Registers E r st' := by
    intro k ph hp k' r rem hr
    unfold setRelay at hr
    split at hr
    · exact hp r rem hr
    · exact keep.relayRec k' r rem hr
  have setF : ∀ (k : Nat) (ph : RelayPhase), AcceptedOn E (steps ++ [st]) k → ∀ k',
      s.setRelay k ph k' ≠ .fresh → AcceptedOn E (steps ++ [st]) k' := by
    intro k ph hp k' hr
    unfold setRelay at hr
    split at hr
    · next e => rw [e]; exact hp
    · exact keep.relays k' hr
  have setD : ∀ (k : Nat) (ph : RelayPhase), s.relays k ≠ .done → ∀ ks : List Nat,
      (∀ x ∈ ks, s.relays x = .done) → ∀ x ∈ ks, s.setRelay k ph x = .done := by
    intro k ph hn ks hks x hx
    unfold setRelay
    rw [if_neg (fun e : x = k => hn (by rw [← e]; exact hks x hx))]
    exact hks x hx
  have setG : ∀ (r : AgentRecord), (∃ st' ∈ steps ++ [st], Registers E r st') → ∀ a r',
      (s.peer.agentRecords.set r.address r).get a = some r' →
      s0.peer.agentRecords.get a = some r' ∨ r'.address = a ∧ ∃ st' ∈ steps ++ [st], Registers E r' st' := by
    intro r hr a r' hg
    rw [GoMap.get_set] at hg
    split at hg
    · next e => cases hg; exact .inr ⟨e.symm, hr⟩
    · exact keep.records a r' hg
  cases st with
  | delegate c p =>
    unfold Tables.step
    dsimp only
    split
    · next r h1 h2 =>
      refine { keep with conns := setC c _ fun r' hr' => ?_ }
      cases hr'
      exact ⟨_, List.mem_append_right _ (List.mem_singleton.2 rfl), h2⟩
    · exact keep
  | delegateRecord c =>
    unfold Tables.step
    dsimp only
    split
    · next r h1 =>
      have hr : ∃ st' ∈ steps ++ [Step.delegateRecord c], Registers E r st' := keep.conns c r (by rw [h1]; rfl)
      exact { keep with conns := setC c _ fun r' hr' => (by cases hr'; exact hr), records := setG r hr }
    · exact keep
  | delegateConn c =>
    unfold Tables.step
    dsimp only
    split
    · next r h1 =>
      exact { keep with
        conns := setC c _ fun r' hr' => (by cases hr'; exact keep.conns c r (by rw [h1]; rfl)) }
    · exact keep
  | delegateFail c =>
    unfold Tables.step
    dsimp only
    split
    · next r h1 =>
      exact { keep with
        conns := setC c _ fun r' hr' => (by cases hr'; exact keep.conns c r (by rw [h1]; rfl)) }
    · exact keep
  | delegateEnd c =>
    unfold Tables.step
    dsimp only
    split
    · exact { keep with conns := setC c _ fun r' hr' => (by cases hr') }
    · exact keep
  | relay k rem p =>
    unfold Tables.step
    dsimp only
    split
    · next r h1 h2 =>
      obtain ⟨rs, s1, s2, ks, s3, s4, s5⟩ := keep.saved
      exact { keep with
        relays := setF k _ ⟨rem, p, r, List.mem_append_right _ (List.mem_singleton.2 rfl), h2⟩
        relayRec := setR k _ fun r' rem' hr' => (by
          cases hr'; exact ⟨_, List.mem_append_right _ (List.mem_singleton.2 rfl), h2⟩)
        saved := ⟨rs, s1, s2, ks, s3, s4, setD k _ (by rw [h1]; simp) ks s5⟩ }
    · exact keep
  | relayRecord k =>
    unfold Tables.step
    dsimp only
    split
    · next r rem h1 =>
      obtain ⟨rs, s1, s2, ks, s3, s4, s5⟩ := keep.saved
      have hr : ∃ st' ∈ steps ++ [Step.relayRecord k], Registers E r st' :=
        keep.relayRec k r rem (by rw [h1]; rfl)
      exact { keep with
        relays := setF k _ (keep.relays k (by rw [h1]; simp))
        relayRec := setR k _ fun r' rem' hr' => (by cases hr'; exact hr)
        records := setG r hr
        saved := ⟨rs, s1, s2, ks, s3, s4, setD k _ (by rw [h1]; simp) ks s5⟩ }
    · exact keep
  | relayPeer k w =>
    unfold Tables.step
    dsimp only
    split
    · next r rem h1 =>
      obtain ⟨rs, s1, s2, ks, s3, s4, s5⟩ := keep.saved
      have hr : ∃ st' ∈ steps ++ [Step.relayPeer k w], Registers E r st' :=
        keep.relayRec k r rem (by rw [h1]; rfl)
      have hks := setD k .done (by rw [h1]; simp) ks s5
      have hF := setF k .done (keep.relays k (by rw [h1]; simp))
      have hR := setR k .done fun r' rem' hr' => (by cases hr')
      split
      · refine { keep with
          relays := hF
          relayRec := hR
          saved := ⟨rs ++ [r], ?_, ?_, k :: ks, ?_, ?_, ?_⟩ }
        · dsimp only
          rw [s1, List.append_assoc]
        · intro x hx
          rcases List.mem_append.1 hx with hx | hx
          · exact s2 x hx
          · rw [List.mem_singleton.1 hx]; exact hr
        · refine List.nodup_cons.2 ⟨fun hc => ?_, s3⟩
          have := s5 k hc
          rw [h1] at this
          exact absurd this (by simp)
        · simp [s4]
        · intro x hx
          rcases List.mem_cons.1 hx with hx | hx
          · rw [hx]; simp [setRelay]
          · exact hks x hx
      · exact { keep with relays := hF, relayRec := hR, saved := ⟨rs, s1, s2, ks, s3, s4, hks⟩ }
    · exact keep
  | mailbox st => exact { keep with }
  | route n e =>
    obtain ⟨mb, he, _⟩ := routeEnvelope_tables s.peer n e
    unfold Tables.step
    dsimp only
    rw [he]
    exact { keep with }
  | handle n e =>
    obtain ⟨mb, he, _⟩ := handleAeaEnvelope_tables s.peer n e
    unfold Tables.step
    dsimp only
    rw [he]
    exact { keep with }

/-- **C121, partial: what there is has been registered.** After any number of steps, every record in memory is the
record of a registration the peer has accepted or was loaded when it started, and every record the file has got is
the record of a registration that was accepted, on a stream of its own: there are no more records in the file than
registrations of relay clients. Missing: that what is no longer needed is given up, which is false. -/
theorem C121_partial {E : PeerEnv} {own : Option AgentRecord} {ha mb : Bool} {file : Bytes}
    {saved : List AgentRecord} {s0 : Tables} (h : start E own ha mb file saved = some s0) (steps : List Step) :
    (∀ a r, (s0.run E steps).peer.agentRecords.get a = some r →
      s0.peer.agentRecords.get a = some r ∨ r.address = a ∧ ∃ st ∈ steps, Registers E r st) ∧
    ∃ rs, (s0.run E steps).saved = saved ++ rs ∧ (∀ r ∈ rs, ∃ st ∈ steps, Registers E r st) ∧
      ∃ ks : List Nat, ks.Nodup ∧ rs.length = ks.length ∧ ∀ k ∈ ks, AcceptedOn E steps k := by
  have hs : (∀ c, s0.conns c = .fresh) ∧ (∀ k, s0.relays k = .fresh) ∧ s0.saved = saved := by
    unfold start at h
    split at h
    · split at h
      · cases h; exact ⟨fun _ => rfl, fun _ => rfl, rfl⟩
      · cases h
    · cases h
  have h0 : Origin E s0 [] s0 := by
    refine ⟨?_, ?_, ?_, fun a r hr => .inl hr, [], by simp, by simp, [], by simp⟩
    · intro c r hr; rw [hs.1] at hr; cases hr
    · intro k hk; exact absurd (hs.2.1 k) hk
    · intro k r rem hr; rw [hs.2.1] at hr; cases hr
  have all : ∀ (rest H : List Step) (s : Tables), Origin E s0 H s →
      Origin E s0 (H ++ rest) (rest.foldl (Tables.step E) s) := by
    intro rest
    induction rest with
    | nil => intro H s h; rw [List.append_nil]; exact h
    | cons st rest ih =>
      intro H s h
      have := ih _ _ (h.step st)
      rw [List.append_assoc] at this
      exact this
  have hf := all steps [] s0 h0
  rw [List.nil_append] at hf
  refine ⟨hf.records, ?_⟩
  obtain ⟨rs, s1, s2, ks, s3, s4, s5⟩ := hf.saved
  refine ⟨rs, ?_, s2, ks, s3, s4, fun k hk => hf.relays k ?_⟩
  · rw [← hs.2.2]; exact s1
  · have := s5 k hk
    intro hc
    rw [hc] at this
    cases this

/-- **C121, partial: a restart forgets everybody but relay clients.** A peer that has just started has records of
exactly the addresses in its file, one for each, and they are its relay clients. It has read all records of the
file for it. -/
theorem C121_restart {E : PeerEnv} (hl : LawfulPoR E.por) {s s' : Tables} (h : Reachable E (Sensible E) s)
    {own : Option AgentRecord} {ha mb : Bool} (h' : start E own ha mb s.file s.saved = some s') (a : Bytes) :
    ((s'.peer.agentRecords.get a).isSome ↔ ∃ r ∈ s.saved, r.address = a) ∧
    ((s'.peer.dhtAddresses.get a).isSome ↔ ∃ r ∈ s.saved, r.address = a) ∧
    (∃ l, loadRecords E.peerId s.file = .ok (l, s.saved.length)) ∧
    s'.file = s.file := by
  have hi := h.inv hl (fun _ h => h)
  have hfile := hi.file
  rw [hfile] at h'
  obtain ⟨hsav, hf, _, _, _, hrec, hdht, _⟩ := start_some (fun r hr => (hi.saved r hr).2) h'
  have hlast : (lastRecord s.saved a).isSome ↔ ∃ r ∈ s.saved, r.address = a := by
    constructor
    · intro hx
      obtain ⟨r, hr⟩ := Option.isSome_iff_exists.1 hx
      exact ⟨r, lastRecord_mem hr⟩
    · rintro ⟨r, hr, rfl⟩
      unfold lastRecord
      rw [List.find?_isSome]
      exact ⟨r, List.mem_reverse.2 hr, by simp⟩
  refine ⟨by rw [hrec]; exact hlast, ?_, ?_, by rw [hf, hfile]⟩
  · rw [hdht, ← hlast]
    cases hx : lastRecord s.saved a with
    | none => simp
    | some r =>
      have := (hsav r (lastRecord_mem hx).1).key
      simp only [Option.bind_some, Option.isSome_some, iff_true]
      exact this
  · obtain ⟨fuel, hfu, he⟩ := loadRecords_append hsav []
    rw [List.append_nil] at he
    rw [hfile, he, loadAux_nil E.peerId (by omega)]
    exact ⟨_, rfl⟩

/-! ## Concrete cases -/

namespace RememberedDemo

open TablesDemo

set_option maxRecDepth 100000 in
theorem registers : Registers E (rec (b! "xx")) (.relay 0 ⟨b! "xx", b! "id-xx"⟩ (reg (b! "xx"))) := by
  show (acceptRegistration _ _ _ _ _).1 = _
  decide

/-- **C121 is false**: one agent registers with one peer a thousand times, and the file has five thousand bytes and
more; there is no record of any other agent. -/
theorem _root_.Verif.C121_counterexample :
    Reachable E (Sensible E) (run E init (manyTimes ⟨b! "xx", b! "id-xx"⟩ (reg (b! "xx")) 1000)) ∧
    5000 ≤ (run E init (manyTimes ⟨b! "xx", b! "id-xx"⟩ (reg (b! "xx")) 1000)).file.length ∧
    (run E init (manyTimes ⟨b! "xx", b! "id-xx"⟩ (reg (b! "xx")) 1000)).saved.length = 1000 ∧
    ∀ a, a ≠ b! "ag" →
      (run E init (manyTimes ⟨b! "xx", b! "id-xx"⟩ (reg (b! "xx")) 1000)).peer.agentRecords.get a = none := by
  have hp : Sensible E (.relay 0 ⟨b! "xx", b! "id-xx"⟩ (reg (b! "xx"))) :=
    both_sensible _ (by simp [both])
  obtain ⟨h1, h2, h3, h4⟩ := C121_one_client lawful (init_reachable _) (fun _ => rfl) hp registers 1000
  have h0 : init.file.length = 0 ∧ init.saved = [] := ⟨rfl, rfl⟩
  refine ⟨h1, by omega, by rw [h3, h0.2, List.nil_append, List.length_replicate], ?_⟩
  intro a ha
  rw [h4 a ha]
  exact GoMap.get_empty a

/-- A delegate that has left is still in memory. -/
example : ∃ s : Tables, s = run E init [.delegate 0 (reg (b! "pk")), .delegateRecord 0, .delegateConn 0, .delegateEnd 0] ∧
    s.peer.tcpAddresses.get (b! "ag") = none ∧ (s.peer.agentRecords.get (b! "ag")).isSome := by
  refine ⟨_, rfl, ?_, ?_⟩ <;> decide +kernel

end RememberedDemo

end Remembered

end Verif
