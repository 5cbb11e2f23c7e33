import Verif.Model.PeerLocks

/-!
# C100: the locks of a peer do not keep it waiting

The property: whatever other peers and clients do, the threads of a peer do not keep each other waiting for ever: as
long as a thread has something to do other than wait for somebody outside, some thread can go on. It is false because
of `get_envelope`; without it, it holds for all numbers of threads and all schedules.
-/

namespace Verif

open LockOp LockState

/-! ## The order of the locks -/

/-- Ranks: a thread only takes locks of a higher rank than those it holds. -/
def LockName.rank : LockName → Nat
  | .group => 0
  | .announced | .enabled | .metric => 2
  | _ => 1

/-- A call that may take for ever. -/
def LockIo.Endless : LockIo → Bool
  | .remote | .agent | .chan => true
  | _ => false

/-- The locks held after operations, `none` if they do not keep to the order: a lock of too low a rank is taken, the
wait group is entered or waited for with a lock held, a lock is released that is not held or, if `strict`, somebody
else is waited for with a lock held. -/
def lockTrack (strict : Bool) : List LockName → List LockOp → Option (List LockName)
  | held, [] => some held
  | held, .lock l :: r => if 0 < l.rank ∧ held.all (·.rank < l.rank) then lockTrack strict (l :: held) r else none
  | held, .rlock l :: r => if 0 < l.rank ∧ held.all (·.rank < l.rank) then lockTrack strict (l :: held) r else none
  | held, .enter :: r => if held = [] then lockTrack strict [.group] r else none
  | held, .release l :: r => if l ∈ held then lockTrack strict (held.eraseP (· == l)) r else none
  | held, .await :: r => if held = [] then lockTrack strict held r else none
  | held, .io k :: r => if strict && k.Endless && !held.isEmpty then none else lockTrack strict held r

theorem lockTrack_append (strict : Bool) :
    ∀ (p q : List LockOp) (held : List LockName),
      lockTrack strict held (p ++ q) = (lockTrack strict held p).bind fun h => lockTrack strict h q
  | [], q, held => rfl
  | op :: p, q, held => by
    cases op <;> simp only [List.cons_append, lockTrack] <;> split <;>
      first | rfl | exact lockTrack_append strict p q _

theorem lockTrack_flatMap (strict : Bool) {α : Type} (f : α → List LockOp) (held : List LockName)
    (h : ∀ x, lockTrack strict held (f x) = some held) :
    ∀ l : List α, lockTrack strict held (l.flatMap f) = some held
  | [] => rfl
  | a :: l => by
    rw [List.flatMap_cons, lockTrack_append, h a]
    exact lockTrack_flatMap strict f held h l

theorem lockTrack_registerOps (held : List LockName) (hh : held.all (·.rank < 2)) (c : AnnounceCase) :
    lockTrack true held (registerOps c) = some held := by
  have r1 : LockName.announced.rank = 2 := rfl
  have r2 : LockName.metric.rank = 2 := rfl
  cases c <;> simp [registerOps, sec, look, lockTrack, r1, r2, LockIo.Endless] <;> simpa using hh

theorem lockTrack_senderOps (mb : Bool) (s : SenderCase) : lockTrack true [] (senderOps mb s) = some [] := by
  cases s with
  | own => rfl
  | box still => cases mb <;> cases still <;> rfl
  | other => cases mb <;> rfl

theorem lockTrack_routeOps (mb : Bool) (s : SenderCase) (t : TargetCase) :
    lockTrack true [] (routeOps mb s t) = some [] := by
  unfold routeOps
  simp only [lockTrack_append, lockTrack_senderOps, Option.bind_some]
  cases t with
  | lookup s' slow =>
    simp only [lockTrack_append]
    cases mb <;> cases slow <;> simp [lockTrack, rsec, sec, LockName.rank, LockIo.Endless, lockTrack_senderOps]
  | _ => cases mb <;> rfl

/-- The one program that waits for a client with a lock held. -/
def getEnvelopeOps (taken : Bool) : List LockOp :=
  [lock .mailbox, io (.use .mailbox false), io .remote] ++ (if taken then [io (.use .mailbox true)] else []) ++
    [release .mailbox]

theorem lockTrack_announceOps (held : List LockName) (hh : held.all (·.rank < 2)) (l : LockName)
    (cs : List AnnounceCase) : lockTrack true held (announceOps l cs) = some held := by
  have e1 : lockTrack true held [io (.use l false)] = some held := by simp [lockTrack, LockIo.Endless]
  unfold announceOps
  rw [lockTrack_append, lockTrack_flatMap true _ held (fun c => ?_) cs]
  · exact e1
  · rw [← List.singleton_append, lockTrack_append, e1]
    exact lockTrack_registerOps held hh c

theorem lockTrack_program {mb : Bool} {p : List LockOp} (h : PeerProgram mb p) :
    lockTrack true [] p = some [] ∨ ∃ b, p = getEnvelopeOps b := by
  cases h with
  | apiGet b => exact .inr ⟨b, rfl⟩
  | apiGetEmpty => exact .inl rfl
  | mailboxStart => exact .inl rfl
  | load records stored =>
    left
    have h0 : ∀ n, lockTrack true []
        (List.replicate n [io .file, io (.use .records true), io (.use .dht true)]).flatten = some [] := by
      intro n
      induction n with
      | zero => rfl
      | succ n ih => rw [List.replicate_succ, List.flatten_cons, lockTrack_append]; exact ih
    have h1 : ∀ cs, lockTrack true [] (announceOps .dht cs) = some [] :=
      lockTrack_announceOps [] (by decide) .dht
    have h3 : ∀ c, lockTrack true [] (registerOps c) = some [] := lockTrack_registerOps _ (by decide)
    have e1 : lockTrack true [] [io (.use .enabled true)] = some [] := rfl
    have e2 : lockTrack true [] (look .announced) = some [] := rfl
    have e4 : lockTrack true [] [] = some [] := rfl
    rcases stored with _ | ⟨cs, _ | c⟩ <;>
      simp only [loadOps, lockTrack_append, h0, h1, h3, e1, e2, e4, Option.bind_some]
  | route s t => exact .inl (lockTrack_routeOps mb s t)
  | worker l =>
    left
    rw [lockTrack_append]
    exact lockTrack_flatMap true (fun x : SenderCase × TargetCase => io .chan :: routeOps mb x.1 x.2) []
      (fun x => lockTrack_routeOps mb x.1 x.2) l
  | slow l =>
    left
    refine lockTrack_flatMap true _ [] (fun s => ?_) l
    rw [List.cons_append]
    show lockTrack true [] (senderOps mb s ++ [io .remote]) = _
    rw [lockTrack_append, lockTrack_senderOps]
    rfl
  | handleEnvelope t => left; cases mb <;> rcases t with _ | _ | _ <;> rfl
  | addressRequest t => left; cases mb <;> rcases t with _ | _ | _ <;> rfl
  | notif found own relay tcp =>
    left
    cases found with
    | false => rfl
    | true =>
      have h1 : lockTrack true [.dht, .group] (announceOps .dht relay) = some [.dht, .group] :=
        lockTrack_announceOps _ (by decide) .dht relay
      have h2 : lockTrack true [.tcp, .group] (announceOps .tcp tcp) = some [.tcp, .group] :=
        lockTrack_announceOps _ (by decide) .tcp tcp
      have h3 : ∀ c, lockTrack true [.group] (registerOps c) = some [.group] :=
        lockTrack_registerOps _ (by decide)
      have e1 : lockTrack true [] [enter, io .timer] = some [.group] := rfl
      have e2 : lockTrack true [.group] [rlock .dht] = some [.dht, .group] := rfl
      have e3 : lockTrack true [.dht, .group] [release .dht] = some [.group] := rfl
      have e4 : lockTrack true [.group] [rlock .tcp] = some [.tcp, .group] := rfl
      have e5 : lockTrack true [.tcp, .group] [release .tcp] = some [.group] := rfl
      have e6 : lockTrack true [.group] (sec .enabled) = some [.group] := rfl
      have e7 : lockTrack true [.group] [release .group] = some [] := rfl
      have e8 : lockTrack true [.group] (look .announced) = some [.group] := rfl
      have e9 : lockTrack true [.group] [] = some [.group] := rfl
      rw [if_pos rfl]
      cases own <;>
        simp only [lockTrack_append, h1, h2, h3, e1, e2, e3, e4, e5, e6, e7, e8, e9, Option.bind_some]
  | notifFailed own =>
    left
    have h3 : ∀ c, lockTrack true [.group] (registerOps c) = some [.group] :=
      lockTrack_registerOps _ (by decide)
    have e1 : lockTrack true [] [enter, io .timer] = some [.group] := rfl
    have e7 : lockTrack true [.group] [release .group] = some [] := rfl
    have e8 : lockTrack true [.group] (look .announced) = some [.group] := rfl
    simp only [lockTrack_append, h3, e1, e7, e8, Option.bind_some]
  | register c =>
    left
    unfold relayRegisterOps
    rw [lockTrack_append]
    show lockTrack true [] (registerOps c) = _
    exact lockTrack_registerOps _ (by decide) c
  | delegate c l =>
    left
    have h1 : lockTrack true [] (l.flatMap delegateRound) = some [] :=
      lockTrack_flatMap true _ _ (fun x => by rcases x with _ | _ | _ <;> rfl) l
    have h3 : ∀ c, lockTrack true [] (registerOps c) = some [] := lockTrack_registerOps _ (by decide)
    have e1 : lockTrack true [] [io .remote] = some [] := rfl
    have e2 : ∀ l, l ≠ .group → lockTrack true [] (sec l) = some [] := fun l hl => by
      cases l <;> first | exact absurd rfl hl | rfl
    have e3 : lockTrack true [] enabledOps = some [] := rfl
    have e4 : lockTrack true [] [] = some [] := rfl
    cases c <;> simp only [lockTrack_append, h1, h3, e1, e2, e3, e4, Option.bind_some, ne_eq, reduceCtorEq,
      not_false_eq_true]
  | close n =>
    left
    have h1 : ∀ n, lockTrack true [.tcp] (List.replicate n [io (.use .tcp false), io .hangUp]).flatten =
        some [.tcp] := by
      intro n
      induction n with
      | zero => rfl
      | succ n ih => rw [List.replicate_succ, List.flatten_cons, lockTrack_append]; exact ih
    have e1 : lockTrack true [] [lock .tcp] = some [.tcp] := rfl
    have e2 : lockTrack true [.tcp] [release .tcp, io .timer] = some [] := rfl
    have e3 : lockTrack true [] [lock .records, io .file, release .records] = some [] := rfl
    have e4 : lockTrack true [] (look .sync) = some [] := rfl
    simp only [lockTrack_append, h1, e1, e2, e3, e4, Option.bind_some]
  | apiRegister c =>
    left
    have h3 : ∀ c, lockTrack true [] (registerOps c) = some [] := lockTrack_registerOps _ (by decide)
    have e1 : lockTrack true [] [io .remote] = some [] := rfl
    have e2 : lockTrack true [] (sec .mailbox) = some [] := rfl
    have e3 : lockTrack true [] enabledOps = some [] := rfl
    have e4 : lockTrack true [] [] = some [] := rfl
    cases c <;> simp only [lockTrack_append, h3, e1, e2, e3, e4, Option.bind_some]
  | apiUnregister => exact .inl rfl
  | apiSend s t =>
    left
    rw [lockTrack_append, lockTrack_append]
    show (Option.bind (lockTrack true [] (routeOps mb s t)) _) = _
    rw [lockTrack_routeOps]
    rfl

/-! ## What the threads of a peer do -/

/-- The locks held after operations, without any check. -/
def heldAfter : List LockName → List LockOp → List LockName
  | held, [] => held
  | held, .lock l :: r => heldAfter (l :: held) r
  | held, .rlock l :: r => heldAfter (l :: held) r
  | held, .enter :: r => heldAfter (.group :: held) r
  | held, .release l :: r => heldAfter (held.eraseP (· == l)) r
  | held, .await :: r => heldAfter held r
  | held, .io _ :: r => heldAfter held r

/-- What a thread of a peer does: a program, or the beginning of one after which no lock is held. -/
def PeerThread (mb : Bool) (p : List LockOp) : Prop :=
  heldAfter [] p = [] ∧ ∃ q, PeerProgram mb (p ++ q)

/-- The threads of a history are threads of a peer. -/
def PeerHistory (mb : Bool) (l : List LockState.Step) : Prop := ∀ p, .spawn p ∈ l → PeerThread mb p

/-- Nobody asks for an envelope of the mailbox. -/
def NoGetEnvelope (l : List LockState.Step) : Prop := ∀ b, .spawn (getEnvelopeOps b) ∉ l

theorem lockTrack_heldAfter {strict : Bool} {p : List LockOp} :
    ∀ {held h : List LockName}, lockTrack strict held p = some h → heldAfter held p = h := by
  induction p with
  | nil => intro held h e; cases e; rfl
  | cons op p ih =>
    intro held h e
    cases op <;> simp only [lockTrack] at e <;> split at e
    case enter.isTrue hh => subst hh; exact ih e
    all_goals first | exact ih e | cases e

theorem lockTrack_prefix {strict : Bool} {p q : List LockOp} (h : lockTrack strict [] (p ++ q) = some [])
    (hp : heldAfter [] p = []) : lockTrack strict [] p = some [] := by
  rw [lockTrack_append] at h
  cases he : lockTrack strict [] p with
  | none => rw [he] at h; cases h
  | some x => rw [← lockTrack_heldAfter he, hp]

theorem lockTrack_thread {mb : Bool} {p : List LockOp} (h : PeerThread mb p) :
    lockTrack true [] p = some [] ∨ ∃ b, p = getEnvelopeOps b := by
  obtain ⟨hp, q, hq⟩ := h
  rcases lockTrack_program hq with h | ⟨b, h⟩
  · exact .inl (lockTrack_prefix h hp)
  · have hp' : p = (getEnvelopeOps b).take p.length := by rw [← h, List.take_left]
    have hlen : p.length ≤ (getEnvelopeOps b).length := by rw [← h, List.length_append]; omega
    generalize p.length = n at hp' hlen
    subst hp'
    by_cases hn : n = 0
    · subst hn; exact .inl rfl
    · by_cases hn' : n = (getEnvelopeOps b).length
      · subst hn'; exact .inr ⟨b, List.take_length⟩
      · cases b
        · have : n = 1 ∨ n = 2 ∨ n = 3 := by simp [getEnvelopeOps] at hlen hn'; omega
          rcases this with rfl | rfl | rfl <;> cases hp
        · have : n = 1 ∨ n = 2 ∨ n = 3 ∨ n = 4 := by simp [getEnvelopeOps] at hlen hn'; omega
          rcases this with rfl | rfl | rfl | rfl <;> cases hp

theorem lockTrack_loose {p : List LockOp} :
    ∀ {held h : List LockName}, lockTrack true held p = some h → lockTrack false held p = some h := by
  induction p with
  | nil => intro held h e; exact e
  | cons op p ih =>
    intro held h e
    cases op <;> simp only [lockTrack] at e ⊢ <;> split at e <;>
      first
        | cases e
        | (next hc => rw [if_pos hc]; exact ih e)
        | (simp only [Bool.false_and, Bool.false_eq_true, if_false]; exact ih e)

/-- A thread that keeps to the order. -/
def LockThread.Orderly (strict : Bool) (t : LockThread) : Prop :=
  lockTrack strict (t.held.map (·.1)) t.ops = some [] ∧
    (t.asked = true → ∃ l r, t.ops = lock l :: r)

theorem map_eraseP_fst (l : LockName) :
    ∀ h : List (LockName × Bool),
      (h.eraseP fun x => x.1 == l).map (·.1) = (h.map (·.1)).eraseP (· == l)
  | [] => rfl
  | x :: h => by
    by_cases hx : (x.1 == l) = true
    · simp [hx]
    · simp only [List.eraseP_cons, List.map_cons, hx]
      simp [map_eraseP_fst l h]

theorem orderly_next {strict : Bool} {s : LockState} (h : ∀ t ∈ s, t.Orderly strict) {i : Nat} {t : LockThread}
    (hn : s.next i = some t) : t.Orderly strict := by
  unfold LockState.next at hn
  cases hi : s[i]? with
  | none => rw [hi] at hn; cases hn
  | some u =>
    rw [hi] at hn
    have hu := h u (List.mem_of_getElem? hi)
    obtain ⟨hu1, hu2⟩ := hu
    obtain ⟨ops, held, asked⟩ := u
    dsimp only at hn hu1 hu2
    cases ops with
    | nil => cases hn
    | cons op r =>
      cases op with
      | lock l =>
        simp only [lockTrack] at hu1
        split at hu1
        · dsimp only at hn
          split at hn
          · split at hn
            · cases hn
            · cases hn
              exact ⟨hu1, fun h => by cases h⟩
          · split at hn
            · cases hn
            · next hc _ =>
              cases hn
              refine ⟨?_, fun _ => ⟨l, r, rfl⟩⟩
              simp only [lockTrack]
              split
              · exact hu1
              · next hc' => exact absurd ‹_› hc'
        · cases hu1
      | rlock l =>
        simp only [lockTrack] at hu1
        split at hu1
        · dsimp only at hn
          split at hn
          · cases hn
          · cases hn
            exact ⟨hu1, fun h => by cases h⟩
        · cases hu1
      | enter =>
        simp only [lockTrack] at hu1
        split at hu1
        · next he =>
          cases hn
          refine ⟨?_, fun h => by cases h⟩
          simp only [LockThread.done, List.map_cons, he]
          exact hu1
        · cases hu1
      | release l =>
        simp only [lockTrack] at hu1
        split at hu1
        · cases hn
          refine ⟨?_, fun h => by cases h⟩
          simp only [LockThread.done]
          rw [map_eraseP_fst]
          exact hu1
        · cases hu1
      | await =>
        simp only [lockTrack] at hu1
        split at hu1
        · dsimp only at hn
          split at hn
          · cases hn
          · cases hn
            exact ⟨hu1, fun h => by cases h⟩
        · cases hu1
      | io k =>
        simp only [lockTrack] at hu1
        split at hu1
        · cases hu1
        · cases hn
          exact ⟨hu1, fun h => by cases h⟩

theorem orderly_run {strict : Bool} :
    ∀ (l : List LockState.Step) (s : LockState), (∀ t ∈ s, t.Orderly strict) →
      (∀ p, .spawn p ∈ l → lockTrack strict [] p = some []) → ∀ t ∈ s.run l, t.Orderly strict
  | [], s, h, _ => h
  | x :: l, s, h, hl => by
    rw [LockState.run, List.foldl_cons]
    refine orderly_run l _ ?_ (fun p hp => hl p (List.mem_cons_of_mem _ hp))
    cases x with
    | go i =>
      simp only [LockState.step]
      split
      · next t hn =>
        intro u hu
        rcases List.mem_or_eq_of_mem_set hu with hu | rfl
        · exact h u hu
        · exact orderly_next h hn
      · exact h
    | spawn p =>
      intro u hu
      simp only [LockState.step] at hu
      rcases List.mem_append.1 hu with hu | hu
      · exact h u hu
      · rw [List.mem_singleton] at hu
        subst hu
        exact ⟨hl p List.mem_cons_self, fun h => by cases h⟩

/-! ## Progress -/

/-- The lock that the thread needs next. -/
def LockThread.needs (t : LockThread) : Option LockName :=
  match t.ops.head? with
  | some (.lock l) => some l
  | some (.rlock l) => some l
  | _ => none

theorem needs_rank {strict : Bool} {t : LockThread} (h : t.Orderly strict) {l l' : LockName}
    (hl : t.holds l = true) (hn : t.needs = some l') : l.rank < l'.rank := by
  obtain ⟨ops, held, asked⟩ := t
  have hmem : l ∈ held.map (·.1) := by
    unfold LockThread.holds at hl
    rw [List.any_eq_true] at hl
    obtain ⟨x, hx, he⟩ := hl
    rw [beq_iff_eq] at he
    exact List.mem_map.2 ⟨x, hx, he⟩
  have h1 := h.1
  dsimp only at h1
  unfold LockThread.needs at hn
  cases ops with
  | nil => cases hn
  | cons op r =>
    cases op <;> simp only [List.head?_cons] at hn <;>
      first
        | (cases hn; simp only [lockTrack] at h1; split at h1;
           · next hc => exact of_decide_eq_true (List.all_eq_true.1 hc.2 l hmem)
           · cases h1)
        | cases hn

theorem holder_goes_on {s : LockState} {strict : Bool} (h : ∀ t ∈ s, t.Orderly strict) {i : Nat}
    {t : LockThread} (hi : s[i]? = some t) {l : LockName} (hl : t.holds l = true) :
    (s.next i).isSome = true ∨ ∃ l', t.needs = some l' ∧ l.rank < l'.rank := by
  have ho := h t (List.mem_of_getElem? hi)
  cases hn : t.needs with
  | some l' => exact .inr ⟨l', rfl, needs_rank ho hl hn⟩
  | none =>
    left
    obtain ⟨ops, held, asked⟩ := t
    have hne : held ≠ [] := by rintro rfl; cases hl
    have h1 := ho.1
    dsimp only at h1
    unfold LockState.next
    rw [hi]
    cases ops with
    | nil =>
      simp only [lockTrack, Option.some.injEq, List.map_eq_nil_iff] at h1
      exact absurd h1 hne
    | cons op r =>
      cases op with
      | lock l => cases hn
      | rlock l => cases hn
      | await =>
        simp only [lockTrack, List.map_eq_nil_iff] at h1
        rw [if_neg hne] at h1
        cases h1
      | _ => rfl

/-- Threads that are waiting for somebody outside or for a channel. -/
def LockState.Outside (s : LockState) (i : Nat) : Prop :=
  ∃ t k, s[i]? = some t ∧ t.ops.head? = some (io k) ∧ k.Endless = true

/-- A thread of a peer can go on that does not wait for somebody outside. -/
def LockState.GoesOn (s : LockState) : Prop := ∃ i, (s.next i).isSome = true ∧ ¬ s.Outside i

theorem needs_or_holder {s : LockState} {i : Nat} {t : LockThread} (hi : s[i]? = some t) {l : LockName}
    (hn : t.needs = some l) :
    s.GoesOn ∨ ∃ (j : Nat) (u : LockThread), s[j]? = some u ∧ u.holds l = true := by
  have holder : s.any (·.holds l) = true → ∃ (j : Nat) (u : LockThread), s[j]? = some u ∧ u.holds l = true := by
    intro hw
    rw [List.any_eq_true] at hw
    obtain ⟨u, hu, hw⟩ := hw
    obtain ⟨j, hj⟩ := List.mem_iff_getElem?.1 hu
    exact ⟨j, u, hj, hw⟩
  have writer : s.any (·.writes l) = true → s.any (·.holds l) = true := by
    intro hw
    rw [List.any_eq_true] at hw ⊢
    obtain ⟨u, hu, hw⟩ := hw
    refine ⟨u, hu, ?_⟩
    unfold LockThread.writes at hw
    unfold LockThread.holds
    rw [List.any_eq_true] at hw ⊢
    obtain ⟨x, hx, he⟩ := hw
    rw [Bool.and_eq_true] at he
    exact ⟨x, hx, he.1⟩
  have wanter : s.any (·.wants l) = true → s.GoesOn ∨ s.any (·.holds l) = true := by
    intro hw
    by_cases hh : s.any (·.holds l) = true
    · exact .inr hh
    · left
      rw [List.any_eq_true] at hw
      obtain ⟨u, hu, hw⟩ := hw
      obtain ⟨j, hj⟩ := List.mem_iff_getElem?.1 hu
      unfold LockThread.wants at hw
      rw [Bool.and_eq_true, beq_iff_eq] at hw
      obtain ⟨ops, held, asked⟩ := u
      obtain ⟨h1, h2⟩ := hw
      dsimp only at h1 h2
      cases ops with
      | nil => cases h2
      | cons op r =>
        rw [List.head?_cons, Option.some.injEq] at h2
        subst h1 h2
        refine ⟨j, ?_, ?_⟩
        · unfold LockState.next
          rw [hj]
          dsimp only
          rw [if_pos rfl, if_neg hh]
          rfl
        · rintro ⟨t', k, ht', hk, _⟩
          rw [hj] at ht'
          cases ht'
          cases hk
  by_cases hnext : (s.next i).isSome = true
  · left
    refine ⟨i, hnext, ?_⟩
    rintro ⟨t', k, ht', hk, _⟩
    rw [hi] at ht'
    cases ht'
    unfold LockThread.needs at hn
    rw [hk] at hn
    cases hn
  · have hnone : s.next i = none := by
      cases h : s.next i with
      | none => rfl
      | some x => rw [h] at hnext; exact absurd rfl hnext
    obtain ⟨ops, held, asked⟩ := t
    unfold LockState.next at hnone
    rw [hi] at hnone
    cases ops with
    | nil => cases hn
    | cons op r =>
      cases op with
      | lock l' =>
        cases hn
        dsimp only at hnone
        split at hnone
        · split at hnone
          · next hh => exact .inr (holder hh)
          · cases hnone
        · split at hnone
          · next hh =>
            rw [Bool.or_eq_true] at hh
            rcases hh with hh | hh
            · rcases wanter hh with h | h
              · exact .inl h
              · exact .inr (holder h)
            · exact .inr (holder (writer hh))
          · cases hnone
      | rlock l' =>
        cases hn
        dsimp only at hnone
        split at hnone
        · next hh =>
          rw [Bool.or_eq_true] at hh
          rcases hh with hh | hh
          · rcases wanter hh with h | h
            · exact .inl h
            · exact .inr (holder h)
          · exact .inr (holder (writer hh))
        · cases hnone
      | _ => cases hn

theorem holder_progress {s : LockState} (h : ∀ t ∈ s, t.Orderly true) :
    ∀ (n : Nat) (l : LockName), 3 ≤ l.rank + n →
      (∃ (j : Nat) (u : LockThread), s[j]? = some u ∧ u.holds l = true) → s.GoesOn
  | 0, l, hr, _ => by cases l <;> simp [LockName.rank] at hr
  | n + 1, l, hr, ⟨j, u, hj, hu⟩ => by
    rcases holder_goes_on h hj hu with hs | ⟨l', hn, hlt⟩
    · refine ⟨j, hs, ?_⟩
      rintro ⟨t, k, ht, hk, hke⟩
      rw [hj] at ht
      cases ht
      have h1 := (h u (List.mem_of_getElem? hj)).1
      obtain ⟨ops, held, asked⟩ := u
      cases ops with
      | nil => cases hk
      | cons op r =>
        rw [List.head?_cons, Option.some.injEq] at hk
        subst hk
        cases held with
        | nil => cases hu
        | cons x held =>
          simp [lockTrack, hke] at h1
    · rcases needs_or_holder hj hn with hg | hh
      · exact hg
      · exact holder_progress h n l' (by omega) hh

theorem thread_progress {s : LockState} (h : ∀ t ∈ s, t.Orderly true) {i : Nat} {t : LockThread}
    (hi : s[i]? = some t) (hops : t.ops ≠ []) (hout : ¬ s.Outside i) : s.GoesOn := by
  cases hn : t.needs with
  | some l =>
    rcases needs_or_holder hi hn with hg | hh
    · exact hg
    · exact holder_progress h 3 l (by omega) hh
  | none =>
    by_cases hnext : (s.next i).isSome = true
    · exact ⟨i, hnext, hout⟩
    · unfold LockState.next at hnext
      rw [hi] at hnext
      obtain ⟨ops, held, asked⟩ := t
      cases ops with
      | nil => exact absurd rfl hops
      | cons op r =>
        cases op with
        | lock l => cases hn
        | rlock l => cases hn
        | await =>
          dsimp only at hnext
          split at hnext
          · next hh =>
            rw [List.any_eq_true] at hh
            obtain ⟨u, hu, hw⟩ := hh
            obtain ⟨j, hj⟩ := List.mem_iff_getElem?.1 hu
            exact holder_progress h 3 .group (by omega) ⟨j, u, hj, hw⟩
          · exact absurd rfl hnext
        | _ => exact absurd rfl hnext

theorem history_orderly {mb : Bool} {l : List LockState.Step} (hl : PeerHistory mb l) (hg : NoGetEnvelope l) :
    ∀ t ∈ LockState.run [] l, t.Orderly true := by
  refine orderly_run l [] (by simp) fun p hp => ?_
  rcases lockTrack_thread (hl p hp) with h | ⟨b, rfl⟩
  · exact h
  · exact absurd hp (hg b)

/-- **C100, partial.** At any time, for any number of threads: if some thread has not ended and does not wait for
somebody outside (a peer, a client, the agent or a channel), then one such thread can go on. So whatever those
outside do, the locks and the wait group do not stop the peer. Missing from the property: nobody asks for envelopes
of the mailbox (`C100_get_envelope_counterexample`). -/
theorem C100_progress_partial (mb : Bool) (l : List LockState.Step) (hl : PeerHistory mb l)
    (hg : NoGetEnvelope l) (i : Nat) (t : LockThread) (hi : (LockState.run [] l)[i]? = some t) (ht : t.ops ≠ [])
    (hout : ¬ (LockState.run [] l).Outside i) : (LockState.run [] l).GoesOn :=
  thread_progress (history_orderly hl hg) hi ht hout

/-- **C100, partial.** Whoever waits for somebody outside holds no lock and is not in the wait group. Missing: as
before. -/
theorem C100_outside_partial (mb : Bool) (l : List LockState.Step) (hl : PeerHistory mb l)
    (hg : NoGetEnvelope l) (i : Nat) (t : LockThread) (hi : (LockState.run [] l)[i]? = some t)
    (hout : (LockState.run [] l).Outside i) : t.held = [] := by
  obtain ⟨t', k, ht', hk, hke⟩ := hout
  rw [hi] at ht'
  cases ht'
  have h1 := (history_orderly hl hg t (List.mem_of_getElem? hi)).1
  obtain ⟨ops, held, asked⟩ := t
  cases ops with
  | nil => cases hk
  | cons op r =>
    rw [List.head?_cons, Option.some.injEq] at hk
    subst hk
    cases held with
    | nil => rfl
    | cons x held => simp [lockTrack, hke] at h1

/-! ## Every thread can end -/

/-- What is left to do. -/
def LockThread.left (t : LockThread) : Nat := 2 * t.ops.length - (if t.asked then 1 else 0)

theorem next_left {s : LockState} {i : Nat} {t u : LockThread} (hi : s[i]? = some t) (hn : s.next i = some u) :
    u.left < t.left := by
  unfold LockState.next at hn
  rw [hi] at hn
  obtain ⟨ops, held, asked⟩ := t
  cases ops with
  | nil => cases hn
  | cons op r =>
    have hd : ∀ h, ((⟨op :: r, held, asked⟩ : LockThread).done h).left <
        (⟨op :: r, held, asked⟩ : LockThread).left := by
      intro h
      simp only [LockThread.left, LockThread.done, List.tail_cons, List.length_cons]
      cases asked <;> simp <;> omega
    cases op with
    | lock l =>
      dsimp only at hn
      split at hn
      · split at hn
        · cases hn
        · cases hn; exact hd _
      · next ha =>
        split at hn
        · cases hn
        · cases hn
          simp only [LockThread.left, List.length_cons, if_true, ha]
          simp
          omega
    | rlock l =>
      dsimp only at hn
      split at hn
      · cases hn
      · cases hn; exact hd _
    | await =>
      dsimp only at hn
      split at hn
      · cases hn
      · cases hn; exact hd _
    | _ => cases hn; exact hd _

theorem sum_set_lt (f : LockThread → Nat) :
    ∀ (s : List LockThread) (i : Nat) (t u : LockThread), s[i]? = some t → f u < f t →
      ((s.set i u).map f).sum < (s.map f).sum
  | [], i, t, u, h, _ => by cases h
  | a :: s, 0, t, u, h, hlt => by
    cases h
    simp only [List.set_cons_zero, List.map_cons, List.sum_cons]; omega
  | a :: s, i + 1, t, u, h, hlt => by
    have := sum_set_lt f s i t u h hlt
    simp only [List.set_cons_succ, List.map_cons, List.sum_cons]; omega

theorem all_end {s : LockState} (h : ∀ t ∈ s, t.Orderly true) :
    ∃ l : List Nat, ∀ t ∈ s.run (l.map .go), t.ops = [] ∨
      ∃ k, t.ops.head? = some (io k) ∧ k.Endless = true := by
  generalize hm : (s.map LockThread.left).sum = m
  induction m using Nat.strongRecOn generalizing s with
  | ind m ih =>
    by_cases hall : ∀ t ∈ s, t.ops = [] ∨ ∃ k, t.ops.head? = some (io k) ∧ k.Endless = true
    · exact ⟨[], hall⟩
    · have hex : ∃ t, t ∈ s ∧ ¬ (t.ops = [] ∨ ∃ k, t.ops.head? = some (io k) ∧ k.Endless = true) := by
        rcases Classical.em (∃ t, t ∈ s ∧ ¬ (t.ops = [] ∨ ∃ k, t.ops.head? = some (io k) ∧ k.Endless = true))
          with h' | h'
        · exact h'
        · exact absurd (fun t ht => Classical.byContradiction fun hc => h' ⟨t, ht, hc⟩) hall
      obtain ⟨t, ht, hnot⟩ := hex
      obtain ⟨i, hi⟩ := List.mem_iff_getElem?.1 ht
      have hout : ¬ s.Outside i := by
        rintro ⟨t', k, ht', hk, hke⟩
        rw [hi] at ht'
        cases ht'
        exact hnot (.inr ⟨k, hk, hke⟩)
      obtain ⟨j, hj, _⟩ := thread_progress h hi (fun hc => hnot (.inl hc)) hout
      cases hn : s.next j with
      | none => rw [hn] at hj; cases hj
      | some u =>
        have hsome : ∃ v, s[j]? = some v := by
          cases hv : s[j]? with
          | none => unfold LockState.next at hn; rw [hv] at hn; cases hn
          | some v => exact ⟨v, rfl⟩
        obtain ⟨v, hv⟩ := hsome
        have hstep : s.step (.go j) = s.set j u := by simp only [LockState.step, hn]
        have hord : ∀ t ∈ s.set j u, t.Orderly true := by
          intro w hw
          rcases List.mem_or_eq_of_mem_set hw with hw | rfl
          · exact h w hw
          · exact orderly_next h hn
        have hlt := sum_set_lt LockThread.left s j v u hv (next_left hv hn)
        obtain ⟨l, hl⟩ := ih _ (by omega) (s := s.set j u) hord rfl
        refine ⟨j :: l, ?_⟩
        rw [List.map_cons, LockState.run, List.foldl_cons, hstep]
        exact hl

/-- **C100, partial.** From any state, whatever those outside do, the threads can go on until each of them has ended or
waits for somebody outside. Missing: as before. -/
theorem C100_end_partial (mb : Bool) (l : List LockState.Step) (hl : PeerHistory mb l) (hg : NoGetEnvelope l) :
    ∃ l' : List Nat, ∀ t ∈ (LockState.run [] l).run (l'.map .go), t.ops = [] ∨
      ∃ k, t.ops.head? = some (io k) ∧ k.Endless = true :=
  all_end (history_orderly hl hg)

/-! ## The locks exclude -/

/-- Two threads never hold the same lock, one of them for writing. -/
def LockState.Exclusive (s : LockState) : Prop :=
  ∀ (i j : Nat) (t u : LockThread), s[i]? = some t → s[j]? = some u → i ≠ j →
    ∀ l, t.writes l = true → u.holds l = false

theorem any_false {s : LockState} {f : LockThread → Bool} (h : ¬ s.any f = true) {i : Nat} {t : LockThread}
    (hi : s[i]? = some t) : f t = false := by
  cases hf : f t with
  | false => rfl
  | true => exact absurd (List.any_eq_true.2 ⟨t, List.mem_of_getElem? hi, hf⟩) h

theorem writes_holds {t : LockThread} {l : LockName} (h : t.writes l = true) : t.holds l = true := by
  unfold LockThread.writes at h
  unfold LockThread.holds
  rw [List.any_eq_true] at h ⊢
  obtain ⟨x, hx, he⟩ := h
  rw [Bool.and_eq_true] at he
  exact ⟨x, hx, he.1⟩

/-- What a step of a thread does to the locks it holds. -/
theorem next_holds {s : LockState} {i : Nat} {t u : LockThread} (hi : s[i]? = some t) (hn : s.next i = some u)
    (l : LockName) :
    (u.holds l = true → t.holds l = true ∨ ¬ s.any (·.writes l) = true ∨ l = .group) ∧
    (u.writes l = true → t.writes l = true ∨ ¬ s.any (·.holds l) = true) := by
  unfold LockState.next at hn
  rw [hi] at hn
  obtain ⟨ops, held, asked⟩ := t
  cases ops with
  | nil => cases hn
  | cons op r =>
    cases op with
    | lock l' =>
      dsimp only at hn
      split at hn
      · split at hn
        · cases hn
        · next hh =>
          cases hn
          simp only [LockThread.done, LockThread.holds, LockThread.writes, List.any_cons, Bool.or_eq_true,
            beq_iff_eq, Bool.and_true]
          constructor
          · rintro (rfl | h)
            · right; left
              intro hw
              apply hh
              rw [List.any_eq_true] at hw ⊢
              obtain ⟨u, hu, hw⟩ := hw
              exact ⟨u, hu, writes_holds hw⟩
            · exact .inl h
          · rintro (rfl | h)
            · exact .inr hh
            · exact .inl h
      · split at hn
        · cases hn
        · cases hn
          exact ⟨.inl, .inl⟩
    | rlock l' =>
      dsimp only at hn
      split at hn
      · cases hn
      · next hh =>
        cases hn
        rw [Bool.or_eq_true, not_or] at hh
        simp only [LockThread.done, LockThread.holds, LockThread.writes, List.any_cons, Bool.or_eq_true,
          beq_iff_eq, Bool.and_false, Bool.false_eq_true, false_or]
        constructor
        · rintro (rfl | h)
          · exact .inr (.inl hh.2)
          · exact .inl h
        · exact .inl
    | enter =>
      cases hn
      simp only [LockThread.done, LockThread.holds, LockThread.writes, List.any_cons, Bool.or_eq_true,
        beq_iff_eq, Bool.and_false, Bool.false_eq_true, false_or]
      constructor
      · rintro (rfl | h)
        · exact .inr (.inr rfl)
        · exact .inl h
      · exact .inl
    | release l' =>
      cases hn
      constructor
      · intro h
        left
        simp only [LockThread.done, LockThread.holds, List.any_eq_true] at h ⊢
        obtain ⟨x, hx, he⟩ := h
        exact ⟨x, List.mem_of_mem_eraseP hx, he⟩
      · intro h
        left
        simp only [LockThread.done, LockThread.writes, List.any_eq_true] at h ⊢
        obtain ⟨x, hx, he⟩ := h
        exact ⟨x, List.mem_of_mem_eraseP hx, he⟩
    | await =>
      dsimp only at hn
      split at hn
      · cases hn
      · cases hn
        exact ⟨.inl, .inl⟩
    | io k =>
      cases hn
      exact ⟨.inl, .inl⟩

/-- The threads keep to the order, and nobody holds the wait group for writing. -/
def LockState.GroupShared (s : LockState) : Prop :=
  ∀ t ∈ s, t.Orderly false ∧ t.writes .group = false

theorem next_group {s : LockState} (hs : s.GroupShared) {i : Nat} {u : LockThread} (hn : s.next i = some u) :
    u.Orderly false ∧ u.writes .group = false := by
  refine ⟨orderly_next (fun t ht => (hs t ht).1) hn, ?_⟩
  unfold LockState.next at hn
  cases hi : s[i]? with
  | none => rw [hi] at hn; cases hn
  | some t =>
    rw [hi] at hn
    obtain ⟨⟨ho, _⟩, hw⟩ := hs t (List.mem_of_getElem? hi)
    obtain ⟨ops, held, asked⟩ := t
    cases ops with
    | nil => cases hn
    | cons op r =>
      have hcons : ∀ x, x ≠ LockName.group ∨ false = true → ∀ b,
          LockThread.writes ⟨r, (x, b) :: held, false⟩ .group = false := by
        intro x hx b
        simp only [LockThread.writes, List.any_cons, Bool.or_eq_false_iff, Bool.and_eq_false_iff]
        refine ⟨.inl ?_, hw⟩
        rcases hx with hx | hx
        · simpa using hx
        · cases hx
      cases op with
      | lock l =>
        simp only [lockTrack] at ho
        split at ho
        · next hc =>
          dsimp only at hn
          split at hn
          · split at hn
            · cases hn
            · cases hn
              refine hcons l (.inl ?_) true
              rintro rfl
              exact absurd hc.1 (by decide)
          · split at hn
            · cases hn
            · cases hn; exact hw
        · cases ho
      | rlock l =>
        dsimp only at hn
        split at hn
        · cases hn
        · cases hn
          simp only [LockThread.done, LockThread.writes, List.any_cons, Bool.and_false, Bool.false_or]
          exact hw
      | enter =>
        cases hn
        simp only [LockThread.done, LockThread.writes, List.any_cons, Bool.and_false, Bool.false_or]
        exact hw
      | release l =>
        cases hn
        cases h : LockThread.writes
            (LockThread.done ⟨release l :: r, held, asked⟩ (held.eraseP fun x => x.1 == l)) .group with
        | false => rfl
        | true =>
          simp only [LockThread.done, LockThread.writes, List.any_eq_true] at h
          obtain ⟨x, hx, he⟩ := h
          have : LockThread.writes ⟨release l :: r, held, asked⟩ .group = true := by
            simp only [LockThread.writes, List.any_eq_true]
            exact ⟨x, List.mem_of_mem_eraseP hx, he⟩
          rw [hw] at this
          cases this
      | await =>
        dsimp only at hn
        split at hn
        · cases hn
        · cases hn; exact hw
      | io k => cases hn; exact hw

theorem run_exclusive :
    ∀ (l : List LockState.Step) (s : LockState), s.Exclusive → s.GroupShared →
      (∀ p, .spawn p ∈ l → lockTrack false [] p = some []) → (s.run l).Exclusive
  | [], s, h, _, _ => h
  | x :: l, s, h, hgs, hl => by
    rw [LockState.run, List.foldl_cons]
    have hl' : ∀ p, .spawn p ∈ l → lockTrack false [] p = some [] := fun p hp => hl p (List.mem_cons_of_mem _ hp)
    cases x with
    | spawn p =>
      refine run_exclusive l _ ?_ ?_ hl'
      · intro i j t u hi hj hij l' hw
        simp only [LockState.step] at hi hj
        by_cases hi' : i < s.length
        · by_cases hj' : j < s.length
          · rw [List.getElem?_append_left hi'] at hi
            rw [List.getElem?_append_left hj'] at hj
            exact h i j t u hi hj hij l' hw
          · rw [List.getElem?_append_right (by omega), List.getElem?_singleton] at hj
            split at hj
            · cases hj; rfl
            · cases hj
        · rw [List.getElem?_append_right (by omega), List.getElem?_singleton] at hi
          split at hi
          · cases hi; cases hw
          · cases hi
      · intro t ht
        simp only [LockState.step] at ht
        rcases List.mem_append.1 ht with ht | ht
        · exact hgs t ht
        · rw [List.mem_singleton] at ht
          subst ht
          exact ⟨⟨hl p List.mem_cons_self, fun h => by cases h⟩, rfl⟩
    | go k =>
      cases hn : s.next k with
      | none =>
        have : s.step (.go k) = s := by simp only [LockState.step, hn]
        rw [this]
        exact run_exclusive l s h hgs hl'
      | some v =>
        have hstep : s.step (.go k) = s.set k v := by simp only [LockState.step, hn]
        rw [hstep]
        obtain ⟨w, hw⟩ : ∃ w, s[k]? = some w := by
          cases hw : s[k]? with
          | none => unfold LockState.next at hn; rw [hw] at hn; cases hn
          | some w => exact ⟨w, rfl⟩
        have hk : k < s.length := by
          rw [List.getElem?_eq_some_iff] at hw
          exact hw.1
        refine run_exclusive l _ ?_ ?_ hl'
        · intro i j t u hi hj hij l' hwr
          by_cases hik : k = i
          · subst hik
            rw [List.getElem?_set_self hk] at hi
            cases hi
            rw [List.getElem?_set_ne (by omega)] at hj
            rcases (next_holds hw hn l').2 hwr with h1 | h1
            · exact h k j w u hw hj hij l' h1
            · exact any_false h1 hj
          · rw [List.getElem?_set_ne hik] at hi
            by_cases hjk : k = j
            · subst hjk
              rw [List.getElem?_set_self hk] at hj
              cases hj
              cases hh : v.holds l' with
              | false => rfl
              | true =>
                rcases (next_holds hw hn l').1 hh with h1 | h1 | h1
                · rw [h i k t w hi hw hij l' hwr] at h1; cases h1
                · rw [any_false h1 hi] at hwr; cases hwr
                · subst h1
                  rw [(hgs t (List.mem_of_getElem? hi)).2] at hwr; cases hwr
            · rw [List.getElem?_set_ne hjk] at hj
              exact h i j t u hi hj hij l' hwr
        · intro t ht
          rcases List.mem_or_eq_of_mem_set ht with ht | rfl
          · exact hgs t ht
          · exact next_group hgs hn

theorem thread_loose {mb : Bool} {p : List LockOp} (h : PeerThread mb p) : lockTrack false [] p = some [] := by
  rcases lockTrack_thread h with h | ⟨b, rfl⟩
  · exact lockTrack_loose h
  · cases b <;> rfl

/-- **C100.** The locks do what they are for: at any time, if a thread holds a lock for writing, nobody else holds
it. -/
theorem C100_exclusive (mb : Bool) (l : List LockState.Step) (hl : PeerHistory mb l) (i j : Nat)
    (t u : LockThread) (hi : (LockState.run [] l)[i]? = some t) (hj : (LockState.run [] l)[j]? = some u)
    (hij : i ≠ j) (n : LockName) (hw : t.writes n = true) : u.holds n = false :=
  run_exclusive l [] (fun i j t u h => by cases h) (fun t ht => by cases ht)
    (fun p hp => thread_loose (hl p hp)) i j t u hi hj hij n hw

/-! ## The mailbox -/

theorem run_append_locks (s : LockState) (a b : List LockState.Step) : s.run (a ++ b) = (s.run a).run b := by
  unfold LockState.run
  rw [List.foldl_append]

/-- **C100.** While a thread that holds a lock for writing does not go on, no other thread gets past an operation on
that lock, whatever happens. -/
theorem C100_held (l : LockName) (i : Nat) (t : LockThread) (hw : t.writes l = true) :
    ∀ (h : List LockState.Step) (s : LockState), s[i]? = some t → .go i ∉ h →
      (s.run h)[i]? = some t ∧
      ∀ (j : Nat) (u : LockThread), j ≠ i → s[j]? = some u → (lock l ∈ u.ops ∨ rlock l ∈ u.ops) →
        ∃ u', (s.run h)[j]? = some u' ∧ (lock l ∈ u'.ops ∨ rlock l ∈ u'.ops)
  | [], s, hi, _ => ⟨hi, fun j u _ hj hu => ⟨u, hj, hu⟩⟩
  | x :: h, s, hi, hx => by
    have hx' : .go i ∉ h := fun hc => hx (List.mem_cons_of_mem _ hc)
    rw [LockState.run, List.foldl_cons]
    have hheld : s.any (·.holds l) = true :=
      List.any_eq_true.2 ⟨t, List.mem_of_getElem? hi, writes_holds hw⟩
    have hwr : s.any (·.writes l) = true := List.any_eq_true.2 ⟨t, List.mem_of_getElem? hi, hw⟩
    cases x with
    | spawn p =>
      have hlt : i < s.length := (List.getElem?_eq_some_iff.1 hi).1
      have hi' : (s.step (.spawn p))[i]? = some t := by
        simp only [LockState.step]
        rw [List.getElem?_append_left hlt]; exact hi
      obtain ⟨h1, h2⟩ := C100_held l i t hw h _ hi' hx'
      refine ⟨h1, fun j u hji hj hu => h2 j u hji ?_ hu⟩
      simp only [LockState.step]
      rw [List.getElem?_append_left (List.getElem?_eq_some_iff.1 hj).1]; exact hj
    | go k =>
      have hki : k ≠ i := by rintro rfl; exact hx List.mem_cons_self
      cases hn : s.next k with
      | none =>
        have : s.step (.go k) = s := by simp only [LockState.step, hn]
        rw [this]
        exact C100_held l i t hw h s hi hx'
      | some v =>
        have hstep : s.step (.go k) = s.set k v := by simp only [LockState.step, hn]
        rw [hstep]
        have hi' : (s.set k v)[i]? = some t := by rw [List.getElem?_set_ne hki]; exact hi
        obtain ⟨h1, h2⟩ := C100_held l i t hw h _ hi' hx'
        refine ⟨h1, fun j u hji hj hu => ?_⟩
        by_cases hjk : k = j
        · subst hjk
          have hk : k < s.length := (List.getElem?_eq_some_iff.1 hj).1
          refine h2 k v hji (by rw [List.getElem?_set_self hk]) ?_
          unfold LockState.next at hn
          rw [hj] at hn
          obtain ⟨ops, held, asked⟩ := u
          cases ops with
          | nil => cases hn
          | cons op r =>
            have htail : op ≠ lock l → op ≠ rlock l → (lock l ∈ r ∨ rlock l ∈ r) := by
              intro n1 n2
              dsimp only at hu
              rcases hu with hu | hu
              · rcases List.mem_cons.1 hu with e | hu
                · exact absurd e.symm n1
                · exact .inl hu
              · rcases List.mem_cons.1 hu with e | hu
                · exact absurd e.symm n2
                · exact .inr hu
            cases op with
            | lock l' =>
              dsimp only at hn
              split at hn
              · split at hn
                · cases hn
                · next hh =>
                  cases hn
                  refine htail ?_ (by simp)
                  intro e
                  cases e
                  exact hh hheld
              · split at hn
                · cases hn
                · cases hn; exact hu
            | rlock l' =>
              dsimp only at hn
              split at hn
              · cases hn
              · next hh =>
                cases hn
                refine htail (by simp) ?_
                intro e
                cases e
                rw [hwr, Bool.or_true] at hh
                exact hh rfl
            | await =>
              dsimp only at hn
              split at hn
              · cases hn
              · cases hn; exact htail (by simp) (by simp)
            | _ => cases hn; exact htail (by simp) (by simp)
        · exact h2 j u hji (by rw [List.getElem?_set_ne hjk]; exact hj) hu

/-- **C100 is false.** A mailbox client that asks for its envelope and does not read the response stops the peer:
`get_envelope` writes the response with the lock of the mailbox held, so that from then on, whatever happens, every
call of `RouteEnvelope` and every other use of the mailbox waits for ever. -/
theorem C100_get_envelope_counterexample (h h' : List LockState.Step) (i : Nat) (r : List LockOp)
    (hi : (LockState.run [] h)[i]? = some ⟨io .remote :: r, [(.mailbox, true)], false⟩)
    (hout : .go i ∉ h') (s : SenderCase) (t : TargetCase) :
    ∃ u, (LockState.run [] (h ++ .spawn (routeOps true s t) :: h'))[(LockState.run [] h).length]? = some u ∧
      u.ops ≠ [] := by
  have hlt : i < (LockState.run [] h).length := (List.getElem?_eq_some_iff.1 hi).1
  rw [run_append_locks]
  show ∃ u, (LockState.run ((LockState.run [] h).step (.spawn (routeOps true s t))) h')[_]? = some u ∧ _
  have hi' : ((LockState.run [] h).step (.spawn (routeOps true s t)))[i]? =
      some ⟨io .remote :: r, [(.mailbox, true)], false⟩ := by
    simp only [LockState.step]
    rw [List.getElem?_append_left hlt]; exact hi
  obtain ⟨_, h2⟩ := C100_held .mailbox i _ rfl h' _ hi' hout
  obtain ⟨u, hu, hm⟩ := h2 (LockState.run [] h).length (.start (routeOps true s t)) (by omega)
    (by simp only [LockState.step]; rw [List.getElem?_append_right (by omega)]; simp)
    (.inl (by simp [LockThread.start, routeOps, sec]))
  refine ⟨u, hu, ?_⟩
  rintro he
  rw [he] at hm
  simp at hm

/-- The state of the counterexample is reached as soon as a client asks for an envelope. -/
example : (LockState.run [] [.spawn (getEnvelopeOps true), .go 0, .go 0, .go 0])[0]? =
    some ⟨[io .remote, io (.use .mailbox true), release .mailbox], [(.mailbox, true)], false⟩ := by decide

/-- Concrete case: a notification announces a relay client and a delegate while a relay client registers; the
registration waits for the notification, and both end. -/
example :
    let notif := [enter, io .timer] ++ ([rlock .dht] ++ announceOps .dht [.provided] ++ [release .dht]) ++
      ([rlock .tcp] ++ announceOps .tcp [.already] ++ [release .tcp]) ++ sec .enabled ++ [release .group]
    let register := [io .remote] ++ sec .records ++ [lock .dht, io (.use .dht true), io .file, release .dht] ++
      enabledOps ++ look .announced ++ registerOps .already
    let s := LockState.run [] ([.spawn notif, .spawn register] ++ List.replicate 3 (.go 0) ++
      List.replicate 10 (.go 1))
    (s.map (·.ops.length) = [24, 14] ∧ s.map (·.asked) = [false, true]) ∧
    ((s.run (List.replicate 40 (.go 0) ++ List.replicate 40 (.go 1))).map (·.ops.length) = [0, 0]) := by
  decide +kernel

end Verif
