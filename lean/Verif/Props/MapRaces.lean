import Verif.Props.PeerLocks

/-!
# C102: no two threads of a peer use the same map at the same time, one of them writing

The property: whatever the schedule, two threads of a peer are never both about to use the same of its maps (or
`enableAddressAnnouncement`), one of them to write. Go stops the whole process when it notices that a map is written
while it is used. It is false while the peer starts; from then on it holds for all numbers of threads and all
schedules.
-/

namespace Verif

open LockOp LockState

/-- Two threads are about to use the same data, one of them to write. -/
def LockState.Race (s : LockState) (l : LockName) : Prop :=
  ∃ (i j : Nat) (t u : LockThread) (w : Bool), i ≠ j ∧ s[i]? = some t ∧ s[j]? = some u ∧
    t.ops.head? = some (io (.use l true)) ∧ u.ops.head? = some (io (.use l w))

/-- The threads that start a peer: loading the records, and the start of the mailbox. -/
def StartOps (p : List LockOp) : Prop :=
  (∃ r, p = io (.use .mailbox true) :: r) ∨
  (∃ r, p = io .file :: r) ∨
  (∃ r, p = io (.use .dht false) :: r) ∨
  (∃ r, p = io (.use .enabled true) :: r)

/-- No thread of the history belongs to the start of the peer. -/
def NoStart (l : List LockState.Step) : Prop := ∀ p, .spawn p ∈ l → ¬ StartOps p

/-! ## Every use is in a section of its lock -/

/-- Operations, with these locks held, use data only with its lock held, and write only with it held for writing. -/
def guarded : List (LockName × Bool) → List LockOp → Bool
  | _, [] => true
  | held, .lock l :: r => guarded ((l, true) :: held) r
  | held, .rlock l :: r => guarded ((l, false) :: held) r
  | held, .enter :: r => guarded ((.group, false) :: held) r
  | held, .release l :: r => guarded (held.eraseP fun x => x.1 == l) r
  | held, .await :: r => guarded held r
  | held, .io (.use l w) :: r => (held.any fun x => x.1 == l && (x.2 || !w)) && guarded held r
  | held, .io _ :: r => guarded held r

/-- The locks held after operations, for reading or writing. -/
def modesAfter : List (LockName × Bool) → List LockOp → List (LockName × Bool)
  | held, [] => held
  | held, .lock l :: r => modesAfter ((l, true) :: held) r
  | held, .rlock l :: r => modesAfter ((l, false) :: held) r
  | held, .enter :: r => modesAfter ((.group, false) :: held) r
  | held, .release l :: r => modesAfter (held.eraseP fun x => x.1 == l) r
  | held, .await :: r => modesAfter held r
  | held, .io _ :: r => modesAfter held r

theorem modesAfter_append :
    ∀ (p q : List LockOp) (held : List (LockName × Bool)),
      modesAfter held (p ++ q) = modesAfter (modesAfter held p) q
  | [], _, _ => rfl
  | op :: p, q, held => by
    cases op <;> simp only [List.cons_append, modesAfter] <;> exact modesAfter_append p q _

theorem guarded_append :
    ∀ (p q : List LockOp) (held : List (LockName × Bool)),
      guarded held (p ++ q) = (guarded held p && guarded (modesAfter held p) q)
  | [], q, held => by simp [guarded, modesAfter]
  | op :: p, q, held => by
    cases op with
    | io k =>
      cases k <;> simp only [List.cons_append, guarded, modesAfter, guarded_append p q, Bool.and_assoc]
    | _ => simp only [List.cons_append, guarded, modesAfter]; exact guarded_append p q _

/-- Operations that are guarded and leave the locks as they were. -/
def Section (held : List (LockName × Bool)) (p : List LockOp) : Prop :=
  guarded held p = true ∧ modesAfter held p = held

theorem Section.append {held : List (LockName × Bool)} {p q : List LockOp} (hp : Section held p)
    (hq : Section held q) : Section held (p ++ q) := by
  constructor
  · rw [guarded_append, hp.1, hp.2, hq.1]; rfl
  · rw [modesAfter_append, hp.2, hq.2]

theorem Section.flatMap {α : Type} {held : List (LockName × Bool)} {f : α → List LockOp}
    (h : ∀ x, Section held (f x)) : ∀ l : List α, Section held (l.flatMap f)
  | [] => ⟨rfl, rfl⟩
  | a :: l => by
    rw [List.flatMap_cons]
    exact (h a).append (Section.flatMap h l)

theorem Section.flatten {held : List (LockName × Bool)} {p : List LockOp} (h : Section held p) :
    ∀ n, Section held (List.replicate n p).flatten
  | 0 => ⟨rfl, rfl⟩
  | n + 1 => by
    rw [List.replicate_succ, List.flatten_cons]
    exact h.append (Section.flatten h n)

theorem section_sec (held : List (LockName × Bool)) (l : LockName) : Section held (sec l) := by
  constructor
  · simp [sec, guarded]
  · simp [sec, modesAfter]

theorem section_look (held : List (LockName × Bool)) (l : LockName) : Section held (look l) := by
  constructor
  · simp [look, guarded]
  · simp [look, modesAfter]

theorem section_rsec (held : List (LockName × Bool)) (l : LockName) : Section held (rsec l) := by
  constructor
  · simp [rsec, guarded]
  · simp [rsec, modesAfter]

theorem section_nil (held : List (LockName × Bool)) : Section held [] := ⟨rfl, rfl⟩

theorem section_io {k : LockIo} (held : List (LockName × Bool)) (hk : ∀ l w, k ≠ .use l w) :
    Section held [io k] := by
  cases k <;> first | exact ⟨rfl, rfl⟩ | exact absurd rfl (hk _ _)

theorem section_register (held : List (LockName × Bool)) (c : AnnounceCase) : Section held (registerOps c) := by
  cases c
  · exact section_look _ _
  · exact (section_look _ _).append (section_sec _ _)
  · exact (((section_look _ _).append (section_sec _ _)).append (section_io _ (by simp))).append
      (section_sec _ _)

theorem section_use {held : List (LockName × Bool)} {l : LockName} {w : Bool}
    (h : (held.any fun x => x.1 == l && (x.2 || !w)) = true) : Section held [io (.use l w)] := by
  constructor
  · simp only [guarded, h, Bool.and_true]
  · rfl

theorem section_announce {held : List (LockName × Bool)} {l : LockName}
    (h : (held.any fun x => x.1 == l && (x.2 || !false)) = true) (cs : List AnnounceCase) :
    Section held (announceOps l cs) := by
  unfold announceOps
  refine Section.append (Section.flatMap (fun c => ?_) cs) (section_use h)
  rw [← List.singleton_append]
  exact (section_use h).append (section_register _ _)

theorem section_enabled : Section [] enabledOps := ⟨rfl, rfl⟩

theorem section_sender (mb : Bool) (s : SenderCase) : Section [] (senderOps mb s) := by
  cases s with
  | own => exact section_rsec _ _
  | box still => cases mb <;> cases still <;> exact ⟨rfl, rfl⟩
  | other => cases mb <;> exact ⟨rfl, rfl⟩

theorem section_route (mb : Bool) (s : SenderCase) (t : TargetCase) : Section [] (routeOps mb s t) := by
  unfold routeOps
  refine Section.append (((section_sender mb s).append (section_rsec _ _)).append ?_) ?_
  · cases mb
    · exact section_nil _
    · exact section_sec _ _
  · cases t with
    | lookup s' slow =>
      refine Section.append ((((section_rsec _ _).append (section_sender mb s')).append
        (section_io _ (by simp)))) ?_
      cases slow
      · exact section_nil _
      · exact section_io _ (by simp)
    | _ => exact ⟨rfl, rfl⟩

theorem section_group {p : List LockOp} (h : Section [(.group, false)] p) :
    Section [] ([enter, io .timer] ++ p ++ [release .group]) := by
  constructor
  · rw [guarded_append, guarded_append, modesAfter_append]
    show (guarded [(.group, false)] _ && guarded (modesAfter [(.group, false)] _) _) = true
    rw [h.1, h.2]; rfl
  · rw [modesAfter_append, modesAfter_append]
    show modesAfter (modesAfter [(.group, false)] _) _ = _
    rw [h.2]; rfl

/-- A program of a peer, other than its start. -/
theorem guarded_program {mb : Bool} {p : List LockOp} (h : PeerProgram mb p) :
    Section [] p ∨ StartOps p ∨ p = [] := by
  have sio : ∀ {k : LockIo}, (∀ l w, k ≠ .use l w) → Section [] [io k] := fun hk => section_io [] hk
  cases h with
  | route s t => exact .inl (section_route mb s t)
  | worker l =>
    left
    refine (section_look _ _).append (Section.flatMap (fun x => ?_) l)
    rw [← List.singleton_append]
    exact (sio (by simp)).append (section_route mb _ _)
  | slow l =>
    left
    refine Section.flatMap (fun s => ?_) l
    rw [List.cons_append, ← List.singleton_append]
    exact (sio (by simp)).append ((section_sender mb s).append (sio (by simp)))
  | handleEnvelope t => left; cases mb <;> rcases t with _ | _ | _ <;> exact ⟨rfl, rfl⟩
  | addressRequest t => left; cases mb <;> rcases t with _ | _ | _ <;> exact ⟨rfl, rfl⟩
  | notif found own relay tcp =>
    left
    cases found with
    | false => exact ⟨rfl, rfl⟩
    | true =>
      rw [if_pos rfl]
      have hd := section_announce (held := [(.dht, false), (.group, false)]) (l := .dht) rfl relay
      have ht := section_announce (held := [(.tcp, false), (.group, false)]) (l := .tcp) rfl tcp
      have hdht : Section [(.group, false)] ([rlock .dht] ++ announceOps .dht relay ++ [release .dht]) := by
        constructor
        · rw [guarded_append, guarded_append, modesAfter_append]
          show (guarded [(.dht, false), (.group, false)] _ && guarded (modesAfter [(.dht, false), (.group, false)] _) _)
            = true
          rw [hd.1, hd.2]; rfl
        · rw [modesAfter_append, modesAfter_append]
          show modesAfter (modesAfter [(.dht, false), (.group, false)] _) _ = _
          rw [hd.2]; rfl
      have htcp : Section [(.group, false)] ([rlock .tcp] ++ announceOps .tcp tcp ++ [release .tcp]) := by
        constructor
        · rw [guarded_append, guarded_append, modesAfter_append]
          show (guarded [(.tcp, false), (.group, false)] _ && guarded (modesAfter [(.tcp, false), (.group, false)] _) _)
            = true
          rw [ht.1, ht.2]; rfl
        · rw [modesAfter_append, modesAfter_append]
          show modesAfter (modesAfter [(.tcp, false), (.group, false)] _) _ = _
          rw [ht.2]; rfl
      refine section_group (((Section.append ?_ hdht).append htcp).append (section_sec _ _))
      cases own with
      | none => exact section_nil _
      | some c => exact (section_look _ _).append (section_register _ _)
  | notifFailed own =>
    left
    exact section_group ((section_look _ _).append (section_register _ _))
  | register c => left; cases c <;> exact ⟨rfl, rfl⟩
  | delegate c l =>
    left
    have hl : Section [] (l.flatMap delegateRound) :=
      Section.flatMap (fun x => by rcases x with _ | _ | _ <;> exact ⟨rfl, rfl⟩) l
    refine ((((((((((sio (by simp)).append (section_sec _ _)).append (section_sec _ _)).append
      (section_sec _ _)).append section_enabled).append ?_).append hl).append (sio (by simp))).append
      (section_sec _ _)).append (section_sec _ _))
    cases c with
    | none => exact section_nil _
    | some c => exact section_register _ _
  | close n =>
    left
    have h := Section.flatten (held := [(.tcp, true)]) (p := [io (.use .tcp false), io .hangUp]) ⟨rfl, rfl⟩ n
    refine Section.append (Section.append ?_ ⟨rfl, rfl⟩) (section_look _ _)
    constructor
    · rw [guarded_append, guarded_append, modesAfter_append]
      show (guarded [(.tcp, true)] _ && guarded (modesAfter [(.tcp, true)] _) _) = true
      rw [h.1, h.2]; rfl
    · rw [modesAfter_append, modesAfter_append]
      show modesAfter (modesAfter [(.tcp, true)] _) _ = _
      rw [h.2]; rfl
  | apiRegister c =>
    left
    refine ((((sio (by simp)).append section_enabled).append ?_).append (section_sec _ _)).append (sio (by simp))
    cases c with
    | none => exact section_nil _
    | some c => exact section_register _ _
  | apiUnregister => exact .inl ⟨rfl, rfl⟩
  | apiSend s t =>
    left
    exact (((section_look _ _).append (sio (by simp))).append (section_route mb s t)).append (sio (by simp))
  | apiGet b => left; cases b <;> exact ⟨rfl, rfl⟩
  | apiGetEmpty => exact .inl (section_look _ _)
  | load records stored =>
    right
    rcases records with _ | n
    · rcases stored with _ | ⟨cs, own⟩
      · exact .inr rfl
      · left; right; right; left
        cases cs with
        | nil => exact ⟨_, rfl⟩
        | cons c cs => exact ⟨_, rfl⟩
    · left; right; left
      exact ⟨_, by unfold loadOps; rw [List.replicate_succ]; rfl⟩
  | mailboxStart => exact .inr (.inl (.inl ⟨_, rfl⟩))

theorem guarded_thread {mb : Bool} {p : List LockOp} (h : PeerThread mb p) (hs : ¬ StartOps p) :
    guarded [] p = true := by
  obtain ⟨_, q, hq⟩ := h
  rcases guarded_program hq with h | h | h
  · have := h.1
    rw [guarded_append, Bool.and_eq_true] at this
    exact this.1
  · cases p with
    | nil => rfl
    | cons a p =>
      exfalso
      apply hs
      rcases h with ⟨r, h⟩ | ⟨r, h⟩ | ⟨r, h⟩ | ⟨r, h⟩ <;> rw [List.cons_append, List.cons.injEq] at h <;>
        rw [h.1]
      · exact .inl ⟨_, rfl⟩
      · exact .inr (.inl ⟨_, rfl⟩)
      · exact .inr (.inr (.inl ⟨_, rfl⟩))
      · exact .inr (.inr (.inr ⟨_, rfl⟩))
  · rw [List.append_eq_nil_iff] at h
    rw [h.1]; rfl

theorem guarded_next {s : LockState} (h : ∀ t ∈ s, guarded t.held t.ops = true) {i : Nat} {u : LockThread}
    (hn : s.next i = some u) : guarded u.held u.ops = true := by
  unfold LockState.next at hn
  cases hi : s[i]? with
  | none => rw [hi] at hn; cases hn
  | some t =>
    rw [hi] at hn
    have ht := h t (List.mem_of_getElem? hi)
    obtain ⟨ops, held, asked⟩ := t
    dsimp only at hn ht
    cases ops with
    | nil => cases hn
    | cons op r =>
      cases op with
      | lock l =>
        dsimp only at hn
        split at hn
        · split at hn
          · cases hn
          · cases hn; exact ht
        · split at hn
          · cases hn
          · cases hn; exact ht
      | rlock l =>
        dsimp only at hn
        split at hn
        · cases hn
        · cases hn; exact ht
      | enter => cases hn; exact ht
      | release l => cases hn; exact ht
      | await =>
        dsimp only at hn
        split at hn
        · cases hn
        · cases hn; exact ht
      | io k =>
        cases hn
        cases k with
        | use l w =>
          simp only [guarded, Bool.and_eq_true] at ht
          exact ht.2
        | _ => exact ht

theorem guarded_run :
    ∀ (l : List LockState.Step) (s : LockState), (∀ t ∈ s, guarded t.held t.ops = true) →
      (∀ p, .spawn p ∈ l → guarded [] p = true) → ∀ t ∈ s.run l, guarded t.held t.ops = true
  | [], s, h, _ => h
  | x :: l, s, h, hl => by
    rw [LockState.run, List.foldl_cons]
    refine guarded_run l _ ?_ (fun p hp => hl p (List.mem_cons_of_mem _ hp))
    cases x with
    | go i =>
      simp only [LockState.step]
      split
      · next t hn =>
        intro u hu
        rcases List.mem_or_eq_of_mem_set hu with hu | rfl
        · exact h u hu
        · exact guarded_next h hn
      · exact h
    | spawn p =>
      intro u hu
      simp only [LockState.step] at hu
      rcases List.mem_append.1 hu with hu | hu
      · exact h u hu
      · rw [List.mem_singleton] at hu
        subst hu
        exact hl p List.mem_cons_self

/-! ## The property -/

/-- Threads that have ended. -/
def endedThreads (k : Nat) : LockState := List.replicate k ⟨[], [], false⟩

/-- **C102, partial.** Once the threads of the start have ended (there are `k` of them), two threads are never about
to use the same data, one of them to write: for every map of the peer and of its mailbox, and for
`enableAddressAnnouncement`, any number of threads and any schedule. Missing from the property: the start of the peer
(`C102_start_counterexample`, `C102_mailbox_counterexample`). -/
theorem C102_no_race_partial (mb : Bool) (k : Nat) (l : List LockState.Step) (hl : PeerHistory mb l)
    (hs : NoStart l) (n : LockName) : ¬ ((endedThreads k).run l).Race n := by
  rintro ⟨i, j, t, u, w, hij, hi, hj, ht, hu⟩
  have ended : ∀ t ∈ endedThreads k, t = ⟨[], [], false⟩ := fun t ht => (List.mem_replicate.1 ht).2
  have hg := guarded_run l (endedThreads k) (fun t ht => by rw [ended t ht]; rfl)
    (fun p hp => guarded_thread (hl p hp) (hs p hp))
  have hex := run_exclusive l (endedThreads k)
    (fun i j t u hi _ _ l hw => by rw [ended t (List.mem_of_getElem? hi)] at hw; cases hw)
    (fun t ht => by rw [ended t ht]; exact ⟨⟨rfl, fun h => by cases h⟩, rfl⟩)
    (fun p hp => thread_loose (hl p hp))
  have hgt := hg t (List.mem_of_getElem? hi)
  have hgu := hg u (List.mem_of_getElem? hj)
  have use : ∀ (t : LockThread) (w : Bool), guarded t.held t.ops = true → t.ops.head? = some (io (.use n w)) →
      (t.held.any fun x => x.1 == n && (x.2 || !w)) = true := by
    rintro ⟨ops, held, asked⟩ w hg hh
    cases ops with
    | nil => cases hh
    | cons op r =>
      rw [List.head?_cons, Option.some.injEq] at hh
      subst hh
      simp only [guarded, Bool.and_eq_true] at hg
      exact hg.1
  have h1 : t.writes n = true := by
    have := use t true hgt ht
    simpa [LockThread.writes] using this
  have h2 : u.holds n = true := by
    have := use u w hgu hu
    rw [List.any_eq_true] at this
    obtain ⟨x, hx, he⟩ := this
    rw [Bool.and_eq_true] at he
    exact List.any_eq_true.2 ⟨x, hx, he.1⟩
  rw [hex i j t u hi hj hij n h1] at h2
  cases h2

theorem run_io_first (u : LockThread) :
    ∀ (ks : List LockIo) (r : List LockOp),
      LockState.run [⟨ks.map io ++ r, [], false⟩, u] (List.replicate ks.length (.go 0)) = [⟨r, [], false⟩, u]
  | [], _ => rfl
  | _ :: ks, r => run_io_first u ks r

theorem load_ios (n : Nat) :
    (List.replicate n [io .file, io (.use .records true), io (.use .dht true)]).flatten =
      (List.replicate n [LockIo.file, .use .records true, .use .dht true]).flatten.map io := by
  simp

/-- **C102 is false** while the peer starts. The stream for registrations is open when `New` loads the records and,
with bootstrap peers, announces the loaded addresses, for up to 3 s each; it does so without a lock. When it is about to
read a record, for any number of records before and after, a registration may be about to write the same map; and
when it has read all of them and is about to go through the addresses, likewise. -/
theorem C102_start_counterexample (stored : Option (List AnnounceCase × Option AnnounceCase)) (c : AnnounceCase) :
    (∀ k m, ∃ l, (LockState.run []
      (.spawn (loadOps (k + (m + 1)) stored) :: .spawn (relayRegisterOps c) :: l)).Race .records) ∧
    (∀ k cs own, ∃ l, (LockState.run []
      (.spawn (loadOps k (some (cs, own))) :: .spawn (relayRegisterOps c) :: l)).Race .dht) := by
  constructor
  · intro k m
    obtain ⟨r, hr⟩ : ∃ r, loadOps (k + (m + 1)) stored =
        ((List.replicate k [LockIo.file, .use .records true, .use .dht true]).flatten ++ [LockIo.file]).map io ++
          io (.use .records true) :: r := by
      unfold loadOps
      rw [← List.replicate_append_replicate, List.flatten_append, load_ios k, List.replicate_succ]
      simp only [List.map_append, List.map_cons, List.map_nil, List.flatten_cons, List.append_assoc,
        List.cons_append, List.nil_append]
      exact ⟨_, rfl⟩
    have h := run_io_first (.start (relayRegisterOps c))
      ((List.replicate k [LockIo.file, .use .records true, .use .dht true]).flatten ++ [.file])
      (io (.use .records true) :: r)
    rw [← hr] at h
    generalize List.replicate _ (Step.go 0) = l at h
    refine ⟨l ++ List.replicate 3 (.go 1), ?_⟩
    show ((LockState.run [⟨loadOps (k + (m + 1)) stored, [], false⟩, .start (relayRegisterOps c)] _).Race _)
    rw [run_append_locks, h]
    exact ⟨0, 1, _, _, true, by decide, rfl, rfl, rfl, rfl⟩
  · intro k cs own
    obtain ⟨r, hr⟩ : ∃ r, loadOps k (some (cs, own)) =
        ((List.replicate k [LockIo.file, .use .records true, .use .dht true]).flatten).map io ++
          io (.use .dht false) :: r := by
      unfold loadOps
      rw [load_ios k]
      cases cs <;> exact ⟨_, rfl⟩
    have h := run_io_first (.start (relayRegisterOps c))
      ((List.replicate k [LockIo.file, .use .records true, .use .dht true]).flatten)
      (io (.use .dht false) :: r)
    rw [← hr] at h
    generalize List.replicate _ (Step.go 0) = l at h
    refine ⟨l ++ List.replicate 7 (.go 1), ?_⟩
    show ((LockState.run [⟨loadOps k (some (cs, own)), [], false⟩, .start (relayRegisterOps c)] _).Race _)
    have h2 : ∃ t u : LockThread, LockState.run [⟨io (.use .dht false) :: r, [], false⟩, .start (relayRegisterOps c)]
        (List.replicate 7 (.go 1)) = [t, u] ∧
        u.ops.head? = some (io (.use .dht true)) ∧ t.ops.head? = some (io (.use .dht false)) := by
      simp [relayRegisterOps, sec, LockThread.start, LockState.run, List.replicate, LockState.step, LockState.next,
        LockThread.done, LockThread.wants, LockThread.writes, LockThread.holds]
      exact ⟨_, _, ⟨rfl, rfl⟩, rfl, rfl⟩
    obtain ⟨t, u, h2, h3, h4⟩ := h2
    rw [run_append_locks, h, h2]
    exact ⟨1, 0, u, t, false, by decide, rfl, rfl, h3, h4⟩

/-- **C102 is false** while the mailbox starts: it makes its maps and its lock without a lock, in a thread of its own,
when the peer already routes envelopes. -/
theorem C102_mailbox_counterexample :
    ∃ p q : List LockOp, PeerProgram true p ∧ PeerProgram true q ∧
      ∃ l, (LockState.run [] (.spawn p :: .spawn q :: l)).Race .mailbox :=
  ⟨_, _, .mailboxStart, .route .own .box, List.replicate 8 (.go 1), 0, 1, _, _, true, by decide, rfl, rfl, rfl, rfl⟩

/-- Concrete case: two registrations at the same time. When the first is about to write the records, the second waits
for the lock; the other way round, there is no race either. -/
example :
    let s := LockState.run [] ([.spawn (relayRegisterOps .already), .spawn (relayRegisterOps .already)] ++
      List.replicate 3 (.go 0) ++ List.replicate 9 (.go 1))
    s.map (·.ops.head?) = [some (io (.use .records true)), some (lock .records)] ∧
    (s.run ([.go 0, .go 0] ++ List.replicate 2 (.go 1))).map (·.ops.head?) =
      [some (lock .dht), some (io (.use .records true))] := by
  decide +kernel

end Verif
