import Mathlib.Data.List.Perm.Subperm
import Verif.Model.LockTime
import Verif.Props.PeerLocks

/-!
# C104: how long the tables of a peer are waited for

Property: who needs a table of the peer, as every envelope and every look-up does, gets it without waiting for the
network. The rules of the lock are in `Verif.Model.LockTime`; here is what they imply, and how long the sections of the
programs of a peer are.
-/

namespace Verif

open LockOp

/-! ## What the rules imply -/

/-- **C104, the rules exclude**: while a writer is inside, nobody else is. -/
theorem C104_exclusion {us : List LockUse} (h : LockRun us) {i j : Nat} {u v : LockUse} (hi : us[i]? = some u)
    (hj : us[j]? = some v) (hij : i ≠ j) (hu : u.write = true) : v.leave ≤ u.enter ∨ u.leave ≤ v.enter := by
  have hum := List.mem_of_getElem? hi
  have hvm := List.mem_of_getElem? hj
  obtain ⟨-, hu2, -⟩ := h.order u hum
  obtain ⟨-, hv2, -⟩ := h.order v hvm
  cases hv : v.write with
  | false =>
    rcases h.readers u hum v hvm hu hv with h1 | h1
    · exact .inl (h.drained u hum v hvm hu hv h1)
    · exact .inr h1
  | true =>
    have key : u.leave ≤ v.ask ∨ v.leave ≤ u.ask := by
      obtain ⟨hli, rfl⟩ := List.getElem?_eq_some_iff.1 hi
      obtain ⟨hlj, rfl⟩ := List.getElem?_eq_some_iff.1 hj
      have hp := List.pairwise_iff_getElem.1 h.writers
      rcases Nat.lt_or_gt_of_ne hij with hlt | hlt
      · exact hp i j hli hlj hlt hu hv
      · exact (hp j i hlj hli hlt hv hu).symm
    rcases key with h1 | h1
    · exact .inr (Nat.le_trans h1 hv2)
    · exact .inl (Nat.le_trans h1 hu2)

/-- The uses are short: readers stay at most `R`, writers at most `W`. -/
def Stays (R W : Nat) (us : List LockUse) : Prop :=
  ∀ u ∈ us, u.leave ≤ u.enter + if u.write then W else R

/-- **C104.** A writer that has announced itself waits only for one reader. -/
theorem C104_announced {us : List LockUse} (h : LockRun us) {R W : Nat} (hs : Stays R W us) {u : LockUse}
    (hu : u ∈ us) (hw : u.write = true) : u.enter ≤ u.ask + R := by
  refine Nat.le_of_not_lt fun hlt => ?_
  obtain ⟨v, hv, hvr, h1, h2⟩ := h.drains u hu hw (u.ask + R) (Nat.le_add_right _ _) hlt
  have := hs v hv
  simp only [hvr, Bool.false_eq_true, if_false] at this
  omega

/-- **C104.** A reader waits for one writer and one reader at most, however many there are. -/
theorem C104_reader {us : List LockUse} (h : LockRun us) {R W : Nat} (hs : Stays R W us) {v : LockUse}
    (hv : v ∈ us) (hr : v.write = false) : v.enter ≤ v.arrive + R + W := by
  rcases h.letIn v hv hr with h1 | ⟨u, hu, hw, h1, h2, h3⟩
  · omega
  · have h4 := C104_announced h hs hu hw
    have h5 := hs u hu
    simp only [hw, if_true] at h5
    omega

/-- The writers that are there some time between `a` and `b`. -/
def writersBetween (a b : Nat) (us : List LockUse) : List LockUse :=
  us.filter fun v => v.write && decide (v.ask < b) && decide (a < v.leave)

theorem covered (L : Nat) (vs : List LockUse) (hl : ∀ v ∈ vs, v.leave ≤ v.ask + L) (a n : Nat)
    (h : ∀ t, a ≤ t → t < a + n → ∃ v ∈ vs, v.ask ≤ t ∧ t < v.leave) : n ≤ vs.length * L := by
  have count : ∀ (vs : List LockUse) (ts : List Nat), (∀ t ∈ ts, ∃ v ∈ vs, v.ask ≤ t ∧ t < v.leave) →
      ts.Nodup → (∀ v ∈ vs, v.leave ≤ v.ask + L) → ts.length ≤ vs.length * L := by
    intro vs
    induction vs with
    | nil =>
      intro ts h1 _ _
      cases ts with
      | nil => simp
      | cons t ts => obtain ⟨v, hv, -⟩ := h1 t (by simp); simp at hv
    | cons v vs ih =>
      intro ts h1 h2 h3
      have e : ts.length = (ts.filter fun t => decide (v.ask ≤ t ∧ t < v.leave)).length +
          (ts.filter fun t => !decide (v.ask ≤ t ∧ t < v.leave)).length := by
        have := List.length_eq_countP_add_countP (fun t => decide (v.ask ≤ t ∧ t < v.leave)) (l := ts)
        rw [List.countP_eq_length_filter, List.countP_eq_length_filter] at this
        rw [this]
        congr 2
        refine List.filter_congr fun t _ => ?_
        by_cases hx : v.ask ≤ t ∧ t < v.leave <;> simp [hx]
      have h4 : (ts.filter fun t => decide (v.ask ≤ t ∧ t < v.leave)).length ≤ L := by
        have hsub : (ts.filter fun t => decide (v.ask ≤ t ∧ t < v.leave)) ⊆ List.range' v.ask L := by
          intro t ht
          simp only [List.mem_filter, decide_eq_true_eq] at ht
          have := h3 v (by simp)
          rw [List.mem_range'_1]
          omega
        have := (List.subperm_of_subset (List.Pairwise.filter (fun t => decide (v.ask ≤ t ∧ t < v.leave)) h2) hsub).length_le
        simpa using this
      have h5 := ih (ts.filter fun t => !decide (v.ask ≤ t ∧ t < v.leave)) (by
        intro t ht
        simp only [List.mem_filter, Bool.not_eq_true', decide_eq_false_iff_not] at ht
        obtain ⟨w, hw, h6⟩ := h1 t ht.1
        rcases List.mem_cons.1 hw with rfl | hw
        · exact absurd h6 ht.2
        · exact ⟨w, hw, h6⟩) (List.Pairwise.filter _ h2) (fun w hw => h3 w (by simp [hw]))
      rw [List.length_cons, Nat.add_mul, Nat.one_mul]
      omega
  have := count vs (List.range' a n) (by
    intro t ht
    rw [List.mem_range'_1] at ht
    exact h t ht.1 ht.2) List.nodup_range' hl
  simpa using this

/-- **C104.** A writer waits for the other writers that are there meanwhile, each with one reader, and for one reader
more. -/
theorem C104_writer {us : List LockUse} (h : LockRun us) {R W : Nat} (hs : Stays R W us) {u : LockUse}
    (hu : u ∈ us) (hw : u.write = true) :
    u.enter ≤ u.arrive + (writersBetween u.arrive u.ask us).length * (R + W) + R := by
  have h1 := C104_announced h hs hu hw
  have h0 := (h.order u hu).1
  have h2 := covered (R + W) (writersBetween u.arrive u.ask us) (by
    intro v hv
    simp only [writersBetween, List.mem_filter, Bool.and_eq_true, decide_eq_true_eq] at hv
    have h3 := C104_announced h hs hv.1 hv.2.1.1
    have h4 := hs v hv.1
    simp only [hv.2.1.1, if_true] at h4
    omega) u.arrive (u.ask - u.arrive) (by
    intro t ht1 ht2
    obtain ⟨v, hv, hvw, h3, h4⟩ := h.prompt u hu hw t ht1 (by omega)
    refine ⟨v, ?_, h3, h4⟩
    simp only [writersBetween, List.mem_filter, Bool.and_eq_true, decide_eq_true_eq]
    exact ⟨hv, ⟨hvw, by omega⟩, by omega⟩)
  omega

/-! ## What is called in the sections of a peer -/

/-- The calls in the sections of a lock; `closing` if the peer is being closed. -/
def LockIo.within (closing : Bool) (l : LockName) (write : Bool) : LockIo → Bool
  | .use _ _ => true
  | .provide => l = .group || ((l = .tcp || l = .dht) && !write)
  | .file => (l = .dht && write) || (closing && l = .records)
  | .hangUp => closing && l = .tcp
  | .timer => l = .group
  | .remote => l = .mailbox
  | .chan => false
  | .agent => false

/-- The locks held after operations, with their modes, `none` if there is a call that is not in the list. -/
def holdTrack (closing : Bool) : List (LockName × Bool) → List LockOp → Option (List (LockName × Bool))
  | held, [] => some held
  | held, .lock l :: r => holdTrack closing ((l, true) :: held) r
  | held, .rlock l :: r => holdTrack closing ((l, false) :: held) r
  | held, .enter :: r => holdTrack closing ((.group, false) :: held) r
  | held, .release l :: r => holdTrack closing (held.eraseP fun x => x.1 == l) r
  | held, .await :: r => holdTrack closing held r
  | held, .io k :: r => if held.all fun x => k.within closing x.1 x.2 then holdTrack closing held r else none

theorem holdTrack_append (closing : Bool) :
    ∀ (p q : List LockOp) (held : List (LockName × Bool)),
      holdTrack closing held (p ++ q) = (holdTrack closing held p).bind fun h => holdTrack closing h q
  | [], q, held => rfl
  | op :: p, q, held => by
    cases op <;> simp only [List.cons_append, holdTrack]
    case io k =>
      split
      · exact holdTrack_append closing p q _
      · rfl
    all_goals exact holdTrack_append closing p q _

theorem holdTrack_flatMap (closing : Bool) {α : Type} (f : α → List LockOp) (held : List (LockName × Bool))
    (h : ∀ x, holdTrack closing held (f x) = some held) :
    ∀ l : List α, holdTrack closing held (l.flatMap f) = some held
  | [] => rfl
  | a :: l => by
    rw [List.flatMap_cons, holdTrack_append, h a]
    exact holdTrack_flatMap closing f held h l

/-- The states in which addresses are announced. -/
def announcing : List (List (LockName × Bool)) :=
  [[], [(.group, false)], [(.dht, false), (.group, false)], [(.tcp, false), (.group, false)]]

theorem holdTrack_registerOps (b : Bool) {held : List (LockName × Bool)} (hh : held ∈ announcing) (c : AnnounceCase) :
    holdTrack b held (registerOps c) = some held := by
  simp only [announcing, List.mem_cons, List.not_mem_nil, or_false] at hh
  rcases hh with rfl | rfl | rfl | rfl <;> cases b <;> cases c <;> rfl

theorem holdTrack_announceOps (b : Bool) {held : List (LockName × Bool)} (hh : held ∈ announcing) (l : LockName)
    (cs : List AnnounceCase) : holdTrack b held (announceOps l cs) = some held := by
  have e1 : holdTrack b held [io (.use l false)] = some held := by simp [holdTrack, LockIo.within]
  unfold announceOps
  rw [holdTrack_append, holdTrack_flatMap b _ held (fun c => ?_) cs]
  · exact e1
  · rw [← List.singleton_append, holdTrack_append, e1]
    exact holdTrack_registerOps b hh c

theorem holdTrack_senderOps (b mb : Bool) (s : SenderCase) : holdTrack b [] (senderOps mb s) = some [] := by
  cases s with
  | own => rfl
  | box still => cases mb <;> cases still <;> rfl
  | other => cases mb <;> rfl

theorem holdTrack_routeOps (b mb : Bool) (s : SenderCase) (t : TargetCase) :
    holdTrack b [] (routeOps mb s t) = some [] := by
  unfold routeOps
  simp only [holdTrack_append, holdTrack_senderOps, Option.bind_some]
  cases t with
  | lookup s' slow =>
    simp only [holdTrack_append]
    cases mb <;> cases slow <;> simp [holdTrack, rsec, sec, LockIo.within, holdTrack_senderOps]
  | _ => cases mb <;> rfl

/-- `Close`: dhtpeer.go:616-666 -/
def closeOps (conns : Nat) : List LockOp :=
  [lock .tcp] ++ (List.replicate conns [io (.use .tcp false), io .hangUp]).flatten ++
    [release .tcp, io .timer] ++ [lock .records, io .file, release .records] ++ look .sync

theorem holdTrack_program {mb : Bool} {p : List LockOp} (h : PeerProgram mb p) (b : Bool)
    (hb : b = false → ∀ n, p ≠ closeOps n) : holdTrack b [] p = some [] := by
  cases h with
  | apiGet taken => cases taken <;> rfl
  | apiGetEmpty => rfl
  | mailboxStart => rfl
  | load records stored =>
    have h0 : ∀ n, holdTrack b []
        (List.replicate n [io .file, io (.use .records true), io (.use .dht true)]).flatten = some [] := by
      intro n
      induction n with
      | zero => rfl
      | succ n ih => rw [List.replicate_succ, List.flatten_cons, holdTrack_append]; exact ih
    have h1 : ∀ cs, holdTrack b [] (announceOps .dht cs) = some [] :=
      holdTrack_announceOps b (by decide) .dht
    have h3 : ∀ c, holdTrack b [] (registerOps c) = some [] := holdTrack_registerOps b (by decide)
    have e1 : holdTrack b [] [io (.use .enabled true)] = some [] := rfl
    have e2 : holdTrack b [] (look .announced) = some [] := rfl
    have e4 : holdTrack b [] [] = some [] := rfl
    rcases stored with _ | ⟨cs, _ | c⟩ <;>
      simp only [loadOps, holdTrack_append, h0, h1, h3, e1, e2, e4, Option.bind_some]
  | route s t => exact holdTrack_routeOps b mb s t
  | worker l =>
    rw [holdTrack_append]
    exact holdTrack_flatMap b (fun x : SenderCase × TargetCase => io .chan :: routeOps mb x.1 x.2) []
      (fun x => holdTrack_routeOps b mb x.1 x.2) l
  | slow l =>
    refine holdTrack_flatMap b _ [] (fun s => ?_) l
    rw [List.cons_append]
    show holdTrack b [] (senderOps mb s ++ [io .remote]) = _
    rw [holdTrack_append, holdTrack_senderOps]
    rfl
  | handleEnvelope t => cases mb <;> rcases t with _ | _ | _ <;> rfl
  | addressRequest t => cases mb <;> rcases t with _ | _ | _ <;> rfl
  | notif found own relay tcp =>
    cases found with
    | false => rfl
    | true =>
      have h1 : holdTrack b [(.dht, false), (.group, false)] (announceOps .dht relay) =
          some [(.dht, false), (.group, false)] := holdTrack_announceOps b (by decide) .dht relay
      have h2 : holdTrack b [(.tcp, false), (.group, false)] (announceOps .tcp tcp) =
          some [(.tcp, false), (.group, false)] := holdTrack_announceOps b (by decide) .tcp tcp
      have h3 : ∀ c, holdTrack b [(.group, false)] (registerOps c) = some [(.group, false)] :=
        holdTrack_registerOps b (by decide)
      have e1 : holdTrack b [] [enter, io .timer] = some [(.group, false)] := rfl
      have e2 : holdTrack b [(.group, false)] [rlock .dht] = some [(.dht, false), (.group, false)] := rfl
      have e3 : holdTrack b [(.dht, false), (.group, false)] [release .dht] = some [(.group, false)] := rfl
      have e4 : holdTrack b [(.group, false)] [rlock .tcp] = some [(.tcp, false), (.group, false)] := rfl
      have e5 : holdTrack b [(.tcp, false), (.group, false)] [release .tcp] = some [(.group, false)] := rfl
      have e6 : holdTrack b [(.group, false)] (sec .enabled) = some [(.group, false)] := rfl
      have e7 : holdTrack b [(.group, false)] [release .group] = some [] := rfl
      have e8 : holdTrack b [(.group, false)] (look .announced) = some [(.group, false)] := rfl
      have e9 : holdTrack b [(.group, false)] [] = some [(.group, false)] := rfl
      rw [if_pos rfl]
      cases own <;>
        simp only [holdTrack_append, h1, h2, h3, e1, e2, e3, e4, e5, e6, e7, e8, e9, Option.bind_some]
  | notifFailed own =>
    have h3 : ∀ c, holdTrack b [(.group, false)] (registerOps c) = some [(.group, false)] :=
      holdTrack_registerOps b (by decide)
    have e1 : holdTrack b [] [enter, io .timer] = some [(.group, false)] := rfl
    have e7 : holdTrack b [(.group, false)] [release .group] = some [] := rfl
    have e8 : holdTrack b [(.group, false)] (look .announced) = some [(.group, false)] := rfl
    simp only [holdTrack_append, h3, e1, e7, e8, Option.bind_some]
  | register c =>
    unfold relayRegisterOps
    rw [holdTrack_append]
    have : holdTrack b [] ([io .remote] ++ sec .records ++ [lock .dht, io (.use .dht true), io .file, release .dht] ++
      enabledOps ++ look .announced) = some [] := by cases b <;> rfl
    rw [this]
    exact holdTrack_registerOps b (by decide) c
  | delegate c l =>
    have h1 : holdTrack b [] (l.flatMap delegateRound) = some [] :=
      holdTrack_flatMap b _ _ (fun x => by rcases x with _ | _ | _ <;> rfl) l
    have h3 : ∀ c, holdTrack b [] (registerOps c) = some [] := holdTrack_registerOps b (by decide)
    have e1 : holdTrack b [] [io .remote] = some [] := rfl
    have e2 : ∀ l, holdTrack b [] (sec l) = some [] := fun l => by cases l <;> rfl
    have e3 : holdTrack b [] enabledOps = some [] := rfl
    have e4 : holdTrack b [] [] = some [] := rfl
    cases c <;> simp only [holdTrack_append, h1, h3, e1, e2, e3, e4, Option.bind_some]
  | close n =>
    cases b with
    | false => exact absurd rfl (hb rfl n)
    | true =>
      have h1 : ∀ n, holdTrack true [(.tcp, true)] (List.replicate n [io (.use .tcp false), io .hangUp]).flatten =
          some [(.tcp, true)] := by
        intro n
        induction n with
        | zero => rfl
        | succ n ih => rw [List.replicate_succ, List.flatten_cons, holdTrack_append]; exact ih
      have e1 : holdTrack true [] [lock .tcp] = some [(.tcp, true)] := rfl
      have e2 : holdTrack true [(.tcp, true)] [release .tcp, io .timer] = some [] := rfl
      have e3 : holdTrack true [] [lock .records, io .file, release .records] = some [] := rfl
      have e4 : holdTrack true [] (look .sync) = some [] := rfl
      simp only [holdTrack_append, h1, e1, e2, e3, e4, Option.bind_some]
  | apiRegister c =>
    have h3 : ∀ c, holdTrack b [] (registerOps c) = some [] := holdTrack_registerOps b (by decide)
    have e1 : holdTrack b [] [io .remote] = some [] := rfl
    have e2 : holdTrack b [] (sec .mailbox) = some [] := rfl
    have e3 : holdTrack b [] enabledOps = some [] := rfl
    have e4 : holdTrack b [] [] = some [] := rfl
    cases c <;> simp only [holdTrack_append, h3, e1, e2, e3, e4, Option.bind_some]
  | apiUnregister => rfl
  | apiSend s t =>
    rw [holdTrack_append, holdTrack_append]
    show (Option.bind (holdTrack b [] (routeOps mb s t)) _) = _
    rw [holdTrack_routeOps]
    rfl

theorem holdTrack_body {b : Bool} {l : LockName} {w : Bool} {body : List LockOp} (hr : .release l ∉ body) :
    ∀ {held h : List (LockName × Bool)}, (l, w) ∈ held → holdTrack b held body = some h →
      ∀ k, io k ∈ body → k.within b l w = true := by
  induction body with
  | nil => intro _ _ _ _ k hk; simp at hk
  | cons op body ih =>
    intro held h hm ht k hk
    have hr' : .release l ∉ body := fun h => hr (List.mem_cons_of_mem _ h)
    have hk' : op ≠ io k → io k ∈ body := by
      intro hne
      rcases List.mem_cons.1 hk with h | h
      · exact absurd h.symm hne
      · exact h
    cases op with
    | lock m => exact ih hr' (List.mem_cons_of_mem _ hm) ht k (hk' (by simp))
    | rlock m => exact ih hr' (List.mem_cons_of_mem _ hm) ht k (hk' (by simp))
    | enter => exact ih hr' (List.mem_cons_of_mem _ hm) ht k (hk' (by simp))
    | await => exact ih hr' hm ht k (hk' (by simp))
    | release m =>
      refine ih hr' ?_ ht k (hk' (by simp))
      have hne : m ≠ l := by rintro rfl; exact hr (by simp)
      refine (List.mem_eraseP_of_neg ?_).2 hm
      simpa using Ne.symm hne
    | io k' =>
      simp only [holdTrack] at ht
      split at ht
      · rename_i ha
        rcases List.mem_cons.1 hk with h | h
        · cases h
          exact List.all_eq_true.1 ha _ hm
        · exact ih hr' hm ht k h
      · simp at ht

/-- **C104, sections.** What is called while a lock is held, in every program of a peer: `Provide` in notifications, with
the connections or the relay clients locked for reading; the storage file with the relay clients locked for writing; a
client with the mailbox locked. While the peer is closed also the connections are closed and the file. -/
theorem C104_sections {mb : Bool} {p body : List LockOp} (h : PeerProgram mb p) {l : LockName} {w : Bool}
    (hs : LockSection l w p body) (closing : Bool) (hb : closing = false → ∀ n, p ≠ closeOps n) :
    ∀ k, io k ∈ body → k.within closing l w = true := by
  obtain ⟨hr, pre, post, rfl⟩ := hs
  have ht := holdTrack_program h closing hb
  rw [holdTrack_append] at ht
  obtain ⟨h1, -, ht⟩ := Option.bind_eq_some_iff.1 ht
  have ht2 : ∃ h2, holdTrack closing ((l, w) :: h1) (body ++ .release l :: post) = h2 ∧ h2 = some [] := by
    cases w
    · exact ⟨_, rfl, ht⟩
    · exact ⟨_, rfl, ht⟩
  obtain ⟨h2, ht2, rfl⟩ := ht2
  rw [holdTrack_append] at ht2
  obtain ⟨h3, ht3, -⟩ := Option.bind_eq_some_iff.1 ht2
  exact holdTrack_body hr List.mem_cons_self ht3

theorem file_senderOps (mb : Bool) (s : SenderCase) : io .file ∉ senderOps mb s := by
  rcases s with _ | _ | _ <;> cases mb <;> simp [senderOps, rsec, look]

theorem file_routeOps (mb : Bool) (s : SenderCase) (t : TargetCase) : io .file ∉ routeOps mb s t := by
  have h := file_senderOps mb
  cases t with
  | lookup s' slow => cases mb <;> cases slow <;> simp [routeOps, h, rsec, sec]
  | _ => cases mb <;> simp [routeOps, h, rsec, sec, look]

theorem file_registerOps (c : AnnounceCase) : io .file ∉ registerOps c := by
  cases c <;> simp [registerOps, look, sec]

/-- Only registrations of relay clients write to the file with a lock held, once. -/
theorem file_section {mb : Bool} {p body : List LockOp} (h : PeerProgram mb p) {l : LockName} {w : Bool}
    (hc : ∀ c, p ≠ closeOps c) (hs : LockSection l w p body) : body.count (io .file) ≤ 1 := by
  have hall := C104_sections h hs false (fun _ => hc)
  obtain ⟨-, pre, post, he⟩ := hs
  have hsub : body.Sublist p := by
    rw [he]
    exact ((List.sublist_append_left _ _).cons _).trans (List.sublist_append_right _ _)
  have none : io .file ∉ p → body.count (io .file) ≤ 1 := by
    intro hn
    rw [List.count_eq_zero.2 fun hm => hn (hsub.subset hm)]
    simp
  have h1 := file_senderOps mb
  have h2 := file_routeOps mb
  have h3 := file_registerOps
  have h4 : ∀ (m : LockName) (cs : List AnnounceCase), io .file ∉ announceOps m cs := by
    intro m cs
    simp [announceOps, h3]
  cases h with
  | close n => exact absurd rfl (hc n)
  | register c =>
    refine Nat.le_trans (hsub.count_le (io .file)) ?_
    unfold relayRegisterOps
    rw [List.count_append, List.count_eq_zero.2 (h3 c)]
    decide
  | load records stored =>
    rw [List.count_eq_zero.2 fun hm => ?_]
    · simp
    · obtain ⟨rfl, rfl⟩ : l = .dht ∧ w = true := by simpa [LockIo.within] using hall _ hm
      have hmem : lock .dht ∈ loadOps records stored := by rw [he]; simp
      have h5 : ∀ c, lock .dht ∉ registerOps c := by intro c; cases c <;> simp [registerOps, look, sec]
      have h6 : ∀ (m : LockName) (cs : List AnnounceCase), lock .dht ∉ announceOps m cs := by
        intro m cs; simp [announceOps, h5]
      rcases stored with _ | ⟨cs, _ | c⟩ <;> simp [loadOps, h5, h6, look] at hmem
  | apiGet b => exact none (by cases b <;> simp)
  | apiGetEmpty => exact none (by simp [look])
  | mailboxStart => exact none (by simp)
  | route s t => exact none (h2 s t)
  | worker ls => exact none (by simp [look, h2])
  | slow ls => exact none (by simp [h1])
  | handleEnvelope t => exact none (by cases mb <;> rcases t with _ | _ | _ <;> simp [rsec, sec, look])
  | addressRequest t => exact none (by cases mb <;> rcases t with _ | _ | _ <;> simp [rsec, look])
  | notif found own relay tcp =>
    exact none (by cases found <;> cases own <;> simp [look, h3, h4, sec])
  | notifFailed own => exact none (by simp [look, h3])
  | delegate c ls =>
    refine none ?_
    have h5 : ∀ x, io .file ∉ delegateRound x := by
      intro x; rcases x with _ | _ | _ <;> simp [delegateRound, look, sec]
    cases c <;> simp [sec, enabledOps, look, h3, h5]
  | apiRegister c => exact none (by cases c <;> simp [sec, enabledOps, look, h3])
  | apiUnregister => exact none (by simp [look, sec])
  | apiSend s t => exact none (by simp [look, h2])

/-! ## How long a peer waits -/

/-- A use of a lock by a peer that is not being closed: a section of one of its programs in which at most `n` addresses
are announced, and which takes no longer than its calls. -/
def PeerUse (mb : Bool) (l : LockName) (file n : Nat) (u : LockUse) : Prop :=
  ∃ p body t, PeerProgram mb p ∧ (∀ c, p ≠ closeOps c) ∧ LockSection l u.write p body ∧
    body.count (io .provide) ≤ n ∧ sectionTime file 0 0 body = some t ∧ u.leave ≤ u.enter + t

theorem sectionTime_le {file : Nat} {body : List LockOp} {t : Nat} (ht : sectionTime file 0 0 body = some t)
    (hn : ∀ k, io k ∈ body → k = .provide ∨ k = .file ∨ ∃ m w, k = .use m w) :
    t = 3000 * body.count (io .provide) + file * body.count (io .file) := by
  induction body generalizing t with
  | nil => simp only [sectionTime, Option.some.injEq] at ht; simp [← ht]
  | cons op body ih =>
    have hn' : ∀ k, io k ∈ body → k = .provide ∨ k = .file ∨ ∃ m w, k = .use m w :=
      fun k hk => hn k (List.mem_cons_of_mem _ hk)
    cases op with
    | io k =>
      simp only [sectionTime, Option.bind_eq_bind, Option.pure_def] at ht
      obtain ⟨d, hd, ht⟩ := Option.bind_eq_some_iff.1 ht
      obtain ⟨t', ht', ht⟩ := Option.bind_eq_some_iff.1 ht
      simp only [Option.some.injEq] at ht
      have := ih ht' hn'
      rcases hn k (by simp) with rfl | rfl | ⟨m, w, rfl⟩
      · simp only [LockIo.time, Option.some.injEq] at hd
        simp; omega
      · simp only [LockIo.time, Option.some.injEq] at hd
        simp [Nat.mul_add]; omega
      · simp only [LockIo.time, Option.some.injEq] at hd
        simp; omega
    | _ =>
      simp only [sectionTime] at ht
      have := ih ht hn'
      simpa [List.count_cons] using this

/-- How long a section of a lock is. -/
def stayRead (l : LockName) (n : Nat) : Nat := if l = .tcp ∨ l = .dht then 3000 * n else 0

/-- The same, for writing. -/
def stayWrite (l : LockName) (file : Nat) : Nat := if l = .dht then file else 0

theorem PeerUse.stays {mb : Bool} {l : LockName} {file n : Nat} {us : List LockUse} (hl : l ≠ .group)
    (hm : l ≠ .mailbox) (h : ∀ u ∈ us, PeerUse mb l file n u) : Stays (stayRead l n) (stayWrite l file) us := by
  intro u hu
  obtain ⟨p, body, t, hp, hc, hs, hn, ht, hle⟩ := h u hu
  have hf := file_section hp hc hs
  have hw := C104_sections hp hs false (fun _ => hc)
  have hk : ∀ k, io k ∈ body → k = .provide ∨ k = .file ∨ ∃ m w, k = .use m w := by
    intro k hk
    have := hw k hk
    cases k <;> simp_all [LockIo.within]
  have htime := sectionTime_le ht hk
  have hprov : ¬ ((l = .tcp ∨ l = .dht) ∧ u.write = false) → body.count (io .provide) = 0 := by
    intro hne
    refine List.count_eq_zero.2 fun hmem => hne ?_
    have := hw _ hmem
    simpa [LockIo.within, hl] using this
  have hfile : ¬ (l = .dht ∧ u.write = true) → body.count (io .file) = 0 := by
    intro hne
    refine List.count_eq_zero.2 fun hmem => hne ?_
    have := hw _ hmem
    simpa [LockIo.within] using this
  cases hu' : u.write with
  | true =>
    rw [hprov (by simp [hu'])] at htime
    simp only [if_true, stayWrite]
    split
    · have : file * body.count (io .file) ≤ file * 1 := Nat.mul_le_mul_left _ hf
      omega
    · rename_i hne
      rw [hfile (by simp [hne])] at htime
      omega
  | false =>
    rw [hfile (by simp [hu'])] at htime
    simp only [Bool.false_eq_true, if_false, stayRead]
    split
    · have : 3000 * body.count (io .provide) ≤ 3000 * n := Nat.mul_le_mul_left _ hn
      omega
    · rename_i hne
      rw [hprov (by simp [hne])] at htime
      omega

/-- **C104, partial.** An envelope or a look-up that needs the connections of a peer waits at most 3 s for each client
that notifications announce; for the relay clients it waits one write to the file more. Missing: that it does not wait
for the network at all, `C104_counterexample`; the peer is not being closed. -/
theorem C104_tables_partial {mb : Bool} {l : LockName} (hl : l = .tcp ∨ l = .dht) {file n : Nat} {us : List LockUse}
    (h : LockRun us) (hu : ∀ u ∈ us, PeerUse mb l file n u) :
    (∀ v ∈ us, v.write = false → v.enter ≤ v.arrive + 3000 * n + if l = .dht then file else 0) ∧
    (∀ v ∈ us, v.write = true → v.enter ≤
      v.arrive + (writersBetween v.arrive v.ask us).length * (3000 * n + if l = .dht then file else 0) + 3000 * n) := by
  have hs := PeerUse.stays (by rcases hl with rfl | rfl <;> simp) (by rcases hl with rfl | rfl <;> simp) hu
  have e : stayRead l n = 3000 * n := if_pos hl
  rw [e] at hs
  exact ⟨fun v hv hr => C104_reader h hs hv hr, fun v hv hw => C104_writer h hs hv hw⟩

/-- **C104.** For the other locks but that of the mailbox nobody waits. -/
theorem C104_short {mb : Bool} {l : LockName} (h1 : l ≠ .tcp) (h2 : l ≠ .dht) (h3 : l ≠ .group) (h4 : l ≠ .mailbox)
    {file n : Nat} {us : List LockUse} (h : LockRun us) (hu : ∀ u ∈ us, PeerUse mb l file n u) :
    ∀ v ∈ us, v.enter = v.arrive := by
  have hs := PeerUse.stays h3 h4 hu
  have e1 : stayRead l n = 0 := if_neg (by simp [h1, h2])
  have e2 : stayWrite l file = 0 := if_neg h2
  rw [e1, e2] at hs
  intro v hv
  have h0 := h.order v hv
  cases hw : v.write with
  | false =>
    have := C104_reader h hs hv hw
    omega
  | true =>
    have := C104_writer h hs hv hw
    simp only [Nat.add_zero, Nat.mul_zero] at this
    omega

/-! ## The network is waited for -/

theorem count_announceOps (l : LockName) (n : Nat) :
    (announceOps l (List.replicate n .provided)).count (io .provide) = n ∧
    (announceOps l (List.replicate n .provided)).count (io .file) = 0 ∧
    sectionTime 0 0 0 (announceOps l (List.replicate n .provided)) = some (3000 * n) ∧
    (∀ m, m ≠ .announced → m ≠ .metric → .release m ∉ announceOps l (List.replicate n .provided)) := by
  induction n with
  | zero => simp [announceOps, sectionTime, LockIo.time]
  | succ n ih =>
    have e : announceOps l (List.replicate (n + 1) .provided) =
        (io (.use l false) :: registerOps .provided) ++ announceOps l (List.replicate n .provided) := by
      simp [announceOps, List.replicate_succ]
    obtain ⟨i1, i2, i3, i4⟩ := ih
    rw [e]
    refine ⟨?_, ?_, ?_, ?_⟩
    · rw [List.count_append, i1]
      simp [registerOps, look, sec]; omega
    · rw [List.count_append, i2]
      simp [registerOps, look, sec]
    · simp only [registerOps, look, sec, List.cons_append, List.nil_append, sectionTime, LockIo.time, i3]
      simp; omega
    · intro m h1 h2 hm
      rw [List.mem_append] at hm
      rcases hm with hm | hm
      · simp [registerOps, look, sec] at hm
        rcases hm with hm | hm | hm <;> simp_all
      · exact i4 m h1 h2 hm

/-- **C104 is false.** For every number of clients there is a run in which an envelope waits for the table of connections
while all of them are announced: a notification is announcing them, somebody else connects, and then the envelope
comes. The uses are those of the programs of a peer, and they keep to the rules of the lock. -/
theorem C104_counterexample (mb : Bool) (n : Nat) :
    ∃ us, LockRun us ∧ (∀ u ∈ us, PeerUse mb .tcp 0 (n + 1) u) ∧
      ∃ v ∈ us, v.write = false ∧ v.leave = v.enter ∧ v.enter = v.arrive + 3000 * (n + 1) - 2 := by
  refine ⟨[⟨false, 0, 0, 0, 3000 * (n + 1)⟩, ⟨true, 1, 1, 3000 * (n + 1), 3000 * (n + 1)⟩,
    ⟨false, 2, 2, 3000 * (n + 1), 3000 * (n + 1)⟩], ?_, ?_, ?_⟩
  · constructor
    · intro u hu
      simp only [List.mem_cons, List.not_mem_nil, or_false] at hu
      rcases hu with rfl | rfl | rfl <;> simp <;> omega
    · simp
    · intro u hu hw t h1 h2
      simp only [List.mem_cons, List.not_mem_nil, or_false] at hu
      rcases hu with rfl | rfl | rfl <;> simp at hw h1 h2
      omega
    · intro u hu v hv hw hr h1
      simp only [List.mem_cons, List.not_mem_nil, or_false] at hu hv
      rcases hu with rfl | rfl | rfl <;> simp at hw
      rcases hv with rfl | rfl | rfl <;> simp at hr h1 ⊢
    · intro u hu hw t h1 h2
      simp only [List.mem_cons, List.not_mem_nil, or_false] at hu
      rcases hu with rfl | rfl | rfl <;> simp at hw h1 h2
      exact ⟨_, List.mem_cons_self, rfl, by simp, by simpa using h2⟩
    · intro u hu v hv hw hr
      simp only [List.mem_cons, List.not_mem_nil, or_false] at hu hv
      rcases hu with rfl | rfl | rfl <;> simp at hw
      rcases hv with rfl | rfl | rfl <;> simp at hr ⊢
    · intro v hv hr
      simp only [List.mem_cons, List.not_mem_nil, or_false] at hv
      rcases hv with rfl | rfl | rfl <;> simp at hr
      · exact .inl rfl
      · refine .inr ⟨_, List.mem_cons_of_mem _ List.mem_cons_self, rfl, ?_⟩
        simp; omega
  · have hne : ∀ (p : List LockOp) (o : LockOp), p.head? = some o → o ≠ lock .tcp → ∀ c, p ≠ closeOps c := by
      rintro p o h1 h2 c rfl
      simp [closeOps] at h1
      exact h2 h1.symm
    intro u hu
    simp only [List.mem_cons, List.not_mem_nil, or_false] at hu
    rcases hu with rfl | rfl | rfl
    · obtain ⟨h1, h2, h3, h4⟩ := count_announceOps .tcp (n + 1)
      refine ⟨_, _, _, .notif true none [] (List.replicate (n + 1) .provided), hne _ enter rfl (by simp),
        ⟨h4 .tcp (by simp) (by simp), [enter, io .timer, rlock .dht, io (.use .dht false), release .dht],
          sec .enabled ++ [release .group], ?_⟩, ?_, h3, ?_⟩
      · simp [announceOps]
      · omega
      · simp
    · exact ⟨_, [io (.use .tcp true)], 0, .delegate none [], hne _ (io .remote) rfl (by simp),
        ⟨by simp, [io .remote] ++ sec .records,
          sec .statuses ++ enabledOps ++ [io .remote] ++ sec .tcp ++ sec .statuses, by simp [sec]⟩,
        by simp, by simp [sectionTime, LockIo.time], by simp⟩
    · exact ⟨_, [io (.use .tcp false)], 0, .route .own .agent, hne _ (rlock .records) (by simp [routeOps, senderOps, rsec]) (by simp),
        ⟨by simp, rsec .records, (if mb then sec .mailbox else []) ++ [io .agent], by simp [routeOps, senderOps, rsec]⟩,
        by simp, by simp [sectionTime, LockIo.time], by simp⟩
  · exact ⟨_, List.mem_cons_of_mem _ (List.mem_cons_of_mem _ List.mem_cons_self), rfl, rfl, by simp⟩

/-- Two clients, each of which takes 3 s to announce: the envelope of 2 ms gets the table after 6 s. -/
example : ∃ us, LockRun us ∧ (∀ u ∈ us, PeerUse true .tcp 0 2 u) ∧
    ∃ v ∈ us, v.write = false ∧ v.leave = v.enter ∧ v.enter = v.arrive + 5998 := C104_counterexample true 1

end Verif
