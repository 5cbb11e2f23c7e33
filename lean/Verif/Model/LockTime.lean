import Verif.Model.PeerLocks

/-!
# How long locks are waited for

Go's `sync.RWMutex` (src/sync/rwmutex.go) in time, in milliseconds, and the sections of the programs of a peer
(`Verif.Model.PeerLocks`; dhtpeer.go and mailbox.go).

One use of a lock has the times at which the lock is asked for, got and given back. A writer first waits for the other
writers (`rw.w.Lock()`); then it announces itself, which keeps new readers out, and waits for the readers that are
inside. When a writer leaves, it lets in all readers that wait, and only then another writer can announce itself. Nobody
waits without a reason. Which writer is next is left open.

Not counted: the time that the processor needs. So a section takes the time of the calls in it.
-/

namespace Verif

/-- A use of a lock. -/
structure LockUse where
  write : Bool
  arrive : Nat             -- `Lock` or `RLock` is called
  ask : Nat                -- a writer announces itself
  enter : Nat              -- the call returns
  leave : Nat              -- `Unlock` or `RUnlock` is called
  deriving DecidableEq, Repr

/-- The uses of one lock keep to the rules of `RWMutex`. -/
structure LockRun (us : List LockUse) : Prop where
  /-- the order of the times -/
  order : ∀ u ∈ us, u.arrive ≤ u.ask ∧ u.ask ≤ u.enter ∧ u.enter ≤ u.leave
  /-- two writers are not there at the same time: `rw.w` -/
  writers : us.Pairwise fun u v => u.write = true → v.write = true → u.leave ≤ v.ask ∨ v.leave ≤ u.ask
  /-- a writer waits for `rw.w` only as long as other writers have it -/
  prompt : ∀ u ∈ us, u.write = true → ∀ t, u.arrive ≤ t → t < u.ask →
    ∃ v ∈ us, v.write = true ∧ v.ask ≤ t ∧ t < v.leave
  /-- a writer lets the readers out that were inside when it announced itself -/
  drained : ∀ u ∈ us, ∀ v ∈ us, u.write = true → v.write = false → v.enter ≤ u.ask → v.leave ≤ u.enter
  /-- and waits for no others -/
  drains : ∀ u ∈ us, u.write = true → ∀ t, u.ask ≤ t → t < u.enter →
    ∃ v ∈ us, v.write = false ∧ v.enter ≤ u.ask ∧ t < v.leave
  /-- a reader is not let in while a writer is there -/
  readers : ∀ u ∈ us, ∀ v ∈ us, u.write = true → v.write = false → v.enter ≤ u.ask ∨ u.leave ≤ v.enter
  /-- a reader is let in when it comes, or when a writer leaves that was there when it came -/
  letIn : ∀ v ∈ us, v.write = false → v.enter = v.arrive ∨
    ∃ u ∈ us, u.write = true ∧ u.ask ≤ v.arrive ∧ v.arrive ≤ u.leave ∧ v.enter = u.leave

/-- A section of a program: the operations between getting a lock and giving it back. -/
def LockSection (l : LockName) (write : Bool) (p body : List LockOp) : Prop :=
  .release l ∉ body ∧ ∃ pre post, p = pre ++ (if write then .lock l else .rlock l) :: (body ++ .release l :: post)

/-- How long calls take at most. `dht.Provide` has a time-out of 3 s (`addressRegisterTimeout`, dhtpeer.go:95); a use
of data takes no time. Those of `none` may take for ever. -/
def LockIo.time (file hangUp timer : Nat) : LockIo → Option Nat
  | .provide => some 3000
  | .timer => some timer
  | .file => some file
  | .hangUp => some hangUp
  | .use _ _ => some 0
  | .chan => none
  | .agent => none
  | .remote => none

/-- How long a section takes at most. -/
def sectionTime (file hangUp timer : Nat) : List LockOp → Option Nat
  | [] => some 0
  | .io k :: r => do pure ((← k.time file hangUp timer) + (← sectionTime file hangUp timer r))
  | _ :: r => sectionTime file hangUp timer r

end Verif
