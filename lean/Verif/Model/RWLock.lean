import Verif.Model.Monitoring

/-!
# Model of concurrent calls of a convergence monitor (`emerge/monitoring/convergence.go`)

Every method of `ConvergenceMonitor` holds the monitor's `sync.RWMutex`. The lock is modelled as documented in the Go standard library
(`sync.RWMutex`): any number of readers or one writer may hold it; a goroutine calling `Lock` first announces itself, which makes later
`RLock` calls wait, and then waits for the current readers; `Unlock` hands the lock to all waiting readers. Which goroutine moves next is
up to the scheduler. `internal/emerge/convergence.go` has the same methods.
-/

set_option autoImplicit false

namespace Verif
open GoMath

/-- What a method does with the lock and the data it protects. -/
inductive LockOp (σ : Type) where
  /-- `mu.RLock()` -/
  | rlock
  /-- `mu.RUnlock()` -/
  | runlock
  /-- `mu.Lock()` -/
  | lock
  /-- `mu.Unlock()` -/
  | unlock
  /-- write the protected data -/
  | write (f : σ → σ)
  /-- read the protected data and go on depending on it -/
  | read (f : σ → List (LockOp σ))

/-- Whether a goroutine can run, waits in `RLock`, or waits in `Lock` after announcing itself. -/
inductive LockWait where
  | running
  | inRLock
  | inLock
deriving DecidableEq

/-- A goroutine: how many read locks it holds, whether it holds the write lock, whether it waits, and what it still has to do. -/
structure LockThread (σ : Type) where
  wait : LockWait
  todo : List (LockOp σ)
  reads : Nat
  writes : Bool

/-- The data, the goroutines and the goroutine that has announced itself in `Lock` and not yet called `Unlock`. How many read locks
are held is the sum over the goroutines. -/
structure LockSys (σ : Type) (n : Nat) where
  data : σ
  threads : Fin n → LockThread σ
  writer : Option (Fin n)

/-- Replace one goroutine. -/
def LockSys.set {σ : Type} {n : Nat} (s : LockSys σ n) (i : Fin n) (t : LockThread σ) : LockSys σ n :=
  { s with threads := fun j => if j = i then t else s.threads j }

/-- No read lock is held. -/
def LockSys.noReaders {σ : Type} {n : Nat} (s : LockSys σ n) : Prop := ∀ i, (s.threads i).reads = 0

instance {σ : Type} {n : Nat} (s : LockSys σ n) : Decidable s.noReaders := inferInstanceAs (Decidable (∀ _, _))

/-- One step of goroutine `i`; `none` if it has ended or must wait. Releasing a lock that is not held is a fatal error in Go; no method
does that, and here it is `none` as well. -/
def LockSys.step {σ : Type} {n : Nat} (s : LockSys σ n) (i : Fin n) : Option (LockSys σ n) :=
  let t := s.threads i
  match t.wait, t.todo with
  | .inRLock, _ => none
  | .inLock, rest => if s.noReaders then some (s.set i { t with wait := .running, todo := rest, writes := true }) else none
  | .running, [] => none
  | .running, .rlock :: rest =>
    if s.writer.isNone then some (s.set i { t with todo := rest, reads := t.reads + 1 })
    else some (s.set i { t with wait := .inRLock, todo := rest })
  | .running, .runlock :: rest => if t.reads = 0 then none else some (s.set i { t with todo := rest, reads := t.reads - 1 })
  | .running, .lock :: rest =>
    if s.writer.isNone then some { (s.set i { t with wait := .inLock, todo := rest }) with writer := some i } else none
  | .running, .unlock :: rest =>
    if t.writes then
      let s' := s.set i { t with todo := rest, writes := false }
      some { s' with
        writer := none
        threads := fun j =>
          let u := s'.threads j
          if u.wait = .inRLock then { u with wait := .running, reads := u.reads + 1 } else u }
    else none
  | .running, .write f :: rest => some { (s.set i { t with todo := rest }) with data := f s.data }
  | .running, .read f :: rest => some (s.set i { t with todo := f s.data ++ rest })

/-- All goroutines at their beginning. -/
def LockSys.init {σ : Type} {n : Nat} (d : σ) (progs : Fin n → List (LockOp σ)) : LockSys σ n :=
  { data := d, threads := fun i => { wait := .running, todo := progs i, reads := 0, writes := false }, writer := none }

/-- States that a schedule can lead to. -/
inductive LockSys.Reach {σ : Type} {n : Nat} (s₀ : LockSys σ n) : LockSys σ n → Prop where
  | init : LockSys.Reach s₀ s₀
  | step {s s' : LockSys σ n} (i : Fin n) (h : LockSys.Reach s₀ s) (e : s.step i = some s') : LockSys.Reach s₀ s'

section
variable {α : Type} [Zero α] [One α] [Add α] [Sub α] [Mul α] [Div α] [Neg α] [LT α] [LE α]
  [DecidableLT α] [DecidableLE α] [BEq α] [OfScientific α] [GoMath α]

/-- The methods of a convergence monitor. -/
inductive TrackerCall (α : Type) where
  | record (coherence : α) (now : Int)
  | reset (now : Int)
  | isConverged
  | convergenceTime
  | currentCoherence
  | convergenceRate
  | stability
  | history
  | predict
  | statistics

/-- `PredictConvergenceTime`, emerge/monitoring/convergence.go:174-202: it calls `ConvergenceRate` (line 182) and `CurrentCoherence`
(line 187) while holding the read lock. -/
def predictOps : List (LockOp (Tracker α)) :=
  [.rlock, .read fun m =>
    if m.convergedTime.isSome then []
    else [.rlock, .runlock] ++ (if m.convergenceRate ≤ 0 then [] else [.rlock, .runlock]), .runlock]

/-- The lock operations of each method, emerge/monitoring/convergence.go:42-273. `Statistics` (lines 215-260) calls
`CurrentCoherence`, `ConvergenceRate`, `Stability` and `PredictConvergenceTime` while holding the read lock. -/
def TrackerCall.ops : TrackerCall α → List (LockOp (Tracker α))
  | .record x now => [.lock, .write fun m => m.record x now, .unlock]
  | .reset now => [.lock, .write fun m => m.reset now, .unlock]
  | .isConverged => [.rlock, .runlock]
  | .convergenceTime => [.rlock, .runlock]
  | .currentCoherence => [.rlock, .runlock]
  | .convergenceRate => [.rlock, .runlock]
  | .stability => [.rlock, .runlock]
  | .history => [.rlock, .runlock]
  | .predict => predictOps
  | .statistics => [.rlock, .rlock, .runlock, .rlock, .runlock, .rlock, .runlock] ++ predictOps ++ [.runlock]

/-- Goroutines that make the given calls one after the other. -/
def TrackerCall.sys {n : Nat} (m : Tracker α) (calls : Fin n → List (TrackerCall α)) : LockSys (Tracker α) n :=
  LockSys.init m fun i => (calls i).flatMap TrackerCall.ops

end
end Verif
