import Mathlib.Data.List.Basic
import Mathlib.Data.Nat.Notation

/-!
# The lifecycle of a simulation: `Start`, `Pause`, `Resume`

Mirrors simulations/emerge/simulation/simulation.go:57-91 and 274-307. The calls of `emergeClient.Start` run in goroutines of their own. Such a
goroutine evaluates `s.swarmCtx` when it first runs, not when it is created, because the function literals of lines 67-72 and 300-305 read the field. The
machine takes one move at a time.

Simplifications: contexts are numbered in the order of their creation; the coherence and phases cached by `Pause`, the workloads and the batch
processor are left out; unsynchronised reads of the field see the newest value.
-/

set_option autoImplicit false

namespace Verif

/-- A context made by `context.WithCancel(parent)`, with whether its cancel function was called. -/
structure SwarmCtx where
  parent : ℕ
  cancelled : Bool
  deriving DecidableEq

/-- The lifecycle part of `Simulation`, simulations/emerge/simulation/simulation.go:33-55. `swarmCtx` and `swarmCancel` belong to the last of `ctxs`.
`ended` are the parent contexts that are done, `spawned` counts the goroutines that have not run yet, and `runs` are the contexts of the
calls of `emergeClient.Start` that have not returned. -/
structure LifeSys where
  paused : Bool
  parentCtx : Option ℕ
  ended : List ℕ
  ctxs : List SwarmCtx
  spawned : ℕ
  runs : List ℕ
  deriving DecidableEq

/-- A simulation that was just built, simulations/emerge/simulation/builder.go:32-37. -/
def LifeSys.init : LifeSys := ⟨false, none, [], [], 0, []⟩

/-- `start p`: `Start` is called with context `p`. `stop p`: context `p` is done. `begin`: a goroutine created by `Start` or `Resume` runs for the first
time. `finish i`: the `i`-th of the running calls of `emergeClient.Start` returns. -/
inductive LifeMove where
  | start (p : ℕ)
  | pause
  | resume
  | stop (p : ℕ)
  | begin
  | finish (i : ℕ)
  deriving DecidableEq

/-- Calling the cancel function of the newest context. -/
def LifeSys.swarmCancel (s : LifeSys) : List SwarmCtx := s.ctxs.modify (s.ctxs.length - 1) fun c => { c with cancelled := true }

/-- One move, simulations/emerge/simulation/simulation.go:58-72 (`Start`), 275-289 (`Pause`), 292-307 (`Resume`). -/
def LifeSys.step (s : LifeSys) : LifeMove → Option LifeSys
  | .start p => some { s with parentCtx := some p, ctxs := s.ctxs ++ [⟨p, false⟩], spawned := s.spawned + 1 }
  | .pause => some { s with paused := true, ctxs := s.swarmCancel }
  | .resume =>
    match s.parentCtx with
    | some p => some { s with paused := false, ctxs := s.ctxs ++ [⟨p, false⟩], spawned := s.spawned + 1 }
    | none => some { s with paused := false }
  | .stop p => some { s with ended := p :: s.ended }
  | .begin => if 0 < s.spawned then some { s with spawned := s.spawned - 1, runs := s.runs ++ [s.ctxs.length - 1] } else none
  | .finish i => if i < s.runs.length then some { s with runs := s.runs.eraseIdx i } else none

end Verif
