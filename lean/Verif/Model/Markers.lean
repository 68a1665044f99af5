import Verif.Model.Config

/-!
# Model of the markers of the demo: `Disrupted` and `Resetting` (`simulations/emerge/simulation/simulation.go`)

`Reset` and `Disrupt` set a flag and start a goroutine that clears it. Each access to a flag holds the lock of the simulation and is one move of the
machine; which goroutine moves next, and how late a timer fires, is up to the scheduler. What else the two methods do is the subject of
`Verif.Model.Demo`.
-/

set_option autoImplicit false

namespace Verif

/-- Where the goroutine started by `Disrupt` is: in the `select`, after the look at the flag and before measuring, or after measuring a coherence of
at least the target and before clearing the flag. -/
inductive WatchStage where
  | waiting
  | looked
  | recovered
  deriving DecidableEq

/-- A goroutine started by `Disrupt` that has not returned, with the time of the call. Its timers are made later, when it first runs. -/
structure RecoveryWatch where
  started : Int
  stage : WatchStage
  deriving DecidableEq

/-- The flags of `Simulation`, simulations/emerge/simulation/simulation.go:47-50, the time, and the goroutines that clear the flags; of those started
by `Reset` the time of the call. -/
structure Markers where
  now : Int
  reset : Bool
  disrupted : Bool
  sleepers : List Int
  watches : List RecoveryWatch
  deriving DecidableEq

/-- A simulation that was just built. -/
def Markers.init (now : Int) : Markers := { now := now, reset := false, disrupted := false, sleepers := [], watches := [] }

/-- What can happen: time passes, somebody calls `Reset` or `Disrupt`, a goroutine of `Reset` ends its sleep and clears the flag, and the moves of a
goroutine of `Disrupt`: a tick (with the look at the flag), the measurement, clearing the flag after it, and the timeout. -/
inductive MarkerMove (α : Type) where
  | pass (d : Nat)
  | reset
  | disrupt
  | wake (i : Nat)
  | tick (i : Nat)
  | measure (i : Nat) (coherence : α)
  | clear (i : Nat)
  | timeout (i : Nat)

/-- One move; `none` if it is not possible now. -/
def Markers.step {α : Type} [LE α] [DecidableLE α] (target : α) (s : Markers) : MarkerMove α → Option Markers
  | .pass d => some { s with now := s.now + d }
  -- `Reset`, simulations/emerge/simulation/simulation.go:201-210
  | .reset => some { s with reset := true, sleepers := s.sleepers ++ [s.now] }
  -- simulations/emerge/simulation/simulation.go:206-209: the sleep takes at least two seconds
  | .wake i =>
    match s.sleepers[i]? with
    | some t => if s.now ≥ t + 2000 * millisecond then some { s with reset := false, sleepers := s.sleepers.eraseIdx i } else none
    | none => none
  -- `Disrupt`, simulations/emerge/simulation/simulation.go:215-219 and 237-272
  | .disrupt => some { s with disrupted := true, watches := s.watches ++ [⟨s.now, .waiting⟩] }
  -- simulations/emerge/simulation/simulation.go:245-253
  | .tick i =>
    match s.watches[i]? with
    | some w =>
      if w.stage = .waiting ∧ s.now ≥ w.started + 100 * millisecond then
        if s.disrupted then some { s with watches := s.watches.set i { w with stage := .looked } }
        else some { s with watches := s.watches.eraseIdx i }
      else none
    | none => none
  -- simulations/emerge/simulation/simulation.go:255-256
  | .measure i c =>
    match s.watches[i]? with
    | some w =>
      if w.stage = .looked then
        some { s with watches := s.watches.set i { w with stage := if c ≥ target then .recovered else .waiting } }
      else none
    | none => none
  -- simulations/emerge/simulation/simulation.go:258-261
  | .clear i =>
    match s.watches[i]? with
    | some w => if w.stage = .recovered then some { s with disrupted := false, watches := s.watches.eraseIdx i } else none
    | none => none
  -- simulations/emerge/simulation/simulation.go:263-268
  | .timeout i =>
    match s.watches[i]? with
    | some w =>
      if w.stage = .waiting ∧ s.now ≥ w.started + 30000 * millisecond then
        some { s with disrupted := false, watches := s.watches.eraseIdx i }
      else none
    | none => none

/-- Moves one after the other; `none` if one of them is not possible. -/
def Markers.run {α : Type} [LE α] [DecidableLE α] (target : α) : Markers → List (MarkerMove α) → Option Markers
  | s, [] => some s
  | s, m :: ms => (s.step target m).bind fun s => s.run target ms

end Verif
