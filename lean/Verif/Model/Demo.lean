import Verif.Model.Client
import Verif.Model.Batching

/-!
# Model of the demo simulation (`simulations/emerge/simulation`): phases on reset and disruption, pausing, snapshots

The agents of the swarm are a list: the order in which the Go map returned by `Agents()` is visited, which is arbitrary. The locks of
`Simulation` are the subject of `Verif.Model.Lifecycle`; here each method is one step.
-/

set_option autoImplicit false

namespace Verif
open GoMath

section
variable {α : Type} [Zero α] [One α] [Add α] [Sub α] [Mul α] [Div α] [Neg α] [LT α] [LE α]
  [DecidableLT α] [DecidableLE α] [BEq α] [OfScientific α] [GoMath α]

/-! ### Reset and disruption -/

/-- The phase `Reset` gives to the `i`-th of `n` visited agents, simulations/emerge/simulation/simulation.go:115-194. The constant
expression `2 * 3.14159` is exactly 6.28318. -/
def resetPhase (g : GoalType) (n i : Nat) : α :=
  if g = 1 ∨ g = 4 ∨ g = 7 then 0
  else if g = 3 then (if i % 2 = 0 then 0 else 3.14159)
  else if g = 5 then ofInt i * 1.7
  else if g = 6 then (if i < n / 2 then 0 else 3.14159)
  else ofInt i * (6.28318 / ofInt n)

/-- The part of `Reset` that moves the agents, simulations/emerge/simulation/simulation.go:109-194. -/
def simReset (g : GoalType) (agents : List (Agent α)) : List (Agent α) :=
  agents.mapIdx fun i a => a.setPhase (resetPhase g agents.length i)

/-- The loop of `Disrupt`, simulations/emerge/simulation/simulation.go:226-233; `left` is `maxDisrupt - disrupted`. -/
def demoDisruptLoop : Nat → List (Agent α) → List (Agent α)
  | _, [] => []
  | 0, l => l
  | left + 1, a :: l => a.setPhase (a.state.phase + 3.14159) :: demoDisruptLoop left l

/-- The part of `Disrupt` that moves the agents, simulations/emerge/simulation/simulation.go:222-233. -/
def simDisrupt (agents : List (Agent α)) : List (Agent α) := demoDisruptLoop (agents.length / 5) agents

/-- The coherence of the agents: `MeasureCoherence`, emerge/swarm/swarm.go:462-483, on a list. -/
def agentsCoherence (agents : List (Agent α)) : α := measureCoherence (agents.map fun a => a.state.phase)

/-- One tick of the recovery monitor that `Disrupt` starts, simulations/emerge/simulation/simulation.go:245-262: the new value of the
`disrupted` flag. -/
def recoveryTick (disrupted : Bool) (coherence target : α) : Bool :=
  if !disrupted then false else if coherence ≥ target then false else true

/-- The target coherence chosen by `runSimulation`, simulations/emerge/main.go:178-196. -/
def demoTarget (g : GoalType) (s : Size) : α :=
  if g = 1 ∨ g = 6 then 0.2
  else if g = 2 then 0.6
  else if g = 4 then 0.4
  else s.defaultTargetCoherence

/-! ### Building -/

/-- `createEmergeClient`, simulations/emerge/simulation/builder.go:47-60. -/
def createEmergeClient (g : GoalType) (s : Size) (target : α) (env : SwarmEnv α) (now : Int) : Except SwarmErr (Client α) :=
  if g = 0 ∧ target == s.defaultTargetCoherence then clientMinimizeAPICalls s env now
  else (((Builder.new.withGoal g).withScale s).withTargetCoherence target).build env now

/-- The loop of `initialize`, simulations/emerge/simulation/builder.go:80-88: the map keys that become workloads, in the order of the
visit, when `i` workloads have been made. -/
def workloadLoop (count : Int) (i : Nat) : List String → List String
  | [] => []
  | id :: l => if (i : Int) ≥ count then [] else id :: workloadLoop count (i + 1) l

/-- The workload ids made by `initialize`, simulations/emerge/simulation/builder.go:73-89, with `NumAgents` from
`convertToSimConfig` (64-69). -/
def workloadIds (s : Size) (visited : List String) : List String := workloadLoop s.defaultAgentCount 0 visited

/-! ### Pausing and snapshots -/

/-- What pausing touches in `Simulation`, simulations/emerge/simulation/simulation.go:33-55: the flag and the cached values. The map
`pausedPhases` is an association list; `none` is the nil map. -/
structure PauseState (α : Type) where
  paused : Bool
  pausedCoherence : α
  pausedPhases : Option (List (String × α))

/-- The state of the zero value. -/
def PauseState.init : PauseState α := { paused := false, pausedCoherence := 0, pausedPhases := none }

/-- `Pause`, simulations/emerge/simulation/simulation.go:275-289. The swarm is still running: its context is cancelled only
afterwards (286-288), so the coherence (280) and the phases (281-284) are read at two moments; `first` and `second` are the agents as
they are found then. -/
def PauseState.pause (_ : PauseState α) (first second : List (Agent α)) : PauseState α :=
  { paused := true
    pausedCoherence := agentsCoherence first
    pausedPhases := some (second.map fun a => (a.id, a.state.phase)) }

/-- `Resume`, simulations/emerge/simulation/simulation.go:292-295: the flag. -/
def PauseState.resume (p : PauseState α) : PauseState α := { p with paused := false }

/-- The phase in the snapshot of a workload, simulations/emerge/simulation/simulation.go:318-323: `live` is the phase of its agent. -/
def PauseState.shownPhase (p : PauseState α) (id : String) (live : α) : α :=
  if p.paused then
    match p.pausedPhases with
    | none => live
    | some m => match m.lookup id with
      | none => live
      | some x => x
  else live

/-- The coherence in a snapshot, simulations/emerge/simulation/simulation.go:332-337. -/
def PauseState.shownCoherence (p : PauseState α) (agents : List (Agent α)) : α :=
  if p.paused then p.pausedCoherence else agentsCoherence agents

end
end Verif
