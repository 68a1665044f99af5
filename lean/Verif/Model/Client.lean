import Verif.Model.Continuous
import Verif.Model.Monitoring

/-!
# The client API

`client/emerge/custom.go` (builder, options), `client/emerge/builder.go` (shorthands) and `client/emerge/emerge.go` (the client).
The error of a failed constructor is the error of `swarm.New`; the wrapping text is not modelled. A builder is changed in place and
returned by each `With…` method; here the result is the new value.
-/

set_option autoImplicit false

namespace Verif

open GoMath

section
variable {α : Type} [Zero α] [One α] [Add α] [Sub α] [Mul α] [Div α] [Neg α] [LT α] [LE α]
  [DecidableLT α] [DecidableLE α] [BEq α] [OfScientific α] [GoMath α]

/-- `Builder`, client/emerge/custom.go:15-20. -/
structure Builder (α : Type) where
  goal : GoalType
  scale : Size
  targetCoherence : α

/-- `New` and `Custom`, client/emerge/custom.go:24-30 and 83-85: goal `MinimizeAPICalls`, scale `Tiny`, no coherence. -/
def Builder.new : Builder α := { goal := 0, scale := 0, targetCoherence := 0 }

/-- `WithGoal`, client/emerge/custom.go:33-36. -/
def Builder.withGoal (b : Builder α) (g : GoalType) : Builder α := { b with goal := g }

/-- `WithScale`, client/emerge/custom.go:39-42. -/
def Builder.withScale (b : Builder α) (s : Size) : Builder α := { b with scale := s }

/-- `WithTargetCoherence`, client/emerge/custom.go:46-49. -/
def Builder.withTargetCoherence (b : Builder α) (c : α) : Builder α := { b with targetCoherence := c }

/-- The configuration of `Build`, client/emerge/custom.go:54. -/
def Builder.config (b : Builder α) : GoalConfig α := (configFor b.goal).withSize b.scale.defaultAgentCount

/-- The target state of `Build`, client/emerge/custom.go:57-67. -/
def Builder.target (b : Builder α) : State α :=
  { phase := 0, frequency := 1000 * millisecond
    coherence := if b.targetCoherence ≤ 0 then b.scale.defaultTargetCoherence else b.targetCoherence }

/-- `Client`, client/emerge/emerge.go:32-35: the swarm with its synchroniser (`sync`) and its convergence monitor
(emerge/swarm/swarm.go:98), and the configuration. -/
structure Client (α : Type) where
  sync : Gds α
  convergence : Tracker α
  config : GoalConfig α

/-- `Build`, client/emerge/custom.go:52-79; `now` is the time at which the convergence monitor is created. -/
def Builder.build (b : Builder α) (env : SwarmEnv α) (now : Int) : Except SwarmErr (Client α) :=
  (newSwarm env b.scale.defaultAgentCount b.target [.goalConfig b.config]).bind fun s =>
    .ok { sync := Gds.ofSwarm s s.targetPattern, convergence := Tracker.new s.goalState.coherence now, config := b.config }

/-- `MinimizeAPICalls`, client/emerge/builder.go:25-30. -/
def clientMinimizeAPICalls (s : Size) (env : SwarmEnv α) (now : Int) : Except SwarmErr (Client α) :=
  ((Builder.new.withGoal 0).withScale s).build env now

/-- `DistributeLoad`, client/emerge/builder.go:35-40. -/
def clientDistributeLoad (s : Size) (env : SwarmEnv α) (now : Int) : Except SwarmErr (Client α) :=
  ((Builder.new.withGoal 1).withScale s).build env now

/-- `Default`, client/emerge/builder.go:45-47. -/
def clientDefault (env : SwarmEnv α) (now : Int) : Except SwarmErr (Client α) := Builder.new.build env now

/-- `Option` values, client/emerge/custom.go:94-118. -/
inductive ClientOption (α : Type) where
  | goal (g : GoalType)
  | scale (s : Size)
  | coherence (c : α)

/-- Applying an option, client/emerge/custom.go:94-118; `none` is an error. -/
def ClientOption.apply (b : Builder α) : ClientOption α → Option (Builder α)
  | .goal g => some { b with goal := g }
  | .scale s => some { b with scale := s }
  | .coherence c => if c ≤ 0 ∨ c > 1 then none else some { b with targetCoherence := c }

/-- The option loop of `NewWithOptions`, client/emerge/custom.go:125-129. -/
def ClientOption.applyAll (b : Builder α) : List (ClientOption α) → Option (Builder α)
  | [] => some b
  | o :: os =>
    match o.apply b with
    | none => none
    | some b => ClientOption.applyAll b os

/-- `NewWithOptions`, client/emerge/custom.go:122-132. -/
def newWithOptions (opts : List (ClientOption α)) (env : SwarmEnv α) (now : Int) : Except SwarmErr (Client α) :=
  match ClientOption.applyAll Builder.new opts with
  | none => .error .option
  | some b => b.build env now

/-- `(*Client).IsConverged`, client/emerge/emerge.go:63-65 with emerge/swarm/swarm.go:545-547. -/
def Client.isConverged (c : Client α) : Bool := c.convergence.isConverged

/-- `(*Client).Coherence`, client/emerge/emerge.go:58-60 with emerge/swarm/swarm.go:555-557. -/
def Client.coherence (c : Client α) : α := c.convergence.currentCoherence

/-- `(*Swarm).ConvergenceTime` on the swarm of a client, emerge/swarm/swarm.go:550-552. -/
def Client.convergenceTime (c : Client α) : Int := c.convergence.convergenceTime

/-- `(*Client).Start`, client/emerge/emerge.go:40-42 with emerge/swarm/swarm.go:446-458. The synchroniser keeps its state between
runs. No line of the run touches the convergence monitor of the swarm. -/
def Client.start (c : Client α) (order : SyncMap Nat → SyncMap Nat) (evs : List (SyncEvent α)) : SyncResult × Client α :=
  let r := c.sync.achieve order c.sync.swarm.targetPattern evs
  (r.1, { c with sync := r.2.2 })

/-- `DisruptAgents` on the swarm of a client, emerge/swarm/swarm.go:560-608, at the time `now`. -/
def Client.disrupt (c : Client α) (order : SyncMap Nat → SyncMap Nat) (w : Nat → Nat) (percentage : α) (now : Int) : Client α :=
  { c with
    sync := { c.sync with swarm := c.sync.swarm.disruptAgents order w percentage, monitor := c.sync.monitor.reset }
    convergence := c.convergence.reset now }

/-- What can happen to a client. `restart` is one start of a synchronisation by `RunContinuous`
(emerge/swarm/swarm_continuous_run.go:178-194), which resets both monitors; `effect` is whatever the run then does to the swarm and the
synchroniser. `agents` is any change of the agents through `Agents` or `Swarm`. -/
inductive ClientOp (α : Type) where
  | start (order : SyncMap Nat → SyncMap Nat) (evs : List (SyncEvent α))
  | disrupt (order : SyncMap Nat → SyncMap Nat) (w : Nat → Nat) (percentage : α) (now : Int)
  | restart (now : Int) (effect : Gds α → Gds α)
  | agents (f : Swarm α → Swarm α)

/-- The effect of an operation on a client. -/
def Client.apply (c : Client α) : ClientOp α → Client α
  | .start order evs => (c.start order evs).2
  | .disrupt order w p now => c.disrupt order w p now
  | .restart now effect =>
    { c with sync := effect { c.sync with monitor := c.sync.monitor.reset }, convergence := c.convergence.reset now }
  | .agents f => { c with sync := { c.sync with swarm := f c.sync.swarm } }

end
end Verif
