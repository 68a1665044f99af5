import Verif.Model.Strategy
import Verif.Model.Resource
import Verif.Model.Neighbors
import Verif.Model.Config

/-!
# Model of `emerge/agent`: agents, their construction, and the agent pool

Other agents are referred to by addresses (`Nat`); an operation that reads another agent's phase takes the function
`phaseOf` from addresses to current phases. Random draws are the raw 64-bit words consumed by `internal/random`, and
the current time is a parameter. The decision maker is the only one in the repository (`SimpleDecisionMaker`); the goal
manager field is never read by the package and is left out.
-/

set_option autoImplicit false

namespace Verif
open GoMath

/-- `agent.StateData`, emerge/agent/atomic_state.go:14-19. -/
structure StateData (α : Type) where
  phase : α
  energy : α
  localGoal : α
  frequency : Int

/-- `agent.BehaviorData`, emerge/agent/atomic_state.go:22-25. -/
structure BehaviorData (α : Type) where
  influence : α
  stubbornness : α

/-- The strategy component of an agent: a plain strategy or the adaptive combinator over plain ones with its default
selector (emerge/strategy/adaptive.go:13-26). -/
inductive AgentStrategy (α : Type) where
  | basic (s : Strat α)
  | adaptive (l : List (Strat α))

/-- `agent.Agent`, emerge/agent/agent.go:31-56. -/
structure Agent (α : Type) where
  id : String
  state : StateData α
  behavior : BehaviorData α
  context : Context α
  optNeighbors : NeighborStorage Nat
  neighbors : SyncMap Nat
  useOptimized : Bool
  swarmSize : Int
  assumedMaxNeighbors : Int
  resources : Option (TokenManager α)
  strategy : AgentStrategy α

section
variable {α : Type} [Zero α] [One α] [Add α] [Sub α] [Mul α] [Div α] [Neg α] [LT α] [LE α]
  [DecidableLT α] [DecidableLE α] [BEq α] [OfScientific α] [GoMath α]

/-- The zero value `core.Context{}`. -/
def Context.zero : Context α := { neighbors := 0, density := 0, stability := 0, progress := 0, localCoherence := 0 }

/-- Dynamic dispatch of `Propose`; the receiver may change (pulses remember their time). -/
def AgentStrategy.propose (s : AgentStrategy α) (now : Int) (current target : State α) (ctx : Context α) :
    Outcome ((Action α × α) × AgentStrategy α) :=
  match s with
  | .basic b => let r := b.propose now current target ctx; .ok (r.1, .basic r.2)
  | .adaptive l =>
    adaptivePropose l.zipIdx (defaultSelector l.length)
      (fun si => let r := si.1.propose now current target ctx; (r.1, .adaptive (l.set si.2 r.2)))
      ((Action.maintain0, 0.5), s) ctx

/-! ## Setters -/

/-- `(*Agent).SetPhase`, emerge/agent/agent.go:169-173; also `WithPhase` (508-514). -/
def Agent.setPhase (a : Agent α) (phase : α) : Agent α := { a with state := { a.state with phase := wrapPhase phase } }

/-- `(*Agent).SetFrequency`, emerge/agent/agent.go:181-185; also `WithFrequency` (526-532). -/
def Agent.setFrequency (a : Agent α) (freq : Int) : Agent α := { a with state := { a.state with frequency := freq } }

/-- `(*Agent).SetEnergy`, emerge/agent/agent.go:193-197; also `WithEnergy` (564-570). -/
def Agent.setEnergy (a : Agent α) (energy : α) : Agent α := { a with state := { a.state with energy := fmax 0 energy } }

/-- `(*Agent).SetLocalGoal`, emerge/agent/agent.go:205-209; also `WithLocalGoal` (546-552). -/
def Agent.setLocalGoal (a : Agent α) (g : α) : Agent α := { a with state := { a.state with localGoal := wrapPhase g } }

/-- The clamp of `SetInfluence` and `SetStubbornness`, emerge/agent/agent.go:218-222 and 235-239. -/
def clampUnit (x : α) : α := if x < 0 then 0 else if x > 1 then 1 else x

/-- `(*Agent).SetInfluence`, emerge/agent/agent.go:217-226. -/
def Agent.setInfluence (a : Agent α) (x : α) : Agent α :=
  { a with behavior := { a.behavior with influence := clampUnit x } }

/-- `(*Agent).SetStubbornness`, emerge/agent/agent.go:234-243. -/
def Agent.setStubbornness (a : Agent α) (x : α) : Agent α :=
  { a with behavior := { a.behavior with stubbornness := clampUnit x } }

/-! ## Connections -/

/-- `(*Agent).NeighborCount`, emerge/agent/agent.go:251-269. -/
def Agent.neighborCount (a : Agent α) : Nat :=
  let optimizedCount := if a.useOptimized then a.optNeighbors.countOf else 0
  let mapCount := a.neighbors.length
  if optimizedCount > mapCount then optimizedCount else mapCount

/-- `(*Agent).ConnectTo`, emerge/agent/agent.go:279-289; `none` is a nil agent. The result of `Store` is ignored. -/
def Agent.connectTo (a : Agent α) (otherID : String) (other : Option Nat) : Agent α :=
  match other with
  | none => a
  | some o =>
    if otherID = a.id then a
    else if a.useOptimized then { a with optNeighbors := (a.optNeighbors.store otherID o).2 }
    else { a with neighbors := SyncMap.store a.neighbors otherID o }

/-- `(*Agent).DisconnectFrom`, emerge/agent/agent.go:292-298. -/
def Agent.disconnectFrom (a : Agent α) (otherID : String) : Agent α :=
  if a.useOptimized then { a with optNeighbors := a.optNeighbors.delete otherID }
  else { a with neighbors := SyncMap.delete a.neighbors otherID }

/-- `(*Agent).IsConnectedTo`, emerge/agent/agent.go:301-308. -/
def Agent.isConnectedTo (a : Agent α) (otherID : String) : Bool :=
  if a.useOptimized then (a.optNeighbors.load otherID).isSome else (SyncMap.load a.neighbors otherID).isSome

/-! ## Perception -/

/-- The neighbour list both `UpdateContext` (emerge/agent/agent.go:313-323) and `calculateLocalCoherence` (476-486)
start from. -/
def Agent.neighborList (a : Agent α) : List Nat :=
  if a.useOptimized then a.optNeighbors.all else a.neighbors.map Prod.snd

/-- The sums of cosines and sines of the neighbours' phases relative to `myPhase`, emerge/agent/agent.go:339-347 and
493-500. -/
def phaseSums (myPhase : α) (phases : List α) : α × α :=
  phases.foldl (fun (s : α × α) p => (s.1 + cos (p - myPhase), s.2 + sin (p - myPhase))) (0, 0)

/-- `(*Agent).calculateLocalCoherence`, emerge/agent/agent.go:475-503. -/
def Agent.localCoherence (a : Agent α) (phaseOf : Nat → α) : α :=
  let l := a.neighborList
  if l.length = 0 then 0
  else
    let s := phaseSums a.state.phase (l.map phaseOf)
    sqrt (s.1 * s.1 + s.2 * s.2) / ofInt l.length

/-- `(*Agent).UpdateContext`, emerge/agent/agent.go:311-381. -/
def Agent.updateContext (a : Agent α) (phaseOf : Nat → α) : Agent α :=
  let l := a.neighborList
  if l.length = 0 then
    { a with context := { neighbors := 0, density := 0, localCoherence := 0, stability := 0.5, progress := 0 } }
  else
    let myPhase := a.state.phase
    let s := phaseSums myPhase (l.map phaseOf)
    let n : α := ofInt l.length
    let localCoherence := sqrt (s.1 * s.1 + s.2 * s.2) / n
    let avgSin := s.2 / n
    let avgCos := s.1 / n
    let targetPhaseShift := atan2 avgSin avgCos
    let couplingStrength := 0.5 + 0.5 * localCoherence
    let effectiveShift := targetPhaseShift * couplingStrength
    let maxNeighbors := if a.assumedMaxNeighbors = 0 then a.swarmSize - 1 else a.assumedMaxNeighbors
    { a with
      state := { a.state with localGoal := wrapPhase (myPhase + effectiveShift) }
      context := { neighbors := l.length, density := n / ofInt maxNeighbors, localCoherence := localCoherence,
                   stability := 0.5, progress := 0 } }

/-! ## Proposing and applying actions -/

/-- The core of `ProposeAdjustment`, emerge/agent/agent.go:395-436, for an arbitrary decision maker and the proposal and
confidence returned by the strategy; `draw2` is the second random number. -/
def judgeProposal (decider : State α → List (Action α) → Action α × α) (energy : α) (currentState : State α)
    (ctx : Context α) (proposal : Action α) (confidence draw2 : α) : Action α × Bool :=
  let options := [proposal, { type := "maintain", value := 0, cost := 0.1, benefit := ctx.stability }]
  let r := decider currentState options
  let chosen := r.1
  let acceptance := r.2
  if chosen.cost > energy then (Action.maintain0, false)
  else if draw2 < confidence * acceptance then (chosen, true)
  else (Action.maintain0, false)

/-- `(*Agent).ProposeAdjustment`, emerge/agent/agent.go:384-437, with the two random numbers `draw1` and `draw2`. The
strategy component may change. -/
def Agent.proposeAdjustment (a : Agent α) (phaseOf : Nat → α) (now : Int) (globalGoal : State α) (draw1 draw2 : α) :
    Outcome ((Action α × Bool) × Agent α) :=
  if draw1 < a.behavior.stubbornness then .ok ((Action.maintain0, false), a)
  else
    let state := a.state
    let blendedGoal : State α :=
      { phase := state.localGoal, frequency := state.frequency, coherence := globalGoal.coherence }
    let currentState : State α :=
      { phase := state.phase, frequency := state.frequency, coherence := a.localCoherence phaseOf }
    match a.strategy.propose now currentState blendedGoal a.context with
    | .panic => .panic
    | .ok ((proposal, confidence), strategy) =>
      .ok (judgeProposal decide' state.energy currentState a.context proposal confidence draw2,
        { a with strategy := strategy })

/-- Errors of `ApplyAction`. -/
inductive ApplyErr where
  | insufficientEnergy
  | unknownActionType
  deriving DecidableEq, Repr

/-- The update function run by `ApplyAction` on the state, emerge/agent/agent.go:451-462; `none` for an unknown type. -/
def applyUpdate (action : Action α) : Option (StateData α → StateData α) :=
  if action.type = "adjust_phase" ∨ action.type = "phase_nudge" ∨ action.type = "frequency_lock" ∨
      action.type = "energy_save" ∨ action.type = "pulse" then
    some fun s => { s with phase := wrapPhase (s.phase + action.value), energy := fmax 0 (s.energy - action.cost) }
  else if action.type = "maintain" then
    some fun s => { s with energy := fmax 0 (s.energy - action.cost) }
  else none

/-- `(*Agent).ApplyAction`, emerge/agent/agent.go:440-472: the reported cost or an error, and the new agent. -/
def Agent.applyAction (a : Agent α) (action : Action α) : Except ApplyErr α × Agent α :=
  if action.cost > a.state.energy then (.error .insufficientEnergy, a)
  else match applyUpdate action with
    | none => (.error .unknownActionType, a)
    | some f =>
      (.ok action.cost,
        { a with state := f a.state, resources := a.resources.map fun t => (t.request action.cost).2 })

/-! ## Construction -/

/-- The options of emerge/agent/agent.go:507-623. `WithDecisionMaker` and `WithGoalManager` only select the single
implementations of the repository and have no counterpart here. A random option carries the raw word it draws. -/
inductive AgentOption (α : Type) where
  | phase (p : α)
  | randomPhase (w : Nat)
  | frequency (f : Int)
  | randomFrequency (w : Nat)
  | localGoal (g : α)
  | randomLocalGoal (w : Nat)
  | energy (e : α)
  | influence (x : α)
  | stubbornness (x : α)
  | resourceManager (t : TokenManager α)
  | strategy (s : AgentStrategy α)
  | swarmInfo (swarmSize assumedMaxNeighbors : Int)

/-- `time.Duration(random.Float64()*50) * time.Millisecond`, emerge/agent/agent.go:73 and 538. -/
def randomMillis (w : Nat) : Int := toInt ((randFloat64 w : α) * 50.0) * millisecond

/-- Applying one option. -/
def Agent.applyOption (a : Agent α) : AgentOption α → Agent α
  | .phase p => a.setPhase p
  | .randomPhase w => { a with state := { a.state with phase := randPhase w } }
  | .frequency f => a.setFrequency f
  | .randomFrequency w => a.setFrequency (100 * millisecond + randomMillis (α := α) w)
  | .localGoal g => a.setLocalGoal g
  | .randomLocalGoal w => { a with state := { a.state with localGoal := randPhase w } }
  | .energy e => a.setEnergy e
  | .influence x => a.setInfluence x
  | .stubbornness x => a.setStubbornness x
  | .resourceManager t => { a with resources := some t, state := { a.state with energy := t.available } }
  | .strategy s => { a with strategy := s }
  | .swarmInfo n m => { a with swarmSize := n, assumedMaxNeighbors := m }

/-- `agent.New` before the options, emerge/agent/agent.go:60-85, with the three words drawn. -/
def Agent.initial (id : String) (w1 w2 w3 : Nat) : Agent α :=
  { id := id
    state := { phase := randPhase w1, energy := 100.0, localGoal := randPhase w2,
               frequency := 100 * millisecond + randomMillis (α := α) w3 }
    behavior := { influence := 0.1, stubbornness := 0.2 }
    context := Context.zero
    optNeighbors := NeighborStorage.new 20
    neighbors := []
    useOptimized := true
    swarmSize := 0
    assumedMaxNeighbors := 0
    resources := some (TokenManager.new 100.0)
    strategy := .basic (.phaseNudge 0.3) }

/-- `agent.New`, emerge/agent/agent.go:59-96. -/
def Agent.new (id : String) (w1 w2 w3 : Nat) (opts : List (AgentOption α)) : Agent α :=
  opts.foldl Agent.applyOption (Agent.initial id w1 w2 w3)

/-- `config.Agent`, internal/config/agent.go:11-41. `AdaptiveStrength` is never read and left out. -/
structure AgentConfig (α : Type) where
  decisionMakerType : String
  goalManagerType : String
  resourceManagerType : String
  strategyType : String
  maxTokens : α
  strategyRate : α
  phase : α
  localGoal : α
  frequency : Int
  initialEnergy : α
  influence : α
  stubbornness : α
  swarmSize : Int
  assumedMaxNeighbors : Int
  randomizePhase : Bool
  randomizeLocalGoal : Bool
  randomizeFrequency : Bool

/-- `config.DefaultAgent`, internal/config/agent.go:45-66. -/
def defaultAgentConfig : AgentConfig α :=
  { decisionMakerType := "simple", goalManagerType := "weighted", resourceManagerType := "token",
    strategyType := "phase_nudge", maxTokens := 100.0, strategyRate := 0.3, phase := 0, localGoal := piMul 1,
    frequency := 100 * millisecond, initialEnergy := 100.0, influence := 0.5, stubbornness := 0.2,
    swarmSize := 0, assumedMaxNeighbors := 0,
    randomizePhase := false, randomizeLocalGoal := false, randomizeFrequency := false }

/-- `config.RandomizedAgent`, internal/config/agent.go:70-76. -/
def randomizedAgentConfig : AgentConfig α :=
  { (defaultAgentConfig : AgentConfig α) with
    randomizePhase := true, randomizeLocalGoal := true, randomizeFrequency := true }

/-- `config.TestAgent`, internal/config/agent.go:80-101. -/
def testAgentConfig : AgentConfig α :=
  { decisionMakerType := "simple", goalManagerType := "weighted", resourceManagerType := "token",
    strategyType := "phase_nudge", maxTokens := 100.0, strategyRate := 0.5, phase := 0, localGoal := 0,
    frequency := 50 * millisecond, initialEnergy := 100.0, influence := 0.8, stubbornness := 0.01,
    swarmSize := 0, assumedMaxNeighbors := 0,
    randomizePhase := false, randomizeLocalGoal := false, randomizeFrequency := false }

/-- `config.AgentFromSwarm`, internal/config/agent.go:105-121. -/
def agentFromSwarm (sc : SwarmConfig α) : AgentConfig α :=
  { decisionMakerType := "simple", goalManagerType := "weighted", resourceManagerType := "token",
    strategyType := "phase_nudge", maxTokens := sc.initialEnergy, strategyRate := sc.couplingStrength,
    phase := 0, localGoal := 0, frequency := 0,
    initialEnergy := sc.initialEnergy, influence := sc.influenceDefault, stubbornness := sc.stubbornness,
    swarmSize := 0, assumedMaxNeighbors := sc.assumedMaxNeighbors,
    randomizePhase := true, randomizeLocalGoal := true, randomizeFrequency := true }

/-- Raw words drawn while an agent is constructed, and the time. -/
structure Draws where
  phase0 : Nat
  goal0 : Nat
  freq0 : Nat
  phase : Nat
  goal : Nat
  freq : Nat
  now : Int

/-- `NewOptimizedFromConfig`, emerge/agent/agent.go:99-161. -/
def newOptimizedFromConfig (id : String) (cfg : AgentConfig α) (d : Draws) : Agent α :=
  let maxNeighbors :=
    if cfg.assumedMaxNeighbors = 0 then (if cfg.swarmSize > 100 then 20 else cfg.swarmSize - 1)
    else cfg.assumedMaxNeighbors
  let opts : List (AgentOption α) :=
    [.phase cfg.phase, .frequency cfg.frequency, .energy cfg.initialEnergy, .influence cfg.influence,
     .stubbornness cfg.stubbornness, .swarmInfo cfg.swarmSize maxNeighbors, .localGoal cfg.localGoal] ++
    (if cfg.randomizePhase then [.randomPhase d.phase] else []) ++
    (if cfg.randomizeLocalGoal then [.randomLocalGoal d.goal] else []) ++
    (if cfg.randomizeFrequency then [.randomFrequency d.freq] else []) ++
    (if cfg.resourceManagerType = "token" ∧ cfg.maxTokens > 0 then [.resourceManager (TokenManager.new cfg.maxTokens)]
     else []) ++
    [.strategy (
      if cfg.strategyType = "phase_nudge" then .basic (.phaseNudge cfg.strategyRate)
      else if cfg.strategyType = "frequency_lock" then .basic (.frequencyLock 0.5)
      else if cfg.strategyType = "energy_aware" then .basic (.energyAware 10.0)
      else .basic (.phaseNudge cfg.strategyRate))]
  Agent.new id d.phase0 d.goal0 d.freq0 opts

/-- Errors of `NewFromConfig`. -/
inductive BuildErr where
  | decisionMaker | goalManager | resourceManager | strategy
  deriving DecidableEq, Repr

/-- `createStrategy`, emerge/agent/builder.go:98-129. -/
def createStrategy (cfg : AgentConfig α) (now : Int) : Option (AgentStrategy α) :=
  if cfg.strategyType = "" ∨ cfg.strategyType = "phase_nudge" then
    some (.basic (.phaseNudge (if cfg.strategyRate == 0 then 0.7 else cfg.strategyRate)))
  else if cfg.strategyType = "frequency_lock" then
    some (.basic (.frequencyLock (if cfg.strategyRate == 0 then 0.5 else cfg.strategyRate)))
  else if cfg.strategyType = "energy_aware" then
    some (.basic (.energyAware (if cfg.strategyRate == 0 then 20.0 else cfg.strategyRate)))
  else if cfg.strategyType = "adaptive" then
    some (.adaptive [.phaseNudge 0.3, .frequencyLock 0.5])
  else if cfg.strategyType = "pulse" then
    some (.basic (.pulse (newPulse (100 * millisecond) 0.8 now)))
  else none

/-- `createResourceManager`, emerge/agent/builder.go:81-95. -/
def createResourceManager (cfg : AgentConfig α) : Option (TokenManager α) :=
  if cfg.resourceManagerType = "" ∨ cfg.resourceManagerType = "token" then
    let m := if cfg.maxTokens == 0 then (if cfg.initialEnergy == 0 then 100.0 else cfg.initialEnergy) else cfg.maxTokens
    some (TokenManager.new m)
  else none

/-- `createPhaseOptions`, `createGoalOptions`, `createFrequencyOptions` and `createParameterOptions`,
emerge/agent/builder.go:132-198. -/
def configOptions (cfg : AgentConfig α) (d : Draws) : List (AgentOption α) :=
  [if cfg.randomizePhase then .randomPhase d.phase else if cfg.phase != 0 then .phase cfg.phase else .phase 0,
   if cfg.randomizeLocalGoal then .randomLocalGoal d.goal
   else if cfg.localGoal != 0 then .localGoal cfg.localGoal else .localGoal (randPhase d.goal),
   if cfg.randomizeFrequency then .randomFrequency d.freq
   else if cfg.frequency ≠ 0 then .frequency cfg.frequency else .frequency (100 * millisecond),
   .energy (if cfg.initialEnergy == 0 then 100.0 else cfg.initialEnergy),
   .influence (if cfg.influence == 0 then 0.5 else cfg.influence),
   .stubbornness (if cfg.stubbornness == 0 then 0.2 else cfg.stubbornness)] ++
  (if cfg.swarmSize > 0 then [.swarmInfo cfg.swarmSize cfg.assumedMaxNeighbors] else [])

/-- `NewFromConfig`, emerge/agent/builder.go:18-55. -/
def newFromConfig (id : String) (cfg : AgentConfig α) (d : Draws) : Except BuildErr (Agent α) :=
  if ¬ (cfg.decisionMakerType = "" ∨ cfg.decisionMakerType = "simple" ∨ cfg.decisionMakerType = "adaptive") then
    .error .decisionMaker
  else if ¬ (cfg.goalManagerType = "" ∨ cfg.goalManagerType = "weighted") then .error .goalManager
  else match createResourceManager cfg with
    | none => .error .resourceManager
    | some rm =>
      match createStrategy cfg d.now with
      | none => .error .strategy
      | some s => .ok (Agent.new id d.phase0 d.goal0 d.freq0 ([.resourceManager rm, .strategy s] ++ configOptions cfg d))

/-! ## The pool -/

/-- `(*Agent).Reset`, emerge/agent/pool.go:84-112. The strategy, resources, swarm information and the optimised
neighbour storage are not touched. -/
def Agent.reset (a : Agent α) (id : String) (w1 w2 w3 w4 : Nat) : Agent α :=
  { a with
    id := id
    state := { phase := randPhase w1, energy := 100.0, localGoal := randPhase w2, frequency := 100 * millisecond }
    behavior := { influence := 0.1 + randFloat64 w3 * 0.1, stubbornness := randFloat64 w4 * 0.3 }
    neighbors := []
    context := Context.zero }

/-- `(*Agent).Clear`, emerge/agent/pool.go:115-126. -/
def Agent.clear (a : Agent α) : Agent α := { a with id := "", neighbors := [], context := Context.zero }

/-- `agent.PoolManager`, emerge/agent/pool.go:27-38. `free` is the content of the `sync.Pool`. -/
structure Pool (α : Type) where
  free : List (Agent α)
  gets : Nat
  puts : Nat
  news : Nat
  inUse : Int

/-- The empty pool, emerge/agent/pool.go:14-24. -/
def Pool.empty : Pool α := { free := [], gets := 0, puts := 0, news := 0, inUse := 0 }

/-- `(*PoolManager).Get`, emerge/agent/pool.go:41-59. A `sync.Pool` may return any object put into it or make a new one:
`pick` is the index of the object it returns, and an index out of range stands for a new object. Resetting a new object
dereferences its nil state pointer and panics. -/
def Pool.get (p : Pool α) (pick : Nat) (id : String) (w1 w2 w3 w4 : Nat) : Outcome (Agent α × Pool α) :=
  match p.free[pick]? with
  | none => .panic
  | some a =>
    .ok (a.reset id w1 w2 w3 w4,
      { free := p.free.eraseIdx pick, gets := p.gets + 1, puts := p.puts, inUse := p.inUse + 1,
        news := if a.id = "" then p.news + 1 else p.news })

/-- `(*PoolManager).Put`, emerge/agent/pool.go:62-73; `none` is nil. -/
def Pool.put (p : Pool α) : Option (Agent α) → Pool α
  | none => p
  | some a => { p with free := a.clear :: p.free, puts := p.puts + 1, inUse := p.inUse - 1 }

end
end Verif
