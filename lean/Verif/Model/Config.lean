import Verif.Model.Tables

/-!
# Model of `emerge/swarm/config.go` (goal presets) and `internal/config/swarm.go` (swarm parameters)

Durations are integers in nanoseconds. Validation returns the list of rejected fields instead of formatted messages;
the goal configuration reports the first one only, as the source does.
-/

set_option autoImplicit false

namespace Verif

/-- `time.Millisecond` in nanoseconds. -/
abbrev millisecond : Int := 1000000

/-- `time.Second` in nanoseconds. -/
abbrev second : Int := 1000000000

/-- `swarm.Config` with its five sections flattened, emerge/swarm/config.go:12-82 (`BaseRange` is the pair
`variationMin`, `variationMax`). -/
structure GoalConfig (α : Type) where
  toleranceSmall : α
  toleranceMedium : α
  toleranceLarge : α
  phaseConvergenceGoal : α
  patternDistanceThreshold : α
  baseAdjustmentScale : α
  phaseVariance : α
  highCoherence : α
  veryHighCoherence : α
  moderateCoherence : α
  variationMin : α
  variationMax : α
  coherenceFactor : α
  randomWalkMagnitude : α
  perturbationMagnitude : α
  perturbationChance : α
  maxIterationsFactor : α
  updateInterval : Int
  explorationBonusMax : α
  explorationTimeWindow : Int
  randomExploration : α
  noiseMagnitude : α
  affectedAgents : α
  activationRate : α

/-- `config.Swarm`, internal/config/swarm.go:11-46. -/
@[ext] structure SwarmConfig (α : Type) where
  connectionProbability : α
  maxNeighbors : Int
  minNeighbors : Int
  couplingStrength : α
  stubbornness : α
  initialEnergy : α
  assumedMaxNeighbors : Int
  basinStrength : α
  basinWidth : α
  baseConfidence : α
  influenceDefault : α
  maxSwarmSize : Int
  maxConcurrentAgents : Int
  useBatchProcessing : Bool
  batchSize : Int
  workerPoolSize : Int
  agentUpdateInterval : Int
  monitoringInterval : Int
  connectionOptimThreshold : Int
  enableConnectionOptim : Bool
  autoScale : Bool

/-- `minInt` and `minValue[int]`, internal/config/swarm.go:512-517, emerge/swarm/config.go:605-610. -/
def minInt (a b : Int) : Int := if a < b then a else b

/-- `maxInt` and `maxValue[int]`, internal/config/swarm.go:528-533, emerge/swarm/config.go:613-618. -/
def maxInt (a b : Int) : Int := if a > b then a else b

section
variable {α : Type} [Zero α] [One α] [Add α] [Sub α] [Mul α] [Div α] [Neg α] [LT α] [LE α] [DecidableLT α]
  [DecidableLE α] [BEq α] [OfScientific α] [GoMath α]

/-- `minFloat` and `minValue[float64]`, internal/config/swarm.go:520-525, emerge/swarm/config.go:605-610. -/
def minFloat (a b : α) : α := if a < b then a else b

/-- the `MinAPI…` branch of `For`, emerge/swarm/config.go:88-122 with the constants of emerge/swarm/goal_constants.go:10-37. -/
def minAPIConfig : GoalConfig α where
  toleranceSmall := 0.01
  toleranceMedium := 0.005
  toleranceLarge := 0.003
  phaseConvergenceGoal := 0.90
  patternDistanceThreshold := 0.05
  baseAdjustmentScale := 0.75
  phaseVariance := 0.3
  highCoherence := 0.85
  veryHighCoherence := 0.90
  moderateCoherence := 0.80
  variationMin := 0.05
  variationMax := 0.15
  coherenceFactor := 0.15
  randomWalkMagnitude := 0.05
  perturbationMagnitude := 0.04
  perturbationChance := 0.10
  maxIterationsFactor := 150.0
  updateInterval := 200 * millisecond
  explorationBonusMax := 0.2
  explorationTimeWindow := 45 * second
  randomExploration := 0.05
  noiseMagnitude := 0.3
  affectedAgents := 0.05
  activationRate := 0.05

/-- the `DistLoad…` branch of `For`, emerge/swarm/config.go:125-159 with the constants of emerge/swarm/goal_constants.go:42-69. -/
def distLoadConfig : GoalConfig α where
  toleranceSmall := 0.025
  toleranceMedium := 0.015
  toleranceLarge := 0.010
  phaseConvergenceGoal := 0.30
  patternDistanceThreshold := 0.2
  baseAdjustmentScale := 0.55
  phaseVariance := 0.8
  highCoherence := 0.4
  veryHighCoherence := 0.5
  moderateCoherence := 0.3
  variationMin := 0.25
  variationMax := 0.45
  coherenceFactor := 0.3
  randomWalkMagnitude := 0.2
  perturbationMagnitude := 0.15
  perturbationChance := 0.25
  maxIterationsFactor := 100.0
  updateInterval := 50 * millisecond
  explorationBonusMax := 0.4
  explorationTimeWindow := 30 * second
  randomExploration := 0.15
  noiseMagnitude := 0.6
  affectedAgents := 0.15
  activationRate := 0.15

/-- the `Consensus…` branch of `For`, emerge/swarm/config.go:162-196 with the constants of emerge/swarm/goal_constants.go:74-101. -/
def consensusConfig : GoalConfig α where
  toleranceSmall := 0.008
  toleranceMedium := 0.004
  toleranceLarge := 0.002
  phaseConvergenceGoal := 0.95
  patternDistanceThreshold := 0.03
  baseAdjustmentScale := 0.80
  phaseVariance := 0.2
  highCoherence := 0.90
  veryHighCoherence := 0.95
  moderateCoherence := 0.85
  variationMin := 0.03
  variationMax := 0.10
  coherenceFactor := 0.10
  randomWalkMagnitude := 0.03
  perturbationMagnitude := 0.02
  perturbationChance := 0.05
  maxIterationsFactor := 250.0
  updateInterval := 100 * millisecond
  explorationBonusMax := 0.25
  explorationTimeWindow := 60 * second
  randomExploration := 0.08
  noiseMagnitude := 0.2
  affectedAgents := 0.03
  activationRate := 0.03

/-- the `Latency…` branch of `For`, emerge/swarm/config.go:199-233 with the constants of emerge/swarm/goal_constants.go:106-133. -/
def latencyConfig : GoalConfig α where
  toleranceSmall := 0.020
  toleranceMedium := 0.012
  toleranceLarge := 0.008
  phaseConvergenceGoal := 0.75
  patternDistanceThreshold := 0.15
  baseAdjustmentScale := 0.85
  phaseVariance := 0.4
  highCoherence := 0.80
  veryHighCoherence := 0.85
  moderateCoherence := 0.75
  variationMin := 0.10
  variationMax := 0.20
  coherenceFactor := 0.15
  randomWalkMagnitude := 0.08
  perturbationMagnitude := 0.06
  perturbationChance := 0.12
  maxIterationsFactor := 80.0
  updateInterval := 25 * millisecond
  explorationBonusMax := 0.35
  explorationTimeWindow := 20 * second
  randomExploration := 0.12
  noiseMagnitude := 0.4
  affectedAgents := 0.08
  activationRate := 0.10

/-- the `Energy…` branch of `For`, emerge/swarm/config.go:236-270 with the constants of emerge/swarm/goal_constants.go:138-165. -/
def energyConfig : GoalConfig α where
  toleranceSmall := 0.030
  toleranceMedium := 0.020
  toleranceLarge := 0.015
  phaseConvergenceGoal := 0.70
  patternDistanceThreshold := 0.20
  baseAdjustmentScale := 0.40
  phaseVariance := 0.6
  highCoherence := 0.75
  veryHighCoherence := 0.80
  moderateCoherence := 0.70
  variationMin := 0.08
  variationMax := 0.18
  coherenceFactor := 0.12
  randomWalkMagnitude := 0.06
  perturbationMagnitude := 0.05
  perturbationChance := 0.08
  maxIterationsFactor := 300.0
  updateInterval := 250 * millisecond
  explorationBonusMax := 0.15
  explorationTimeWindow := 90 * second
  randomExploration := 0.05
  noiseMagnitude := 0.25
  affectedAgents := 0.05
  activationRate := 0.05

/-- the `Rhythm…` branch of `For`, emerge/swarm/config.go:273-307 with the constants of emerge/swarm/goal_constants.go:170-197. -/
def rhythmConfig : GoalConfig α where
  toleranceSmall := 0.012
  toleranceMedium := 0.006
  toleranceLarge := 0.003
  phaseConvergenceGoal := 0.80
  patternDistanceThreshold := 0.08
  baseAdjustmentScale := 0.70
  phaseVariance := 0.4
  highCoherence := 0.85
  veryHighCoherence := 0.90
  moderateCoherence := 0.80
  variationMin := 0.08
  variationMax := 0.16
  coherenceFactor := 0.15
  randomWalkMagnitude := 0.06
  perturbationMagnitude := 0.05
  perturbationChance := 0.10
  maxIterationsFactor := 180.0
  updateInterval := 100 * millisecond
  explorationBonusMax := 0.25
  explorationTimeWindow := 50 * second
  randomExploration := 0.08
  noiseMagnitude := 0.3
  affectedAgents := 0.06
  activationRate := 0.08

/-- the `Recovery…` branch of `For`, emerge/swarm/config.go:310-344 with the constants of emerge/swarm/goal_constants.go:202-229. -/
def recoveryConfig : GoalConfig α where
  toleranceSmall := 0.025
  toleranceMedium := 0.015
  toleranceLarge := 0.010
  phaseConvergenceGoal := 0.65
  patternDistanceThreshold := 0.18
  baseAdjustmentScale := 0.60
  phaseVariance := 0.7
  highCoherence := 0.70
  veryHighCoherence := 0.75
  moderateCoherence := 0.65
  variationMin := 0.20
  variationMax := 0.40
  coherenceFactor := 0.25
  randomWalkMagnitude := 0.15
  perturbationMagnitude := 0.12
  perturbationChance := 0.20
  maxIterationsFactor := 350.0
  updateInterval := 75 * millisecond
  explorationBonusMax := 0.40
  explorationTimeWindow := 30 * second
  randomExploration := 0.15
  noiseMagnitude := 0.7
  affectedAgents := 0.15
  activationRate := 0.20

/-- the `Traffic…` branch of `For`, emerge/swarm/config.go:347-381 with the constants of emerge/swarm/goal_constants.go:234-261. -/
def trafficConfig : GoalConfig α where
  toleranceSmall := 0.040
  toleranceMedium := 0.030
  toleranceLarge := 0.020
  phaseConvergenceGoal := 0.50
  patternDistanceThreshold := 0.25
  baseAdjustmentScale := 0.45
  phaseVariance := 0.9
  highCoherence := 0.60
  veryHighCoherence := 0.70
  moderateCoherence := 0.50
  variationMin := 0.30
  variationMax := 0.50
  coherenceFactor := 0.35
  randomWalkMagnitude := 0.25
  perturbationMagnitude := 0.20
  perturbationChance := 0.30
  maxIterationsFactor := 100.0
  updateInterval := 50 * millisecond
  explorationBonusMax := 0.50
  explorationTimeWindow := 20 * second
  randomExploration := 0.25
  noiseMagnitude := 0.8
  affectedAgents := 0.20
  activationRate := 0.25

/-- `defaultConfig`, emerge/swarm/config.go:566-602 with the constants of emerge/swarm/thresholds.go:53-86. -/
def defaultConfig : GoalConfig α where
  toleranceSmall := 0.015
  toleranceMedium := 0.008
  toleranceLarge := 0.005
  phaseConvergenceGoal := 0.85
  patternDistanceThreshold := 0.1
  baseAdjustmentScale := 0.65
  phaseVariance := 0.5
  highCoherence := 0.9
  veryHighCoherence := 0.92
  moderateCoherence := 0.85
  variationMin := 0.15
  variationMax := 0.30
  coherenceFactor := 0.2
  randomWalkMagnitude := 0.1
  perturbationMagnitude := 0.08
  perturbationChance := 0.15
  maxIterationsFactor := 200.0
  updateInterval := 100 * millisecond
  explorationBonusMax := 0.3
  explorationTimeWindow := 60 * second
  randomExploration := 0.1
  noiseMagnitude := 0.5
  affectedAgents := 0.1
  activationRate := 0.1

/-- `For`, emerge/swarm/config.go:85-387. -/
def configFor (g : GoalType) : GoalConfig α :=
  match g with
  | 0 => minAPIConfig
  | 1 => distLoadConfig
  | 2 => consensusConfig
  | 3 => latencyConfig
  | 4 => energyConfig
  | 5 => rhythmConfig
  | 6 => recoveryConfig
  | 7 => trafficConfig
  | _ => defaultConfig

/-- `time.Duration(float64(d) * f)`, as used in `TuneFor`, emerge/swarm/config.go:398. -/
def scaleDuration (d : Int) (f : α) : Int := GoMath.toInt (GoMath.ofInt d * f)

/-- `(*Config).TuneFor`, emerge/swarm/config.go:390-441. The receiver is changed in place and returned; here the result
is the new value. -/
def GoalConfig.tuneFor (c : GoalConfig α) (t : Int) : GoalConfig α :=
  match t with
  | 0 => { c with
      baseAdjustmentScale := c.baseAdjustmentScale * 0.6
      variationMin := c.variationMin * 1.2
      variationMax := c.variationMax * 1.3
      perturbationMagnitude := c.perturbationMagnitude * 0.7
      updateInterval := scaleDuration c.updateInterval (1.5 : α)
      noiseMagnitude := c.noiseMagnitude * 0.6 }
  | 1 => { c with
      baseAdjustmentScale := minFloat 1 (c.baseAdjustmentScale * 1.3)
      toleranceSmall := c.toleranceSmall * 1.5
      toleranceMedium := c.toleranceMedium * 1.5
      toleranceLarge := c.toleranceLarge * 1.5
      updateInterval := scaleDuration c.updateInterval (0.5 : α)
      maxIterationsFactor := c.maxIterationsFactor * 0.7 }
  | 2 => { c with
      updateInterval := scaleDuration c.updateInterval (2.0 : α)
      perturbationChance := c.perturbationChance * 0.5
      affectedAgents := c.affectedAgents * 0.5
      explorationBonusMax := c.explorationBonusMax * 0.7 }
  | 3 => { c with
      baseAdjustmentScale := c.baseAdjustmentScale * 1.2
      updateInterval := scaleDuration c.updateInterval (0.7 : α)
      randomExploration := c.randomExploration * 1.5 }
  | 4 => { c with
      variationMin := c.variationMin * 1.3
      variationMax := c.variationMax * 1.4
      noiseMagnitude := c.noiseMagnitude * 1.5
      affectedAgents := c.affectedAgents * 1.5
      activationRate := c.activationRate * 1.8 }
  | 5 => { c with
      toleranceSmall := c.toleranceSmall * 0.5
      toleranceMedium := c.toleranceMedium * 0.5
      toleranceLarge := c.toleranceLarge * 0.5
      patternDistanceThreshold := c.patternDistanceThreshold * 0.5
      phaseConvergenceGoal := minFloat 0.98 (c.phaseConvergenceGoal * 1.1) }
  | _ => c

/-- `(*Config).WithSize`, emerge/swarm/config.go:444-490; durations divide towards zero. -/
def GoalConfig.withSize (c : GoalConfig α) (agentCount : Int) : GoalConfig α :=
  if agentCount ≤ 20 then { c with
      toleranceSmall := 0.020
      toleranceMedium := 0.020
      toleranceLarge := 0.020
      variationMin := 0.05
      variationMax := 0.10
      updateInterval := 20 * millisecond }
  else if agentCount ≤ 50 then { c with
      toleranceSmall := 0.015
      toleranceMedium := 0.015
      toleranceLarge := 0.015
      variationMin := c.variationMin * 0.8
      variationMax := c.variationMax * 0.9
      updateInterval := minInt 50 (c.updateInterval.tdiv millisecond) * millisecond }
  else if agentCount ≤ 200 then c
  else if agentCount ≤ 1000 then { c with
      toleranceSmall := c.toleranceSmall * 1.5
      toleranceMedium := c.toleranceMedium * 1.3
      toleranceLarge := c.toleranceLarge * 1.2
      variationMin := c.variationMin * 1.2
      variationMax := c.variationMax * 1.3
      updateInterval := maxInt 150 (c.updateInterval.tdiv millisecond) * millisecond
      maxIterationsFactor := c.maxIterationsFactor * 1.5 }
  else { c with
      toleranceSmall := c.toleranceSmall * 2.0
      toleranceMedium := c.toleranceMedium * 1.8
      toleranceLarge := c.toleranceLarge * 1.5
      variationMin := c.variationMin * 1.5
      variationMax := c.variationMax * 1.8
      updateInterval := maxInt 200 (c.updateInterval.tdiv millisecond) * millisecond
      maxIterationsFactor := c.maxIterationsFactor * 2.0
      affectedAgents := minFloat 0.05 c.affectedAgents }

/-- `(*Config).Validate` with `validateConvergence` … `validateResonance`, emerge/swarm/config.go:493-563: the first
rejected parameter, or `none` if the configuration is accepted. -/
def GoalConfig.validate (c : GoalConfig α) : Option String :=
  if c.baseAdjustmentScale < 0 ∨ 1 < c.baseAdjustmentScale then some "BaseAdjustmentScale"
  else if c.phaseConvergenceGoal < 0 ∨ 1 < c.phaseConvergenceGoal then some "PhaseConvergenceGoal"
  else if c.highCoherence < c.moderateCoherence then some "ModerateCoherence"
  else if c.veryHighCoherence < c.highCoherence then some "HighCoherence"
  else if c.variationMin < 0 ∨ c.variationMax < 0 then some "variation ranges"
  else if c.variationMax < c.variationMin then some "variation min"
  else if c.perturbationChance < 0 ∨ 1 < c.perturbationChance then some "PerturbationChance"
  else if c.updateInterval ≤ 0 then some "UpdateInterval"
  else if c.explorationTimeWindow ≤ 0 then some "ExplorationTimeWindow"
  else if c.affectedAgents < 0 ∨ 1 < c.affectedAgents then some "AffectedAgents"
  else if c.activationRate < 0 ∨ 1 < c.activationRate then some "ActivationRate"
  else none

/-! ### `internal/config/swarm.go` -/

/-- The zero value of `config.Swarm`; fields not set by a composite literal have these values. -/
def SwarmConfig.zero : SwarmConfig α where
  connectionProbability := 0
  maxNeighbors := 0
  minNeighbors := 0
  couplingStrength := 0
  stubbornness := 0
  initialEnergy := 0
  assumedMaxNeighbors := 0
  basinStrength := 0
  basinWidth := 0
  baseConfidence := 0
  influenceDefault := 0
  maxSwarmSize := 0
  maxConcurrentAgents := 0
  useBatchProcessing := false
  batchSize := 0
  workerPoolSize := 0
  agentUpdateInterval := 0
  monitoringInterval := 0
  connectionOptimThreshold := 0
  enableConnectionOptim := false
  autoScale := false

/-- `DefaultConfig`, internal/config/swarm.go:49-73. -/
def defaultSwarmConfig : SwarmConfig α where
  connectionProbability := 0.3
  maxNeighbors := 5
  minNeighbors := 2
  couplingStrength := 0.5
  stubbornness := 0.2
  initialEnergy := 100.0
  assumedMaxNeighbors := 20
  basinStrength := 0.8
  basinWidth := GoMath.piMul 1
  baseConfidence := 0.6
  influenceDefault := 0.2
  maxSwarmSize := 1000000
  maxConcurrentAgents := 1000
  useBatchProcessing := true
  batchSize := 0
  workerPoolSize := 0
  agentUpdateInterval := 50 * millisecond
  monitoringInterval := 100 * millisecond
  connectionOptimThreshold := 50000
  enableConnectionOptim := true
  autoScale := false

/-- `SmallSwarmConfig`, internal/config/swarm.go:76-100. -/
def smallSwarmConfig : SwarmConfig α where
  connectionProbability := 0.9
  maxNeighbors := 10
  minNeighbors := 2
  couplingStrength := 0.8
  stubbornness := 0.05
  initialEnergy := 100.0
  assumedMaxNeighbors := 0
  basinStrength := 0.9
  basinWidth := GoMath.piMul 2
  baseConfidence := 0.8
  influenceDefault := 0.1
  maxSwarmSize := 100
  maxConcurrentAgents := 0
  useBatchProcessing := false
  batchSize := 0
  workerPoolSize := 0
  agentUpdateInterval := 25 * millisecond
  monitoringInterval := 50 * millisecond
  connectionOptimThreshold := 1000
  enableConnectionOptim := false
  autoScale := false

/-- `MediumSwarmConfig`, internal/config/swarm.go:103-127. -/
def mediumSwarmConfig : SwarmConfig α where
  connectionProbability := 0.5
  maxNeighbors := 8
  minNeighbors := 3
  couplingStrength := 0.6
  stubbornness := 0.1
  initialEnergy := 100.0
  assumedMaxNeighbors := 0
  basinStrength := 0.85
  basinWidth := GoMath.piMul (3/2)
  baseConfidence := 0.7
  influenceDefault := 0.2
  maxSwarmSize := 1000
  maxConcurrentAgents := 100
  useBatchProcessing := false
  batchSize := 0
  workerPoolSize := 0
  agentUpdateInterval := 40 * millisecond
  monitoringInterval := 75 * millisecond
  connectionOptimThreshold := 5000
  enableConnectionOptim := false
  autoScale := false

/-- The `switch` of `AutoScaleConfig` by swarm size, internal/config/swarm.go:131-195. -/
def autoScaleBase (swarmSize : Int) : SwarmConfig α :=
  if swarmSize < 10 then { (SwarmConfig.zero : SwarmConfig α) with
      autoScale := true
      initialEnergy := 100.0
      connectionProbability := 1
      maxNeighbors := swarmSize - 1
      minNeighbors := swarmSize - 1
      couplingStrength := 0.9
      stubbornness := 0.01
      basinStrength := 0.95
      basinWidth := GoMath.piMul (5/2)
      baseConfidence := 0.9
      influenceDefault := 0.1
      maxSwarmSize := 50
      maxConcurrentAgents := 0
      useBatchProcessing := false
      agentUpdateInterval := 20 * millisecond
      monitoringInterval := 25 * millisecond
      connectionOptimThreshold := 1000
      enableConnectionOptim := false }
  else if swarmSize < 20 then { (smallSwarmConfig : SwarmConfig α) with
      maxNeighbors := minInt 10 (swarmSize - 1)
      autoScale := true }
  else if swarmSize < 100 then { (mediumSwarmConfig : SwarmConfig α) with
      maxNeighbors := minInt 15 (swarmSize.tdiv 5)
      autoScale := true }
  else if swarmSize < 1000 then { (defaultSwarmConfig : SwarmConfig α) with
      maxNeighbors := minInt 20 (swarmSize.tdiv 10)
      autoScale := true
      couplingStrength := 0.7
      influenceDefault := 0.2
      stubbornness := 0.1
      maxConcurrentAgents := minInt 500 (swarmSize.tdiv 2)
      useBatchProcessing := decide (swarmSize > 200)
      batchSize := maxInt 10 (swarmSize.tdiv 50)
      workerPoolSize := minInt 50 (swarmSize.tdiv 20) }
  else { (defaultSwarmConfig : SwarmConfig α) with
      maxNeighbors := minInt 10 (swarmSize.tdiv 100)
      autoScale := true
      maxConcurrentAgents := 1000
      useBatchProcessing := true
      batchSize := maxInt 50 (swarmSize.tdiv 100)
      workerPoolSize := 100
      agentUpdateInterval := 100 * millisecond
      monitoringInterval := 250 * millisecond
      connectionOptimThreshold := 1000
      enableConnectionOptim := true }

/-- `AutoScaleConfig`, internal/config/swarm.go:130-206. -/
def autoScaleConfig (swarmSize : Int) : SwarmConfig α :=
  let config : SwarmConfig α := { (autoScaleBase swarmSize : SwarmConfig α) with assumedMaxNeighbors := 0 }
  if swarmSize > 100 then
    { config with couplingStrength := config.couplingStrength * ((100.0 : α) / GoMath.ofInt swarmSize) }
  else config

/-- `ForBatching`, internal/config/swarm.go:209-252. -/
def forBatching (workloadCount batchWindow : Int) : SwarmConfig α :=
  let config : SwarmConfig α :=
    if workloadCount ≤ 30 then { (SwarmConfig.zero : SwarmConfig α) with
        connectionProbability := 0.9
        maxNeighbors := minInt (workloadCount - 1) 15
        minNeighbors := minInt (workloadCount.tdiv 2) 8
        couplingStrength := 0.85
        stubbornness := 0.02
        initialEnergy := 100.0
        assumedMaxNeighbors := 0
        basinStrength := 0.95
        basinWidth := GoMath.piMul (5/2)
        baseConfidence := 0.9
        influenceDefault := 0.85
        autoScale := false }
    else
      let config : SwarmConfig α := autoScaleConfig workloadCount
      { config with
        connectionProbability := minFloat 0.75 (config.connectionProbability * 1.5)
        couplingStrength := minFloat 0.8 (config.couplingStrength * 1.3)
        stubbornness := config.stubbornness * 0.2
        baseConfidence := 0.85
        influenceDefault := 0.8
        basinStrength := 0.9
        basinWidth := GoMath.piMul 2 }
  if batchWindow < 100 * millisecond then
    { config with
      couplingStrength := minFloat 0.95 (config.couplingStrength * 1.2)
      stubbornness := config.stubbornness * 0.5 }
  else if batchWindow > 500 * millisecond then
    { config with couplingStrength := config.couplingStrength * 0.95 }
  else config

/-- One entry of a validation error list. -/
def reject (b : Prop) [Decidable b] (field : String) : List String := if b then [field] else []

/-- `(*Swarm).Validate` with its five helpers, internal/config/swarm.go:255-390: the rejected fields. The source ranges
over Go maps inside each helper, so the order of the entries is unspecified; here it is the order of the source text. -/
def SwarmConfig.validate (c : SwarmConfig α) (swarmSize : Int) : List String :=
  reject (swarmSize ≤ 0) "swarmSize" ++
  reject (c.maxSwarmSize > 0 ∧ swarmSize > c.maxSwarmSize) "MaxSwarmSize" ++
  reject (c.connectionProbability < 0 ∨ 1 < c.connectionProbability) "ConnectionProbability" ++
  reject (c.couplingStrength < 0 ∨ 1 < c.couplingStrength) "CouplingStrength" ++
  reject (c.stubbornness < 0 ∨ 1 < c.stubbornness) "Stubbornness" ++
  reject (c.basinStrength < 0 ∨ 1 < c.basinStrength) "BasinStrength" ++
  reject (c.baseConfidence < 0 ∨ 1 < c.baseConfidence) "BaseConfidence" ++
  reject (c.influenceDefault < 0 ∨ 1 < c.influenceDefault) "InfluenceDefault" ++
  (if swarmSize > 0 ∧ swarmSize - 1 ≤ 0 then reject (c.maxNeighbors ≠ 0) "MaxNeighbors"
   else reject (c.maxNeighbors < 1) "MaxNeighbors") ++
  reject (swarmSize > 0 ∧ c.maxNeighbors > swarmSize - 1) "MaxNeighbors" ++
  reject (c.minNeighbors < 0) "MinNeighbors" ++
  reject (c.minNeighbors > c.maxNeighbors) "MinNeighbors" ++
  reject (c.initialEnergy ≤ 0) "InitialEnergy" ++
  reject (c.basinWidth ≤ 0) "BasinWidth" ++
  reject (c.agentUpdateInterval ≤ 0) "AgentUpdateInterval" ++
  reject (c.monitoringInterval ≤ 0) "MonitoringInterval" ++
  reject (c.maxConcurrentAgents < 0) "MaxConcurrentAgents" ++
  reject (c.batchSize < 0) "BatchSize" ++
  reject (c.workerPoolSize < 0) "WorkerPoolSize" ++
  reject (c.connectionOptimThreshold < 0) "ConnectionOptimThreshold"

/-- `clampProbability`, internal/config/swarm.go:501-509. -/
def clampProbability (value : α) : α := if value < 0 then 0 else if 1 < value then 1 else value

/-- `normalizeProbabilities`, internal/config/swarm.go:421-428. -/
def SwarmConfig.normalizeProbabilities (c : SwarmConfig α) : SwarmConfig α :=
  { c with
    connectionProbability := clampProbability c.connectionProbability
    couplingStrength := clampProbability c.couplingStrength
    stubbornness := clampProbability c.stubbornness
    basinStrength := clampProbability c.basinStrength
    baseConfidence := clampProbability c.baseConfidence
    influenceDefault := clampProbability c.influenceDefault }

/-- `normalizeNeighborConstraints`, internal/config/swarm.go:431-456; the two fields are computed one after the other. -/
def SwarmConfig.normalizeNeighborConstraints (c : SwarmConfig α) (swarmSize : Int) : SwarmConfig α :=
  let maxN :=
    if swarmSize > 0 then
      if swarmSize - 1 ≤ 0 then 0
      else
        let m := if c.maxNeighbors > swarmSize - 1 then swarmSize - 1 else c.maxNeighbors
        if m < 1 then 1 else m
    else if c.maxNeighbors < 1 then 1 else c.maxNeighbors
  let minN := if swarmSize > 0 ∧ swarmSize - 1 ≤ 0 then 0 else c.minNeighbors
  let minN := if minN > maxN then maxN else minN
  { c with maxNeighbors := maxN, minNeighbors := if minN < 0 then 0 else minN }

/-- `normalizePositiveDefaults`, internal/config/swarm.go:459-472. -/
def SwarmConfig.normalizePositiveDefaults (c : SwarmConfig α) : SwarmConfig α :=
  { c with
    initialEnergy := if c.initialEnergy ≤ 0 then 100.0 else c.initialEnergy
    basinWidth := if c.basinWidth ≤ 0 then GoMath.piMul 1 else c.basinWidth
    agentUpdateInterval := if c.agentUpdateInterval ≤ 0 then 50 * millisecond else c.agentUpdateInterval
    monitoringInterval := if c.monitoringInterval ≤ 0 then 100 * millisecond else c.monitoringInterval }

/-- `normalizeConcurrencyParameters`, internal/config/swarm.go:475-488. -/
def SwarmConfig.normalizeConcurrencyParameters (c : SwarmConfig α) : SwarmConfig α :=
  { c with
    maxConcurrentAgents := if c.maxConcurrentAgents < 0 then 0 else c.maxConcurrentAgents
    batchSize := if c.batchSize < 0 then 0 else c.batchSize
    workerPoolSize := if c.workerPoolSize < 0 then 0 else c.workerPoolSize
    connectionOptimThreshold := if c.connectionOptimThreshold < 0 then 0 else c.connectionOptimThreshold }

/-- `autoCalculateBatchParameters`, internal/config/swarm.go:491-498. -/
def SwarmConfig.autoCalculateBatchParameters (c : SwarmConfig α) (swarmSize : Int) : SwarmConfig α :=
  { c with
    batchSize := if c.useBatchProcessing = true ∧ c.batchSize = 0 then maxInt 10 (swarmSize.tdiv 50) else c.batchSize
    workerPoolSize := if c.useBatchProcessing = true ∧ c.workerPoolSize = 0
      then maxInt 4 (minInt 100 (swarmSize.tdiv 20)) else c.workerPoolSize }

/-- `(*Swarm).normalize`, internal/config/swarm.go:412-418. -/
def SwarmConfig.normalize (c : SwarmConfig α) (swarmSize : Int) : SwarmConfig α :=
  ((((c.normalizeProbabilities).normalizeNeighborConstraints swarmSize).normalizePositiveDefaults
    ).normalizeConcurrencyParameters).autoCalculateBatchParameters swarmSize

/-- `(*Swarm).NormalizeAndValidate`, internal/config/swarm.go:393-409: the rejected fields (empty for success) and the
receiver afterwards. -/
def SwarmConfig.normalizeAndValidate (c : SwarmConfig α) (swarmSize : Int) : List String × SwarmConfig α :=
  if c.validate swarmSize ≠ [] then
    let c' := c.normalize swarmSize
    (c'.validate swarmSize, c')
  else ([], c.normalize swarmSize)

end

end Verif
