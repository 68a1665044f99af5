import Verif.Model.Config

/-!
# What a valid configuration is

Independent statement of the documented parameter ranges (comments in emerge/swarm/config.go:12-82 and
internal/config/swarm.go:11-46), over any ordered type so that it can be read at ℝ and at `F64`.
-/

set_option autoImplicit false

namespace Verif.Spec

/-- A number in the unit interval. -/
def Unit01 {α : Type} [Zero α] [One α] [LE α] (x : α) : Prop := 0 ≤ x ∧ x ≤ 1

/-- The documented ranges of a goal configuration. -/
structure GoalValid {α : Type} [Zero α] [One α] [LE α] (c : GoalConfig α) : Prop where
  base : Unit01 c.baseAdjustmentScale
  convergenceGoal : Unit01 c.phaseConvergenceGoal
  moderate_le_high : c.moderateCoherence ≤ c.highCoherence
  high_le_veryHigh : c.highCoherence ≤ c.veryHighCoherence
  variation_nonneg : 0 ≤ c.variationMin
  variation_ordered : c.variationMin ≤ c.variationMax
  chance : Unit01 c.perturbationChance
  interval_pos : 0 < c.updateInterval
  window_pos : 0 < c.explorationTimeWindow
  affected : Unit01 c.affectedAgents
  activation : Unit01 c.activationRate

/-- The documented ranges of a swarm configuration for a swarm of `n` agents. -/
structure SwarmValid {α : Type} [Zero α] [One α] [LE α] [LT α] (c : SwarmConfig α) (n : Int) : Prop where
  size_pos : 0 < n
  size_le : c.maxSwarmSize ≤ 0 ∨ n ≤ c.maxSwarmSize
  connection : Unit01 c.connectionProbability
  coupling : Unit01 c.couplingStrength
  stubbornness : Unit01 c.stubbornness
  basinStrength : Unit01 c.basinStrength
  confidence : Unit01 c.baseConfidence
  influence : Unit01 c.influenceDefault
  /-- a single agent has no neighbours, otherwise at least one is allowed and no more than there are others -/
  maxNeighbors : if n = 1 then c.maxNeighbors = 0 else 1 ≤ c.maxNeighbors ∧ c.maxNeighbors ≤ n - 1
  minNeighbors : 0 ≤ c.minNeighbors ∧ c.minNeighbors ≤ c.maxNeighbors
  energy : 0 < c.initialEnergy
  width : 0 < c.basinWidth
  updateInterval : 0 < c.agentUpdateInterval
  monitoringInterval : 0 < c.monitoringInterval
  concurrent : 0 ≤ c.maxConcurrentAgents
  batch : 0 ≤ c.batchSize
  workers : 0 ≤ c.workerPoolSize
  optim : 0 ≤ c.connectionOptimThreshold

/-- No real-valued parameter of a goal configuration that validation looks at is NaN. -/
def GoalNoNaN {α : Type} [GoMath α] (c : GoalConfig α) : Prop :=
  ∀ x ∈ [c.baseAdjustmentScale, c.phaseConvergenceGoal, c.moderateCoherence, c.highCoherence, c.veryHighCoherence,
    c.variationMin, c.variationMax, c.perturbationChance, c.affectedAgents, c.activationRate], GoMath.isNaN x = false

/-- No real-valued parameter of a swarm configuration is NaN. -/
def SwarmNoNaN {α : Type} [GoMath α] (c : SwarmConfig α) : Prop :=
  ∀ x ∈ [c.connectionProbability, c.couplingStrength, c.stubbornness, c.initialEnergy, c.basinStrength, c.basinWidth,
    c.baseConfidence, c.influenceDefault], GoMath.isNaN x = false

end Verif.Spec
