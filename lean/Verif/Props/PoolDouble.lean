import Verif.Props.Pool
import Verif.Props.PresetDouble

/-! # C75 in doubles: small and large swarms configure agents alike -/

set_option autoImplicit false
set_option linter.unusedSectionVars false

namespace Verif
open GoMath

variable [Rounding] [LibM]

theorem beq_zero_pos {x : F64} (h : 0 < x) : (x == 0) = false := by
  refine @decide_eq_false _ (Classical.propDecidable _) ?_
  intro e
  cases x with
  | fin a =>
    rw [F64.zero_def, F64.lt_fin] at h
    have : a.1 = 0 := e
    exact absurd h (by rw [this]; exact lt_irrefl _)
  | pinf => exact e
  | ninf => exact e
  | nan => exact e

theorem fmax_zero_pos {x : F64} (h : 0 < x) : (fmax 0 x : F64) = x := by
  cases x with
  | fin a =>
    rw [F64.zero_def, F64.lt_fin] at h
    show (if a.1 < _ then _ else _) = _
    rw [if_neg (not_lt.2 h.le)]
  | pinf => rfl
  | ninf => exact h.elim
  | nan => exact h.elim

theorem not_neg_pos {x : F64} (h : 0 < x) : ¬ x < 0 := by
  cases x with
  | fin a =>
    rw [F64.zero_def, F64.lt_fin] at h ⊢
    exact not_lt.2 h.le
  | pinf => exact id
  | ninf => exact h.elim
  | nan => exact h.elim

/-- **C75, in doubles, for configurations derived from a swarm.** With positive energy and positive coupling, influence and stubbornness both constructors succeed and agree on
the whole state, the behaviour, the strategy and the budget. -/
theorem C75_from_swarm_double (id : String) (sc : SwarmConfig F64) (d : Draws) (h1 : 0 < sc.initialEnergy)
    (h2 : 0 < sc.couplingStrength) (h3 : 0 < sc.influenceDefault) (h4 : 0 < sc.stubbornness) :
    ∃ a, newFromConfig id (agentFromSwarm sc) d = .ok a ∧
      a.state = (newOptimizedFromConfig id (agentFromSwarm sc) d).state ∧ a.behavior = (newOptimizedFromConfig id (agentFromSwarm sc) d).behavior ∧
      a.strategy = (newOptimizedFromConfig id (agentFromSwarm sc) d).strategy ∧ a.resources = (newOptimizedFromConfig id (agentFromSwarm sc) d).resources ∧
      a.state.energy = sc.initialEnergy := by
  have e1 := beq_zero_pos h1
  have e2 := beq_zero_pos h2
  have e3 := beq_zero_pos h3
  have e4 := beq_zero_pos h4
  have e5 : (agentFromSwarm sc).maxTokens > 0 := h1
  have t : (TokenManager.new sc.initialEnergy).available = sc.initialEnergy := by
    unfold TokenManager.new TokenManager.available
    simp only [if_neg (not_neg_pos h1)]
  have k1 : newFromConfig id (agentFromSwarm sc) d = .ok (Agent.new id d.phase0 d.goal0 d.freq0 [.resourceManager (TokenManager.new sc.initialEnergy),
      .strategy (.basic (.phaseNudge sc.couplingStrength)), .randomPhase d.phase, .randomLocalGoal d.goal, .randomFrequency d.freq, .energy sc.initialEnergy,
      .influence sc.influenceDefault, .stubbornness sc.stubbornness]) := by
    simp [newFromConfig, createStrategy, createResourceManager, configOptions, agentFromSwarm, e1, e2, e3, e4, -F64.zero_def]
  obtain ⟨m, k2⟩ : ∃ m, newOptimizedFromConfig id (agentFromSwarm sc) d = Agent.new id d.phase0 d.goal0 d.freq0 [.phase 0, .frequency 0, .energy sc.initialEnergy,
      .influence sc.influenceDefault, .stubbornness sc.stubbornness, .swarmInfo 0 m, .localGoal 0, .randomPhase d.phase, .randomLocalGoal d.goal,
      .randomFrequency d.freq, .resourceManager (TokenManager.new sc.initialEnergy), .strategy (.basic (.phaseNudge sc.couplingStrength))] := by
    refine ⟨if sc.assumedMaxNeighbors = 0 then (if (0 : ℤ) > 100 then 20 else 0 - 1) else sc.assumedMaxNeighbors, ?_⟩
    unfold newOptimizedFromConfig
    rw [if_pos (⟨rfl, e5⟩ : (agentFromSwarm sc).resourceManagerType = "token" ∧ (agentFromSwarm sc).maxTokens > 0)]
    simp [agentFromSwarm, -F64.zero_def]
  refine ⟨_, k1, ?_⟩
  rw [k2]
  simp only [Agent.new, List.foldl_cons, List.foldl_nil, Agent.applyOption, Agent.setPhase, Agent.setFrequency, Agent.setEnergy, Agent.setInfluence,
    Agent.setStubbornness, Agent.setLocalGoal, t, fmax_zero_pos h1]
  exact ⟨trivial, trivial, trivial, trivial, trivial⟩

/-- Any configuration becomes one to which this applies if its four numbers are set to one. -/
example (sc : SwarmConfig F64) : ∃ a, newFromConfig "x" (agentFromSwarm { sc with initialEnergy := 1, couplingStrength := 1, influenceDefault := 1, stubbornness := 1 })
    ⟨1, 2, 3, 4, 5, 6, 7⟩ = .ok a ∧ a.state.energy = 1 := by
  have h : (0 : F64) < 1 := by rw [F64.zero_def, F64.one_def, F64.lt_fin]; exact one_pos
  obtain ⟨a, h1, -, -, -, -, h2⟩ := C75_from_swarm_double "x" { sc with initialEnergy := 1, couplingStrength := 1, influenceDefault := 1, stubbornness := 1 }
    ⟨1, 2, 3, 4, 5, 6, 7⟩ h h h h
  exact ⟨a, h1, h2⟩

end Verif
