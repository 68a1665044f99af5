import Verif.Model.StrategyNames
import Verif.Props.Pool

/-! # Which configurations build agents (C157) -/

set_option autoImplicit false
set_option linter.unusedSectionVars false

namespace Verif
open GoMath

/-- The names that are known for each of the four parts of an agent. -/
def Spec.knownDecision : List String := ["", "simple", "adaptive"]
def Spec.knownGoal : List String := ["", "weighted"]
def Spec.knownResource : List String := ["", "token"]
def Spec.knownStrategy : List String := ["", "phase_nudge", "frequency_lock", "energy_aware", "adaptive", "pulse"]

open Spec

section
variable {α : Type} [Zero α] [One α] [Add α] [Sub α] [Mul α] [Div α] [Neg α] [LT α] [LE α]
  [DecidableLT α] [DecidableLE α] [BEq α] [OfScientific α] [GoMath α]

theorem createStrategy_name (cfg : AgentConfig α) (now : ℤ) :
    (createStrategy cfg now).map AgentStrategy.name =
      if cfg.strategyType ∈ knownStrategy then some (if cfg.strategyType = "" then "phase_nudge" else cfg.strategyType) else none := by
  unfold createStrategy
  by_cases h1 : cfg.strategyType = "" ∨ cfg.strategyType = "phase_nudge"
  · rw [if_pos h1]
    rcases h1 with h | h <;> simp [h, knownStrategy, AgentStrategy.name, Strat.name]
  · obtain ⟨g1, g2⟩ := not_or.1 h1
    rw [if_neg h1]
    by_cases h2 : cfg.strategyType = "frequency_lock"
    · simp [h2, knownStrategy, AgentStrategy.name, Strat.name]
    by_cases h3 : cfg.strategyType = "energy_aware"
    · simp [h3, knownStrategy, AgentStrategy.name, Strat.name]
    by_cases h4 : cfg.strategyType = "adaptive"
    · simp [h4, knownStrategy, AgentStrategy.name]
    by_cases h5 : cfg.strategyType = "pulse"
    · simp [h5, knownStrategy, AgentStrategy.name, Strat.name]
    simp [g1, g2, h2, h3, h4, h5, knownStrategy]

theorem createResource_known (cfg : AgentConfig α) : (createResourceManager cfg).isSome = decide (cfg.resourceManagerType ∈ knownResource) := by
  unfold createResourceManager
  by_cases h : cfg.resourceManagerType = "" ∨ cfg.resourceManagerType = "token"
  · simp [h, knownResource]
  · obtain ⟨g1, g2⟩ := not_or.1 h
    simp [g1, g2, knownResource]

/-- **C157 (rejection).** `NewFromConfig` builds an agent exactly if the configuration names known parts only; otherwise it reports the first unknown part in the
order decision maker, goal manager, resource manager, strategy. -/
theorem C157_rejects (id : String) (cfg : AgentConfig α) (d : Draws) :
    ((∃ a, newFromConfig id cfg d = .ok a) ↔ cfg.decisionMakerType ∈ knownDecision ∧ cfg.goalManagerType ∈ knownGoal ∧
      cfg.resourceManagerType ∈ knownResource ∧ cfg.strategyType ∈ knownStrategy) ∧
    (newFromConfig id cfg d = .error .decisionMaker ↔ cfg.decisionMakerType ∉ knownDecision) ∧
    (newFromConfig id cfg d = .error .goalManager ↔ cfg.decisionMakerType ∈ knownDecision ∧ cfg.goalManagerType ∉ knownGoal) ∧
    (newFromConfig id cfg d = .error .resourceManager ↔ cfg.decisionMakerType ∈ knownDecision ∧ cfg.goalManagerType ∈ knownGoal ∧
      cfg.resourceManagerType ∉ knownResource) ∧
    (newFromConfig id cfg d = .error .strategy ↔ cfg.decisionMakerType ∈ knownDecision ∧ cfg.goalManagerType ∈ knownGoal ∧
      cfg.resourceManagerType ∈ knownResource ∧ cfg.strategyType ∉ knownStrategy) := by
  have hr := createResource_known cfg
  have hs := createStrategy_name cfg d.now
  unfold newFromConfig
  by_cases h1 : cfg.decisionMakerType = "" ∨ cfg.decisionMakerType = "simple" ∨ cfg.decisionMakerType = "adaptive"
  swap
  · have k1 : cfg.decisionMakerType ∉ knownDecision := by simpa [knownDecision] using h1
    simp [h1, k1]
  have k1 : cfg.decisionMakerType ∈ knownDecision := by simpa [knownDecision] using h1
  rw [if_neg (not_not.2 h1)]
  by_cases h2 : cfg.goalManagerType = "" ∨ cfg.goalManagerType = "weighted"
  swap
  · have k2 : cfg.goalManagerType ∉ knownGoal := by simpa [knownGoal] using h2
    simp [h2, k1, k2]
  have k2 : cfg.goalManagerType ∈ knownGoal := by simpa [knownGoal] using h2
  rw [if_neg (not_not.2 h2)]
  cases h3 : createResourceManager cfg with
  | none =>
    rw [h3] at hr
    have k3 : cfg.resourceManagerType ∉ knownResource := by simpa using hr.symm
    simp [k1, k2, k3]
  | some rm =>
    rw [h3] at hr
    have k3 : cfg.resourceManagerType ∈ knownResource := by simpa using hr.symm
    cases h4 : createStrategy cfg d.now with
    | none =>
      rw [h4] at hs
      by_cases k4 : cfg.strategyType ∈ knownStrategy
      · rw [if_pos k4] at hs; cases hs
      · simp [k1, k2, k3, k4]
    | some s =>
      rw [h4] at hs
      by_cases k4 : cfg.strategyType ∈ knownStrategy
      · simp [k1, k2, k3, k4]
      · rw [if_neg k4] at hs; cases hs

theorem applyAll_strategy (opts : List (AgentOption α)) (a : Agent α) (h : ∀ s, AgentOption.strategy s ∉ opts) :
    (opts.foldl Agent.applyOption a).strategy = a.strategy := by
  induction opts generalizing a with
  | nil => rfl
  | cons o l ih =>
    rw [List.foldl_cons, ih _ fun s hs => h s (List.mem_cons_of_mem _ hs)]
    cases o <;> first | rfl | exact absurd List.mem_cons_self (h _)

/-- **C157 (small swarms).** The agent that `NewFromConfig` builds has the strategy that is named, phase nudging if none is. -/
theorem C157_named (id : String) (cfg : AgentConfig α) (d : Draws) (a : Agent α) (h : newFromConfig id cfg d = .ok a) :
    a.strategy.name = if cfg.strategyType = "" then "phase_nudge" else cfg.strategyType := by
  have hs := createStrategy_name cfg d.now
  unfold newFromConfig at h
  split_ifs at h
  cases h3 : createResourceManager cfg with
  | none => rw [h3] at h; cases h
  | some rm =>
    cases h4 : createStrategy cfg d.now with
    | none => rw [h3, h4] at h; cases h
    | some s =>
      rw [h3, h4] at h
      cases h
      have e : (Agent.new id d.phase0 d.goal0 d.freq0 ([.resourceManager rm, .strategy s] ++ configOptions cfg d)).strategy = s := by
        unfold Agent.new
        rw [List.foldl_append, applyAll_strategy]
        · rfl
        · intro s hs
          unfold configOptions at hs
          simp only [List.mem_append, List.mem_cons, List.not_mem_nil, or_false] at hs
          rcases hs with (h | h | h | h | h | h) | h <;> split_ifs at h <;> simp at h
      rw [e]
      rw [h4] at hs
      split_ifs at hs with k1 k2 <;> simp at hs <;> simp_all

/-- **C157 (large swarms).** `NewOptimizedFromConfig` rejects nothing: the strategy is the named one for phase nudging, frequency locking and the energy-aware
strategy; for every other name, known or not, it is phase nudging. -/
theorem C157_optimized_partial (id : String) (cfg : AgentConfig α) (d : Draws) :
    (newOptimizedFromConfig id cfg d).strategy.name =
      if cfg.strategyType ∈ ["phase_nudge", "frequency_lock", "energy_aware"] then cfg.strategyType else "phase_nudge" := by
  unfold newOptimizedFromConfig
  dsimp only
  unfold Agent.new
  rw [List.foldl_append]
  show AgentStrategy.name (if _ then _ else _) = _
  split_ifs with h1 h2 h3 h4 h5 h6 h7 <;> simp_all [AgentStrategy.name, Strat.name]

/-- The full claim: in swarms of any size, agents have the strategy that is named, and a configuration that names none of the known ones is rejected. For a large
swarm nothing can be rejected, so what remains is that its agents have the named strategy if it is known. -/
def C157_claim (α : Type) [Zero α] [One α] [Add α] [Sub α] [Mul α] [Div α] [Neg α] [LT α] [LE α]
    [DecidableLT α] [DecidableLE α] [BEq α] [OfScientific α] [GoMath α] : Prop :=
  ∀ (id : String) (cfg : AgentConfig α) (d : Draws), cfg.strategyType ∈ knownStrategy → cfg.strategyType ≠ "" →
    (newOptimizedFromConfig id cfg d).strategy.name = cfg.strategyType

/-- It is false, in every arithmetic: an agent of a large swarm that is to pulse, or to adapt, nudges. -/
theorem C157_refuted : ¬ C157_claim α := fun h => by
  have := h "a" { (defaultAgentConfig : AgentConfig α) with strategyType := "pulse" } ⟨0, 0, 0, 0, 0, 0, 0⟩ (by simp [knownStrategy]) (by simp)
  rw [C157_optimized_partial] at this
  simp at this

/-- A misspelt strategy is rejected in a small swarm and nudges in a large one. -/
example : newFromConfig "a" { (defaultAgentConfig : AgentConfig α) with strategyType := "phase-nudge" } ⟨0, 0, 0, 0, 0, 0, 0⟩ = .error .strategy ∧
    (newOptimizedFromConfig "a" { (defaultAgentConfig : AgentConfig α) with strategyType := "phase-nudge" } ⟨0, 0, 0, 0, 0, 0, 0⟩).strategy.name = "phase_nudge" := by
  refine ⟨(C157_rejects _ _ _).2.2.2.2.2 ⟨?_, ?_, ?_, ?_⟩, ?_⟩
  · simp [defaultAgentConfig, knownDecision]
  · simp [defaultAgentConfig, knownGoal]
  · simp [defaultAgentConfig, knownResource]
  · simp [knownStrategy]
  · rw [C157_optimized_partial]; simp

/-- The pulse strategy can be had in a small swarm. -/
example : ∃ a, newFromConfig "a" { (defaultAgentConfig : AgentConfig α) with strategyType := "pulse" } ⟨0, 0, 0, 0, 0, 0, 0⟩ = .ok a ∧ a.strategy.name = "pulse" := by
  obtain ⟨a, h⟩ := (C157_rejects "a" { (defaultAgentConfig : AgentConfig α) with strategyType := "pulse" } ⟨0, 0, 0, 0, 0, 0, 0⟩).1.2
    ⟨by simp [defaultAgentConfig, knownDecision], by simp [defaultAgentConfig, knownGoal], by simp [defaultAgentConfig, knownResource], by simp [knownStrategy]⟩
  exact ⟨a, h, by rw [C157_named _ _ _ _ h]; simp⟩

end
end Verif
