import Verif.Props.GoalConfig
import Verif.Props.Gauges

/-!
# C117: what tuning for a trait, and for a size, does to a configuration
-/

set_option autoImplicit false
set_option linter.unusedSectionVars false

namespace Verif
open GoMath Spec

namespace Spec

/-- The parameters of a configuration. -/
inductive Knob where
  | tolSmall | tolMedium | tolLarge | goal | pattern | scale | variance | high | veryHigh | moderate | varMin | varMax | factor | walk | pertSize | pertChance
  | iterations | interval | bonus | window | exploration | noise | affected | activation
  deriving DecidableEq

/-- The value of a parameter; durations in nanoseconds. -/
def knob (c : GoalConfig ℝ) : Knob → ℝ
  | .tolSmall => c.toleranceSmall
  | .tolMedium => c.toleranceMedium
  | .tolLarge => c.toleranceLarge
  | .goal => c.phaseConvergenceGoal
  | .pattern => c.patternDistanceThreshold
  | .scale => c.baseAdjustmentScale
  | .variance => c.phaseVariance
  | .high => c.highCoherence
  | .veryHigh => c.veryHighCoherence
  | .moderate => c.moderateCoherence
  | .varMin => c.variationMin
  | .varMax => c.variationMax
  | .factor => c.coherenceFactor
  | .walk => c.randomWalkMagnitude
  | .pertSize => c.perturbationMagnitude
  | .pertChance => c.perturbationChance
  | .iterations => c.maxIterationsFactor
  | .interval => c.updateInterval
  | .bonus => c.explorationBonusMax
  | .window => c.explorationTimeWindow
  | .exploration => c.randomExploration
  | .noise => c.noiseMagnitude
  | .affected => c.affectedAgents
  | .activation => c.activationRate

/-- Rises, by at most the double. -/
def Rises (x y : ℝ) : Prop := x < y ∧ y ≤ 2 * x

/-- Falls, by at most the half; `g` is what may be lost in addition because values are whole multiples of it. -/
def Falls (g x y : ℝ) : Prop := y < x ∧ x ≤ 2 * y + g

/-- Durations are whole nanoseconds. -/
def grain : Knob → ℝ
  | .interval => 1
  | _ => 0

/-- What each trait is meant to raise: stability (0), speed (1), efficiency (2), throughput (3), resilience (4), precision (5). -/
def raised : ℤ → List Knob
  | 0 => [.varMin, .varMax, .interval]
  | 1 => [.scale, .tolSmall, .tolMedium, .tolLarge]
  | 2 => [.interval]
  | 3 => [.scale, .exploration]
  | 4 => [.varMin, .varMax, .noise, .affected, .activation]
  | 5 => [.goal]
  | _ => []

/-- What each trait is meant to lower. -/
def lowered : ℤ → List Knob
  | 0 => [.scale, .pertSize, .noise]
  | 1 => [.interval, .iterations]
  | 2 => [.pertChance, .affected, .bonus]
  | 3 => [.interval]
  | 5 => [.tolSmall, .tolMedium, .tolLarge, .pattern]
  | _ => []

/-- Configurations with room for tuning. -/
structure Tunable (c : GoalConfig ℝ) : Prop where
  pos : ∀ k, 0 < knob c k
  scale : c.baseAdjustmentScale < 1
  goal : c.phaseConvergenceGoal < 0.98
  interval : 20 * millisecond ≤ c.updateInterval

end Spec

theorem trait_cases (t : ℤ) : t = 0 ∨ t = 1 ∨ t = 2 ∨ t = 3 ∨ t = 4 ∨ t = 5 ∨ (t < 0 ∨ 5 < t) := by omega

theorem tuneFor_other (c : GoalConfig ℝ) {t : ℤ} (h : t < 0 ∨ 5 < t) : c.tuneFor t = c ∧ raised t = [] ∧ lowered t = [] := by
  refine ⟨?_, ?_, ?_⟩
  · unfold GoalConfig.tuneFor; split <;> first | omega | rfl
  · unfold raised; split <;> first | omega | rfl
  · unfold lowered; split <;> first | omega | rfl

theorem scale_up (d : ℤ) (h : 20 * millisecond ≤ d) (f : ℝ) (h1 : 1.5 ≤ f) (h2 : f ≤ 2) : Rises (d : ℝ) (scaleDuration d f : ℝ) := by
  rw [scaleDuration_real]
  have hd : (20000000 : ℝ) ≤ d := by exact_mod_cast h
  norm_num at h1
  have h3 : (d : ℝ) * (3 / 2) ≤ d * f := mul_le_mul_of_nonneg_left h1 (by linarith)
  have h4 : (d : ℝ) * f ≤ d * 2 := mul_le_mul_of_nonneg_left h2 (by linarith)
  rw [rtrunc_floor _ (by linarith)]
  have h5 := Int.floor_le ((d : ℝ) * f)
  have h6 := Int.lt_floor_add_one ((d : ℝ) * f)
  exact ⟨by linarith, by linarith⟩

theorem scale_down (d : ℤ) (h : 20 * millisecond ≤ d) (f : ℝ) (h1 : 0.5 ≤ f) (h2 : f ≤ 0.7) : Falls 1 (d : ℝ) (scaleDuration d f : ℝ) := by
  rw [scaleDuration_real]
  have hd : (20000000 : ℝ) ≤ d := by exact_mod_cast h
  norm_num at h1 h2
  have h3 : (d : ℝ) * (1 / 2) ≤ d * f := mul_le_mul_of_nonneg_left h1 (by linarith)
  have h4 : (d : ℝ) * f ≤ d * (7 / 10) := mul_le_mul_of_nonneg_left h2 (by linarith)
  rw [rtrunc_floor _ (by linarith)]
  have h5 := Int.floor_le ((d : ℝ) * f)
  have h7 : ⌊(d : ℝ) * (1 / 2)⌋ ≤ ⌊(d : ℝ) * f⌋ := Int.floor_le_floor h3
  have h8 : d ≤ 2 * ⌊(d : ℝ) * (1 / 2)⌋ + 1 := by
    have := Int.lt_floor_add_one ((d : ℝ) * (1 / 2))
    have h9 : (d : ℝ) < 2 * ⌊(d : ℝ) * (1 / 2)⌋ + 2 := by linarith
    have : d < 2 * ⌊(d : ℝ) * (1 / 2)⌋ + 2 := by exact_mod_cast h9
    omega
  have h10 : (d : ℝ) ≤ 2 * ⌊(d : ℝ) * (1 / 2)⌋ + 1 := by exact_mod_cast h8
  have h11 : (⌊(d : ℝ) * (1 / 2)⌋ : ℝ) ≤ ⌊(d : ℝ) * f⌋ := by exact_mod_cast h7
  exact ⟨by linarith, by linarith⟩

theorem mul_up {x f : ℝ} (hx : 0 < x) (h1 : 1 < f) (h2 : f ≤ 2) : Rises x (x * f) := ⟨by nlinarith, by nlinarith⟩

theorem mul_down {x f : ℝ} (hx : 0 < x) (h1 : 1 / 2 ≤ f) (h2 : f < 1) : Falls 0 x (x * f) := ⟨by nlinarith, by nlinarith⟩

theorem min_up {x f m : ℝ} (hx : 0 < x) (h1 : 1 < f) (h2 : f ≤ 2) (hm : x < m) : Rises x (minFloat m (x * f)) := by
  unfold minFloat
  split_ifs with h
  · exact ⟨hm, by nlinarith⟩
  · exact mul_up hx h1 h2

/-- **C117** Tuning a configuration for a trait raises and lowers the parameters that belong to the trait, by at most a factor of two, and leaves all others alone. -/
theorem C117_levers (c : GoalConfig ℝ) (h : Tunable c) (t : ℤ) (k : Knob) :
    (k ∈ raised t → Rises (knob c k) (knob (c.tuneFor t) k)) ∧ (k ∈ lowered t → Falls (grain k) (knob c k) (knob (c.tuneFor t) k)) ∧
      (k ∉ raised t → k ∉ lowered t → knob (c.tuneFor t) k = knob c k) := by
  have hp := h.pos k
  have e3 := h.scale
  have e4 := h.goal
  have u := fun f h1 h2 => scale_up c.updateInterval h.interval f h1 h2
  have d := fun f h1 h2 => scale_down c.updateInterval h.interval f h1 h2
  rcases trait_cases t with rfl | rfl | rfl | rfl | rfl | rfl | ht
  pick_goal 7
  · obtain ⟨h1, h2, h3⟩ := tuneFor_other c ht
    rw [h1, h2, h3]; simp
  all_goals
    cases k <;> simp only [raised, lowered, List.mem_cons, List.not_mem_nil, or_false, or_self, or_true, reduceCtorEq, not_true_eq_false, not_false_eq_true,
      true_implies, false_implies, and_true, true_and, knob, GoalConfig.tuneFor, grain] at hp ⊢ <;>
    first
      | exact mul_up hp (by norm_num) (by norm_num)
      | exact mul_down hp (by norm_num) (by norm_num)
      | exact u _ (by norm_num) (by norm_num)
      | exact d _ (by norm_num) (by norm_num)
      | exact min_up hp (by norm_num) (by norm_num) h.scale
      | exact min_up hp (by norm_num) (by norm_num) h.goal

theorem goal_number_cases (g : ℤ) : g = 0 ∨ g = 1 ∨ g = 2 ∨ g = 3 ∨ g = 4 ∨ g = 5 ∨ g = 6 ∨ g = 7 ∨ (g < 0 ∨ 7 < g) := by omega

theorem configFor_other {g : ℤ} (h : g < 0 ∨ 7 < g) : (configFor g : GoalConfig ℝ) = defaultConfig := by
  unfold configFor; split <;> first | omega | rfl

/-- **C117** This applies to the presets of all goals. -/
theorem C117_presets (g : ℤ) : Tunable (configFor g : GoalConfig ℝ) ∧ millisecond ∣ (configFor g : GoalConfig ℝ).updateInterval := by
  rcases goal_number_cases g with rfl | rfl | rfl | rfl | rfl | rfl | rfl | rfl | hg
  pick_goal 9
  · rw [configFor_other hg]
    refine ⟨⟨?_, ?_, ?_, ?_⟩, ?_⟩
    · intro k; cases k <;> norm_num [knob, defaultConfig, millisecond, second]
    all_goals norm_num [defaultConfig, millisecond, second]
  all_goals
    refine ⟨⟨?_, ?_, ?_, ?_⟩, ?_⟩
    · intro k; cases k <;> norm_num [knob, configFor, minAPIConfig, distLoadConfig, consensusConfig, latencyConfig, energyConfig, rhythmConfig, recoveryConfig,
        trafficConfig, millisecond, second]
    all_goals norm_num [configFor, minAPIConfig, distLoadConfig, consensusConfig, latencyConfig, energyConfig, rhythmConfig, recoveryConfig,
        trafficConfig, millisecond, second]

/-- "Make adjustments gentler and more predictable" (emerge/swarm/config.go:393): tuning for stability raises none of the parameters that stand for randomness. -/
def C117_claim : Prop := ∀ (g : ℤ) (k : Knob), k ∈ [Knob.varMin, .varMax, .walk, .pertSize, .pertChance, .exploration, .noise] →
  knob ((configFor g : GoalConfig ℝ).tuneFor 0) k ≤ knob (configFor g) k

/-- **C117** False: the range of the random variation is raised, for every goal. -/
theorem C117_stability (g : ℤ) : knob (configFor g) .varMin < knob ((configFor g : GoalConfig ℝ).tuneFor 0) .varMin ∧
    knob (configFor g) .varMax < knob ((configFor g : GoalConfig ℝ).tuneFor 0) .varMax :=
  ⟨((C117_levers _ (C117_presets g).1 0 .varMin).1 (by simp [raised])).1, ((C117_levers _ (C117_presets g).1 0 .varMax).1 (by simp [raised])).1⟩

/-- Tuning goal 0 for stability raises the lower end of the variation. -/
theorem C117_refuted : ¬ C117_claim := fun h => absurd (h 0 .varMin (by simp)) (not_le.2 (C117_stability 0).1)

/-- Tuning for precision never lowers the demanded convergence of an accepted configuration. -/
def C117_precision_claim : Prop := ∀ c : GoalConfig ℝ, c.validate = none → c.phaseConvergenceGoal ≤ (c.tuneFor 5).phaseConvergenceGoal

/-- **C117** Precision raises the demanded convergence exactly below 0.98; above, it lowers it to 0.98. -/
theorem C117_precision_partial (c : GoalConfig ℝ) (h : 0 < c.phaseConvergenceGoal) :
    (c.phaseConvergenceGoal < (c.tuneFor 5).phaseConvergenceGoal ↔ c.phaseConvergenceGoal < 0.98) ∧
      (0.98 < c.phaseConvergenceGoal → (c.tuneFor 5).phaseConvergenceGoal = 0.98) := by
  have e : (c.tuneFor 5).phaseConvergenceGoal = minFloat 0.98 (c.phaseConvergenceGoal * 1.1) := rfl
  have h11 : c.phaseConvergenceGoal < c.phaseConvergenceGoal * 1.1 := by norm_num; linarith
  rw [e]
  unfold minFloat
  constructor
  · split_ifs with hh
    · rfl
    · exact ⟨fun _ => h11.trans_le (not_lt.1 hh), fun _ => h11⟩
  · intro hc
    rw [if_pos (hc.trans h11)]

/-- A demanded convergence of 1 is lowered to 0.98. -/
theorem C117_precision_refuted : ¬ C117_precision_claim := by
  intro h
  have h1 := h { defaultConfig with phaseConvergenceGoal := 1 } (by
    rw [C27_goal_validate_real]
    refine ⟨?_, ?_, ?_, ?_, ?_, ?_, ?_, ?_, ?_, ?_, ?_⟩ <;> simp only [defaultConfig, Unit01, millisecond, second] <;> norm_num)
  have h2 := (C117_precision_partial { defaultConfig with phaseConvergenceGoal := 1 } one_pos).2 (by norm_num)
  rw [h2] at h1
  norm_num at h1

/-- The tolerances and the range of random variation. -/
def Spec.spreadKnobs : List Knob := [.tolSmall, .tolMedium, .tolLarge, .varMin, .varMax]

/-- **C117** A larger swarm is never updated more often, nor given fewer iterations, nor is a larger part of it disturbed. -/
theorem C117_size (c : GoalConfig ℝ) (h : Tunable c) (hm : millisecond ∣ c.updateInterval) (n m : ℤ) (hnm : n ≤ m) :
    knob (c.withSize n) .interval ≤ knob (c.withSize m) .interval ∧ knob (c.withSize n) .iterations ≤ knob (c.withSize m) .iterations ∧
    knob (c.withSize m) .affected ≤ knob (c.withSize n) .affected := by
  obtain ⟨q, hq⟩ := hm
  have hi := h.interval
  have h20 : 20 ≤ q := by rw [hq] at hi; unfold millisecond at hi; omega
  have hdiv : c.updateInterval.tdiv millisecond = q := by rw [hq]; exact Int.mul_tdiv_cancel_left _ (by decide)
  have p1 := h.pos .iterations
  simp only [knob] at p1
  refine ⟨?_, ?_, ?_⟩
  · simp only [knob]
    have : (c.withSize n).updateInterval ≤ (c.withSize m).updateInterval := by
      unfold GoalConfig.withSize
      split_ifs <;> (try simp only [hdiv, minInt, maxInt]) <;> rw [hq] at hi <;> (try rw [hq]) <;> unfold millisecond at hi ⊢ <;> omega
    exact_mod_cast this
  · unfold GoalConfig.withSize
    split_ifs <;> simp only [knob] <;> first | omega | exact le_rfl | (norm_num; done) | (norm_num; linarith)
  · unfold GoalConfig.withSize
    split_ifs <;> simp only [knob] <;> first | omega | exact le_rfl | (unfold minFloat; split_ifs <;> linarith)

/-- **C117** Beyond 50 agents the tolerances and the variation do not shrink either. -/
theorem C117_size_spread (c : GoalConfig ℝ) (h : Tunable c) (n m : ℤ) (hn : 50 < n) (hnm : n ≤ m) (k : Knob) (hk : k ∈ spreadKnobs) :
    knob (c.withSize n) k ≤ knob (c.withSize m) k := by
  have p := h.pos k
  simp only [spreadKnobs, List.mem_cons, List.not_mem_nil, or_false] at hk
  have a1 : ¬ n ≤ 20 := by omega
  have a2 : ¬ n ≤ 50 := by omega
  have b1 : ¬ m ≤ 20 := by omega
  have b2 : ¬ m ≤ 50 := by omega
  unfold GoalConfig.withSize
  simp only [if_neg a1, if_neg a2, if_neg b1, if_neg b2]
  rcases hk with rfl | rfl | rfl | rfl | rfl <;> simp only [knob] at p ⊢ <;> split_ifs <;>
    first | omega | exact le_rfl | (norm_num; linarith)

/-- **C117** Nothing else depends on the size. -/
theorem C117_size_rest (c : GoalConfig ℝ) (n : ℤ) (k : Knob) (h1 : k ∉ spreadKnobs) (h2 : k ≠ .interval) (h3 : k ≠ .iterations) (h4 : k ≠ .affected) :
    knob (c.withSize n) k = knob c k := by
  unfold GoalConfig.withSize
  cases k <;> first | (exfalso; apply h1; decide) | (exact absurd rfl h2) | (exact absurd rfl h3) | (exact absurd rfl h4) | (split_ifs <;> rfl)

/-- "Large swarms need more tolerance" (emerge/swarm/config.go:467): tolerances do not shrink with the size. -/
def C117_size_claim : Prop := ∀ (g n m : ℤ), n ≤ m → knob ((configFor g : GoalConfig ℝ).withSize n) .tolSmall ≤ knob ((configFor g : GoalConfig ℝ).withSize m) .tolSmall

/-- **C117** False: up to 50 agents the tolerances are replaced by fixed ones, which are larger than most. -/
theorem C117_size_refuted : ¬ C117_size_claim := by
  intro h
  have := h 0 20 100 (by norm_num)
  norm_num [GoalConfig.withSize, knob, configFor, minAPIConfig] at this

/-- Parameters that are small in a strict configuration. -/
def Spec.looseKnobs : List Knob := [.tolSmall, .tolMedium, .tolLarge, .pattern, .variance, .varMin, .varMax, .factor, .walk, .pertSize, .pertChance, .noise, .affected, .activation]

/-- **C117** Consensus (2) is the strictest and traffic (7) the loosest of the presets; latency (3) has the shortest and energy (4) the longest interval, with the
strongest and the weakest adjustments; load distribution (1) asks for the least convergence. -/
theorem C117_extremes (g : ℤ) :
    (g ≠ 2 → (∀ k ∈ looseKnobs, knob (configFor 2) k < knob (configFor g) k) ∧ knob (configFor g) .goal < knob (configFor 2) .goal) ∧
    (g ≠ 7 → ∀ k ∈ looseKnobs, knob (configFor g) k < knob (configFor 7) k) ∧
    (g ≠ 3 → knob (configFor 3) .interval < knob (configFor g) .interval ∧ knob (configFor g) .scale < knob (configFor 3) .scale ∧
      knob (configFor 3) .iterations < knob (configFor g) .iterations) ∧
    (g ≠ 4 → knob (configFor g) .interval < knob (configFor 4) .interval ∧ knob (configFor 4) .scale < knob (configFor g) .scale) ∧
    (g ≠ 1 → knob (configFor 1) .goal < knob (configFor g) .goal) := by
  rcases goal_number_cases g with rfl | rfl | rfl | rfl | rfl | rfl | rfl | rfl | hg
  pick_goal 9
  · rw [configFor_other hg]
    refine ⟨fun _ => ⟨?_, ?_⟩, fun _ => ?_, fun _ => ⟨?_, ?_, ?_⟩, fun _ => ⟨?_, ?_⟩, fun _ => ?_⟩ <;>
    norm_num [looseKnobs, knob, configFor, defaultConfig, minAPIConfig, distLoadConfig, consensusConfig, latencyConfig, energyConfig, rhythmConfig, recoveryConfig,
        trafficConfig, millisecond, second]
  all_goals
    refine ⟨fun h => ⟨?_, ?_⟩, fun h => ?_, fun h => ⟨?_, ?_, ?_⟩, fun h => ⟨?_, ?_⟩, fun h => ?_⟩ <;> first | exact absurd rfl h |
    norm_num [looseKnobs, knob, configFor, defaultConfig, minAPIConfig, distLoadConfig, consensusConfig, latencyConfig, energyConfig, rhythmConfig, recoveryConfig,
        trafficConfig, millisecond, second]

/-- Tuning the preset for API calls for speed raises the scale and lowers the interval. -/
example : knob (configFor 0) .scale < knob ((configFor 0 : GoalConfig ℝ).tuneFor 1) .scale ∧ knob ((configFor 0 : GoalConfig ℝ).tuneFor 1) .interval < knob (configFor 0) .interval :=
  ⟨((C117_levers _ (C117_presets 0).1 1 .scale).1 (by simp [raised])).1, ((C117_levers _ (C117_presets 0).1 1 .interval).2.1 (by simp [lowered])).1⟩

/-- A swarm of 1500 agents against one of 60. -/
example : knob ((configFor 0 : GoalConfig ℝ).withSize 60) .tolSmall ≤ knob ((configFor 0 : GoalConfig ℝ).withSize 1500) .tolSmall :=
  C117_size_spread _ (C117_presets 0).1 60 1500 (by norm_num) (by norm_num) _ (by simp [spreadKnobs])

end Verif
