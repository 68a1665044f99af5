import Verif.Spec.Config
import Verif.Props.GoalConfig
import Verif.Lemmas.F64
import Mathlib.Tactic.Linarith

/-!
# C25–C28: swarm configuration
-/

set_option autoImplicit false
set_option linter.unusedSectionVars false

namespace Verif
open Spec

/-- The few facts about numbers on which configuration repair relies; they hold for ℝ and for IEEE doubles. -/
class RepairFacts (α : Type) [Zero α] [One α] [LT α] [LE α] [OfScientific α] [GoMath α] : Prop where
  not_zero_lt_zero : ¬ (0 : α) < 0
  not_one_lt_zero : ¬ (1 : α) < 0
  not_one_lt_one : ¬ (1 : α) < 1
  not_one_lt_zero' : ¬ (1 : α) < 0
  not_hundred_le : ¬ (100.0 : α) ≤ 0
  not_pi_le : ¬ (GoMath.piMul 1 : α) ≤ 0

instance : RepairFacts ℝ where
  not_zero_lt_zero := by norm_num
  not_one_lt_zero := by norm_num
  not_one_lt_one := by norm_num
  not_one_lt_zero' := by norm_num
  not_hundred_le := by norm_num
  not_pi_le := by simp [Real.pi_pos]

theorem F64.hundred_eq [Rounding] [LibM] :
    (100.0 : F64) = F64.fin ⟨100, isDouble_ofNat 100 (by norm_num)⟩ := by
  have h : (100.0 : F64) = F64.ofReal (100.0 : ℝ) := rfl
  rw [h, show (100.0 : ℝ) = 100 by norm_num, F64.ofReal_of_isDouble]

theorem F64.pi_pos [Rounding] [LibM] : (0 : F64) < GoMath.piMul 1 := by
  have h : (GoMath.piMul 1 : F64) = F64.ofReal (((1 : ℚ) : ℝ) * Real.pi) := rfl
  obtain ⟨y, hd, hy, h1, h2⟩ := F64.ofReal_between (x := ((1 : ℚ) : ℝ) * Real.pi) isDouble_one
    (isDouble_ofNat 4 (by norm_num)) (by push_cast; linarith [Real.pi_gt_three]) (by push_cast; linarith [Real.pi_le_four])
  rw [h, hy, F64.zero_def, F64.lt_fin]; simp only; linarith

instance [Rounding] [LibM] : RepairFacts F64 where
  not_zero_lt_zero := by simp
  not_one_lt_zero := by simp
  not_one_lt_one := by simp
  not_one_lt_zero' := by simp
  not_hundred_le := by rw [F64.hundred_eq]; simp
  not_pi_le := by
    have h := F64.pi_pos
    generalize (GoMath.piMul 1 : F64) = x at *
    cases x <;> simp_all

section
variable {α : Type} [Zero α] [One α] [Add α] [Sub α] [Mul α] [Div α] [Neg α] [LT α] [LE α] [DecidableLT α]
  [DecidableLE α] [BEq α] [OfScientific α] [GoMath α]

theorem reject_eq_nil {b : Prop} [Decidable b] {f : String} : reject b f = [] ↔ ¬ b := by
  unfold reject; split_ifs with h <;> simp [h]

/-- Acceptance, parameter by parameter. -/
theorem validate_eq_nil (c : SwarmConfig α) (n : ℤ) : c.validate n = [] ↔
    (0 < n ∧ (c.maxSwarmSize ≤ 0 ∨ n ≤ c.maxSwarmSize)) ∧
    ((¬ c.connectionProbability < 0 ∧ ¬ 1 < c.connectionProbability) ∧
     (¬ c.couplingStrength < 0 ∧ ¬ 1 < c.couplingStrength) ∧
     (¬ c.stubbornness < 0 ∧ ¬ 1 < c.stubbornness) ∧
     (¬ c.basinStrength < 0 ∧ ¬ 1 < c.basinStrength) ∧
     (¬ c.baseConfidence < 0 ∧ ¬ 1 < c.baseConfidence) ∧
     (¬ c.influenceDefault < 0 ∧ ¬ 1 < c.influenceDefault)) ∧
    ((if n = 1 then c.maxNeighbors = 0 else 1 ≤ c.maxNeighbors ∧ c.maxNeighbors ≤ n - 1) ∧
     0 ≤ c.minNeighbors ∧ c.minNeighbors ≤ c.maxNeighbors) ∧
    (¬ c.initialEnergy ≤ 0 ∧ ¬ c.basinWidth ≤ 0 ∧ 0 < c.agentUpdateInterval ∧ 0 < c.monitoringInterval) ∧
    (0 ≤ c.maxConcurrentAgents ∧ 0 ≤ c.batchSize ∧ 0 ≤ c.workerPoolSize ∧ 0 ≤ c.connectionOptimThreshold) := by
  unfold SwarmConfig.validate
  simp only [List.append_eq_nil_iff, reject_eq_nil, not_or]
  have e : (if n > 0 ∧ n - 1 ≤ 0 then reject (c.maxNeighbors ≠ 0) "MaxNeighbors"
      else reject (c.maxNeighbors < 1) "MaxNeighbors") = [] ↔
      (if n > 0 ∧ n - 1 ≤ 0 then c.maxNeighbors = 0 else 1 ≤ c.maxNeighbors) := by
    split_ifs <;> rw [reject_eq_nil] <;> omega
  rw [e]
  constructor
  · rintro ⟨⟨⟨⟨⟨⟨⟨⟨⟨⟨⟨⟨⟨⟨⟨⟨⟨⟨⟨h1, h2⟩, h3⟩, h4⟩, h5⟩, h6⟩, h7⟩, h8⟩, h9⟩, h10⟩, h11⟩, h12⟩, h13⟩, h14⟩, h15⟩, h16⟩, h17⟩,
      h18⟩, h19⟩, h20⟩
    refine ⟨⟨by omega, by omega⟩, ⟨h3, h4, h5, h6, h7, h8⟩, ⟨?_, by omega, by omega⟩, ⟨h13, h14, by omega, by omega⟩,
      by omega, by omega, by omega, by omega⟩
    split_ifs at h9 ⊢ <;> omega
  · rintro ⟨⟨h1, h2⟩, ⟨h3, h4, h5, h6, h7, h8⟩, ⟨h9, h11, h12⟩, ⟨h13, h14, h15, h16⟩, h17, h18, h19, h20⟩
    refine ⟨⟨⟨⟨⟨⟨⟨⟨⟨⟨⟨⟨⟨⟨⟨⟨⟨⟨⟨by omega, by omega⟩, h3⟩, h4⟩, h5⟩, h6⟩, h7⟩, h8⟩, ?_⟩, ?_⟩, by omega⟩, by omega⟩, h13⟩, h14⟩,
      by omega⟩, by omega⟩, by omega⟩, by omega⟩, by omega⟩, by omega⟩ <;> split_ifs at h9 ⊢ <;> omega

theorem maxInt_ge_left (a b : ℤ) : a ≤ maxInt a b := by unfold maxInt; split_ifs <;> omega

/-- What `normalize` does to the neighbour bounds. -/
theorem normalizeNeighbor_spec (c : SwarmConfig α) (n : ℤ) :
    c.normalizeNeighborConstraints n =
      { c with
        maxNeighbors := if 0 < n then (if n = 1 then 0 else max 1 (min c.maxNeighbors (n - 1))) else max 1 c.maxNeighbors
        minNeighbors := if n = 1 then 0 else
          max 0 (min c.minNeighbors (if 0 < n then max 1 (min c.maxNeighbors (n - 1)) else max 1 c.maxNeighbors)) } := by
  unfold SwarmConfig.normalizeNeighborConstraints
  ext : 1 <;> dsimp only <;> split_ifs <;> omega

theorem clamp_fix {x : α} (h : ¬ x < 0 ∧ ¬ 1 < x) : clampProbability x = x := by
  unfold clampProbability; rw [if_neg h.1, if_neg h.2]

theorem clamp_ok [RepairFacts α] (x : α) : ¬ clampProbability x < 0 ∧ ¬ 1 < clampProbability x := by
  unfold clampProbability
  have h0 := RepairFacts.not_zero_lt_zero (α := α)
  have h1 := RepairFacts.not_one_lt_zero (α := α)
  have h2 := RepairFacts.not_one_lt_one (α := α)
  split_ifs with a b
  · exact ⟨h0, h1⟩
  · exact ⟨h1, h2⟩
  · exact ⟨a, b⟩

/-- After normalisation everything but the swarm size is in range. -/
theorem normalize_ok [RepairFacts α] (c : SwarmConfig α) (n : ℤ) :
    (c.normalize n).validate n = [] ↔ 0 < n ∧ (c.maxSwarmSize ≤ 0 ∨ n ≤ c.maxSwarmSize) := by
  rw [validate_eq_nil]
  refine ⟨fun h => ?_, fun h => ⟨?_, ?_, ?_, ?_, ?_⟩⟩
  · have h := h.1
    simpa [SwarmConfig.normalize, normalizeNeighbor_spec, SwarmConfig.normalizeProbabilities,
      SwarmConfig.normalizePositiveDefaults, SwarmConfig.normalizeConcurrencyParameters,
      SwarmConfig.autoCalculateBatchParameters] using h
  · simpa [SwarmConfig.normalize, normalizeNeighbor_spec, SwarmConfig.normalizeProbabilities,
      SwarmConfig.normalizePositiveDefaults, SwarmConfig.normalizeConcurrencyParameters,
      SwarmConfig.autoCalculateBatchParameters] using h
  · simp only [SwarmConfig.normalize, normalizeNeighbor_spec, SwarmConfig.normalizeProbabilities,
      SwarmConfig.normalizePositiveDefaults, SwarmConfig.normalizeConcurrencyParameters,
      SwarmConfig.autoCalculateBatchParameters]
    exact ⟨clamp_ok _, clamp_ok _, clamp_ok _, clamp_ok _, clamp_ok _, clamp_ok _⟩
  · obtain ⟨h, -⟩ := h
    simp only [SwarmConfig.normalize, normalizeNeighbor_spec, SwarmConfig.normalizeProbabilities,
      SwarmConfig.normalizePositiveDefaults, SwarmConfig.normalizeConcurrencyParameters,
      SwarmConfig.autoCalculateBatchParameters]
    split_ifs <;> omega
  · simp only [SwarmConfig.normalize, normalizeNeighbor_spec, SwarmConfig.normalizeProbabilities,
      SwarmConfig.normalizePositiveDefaults, SwarmConfig.normalizeConcurrencyParameters,
      SwarmConfig.autoCalculateBatchParameters]
    refine ⟨?_, ?_, ?_, ?_⟩
    · split_ifs with a
      · exact RepairFacts.not_hundred_le
      · exact a
    · split_ifs with a
      · exact RepairFacts.not_pi_le
      · exact a
    · simp only [millisecond]; split_ifs <;> omega
    · simp only [millisecond]; split_ifs <;> omega
  · simp only [SwarmConfig.normalize, normalizeNeighbor_spec, SwarmConfig.normalizeProbabilities,
      SwarmConfig.normalizePositiveDefaults, SwarmConfig.normalizeConcurrencyParameters,
      SwarmConfig.autoCalculateBatchParameters]
    have h1 := maxInt_ge_left 10 (n.tdiv 50)
    have h2 := maxInt_ge_left 4 (minInt 100 (n.tdiv 20))
    refine ⟨?_, ?_, ?_, ?_⟩ <;> split_ifs <;> omega

theorem normalizeAndValidate_snd (c : SwarmConfig α) (n : ℤ) : (c.normalizeAndValidate n).2 = c.normalize n := by
  unfold SwarmConfig.normalizeAndValidate; split_ifs <;> rfl

/-- Normalising an accepted configuration only fills in unset batch and worker sizes. -/
theorem normalize_of_valid (c : SwarmConfig α) (n : ℤ) (h : c.validate n = []) :
    c.normalize n = { c with
      batchSize := if c.useBatchProcessing = true ∧ c.batchSize = 0 then max 10 (n / 50) else c.batchSize
      workerPoolSize := if c.useBatchProcessing = true ∧ c.workerPoolSize = 0 then max 4 (min 100 (n / 20))
        else c.workerPoolSize } := by
  rw [validate_eq_nil] at h
  obtain ⟨⟨h1, h2⟩, ⟨h3, h4, h5, h6, h7, h8⟩, ⟨h9, h11, h12⟩, ⟨h13, h14, h15, h16⟩, h17, h18, h19, h20⟩ := h
  have e50 : n.tdiv 50 = n / 50 := Int.tdiv_eq_ediv_of_nonneg h1.le
  have e20 : n.tdiv 20 = n / 20 := Int.tdiv_eq_ediv_of_nonneg h1.le
  simp only [SwarmConfig.normalize, normalizeNeighbor_spec, SwarmConfig.normalizeProbabilities,
      SwarmConfig.normalizePositiveDefaults, SwarmConfig.normalizeConcurrencyParameters,
      SwarmConfig.autoCalculateBatchParameters, clamp_fix h3, clamp_fix h4, clamp_fix h5, clamp_fix h6, clamp_fix h7,
      clamp_fix h8, if_neg h13, if_neg h14, e50, e20]
  ext : 1 <;> dsimp only
  · split_ifs at h9 ⊢ <;> omega
  · split_ifs at h9 ⊢ <;> omega
  · split_ifs <;> omega
  · simp only [maxInt]; split_ifs <;> omega
  · simp only [maxInt, minInt]; split_ifs <;> omega
  · rw [if_neg (by omega)]
  · rw [if_neg (by omega)]
  · split_ifs <;> omega

end

/-! ## C25 Normalisation projects onto the valid configurations -/

/-- Normalisation fails exactly when the size is not positive or exceeds the allowed maximum, whatever the other
parameters are (including NaN and infinities). -/
theorem C25_fails_iff [Rounding] [LibM] (c : SwarmConfig F64) (n : ℤ) :
    (c.normalizeAndValidate n).1 ≠ [] ↔ n ≤ 0 ∨ (0 < c.maxSwarmSize ∧ c.maxSwarmSize < n) := by
  have h := normalize_ok c n
  have h' := validate_eq_nil c n
  unfold SwarmConfig.normalizeAndValidate
  split_ifs with hv
  · simp only [ne_eq, h]; omega
  · push Not at hv
    have := (h'.1 hv).1
    simp only [ne_eq, not_true_eq_false, false_iff]; omega

/-- The same over the reals. -/
theorem C25_fails_iff_real (c : SwarmConfig ℝ) (n : ℤ) :
    (c.normalizeAndValidate n).1 ≠ [] ↔ n ≤ 0 ∨ (0 < c.maxSwarmSize ∧ c.maxSwarmSize < n) := by
  have h := normalize_ok c n
  have h' := validate_eq_nil c n
  unfold SwarmConfig.normalizeAndValidate
  split_ifs with hv
  · simp only [ne_eq, h]; omega
  · push Not at hv
    have := (h'.1 hv).1
    simp only [ne_eq, not_true_eq_false, false_iff]; omega

/-- After success the configuration passes validation. -/
theorem C25_result_validates [Rounding] [LibM] (c : SwarmConfig F64) (n : ℤ)
    (h : (c.normalizeAndValidate n).1 = []) : (c.normalizeAndValidate n).2.validate n = [] := by
  have hf := C25_fails_iff c n
  rw [normalizeAndValidate_snd, normalize_ok]
  have : ¬ (n ≤ 0 ∨ (0 < c.maxSwarmSize ∧ c.maxSwarmSize < n)) := fun hh => (hf.2 hh) h
  omega

/-- A configuration that already passes is unchanged, except that unset batch and worker sizes are filled in when batch
processing is on. -/
theorem C25_valid_unchanged [Rounding] [LibM] (c : SwarmConfig F64) (n : ℤ) (h : c.validate n = []) :
    (c.normalizeAndValidate n).2 = { c with
      batchSize := if c.useBatchProcessing = true ∧ c.batchSize = 0 then max 10 (n / 50) else c.batchSize
      workerPoolSize := if c.useBatchProcessing = true ∧ c.workerPoolSize = 0 then max 4 (min 100 (n / 20))
        else c.workerPoolSize } := by
  rw [normalizeAndValidate_snd, normalize_of_valid c n h]

/-- Normalising twice equals normalising once, even for an inadmissible size. -/
theorem C25_idempotent [Rounding] [LibM] (c : SwarmConfig F64) (n : ℤ) :
    ((c.normalizeAndValidate n).2.normalizeAndValidate n).2 = (c.normalizeAndValidate n).2 := by
  simp only [normalizeAndValidate_snd]
  have h1 := maxInt_ge_left 10 (n.tdiv 50)
  have h2 := maxInt_ge_left 4 (minInt 100 (n.tdiv 20))
  simp only [SwarmConfig.normalize, normalizeNeighbor_spec, SwarmConfig.normalizeProbabilities,
      SwarmConfig.normalizePositiveDefaults, SwarmConfig.normalizeConcurrencyParameters,
      SwarmConfig.autoCalculateBatchParameters]
  have hc : ∀ x : F64, clampProbability (clampProbability x) = clampProbability x := fun x => clamp_fix (clamp_ok x)
  have he : ∀ x : F64, (if (if x ≤ 0 then (100.0 : F64) else x) ≤ 0 then (100.0 : F64)
      else (if x ≤ 0 then (100.0 : F64) else x)) = if x ≤ 0 then (100.0 : F64) else x := by
    intro x
    by_cases h : x ≤ 0
    · simp only [if_pos h, if_neg (RepairFacts.not_hundred_le (α := F64))]
    · simp only [if_neg h]
  have hp : ∀ x : F64, (if (if x ≤ 0 then (GoMath.piMul 1 : F64) else x) ≤ 0 then (GoMath.piMul 1 : F64)
      else (if x ≤ 0 then (GoMath.piMul 1 : F64) else x)) = if x ≤ 0 then (GoMath.piMul 1 : F64) else x := by
    intro x
    by_cases h : x ≤ 0
    · simp only [if_pos h, if_neg (RepairFacts.not_pi_le (α := F64))]
    · simp only [if_neg h]
  ext : 1 <;> dsimp only <;> first
    | exact hc _
    | exact he _
    | exact hp _
    | (simp only [millisecond]; split_ifs <;> omega)
    | (split_ifs <;> omega)

/-- Each repaired parameter in full: probabilities are clamped, neighbour bounds cut to what the size allows,
non-positive quantities replaced by their defaults, negative counts by zero; everything else is kept. -/
theorem C25_repairs (c : SwarmConfig ℝ) (n : ℤ) (hn : 2 ≤ n) :
    let d := (c.normalizeAndValidate n).2
    d.connectionProbability = max 0 (min 1 c.connectionProbability) ∧
    d.couplingStrength = max 0 (min 1 c.couplingStrength) ∧
    d.stubbornness = max 0 (min 1 c.stubbornness) ∧
    d.basinStrength = max 0 (min 1 c.basinStrength) ∧
    d.baseConfidence = max 0 (min 1 c.baseConfidence) ∧
    d.influenceDefault = max 0 (min 1 c.influenceDefault) ∧
    d.maxNeighbors = max 1 (min c.maxNeighbors (n - 1)) ∧
    d.minNeighbors = max 0 (min c.minNeighbors d.maxNeighbors) ∧
    (0 < c.initialEnergy → d.initialEnergy = c.initialEnergy) ∧ (c.initialEnergy ≤ 0 → d.initialEnergy = 100) ∧
    (0 < c.basinWidth → d.basinWidth = c.basinWidth) ∧ (c.basinWidth ≤ 0 → d.basinWidth = Real.pi) ∧
    d.maxConcurrentAgents = max 0 c.maxConcurrentAgents ∧
    d.connectionOptimThreshold = max 0 c.connectionOptimThreshold ∧
    d.assumedMaxNeighbors = c.assumedMaxNeighbors ∧ d.maxSwarmSize = c.maxSwarmSize ∧
    d.useBatchProcessing = c.useBatchProcessing ∧ d.enableConnectionOptim = c.enableConnectionOptim ∧
    d.autoScale = c.autoScale := by
  have hcl : ∀ x : ℝ, clampProbability x = max 0 (min 1 x) := by
    intro x
    unfold clampProbability
    split_ifs with h1 h2
    · rw [min_eq_right (by linarith), max_eq_left h1.le]
    · rw [min_eq_left h2.le, max_eq_right zero_le_one]
    · push Not at h1 h2; rw [min_eq_right h2, max_eq_right h1]
  dsimp only
  rw [normalizeAndValidate_snd]
  simp only [SwarmConfig.normalize, normalizeNeighbor_spec, SwarmConfig.normalizeProbabilities,
      SwarmConfig.normalizePositiveDefaults, SwarmConfig.normalizeConcurrencyParameters,
      SwarmConfig.autoCalculateBatchParameters, hcl]
  refine ⟨trivial, trivial, trivial, trivial, trivial, trivial, ?_, ?_, ?_, ?_, ?_, ?_, ?_, ?_, trivial, trivial, trivial, trivial, trivial⟩
  · split_ifs <;> omega
  · split_ifs <;> omega
  · intro h; rw [if_neg (not_le.2 h)]
  · intro h; rw [if_pos h]; norm_num
  · intro h; rw [if_neg (not_le.2 h)]
  · intro h; rw [if_pos h]; simp
  · split_ifs <;> omega
  · split_ifs <;> omega

/-- Non-trivial case: a broken configuration for 3 agents that is repaired, and one that cannot be. -/
example : let c : SwarmConfig ℝ := { (SwarmConfig.zero : SwarmConfig ℝ) with couplingStrength := 7, maxNeighbors := 9 }
    c.validate 3 ≠ [] ∧ (c.normalizeAndValidate 3).1 = [] ∧ (c.normalizeAndValidate 0).1 ≠ [] := by
  dsimp only
  refine ⟨?_, ?_, ?_⟩
  · rw [ne_eq, validate_eq_nil]; norm_num [SwarmConfig.zero]
  · by_contra h
    have := (C25_fails_iff_real _ _).1 h
    norm_num [SwarmConfig.zero] at this
  · rw [C25_fails_iff_real]; norm_num

/-! ## C27 Acceptance means every parameter is in range -/

/-- The claim: an accepted configuration has every parameter in its documented range. -/
def C27_claim [Rounding] [LibM] : Prop :=
  (∀ (c : SwarmConfig F64) (n : ℤ), c.validate n = [] → SwarmValid c n) ∧
  (∀ c : GoalConfig F64, c.validate = none → GoalValid c)

theorem F64.not_lt_iff [Rounding] [LibM] {a b : F64} (ha : GoMath.isNaN a = false) (hb : GoMath.isNaN b = false) :
    ¬ a < b ↔ b ≤ a := by
  cases a <;> cases b <;> simp_all

theorem F64.not_le_iff [Rounding] [LibM] {a b : F64} (ha : GoMath.isNaN a = false) (hb : GoMath.isNaN b = false) :
    ¬ a ≤ b ↔ b < a := by
  cases a <;> cases b <;> simp_all

/-- Without NaN, acceptance of a swarm configuration is exactly the documented ranges, in IEEE doubles. -/
theorem C27_swarm_validate_iff_partial [Rounding] [LibM] (c : SwarmConfig F64) (n : ℤ) (hc : SwarmNoNaN c) :
    c.validate n = [] ↔ SwarmValid c n := by
  simp only [SwarmNoNaN, List.mem_cons, List.not_mem_nil, or_false, forall_eq_or_imp, forall_eq] at hc
  obtain ⟨n1, n2, n3, n4, n5, n6, n7, n8⟩ := hc
  have h0 : GoMath.isNaN (0 : F64) = false := rfl
  have h1 : GoMath.isNaN (1 : F64) = false := rfl
  rw [validate_eq_nil]
  simp only [F64.not_lt_iff n1 h0, F64.not_lt_iff h1 n1, F64.not_lt_iff n2 h0, F64.not_lt_iff h1 n2,
    F64.not_lt_iff n3 h0, F64.not_lt_iff h1 n3, F64.not_lt_iff n5 h0, F64.not_lt_iff h1 n5, F64.not_lt_iff n7 h0,
    F64.not_lt_iff h1 n7, F64.not_lt_iff n8 h0, F64.not_lt_iff h1 n8, F64.not_le_iff n4 h0, F64.not_le_iff n6 h0]
  constructor
  · rintro ⟨⟨h1, h2⟩, ⟨h3, h4, h5, h6, h7, h8⟩, ⟨h9, h11, h12⟩, ⟨h13, h14, h15, h16⟩, h17, h18, h19, h20⟩
    exact ⟨h1, h2, h3, h4, h5, h6, h7, h8, h9, ⟨h11, h12⟩, h13, h14, h15, h16, h17, h18, h19, h20⟩
  · rintro ⟨h1, h2, h3, h4, h5, h6, h7, h8, h9, ⟨h11, h12⟩, h13, h14, h15, h16, h17, h18, h19, h20⟩
    exact ⟨⟨h1, h2⟩, ⟨h3, h4, h5, h6, h7, h8⟩, ⟨h9, h11, h12⟩, ⟨h13, h14, h15, h16⟩, h17, h18, h19, h20⟩

/-- Over the reals, acceptance of a swarm configuration is exactly the documented ranges. -/
theorem C27_swarm_validate_real (c : SwarmConfig ℝ) (n : ℤ) : c.validate n = [] ↔ SwarmValid c n := by
  rw [validate_eq_nil]
  simp only [not_lt, not_le]
  constructor
  · rintro ⟨⟨h1, h2⟩, ⟨h3, h4, h5, h6, h7, h8⟩, ⟨h9, h11, h12⟩, ⟨h13, h14, h15, h16⟩, h17, h18, h19, h20⟩
    exact ⟨h1, h2, h3, h4, h5, h6, h7, h8, h9, ⟨h11, h12⟩, h13, h14, h15, h16, h17, h18, h19, h20⟩
  · rintro ⟨h1, h2, h3, h4, h5, h6, h7, h8, h9, ⟨h11, h12⟩, h13, h14, h15, h16, h17, h18, h19, h20⟩
    exact ⟨⟨h1, h2⟩, ⟨h3, h4, h5, h6, h7, h8⟩, ⟨h9, h11, h12⟩, ⟨h13, h14, h15, h16⟩, h17, h18, h19, h20⟩

/-- Without NaN, acceptance of a goal configuration is exactly the documented ranges, in IEEE doubles. -/
theorem C27_goal_validate_iff_partial [Rounding] [LibM] (c : GoalConfig F64) (hc : GoalNoNaN c) :
    c.validate = none ↔ GoalValid c := by
  simp only [GoalNoNaN, List.mem_cons, List.not_mem_nil, or_false, forall_eq_or_imp, forall_eq] at hc
  obtain ⟨n1, n2, n3, n4, n5, n6, n7, n8, n9, n10⟩ := hc
  have h0 : GoMath.isNaN (0 : F64) = false := rfl
  have h1 : GoMath.isNaN (1 : F64) = false := rfl
  have htr : ∀ a b c : F64, a ≤ b → b ≤ c → a ≤ c := by
    intro a b c; cases a <;> cases b <;> cases c <;> simp; exact fun h h' => h.trans h'
  unfold GoalConfig.validate
  simp only [ite_some_eq_none, not_or, not_le, F64.not_lt_iff n1 h0, F64.not_lt_iff h1 n1, F64.not_lt_iff n2 h0,
    F64.not_lt_iff h1 n2, F64.not_lt_iff n4 n3, F64.not_lt_iff n5 n4, F64.not_lt_iff n6 h0, F64.not_lt_iff n7 h0,
    F64.not_lt_iff n7 n6, F64.not_lt_iff n8 h0, F64.not_lt_iff h1 n8, F64.not_lt_iff n9 h0, F64.not_lt_iff h1 n9,
    F64.not_lt_iff n10 h0, F64.not_lt_iff h1 n10]
  constructor
  · rintro ⟨h1, h2, h3, h4, h5, h6, h7, h8, h9, h10, h11, -⟩
    exact ⟨h1, h2, h3, h4, h5.1, h6, h7, h8, h9, h10, h11⟩
  · rintro ⟨h1, h2, h3, h4, h5, h6, h7, h8, h9, h10, h11⟩
    exact ⟨h1, h2, h3, h4, ⟨h5, htr _ _ _ h5 h6⟩, h6, h7, h8, h9, h10, h11, trivial⟩

/-- A NaN probability is accepted, and normalisation does not remove it. -/
theorem C27_nan_accepted [Rounding] [LibM] (c : SwarmConfig F64) (n : ℤ) (h : c.validate n = []) :
    ({ c with couplingStrength := F64.nan, initialEnergy := F64.nan }).validate n = [] ∧
    (({ c with couplingStrength := F64.nan }).normalizeAndValidate n).2.couplingStrength = F64.nan := by
  constructor
  · rw [validate_eq_nil] at h ⊢
    obtain ⟨hA, ⟨h3, h4, h5, h6, h7, h8⟩, hB, ⟨h13, h14, h15, h16⟩, hC⟩ := h
    exact ⟨hA, ⟨h3, ⟨F64.nan_lt _, F64.lt_nan _⟩, h5, h6, h7, h8⟩, hB, ⟨F64.nan_le _, h14, h15, h16⟩, hC⟩
  · rw [normalizeAndValidate_snd]
    simp only [SwarmConfig.normalize, normalizeNeighbor_spec, SwarmConfig.normalizeProbabilities,
      SwarmConfig.normalizePositiveDefaults, SwarmConfig.normalizeConcurrencyParameters,
      SwarmConfig.autoCalculateBatchParameters]
    exact clamp_fix ⟨F64.nan_lt _, F64.lt_nan _⟩

/-- The claim is false. -/
theorem C27_refuted [Rounding] [LibM] : ¬ C27_claim := by
  rintro ⟨h, -⟩
  have h0 : ((SwarmConfig.zero : SwarmConfig F64).normalize 1).validate 1 = [] := by
    rw [normalize_ok]; simp [SwarmConfig.zero]
  have := (h _ _ (C27_nan_accepted _ _ h0).1).coupling.1
  simp at this

/-! ## Numbers between 0 and 1 -/

/-- The facts about computed probabilities on which the predefined configurations rely. -/
class UnitFacts (α : Type) [Zero α] [One α] [Mul α] [Div α] [LT α] [LE α] [DecidableLT α] [OfScientific α] [GoMath α]
    extends RepairFacts α where
  in01 : α → Prop
  ok : ∀ x, in01 x → ¬ x < 0 ∧ ¬ 1 < x
  one : in01 1
  lit : ∀ m e, (OfScientific.ofScientific m true e : ℝ) ≤ 1 → in01 (OfScientific.ofScientific m true e)
  mul : ∀ x y, in01 x → in01 y → in01 (x * y)
  min_mul : ∀ x m e m' e', in01 x → (OfScientific.ofScientific m true e : ℝ) ≤ 1 →
    (OfScientific.ofScientific m' true e' : ℝ) ≤ 2 →
    in01 (minFloat (OfScientific.ofScientific m true e) (x * OfScientific.ofScientific m' true e'))
  ratio : ∀ n : ℤ, 100 < n → in01 ((100.0 : α) / GoMath.ofInt n)
  pi_pos : ∀ q : ℚ, 1 ≤ q → q ≤ 3 → ¬ (GoMath.piMul q : α) ≤ 0

theorem lit_nonneg (m e : ℕ) : (0 : ℝ) ≤ (OfScientific.ofScientific m true e : ℝ) := by
  rw [show (OfScientific.ofScientific m true e : ℝ) = ((OfScientific.ofScientific m true e : ℚ) : ℝ) from rfl]
  have : (0 : ℚ) ≤ (OfScientific.ofScientific m true e : ℚ) := by
    rw [Rat.ofScientific_def_eq_if]; simp; positivity
  exact_mod_cast this

noncomputable instance : UnitFacts ℝ where
  in01 x := 0 ≤ x ∧ x ≤ 1
  ok x h := ⟨not_lt.2 h.1, not_lt.2 h.2⟩
  one := by norm_num
  lit m e h := ⟨lit_nonneg m e, h⟩
  mul x y hx hy := ⟨mul_nonneg hx.1 hy.1, mul_le_one₀ hx.2 hy.1 hy.2⟩
  min_mul x m e m' e' hx h1 h2 := by
    have a := lit_nonneg m e
    have b := lit_nonneg m' e'
    unfold minFloat
    split_ifs with h
    · exact ⟨a, h1⟩
    · exact ⟨mul_nonneg hx.1 b, by linarith⟩
  ratio n hn := by
    have : (100 : ℝ) < n := by exact_mod_cast hn
    simp only [GoMath.ofInt_real]
    constructor
    · positivity
    · rw [div_le_one (by linarith)]; linarith
  pi_pos q h1 h2 := by
    have : (1 : ℝ) ≤ q := by exact_mod_cast h1
    simp only [GoMath.piMul_real, not_le]; have := Real.pi_pos; positivity

/-- For C25 and C27: the repaired zero configuration is valid for one agent, and stays accepted with a coupling strength that is not a number. -/
example [Rounding] [LibM] : let c := ((SwarmConfig.zero : SwarmConfig F64).normalize 1)
    c.validate 1 = [] ∧ ({ c with couplingStrength := F64.nan, initialEnergy := F64.nan } : SwarmConfig F64).validate 1 = [] := by
  intro c
  have h : c.validate 1 = [] := by
    simp only [c]; rw [normalize_ok]; simp [SwarmConfig.zero]
  exact ⟨h, (C27_nan_accepted c 1 h).1⟩

/-- For C25: a coupling strength of 7 becomes 1 and a stubbornness of −2 becomes 0. -/
example : let d := (({ (SwarmConfig.zero : SwarmConfig ℝ) with couplingStrength := 7, stubbornness := -2 } : SwarmConfig ℝ).normalizeAndValidate 30).2
    d.couplingStrength = 1 ∧ d.stubbornness = 0 := by
  intro d
  have h := C25_repairs { (SwarmConfig.zero : SwarmConfig ℝ) with couplingStrength := 7, stubbornness := -2 } 30 (by norm_num)
  refine ⟨h.2.1.trans (by norm_num), h.2.2.1.trans (by norm_num)⟩

end Verif
