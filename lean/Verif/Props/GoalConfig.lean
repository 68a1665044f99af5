import Verif.Spec.Config
import Verif.Lemmas.F64
import Mathlib.Tactic.IntervalCases
import Mathlib.Tactic.Linarith

/-!
# C23, C24 (and the goal part of C27): goal configuration presets
-/

set_option autoImplicit false

namespace Verif
open Spec

/-! ## Acceptance is the documented range -/

theorem ite_some_eq_none {β : Type} {p : Prop} [Decidable p] {a : β} {b : Option β} :
    (if p then some a else b) = none ↔ ¬ p ∧ b = none := by
  split_ifs with h <;> simp [h]

/-- Over the reals, a goal configuration is accepted exactly when all parameters are in their documented ranges. -/
theorem C27_goal_validate_real (c : GoalConfig ℝ) : c.validate = none ↔ GoalValid c := by
  unfold GoalConfig.validate
  simp only [ite_some_eq_none, not_or, not_lt, not_le]
  constructor
  · rintro ⟨h1, h2, h3, h4, h5, h6, h7, h8, h9, h10, h11, -⟩
    exact ⟨h1, h2, h3, h4, h5.1, h6, h7, h8, h9, h10, h11⟩
  · rintro ⟨h1, h2, h3, h4, h5, h6, h7, h8, h9, h10, h11⟩
    exact ⟨h1, h2, h3, h4, ⟨h5, h5.trans h6⟩, h6, h7, h8, h9, h10, h11, trivial⟩

/-! ## C23 Presets validate at every size -/

/-- Every preset is valid, and its update interval is at least 25 ms. -/
theorem C23_preset_valid (g : GoalType) :
    GoalValid (configFor g : GoalConfig ℝ) ∧ 25 * millisecond ≤ (configFor g : GoalConfig ℝ).updateInterval := by
  unfold configFor
  split <;> refine ⟨⟨?_, ?_, ?_, ?_, ?_, ?_, ?_, ?_, ?_, ?_, ?_⟩, ?_⟩ <;>
    simp only [minAPIConfig, distLoadConfig, consensusConfig, latencyConfig, energyConfig, rhythmConfig,
      recoveryConfig, trafficConfig, defaultConfig, Unit01, millisecond, second] <;> norm_num

/-- Fitting a valid configuration to a swarm size keeps it valid exactly when the size is outside 21..50 or the update
interval is at least one millisecond. -/
theorem C23_withSize_valid_iff (c : GoalConfig ℝ) (hc : GoalValid c) (n : ℤ) :
    GoalValid (c.withSize n) ↔ (20 < n → n ≤ 50 → millisecond ≤ c.updateInterval) := by
  have hm : (0 : ℤ) ≤ c.updateInterval := hc.interval_pos.le
  have hd : c.updateInterval.tdiv millisecond = c.updateInterval / 1000000 := Int.tdiv_eq_ediv_of_nonneg hm
  obtain ⟨h1, h2, h3, h4, h5, h6, h7, h8, h9, h10, h11⟩ := hc
  have h12 := h5.trans h6
  unfold GoalConfig.withSize
  split_ifs with a1 a2 a3 a4
  · refine ⟨fun _ h => by omega, fun _ => ⟨h1, h2, h3, h4, ?_, ?_, h7, ?_, h9, h10, h11⟩⟩ <;> norm_num
  · rw [hd]
    constructor
    · intro h _ _
      have := h.interval_pos
      simp only [minInt, millisecond] at this ⊢
      split_ifs at this <;> omega
    · intro h
      have h := h (by omega) a2
      refine ⟨h1, h2, h3, h4, ?_, ?_, h7, ?_, h9, h10, h11⟩
      · dsimp only; linarith
      · dsimp only; linarith
      · simp only [minInt, millisecond] at h ⊢; split_ifs <;> omega
  · exact ⟨fun _ _ h => by omega, fun _ => ⟨h1, h2, h3, h4, h5, h6, h7, h8, h9, h10, h11⟩⟩
  · rw [hd]
    refine ⟨fun _ _ h => by omega, fun _ => ⟨h1, h2, h3, h4, ?_, ?_, h7, ?_, h9, h10, h11⟩⟩
    · dsimp only; linarith
    · dsimp only; linarith
    · simp only [maxInt, millisecond]; split_ifs <;> omega
  · rw [hd]
    refine ⟨fun _ _ h => by omega, fun _ => ⟨h1, h2, h3, h4, ?_, ?_, h7, ?_, h9, ?_, h11⟩⟩
    · dsimp only; linarith
    · dsimp only; linarith
    · simp only [maxInt, millisecond]; split_ifs <;> omega
    · obtain ⟨u, v⟩ := h10
      simp only [minFloat, Unit01]
      split_ifs with h
      · norm_num
      · exact ⟨u, v⟩

/-- **C23.** The preset for any goal, fitted to any swarm size, passes its own validation. -/
theorem C23_preset_withSize (g : GoalType) (n : ℤ) : ((configFor g : GoalConfig ℝ).withSize n).validate = none := by
  rw [C27_goal_validate_real]
  obtain ⟨h, hi⟩ := C23_preset_valid g
  rw [C23_withSize_valid_iff _ h]
  simp only [millisecond] at hi ⊢
  omega

/-- What a size means for the tolerances of an accepted configuration: they stay positive if they were. -/
theorem C23_tolerances_positive (c : GoalConfig ℝ) (n : ℤ) (h1 : 0 < c.toleranceSmall) (h2 : 0 < c.toleranceMedium)
    (h3 : 0 < c.toleranceLarge) :
    0 < (c.withSize n).toleranceSmall ∧ 0 < (c.withSize n).toleranceMedium ∧ 0 < (c.withSize n).toleranceLarge := by
  unfold GoalConfig.withSize
  split_ifs <;> refine ⟨?_, ?_, ?_⟩ <;> first | assumption | positivity

/-- Non-trivial case: the latency preset for 30 agents has a 25 ms interval and a narrower variation range. -/
example : ((configFor 3 : GoalConfig ℝ).withSize 30).updateInterval = 25000000 ∧
    ((configFor 3 : GoalConfig ℝ).withSize 30).variationMax = 0.2 * 0.9 := by
  constructor
  · simp [configFor, latencyConfig, GoalConfig.withSize, minInt, millisecond]
  · simp only [configFor, latencyConfig, GoalConfig.withSize]; norm_num

/-- A valid configuration that a size of 30 makes invalid: an update interval below a millisecond is truncated to 0. -/
example : GoalValid { (configFor 0 : GoalConfig ℝ) with updateInterval := 999999 } ∧
    ({ (configFor 0 : GoalConfig ℝ) with updateInterval := 999999 }.withSize 30).validate = some "UpdateInterval" := by
  have h := (C23_preset_valid 0).1
  refine ⟨⟨h.1, h.2, h.3, h.4, h.5, h.6, h.7, by norm_num, h.9, h.10, h.11⟩, ?_⟩
  simp only [configFor, minAPIConfig, GoalConfig.withSize, GoalConfig.validate]
  norm_num [minInt, millisecond, Int.tdiv]

/-! ## C24 Trait tuning -/

theorem scaleDuration_real (d : ℤ) (f : ℝ) : scaleDuration d f = rtrunc (d * f) := rfl

theorem rtrunc_pos_iff {x : ℝ} : 0 < rtrunc x ↔ 1 ≤ x := by
  unfold rtrunc
  split_ifs with h
  · rw [Int.floor_pos]
  · have := h
    push Not at h
    refine ⟨fun h2 => absurd h2 (not_lt.2 (Int.ceil_le.2 (by push_cast; linarith))), fun h2 => by linarith⟩

/-- Exactly which valid configurations stay valid under tuning for each trait: stability, efficiency, precision (and
unknown traits) always; speed and throughput need an interval of at least 2 ns; throughput needs an adjustment scale of
at most 5/6; resilience needs at most 2/3 affected agents and an activation rate of at most 5/9. -/
theorem C24_tune_valid_iff (c : GoalConfig ℝ) (hc : GoalValid c) (t : ℤ) :
    GoalValid (c.tuneFor t) ↔
      (t = 1 → 2 ≤ c.updateInterval) ∧
      (t = 3 → 2 ≤ c.updateInterval ∧ c.baseAdjustmentScale ≤ 5 / 6) ∧
      (t = 4 → c.affectedAgents ≤ 2 / 3 ∧ c.activationRate ≤ 5 / 9) := by
  obtain ⟨⟨b0, b1⟩, ⟨p0, p1⟩, h3, h4, h5, h6, ⟨q0, q1⟩, h8, h9, ⟨a0, a1⟩, ⟨r0, r1⟩⟩ := hc
  have h12 := h5.trans h6
  have hu : (1 : ℝ) ≤ c.updateInterval := by exact_mod_cast h8
  have h2 : (2 : ℤ) ≤ c.updateInterval ↔ (2 : ℝ) ≤ c.updateInterval := by norm_cast
  have h15 : c.updateInterval < 2 → c.updateInterval = 1 := by omega
  unfold GoalConfig.tuneFor
  split
  · refine iff_of_true ⟨⟨?_, ?_⟩, ⟨p0, p1⟩, h3, h4, ?_, ?_, ⟨q0, q1⟩, ?_, h9, ⟨a0, a1⟩, ⟨r0, r1⟩⟩ (by simp)
    iterate 4 (dsimp only; linarith)
    dsimp only; rw [scaleDuration_real, rtrunc_pos_iff]; linarith
  · simp only [true_implies, OfNat.one_ne_ofNat, false_implies, and_true]
    constructor
    · intro h
      have h := h.interval_pos
      dsimp only at h
      rw [scaleDuration_real, rtrunc_pos_iff] at h
      rw [h2]; linarith
    · intro h
      refine ⟨⟨?_, ?_⟩, ⟨p0, p1⟩, h3, h4, h5, h6, ⟨q0, q1⟩, ?_, h9, ⟨a0, a1⟩, ⟨r0, r1⟩⟩
      · simp only [minFloat]; split_ifs <;> linarith
      · simp only [minFloat]; split_ifs with hh
        · norm_num
        · exact not_lt.1 hh
      · dsimp only; rw [scaleDuration_real, rtrunc_pos_iff]; rw [h2] at h; linarith
  · refine iff_of_true ⟨⟨b0, b1⟩, ⟨p0, p1⟩, h3, h4, h5, h6, ⟨?_, ?_⟩, ?_, h9, ⟨?_, ?_⟩, ⟨r0, r1⟩⟩ (by simp)
    iterate 2 (dsimp only; linarith)
    · dsimp only; rw [scaleDuration_real, rtrunc_pos_iff]; linarith
    iterate 2 (dsimp only; linarith)
  · simp only [true_implies, OfNat.ofNat_ne_one, false_implies, Nat.reduceEqDiff, OfNat.ofNat_eq_ofNat, and_true,
      true_and]
    constructor
    · intro h
      have hb := h.base.2
      have h := h.interval_pos
      dsimp only at h hb
      rw [scaleDuration_real, rtrunc_pos_iff] at h
      refine ⟨?_, by linarith⟩
      by_contra hlt
      have := h15 (by omega)
      rw [this] at h
      norm_num at h
    · rintro ⟨h, hb⟩
      rw [h2] at h
      refine ⟨⟨?_, ?_⟩, ⟨p0, p1⟩, h3, h4, h5, h6, ⟨q0, q1⟩, ?_, h9, ⟨a0, a1⟩, ⟨r0, r1⟩⟩
      iterate 2 (dsimp only; linarith)
      dsimp only; rw [scaleDuration_real, rtrunc_pos_iff]; linarith
  · simp only [true_implies, OfNat.ofNat_ne_one, false_implies, Nat.reduceEqDiff, OfNat.ofNat_eq_ofNat, true_and]
    constructor
    · intro h
      have ha := h.affected.2
      have hr := h.activation.2
      dsimp only at ha hr
      constructor <;> linarith
    · rintro ⟨ha, hr⟩
      refine ⟨⟨b0, b1⟩, ⟨p0, p1⟩, h3, h4, ?_, ?_, ⟨q0, q1⟩, h8, h9, ⟨?_, ?_⟩, ⟨?_, ?_⟩⟩ <;> dsimp only <;> linarith
  · refine iff_of_true ⟨⟨b0, b1⟩, ⟨?_, ?_⟩, h3, h4, h5, h6, ⟨q0, q1⟩, h8, h9, ⟨a0, a1⟩, ⟨r0, r1⟩⟩ (by simp)
    · simp only [minFloat]; split_ifs <;> linarith
    · simp only [minFloat]; split_ifs with hh
      · norm_num
      · linarith
  · rename_i n0 n1 n2 n3 n4 n5
    refine iff_of_true ⟨⟨b0, b1⟩, ⟨p0, p1⟩, h3, h4, h5, h6, ⟨q0, q1⟩, h8, h9, ⟨a0, a1⟩, ⟨r0, r1⟩⟩ ?_
    refine ⟨fun h => absurd h (by simpa using n1), fun h => absurd h (by simpa using n3),
      fun h => absurd h (by simpa using n4)⟩

/-- The parameters of the presets that matter for tuning. -/
theorem preset_tuning_bounds (g : ℤ) :
    (configFor g : GoalConfig ℝ).affectedAgents ≤ 2 / 3 ∧ (configFor g : GoalConfig ℝ).activationRate ≤ 5 / 9 ∧
    ((configFor g : GoalConfig ℝ).baseAdjustmentScale ≤ 5 / 6 ↔ g ≠ 3) := by
  unfold configFor
  split <;> simp only [minAPIConfig, distLoadConfig, consensusConfig, latencyConfig, energyConfig, rhythmConfig,
      recoveryConfig, trafficConfig, defaultConfig] <;> refine ⟨by norm_num, by norm_num, ?_⟩ <;>
      (norm_num; try assumption)

/-- **C24.** The claim: tuning any preset for any trait passes validation. -/
def C24_claim : Prop := ∀ g t : ℤ, ((configFor g : GoalConfig ℝ).tuneFor t).validate = none

/-- Exactly one combination of goal and trait is rejected: minimising latency (3) tuned for throughput (3). This holds
with or without fitting the result to a swarm size. -/
theorem C24_tune_preset_iff_partial (g t : ℤ) :
    ((configFor g : GoalConfig ℝ).tuneFor t).validate = none ↔ ¬ (g = 3 ∧ t = 3) := by
  obtain ⟨hv, hi⟩ := C23_preset_valid g
  obtain ⟨h1, h2, h3⟩ := preset_tuning_bounds g
  have hi : (2 : ℤ) ≤ (configFor g : GoalConfig ℝ).updateInterval := by
    simp only [millisecond] at hi; omega
  rw [C27_goal_validate_real, C24_tune_valid_iff _ hv, h3]
  tauto

/-- The rejected combination, with the rejected parameter: 0.85 · 1.2 = 1.02. -/
theorem C24_latency_throughput :
    ((configFor 3 : GoalConfig ℝ).tuneFor 3).validate = some "BaseAdjustmentScale" := by
  simp only [configFor, latencyConfig, GoalConfig.tuneFor, GoalConfig.validate]
  norm_num

/-- The claim is false. -/
theorem C24_refuted : ¬ C24_claim := fun h => by
  have := h 3 3
  rw [C24_latency_throughput] at this
  cases this

theorem tune_interval (g t : ℤ) : millisecond ≤ ((configFor g : GoalConfig ℝ).tuneFor t).updateInterval := by
  obtain ⟨-, hi⟩ := C23_preset_valid g
  generalize (configFor g : GoalConfig ℝ) = c at *
  have hi' : (25000000 : ℝ) ≤ c.updateInterval := by
    have : (25000000 : ℤ) ≤ c.updateInterval := by simpa [millisecond] using hi
    exact_mod_cast this
  have key : ∀ f : ℝ, 1 / 2 ≤ f → millisecond ≤ scaleDuration c.updateInterval f := by
    intro f hf
    rw [scaleDuration_real, rtrunc, if_pos (by positivity)]
    rw [Int.le_floor]; simp only [millisecond]; push_cast; nlinarith
  unfold GoalConfig.tuneFor
  split
  iterate 4 (exact key _ (by norm_num))
  all_goals (simp only [millisecond] at hi ⊢; omega)

/-- A tuned preset fitted to a swarm size is accepted exactly when the tuned preset itself is. -/
theorem C24_tune_withSize_partial (g t n : ℤ) :
    (((configFor g : GoalConfig ℝ).tuneFor t).withSize n).validate = none ↔ ¬ (g = 3 ∧ t = 3) := by
  by_cases h : g = 3 ∧ t = 3
  · refine iff_of_false ?_ (not_not.2 h)
    obtain ⟨rfl, rfl⟩ := h
    intro hv
    have hv := ((C27_goal_validate_real _).1 hv).base.2
    have e : (((configFor 3 : GoalConfig ℝ).tuneFor 3).withSize n).baseAdjustmentScale = 0.85 * 1.2 := by
      unfold GoalConfig.withSize; split_ifs <;> rfl
    rw [e] at hv; norm_num at hv
  · refine iff_of_true ?_ h
    rw [C27_goal_validate_real, C23_withSize_valid_iff _ ((C27_goal_validate_real _).1
      ((C24_tune_preset_iff_partial g t).2 h))]
    intro _ _; exact tune_interval g t

/-- Tuning is not closed under repetition: a preset tuned twice for resilience is accepted, three times is rejected. -/
theorem C24_repeated_tuning_rejected :
    (((configFor 7 : GoalConfig ℝ).tuneFor 4).tuneFor 4).validate = none ∧
    ((((configFor 7 : GoalConfig ℝ).tuneFor 4).tuneFor 4).tuneFor 4).validate = some "ActivationRate" := by
  simp only [configFor, trafficConfig, GoalConfig.tuneFor, GoalConfig.validate]
  constructor <;> norm_num [millisecond, second]

end Verif
