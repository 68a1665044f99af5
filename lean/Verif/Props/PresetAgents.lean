import Verif.Props.PoolDouble
import Verif.Props.PhaseAccuracy

/-! # C112 in doubles: the agent of the default configuration -/

set_option autoImplicit false
set_option linter.unusedSectionVars false

namespace Verif
open GoMath

variable [Rounding] [LibM]

theorem wrap_zero_fin : wrapPhase (0 : F64) = 0 := by
  have ht : F64.tau.1 ≠ 0 := by linarith [F64.tau_bounds.1]
  have m0 : GoMath.mod (F64.fin ⟨0, isDouble_zero⟩) (F64.fin F64.tau) = F64.fin ⟨0, isDouble_zero⟩ := by
    rw [F64.mod_fin _ _ ht]
    congr 2
    simp [rtrunc]
  unfold wrapPhase
  rw [F64.piMul_two, F64.zero_def, m0, F64.add_fin]
  have e : (0 : ℝ) + F64.tau.1 = F64.tau.1 := zero_add _
  rw [show ((⟨0, isDouble_zero⟩ : Dbl).1 + F64.tau.1) = F64.tau.1 from e, F64.ofReal_of_isDouble F64.tau.2, F64.mod_fin _ _ ht]
  congr 2
  simp [ht, rtrunc]

theorem lit_above_zero {x : ℝ} (h1 : 1 / 2 ^ 20 ≤ x) (h2 : x ≤ 2 ^ 20) : 0 < F64.ofReal x := by
  have a : IsDouble (1 / 2 ^ 20 : ℝ) := by have := dyadic 1 20 (by norm_num) (by norm_num); norm_num at this ⊢; exact this
  have b : IsDouble (2 ^ 20 : ℝ) := by have := isDouble_int (n := 2 ^ 20) (by norm_num); norm_num at this ⊢; exact this
  obtain ⟨d, e, d1, -⟩ := FIn.lit a b h1 h2
  rw [e, F64.zero_def, F64.lt_fin]
  exact lt_of_lt_of_le (by norm_num) d1

theorem clamp_lit {x : ℝ} (h1 : 0 ≤ x) (h2 : x ≤ 1) : clampUnit (F64.ofReal x) = F64.ofReal x := by
  have h := lit01 x h1 h2
  unfold clampUnit
  rw [if_neg h.not_lt_zero, if_neg h.not_one_lt]

/-- **C112, in doubles.** The agent of the default configuration does not depend on random numbers and has the documented values: exactly, but for the local
goal, which wrapping may move away from the double nearest to π by some units in the last place. -/
theorem C112_default_double (id : String) (d : Draws) : ∃ a, newFromConfig id (defaultAgentConfig : AgentConfig F64) d = .ok a ∧ a.id = id ∧
    a.state.phase = 0 ∧ a.state.energy = 100.0 ∧ (∃ g : Dbl, a.state.localGoal = .fin g ∧ |g.1 - Real.pi| ≤ 1 / 10 ^ 14) ∧ a.state.frequency = 100 * millisecond ∧ a.behavior.influence = 0.5 ∧
    a.behavior.stubbornness = 0.2 ∧ a.strategy = .basic (.phaseNudge 0.3) ∧ (∃ t, a.resources = some t ∧ t.available = 100.0) ∧ a.neighbors = [] := by
  have p1 : (0 : F64) < 100.0 := lit_above_zero (x := 100.0) (by norm_num) (by norm_num)
  have e1 := beq_zero_pos p1
  have e2 : ((0.5 : F64) == 0) = false := beq_zero_pos (lit_above_zero (x := 0.5) (by norm_num) (by norm_num) : (0 : F64) < 0.5)
  have e3 : ((0.2 : F64) == 0) = false := beq_zero_pos (lit_above_zero (x := 0.2) (by norm_num) (by norm_num) : (0 : F64) < 0.2)
  have e4 : ((0.3 : F64) == 0) = false := beq_zero_pos (lit_above_zero (x := 0.3) (by norm_num) (by norm_num) : (0 : F64) < 0.3)
  have pp : ∃ d : Dbl, (piMul 1 : F64) = .fin d ∧ 3 ≤ d.1 ∧ d.1 ≤ 4 := by
    obtain ⟨y, h, e, h1, h2⟩ := F64.ofReal_between (x := ((1 : ℚ) : ℝ) * Real.pi) (isDouble_ofNat 3 (by norm_num)) (isDouble_ofNat 4 (by norm_num))
      (by have := Real.pi_gt_three; push_cast; linarith) (by have := Real.pi_lt_d2; push_cast; linarith)
    exact ⟨⟨y, h⟩, e, h1, h2⟩
  obtain ⟨q, hq, q1, q2⟩ := pp
  have e5 : ((piMul 1 : F64) == 0) = false := beq_zero_pos (by rw [hq, F64.zero_def, F64.lt_fin]; exact lt_of_lt_of_le (by norm_num) q1)
  have k : newFromConfig id (defaultAgentConfig : AgentConfig F64) d = .ok (Agent.new id d.phase0 d.goal0 d.freq0 [.resourceManager (TokenManager.new 100.0),
      .strategy (.basic (.phaseNudge 0.3)), .phase 0, .localGoal (piMul 1), .frequency (100 * millisecond), .energy 100.0,
      .influence 0.5, .stubbornness 0.2]) := by
    simp [newFromConfig, createStrategy, createResourceManager, configOptions, defaultAgentConfig, e1, e2, e3, e4, e5, bne, millisecond, -F64.zero_def]
  refine ⟨_, k, rfl, ?_, ?_, ?_, rfl, ?_, ?_, rfl, ⟨_, rfl, ?_⟩, rfl⟩
  · exact wrap_zero_fin
  · exact fmax_zero_pos p1
  · obtain ⟨g, eg, g0, g1, k, hk⟩ := C134_wrap q
    refine ⟨g, (congrArg wrapPhase hq).trans eg, ?_⟩
    obtain ⟨q', eq', hq'⟩ := F64.ofReal_err (x := ((1 : ℚ) : ℝ) * Real.pi) (by
      push_cast
      rw [one_mul, abs_of_pos Real.pi_pos]
      calc Real.pi < 2 ^ (2 : ℤ) := by have := Real.pi_lt_four; norm_num; linarith
        _ ≤ 2 ^ (1023 : ℤ) := zpow_le_zpow_right₀ (by norm_num) (by norm_num))
    have : F64.fin q = .fin q' := hq.symm.trans eq'
    cases this
    push_cast at hq'
    rw [one_mul, abs_of_pos Real.pi_pos] at hq'
    have p3 := Real.pi_gt_three
    have p4 := Real.pi_lt_d2
    have hu : ulp ≤ 1 / (9 * 10 ^ 15) := by unfold ulp; norm_num
    have he := eta_le_ulp
    rw [abs_of_nonneg (by linarith : (0 : ℝ) ≤ q.1)] at hk
    have h2 : (2 * q.1 + 22) * (2 : ℝ) ^ (-53 : ℤ) ≤ 30 * (1 / (9 * 10 ^ 15)) := mul_le_mul (by linarith) hu (by positivity) (by norm_num)
    have k0 : k = 0 := by
      obtain ⟨w1, w2⟩ := abs_le.1 (hk.trans h2)
      rcases lt_trichotomy k 0 with h | h | h
      · have : (k : ℝ) ≤ -1 := by exact_mod_cast (by omega : k ≤ -1)
        exfalso
        have h5 : (k : ℝ) * (2 * Real.pi) ≤ -1 * (2 * Real.pi) := mul_le_mul_of_nonneg_right this (by linarith)
        norm_num at w1
        linarith
      · exact h
      · have : (1 : ℝ) ≤ k := by exact_mod_cast h
        exfalso
        have h5 : 1 * (2 * Real.pi) ≤ (k : ℝ) * (2 * Real.pi) := mul_le_mul_of_nonneg_right this (by linarith)
        norm_num at w2
        linarith
    rw [k0] at hk
    push_cast at hk
    rw [zero_mul, add_zero] at hk
    have h3 : ulp * Real.pi ≤ 1 / (9 * 10 ^ 15) * 4 := mul_le_mul hu (by linarith) (by linarith) (by norm_num)
    have h4 : |g.1 - Real.pi| ≤ |g.1 - q.1| + |q.1 - Real.pi| := abs_sub_le _ _ _
    norm_num at h2 h3 hu hk ⊢
    linarith
  · exact clamp_lit (x := 0.5) (by norm_num) (by norm_num)
  · exact clamp_lit (x := 0.2) (by norm_num) (by norm_num)
  · unfold TokenManager.new TokenManager.available
    simp only [if_neg (not_neg_pos p1)]

end Verif
