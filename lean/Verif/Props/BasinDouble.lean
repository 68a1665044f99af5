import Verif.Props.Basin

/-!
# C67 in doubles
-/

set_option autoImplicit false
set_option linter.unusedSectionVars false

namespace Verif
open GoMath Rounding

section
variable [Rounding] [LibM]

/-- The distance to the target is a number that is not negative as soon as the difference of the phases is finite. -/
theorem distance_nn (b : Basin F64) (s : State F64) (h : F64.IsFinite (s.phase - b.target.phase)) : F64.NN (b.distance s) := by
  obtain ⟨d, hd⟩ := (isFinite_iff _).1 h
  unfold Basin.distance
  rw [hd]
  obtain ⟨t, e, t6, -⟩ := F64.ofReal_int_between (x := ((2 : ℚ) : ℝ) * Real.pi) 6 8 (by norm_num) (by norm_num)
    (by push_cast; linarith [Real.pi_gt_three]) (by push_cast; linarith [Real.pi_lt_four])
  rw [show (piMul 2 : F64) = F64.ofReal (((2 : ℚ) : ℝ) * Real.pi) from rfl, e]
  change F64.NN (GoMath.abs (if t.1 = 0 then F64.nan else F64.ofReal _))
  rw [if_neg (by push_cast at t6; linarith)]
  exact F64.nn_abs_ofReal _

/-- **C67, the force in doubles.** Whatever the roundings: for a positive radius, a strength in `[0, 1]`, phases whose difference is
finite, and a state that is not boosted, the force is between 0 and the strength, and 0 beyond the radius. -/
theorem C67_force_double (b : Basin F64) (s : State F64) (r : Dbl) (hr : b.radius = .fin r) (h0 : 0 < r.1) (hs : F64.In01 b.strength)
    (hf : F64.IsFinite (s.phase - b.target.phase)) (hb : ¬ (s.phase < 0 ∧ 0 < b.target.phase)) :
    0 ≤ b.force s ∧ b.force s ≤ b.strength ∧ (b.radius < b.distance s → b.force s = 0) := by
  obtain ⟨v, dv, ev, v0, v1⟩ := hs
  unfold Basin.force
  by_cases hd : b.distance s > b.radius
  · rw [if_pos hd]
    refine ⟨?_, ?_, fun _ => rfl⟩
    · rw [F64.zero_def]; exact (F64.le_fin _ _).2 le_rfl
    · rw [ev, F64.zero_def]; exact (F64.le_fin _ _).2 v0
  · rw [if_neg hd, if_neg hb]
    have hnn := distance_nn b s hf
    obtain ⟨d, ed, d0⟩ : ∃ d : Dbl, b.distance s = .fin d ∧ 0 ≤ d.1 := by
      rcases hnn with h | h
      · rw [h, hr] at hd; exact absurd trivial hd
      · exact h
    rw [ed, hr] at hd
    have hdr : d.1 ≤ r.1 := by
      by_contra hc
      exact hd ((F64.lt_fin _ _).2 (not_le.1 hc))
    have hq : F64.In01 (b.distance s / b.radius) := by
      rw [ed, hr, F64.div_fin h0.ne']
      exact F64.in01_ofReal (div_nonneg d0 h0.le) ((div_le_one h0).2 hdr)
    obtain ⟨q, dq, eq, q0, q1⟩ := one_sub_in01 hq
    rw [eq, ev, F64.mul_fin]
    obtain ⟨z, dz, ez, z0, z1⟩ := F64.ofReal_between isDouble_zero dv (x := v * q) (mul_nonneg v0 q0) (mul_le_of_le_one_right v0 q1)
    dsimp only
    rw [ez]
    refine ⟨by rw [F64.zero_def]; exact (F64.le_fin _ _).2 z0, (F64.le_fin _ _).2 z1, fun hc => absurd ?_ hd⟩
    rw [ed, hr] at hc
    exact hc

theorem mul_nan (x : F64) : x * F64.nan = .nan := by cases x <;> rfl

theorem rroundEven_zero : rroundEven 0 = 0 := by unfold rroundEven; norm_num

/-- **C67, radius 0.** A basin of radius 0 gives a NaN force and a NaN adjustment to a state that is exactly at its target. -/
theorem C67_radius_zero (b : Basin F64) (s : State F64) (a : Dbl) (hr : b.radius = 0) (hs : s.phase = .fin a)
    (ht : b.target.phase = .fin a) : b.force s = .nan ∧ b.adjustment s = .nan ∧ b.rate s = 0 := by
  have hd : b.distance s = 0 := by
    unfold Basin.distance
    rw [hs, ht, sub_self_double]
    obtain ⟨t, e, t6, -⟩ := F64.ofReal_int_between (x := ((2 : ℚ) : ℝ) * Real.pi) 6 8 (by norm_num) (by norm_num)
      (by push_cast; linarith [Real.pi_gt_three]) (by push_cast; linarith [Real.pi_lt_four])
    rw [show (piMul 2 : F64) = F64.ofReal (((2 : ℚ) : ℝ) * Real.pi) from rfl, e]
    change GoMath.abs (if t.1 = 0 then F64.nan else F64.ofReal (0 - t.1 * rroundEven (0 / t.1))) = 0
    rw [if_neg (by push_cast at t6; linarith), zero_div, rroundEven_zero, Int.cast_zero, mul_zero, sub_zero,
      F64.ofReal_of_isDouble isDouble_zero]
    exact abs_zero_double
  have hf : b.force s = .nan := by
    unfold Basin.force
    rw [hd, hr, if_neg (by rw [F64.zero_def]; exact fun h => lt_irrefl _ ((F64.lt_fin _ _).1 h)), if_neg, zero_div_zero]
    · exact mul_nan _
    · rw [hs, ht, F64.zero_def]
      rintro ⟨h1, h2⟩
      exact lt_asymm ((F64.lt_fin _ _).1 h1) ((F64.lt_fin _ _).1 h2)
  refine ⟨hf, ?_, ?_⟩
  · unfold Basin.adjustment
    rw [hf, if_neg, mul_nan]
    intro h
    exact @of_decide_eq_true _ (Classical.propDecidable _) h
  · unfold Basin.rate
    rw [if_pos]
    rw [hr]
    exact @decide_eq_true _ (Classical.propDecidable _) (rfl : (0 : ℝ) = 0)

/-- The strength is clamped to `[0, 1]`, except that a NaN stays NaN. -/
theorem C67_new (t : State F64) (strength radius : F64) :
    (strength = .nan ∧ (Basin.new t strength radius).strength = .nan) ∨
    (strength ≠ .nan ∧ F64.In01 (Basin.new t strength radius).strength) := by
  unfold Basin.new
  dsimp only
  have z01 : F64.In01 (0 : F64) := ⟨0, isDouble_zero, rfl, le_rfl, zero_le_one⟩
  have o01 : F64.In01 (1 : F64) := ⟨1, isDouble_one, rfl, zero_le_one, le_rfl⟩
  cases strength with
  | nan => exact .inl ⟨rfl, by rw [if_neg (fun h : F64.nan < 0 => h), if_neg (fun h : F64.nan > 1 => h)]⟩
  | pinf => exact .inr ⟨by simp, by rw [if_neg (fun h : F64.pinf < 0 => h), if_pos (show F64.pinf > 1 from trivial)]; exact o01⟩
  | ninf => exact .inr ⟨by simp, by rw [if_pos (show F64.ninf < 0 from trivial)]; exact z01⟩
  | fin x =>
    refine .inr ⟨by simp, ?_⟩
    by_cases h1 : x.1 < 0
    · rw [if_pos (show F64.fin x < 0 from (F64.lt_fin _ _).2 h1)]; exact z01
    · rw [if_neg (fun h : F64.fin x < 0 => h1 ((F64.lt_fin x ⟨0, isDouble_zero⟩).1 h))]
      by_cases h2 : 1 < x.1
      · rw [if_pos (show F64.fin x > 1 from (F64.lt_fin _ _).2 h2)]; exact o01
      · rw [if_neg (fun h : F64.fin x > 1 => h2 ((F64.lt_fin ⟨1, isDouble_one⟩ x).1 h))]
        exact ⟨x.1, x.2, rfl, not_lt.1 h1, not_lt.1 h2⟩

example (t : State F64) (h : t.phase = 1) : F64.In01 (Basin.new t 1 1).strength ∧
    F64.IsFinite ((State.mk 1 1 1 : State F64).phase - (Basin.new t 1 1).target.phase) ∧
    ¬ ((State.mk 1 1 1 : State F64).phase < 0 ∧ 0 < (Basin.new t 1 1).target.phase) := by
  refine ⟨?_, ?_, ?_⟩
  · rcases C67_new t 1 1 with ⟨h, -⟩ | ⟨-, h⟩
    · cases h
    · exact h
  · show F64.IsFinite (1 - t.phase)
    rw [h]
    exact (isFinite_iff _).2 ⟨_, sub_self_double ⟨1, isDouble_one⟩⟩
  · rintro ⟨h, -⟩
    exact absurd ((F64.lt_fin ⟨1, isDouble_one⟩ ⟨0, isDouble_zero⟩).1 h) (by norm_num)

end
end Verif
