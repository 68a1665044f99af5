import Verif.Model.Basin
import Verif.Props.PatternsDouble
import Mathlib.Analysis.SpecificLimits.Basic

/-!
# C67: attractor basins
-/

set_option autoImplicit false
set_option linter.unusedSectionVars false

namespace Verif
open GoMath Real Spec

theorem rroundEven_near (x : ℝ) : |x - rroundEven x| ≤ 1 / 2 := by
  have h1 := Int.floor_le x
  have h2 := Int.lt_floor_add_one x
  unfold rroundEven
  split_ifs with a b c <;> rw [abs_le] <;> push_cast <;> constructor <;> linarith

/-- An angle that is `e` away, with `|e|` at most half a turn, has distance `|e|`. -/
theorem isCircDist_of_small {x t e : ℝ} (h : SameAngle x (t + e)) (he : |e| ≤ π) : IsCircDist x t |e| := by
  have hp := Real.pi_pos
  obtain ⟨k, hk⟩ := h
  refine ⟨⟨-k, by rw [hk]; congr 1; push_cast; ring⟩, fun j => ?_⟩
  rw [hk, show t + e + k * (2 * π) - t + j * (2 * π) = e + ((k + j : ℤ) : ℝ) * (2 * π) by push_cast; ring]
  obtain ⟨e1, e2⟩ := abs_le.1 he
  rcases lt_trichotomy (k + j) 0 with hm | hm | hm
  · have : ((k + j : ℤ) : ℝ) ≤ -1 := by exact_mod_cast (by omega : k + j ≤ -1)
    rw [abs_le]
    have h3 : ((k + j : ℤ) : ℝ) * (2 * π) ≤ -1 * (2 * π) := mul_le_mul_of_nonneg_right this (by linarith)
    rw [abs_of_nonpos (a := e + _) (by linarith)]
    constructor <;> linarith
  · rw [hm]; simp
  · have : (1 : ℝ) ≤ ((k + j : ℤ) : ℝ) := by exact_mod_cast (by omega : 1 ≤ k + j)
    rw [abs_le]
    have h3 : 1 * (2 * π) ≤ ((k + j : ℤ) : ℝ) * (2 * π) := mul_le_mul_of_nonneg_right this (by linarith)
    rw [abs_of_nonneg (a := e + _) (by linarith)]
    constructor <;> linarith

/-- **C67, the distance.** Over the reals the distance to the target is the distance on the circle, at most half a turn. -/
theorem C67_distance (b : Basin ℝ) (s : State ℝ) : IsCircDist s.phase b.target.phase (b.distance s) ∧ 0 ≤ b.distance s ∧ b.distance s ≤ π := by
  have hp := Real.pi_pos
  have e : b.distance s = |s.phase - b.target.phase - 2 * π * rroundEven ((s.phase - b.target.phase) / (2 * π))| := by
    unfold Basin.distance; simp
  have h := rroundEven_near ((s.phase - b.target.phase) / (2 * π))
  generalize rroundEven ((s.phase - b.target.phase) / (2 * π)) = k at *
  have hle : |s.phase - b.target.phase - 2 * π * k| ≤ π := by
    have : s.phase - b.target.phase - 2 * π * k = ((s.phase - b.target.phase) / (2 * π) - k) * (2 * π) := by field_simp
    rw [this, abs_mul, abs_of_pos (by linarith : 0 < 2 * π)]
    nlinarith
  rw [e]
  refine ⟨isCircDist_of_small ⟨k, by ring⟩ hle, abs_nonneg _, hle⟩

/-- A state on the other side of zero from a positive target, for which the code doubles the force. -/
def Spec.Boosted (b : Basin ℝ) (s : State ℝ) : Prop := s.phase < 0 ∧ 0 < b.target.phase

theorem force_eq (b : Basin ℝ) (s : State ℝ) (d : ℝ) (hd : IsCircDist s.phase b.target.phase d) :
    (d > b.radius → b.force s = 0) ∧ (d ≤ b.radius → ¬ Boosted b s → b.force s = b.strength * (1 - d / b.radius)) ∧
    (d ≤ b.radius → Boosted b s → b.force s = 2 * (b.strength * (1 - d / b.radius))) := by
  rw [circDist_unique hd (C67_distance b s).1]
  unfold Basin.force
  refine ⟨fun h => if_pos h, fun h hb => ?_, fun h hb => ?_⟩
  · rw [if_neg (not_lt.2 h)]
    exact if_neg hb
  · rw [if_neg (not_lt.2 h)]
    refine (if_pos hb).trans ?_
    rw [show (2.0 : ℝ) = 2 by norm_num]; ring

/-- **C67, the force.** For a positive radius and a state that is not boosted: the force is between 0 and the strength, zero at and
beyond the radius, and not smaller for a state that is closer (strictly larger inside the basin if there is any strength). Missing: boosted
states (`C67_boosted`, `C67_refuted`). -/
theorem C67_force_partial (b : Basin ℝ) (s : State ℝ) (d : ℝ) (hd : IsCircDist s.phase b.target.phase d) (hr : 0 < b.radius)
    (hs : 0 ≤ b.strength) (hb : ¬ Boosted b s) :
    0 ≤ b.force s ∧ b.force s ≤ b.strength ∧ (b.radius ≤ d → b.force s = 0) ∧
    ∀ (s' : State ℝ) (d' : ℝ), IsCircDist s'.phase b.target.phase d' → ¬ Boosted b s' →
      (d ≤ d' → b.force s' ≤ b.force s) ∧ (d < d' → d < b.radius → 0 < b.strength → b.force s' < b.force s) := by
  have key : ∀ (s : State ℝ) (d : ℝ), IsCircDist s.phase b.target.phase d → ¬ Boosted b s →
      b.force s = b.strength * (1 - min d b.radius / b.radius) := by
    intro s d hd hb
    obtain ⟨h1, h2, -⟩ := force_eq b s d hd
    rcases le_total d b.radius with h | h
    · rw [h2 h hb, min_eq_left h]
    · rw [min_eq_right h, div_self hr.ne', sub_self, mul_zero]
      rcases h.eq_or_lt with h | h
      · rw [h2 h.ge hb, ← h, div_self hr.ne']; ring
      · exact h1 h
  have d0 : 0 ≤ d := by rw [circDist_unique hd (C67_distance b s).1]; exact (C67_distance b s).2.1
  have hq : 0 ≤ min d b.radius / b.radius ∧ min d b.radius / b.radius ≤ 1 :=
    ⟨div_nonneg (le_min d0 hr.le) hr.le, (div_le_one hr).2 (min_le_right _ _)⟩
  rw [key s d hd hb]
  refine ⟨mul_nonneg hs (by linarith [hq.2]), mul_le_of_le_one_right hs (by linarith [hq.1]), fun h => ?_, fun s' d' hd' hb' => ?_⟩
  · rw [min_eq_right h, div_self hr.ne']; ring
  · rw [key s' d' hd' hb']
    refine ⟨fun h => ?_, fun h hlt hp => ?_⟩
    · have : min d b.radius / b.radius ≤ min d' b.radius / b.radius := div_le_div_of_nonneg_right (min_le_min_right _ h) hr.le
      exact mul_le_mul_of_nonneg_left (by linarith) hs
    · have : min d b.radius < min d' b.radius := by rw [min_eq_left hlt.le]; exact lt_min h hlt
      have : min d b.radius / b.radius < min d' b.radius / b.radius := div_lt_div_of_pos_right this hr
      exact mul_lt_mul_of_pos_left (by linarith) hp

/-- A boosted state is pulled with twice the force of any other state at the same distance. -/
theorem C67_boosted (b : Basin ℝ) (s s' : State ℝ) (d : ℝ) (hd : IsCircDist s.phase b.target.phase d)
    (hd' : IsCircDist s'.phase b.target.phase d) (hb : Boosted b s) (hb' : ¬ Boosted b s') : b.force s = 2 * b.force s' := by
  obtain ⟨h1, -, h3⟩ := force_eq b s d hd
  obtain ⟨h1', h2', -⟩ := force_eq b s' d hd'
  rcases le_or_gt d b.radius with h | h
  · rw [h3 h hb, h2' h hb']
  · rw [h1 h, h1' h]; ring

/-- The factor by which the code multiplies the shortest rotation. -/
theorem adjustment_eq (b : Basin ℝ) (s : State ℝ) (hr : 0 < b.radius) (h0 : 0 ≤ b.strength) (h1 : b.strength ≤ 1) (d : ℝ)
    (hd : IsCircDist s.phase b.target.phase d) :
    ∃ c : ℝ, b.adjustment s = phaseDifference b.target.phase s.phase * c ∧ 0 < c ∧ (¬ Boosted b s → c ≤ 1) ∧ c ≤ 2 ∧
      (0 < d → c ≤ max 1 (2 * (1 - d / b.radius))) ∧
      (c = 0.01 ∨ d < b.radius ∧ b.strength * (1 - d / b.radius) ≤ c ∧ 0 < b.strength) ∧ (b.radius ≤ d → c = 0.01) := by
  have d0 : 0 ≤ d := by rw [circDist_unique hd (C67_distance b s).1]; exact (C67_distance b s).2.1
  unfold Basin.adjustment
  by_cases hz : b.force s = 0
  · rw [if_pos (by simpa using hz)]
    exact ⟨0.01, rfl, by norm_num, fun _ => by norm_num, by norm_num, fun _ => (by norm_num : (0.01 : ℝ) ≤ 1).trans (le_max_left _ _),
      .inl rfl, fun _ => rfl⟩
  · rw [if_neg (by simpa using hz)]
    obtain ⟨f1, f2, f3⟩ := force_eq b s d hd
    have hle : d ≤ b.radius := by by_contra h; exact hz (f1 (not_le.1 h))
    have hq : d / b.radius ≤ 1 := (div_le_one hr).2 hle
    have hq0 : 0 ≤ d / b.radius := div_nonneg d0 hr.le
    have hm : b.strength * (1 - d / b.radius) ≤ 1 - d / b.radius := mul_le_of_le_one_left (by linarith) h1
    have hm0 : 0 ≤ b.strength * (1 - d / b.radius) := mul_nonneg h0 (by linarith)
    have hne : b.strength * (1 - d / b.radius) ≠ 0 := by
      intro e
      apply hz
      by_cases hb : Boosted b s
      · rw [f3 hle hb, e, mul_zero]
      · rw [f2 hle hb, e]
    have hpos := lt_of_le_of_ne hm0 hne.symm
    have hs : 0 < b.strength := lt_of_le_of_ne h0 fun e => by rw [← e, zero_mul] at hpos; exact lt_irrefl _ hpos
    have hlt : d < b.radius := lt_of_le_of_ne hle fun e => by
      rw [e, div_self hr.ne', sub_self, mul_zero] at hpos; exact lt_irrefl _ hpos
    by_cases hb : Boosted b s
    · rw [f3 hle hb]
      refine ⟨_, rfl, by linarith, fun k => absurd hb k, by linarith, fun _ => le_max_of_le_right (by linarith), .inr ⟨hlt, by linarith, hs⟩,
        fun k => absurd hlt (not_lt.2 k)⟩
    · rw [f2 hle hb]
      exact ⟨_, rfl, hpos, fun _ => by linarith, by linarith, fun _ => le_max_of_le_left (by linarith), .inr ⟨hlt, le_rfl, hs⟩,
        fun k => absurd hlt (not_lt.2 k)⟩

theorem adjusted_dist (b : Basin ℝ) (s : State ℝ) (c d : ℝ) (hc : 0 ≤ c ∧ c ≤ 2) (hd : IsCircDist s.phase b.target.phase d)
    (hs : ¬ SpecialPair b.target.phase s.phase) :
    IsCircDist (s.phase + phaseDifference b.target.phase s.phase * c) b.target.phase (d * |1 - c|) ∧
      |phaseDifference b.target.phase s.phase| = d := by
  have h1 : |phaseDifference b.target.phase s.phase| = d := by
    rw [abs_phaseDifference_comm]
    refine circDist_unique (isCircDist_phaseDifference fun k => hs ?_) hd
    rcases k with ⟨h1, h2⟩ | ⟨h1, h2⟩
    · exact .inr ⟨h2, h1⟩
    · exact .inl ⟨h2, h1⟩
  refine ⟨?_, h1⟩
  have hl := C02_phaseDifference_partial hs
  have hpi : |phaseDifference b.target.phase s.phase| ≤ π := abs_le.2 ⟨hl.gt.le, hl.le⟩
  have : d * |1 - c| = |phaseDifference b.target.phase s.phase * (c - 1)| := by rw [abs_mul, h1, abs_sub_comm]
  rw [this]
  apply isCircDist_of_small
  · obtain ⟨k, hk⟩ := hl.lands
    exact ⟨k, by linarith⟩
  · rw [abs_mul]
    have : |c - 1| ≤ 1 := abs_le.2 ⟨by linarith [hc.1], by linarith [hc.2]⟩
    nlinarith [abs_nonneg (phaseDifference b.target.phase s.phase), abs_nonneg (c - 1)]

/-- **C67, no overshoot.** For a positive radius, a strength in `[0, 1]` and a state that is not boosted (and not one of the two special
pairs of the phase difference): the suggested adjustment moves the state towards the target and not past it. -/
theorem C67_adjustment_partial (b : Basin ℝ) (s : State ℝ) (d : ℝ) (hd : IsCircDist s.phase b.target.phase d) (hr : 0 < b.radius)
    (h0 : 0 ≤ b.strength) (h1 : b.strength ≤ 1) (hs : ¬ SpecialPair b.target.phase s.phase) (hb : ¬ Boosted b s) :
    |b.adjustment s| ≤ d ∧ IsCircDist (s.phase + b.adjustment s) b.target.phase (d - |b.adjustment s|) := by
  obtain ⟨c, e, c0, c1, c2, -⟩ := adjustment_eq b s hr h0 h1 d hd
  replace c1 := c1 hb
  obtain ⟨k1, k2⟩ := adjusted_dist b s c d ⟨c0.le, c2⟩ hd hs
  have ha : |b.adjustment s| = d * c := by rw [e, abs_mul, k2, abs_of_pos c0]
  have d0 : 0 ≤ d := by rw [← k2]; exact abs_nonneg _
  rw [ha, e]
  refine ⟨mul_le_of_le_one_right d0 c1, ?_⟩
  rwa [abs_of_nonneg (by linarith), show d * (1 - c) = d - d * c by ring] at k1

/-- **C67, always closer.** Boosted or not, the suggested adjustment brings a state that is not at the target strictly closer. -/
theorem C67_closer (b : Basin ℝ) (s : State ℝ) (d : ℝ) (hd : IsCircDist s.phase b.target.phase d) (hr : 0 < b.radius)
    (h0 : 0 ≤ b.strength) (h1 : b.strength ≤ 1) (hs : ¬ SpecialPair b.target.phase s.phase) (hpos : 0 < d) :
    ∃ d', IsCircDist (s.phase + b.adjustment s) b.target.phase d' ∧ d' < d := by
  obtain ⟨c, e, c0, -, c2, c3, -⟩ := adjustment_eq b s hr h0 h1 d hd
  obtain ⟨k1, -⟩ := adjusted_dist b s c d ⟨c0.le, c2⟩ hd hs
  refine ⟨_, by rw [e]; exact k1, ?_⟩
  have hq : 0 < d / b.radius := div_pos hpos hr
  have : |1 - c| < 1 := by
    rw [abs_lt]
    rcases le_max_iff.1 (c3 hpos) with h | h <;> constructor <;> linarith
  exact mul_lt_of_lt_one_right hpos this

/-- **C67.** The force never exceeds the strength and the suggested adjustment never overshoots. -/
def C67_claim : Prop :=
  ∀ (t s : State ℝ) (strength radius d : ℝ), 0 ≤ strength → strength ≤ 1 → 0 < radius → IsCircDist s.phase t.phase d →
    (Basin.new t strength radius).force s ≤ strength ∧ |(Basin.new t strength radius).adjustment s| ≤ d

/-- With target 0.1 and phase −0.1 the force is 1.6 for a strength of 1 and the adjustment 0.32 for a distance of 0.2. -/
theorem C67_refuted : ¬ C67_claim := by
  intro h
  have hp := Real.pi_gt_three
  have hd : IsCircDist (-0.1 : ℝ) 0.1 0.2 := by
    have := isCircDist_of_small (x := (-0.1 : ℝ)) (t := 0.1) (e := -0.2) ⟨0, by norm_num⟩ (by norm_num [abs_of_neg]; linarith)
    rwa [abs_neg, abs_of_pos (by norm_num)] at this
  let t : State ℝ := ⟨0.1, 1, 1⟩
  let s : State ℝ := ⟨-0.1, 1, 1⟩
  have h1 := (h t s 1 1 0.2 zero_le_one le_rfl one_pos hd).1
  have hf := (force_eq (Basin.new t 1 1) s 0.2 hd).2.2 (by show (0.2 : ℝ) ≤ 1; norm_num) ⟨by show (-0.1 : ℝ) < 0; norm_num, by show (0 : ℝ) < 0.1; norm_num⟩
  rw [hf] at h1
  norm_num [Basin.new] at h1

/-! ### Convergence -/

/-- The state after following the suggested adjustment `n` times. -/
noncomputable def Spec.follow (b : Basin ℝ) (s : State ℝ) : ℕ → State ℝ
  | 0 => s
  | n + 1 => { Spec.follow b s n with phase := (Spec.follow b s n).phase + b.adjustment (Spec.follow b s n) }

/-- **C67, convergence.** From every state, inside or outside the basin, following the suggested adjustments converges to the target, if
the target is not one of the two phases with special cases. -/
theorem C67_converges (b : Basin ℝ) (s : State ℝ) (hr : 0 < b.radius) (h0 : 0 ≤ b.strength) (h1 : b.strength ≤ 1)
    (ht : 1e-10 ≤ |b.target.phase| ∧ 1e-10 ≤ |b.target.phase - 3 * π / 2|) :
    Filter.Tendsto (fun n => b.distance (follow b s n)) Filter.atTop (nhds 0) := by
  have hs : ∀ x, ¬ SpecialPair b.target.phase x := by
    rintro x (⟨h, -⟩ | ⟨h, -⟩)
    · exact absurd h (not_lt.2 ht.1)
    · exact absurd h (not_lt.2 ht.2)
  set D := fun n => b.distance (follow b s n) with hD
  have D0 : ∀ n, 0 ≤ D n := fun n => (C67_distance b _).2.1
  have step : ∀ n, ∃ c, D (n + 1) = D n * |1 - c| ∧ 0 < c ∧ (0 < D n → c ≤ max 1 (2 * (1 - D n / b.radius))) ∧ c ≤ 2 ∧
      (c = 0.01 ∨ D n < b.radius ∧ b.strength * (1 - D n / b.radius) ≤ c ∧ 0 < b.strength) ∧ (b.radius ≤ D n → c = 0.01) := by
    intro n
    obtain ⟨c, e, c0, -, c2, c3, c4, c5⟩ := adjustment_eq b (follow b s n) hr h0 h1 (D n) (C67_distance b _).1
    refine ⟨c, ?_, c0, c3, c2, c4, c5⟩
    obtain ⟨k1, -⟩ := adjusted_dist b (follow b s n) c (D n) ⟨c0.le, c2⟩ (C67_distance b _).1 (hs _)
    rw [← e] at k1
    exact circDist_unique (C67_distance b (follow b s (n + 1))).1 k1
  have anti : Antitone D := by
    apply antitone_nat_of_succ_le
    intro n
    obtain ⟨c, e, c0, -, c2, -⟩ := step n
    rw [e]
    exact mul_le_of_le_one_right (D0 n) (abs_le.2 ⟨by linarith, by linarith⟩)
  -- from some point on the distance is below any bound
  have small : ∀ ε > 0, ∃ n, D n < ε := by
    intro ε hε
    by_contra hc
    push Not at hc
    have contr : ∀ (j : ℕ) (q : ℝ), 0 ≤ q → q < 1 → (∀ n, j ≤ n → D (n + 1) ≤ D n * q) → False := by
      intro j q q0 q1 hq
      have hpow : ∀ n, D (j + n) ≤ D j * q ^ n := by
        intro n
        induction n with
        | zero => simp
        | succ n ih =>
          refine (hq (j + n) (by omega)).trans ?_
          rw [pow_succ, ← mul_assoc]
          exact mul_le_mul_of_nonneg_right ih q0
      have ht : Filter.Tendsto (fun n : ℕ => D j * q ^ n) Filter.atTop (nhds (D j * 0)) :=
        (tendsto_pow_atTop_nhds_zero_of_lt_one q0 q1).const_mul _
      rw [mul_zero] at ht
      obtain ⟨n, hn⟩ := (ht.eventually (gt_mem_nhds hε)).exists
      linarith [hpow n, hc (j + n)]
    by_cases hin : ∃ j, D j < b.radius
    · obtain ⟨j, hj⟩ := hin
      have hq1 : D j / b.radius < 1 := (div_lt_one hr).2 hj
      have hqe : 0 < ε / b.radius := div_pos hε hr
      rcases h0.eq_or_lt with hz | hz
      · refine contr j 0.99 (by norm_num) (by norm_num) fun n _ => ?_
        obtain ⟨c, e, -, -, -, c4, -⟩ := step n
        have : c = 0.01 := by
          rcases c4 with h | ⟨-, -, h⟩
          · exact h
          · rw [← hz] at h; exact absurd h (lt_irrefl _)
        rw [e, this]
        norm_num
      · let γ := min 0.01 (b.strength * (1 - D j / b.radius))
        have γ0 : 0 < γ := lt_min (by norm_num) (mul_pos hz (by linarith))
        have γ1 : γ ≤ 0.01 := min_le_left _ _
        have hqε : ε / b.radius ≤ D j / b.radius := div_le_div_of_nonneg_right (hc j) hr.le
        refine contr j (max (1 - γ) (1 - 2 * (ε / b.radius))) (le_max_of_le_left (by norm_num at γ1; linarith))
          (max_lt (by linarith) (by linarith)) fun n hn => ?_
        obtain ⟨c, e, c0, c3, c2, c4, -⟩ := step n
        have hDn : D n ≤ D j := anti hn
        have hcγ : γ ≤ c := by
          rcases c4 with h | ⟨-, h, -⟩
          · rw [h]; exact γ1
          · refine (min_le_right _ _).trans (le_trans ?_ h)
            have : D n / b.radius ≤ D j / b.radius := div_le_div_of_nonneg_right hDn hr.le
            exact mul_le_mul_of_nonneg_left (by linarith) h0
        have hεn : ε / b.radius ≤ D n / b.radius := div_le_div_of_nonneg_right (hc n) hr.le
        rw [e]
        refine mul_le_mul_of_nonneg_left ?_ (D0 n)
        rcases le_max_iff.1 (c3 (hε.trans_le (hc n))) with h | h
        · rw [abs_of_nonneg (by linarith)]
          exact le_max_of_le_left (by linarith)
        · rw [abs_le]
          have m1 := le_max_left (1 - γ) (1 - 2 * (ε / b.radius))
          have m2 := le_max_right (1 - γ) (1 - 2 * (ε / b.radius))
          constructor <;> linarith
    · push Not at hin
      refine contr 0 0.99 (by norm_num) (by norm_num) fun n _ => ?_
      obtain ⟨c, e, -, -, -, -, c5⟩ := step n
      rw [e, c5 (hin n)]
      norm_num
  rw [Metric.tendsto_atTop]
  intro ε hε
  obtain ⟨N, hN⟩ := small ε hε
  refine ⟨N, fun n hn => ?_⟩
  rw [Real.dist_eq, sub_zero, abs_of_nonneg (D0 n)]
  exact (anti hn).trans_lt hN

/-! ### Rates -/

/-- **C67, the rate.** For positive frequencies the rate is the force scaled by the smaller frequency over the larger, and 0 at and beyond
the radius. -/
theorem C67_rate (b : Basin ℝ) (s : State ℝ) (hr : 0 < b.radius) (hs : 0 < s.frequency) (ht : 0 < b.target.frequency) :
    (b.radius ≤ b.distance s → b.rate s = 0) ∧
    (b.distance s < b.radius → b.rate s = b.force s * ((min s.frequency b.target.frequency : ℤ) / (max s.frequency b.target.frequency : ℤ))) := by
  have e0 : ¬ (b.radius == 0) = true := by simpa using hr.ne'
  constructor
  · intro h
    unfold Basin.rate
    rw [if_neg e0, if_pos h]
  · intro h
    unfold Basin.rate
    rw [if_neg e0, if_neg (not_le.2 h)]
    congr 1
    unfold Basin.alignment
    have h1 : (0 : ℝ) < s.frequency := by exact_mod_cast hs
    have h2 : (0 : ℝ) < b.target.frequency := by exact_mod_cast ht
    simp only [fmax_real, ofInt_real, GoMath.abs_real]
    rw [if_pos (lt_max_of_lt_left h1)]
    push_cast
    rcases le_total (s.frequency : ℝ) b.target.frequency with h | h
    · rw [max_eq_right h, min_eq_left h, abs_of_nonpos (by linarith)]
      field_simp
      ring
    · rw [max_eq_left h, min_eq_right h, abs_of_nonneg (by linarith)]
      field_simp
      ring

example : ∃ (b : Basin ℝ) (s : State ℝ), 0 < b.radius ∧ 0 < b.strength ∧ b.strength ≤ 1 ∧ ¬ SpecialPair b.target.phase s.phase ∧
    ¬ Boosted b s ∧ 0 < b.distance s ∧ b.distance s < b.radius ∧ 1e-10 ≤ |b.target.phase| ∧ 1e-10 ≤ |b.target.phase - 3 * π / 2| := by
  have hp := Real.pi_gt_three
  have hd : IsCircDist (2 : ℝ) 1 1 := by
    have := isCircDist_of_small (x := (2 : ℝ)) (t := 1) (e := 1) ⟨0, by norm_num⟩ (by norm_num; linarith)
    rwa [abs_one] at this
  have e : (Basin.mk (State.mk 1 1 1) 0.5 2 : Basin ℝ).distance ⟨2, 1, 1⟩ = 1 := circDist_unique (C67_distance _ _).1 hd
  refine ⟨⟨⟨1, 1, 1⟩, 0.5, 2⟩, ⟨2, 1, 1⟩, by norm_num, by norm_num, by norm_num, ?_, ?_, by rw [e]; norm_num, by rw [e]; norm_num, by norm_num, ?_⟩
  · rintro (⟨h, -⟩ | ⟨-, h⟩)
    · norm_num at h
    · norm_num at h
  · rintro ⟨h, -⟩; norm_num at h
  · rw [abs_of_neg (by linarith)]; norm_num; linarith

end Verif
