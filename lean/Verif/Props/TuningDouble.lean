import Verif.Props.PresetDouble
import Verif.Props.Tuning
import Verif.Lemmas.RoundErr

/-! # C117 in doubles: what tuning for a trait does to a configuration -/

set_option autoImplicit false
set_option linter.unusedSectionVars false

namespace Verif
open GoMath Spec

variable [Rounding] [LibM]

/-- The value of a double that is a number. -/
def Spec.value : F64 → Option ℝ
  | .fin d => some d.1
  | _ => none

/-- The value of a parameter, if it is a number; durations in nanoseconds. -/
def Spec.knobD (c : GoalConfig F64) : Knob → Option ℝ
  | .tolSmall => value c.toleranceSmall
  | .tolMedium => value c.toleranceMedium
  | .tolLarge => value c.toleranceLarge
  | .goal => value c.phaseConvergenceGoal
  | .pattern => value c.patternDistanceThreshold
  | .scale => value c.baseAdjustmentScale
  | .variance => value c.phaseVariance
  | .high => value c.highCoherence
  | .veryHigh => value c.veryHighCoherence
  | .moderate => value c.moderateCoherence
  | .varMin => value c.variationMin
  | .varMax => value c.variationMax
  | .factor => value c.coherenceFactor
  | .walk => value c.randomWalkMagnitude
  | .pertSize => value c.perturbationMagnitude
  | .pertChance => value c.perturbationChance
  | .iterations => value c.maxIterationsFactor
  | .interval => some c.updateInterval
  | .bonus => value c.explorationBonusMax
  | .window => some c.explorationTimeWindow
  | .exploration => value c.randomExploration
  | .noise => value c.noiseMagnitude
  | .affected => value c.affectedAgents
  | .activation => value c.activationRate

/-- Configurations of doubles with room for tuning: parameters that are numbers, not extremely small and not extremely large. -/
structure Spec.TunableD (c : GoalConfig F64) : Prop where
  num : ∀ k, ∃ v, knobD c k = some v ∧ (2 : ℝ) ^ (-1000 : ℤ) ≤ v ∧ v ≤ 2 ^ 50
  scale : c.baseAdjustmentScale < 1
  goal : c.phaseConvergenceGoal < 0.98
  interval : 20 * millisecond ≤ c.updateInterval

theorem value_some {x : F64} {v : ℝ} (h : value x = some v) : ∃ d : Dbl, x = .fin d ∧ d.1 = v := by
  cases x <;> simp [value] at h
  exact ⟨_, rfl, h⟩

theorem eta_small_knob {x : ℝ} (h : (2 : ℝ) ^ (-1000 : ℤ) ≤ x) : eta ≤ x / 1000 := by
  have : eta ≤ (2 : ℝ) ^ (-1000 : ℤ) / 1000 := by
    unfold eta
    rw [le_div_iff₀ (by norm_num)]
    calc _ ≤ (2 : ℝ) ^ (-1075 : ℤ) * 2 ^ (10 : ℤ) := by gcongr; norm_num
      _ = 2 ^ (-1065 : ℤ) := by rw [← zpow_add₀ (by norm_num)]; norm_num
      _ ≤ 2 ^ (-1000 : ℤ) := zpow_le_zpow_right₀ (by norm_num) (by norm_num)
  linarith

theorem mul_near {x f : Dbl} (h1 : (2 : ℝ) ^ (-1000 : ℤ) ≤ x.1) (h2 : x.1 ≤ 2 ^ 50) (f0 : 1 / 2 ≤ f.1) (f1 : f.1 ≤ 2) :
    ∃ w : Dbl, F64.fin x * F64.fin f = .fin w ∧ |w.1 - x.1 * f.1| ≤ x.1 / 100 := by
  have x0 : 0 < x.1 := lt_of_lt_of_le (by positivity) h1
  have p0 : 0 ≤ x.1 * f.1 := by positivity
  have hb : |x.1 * f.1| < 2 ^ (1023 : ℤ) := by
    rw [abs_of_nonneg p0]
    calc x.1 * f.1 ≤ 2 ^ 50 * 2 := mul_le_mul h2 f1 (by linarith) (by positivity)
      _ < 2 ^ (51 + 1 : ℤ) := by norm_num
      _ ≤ 2 ^ (1023 : ℤ) := zpow_le_zpow_right₀ (by norm_num) (by norm_num)
  obtain ⟨w, e, hw⟩ := F64.ofReal_err hb
  refine ⟨w, by rw [F64.mul_fin, e], hw.trans ?_⟩
  rw [abs_of_nonneg p0]
  have hu : ulp ≤ 1 / 1000 := by unfold ulp; norm_num
  have he := eta_small_knob h1
  have : ulp * (x.1 * f.1) ≤ 1 / 1000 * (x.1 * 2) := mul_le_mul hu (by nlinarith) p0 (by norm_num)
  linarith

theorem up_fin {x : Dbl} (h1 : (2 : ℝ) ^ (-1000 : ℤ) ≤ x.1) (h2 : x.1 ≤ 2 ^ 50) (f : ℝ) (f0 : 1.05 ≤ f) (f1 : f ≤ 1.9) :
    ∃ w : Dbl, F64.fin x * F64.ofReal f = .fin w ∧ Rises x.1 w.1 := by
  have a : IsDouble (33 / 32 : ℝ) := by have := dyadic 33 5 (by norm_num) (by norm_num); norm_num at this ⊢; exact this
  have b : IsDouble (31 / 16 : ℝ) := by have := dyadic 31 4 (by norm_num) (by norm_num); norm_num at this ⊢; exact this
  norm_num at f0 f1
  obtain ⟨d, e, d1, d2⟩ := FIn.lit a b (x := f) (by linarith) (by linarith)
  obtain ⟨w, ew, hw⟩ := mul_near h1 h2 (f := d) (by linarith) (by linarith)
  have x0 : 0 < x.1 := lt_of_lt_of_le (by positivity) h1
  obtain ⟨w1, w2⟩ := abs_le.1 hw
  refine ⟨w, by rw [e, ew], ?_, ?_⟩ <;> nlinarith

theorem down_fin {x : Dbl} (h1 : (2 : ℝ) ^ (-1000 : ℤ) ≤ x.1) (h2 : x.1 ≤ 2 ^ 50) (f : ℝ) (f0 : 0.6 ≤ f) (f1 : f ≤ 0.9) :
    ∃ w : Dbl, F64.fin x * F64.ofReal f = .fin w ∧ Falls 0 x.1 w.1 := by
  have a : IsDouble (9 / 16 : ℝ) := by have := dyadic 9 4 (by norm_num) (by norm_num); norm_num at this ⊢; exact this
  have b : IsDouble (15 / 16 : ℝ) := by have := dyadic 15 4 (by norm_num) (by norm_num); norm_num at this ⊢; exact this
  norm_num at f0 f1
  obtain ⟨d, e, d1, d2⟩ := FIn.lit a b (x := f) (by linarith) (by linarith)
  obtain ⟨w, ew, hw⟩ := mul_near h1 h2 (f := d) (by linarith) (by linarith)
  have x0 : 0 < x.1 := lt_of_lt_of_le (by positivity) h1
  obtain ⟨w1, w2⟩ := abs_le.1 hw
  refine ⟨w, by rw [e, ew], ?_, ?_⟩ <;> nlinarith

/-- Halving is exact. -/
theorem half_fin {x : Dbl} (h1 : (2 : ℝ) ^ (-1000 : ℤ) ≤ x.1) : ∃ w : Dbl, F64.fin x * F64.ofReal 0.5 = .fin w ∧ Falls 0 x.1 w.1 := by
  have x0 : 0 < x.1 := lt_of_lt_of_le (by positivity) h1
  have hh : IsDouble (0.5 : ℝ) := by have := dyadic 1 1 (by norm_num) (by norm_num); norm_num at this ⊢; exact this
  have hx : IsDouble (x.1 * 0.5) := by
    obtain ⟨m, e, hm, e1, e2, hv⟩ := x.2
    refine ⟨m, e - 1, hm, ?_, by omega, ?_⟩
    · by_contra hc
      have he : e ≤ -1074 := by omega
      have h3 : x.1 ≤ 2 ^ (53 : ℤ) * 2 ^ (-1074 : ℤ) := by
        rw [hv]
        have hm' : (m : ℝ) ≤ 2 ^ (53 : ℤ) := by
          have : m ≤ 2 ^ 53 := (le_abs_self m).trans hm.le
          exact_mod_cast this
        exact mul_le_mul hm' (zpow_le_zpow_right₀ (by norm_num) he) (by positivity) (by positivity)
      rw [← zpow_add₀ (by norm_num)] at h3
      have h4 : (2 : ℝ) ^ (53 + -1074 : ℤ) < 2 ^ (-1000 : ℤ) := zpow_lt_zpow_right₀ (by norm_num) (by norm_num)
      linarith
    · rw [hv, zpow_sub_one₀ (by norm_num)]; norm_num; ring
  refine ⟨⟨_, hx⟩, ?_, ?_, ?_⟩
  · rw [F64.ofReal_of_isDouble hh, F64.mul_fin, F64.ofReal_of_isDouble hx]
  · show x.1 * 0.5 < x.1
    norm_num; linarith
  · show x.1 ≤ 2 * (x.1 * 0.5) + 0
    norm_num; linarith

/-- A scaled duration is between whole numbers of nanoseconds between which the exact product is. -/
theorem scaleDuration_between (d lo hi : ℤ) (h0 : 0 ≤ d) (h1 : d ≤ 2 ^ 50) (f : Dbl) (hl : 0 ≤ lo) (hh : hi ≤ 2 ^ 51) (k1 : (lo : ℝ) ≤ d * f.1) (k2 : d * f.1 ≤ hi) :
    lo ≤ scaleDuration d (F64.fin f) ∧ scaleDuration d (F64.fin f) ≤ hi := by
  have hd : IsDouble (d : ℝ) := isDouble_int (by rw [abs_of_nonneg h0]; omega)
  have e1 : (GoMath.ofInt d : F64) = .fin ⟨d, hd⟩ := F64.ofReal_of_isDouble hd
  have hlh : lo ≤ hi := by exact_mod_cast k1.trans k2
  unfold scaleDuration
  rw [e1, F64.mul_fin]
  obtain ⟨r, er, r1, r2⟩ := F64.ofReal_int_between (x := (d : ℝ) * f.1) lo hi (by rw [abs_of_nonneg hl]; omega) (by rw [abs_of_nonneg (by omega)]; omega) k1 k2
  rw [er]
  show lo ≤ F64.toInt (.fin r) ∧ F64.toInt (.fin r) ≤ hi
  have hr0 : 0 ≤ r.1 := le_trans (by exact_mod_cast hl) r1
  have ht : rtrunc r.1 = ⌊r.1⌋ := by unfold rtrunc; rw [if_pos hr0]
  have hf0 : lo ≤ ⌊r.1⌋ := Int.le_floor.2 r1
  have hf1 : ⌊r.1⌋ ≤ hi := by
    have := Int.floor_le r.1
    exact_mod_cast this.trans r2
  unfold F64.toInt
  dsimp only
  rw [ht, if_pos ⟨by omega, by omega⟩]
  exact ⟨hf0, hf1⟩

theorem scale_up_fin (d : ℤ) (h : 20 * millisecond ≤ d) (h1 : d ≤ 2 ^ 50) (f : ℝ) (f0 : 1.5 ≤ f) (f1 : f ≤ 2) :
    Rises (d : ℝ) (scaleDuration d (F64.ofReal f) : ℤ) := by
  have a : IsDouble (3 / 2 : ℝ) := by have := dyadic 3 1 (by norm_num) (by norm_num); norm_num at this ⊢; exact this
  have b : IsDouble (2 : ℝ) := by simpa using isDouble_int (n := 2) (by norm_num)
  norm_num at f0
  obtain ⟨g, e, g1, g2⟩ := FIn.lit a b f0 f1
  have hd : (20000000 : ℝ) ≤ d := by exact_mod_cast h
  have h0 : 0 ≤ d := by exact_mod_cast (show (0 : ℝ) ≤ d by linarith)
  obtain ⟨k1, k2⟩ := scaleDuration_between d (d + 1) (2 * d) h0 h1 g (by omega) (by omega) (by push_cast; nlinarith) (by push_cast; nlinarith)
  rw [e]
  have k1' : ((d + 1 : ℤ) : ℝ) ≤ (scaleDuration d (F64.fin g) : ℤ) := by exact_mod_cast k1
  have k2' : ((scaleDuration d (F64.fin g) : ℤ) : ℝ) ≤ ((2 * d : ℤ) : ℝ) := by exact_mod_cast k2
  push_cast at k1' k2'
  exact ⟨by linarith, k2'⟩

theorem scale_down_fin (d : ℤ) (h : 20 * millisecond ≤ d) (h1 : d ≤ 2 ^ 50) (f : ℝ) (f0 : 0.5 ≤ f) (f1 : f ≤ 0.7) :
    Falls 1 (d : ℝ) (scaleDuration d (F64.ofReal f) : ℤ) := by
  have a : IsDouble (1 / 2 : ℝ) := by have := dyadic 1 1 (by norm_num) (by norm_num); norm_num at this ⊢; exact this
  have b : IsDouble (3 / 4 : ℝ) := by have := dyadic 3 2 (by norm_num) (by norm_num); norm_num at this ⊢; exact this
  norm_num at f0 f1
  obtain ⟨g, e, g1, g2⟩ := FIn.lit a b (x := f) (by linarith) (by linarith)
  have hd : (20000000 : ℝ) ≤ d := by exact_mod_cast h
  have h0 : 0 ≤ d := by exact_mod_cast (show (0 : ℝ) ≤ d by linarith)
  have hq : ((d / 2 : ℤ) : ℝ) ≤ (d : ℝ) / 2 := by
    rw [le_div_iff₀ (by norm_num)]
    have := Int.ediv_mul_le d (b := 2) (by norm_num)
    exact_mod_cast this
  obtain ⟨k1, k2⟩ := scaleDuration_between d (d / 2) (d - 1) h0 h1 g (by omega) (by omega) (by nlinarith) (by push_cast; nlinarith)
  rw [e]
  generalize scaleDuration d (F64.fin g) = s at k1 k2
  exact ⟨by exact_mod_cast (by omega : s < d), by exact_mod_cast (by omega : d ≤ 2 * s + 1)⟩

theorem min_up_fin {x : Dbl} (h1 : (2 : ℝ) ^ (-1000 : ℤ) ≤ x.1) (h2 : x.1 ≤ 2 ^ 50) (f : ℝ) (f0 : 1.05 ≤ f) (f1 : f ≤ 1.9) (m : F64) (hm : F64.fin x < m)
    (hm' : ∃ d, m = .fin d) : ∃ w : Dbl, minFloat m (F64.fin x * F64.ofReal f) = .fin w ∧ Rises x.1 w.1 := by
  obtain ⟨d, rfl⟩ := hm'
  obtain ⟨w, e, hr⟩ := up_fin h1 h2 f f0 f1
  rw [e]
  unfold minFloat
  rw [F64.lt_fin] at hm
  split_ifs with h
  · rw [F64.lt_fin] at h
    exact ⟨d, rfl, hm, h.le.trans hr.2⟩
  · exact ⟨w, rfl, hr⟩

/-- **C117, in doubles.** Tuning a configuration for a trait raises and lowers the parameters that belong to the trait, strictly and by at most a factor of two in spite of
rounding, and leaves all others alone. -/
theorem C117_levers_double (c : GoalConfig F64) (h : TunableD c) (t : ℤ) (k : Knob) :
    ∃ v w, knobD c k = some v ∧ knobD (c.tuneFor t) k = some w ∧ (k ∈ raised t → Rises v w) ∧ (k ∈ lowered t → Falls (grain k) v w) ∧
      (k ∉ raised t → k ∉ lowered t → w = v) := by
  obtain ⟨v, hv, v1, v2⟩ := h.num k
  have e3 := h.scale
  have e4 := h.goal
  obtain ⟨_, i0, -, i1⟩ := h.num .interval
  have i2 : c.updateInterval ≤ 2 ^ 50 := by
    cases i0
    exact_mod_cast i1
  have u := fun f h1 h2 => scale_up_fin c.updateInterval h.interval i2 f h1 h2
  have d := fun f h1 h2 => scale_down_fin c.updateInterval h.interval i2 f h1 h2
  have up : ∀ (x y : F64), value x = some v → (∀ d : Dbl, x = .fin d → (2 : ℝ) ^ (-1000 : ℤ) ≤ d.1 → d.1 ≤ 2 ^ 50 → ∃ w : Dbl, y = .fin w ∧ Rises d.1 w.1) →
      ∃ w, value y = some w ∧ Rises v w := by
    intro x y hx hy
    obtain ⟨d, rfl, rfl⟩ := value_some hx
    obtain ⟨w, rfl, hw⟩ := hy d rfl v1 v2
    exact ⟨w.1, rfl, hw⟩
  have down : ∀ (x y : F64), value x = some v → (∀ d : Dbl, x = .fin d → (2 : ℝ) ^ (-1000 : ℤ) ≤ d.1 → d.1 ≤ 2 ^ 50 → ∃ w : Dbl, y = .fin w ∧ Falls 0 d.1 w.1) →
      ∃ w, value y = some w ∧ Falls 0 v w := by
    intro x y hx hy
    obtain ⟨d, rfl, rfl⟩ := value_some hx
    obtain ⟨w, rfl, hw⟩ := hy d rfl v1 v2
    exact ⟨w.1, rfl, hw⟩
  rcases trait_cases t with rfl | rfl | rfl | rfl | rfl | rfl | ht
  pick_goal 7
  · have h1 : c.tuneFor t = c := by unfold GoalConfig.tuneFor; split <;> first | omega | rfl
    obtain ⟨-, h2, h3⟩ := tuneFor_other (defaultConfig : GoalConfig ℝ) ht
    rw [h1, h2, h3]
    exact ⟨v, v, hv, hv, by simp, by simp, fun _ _ => rfl⟩
  all_goals
    refine ⟨v, ?_⟩
    cases k <;> simp only [raised, lowered, List.mem_cons, List.not_mem_nil, or_false, or_self, or_true, reduceCtorEq, not_true_eq_false, not_false_eq_true,
      true_implies, false_implies, and_true, true_and, knobD, GoalConfig.tuneFor, grain] at hv ⊢ <;>
    first
      | exact ⟨v, hv, hv, rfl⟩
      | exact ⟨v, hv, rfl⟩
      | (refine (down _ _ hv ?_).imp fun w hw => ⟨hv, hw⟩
         rintro d e d1 d2; rw [e]; exact half_fin d1)
      | (refine (up _ _ hv ?_).imp fun w hw => ⟨hv, hw⟩
         rintro d e d1 d2; rw [e]; exact up_fin d1 d2 _ (by norm_num) (by norm_num))
      | (refine (down _ _ hv ?_).imp fun w hw => ⟨hv, hw⟩
         rintro d e d1 d2; rw [e]; exact down_fin d1 d2 _ (by norm_num) (by norm_num))
      | (cases hv; exact ⟨_, rfl, rfl, u _ (by norm_num) (by norm_num)⟩)
      | (cases hv; exact ⟨_, rfl, rfl, d _ (by norm_num) (by norm_num)⟩)
      | (refine (up _ _ hv ?_).imp fun w hw => ⟨hv, hw⟩
         rintro d e d1 d2; rw [e]; exact min_up_fin d1 d2 _ (by norm_num) (by norm_num) 1 (e ▸ h.scale) ⟨_, rfl⟩)
      | (refine (up _ _ hv ?_).imp fun w hw => ⟨hv, hw⟩
         rintro d e d1 d2; rw [e]
         exact min_up_fin d1 d2 _ (by norm_num) (by norm_num) _ (e ▸ h.goal) (let ⟨d, e, _⟩ := lit01 0.98 (by norm_num) (by norm_num); ⟨d, e⟩))

theorem lit_num (x : ℝ) (h1 : 1 / 2 ^ 20 ≤ x) (h2 : x ≤ 2 ^ 20) : ∃ v, value (F64.ofReal x) = some v ∧ (2 : ℝ) ^ (-1000 : ℤ) ≤ v ∧ v ≤ 2 ^ 50 := by
  have a : IsDouble (1 / 2 ^ 20 : ℝ) := by have := dyadic 1 20 (by norm_num) (by norm_num); norm_num at this ⊢; exact this
  have b : IsDouble (2 ^ 20 : ℝ) := by have := isDouble_int (n := 2 ^ 20) (by norm_num); norm_num at this ⊢; exact this
  obtain ⟨d, e, d1, d2⟩ := FIn.lit a b h1 h2
  refine ⟨d.1, by rw [e]; rfl, le_trans ?_ d1, d2.trans (by norm_num)⟩
  calc (2 : ℝ) ^ (-1000 : ℤ) ≤ 2 ^ (-20 : ℤ) := zpow_le_zpow_right₀ (by norm_num) (by norm_num)
    _ = 1 / 2 ^ 20 := by norm_num

theorem int_num (n : ℤ) (h1 : 1 ≤ n) (h2 : n ≤ 2 ^ 50) : ∃ v, some (n : ℝ) = some v ∧ (2 : ℝ) ^ (-1000 : ℤ) ≤ v ∧ v ≤ 2 ^ 50 := by
  refine ⟨n, rfl, ?_, by exact_mod_cast h2⟩
  calc (2 : ℝ) ^ (-1000 : ℤ) ≤ 2 ^ (0 : ℤ) := zpow_le_zpow_right₀ (by norm_num) (by norm_num)
    _ = 1 := by norm_num
    _ ≤ n := by exact_mod_cast h1

/-- Literals on both sides of a double are ordered like it. -/
theorem lit_apart {x y : ℝ} (n m : ℤ) (h1 : x ≤ n / 2 ^ 8) (h2 : n < m) (h3 : m / 2 ^ 8 ≤ y) (h0 : 0 ≤ x) (h4 : y ≤ 1) (hn : |n| < 2 ^ 53) (hm : |m| < 2 ^ 53) :
    F64.ofReal x < F64.ofReal y := by
  obtain ⟨a, e1, -, a2⟩ := FIn.lit isDouble_zero (dyadic n 8 hn (by norm_num)) h0 h1
  obtain ⟨b, e2, b1, -⟩ := FIn.lit (dyadic m 8 hm (by norm_num)) isDouble_one h3 h4
  rw [e1, e2, F64.lt_fin]
  refine a2.trans_lt (lt_of_lt_of_le ?_ b1)
  have : (n : ℝ) < m := by exact_mod_cast h2
  gcongr

theorem one_is_lit : (1 : F64) = F64.ofReal 1 := by rw [F64.ofReal_of_isDouble isDouble_one]; rfl

/-- **C117, in doubles.** This applies to the presets of all goals. -/
theorem C117_presets_double (g : ℤ) : TunableD (configFor g : GoalConfig F64) := by
  unfold configFor
  split <;> refine ⟨fun k => ?_, by rw [one_is_lit]; refine lit_apart 236 256 ?_ ?_ ?_ ?_ ?_ ?_ ?_ <;> norm_num, by
    refine lit_apart 249 250 ?_ ?_ ?_ ?_ ?_ ?_ ?_ <;> norm_num, ?_⟩
  all_goals try (simp only [minAPIConfig, distLoadConfig, consensusConfig, latencyConfig, energyConfig, rhythmConfig,
      recoveryConfig, trafficConfig, defaultConfig, millisecond, second]; norm_num; done)
  all_goals
    cases k <;> first
      | exact lit_num _ (by norm_num) (by norm_num)
      | (refine int_num _ ?_ ?_ <;> simp only [minAPIConfig, distLoadConfig, consensusConfig, latencyConfig, energyConfig, rhythmConfig,
          recoveryConfig, trafficConfig, defaultConfig, millisecond, second] <;> norm_num)

/-- The preset for consensus, tuned for speed: the base scale of adjustments rises, but at most to the double, and the update interval falls. -/
example : ∃ v w, knobD (configFor 2 : GoalConfig F64) .scale = some v ∧ knobD ((configFor 2 : GoalConfig F64).tuneFor 1) .scale = some w ∧ v < w ∧ w ≤ 2 * v := by
  obtain ⟨v, w, h1, h2, h3, -⟩ := C117_levers_double _ (C117_presets_double 2) 1 .scale
  exact ⟨v, w, h1, h2, h3 (by decide)⟩

end Verif
