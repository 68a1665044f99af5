import Verif.Num.Real
import Verif.Model.Core
import Verif.Spec.Circle
import Mathlib.Analysis.SpecialFunctions.Complex.Arg

/-! # Lemmas: phases over ℝ -/

set_option autoImplicit false

namespace Verif
open Real Spec GoMath

theorem two_pi_cast : (piMul 2 : ℝ) = 2 * π := by simp

/-- Truncated remainder followed by a shift and a second remainder is the floor remainder. -/
theorem wrapPhase_eq_floor (p : ℝ) : wrapPhase p = p - 2 * π * ⌊p / (2 * π)⌋ := by
  have hy : (0 : ℝ) < 2 * π := Real.two_pi_pos
  unfold wrapPhase
  rw [two_pi_cast]
  generalize 2 * π = y at *
  simp only [GoMath.mod_real]
  unfold rtrunc
  by_cases h0 : 0 ≤ p / y
  · rw [if_pos h0]
    have hf : (p - y * ⌊p / y⌋ + y) / y = p / y - ⌊p / y⌋ + 1 := by field_simp
    have h1 : ⌊(p - y * ⌊p / y⌋ + y) / y⌋ = 1 := by
      rw [hf, Int.floor_eq_iff]
      have := Int.floor_le (p / y); have := Int.lt_floor_add_one (p / y)
      push_cast; constructor <;> linarith
    have h2 : 0 ≤ (p - y * ⌊p / y⌋ + y) / y := by
      rw [hf]; have := Int.floor_le (p / y); linarith
    rw [if_pos h2, h1]; push_cast; ring
  · rw [if_neg h0]
    have hf : (p - y * ⌈p / y⌉ + y) / y = p / y - ⌈p / y⌉ + 1 := by field_simp
    have hc1 := Int.le_ceil (p / y)
    have hc2 := Int.ceil_lt_add_one (p / y)
    have h2 : 0 ≤ (p - y * ⌈p / y⌉ + y) / y := by rw [hf]; linarith
    rw [if_pos h2]
    by_cases hi : p / y = ⌈p / y⌉
    · have hfl : ⌊p / y⌋ = ⌈p / y⌉ := by
        rw [Int.floor_eq_iff]; constructor <;> linarith
      have h1 : ⌊(p - y * ⌈p / y⌉ + y) / y⌋ = 1 := by
        rw [hf, Int.floor_eq_iff]; push_cast; constructor <;> linarith
      rw [h1, hfl]; push_cast; ring
    · have hlt : p / y < ⌈p / y⌉ := lt_of_le_of_ne hc1 hi
      have hfl : ⌊p / y⌋ = ⌈p / y⌉ - 1 := by
        rw [Int.floor_eq_iff]; push_cast; constructor <;> linarith
      have h1 : ⌊(p - y * ⌈p / y⌉ + y) / y⌋ = 0 := by
        rw [hf, Int.floor_eq_iff]; push_cast; constructor <;> linarith
      rw [h1, hfl]; push_cast; ring

theorem wrapPhase_nonneg (p : ℝ) : 0 ≤ wrapPhase p := by
  rw [wrapPhase_eq_floor]
  have hy : (0 : ℝ) < 2 * π := Real.two_pi_pos
  have h := Int.floor_le (p / (2 * π))
  have := (le_div_iff₀ hy).mp h
  linarith

theorem wrapPhase_lt (p : ℝ) : wrapPhase p < 2 * π := by
  rw [wrapPhase_eq_floor]
  have hy : (0 : ℝ) < 2 * π := Real.two_pi_pos
  have h := Int.lt_floor_add_one (p / (2 * π))
  have := (div_lt_iff₀ hy).mp h
  linarith

theorem wrapPhase_sameAngle (p : ℝ) : SameAngle (wrapPhase p) p :=
  ⟨-⌊p / (2 * π)⌋, by rw [wrapPhase_eq_floor]; push_cast; ring⟩

theorem wrapPhase_unique {p q : ℝ} (h : SameAngle q p) (h0 : 0 ≤ q) (h1 : q < 2 * π) : wrapPhase p = q :=
  ((wrapPhase_sameAngle p).trans h.symm).eq_of_Ico (wrapPhase_nonneg p) (wrapPhase_lt p) h0 h1

theorem wrapPhase_of_mem {p : ℝ} (h0 : 0 ≤ p) (h1 : p < 2 * π) : wrapPhase p = p :=
  wrapPhase_unique (SameAngle.refl p) h0 h1

/-- The inputs for which `PhaseDifference` takes one of its hard-wired branches. -/
def SpecialPair (p1 p2 : ℝ) : Prop :=
  (|p1| < 1e-10 ∧ |p2 - 3 * π / 2| < 1e-10) ∨ (|p1 - 3 * π / 2| < 1e-10 ∧ |p2| < 1e-10)

/-- The principal value used outside the special pairs. -/
noncomputable def principal (d : ℝ) : ℝ := Complex.arg ⟨Real.cos d, Real.sin d⟩

theorem principal_eq (d : ℝ) : principal d = toIocMod Real.two_pi_pos (-π) d := by
  unfold principal
  have : (⟨Real.cos d, Real.sin d⟩ : ℂ) = Complex.cos d + Complex.sin d * Complex.I := by
    rw [← Complex.ofReal_cos, ← Complex.ofReal_sin]
    apply Complex.ext <;> simp [Complex.cos_ofReal_re, Complex.sin_ofReal_re]
  rw [this, Complex.arg_cos_add_sin_mul_I_eq_toIocMod]

theorem principal_gt (d : ℝ) : -π < principal d := by
  rw [principal_eq]; exact (toIocMod_mem_Ioc Real.two_pi_pos (-π) d).1

theorem principal_le (d : ℝ) : principal d ≤ π := by
  rw [principal_eq]; have := (toIocMod_mem_Ioc Real.two_pi_pos (-π) d).2; linarith

theorem principal_sameAngle (d : ℝ) : SameAngle (principal d) d := by
  rw [principal_eq]
  refine ⟨-toIocDiv Real.two_pi_pos (-π) d, ?_⟩
  have := toIocMod_add_toIocDiv_zsmul Real.two_pi_pos (-π) d
  rw [zsmul_eq_mul] at this
  push_cast; linarith

theorem principal_shortest (d : ℝ) (k : ℤ) : |principal d| ≤ |d + k * (2 * π)| := by
  obtain ⟨j, hj⟩ := (principal_sameAngle d).symm
  have h1 := principal_gt d
  have h2 := principal_le d
  have hp := Real.pi_pos
  have e : d + k * (2 * π) = principal d + (j + k : ℤ) * (2 * π) := by
    push_cast; linarith
  rw [e]
  generalize j + k = m
  rcases lt_trichotomy m 0 with hm | hm | hm
  · have : (m : ℝ) ≤ -1 := by exact_mod_cast (by omega : m ≤ -1)
    have h3 : principal d + m * (2 * π) ≤ -π := by nlinarith
    rw [abs_of_nonpos (by linarith : principal d + m * (2 * π) ≤ 0)]
    rw [abs_le]; constructor <;> linarith
  · subst hm; simp
  · have : (1 : ℝ) ≤ m := by exact_mod_cast (by omega : 1 ≤ m)
    have h3 : π ≤ principal d + m * (2 * π) := by nlinarith
    rw [abs_of_nonneg (by linarith : 0 ≤ principal d + m * (2 * π))]
    rw [abs_le]; constructor <;> linarith

theorem phaseDifference_eq (p1 p2 : ℝ) :
    phaseDifference p1 p2 =
      if |p1| < 1e-10 ∧ |p2 - 3 * π / 2| < 1e-10 then -(π / 2)
      else if |p1 - 3 * π / 2| < 1e-10 ∧ |p2| < 1e-10 then π / 2
      else principal (p1 - p2) := by
  unfold phaseDifference principal
  have e1 : (piMul (3 / 2) : ℝ) = 3 * π / 2 := by simp; ring
  have e2 : (piMul (-1 / 2) : ℝ) = -(π / 2) := by simp; ring
  have e3 : (piMul (1 / 2) : ℝ) = π / 2 := by simp; ring
  simp only [e1, e2, e3, GoMath.abs_real, GoMath.atan2_real, GoMath.sin_real, GoMath.cos_real]

theorem phaseDifference_eq_principal {p1 p2 : ℝ} (h : ¬ SpecialPair p1 p2) :
    phaseDifference p1 p2 = principal (p1 - p2) := by
  unfold SpecialPair at h
  push Not at h
  rw [phaseDifference_eq, if_neg (by rintro ⟨a, b⟩; exact absurd b (not_lt.mpr (h.1 a))),
    if_neg (by rintro ⟨a, b⟩; exact absurd b (not_lt.mpr (h.2 a)))]

theorem phaseDifference_gt (p1 p2 : ℝ) : -π < phaseDifference p1 p2 := by
  rw [phaseDifference_eq]; have := Real.pi_pos
  split_ifs
  · linarith
  · linarith
  · exact principal_gt _

theorem phaseDifference_le (p1 p2 : ℝ) : phaseDifference p1 p2 ≤ π := by
  rw [phaseDifference_eq]; have := Real.pi_pos
  split_ifs
  · linarith
  · linarith
  · exact principal_le _

theorem abs_phaseDifference_le (p1 p2 : ℝ) : |phaseDifference p1 p2| ≤ π :=
  abs_le.mpr ⟨(phaseDifference_gt p1 p2).le, phaseDifference_le p1 p2⟩

theorem phaseDifference_shortestRotation {p1 p2 : ℝ} (h : ¬ SpecialPair p1 p2) :
    ShortestRotation p2 p1 (phaseDifference p1 p2) := by
  rw [phaseDifference_eq_principal h]
  refine ⟨?_, principal_gt _, principal_le _, ?_⟩
  · have := (principal_sameAngle (p1 - p2)).add_right p2
    rw [sub_add_cancel, add_comm] at this
    exact this
  · rintro d' ⟨k, hk⟩
    have : d' = p1 - p2 + k * (2 * π) := by linarith
    rw [this]; exact principal_shortest _ k

end Verif
