import Verif.Lemmas.F64
import Mathlib.Analysis.Real.Pi.Bounds

/-! # The doubles nearest to π and 2π -/

set_option autoImplicit false

namespace Verif
open Rounding

/-- Doubles of magnitude at least `2^k` are multiples of `2^(k-52)`. -/
theorem isDouble_multiple {x : ℝ} (h : IsDouble x) (k : ℤ) (hk : (2 : ℝ) ^ k ≤ |x|) :
    ∃ j : ℤ, x = j * (2 : ℝ) ^ (k - 52) := by
  obtain ⟨m, e, hm, -, -, rfl⟩ := h
  have hm' : |(m : ℝ)| < 2 ^ (53 : ℤ) := by
    have : ((|m| : ℤ) : ℝ) < ((2 ^ 53 : ℤ) : ℝ) := by exact_mod_cast hm
    push_cast at this
    norm_num at this ⊢; exact this
  have hlt : (2 : ℝ) ^ k < 2 ^ (53 + e) := by
    refine hk.trans_lt ?_
    rw [abs_mul, abs_of_pos (by positivity : (0 : ℝ) < 2 ^ e), zpow_add₀ (by norm_num)]
    exact mul_lt_mul_of_pos_right hm' (by positivity)
  have hke : k < 53 + e := (zpow_lt_zpow_iff_right₀ (by norm_num : (1 : ℝ) < 2)).1 hlt
  obtain ⟨d, hd⟩ := Int.le.dest (show k - 52 ≤ e by omega)
  refine ⟨m * 2 ^ d, ?_⟩
  rw [← hd, zpow_add₀ (by norm_num)]
  push_cast; rw [zpow_natCast]; ring

/-- The double nearest to π, Go's `float64(math.Pi)`. -/
noncomputable def piDouble : ℝ := 884279719003555 / 2 ^ 48

theorem piDouble_isDouble : IsDouble piDouble :=
  ⟨884279719003555, -48, by norm_num, by norm_num, by norm_num, by
    unfold piDouble; rw [zpow_neg]; norm_num⟩

theorem two_piDouble_isDouble : IsDouble (2 * piDouble) :=
  ⟨884279719003555, -47, by norm_num, by norm_num, by norm_num, by
    unfold piDouble; rw [zpow_neg]; norm_num⟩

variable [Rounding]

theorem rnd_pi : rnd Real.pi = piDouble := by
  have h1 := Real.pi_gt_d20
  have h2 := Real.pi_lt_d20
  have hn := nearest Real.pi _ piDouble_isDouble
  have hp : |piDouble - Real.pi| < 13 / 10 ^ 17 := by
    rw [abs_lt]; unfold piDouble; constructor <;> linarith
  have hr := abs_lt.1 (hn.trans_lt hp)
  have hge : (2 : ℝ) ^ (1 : ℤ) ≤ |rnd Real.pi| := by
    rw [abs_of_pos (by linarith [hr.1])]; norm_num; linarith [hr.1]
  obtain ⟨j, hj⟩ := isDouble_multiple (isDouble Real.pi) 1 hge
  have e : (2 : ℝ) ^ ((1 : ℤ) - 52) = 1 / 2 ^ 51 := by
    rw [show (1 : ℤ) - 52 = -51 by norm_num, zpow_neg]; norm_num
  rw [e] at hj
  rw [hj] at hr ⊢
  have hj1 : (7074237752028439 : ℝ) < j := by
    have := hr.1; norm_num at this ⊢; linarith
  have hj2 : (j : ℝ) < 7074237752028441 := by
    have := hr.2; norm_num at this ⊢; linarith
  have hj1' : (7074237752028439 : ℤ) < j := by exact_mod_cast hj1
  have hj2' : j < (7074237752028441 : ℤ) := by exact_mod_cast hj2
  obtain rfl : j = 7074237752028440 := by omega
  unfold piDouble; norm_num

theorem rnd_two_pi : rnd (2 * Real.pi) = 2 * piDouble := by
  have h1 := Real.pi_gt_d20
  have h2 := Real.pi_lt_d20
  have hn := nearest (2 * Real.pi) _ two_piDouble_isDouble
  have hp : |2 * piDouble - 2 * Real.pi| < 26 / 10 ^ 17 := by
    rw [abs_lt]; unfold piDouble; constructor <;> linarith
  have hr := abs_lt.1 (hn.trans_lt hp)
  have hge : (2 : ℝ) ^ (2 : ℤ) ≤ |rnd (2 * Real.pi)| := by
    rw [abs_of_pos (by linarith [hr.1])]; norm_num; linarith [hr.1]
  obtain ⟨j, hj⟩ := isDouble_multiple (isDouble (2 * Real.pi)) 2 hge
  have e : (2 : ℝ) ^ ((2 : ℤ) - 52) = 1 / 2 ^ 50 := by
    rw [show (2 : ℤ) - 52 = -50 by norm_num, zpow_neg]; norm_num
  rw [e] at hj
  rw [hj] at hr ⊢
  have hj1 : (7074237752028439 : ℝ) < j := by
    have := hr.1; norm_num at this ⊢; linarith
  have hj2 : (j : ℝ) < 7074237752028441 := by
    have := hr.2; norm_num at this ⊢; linarith
  have hj1' : (7074237752028439 : ℤ) < j := by exact_mod_cast hj1
  have hj2' : j < (7074237752028441 : ℤ) := by exact_mod_cast hj2
  obtain rfl : j = 7074237752028440 := by omega
  unfold piDouble; norm_num

omit [Rounding] in
theorem piDouble_lt_pi : piDouble < Real.pi := by
  have h1 := Real.pi_gt_d20
  unfold piDouble; linarith

theorem F64.piMul_one [LibM] : (GoMath.piMul 1 : F64) = .fin ⟨piDouble, piDouble_isDouble⟩ := by
  change F64.ofReal (((1 : ℚ) : ℝ) * Real.pi) = _
  have h1 := Real.pi_gt_three
  have h2 := Real.pi_lt_d2
  unfold F64.ofReal
  rw [if_pos]
  · congr 1; ext1; push_cast; rw [one_mul, rnd_pi]
  · have := (isDouble_ofNat 7 (by norm_num)).abs_lt_overflow
    rw [abs_of_pos (by norm_num)] at this
    push_cast; rw [one_mul, abs_of_pos (by linarith)]; linarith

theorem F64.tau_eq : (F64.tau).1 = 2 * piDouble := rnd_two_pi

end Verif
