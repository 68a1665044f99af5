import Verif.Num.F64
import Verif.Lemmas.F64
import Mathlib.Data.Int.Log
import Mathlib.Algebra.Order.Round

/-!
# How far a rounded result can be from the exact one

The standard error bound of binary64, from the definition of round-to-nearest alone (any tie rule):
`|rnd x - x| ≤ 2^-53 |x| + 2^-1075` for every `x` below `2^1023`.
-/

set_option autoImplicit false

namespace Verif

/-- Half a unit in the last place, `2^-53`. -/
noncomputable def ulp : ℝ := 2 ^ (-53 : ℤ)

/-- Half of the smallest positive double, `2^-1075`. -/
noncomputable def eta : ℝ := 2 ^ (-1075 : ℤ)

theorem ulp_pos : 0 < ulp := by unfold ulp; positivity
theorem eta_pos : 0 < eta := by unfold eta; positivity

/-- A multiple of a power of two is near every real. -/
theorem near_multiple (x : ℝ) (e : ℤ) : |(round (x / 2 ^ e) : ℝ) * 2 ^ e - x| ≤ 2 ^ (e - 1) := by
  have hp : (0 : ℝ) < 2 ^ e := by positivity
  have h := abs_sub_round (x / 2 ^ e)
  have : (round (x / 2 ^ e) : ℝ) * 2 ^ e - x = -((x / 2 ^ e - round (x / 2 ^ e)) * 2 ^ e) := by
    field_simp; ring
  rw [this, abs_neg, abs_mul, abs_of_pos hp, zpow_sub₀ (by norm_num), zpow_one]
  calc _ ≤ 1 / 2 * (2 : ℝ) ^ e := by gcongr
    _ = _ := by ring

/-- The multiplier has at most 53 bits. -/
theorem round_bits {x : ℝ} {e : ℤ} {k : ℕ} (h : |x| < 2 ^ (e + k)) : |round (x / 2 ^ e)| ≤ 2 ^ k := by
  have hp : (0 : ℝ) < 2 ^ e := by positivity
  have h1 : |x / 2 ^ e| < 2 ^ k := by
    rw [abs_div, abs_of_pos hp, div_lt_iff₀ hp, ← zpow_natCast, ← zpow_add₀ (by norm_num), add_comm]
    exact h
  rw [abs_lt] at h1
  rw [abs_le]
  constructor
  · have : round (-(2 : ℝ) ^ k) ≤ round (x / 2 ^ e) := by
      rw [round_eq, round_eq]; exact Int.floor_mono (by linarith)
    have e1 : round (-(2 : ℝ) ^ k) = -2 ^ k := by
      have : (-(2 : ℝ) ^ k) = ((-2 ^ k : ℤ) : ℝ) := by push_cast; ring
      rw [this, round_intCast]
    linarith
  · have : round (x / 2 ^ e) ≤ round ((2 : ℝ) ^ k) := by
      rw [round_eq, round_eq]; exact Int.floor_mono (by linarith)
    have e1 : round ((2 : ℝ) ^ k) = 2 ^ k := by
      have : ((2 : ℝ) ^ k) = ((2 ^ k : ℤ) : ℝ) := by push_cast; ring
      rw [this, round_intCast]
    linarith

/-- `m * 2^e` is a double also for `|m| = 2^53`, below the largest exponent. -/
theorem isDouble_le {m e : ℤ} (hm : |m| ≤ 2 ^ 53) (h1 : -1074 ≤ e) (h2 : e ≤ 970) : IsDouble ((m : ℝ) * 2 ^ e) := by
  rcases hm.lt_or_eq with h | h
  · exact ⟨m, e, h, h1, by omega, rfl⟩
  · rcases abs_eq (by norm_num : (0 : ℤ) ≤ 2 ^ 53) |>.1 h with rfl | rfl
    · refine ⟨2 ^ 52, e + 1, by norm_num, by omega, by omega, ?_⟩
      rw [zpow_add₀ (by norm_num)]; push_cast; ring
    · refine ⟨-2 ^ 52, e + 1, by norm_num, by omega, by omega, ?_⟩
      rw [zpow_add₀ (by norm_num)]; push_cast; ring

variable [Rounding]
open Rounding

/-- The error of rounding: relative `2^-53`, plus `2^-1075` for the subnormal numbers. -/
theorem rnd_err {x : ℝ} (hx : |x| < 2 ^ (1023 : ℤ)) : |rnd x - x| ≤ ulp * |x| + eta := by
  by_cases hs : |x| < 2 ^ (-1022 : ℤ)
  · have hd : IsDouble ((round (x / 2 ^ (-1074 : ℤ)) : ℝ) * 2 ^ (-1074 : ℤ)) :=
      isDouble_le ((round_bits (k := 52) (by simpa using hs)).trans (by norm_num)) (by norm_num) (by norm_num)
    have h1 := nearest x _ hd
    have h2 := near_multiple x (-1074)
    have h3 : (2 : ℝ) ^ (-1074 - 1 : ℤ) = eta := by unfold eta; norm_num
    exact h1.trans (h2.trans (h3.le.trans (le_add_of_nonneg_left (mul_nonneg ulp_pos.le (abs_nonneg x)))))
  · have hs := not_lt.1 hs
    have x0 : 0 < |x| := lt_of_lt_of_le (by positivity) hs
    set e := Int.log 2 |x| with he
    have l1 : (2 : ℝ) ^ e ≤ |x| := by simpa using Int.zpow_log_le_self (b := 2) (by norm_num) x0
    have l2 : |x| < (2 : ℝ) ^ (e + 1) := by simpa using Int.lt_zpow_succ_log_self (b := 2) (by norm_num) |x|
    have e1 : -1022 ≤ e := by
      have : (2 : ℝ) ^ (-1022 : ℤ) < 2 ^ (e + 1) := hs.trans_lt l2
      have := (zpow_lt_zpow_iff_right₀ (by norm_num : (1 : ℝ) < 2)).1 this
      omega
    have e2 : e < 1023 := (zpow_lt_zpow_iff_right₀ (by norm_num : (1 : ℝ) < 2)).1 (l1.trans_lt hx)
    have hd : IsDouble ((round (x / 2 ^ (e - 52)) : ℝ) * 2 ^ (e - 52)) :=
      isDouble_le (round_bits (k := 53) (by
        have : e - 52 + ((53 : ℕ) : ℤ) = e + 1 := by push_cast; ring
        rw [this]; exact l2)) (by omega) (by omega)
    have h1 := nearest x _ hd
    have h2 := near_multiple x (e - 52)
    have h3 : (2 : ℝ) ^ (e - 52 - 1) = ulp * 2 ^ e := by
      unfold ulp; rw [← zpow_add₀ (by norm_num)]; congr 1; ring
    have h4 : ulp * 2 ^ e ≤ ulp * |x| := mul_le_mul_of_nonneg_left l1 ulp_pos.le
    linarith [eta_pos]

namespace F64

omit [Rounding] in
theorem two1023_lt_overflow : (2 : ℝ) ^ (1023 : ℤ) < overflow := by
  unfold overflow
  have h1 : (2 : ℝ) ^ (1023 : ℤ) = 2 ^ 53 * 2 ^ 970 := by rw [← pow_add]; exact zpow_natCast 2 1023
  have h2 : (2 : ℝ) ^ 1024 = 2 ^ 54 * 2 ^ 970 := by rw [← pow_add]
  have h0 : (0 : ℝ) < 2 ^ 970 := by positivity
  rw [h1, h2]
  clear h1 h2
  generalize (2 : ℝ) ^ 970 = t at *
  norm_num
  linarith

/-- A result below `2^1023` is a finite double within the error bound of the exact value. -/
theorem ofReal_err {x : ℝ} (hx : |x| < 2 ^ (1023 : ℤ)) : ∃ d : Dbl, ofReal x = fin d ∧ |d.1 - x| ≤ ulp * |x| + eta := by
  refine ⟨⟨rnd x, isDouble x⟩, ?_, rnd_err hx⟩
  unfold ofReal
  rw [if_pos (hx.trans two1023_lt_overflow)]

end F64
end Verif
