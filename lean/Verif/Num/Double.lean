import Mathlib.Analysis.SpecialFunctions.Pow.Real
import Mathlib.Data.Set.Finite.Lattice
import Mathlib.Tactic.Linarith
import Mathlib.Tactic.NormNum
import Mathlib.Tactic.Positivity

/-!
# Finite IEEE-754 binary64 numbers and round-to-nearest

Go's `float64` is IEEE-754 binary64 (Go specification, "Numeric types"). A *finite double* is a real number
`m * 2^e` with `|m| < 2^53` and `-1074 ≤ e ≤ 971`. The sign of zero is not represented.
A `Rounding` is any function sending a real to a nearest double, with an arbitrary tie-breaking rule;
Go's round-half-to-even is one of them, so a theorem for every `Rounding` covers Go.
-/

set_option autoImplicit false

namespace Verif

/-- The finite values of a Go `float64`. -/
def IsDouble (x : ℝ) : Prop :=
  ∃ m e : ℤ, |m| < 2 ^ 53 ∧ -1074 ≤ e ∧ e ≤ 971 ∧ x = (m : ℝ) * (2 : ℝ) ^ e

theorem IsDouble.neg {x : ℝ} (h : IsDouble x) : IsDouble (-x) := by
  obtain ⟨m, e, hm, h1, h2, rfl⟩ := h
  exact ⟨-m, e, by simpa using hm, h1, h2, by push_cast; ring⟩

theorem isDouble_int {n : ℤ} (h : |n| < 2 ^ 53) : IsDouble (n : ℝ) :=
  ⟨n, 0, h, by norm_num, by norm_num, by simp⟩

theorem isDouble_zero : IsDouble 0 := by simpa using isDouble_int (n := 0) (by norm_num)
theorem isDouble_one : IsDouble 1 := by simpa using isDouble_int (n := 1) (by norm_num)

theorem isDouble_ofNat (n : ℕ) [n.AtLeastTwo] (h : n < 2 ^ 53) : IsDouble (OfNat.ofNat n : ℝ) := by
  have := isDouble_int (n := (n : ℤ)) (by rw [abs_of_nonneg (by positivity)]; exact_mod_cast h)
  rw [Int.cast_natCast] at this
  exact this

/-- There are finitely many finite doubles. -/
theorem finite_isDouble : {x : ℝ | IsDouble x}.Finite := by
  have : {x : ℝ | IsDouble x} ⊆
      (fun p : ℤ × ℤ => (p.1 : ℝ) * (2 : ℝ) ^ p.2) ''
        (Set.Ioo (-(2 ^ 53)) (2 ^ 53) ×ˢ Set.Icc (-1074) 971) := by
    rintro x ⟨m, e, hm, h1, h2, rfl⟩
    exact ⟨(m, e), ⟨⟨(abs_lt.mp hm).1, (abs_lt.mp hm).2⟩, h1, h2⟩, rfl⟩
  exact Set.Finite.subset (((Set.finite_Ioo _ _).prod (Set.finite_Icc _ _)).image _) this

theorem exists_nearest (x : ℝ) : ∃ y, IsDouble y ∧ ∀ z, IsDouble z → |y - x| ≤ |z - x| := by
  obtain ⟨y, hy, h⟩ := Set.exists_min_image _ (fun y => |y - x|) finite_isDouble ⟨0, isDouble_zero⟩
  exact ⟨y, hy, h⟩

/-- A round-to-nearest function for binary64 (any tie-breaking rule). -/
class Rounding where
  /-- the rounding function -/
  rnd : ℝ → ℝ
  /-- it returns doubles -/
  isDouble : ∀ x, IsDouble (rnd x)
  /-- it returns a nearest double -/
  nearest : ∀ x y, IsDouble y → |rnd x - x| ≤ |y - x|

/-- Round-to-nearest functions exist, so no theorem over `[Rounding]` is vacuous. -/
@[instance_reducible] noncomputable def Rounding.some : Rounding where
  rnd x := (exists_nearest x).choose
  isDouble x := (exists_nearest x).choose_spec.1
  nearest x := (exists_nearest x).choose_spec.2

/-- Magnitude at which a finite real result overflows to infinity: `2^1024 - 2^970`. -/
noncomputable def overflow : ℝ := 2 ^ 1024 - 2 ^ 970

/-- The largest finite double `(2^53 - 1) * 2^971`, Go's `math.MaxFloat64`. -/
noncomputable def maxDouble : ℝ := (2 ^ 53 - 1) * 2 ^ 971

theorem maxDouble_pos : 0 < maxDouble := by
  unfold maxDouble; norm_num

theorem maxDouble_lt_overflow : maxDouble < overflow := by
  unfold maxDouble overflow
  have h : (2 : ℝ) ^ 1024 = 2 ^ 54 * 2 ^ 970 := by rw [← pow_add]
  have h' : (2 : ℝ) ^ 971 = 2 * 2 ^ 970 := by rw [← pow_succ']
  have h0 : (0 : ℝ) < 2 ^ 970 := by positivity
  rw [h, h']
  clear h h'
  generalize (2 : ℝ) ^ 970 = t at *
  norm_num
  linarith

theorem isDouble_maxDouble : IsDouble maxDouble := by
  refine ⟨2 ^ 53 - 1, 971, by norm_num, by norm_num, by norm_num, ?_⟩
  unfold maxDouble
  have h : ((2 : ℝ) ^ (971 : ℤ)) = 2 ^ (971 : ℕ) := zpow_natCast 2 971
  rw [h]
  generalize (2 : ℝ) ^ (971 : ℕ) = t
  push_cast; ring

theorem IsDouble.abs_le_max {x : ℝ} (h : IsDouble x) : |x| ≤ maxDouble := by
  obtain ⟨m, e, hm, h1, h2, rfl⟩ := h
  rw [abs_mul, abs_of_pos (by positivity : (0 : ℝ) < 2 ^ e)]
  have hm' : |(m : ℝ)| ≤ 2 ^ 53 - 1 := by
    have : |m| ≤ 2 ^ 53 - 1 := by omega
    exact_mod_cast this
  have he : (2 : ℝ) ^ e ≤ 2 ^ (971 : ℕ) := by
    rw [← zpow_natCast]; exact zpow_le_zpow_right₀ (by norm_num) (by exact_mod_cast h2)
  unfold maxDouble
  exact mul_le_mul hm' he (by positivity) (by norm_num)

theorem IsDouble.abs_lt_overflow {x : ℝ} (h : IsDouble x) : |x| < overflow :=
  h.abs_le_max.trans_lt maxDouble_lt_overflow

/-- Scaling a double by two stays a double below the overflow exponent. -/
theorem isDouble_dyadic {m e : ℤ} (hm : |m| < 2 ^ 53) (h1 : -1074 ≤ e) (h2 : e ≤ 971) :
    IsDouble ((m : ℝ) * (2 : ℝ) ^ e) := ⟨m, e, hm, h1, h2, rfl⟩

variable [Rounding]
open Rounding

theorem rnd_eq_self {x : ℝ} (h : IsDouble x) : rnd x = x := by
  have := nearest x x h
  simp only [sub_self, abs_zero] at this
  linarith [abs_nonpos_iff.mp this]

theorem rnd_mono {x y : ℝ} (h : x ≤ y) : rnd x ≤ rnd y := by
  rcases h.eq_or_lt with rfl | h
  · exact le_rfl
  by_contra hc
  push Not at hc
  have h1 := nearest x _ (isDouble y)
  have h2 := nearest y _ (isDouble x)
  rcases abs_cases (rnd x - x) with ⟨a, a'⟩ | ⟨a, a'⟩ <;>
  rcases abs_cases (rnd y - y) with ⟨b, b'⟩ | ⟨b, b'⟩ <;>
  rcases abs_cases (rnd y - x) with ⟨c, c'⟩ | ⟨c, c'⟩ <;>
  rcases abs_cases (rnd x - y) with ⟨d, d'⟩ | ⟨d, d'⟩ <;> linarith

theorem rnd_le {x y : ℝ} (hy : IsDouble y) (h : x ≤ y) : rnd x ≤ y := by
  simpa [rnd_eq_self hy] using rnd_mono h

theorem le_rnd {x y : ℝ} (hy : IsDouble y) (h : y ≤ x) : y ≤ rnd x := by
  simpa [rnd_eq_self hy] using rnd_mono h

end Verif
