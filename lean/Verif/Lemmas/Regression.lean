import Verif.Spec.Regression
import Verif.Model.ConvMonitor
import Verif.Num.Real
import Mathlib.Tactic.Linarith
import Mathlib.Tactic.Ring
import Mathlib.Tactic.LinearCombination
import Mathlib.Tactic.Positivity
import Mathlib.Tactic.FieldSimp

/-! # The regression loops compute the least-squares slope -/

set_option autoImplicit false

namespace Verif
open GoMath Spec

/-- The four sums over the points. -/
theorem trendFold_eq (l : List (ℝ × ℕ)) (s : ℝ × ℝ × ℝ × ℝ) :
    l.foldl (fun s yi =>
      let x : ℝ := ofInt (yi.2 : Int)
      (s.1 + x, s.2.1 + yi.1, s.2.2.1 + x * yi.1, s.2.2.2 + x * x)) s =
    (s.1 + (l.map fun p => (p.2 : ℝ)).sum, s.2.1 + (l.map fun p => p.1).sum,
      s.2.2.1 + (l.map fun p => (p.2 : ℝ) * p.1).sum, s.2.2.2 + (l.map fun p => (p.2 : ℝ) * (p.2 : ℝ)).sum) := by
  induction l generalizing s with
  | nil => simp
  | cons p l ih =>
    rw [List.foldl_cons, ih]
    simp only [List.map_cons, List.sum_cons, ofInt_real, Int.cast_natCast]
    refine Prod.ext ?_ (Prod.ext ?_ (Prod.ext ?_ ?_)) <;> simp only <;> ring

theorem trendSums_eq (ys : List ℝ) :
    trendSums ys = ((ys.zipIdx.map fun p => (p.2 : ℝ)).sum, (ys.zipIdx.map fun p => p.1).sum,
      (ys.zipIdx.map fun p => (p.2 : ℝ) * p.1).sum, (ys.zipIdx.map fun p => (p.2 : ℝ) * (p.2 : ℝ)).sum) := by
  unfold trendSums
  rw [trendFold_eq]
  simp

/-- Closed forms of the sums of positions. -/
theorem sum_positions (ys : List ℝ) (k : ℕ) :
    2 * ((ys.zipIdx k).map fun p => (p.2 : ℝ)).sum = ys.length * (2 * k + ys.length - 1) ∧
    6 * ((ys.zipIdx k).map fun p => (p.2 : ℝ) * (p.2 : ℝ)).sum =
      ys.length * (6 * k * k + 6 * k * (ys.length - 1) + (ys.length - 1) * (2 * ys.length - 1)) := by
  induction ys generalizing k with
  | nil => simp
  | cons y ys ih =>
    obtain ⟨h1, h2⟩ := ih (k + 1)
    simp only [List.zipIdx_cons, List.map_cons, List.sum_cons, List.length_cons] at *
    push_cast at *
    constructor
    · linear_combination h1
    · linear_combination h2

/-- The squared error in terms of the sums. -/
theorem squaredError_eq (l : List (ℝ × ℕ)) (a b : ℝ) :
    (l.map fun p => (p.1 - (a + b * (p.2 : ℝ))) ^ 2).sum =
      (l.map fun p => p.1 ^ 2).sum + l.length * a ^ 2 + b ^ 2 * (l.map fun p => (p.2 : ℝ) * (p.2 : ℝ)).sum -
      2 * a * (l.map fun p => p.1).sum - 2 * b * (l.map fun p => (p.2 : ℝ) * p.1).sum +
      2 * a * b * (l.map fun p => (p.2 : ℝ)).sum := by
  induction l with
  | nil => simp
  | cons p l ih =>
    simp only [List.map_cons, List.sum_cons, List.length_cons, ih]
    push_cast
    ring

/-- The denominator of the slope. -/
theorem denominator_ge (ys : List ℝ) (h : 2 ≤ ys.length) :
    1 ≤ (ys.length : ℝ) * (ys.zipIdx.map fun p => (p.2 : ℝ) * (p.2 : ℝ)).sum -
      (ys.zipIdx.map fun p => (p.2 : ℝ)).sum * (ys.zipIdx.map fun p => (p.2 : ℝ)).sum := by
  obtain ⟨h1, h2⟩ := sum_positions ys 0
  have hn : (2 : ℝ) ≤ ys.length := by exact_mod_cast h
  generalize (ys.length : ℝ) = n at *
  generalize (ys.zipIdx.map fun p => (p.2 : ℝ) * (p.2 : ℝ)).sum = X2 at *
  generalize (ys.zipIdx.map fun p => (p.2 : ℝ)).sum = X at *
  push_cast at *
  have e : 12 * (n * X2 - X * X) = n ^ 2 * (n ^ 2 - 1) := by
    have : X = n * (n - 1) / 2 := by linarith
    have : X2 = n * ((n - 1) * (2 * n - 1)) / 6 := by linarith
    subst X X2; ring
  have : 12 ≤ n ^ 2 * (n ^ 2 - 1) := by nlinarith [mul_self_nonneg (n - 2)]
  linarith

/-- For at least two points, `b` is a best slope exactly if it is the quotient computed by the code. -/
theorem fitSlope_iff (ys : List ℝ) (h : 2 ≤ ys.length) (b : ℝ) :
    IsFitSlope ys b ↔ b =
      ((ys.length : ℝ) * (ys.zipIdx.map fun p => (p.2 : ℝ) * p.1).sum -
        (ys.zipIdx.map fun p => (p.2 : ℝ)).sum * (ys.zipIdx.map fun p => p.1).sum) /
      ((ys.length : ℝ) * (ys.zipIdx.map fun p => (p.2 : ℝ) * (p.2 : ℝ)).sum -
        (ys.zipIdx.map fun p => (p.2 : ℝ)).sum * (ys.zipIdx.map fun p => (p.2 : ℝ)).sum) := by
  have hD := denominator_ge ys h
  have hn : (2 : ℝ) ≤ ys.length := by exact_mod_cast h
  unfold IsFitSlope squaredError
  simp only [squaredError_eq, List.length_zipIdx]
  generalize (ys.length : ℝ) = n at *
  generalize (ys.zipIdx.map fun p => (p.2 : ℝ) * (p.2 : ℝ)).sum = X2 at *
  generalize (ys.zipIdx.map fun p => (p.2 : ℝ)).sum = X at *
  generalize (ys.zipIdx.map fun p => (p.2 : ℝ) * p.1).sum = XY at *
  generalize (ys.zipIdx.map fun p => p.1).sum = Y at *
  generalize (ys.zipIdx.map fun p => p.1 ^ 2).sum = Y2 at *
  have hn0 : n ≠ 0 := by linarith
  have hD0 : n * X2 - X * X ≠ 0 := by linarith
  rw [eq_div_iff hD0]
  constructor
  · rintro ⟨a, ha⟩
    -- compare with the true minimiser
    have h1 := ha ((Y - (n * XY - X * Y) / (n * X2 - X * X) * X) / n) ((n * XY - X * Y) / (n * X2 - X * X))
    set b₀ := (n * XY - X * Y) / (n * X2 - X * X) with hb₀
    have hb : b₀ * (n * X2 - X * X) = n * XY - X * Y := by rw [hb₀]; exact div_mul_cancel₀ _ hD0
    set a₀ := (Y - b₀ * X) / n with ha₀
    have haa : n * a₀ = Y - b₀ * X := by rw [ha₀]; exact mul_div_cancel₀ _ hn0
    have hxy : b₀ * X2 + a₀ * X = XY := by
      have : n * (b₀ * X2 + a₀ * X) = n * XY := by linear_combination hb + X * haa
      exact mul_left_cancel₀ hn0 this
    have hpos : n * (n * (a - a₀) ^ 2 + (b - b₀) ^ 2 * X2 + 2 * (a - a₀) * (b - b₀) * X) ≤ 0 := by
      have e : n * (a - a₀) ^ 2 + (b - b₀) ^ 2 * X2 + 2 * (a - a₀) * (b - b₀) * X =
          (Y2 + n * a ^ 2 + b ^ 2 * X2 - 2 * a * Y - 2 * b * XY + 2 * a * b * X) -
          (Y2 + n * a₀ ^ 2 + b₀ ^ 2 * X2 - 2 * a₀ * Y - 2 * b₀ * XY + 2 * a₀ * b₀ * X) := by
        linear_combination (2 * a₀ - 2 * a) * haa + (2 * b₀ - 2 * b) * hxy
      rw [e]
      have : n > 0 := by linarith
      nlinarith
    have e2 : n * (n * (a - a₀) ^ 2 + (b - b₀) ^ 2 * X2 + 2 * (a - a₀) * (b - b₀) * X) =
        (n * (a - a₀) + X * (b - b₀)) ^ 2 + (b - b₀) ^ 2 * (n * X2 - X * X) := by ring
    rw [e2] at hpos
    have hb2 : (b - b₀) ^ 2 ≤ 0 := by
      nlinarith [sq_nonneg (n * (a - a₀) + X * (b - b₀)), sq_nonneg (b - b₀)]
    have : b = b₀ := by
      have := (pow_eq_zero_iff (by norm_num)).1 (le_antisymm hb2 (sq_nonneg _))
      linarith
    rw [this]; exact hb
  · intro hb
    refine ⟨(Y - b * X) / n, fun a' b' => ?_⟩
    set a := (Y - b * X) / n with ha
    have haa : n * a = Y - b * X := by rw [ha]; exact mul_div_cancel₀ _ hn0
    have hxy : b * X2 + a * X = XY := by
      have : n * (b * X2 + a * X) = n * XY := by linear_combination hb + X * haa
      exact mul_left_cancel₀ hn0 this
    have e : (Y2 + n * a' ^ 2 + b' ^ 2 * X2 - 2 * a' * Y - 2 * b' * XY + 2 * a' * b' * X) -
        (Y2 + n * a ^ 2 + b ^ 2 * X2 - 2 * a * Y - 2 * b * XY + 2 * a * b * X) =
        n * (a' - a) ^ 2 + (b' - b) ^ 2 * X2 + 2 * (a' - a) * (b' - b) * X := by
      linear_combination (2 * a' - 2 * a) * haa + (2 * b' - 2 * b) * hxy
    have e2 : n * (n * (a' - a) ^ 2 + (b' - b) ^ 2 * X2 + 2 * (a' - a) * (b' - b) * X) =
        (n * (a' - a) + X * (b' - b)) ^ 2 + (b' - b) ^ 2 * (n * X2 - X * X) := by ring
    have h0 : 0 ≤ n * (n * (a' - a) ^ 2 + (b' - b) ^ 2 * X2 + 2 * (a' - a) * (b' - b) * X) := by
      rw [e2]
      nlinarith [sq_nonneg (n * (a' - a) + X * (b' - b)), sq_nonneg (b' - b)]
    have hnp : 0 < n := by linarith
    have := nonneg_of_mul_nonneg_right h0 hnp
    linarith

/-- `calculateTrend` is the least-squares slope for two or more points. -/
theorem calculateTrend_fit (ys : List ℝ) (h : 2 ≤ ys.length) (b : ℝ) : IsFitSlope ys b ↔ b = calculateTrend ys := by
  rw [fitSlope_iff ys h]
  unfold calculateTrend
  have hD := denominator_ge ys h
  rw [if_neg (by omega)]
  simp only [trendSums_eq, ofInt_real, Int.cast_natCast, abs_real]
  rw [if_neg]
  rw [not_lt, abs_of_pos (by linarith)]
  norm_num
  linarith

end Verif
