import Mathlib.Analysis.SpecialFunctions.Trigonometric.Basic

/-!
# Specification: angles on the circle

Independent of the model: what it means for two phases to be the same angle, for a rotation to be the shortest one,
and the mean-resultant-length definition of coherence.
-/

set_option autoImplicit false

namespace Verif.Spec
open Real

/-- `a` and `b` denote the same angle: they differ by a whole number of turns. -/
def SameAngle (a b : ℝ) : Prop := ∃ k : ℤ, a = b + k * (2 * π)

/-- `d` is the signed shortest rotation taking angle `a` to angle `b`, half turns being counted as `+π`. -/
structure ShortestRotation (a b d : ℝ) : Prop where
  lands : SameAngle (a + d) b
  gt : -π < d
  le : d ≤ π
  shortest : ∀ d', SameAngle (a + d') b → |d| ≤ |d'|

/-- `d` is the distance of the angles `a` and `b` on the circle: the least `|a - b + 2πk|`. -/
def IsCircDist (a b d : ℝ) : Prop :=
  (∃ k : ℤ, d = |a - b + k * (2 * π)|) ∧ ∀ k : ℤ, d ≤ |a - b + k * (2 * π)|

theorem SameAngle.refl (a : ℝ) : SameAngle a a := ⟨0, by simp⟩
theorem SameAngle.symm {a b : ℝ} (h : SameAngle a b) : SameAngle b a := by
  obtain ⟨k, rfl⟩ := h; exact ⟨-k, by push_cast; ring⟩
theorem SameAngle.trans {a b c : ℝ} (h : SameAngle a b) (h' : SameAngle b c) : SameAngle a c := by
  obtain ⟨k, rfl⟩ := h; obtain ⟨l, rfl⟩ := h'; exact ⟨k + l, by push_cast; ring⟩
theorem SameAngle.add_right {a b : ℝ} (h : SameAngle a b) (c : ℝ) : SameAngle (a + c) (b + c) := by
  obtain ⟨k, rfl⟩ := h; exact ⟨k, by ring⟩

/-- Two representatives in `[0, 2π)` of the same angle are equal. -/
theorem SameAngle.eq_of_Ico {a b : ℝ} (h : SameAngle a b) (ha : 0 ≤ a) (ha' : a < 2 * π) (hb : 0 ≤ b)
    (hb' : b < 2 * π) : a = b := by
  obtain ⟨k, rfl⟩ := h
  have hp := Real.pi_pos
  have h1 : (k : ℝ) < 1 := by
    by_contra hc; push Not at hc; nlinarith
  have h2 : (-1 : ℝ) < k := by
    by_contra hc; push Not at hc; nlinarith
  have h1' : k < 1 := by exact_mod_cast h1
  have h2' : -1 < k := by exact_mod_cast h2
  have : k = 0 := by omega
  subst this; simp

theorem SameAngle.cos_eq {a b : ℝ} (h : SameAngle a b) : cos a = cos b := by
  obtain ⟨k, rfl⟩ := h; exact Real.cos_add_int_mul_two_pi b k
theorem SameAngle.sin_eq {a b : ℝ} (h : SameAngle a b) : sin a = sin b := by
  obtain ⟨k, rfl⟩ := h; exact Real.sin_add_int_mul_two_pi b k

end Verif.Spec
