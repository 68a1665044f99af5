import Mathlib.Data.Real.Basic
import Mathlib.Algebra.BigOperators.Group.Finset.Basic

/-!
# Specification: least-squares lines
-/

set_option autoImplicit false

namespace Verif.Spec

/-- Sum of the squared vertical distances of the points `(i, yᵢ)` from the line `a + b·x`. -/
noncomputable def squaredError (ys : List ℝ) (a b : ℝ) : ℝ :=
  (ys.zipIdx.map fun p => (p.1 - (a + b * (p.2 : ℝ))) ^ 2).sum

/-- `b` is the slope of a line that fits the points `(i, yᵢ)` best. -/
def IsFitSlope (ys : List ℝ) (b : ℝ) : Prop :=
  ∃ a, ∀ a' b', squaredError ys a b ≤ squaredError ys a' b'

end Verif.Spec
