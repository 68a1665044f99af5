import Mathlib.Analysis.SpecialFunctions.Complex.Circle
import Verif.Spec.Circle

/-! # Specification: coherence as the length of the mean unit vector -/

set_option autoImplicit false

namespace Verif.Spec

/-- The Kuramoto order parameter: modulus of the mean of the unit vectors `e^{iθ}`. -/
noncomputable def orderParameter (phases : List ℝ) : ℝ :=
  ‖(phases.map fun p : ℝ => Complex.exp (p * Complex.I)).sum‖ / phases.length

/-- Weighted version: modulus of the weighted mean. -/
noncomputable def weightedOrderParameter (pw : List (ℝ × ℝ)) : ℝ :=
  ‖(pw.map fun x : ℝ × ℝ => (x.2 : ℂ) * Complex.exp (x.1 * Complex.I)).sum‖ / (pw.map Prod.snd).sum

end Verif.Spec
