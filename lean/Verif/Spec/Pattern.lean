import Verif.Model.Core
import Verif.Spec.Circle

/-! # Specification: when two patterns are out of tolerance in a component -/

set_option autoImplicit false

namespace Verif.Spec
open Real

/-- The phases are more than 0.1 rad apart, along every way round the circle. -/
def PhaseOut (c t : TargetPattern ℝ) : Prop := ∀ k : ℤ, 0.1 < |t.phase - c.phase + k * (2 * π)|

/-- Both frequencies are meaningful and the current one deviates by more than 5 % of the target. -/
def FreqOut (c t : TargetPattern ℝ) : Prop :=
  0 < t.frequency ∧ 0 < c.frequency ∧ 5 * (t.frequency : ℝ) < 100 * |(c.frequency : ℝ) - t.frequency|

/-- The coherence falls short of the target by more than 0.05. -/
def CohOut (c t : TargetPattern ℝ) : Prop := 0.05 < t.coherence - c.coherence

/-- Relative deviation of the frequency, capped at 1; 0 when the target has no frequency. -/
noncomputable def freqDeviation (c t : TargetPattern ℝ) : ℝ :=
  if 0 < t.frequency then min (|(c.frequency : ℝ) - t.frequency| / t.frequency) 1 else 0

end Verif.Spec
