import Verif.Model.Agent

/-! # Model of the names of strategies (`emerge/strategy`) -/

set_option autoImplicit false

namespace Verif

/-- `Name` of the plain strategies: emerge/strategy/phase_nudge.go:43-45, emerge/strategy/frequency_lock.go:45-47, emerge/strategy/energy_aware.go:52-54,
emerge/strategy/pulse.go:59-61. -/
def Strat.name {α : Type} : Strat α → String
  | .phaseNudge _ => "phase_nudge"
  | .frequencyLock _ => "frequency_lock"
  | .energyAware _ => "energy_aware"
  | .pulse _ => "pulse"

/-- `Name` of the strategy of an agent; for the adaptive one emerge/strategy/adaptive.go:50-52. -/
def AgentStrategy.name {α : Type} : AgentStrategy α → String
  | .basic s => s.name
  | .adaptive _ => "adaptive"

end Verif
