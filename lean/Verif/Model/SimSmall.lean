import Verif.Model.Strategy
import Verif.Model.Resource
import Verif.Model.Tables

/-!
# Small parts: when a workload sends, scale names, the text display, the test doubles
-/

set_option autoImplicit false

namespace Verif
open GoMath

section
variable {α : Type} [Zero α] [One α] [Add α] [Sub α] [Mul α] [Div α] [Neg α] [LT α] [LE α]
  [DecidableLT α] [DecidableLE α] [BEq α] [OfScientific α] [GoMath α]

/-- `(*Workload).shouldBatch`, simulations/emerge/simulation/agent.go:546-558, for a workload with `pending` pending tasks whose agent has the given phase. -/
def shouldBatch (pending : Nat) (phase : α) : Bool :=
  if pending = 0 then false else decide (phase < 0.1) || decide (phase > piMul 2 - 0.1)

/-- `ParseScale`, simulations/emerge/config.go:55-70. -/
def parseScale : String → Size × Bool
  | "tiny" => (0, true)
  | "small" => (1, true)
  | "medium" => (2, true)
  | "large" => (3, true)
  | "huge" => (4, true)
  | _ => (0, false)

/-- `(Config).DisplayName`, simulations/emerge/config.go:37-52. -/
def displayName : Size → String
  | 0 => "TINY SWARM (20 workloads)"
  | 1 => "SMALL SWARM (50 workloads)"
  | 2 => "MEDIUM SWARM (200 workloads)"
  | 3 => "LARGE SWARM (1000 workloads)"
  | 4 => "HUGE SWARM (2000 workloads)"
  | _ => "CUSTOM SWARM"

/-- `(*TextDisplay).Update`, simulations/display/text_display.go:55-70, at time `now` (nanoseconds): whether a line is printed, and the new `lastUpdate`.
`none` is the zero time, from which `time.Since` is the longest duration there is. The line itself is not modelled. -/
def textUpdate (interval : Int) (last : Option Int) (now : Int) : Bool × Option Int :=
  match last with
  | some l => if now - l < interval then (false, some l) else (true, some now)
  | none => (true, some now)

/-- The times of the lines printed for updates at the given times, from the state `last`; the interval is that of `NewTextDisplay`,
simulations/display/text_display.go:21-26. -/
def textLines : Option Int → List Int → List Int
  | _, [] => []
  | last, t :: ts =>
    let r := textUpdate 1000000000 last t
    if r.1 then t :: textLines r.2 ts else textLines r.2 ts

/-- `(*MockResourceManager).Request`, internal/testutil/emerge/testutil.go:198-207, without `RequestFunc`: the amount granted and the energy left. -/
def mockRequest (energy amount : α) : α × α := if energy ≥ amount then (amount, energy - amount) else (0, energy)

/-- `(*MockResourceManager).Release`, internal/testutil/emerge/testutil.go:210-216, without `ReleaseFunc`. -/
def mockRelease (energy amount : α) : α := energy + amount

/-- `(*MockSyncStrategy).Propose`, internal/testutil/emerge/testutil.go:225-236, without `ProposeFunc`: the action and the confidence. -/
def mockPropose (current target : State α) : Action α × α :=
  ({ type := "adjust_phase", value := target.phase - current.phase, cost := 1, benefit := 0 }, 0.9)

/-- `(*MockGoalManager).Blend`, internal/testutil/emerge/testutil.go:249-259, without `BlendFunc`. -/
def mockBlend (loc glob : State α) (weight : α) : State α :=
  { phase := loc.phase * (1 - weight) + glob.phase * weight
    frequency := loc.frequency
    coherence := loc.coherence * (1 - weight) + glob.coherence * weight }

/-- `(*MockDecisionMaker).Decide`, internal/testutil/emerge/testutil.go:169-179, without `DecisionFunc`. -/
def mockDecide (options : List (Action α)) : Action α × α :=
  match options with
  | o :: _ => (o, 1)
  | [] => ({ type := "maintain", value := 0, cost := 0, benefit := 0 }, 1)

end
end Verif
