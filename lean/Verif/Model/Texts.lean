import Verif.Model.Batching
import Verif.Model.Display

/-!
# Model of the cost panel, of the durations shown, and of the texts of validation errors

`simulations/display/display.go`, `simulations/display/text_display.go`, `internal/config/validation.go`.
-/

set_option autoImplicit false

namespace Verif
open GoMath

section
variable {α : Type} [Zero α] [One α] [Add α] [Sub α] [Mul α] [Div α] [Neg α] [LT α] [LE α]
  [DecidableLT α] [DecidableLE α] [BEq α] [OfScientific α] [GoMath α]

/-- The colour of the savings in `updateCostDisplay`, simulations/display/display.go:1555-1562. -/
def costShade (savingsPercent : α) : Shade :=
  let c := if savingsPercent < 50.0 then .yellow else .green
  if savingsPercent < 20.0 then .red else c

/-- The colour of the "KEY INSIGHTS" in `displayTrafficLoad`, simulations/display/display.go:2282-2292: green says "Agents synchronized", yellow "Agents
learning", red "Agents scattered". -/
def insightShade (s : Shown α) : Shade :=
  if s.coherence ≥ s.targetCoherence then .green
  else if s.coherence ≥ s.targetCoherence * 0.9 then .yellow
  else .red

end

/-- The unit of a duration shown. -/
inductive TimeUnit where
  | seconds | minutes
deriving DecidableEq

/-- `formatDuration`, simulations/display/display.go:2647-2652: the number of tenths printed by `%.1f`, and the unit. `fix` rounds to a whole number as
`fmt` does. `Seconds()` and `Minutes()` are taken as exact quotients. -/
def formatDuration (fix : Rat → Int) (d : Int) : Int × TimeUnit :=
  if d < 60 * 1000000000 then (fix ((d : Rat) / 1000000000 * 10), .seconds) else (fix ((d : Rat) / (60 * 1000000000) * 10), .minutes)

/-- `formatTime`, simulations/display/text_display.go:96-101: the whole number printed by `%02.0f`, and the unit. -/
def formatTime (fix : Rat → Int) (d : Int) : Int × TimeUnit :=
  if d < 60 * 1000000000 then (fix ((d : Rat) / 1000000000), .seconds) else (fix ((d : Rat) / (60 * 1000000000)), .minutes)

/-- `ValidationError`, internal/config/validation.go:9-13; the value is given as printed by `%v`. -/
structure ValidationErr where
  field : String
  value : String
  message : String

/-- `ValidationError.Error`, internal/config/validation.go:16-18. -/
def ValidationErr.text (e : ValidationErr) : String :=
  "validation error for field " ++ e.field ++ " (value: " ++ e.value ++ "): " ++ e.message

/-- `ValidationErrors.Error`, internal/config/validation.go:24-37. -/
def validationText (errs : List ValidationErr) : String :=
  match errs with
  | [] => "no validation errors"
  | [e] => e.text
  | es => "multiple validation errors: [" ++ String.intercalate "; " (es.map ValidationErr.text) ++ "]"

end Verif
