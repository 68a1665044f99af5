import Verif.Model.Summary
import Verif.Model.Explain

/-!
# Model of the closing summary and of the choice of the swarm panel
(`simulations/display/display.go`, `simulations/display/text_display.go`)

How numbers are written (`%.2f` and the like) and colours are left out, and so are the empty lines and rules of the text display.
-/

set_option autoImplicit false

namespace Verif
open GoMath

section
variable {α : Type} [Zero α] [One α] [Add α] [Sub α] [Mul α] [Div α] [Neg α] [LT α] [LE α]
  [DecidableLT α] [DecidableLE α] [BEq α] [OfScientific α] [GoMath α]

/-- What a line of the summary says: a fixed text, or a label with its figures. -/
inductive Said (α : Type) where
  | text (t : String)
  | calls (n : Int)
  | batches (n : Int)
  | average (x : α)
  | savings (dollars percent : α)
  | peak (percent : α)
  | convergeTime (d : Int)

/-- `(*TerminalDisplay).ShowSummary`, simulations/display/display.go:2613-2644. -/
def terminalSummary (s : FinalStats α) : List (Said α) :=
  [.text "🎉 SIMULATION COMPLETE", .savings s.totalSavings s.savingsPercent, .text "Agents successfully learned to batch API calls!",
   .text "📊 FINAL STATISTICS", .calls s.totalAPICalls, .batches s.totalBatches, .average s.averageBatchSize,
   .peak (s.peakCoherence * 100.0), .convergeTime s.timeToConverge]

/-- `(*TextDisplay).ShowSummary`, simulations/display/text_display.go:73-88. -/
def textSummary (s : FinalStats α) : List (Said α) :=
  [.text "   SIMULATION COMPLETE", .calls s.totalAPICalls, .batches s.totalBatches, .average s.averageBatchSize,
   .savings s.totalSavings s.savingsPercent, .peak (s.peakCoherence * 100.0), .text "✓ Agents successfully learned to batch API calls!"]
end

/-- The title of the panel that `updateSwarmDisplay`, simulations/display/display.go:1856-1879, chooses: the first lines of the eight functions
at 1882-1884, 1916-1918, 1965-1967, 2010-2012, 2053-2055, 2101-2103, 2152-2154 and 2214-2216. -/
def swarmPanelTitle : GoalType → String
  | 0 => "🌊 PHASE CONVERGENCE"
  | 1 => "⚖️ LOAD DISTRIBUTION"
  | 2 => "🗳️ CONSENSUS PROGRESS"
  | 3 => "⚡ LATENCY DISTRIBUTION"
  | 4 => "🔋 ENERGY PATTERN"
  | 5 => "⏰ SCHEDULE ALIGNMENT"
  | 6 => "🛡️ SYSTEM HEALTH"
  | 7 => "📈 TRAFFIC LOAD"
  | _ => "🌊 PHASE CONVERGENCE"

end Verif
