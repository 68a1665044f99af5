import Verif.Model.Display
import Verif.Model.GoalDirected

/-!
# Model of the metrics panel (`simulations/display/display.go`)

The status texts and the numbers of the panel, for every goal. Headings and the digits of the numbers are not modelled: a number is given as handed to
`fmt.Sprintf`.
-/

set_option autoImplicit false

namespace Verif
open GoMath

/-- The recovery time of `updateMetricsForFailure`: a fixed text or the duration printed. -/
inductive RecoveryText where
  | notAvailable
  | belowOne
  | aboutTwo
  | elapsed (d : Int)
deriving DecidableEq

/-- The three lines of `displayCommonStatus`, simulations/display/display.go:1182-1224: whether each of Paused, Disrupted and Resetting shows YES. -/
def statusLines (paused disrupted reset : Bool) : List (String × Bool) :=
  [("Paused:    ", if paused then true else false), ("Disrupted: ", if disrupted then true else false),
    ("Resetting: ", if reset then true else false)]

section
variable {α : Type} [Zero α] [One α] [Add α] [Sub α] [Mul α] [Div α] [Neg α] [LT α] [LE α]
  [DecidableLT α] [DecidableLE α] [BEq α] [OfScientific α] [GoMath α]

/-- The status texts of `updateMetricsDisplay`, simulations/display/display.go:1157-1179, with `updateMetricsForBatching` (1238-1249),
`…LoadDistribution` (1295-1303), `…Consensus` (1328-1336), `…Latency` (1361-1369), `…Energy` (1405-1413), `…Rhythm` (1438-1446), `…Failure` (1471-1488)
and `…Traffic` (1519-1527). The coloured dot before the text of `…Batching` is left out. -/
def metricsStatus (goal : GoalType) (s : Shown α) : String :=
  match goal with
  | 1 => if s.coherence > 0.5 then "IMBALANCED" else if s.coherence > 0.3 then "FAIR" else "BALANCED"
  | 2 => if s.coherence ≥ 0.95 then "CONSENSUS!" else if s.coherence ≥ 0.8 then "CONVERGING" else "NO CONSENSUS"
  | 3 => if s.coherence ≥ 0.9 then "PREDICTABLE" else if s.coherence ≥ 0.7 then "FAIR" else "UNPREDICTABLE"
  | 4 =>
    let idle : α := sharePercent (idleCount s) s.agents.length
    if idle > 70.0 then "EFFICIENT" else if idle > 50.0 then "MODERATE" else "HIGH DRAIN"
  | 5 => if s.coherence ≥ 0.9 then "ON SCHEDULE" else if s.coherence ≥ 0.7 then "DRIFTING" else "OFF SCHEDULE"
  | 6 =>
    if s.disrupted then "RECOVERING" else if s.coherence ≥ 0.8 then "RESILIENT" else if s.coherence ≥ 0.6 then "PARTIAL" else "VULNERABLE"
  | 7 =>
    let load : α := sharePercent (activeCount s) s.agents.length
    if s.coherence ≥ 0.8 ∧ load > 30.0 then "RESPONSIVE" else if s.coherence ≥ 0.6 then "ADAPTING" else "SLOW"
  | _ => if s.coherence ≥ 0.9 then "In sync!" else if s.coherence ≥ 0.7 then "Syncing..." else "Not synced"

/-- The percentage printed below the status: `updateMetricsForBatching` (simulations/display/display.go:1250), `…LoadDistribution` (1307, "Phase Spread"),
`…Consensus` (1340), `…Energy` (1417), `…Rhythm` (1450), `…Failure` (1492) and `…Traffic` (1531); `…Latency` prints none. -/
def metricsPercent (goal : GoalType) (s : Shown α) : Option α :=
  match goal with
  | 1 => some ((1 - s.coherence) * 100.0)
  | 3 => none
  | 4 => some (sharePercent (idleCount s) s.agents.length)
  | 7 => some (sharePercent (activeCount s) s.agents.length)
  | _ => some (s.coherence * 100.0)

/-- "Load/Server", `updateMetricsForLoadDistribution`, simulations/display/display.go:1311. -/
def loadPerServer (s : Shown α) : α := 100.0 / ofInt (s.agents.length : Int)

/-- "Voting Rounds", `updateMetricsForConsensus`, simulations/display/display.go:1344. -/
def votingRounds (α : Type) [Zero α] [One α] [Add α] [Sub α] [Mul α] [Div α] [Neg α] [LT α] [LE α]
    [DecidableLT α] [DecidableLE α] [BEq α] [OfScientific α] [GoMath α] (elapsed : Int) : Int :=
  toInt ((durationSeconds elapsed : α) * 2.0)

/-- "P50 Latency", "P95 Latency" and "Jitter", `updateMetricsForLatency`, simulations/display/display.go:1375-1382. -/
def latencies (s : Shown α) : α × α × α :=
  let base : α := 10.0
  let jitter := (1 - s.coherence) * 20.0
  (base, base + jitter, jitter / 2.0)

/-- "Est. Battery", `updateMetricsForEnergy`, simulations/display/display.go:1421. -/
def batteryHours (s : Shown α) : α :=
  24.0 * ((sharePercent (idleCount s) s.agents.length : α) / 100.0 + 0.5)

/-- "Timing Drift", `updateMetricsForRhythm`, simulations/display/display.go:1454. -/
def timingDrift (s : Shown α) : α := (1 - s.coherence) * 1000.0

/-- "Recovery Time", `updateMetricsForFailure`, simulations/display/display.go:1473-1488, at the time `now`, if the last batch was sent at `lastBatch`
(`none` if none was: the zero time). The unit of the duration is nanoseconds. -/
def recoveryText (s : Shown α) (now : Int) (lastBatch : Option Int) : RecoveryText :=
  if s.disrupted then .elapsed (sinceTime now lastBatch)
  else if s.coherence ≥ 0.8 then .belowOne
  else if s.coherence ≥ 0.6 then .aboutTwo
  else .notAvailable

end

end Verif
