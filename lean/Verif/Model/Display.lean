import Verif.Model.TaskGen
import Verif.Model.Core
import Verif.Num.GoMath

/-!
# Model of what the terminal display computes from a snapshot (`simulations/display/display.go`)

Only the computations are modelled: which numbers, colours and statuses are shown. Fixed texts, layout, fonts and the drawing itself (termdash) are not.
Goals are numbered as in `GoalType`.
-/

set_option autoImplicit false

namespace Verif
open GoMath

/-- The colours used for agents and gauges (`cell.Color…`, termdash). -/
inductive Shade where
  | red | yellow | green | cyan | magenta
deriving DecidableEq

/-- `AgentSnapshot`, simulations/display/interfaces.go:71-80: the two fields that panels compute with. -/
structure ShownAgent (α : Type) where
  phase : α
  activity : Activity

/-- `SimulationSnapshot`, simulations/display/interfaces.go:36-69: the fields that panels compute with. -/
structure Shown (α : Type) where
  coherence : α
  targetCoherence : α
  disrupted : Bool
  agents : List (ShownAgent α)

section
variable {α : Type} [Zero α] [One α] [Add α] [Sub α] [Mul α] [Div α] [Neg α] [LT α] [LE α]
  [DecidableLT α] [DecidableLE α] [BEq α] [OfScientific α] [GoMath α]

/-! ### Gauges -/

/-- `int(float64(count) / float64(len(agents)) * 100)` without the conversion to `int`, as in simulations/display/display.go:1403, 1516, 1645, 1703, 2069 and 2235. -/
def sharePercent (count total : Nat) : α := ofInt (count : Int) / ofInt (total : Int) * 100.0

/-- The number of idle agents, simulations/display/display.go:1639-1644; also 1397-1402 and 2059-2066. -/
def idleCount (s : Shown α) : Nat := s.agents.countP fun a => a.activity = .quiet

/-- The number of busy agents, simulations/display/display.go:1697-1702; also 1510-1515. -/
def activeCount (s : Shown α) : Nat := s.agents.countP fun a => a.activity = .burst ∨ a.activity = .active

/-- What the two gauges show. -/
structure Gauges where
  value : Int
  color : Shade
  target : Int
deriving DecidableEq

/-- `updateGoalSpecificGauges`, simulations/display/display.go:1572-1733: the percentage and the colour of the first gauge, and the percentage of the
second. Errors of the widgets are not modelled. -/
def gauges (goal : GoalType) (s : Shown α) : Gauges :=
  let percent := toInt (s.coherence * 100.0)
  let target := toInt (s.targetCoherence * 100.0)
  match goal with
  | 1 => ⟨toInt ((1 - s.coherence) * 100.0), if s.coherence > 0.5 then .red else .green, toInt ((1 - s.targetCoherence) * 100.0)⟩
  | 2 => ⟨percent, if percent ≥ 95 then .green else if percent ≥ 80 then .yellow else .red, 95⟩
  | 3 => ⟨percent, if percent ≥ target then .green else .red, target⟩
  | 4 =>
    let idle := toInt (sharePercent (idleCount s) s.agents.length : α)
    ⟨idle, if idle ≥ 70 then .green else if idle ≥ 50 then .yellow else .red, 70⟩
  | 5 => ⟨percent, if percent ≥ target then .green else .red, target⟩
  | 6 =>
    let health := if s.disrupted then percent.tdiv 2 else percent
    ⟨health, if health ≥ 80 ∧ s.disrupted = false then .green else if health ≥ 60 then .yellow else .red, 80⟩
  | 7 =>
    let used := toInt (sharePercent (activeCount s) s.agents.length : α)
    ⟨used, if used ≥ 40 ∧ used ≤ 80 then .green else if used > 90 then .red else .yellow, 60⟩
  | _ => ⟨percent, if s.coherence ≥ s.targetCoherence then .green else .red, target⟩

/-! ### Metrics panel -/

/-- The colour of the status line of the metrics panel: `updateMetricsForBatching` (simulations/display/display.go:1238-1249, also the default, 1176-1177),
`…LoadDistribution` (1295-1303), `…Consensus` (1328-1336), `…Latency` (1361-1369), `…Energy` (1405-1413), `…Rhythm` (1438-1446), `…Failure` (1471-1488)
and `…Traffic` (1519-1527). -/
def metricsShade (goal : GoalType) (s : Shown α) : Shade :=
  match goal with
  | 1 => if s.coherence > 0.5 then .red else if s.coherence > 0.3 then .yellow else .green
  | 2 => if s.coherence ≥ 0.95 then .green else if s.coherence ≥ 0.8 then .yellow else .red
  | 4 =>
    let idle : α := sharePercent (idleCount s) s.agents.length
    if idle > 70.0 then .green else if idle > 50.0 then .yellow else .red
  | 6 => if s.disrupted then .yellow else if s.coherence ≥ 0.8 then .green else if s.coherence ≥ 0.6 then .yellow else .red
  | 7 =>
    let load : α := sharePercent (activeCount s) s.agents.length
    if s.coherence ≥ 0.8 ∧ load > 30.0 then .green else if s.coherence ≥ 0.6 then .yellow else .red
  | _ => if s.coherence ≥ 0.9 then .green else if s.coherence ≥ 0.7 then .yellow else .red

/-! ### Coherence chart -/

/-- `coherenceHistory` and `targetHistory`, simulations/display/display.go:66-67. -/
structure Chart (α : Type) where
  coherence : List α
  target : List α

/-- The new points of `updateCoherenceChart`, simulations/display/display.go:1738-1748. -/
def Chart.push (c : Chart α) (coherence target : α) (paused : Bool) : Chart α :=
  if paused then c
  else
    let cs := c.coherence ++ [coherence * 100.0]
    let ts := c.target ++ [target * 100.0]
    if cs.length > 50 then ⟨cs.tail, ts.tail⟩ else ⟨cs, ts⟩

/-- The loop body of `updateCoherenceChart`, simulations/display/display.go:1756-1788, at the value `v`, after the value `prev` if there is one. The two
series are `above` and `below`, latest point first; `none` is NaN. -/
def seriesStep (target : α) (st : Option α × List (Option α) × List (Option α)) (v : α) : Option α × List (Option α) × List (Option α) :=
  let isAbove := decide (v ≥ target)
  let single : Option α × Option α := if isAbove then (some v, none) else (none, some v)
  match st with
  | (some prev, above, below) =>
    let wasAbove := decide (prev ≥ target)
    if isAbove ≠ wasAbove then
      if isAbove then (some v, some v :: above, some v :: (some prev :: below.tail))
      else (some v, some v :: (some prev :: above.tail), some v :: below)
    else (some v, single.1 :: above, single.2 :: below)
  | (none, above, below) => (some v, single.1 :: above, single.2 :: below)

/-- The series drawn above (green) and below (red) the target, simulations/display/display.go:1750-1788. -/
def chartSeries (target : α) (values : List α) : List (Option α) × List (Option α) :=
  let st := values.foldl (seriesStep target) (none, [], [])
  (st.2.1.reverse, st.2.2.reverse)

/-! ### Phase waves -/

/-- `calculateMeanField`, simulations/display/display.go:1810-1824: mean phase and magnitude. -/
def meanField (phases : List α) : α × α :=
  let sumSin := phases.foldl (fun s p => s + sin p) 0
  let sumCos := phases.foldl (fun s p => s + cos p) 0
  let n : α := ofInt (phases.length : Int)
  let ms := if n > 0 then sumSin / n else sumSin
  let mc := if n > 0 then sumCos / n else sumCos
  (atan2 ms mc, sqrt (ms * ms + mc * mc))

/-- `getAgentColor`, simulations/display/display.go:1827-1853. -/
def agentShade (phase meanPhase meanMagnitude : α) : Shade :=
  if meanMagnitude < 0.3 then
    match toInt ((phase + piMul 1) * 3.0 / piMul 2) with
    | 0 => .red
    | 1 => .yellow
    | 2 => .cyan
    | _ => .magenta
  else
    let d := GoMath.abs (phase - meanPhase)
    let d := if d > piMul 1 then piMul 2 - d else d
    if d < piMul 1 * (1 - meanMagnitude) then .green else .red

/-- The height of an agent's bar in `displayBatchingWaves`, simulations/display/display.go:1893-1894. -/
def waveHeight (phase : α) : Int := toInt ((sin phase + 1) / 2.0 * 8.0)

/-! ### Load distribution -/

/-- The region of a phase in `displayLoadDistribution`, simulations/display/display.go:1926-1929. -/
def loadRegion (phase : α) : Int :=
  let r := toInt ((phase + piMul 1) / piMul 2 * 4.0)
  if r ≥ 4 then 3 else r

/-- Counting an agent in `loads`; Go panics on an index out of range. -/
def addAt (r : Int) : Outcome (List Nat) → Outcome (List Nat)
  | .panic => .panic
  | .ok l => if r < 0 ∨ (l.length : Int) ≤ r then .panic else .ok (l.modify r.toNat (· + 1))

/-- The loads of `displayLoadDistribution`, simulations/display/display.go:1920-1931. -/
def regionLoads (phases : List α) : Outcome (List Nat) := phases.foldl (fun o p => addAt (loadRegion p) o) (.ok [0, 0, 0, 0])

/-- `calculateLoadVariance`, simulations/display/display.go:2340-2361: the standard deviation. -/
def loadDeviation (loads : List Nat) : α :=
  if loads.length = 0 then 0
  else
    let n : α := ofInt (loads.length : Int)
    let mean := loads.foldl (fun s (l : Nat) => s + ofInt (l : Int)) 0 / n
    let variance := loads.foldl (fun s (l : Nat) => s + (ofInt (l : Int) - mean) * (ofInt (l : Int) - mean)) 0 / n
    sqrt variance

/-- Whether `displayLoadDistribution` shows BALANCED, simulations/display/display.go:1953-1959; `none` if it panics. -/
def shownBalanced (phases : List α) : Outcome Bool :=
  match regionLoads phases with
  | .panic => .panic
  | .ok l => .ok (decide (¬ (loadDeviation l : α) > 2.0))

/-! ### Consensus -/

/-- The votes of `displayConsensusProgress`, simulations/display/display.go:1970-1974. -/
def vote (phase : α) : Int := toInt (phase * 2.0)

/-- The largest number of equal votes, simulations/display/display.go:1976-1982. The map is ranged over in some order; the maximum does not depend on it,
and counting the votes of each agent finds the same numbers. -/
def maxVotes (phases : List α) : Nat :=
  (phases.map fun p => (phases.map vote).count (vote p)).foldl (fun m c => if c > m then c else m) 0

/-- `agreementPercent`, simulations/display/display.go:1984. -/
def agreement (phases : List α) : α := sharePercent (maxVotes phases) phases.length

/-- Whether "CONSENSUS REACHED!" is shown, simulations/display/display.go:2000. -/
def consensusShown (phases : List α) : Bool := decide (agreement phases ≥ (95.0 : α))

/-! ### Latency, schedule and health -/

/-- The bin of an agent in `displayLatencyHistogram`, simulations/display/display.go:2020-2027. -/
def latencyBin (phase : α) : Int :=
  let b := toInt ((10.0 + GoMath.abs phase * 5.0) / 10.0)
  if b ≥ 5 then 4 else b

/-- The counts of `displayLatencyHistogram`, simulations/display/display.go:2015-2029. -/
def latencyBins (phases : List α) : Outcome (List Nat) := phases.foldl (fun o p => addAt (latencyBin p) o) (.ok [0, 0, 0, 0, 0])

/-- How `displayScheduleAlignment` counts an agent, simulations/display/display.go:2111-2121. -/
inductive Timing where
  | onTime | early | late
deriving DecidableEq

def timing (phase : α) : Timing :=
  if GoMath.abs phase < 0.1 then .onTime else if phase < 0 then .early else .late

/-- How `displaySystemHealth` counts an agent, simulations/display/display.go:2162-2171. -/
inductive Health where
  | healthy | degraded | failed
deriving DecidableEq

def health (disrupted : Bool) (phase : α) : Health :=
  if disrupted = true ∧ GoMath.abs phase > 2.0 then .failed else if GoMath.abs phase > 1 then .degraded else .healthy

/-- Whether "FULLY RESILIENT" is shown, simulations/display/display.go:2203-2210. -/
def resilientShown (s : Shown α) : Bool :=
  !s.disrupted && decide ((s.agents.countP fun a => health s.disrupted a.phase = .healthy) = s.agents.length)

/-! ### Energy and traffic -/

/-- The status of `displayEnergyPattern`, simulations/display/display.go:2059-2069, 2091-2097: whether EFFICIENT is shown. -/
def efficientShown (s : Shown α) : Bool := decide ((sharePercent (idleCount s) s.agents.length : α) > 70.0)

/-- The advice of `displayTrafficLoad`. -/
inductive Scaling where
  | up | down | optimal
deriving DecidableEq

/-- The advice of `displayTrafficLoad`, simulations/display/display.go:2218-2235, 2265-2275: `normal + busy` are the agents that are not quiet. -/
def scalingShown (s : Shown α) : Scaling :=
  let u : α := sharePercent (s.agents.countP fun a => a.activity ≠ .quiet) s.agents.length
  if u > 80.0 then .up else if u < 30.0 then .down else .optimal

/-! ### Agents -/

/-- The sync indicator of an agent, `updateAgentsDisplay`, simulations/display/display.go:1056-1123. -/
def syncShade (goal : GoalType) (p : α) : Shade :=
  match goal with
  | 1 | 6 =>
    if GoMath.abs p < 0.5 ∨ GoMath.abs (p - piMul 2) < 0.5 then .red
    else if GoMath.abs (p - piMul 1) < 0.5 ∨ GoMath.abs (p - piMul (1 / 2)) < 0.5 ∨ GoMath.abs (p - piMul (3 / 2)) < 0.5 then .green
    else .yellow
  | 4 =>
    if GoMath.abs p < 0.3 ∨ GoMath.abs (p - piMul 2) < 0.3 then .yellow
    else if GoMath.abs (p - piMul 1) < 0.5 then .green
    else .red
  | 2 => if GoMath.abs p < 0.5 ∨ GoMath.abs (p - 2.0) < 0.5 ∨ GoMath.abs (p - 4.0) < 0.5 then .green else .yellow
  | 0 | 3 | 5 | 7 =>
    if GoMath.abs p < 0.5 ∨ GoMath.abs (p - piMul 2) < 0.5 then .green
    else if GoMath.abs p < 1 then .yellow
    else .red
  | _ => .yellow

/-- `getAgentCharacter` with the colour of `renderGridChar`, simulations/display/display.go:2308-2337. -/
def dotShade (p : α) : Shade := if GoMath.abs p < 0.5 then .green else if GoMath.abs p < 1 then .yellow else .red

/-- The cell of the `i`th agent in `updateSwarmVisualization`, simulations/display/display.go:2563-2573, as offsets from the centre of the grid. -/
def cellOffset (coherence : α) (i : Nat) (phase : α) : Int × Int :=
  let distance := if coherence > 0.5 then 2.0 + 3.0 * (1 - coherence) else 5.0
  let angle := phase + ofInt (i : Int) * piMul 1 / 10.0
  (toInt (distance * cos angle), toInt (distance * sin angle / 2.0))

/-- Whether the agent is drawn, simulations/display/display.go:2575: the grid is 25 wide and 13 high, its centre is (12, 6). -/
def cellDrawn (o : Int × Int) : Bool :=
  decide (0 ≤ 12 + o.1 ∧ 12 + o.1 < 25 ∧ 0 ≤ 6 + o.2 ∧ 6 + o.2 < 13 ∧ (12 + o.1 ≠ 12 ∨ 6 + o.2 ≠ 6))

end
end Verif
