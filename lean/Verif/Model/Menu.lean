import Verif.Model.Tables

/-!
# Model of the menu and of the assessment of the configuration in the terminal display (`simulations/display/display.go`)

Only the texts that are chosen between are modelled, not the frame around them; of the colours and the boldness, whether an entry is white and
bold.
-/

set_option autoImplicit false

namespace Verif

/-! ### The menu -/

/-- The goals in the menu, simulations/display/display.go:423-430: key, name and goal. -/
def goalMenu : List (Char × String × GoalType) :=
  [('B', "Batch", 0), ('L', "Load", 1), ('C', "Consensus", 2), ('T', "Latency", 3), ('E', "Energy", 4), ('M', "Rhythm", 5),
   ('F', "Failure", 6), ('A', "Traffic", 7)]

/-- The patterns in the menu, simulations/display/display.go:466-470. -/
def patternMenu : List (Char × String × PatternType) :=
  [('H', "High-Freq", 1), ('U', "Burst", 2), ('Y', "Steady", 3), ('X', "Mixed", 4), ('Z', "Sparse", 5)]

/-- The scales in the menu, simulations/display/display.go:511-515: key, name, scale and number of agents. -/
def scaleMenu : List (Char × String × Size × Int) :=
  [('1', "Tiny", 0, 20), ('2', "Small", 1, 50), ('3', "Medium", 2, 200), ('4', "Large", 3, 1000), ('5', "Huge", 4, 5000)]

/-- The actions in the menu, simulations/display/display.go:549. -/
def actionMenu : List (Char × String) := [('D', "Disrupt"), ('R', "Reset"), ('P', "Pause"), ('Q', "Quit")]

section
variable {α : Type} [Zero α] [One α] [Add α] [Sub α] [Mul α] [Div α] [Neg α] [LT α] [LE α]
  [DecidableLT α] [DecidableLE α] [BEq α] [OfScientific α] [GoMath α]

variable (α) in
/-- The condition for a white and bold pattern, simulations/display/display.go:482, and `isGood` of the assessment, lines 654-656. -/
def patternGood (g : GoalType) (agentCount : Int) (p : PatternType) : Bool :=
  let q := getQualifier (α := α) g agentCount p
  q = "optimal" || q = "excellent" || q = "good"

variable (α) in
/-- Which patterns of the menu are white and bold, simulations/display/display.go:473-489. -/
def boldPatterns (g : GoalType) (s : Size) : List PatternType :=
  (patternMenu.filter fun e => patternGood α g s.defaultAgentCount e.2.2).map fun e => e.2.2

variable (α) in
/-- The mark beside the pattern, simulations/display/display.go:587-600. -/
def patternMark (g : GoalType) (s : Size) (p : PatternType) : String :=
  let q := getQualifier (α := α) g s.defaultAgentCount p
  if q = "optimal" then "  ✓"
  else if q = "excellent" ∨ q = "good" then "  ✓"
  else if q = "fair" then "  ⚠"
  else if q = "poor" then "  ✗"
  else ""

variable (α) in
/-- The assessment of the pattern, simulations/display/display.go:632-648. -/
def patternStatus (g : GoalType) (s : Size) (p : PatternType) : String :=
  let q := getQualifier (α := α) g s.defaultAgentCount p
  if q = "optimal" then "Optimal"
  else if q = "excellent" ∨ q = "good" then "Good"
  else if q = "fair" then "Fair"
  else if q = "poor" then "Poor"
  else "Unknown"
end

/-- Which scales of the menu are white and bold, simulations/display/display.go:518-531. -/
def boldScales (g : GoalType) : List Size := (scaleMenu.filter fun e => g.isRecommendedForSize e.2.2.2).map fun e => e.2.2.1

/-! ### Reasons -/

/-- The map `reasons` of `getPatternReason`, simulations/display/display.go:2381-2481: goal, pattern and whether it is good. -/
def patternReasons : List ((GoalType × PatternType × Bool) × String) :=
  [((0, 2, true), " (creates natural batching windows)"),
   ((0, 1, true), " (continuous flow enables steady batching)"),
   ((0, 3, true), " (predictable timing for batch optimization)"),
   ((0, 5, false), " (too infrequent for effective batching)"),
   ((0, 4, false), " (unpredictable timing disrupts batching)"),
   ((0, 1, false), " (too frequent for batching)"),
   ((0, 2, false), " (irregular batching)"),
   ((0, 3, false), " (suboptimal batch sizes)"),
   ((1, 4, true), " (varied timing spreads load naturally)"),
   ((1, 5, true), " (low frequency prevents overload)"),
   ((1, 3, true), " (predictable for load balancing)"),
   ((1, 2, false), " (creates load spikes)"),
   ((1, 1, false), " (may overload servers)"),
   ((1, 3, false), " (predictable load patterns)"),
   ((1, 4, false), " (unpredictable load)"),
   ((1, 5, false), " (uneven distribution)"),
   ((2, 2, true), " (concentrated voting rounds)"),
   ((2, 1, true), " (rapid consensus iterations)"),
   ((2, 3, true), " (regular voting cycles)"),
   ((2, 4, true), " (unpredictable voting timing)"),
   ((2, 5, true), " (slow consensus formation)"),
   ((2, 5, false), " (too slow for consensus)"),
   ((2, 4, false), " (unpredictable voting timing)"),
   ((2, 1, false), " (too rapid for consensus)"),
   ((2, 2, false), " (irregular consensus attempts)"),
   ((2, 3, false), " (may miss optimal timing)"),
   ((3, 1, true), " (continuous optimization of response times)"),
   ((3, 3, true), " (predictable latency patterns)"),
   ((3, 2, true), " (latency spikes during bursts)"),
   ((3, 4, true), " (variable latency)"),
   ((3, 5, true), " (infrequent optimization opportunities)"),
   ((3, 5, false), " (infrequent optimization opportunities)"),
   ((3, 2, false), " (creates latency spikes)"),
   ((3, 1, false), " (may increase overhead)"),
   ((3, 3, false), " (predictable but not minimal)"),
   ((3, 4, false), " (unpredictable latency)"),
   ((4, 5, true), " (minimal activity saves power)"),
   ((4, 2, true), " (concentrated work, longer idle periods)"),
   ((4, 1, true), " (constant activity drains battery)"),
   ((4, 3, true), " (predictable power usage)"),
   ((4, 4, true), " (unpredictable energy consumption)"),
   ((4, 1, false), " (constant activity drains battery)"),
   ((4, 4, false), " (unpredictable power usage)"),
   ((4, 3, false), " (continuous power draw)"),
   ((4, 2, false), " (power spikes)"),
   ((4, 5, false), " (minimal but inefficient)"),
   ((5, 3, true), " (perfect for rhythm maintenance)"),
   ((5, 1, true), " (frequent sync points)"),
   ((5, 2, true), " (intermittent rhythm disruption)"),
   ((5, 4, true), " (irregular rhythm)"),
   ((5, 5, true), " (too infrequent for rhythm)"),
   ((5, 5, false), " (gaps disrupt rhythm)"),
   ((5, 4, false), " (irregular timing breaks rhythm)"),
   ((5, 2, false), " (intermittent disruptions)"),
   ((5, 1, false), " (too fast for stable rhythm)"),
   ((5, 3, false), " (monotonous rhythm)"),
   ((6, 2, true), " (rapid recovery attempts)"),
   ((6, 1, true), " (continuous health monitoring)"),
   ((6, 3, true), " (regular health checks)"),
   ((6, 4, true), " (unpredictable recovery timing)"),
   ((6, 5, true), " (delayed failure detection)"),
   ((6, 5, false), " (slow failure detection)"),
   ((6, 4, false), " (unpredictable recovery timing)"),
   ((6, 2, false), " (irregular recovery attempts)"),
   ((6, 1, false), " (may overwhelm recovery)"),
   ((6, 3, false), " (predictable but slow)"),
   ((7, 4, true), " (simulates real traffic patterns)"),
   ((7, 2, true), " (tests surge handling)"),
   ((7, 1, true), " (stress testing traffic)"),
   ((7, 3, true), " (baseline traffic pattern)"),
   ((7, 5, true), " (low traffic simulation)"),
   ((7, 5, false), " (insufficient traffic simulation)"),
   ((7, 3, false), " (doesn't simulate real traffic variability)"),
   ((7, 1, false), " (unrealistic constant load)"),
   ((7, 2, false), " (too extreme for baseline)"),
   ((7, 4, false), " (too unpredictable)")]

/-- `getPatternReason`, simulations/display/display.go:2372-2538. -/
def getPatternReason (g : GoalType) (p : PatternType) (good : Bool) : String :=
  if p = 0 then ""
  else match patternReasons.lookup (g, p, good) with
    | some reason => reason
    | none =>
      if good then
        match g with
        | 0 => " (supports batch formation)"
        | 1 => " (helps distribute workload)"
        | 2 => " (supports voting coordination)"
        | 3 => " (enables latency optimization)"
        | 4 => " (supports energy conservation)"
        | 5 => " (enables rhythm coordination)"
        | 6 => " (supports failure detection)"
        | 7 => " (enables traffic adaptation)"
        | _ => " (compatible with goal)"
      else
        match g with
        | 0 => " (suboptimal for batching)"
        | 1 => " (uneven load distribution)"
        | 2 => " (hampers consensus formation)"
        | 3 => " (suboptimal for latency)"
        | 4 => " (inefficient energy use)"
        | 5 => " (rhythm disruption likely)"
        | 6 => " (hampers recovery efforts)"
        | 7 => " (poor traffic simulation)"
        | _ => " (not optimal for this goal)"

/-- The assessment of the scale with its reason, simulations/display/display.go:664-783. -/
def scaleAssessment (g : GoalType) (agentCount : Int) : String × String :=
  if g.isRecommendedForSize agentCount then
    ("Good", match g with
      | 0 => " (more agents = bigger batches)"
      | 1 => if agentCount ≥ 200 then " (many workers share the load)" else " (enough workers to distribute)"
      | 2 => if agentCount ≤ 200 then " (fewer agents = faster agreement)" else " (still manageable voting time)"
      | 3 => " (fewer hops = faster response)"
      | 4 => if agentCount ≤ 200 then " (fewer agents = less power)" else " (coordinated sleep cycles)"
      | 5 => if agentCount ≤ 50 then " (small groups sync naturally)" else " (frequency locking scales)"
      | 6 => " (backup agents ready)"
      | 7 => if agentCount ≥ 200 then " (handles traffic spikes)" else " (absorbs normal variance)"
      | _ => "")
  else
    ("Poor", match g with
      | 0 => " (less batching opportunity)"
      | 1 => if agentCount < 20 then " (not enough workers)" else " (coordination overhead)"
      | 2 =>
        if agentCount < 50 then " (too few voices for quorum)"
        else if agentCount > 1000 then " (too many agents slows consensus)"
        else " (group size slows agreement)"
      | 3 => if agentCount > 200 then " (more hops between agents)" else " (coordination adds delay)"
      | 4 => if agentCount > 200 then " (too many agents drain power)" else " (energy not optimized)"
      | 5 => " (rhythm disrupted)"
      | 6 => if agentCount < 20 then " (no backup agents)" else " (recovery not optimal)"
      | 7 =>
        if agentCount < 20 then " (can't handle spikes)"
        else if agentCount > 1000 then " (slow to adapt)"
        else " (traffic handling limited)"
      | _ =>
        if agentCount < 50 then " (too few agents for coordination)"
        else if agentCount > 1000 then " (coordination overhead dominates)"
        else " (inefficient at this size)")

end Verif
