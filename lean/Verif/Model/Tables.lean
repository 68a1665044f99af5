import Verif.Num.GoMath

/-!
# Model of the enumerations and tables: `emerge/goal/config.go`, `emerge/trait/trait.go`, `emerge/scale/scale.go`,
`emerge/swarm/limits.go`, `simulations/emerge/simulation/pattern/pattern.go`, `simulations/display/controller.go`,
`simulations/emerge/main.go`, `simulations/emerge/ui/runner.go`

Go enumerations are integers and any integer value can occur, so they are modelled as `Int`; the constants are the
`iota` values of the source.
-/

set_option autoImplicit false

namespace Verif

/-- `goal.Type` values 0..7, emerge/goal/config.go:10-43: MinimizeAPICalls, DistributeLoad, ReachConsensus,
MinimizeLatency, SaveEnergy, MaintainRhythm, RecoverFromFailure, AdaptToTraffic. -/
abbrev GoalType := Int

/-- `(Type).String`, emerge/goal/config.go:46-67. -/
def GoalType.name : GoalType → String
  | 0 => "Batch API Calls"
  | 1 => "Load Distribution"
  | 2 => "Consensus Building"
  | 3 => "Low Latency"
  | 4 => "Energy Saving"
  | 5 => "Periodic Tasks"
  | 6 => "Fault Recovery"
  | 7 => "Traffic Adaptation"
  | _ => "Custom Goal"

/-- `(Type).ShortKey`, emerge/goal/config.go:70-91 (a one-character string in the source). -/
def GoalType.shortKey : GoalType → Char
  | 0 => 'B'
  | 1 => 'L'
  | 2 => 'C'
  | 3 => 'T'
  | 4 => 'E'
  | 5 => 'R'
  | 6 => 'F'
  | 7 => 'A'
  | _ => '?'

/-- `(Type).IsRecommendedForSize`, emerge/goal/config.go:94-123. -/
def GoalType.isRecommendedForSize (g : GoalType) (agentCount : Int) : Bool :=
  match g with
  | 0 => true
  | 1 => agentCount ≥ 20
  | 2 => agentCount ≥ 50 && agentCount ≤ 1000
  | 3 => agentCount ≤ 200
  | 4 => agentCount ≤ 200
  | 5 => true
  | 6 => agentCount ≥ 20
  | 7 => agentCount ≥ 20 && agentCount ≤ 1000
  | _ => true

/-- `(Target).String`, emerge/trait/trait.go:36-53: Stability, Speed, Efficiency, Throughput, Resilience, Precision. -/
def traitName : Int → String
  | 0 => "stability"
  | 1 => "speed"
  | 2 => "efficiency"
  | 3 => "throughput"
  | 4 => "resilience"
  | 5 => "precision"
  | _ => "unknown"

/-- `scale.Size` values 0..4, emerge/scale/scale.go:8-34: Tiny, Small, Medium, Large, Huge. -/
abbrev Size := Int

/-- `(Size).String`, emerge/scale/scale.go:37-52. -/
def Size.name : Size → String
  | 0 => "tiny"
  | 1 => "small"
  | 2 => "medium"
  | 3 => "large"
  | 4 => "huge"
  | _ => "unknown"

/-- `FromCount`, emerge/scale/scale.go:55-68. -/
def fromCount (count : Int) : Size :=
  if count ≤ 20 then 0 else if count ≤ 50 then 1 else if count ≤ 200 then 2 else if count ≤ 1000 then 3 else 4

/-- `(Size).DefaultAgentCount`, emerge/scale/scale.go:71-86. -/
def Size.defaultAgentCount : Size → Int
  | 0 => 20
  | 1 => 50
  | 2 => 200
  | 3 => 1000
  | 4 => 2000
  | _ => 50

/-- `(Size).DefaultUpdateIntervalMs`, emerge/scale/scale.go:109-124. -/
def Size.defaultUpdateIntervalMs : Size → Int
  | 0 => 20
  | 1 => 50
  | 2 => 100
  | 3 => 150
  | 4 => 200
  | _ => 100

/-- `(Size).MaxNeighbors`, emerge/scale/scale.go:146-161. -/
def Size.maxNeighbors : Size → Int
  | 0 => 9
  | 1 => 15
  | 2 => 20
  | 3 => 10
  | 4 => 5
  | _ => 3

/-- `(Size).UpdateInterval`, emerge/scale/scale.go:163-178, in milliseconds. -/
def Size.updateInterval : Size → Int
  | 0 => 20
  | 1 => 50
  | 2 => 100
  | 3 => 150
  | 4 => 200
  | _ => 250

section
variable {α : Type} [Zero α] [One α] [Add α] [Sub α] [Mul α] [Div α] [Neg α] [LT α] [LE α]
  [DecidableLT α] [DecidableLE α] [BEq α] [OfScientific α] [GoMath α]

/-- `(Size).DefaultTargetCoherence`, emerge/scale/scale.go:90-105. -/
def Size.defaultTargetCoherence : Size → α
  | 0 => 0.90
  | 1 => 0.85
  | 2 => 0.75
  | 3 => 0.65
  | 4 => 0.55
  | _ => 0.75

/-- `(Size).DefaultConvergenceTimeFactor`, emerge/scale/scale.go:128-143. -/
def Size.defaultConvergenceTimeFactor : Size → α
  | 0 => 1.0
  | 1 => 1.2
  | 2 => 1.5
  | 3 => 2.0
  | 4 => 3.0
  | _ => 1.5

/-- `CoherenceLimits`, emerge/swarm/limits.go:8-12. -/
structure CoherenceLimits (α : Type) where
  theoretical : α
  practical : α
  recommended : α

/-- `GetCoherenceLimits`, emerge/swarm/limits.go:16-77. -/
def getCoherenceLimits (swarmSize : Int) : CoherenceLimits α :=
  if swarmSize ≤ 0 then ⟨0, 0, 0⟩
  else if swarmSize = 1 then ⟨1, 1, 1⟩
  else if swarmSize < 5 then ⟨0.95, 0.85, 0.75⟩
  else if swarmSize < 10 then ⟨0.98, 0.92, 0.85⟩
  else if swarmSize < 20 then ⟨0.99, 0.95, 0.90⟩
  else if swarmSize < 50 then ⟨0.995, 0.97, 0.92⟩
  else if swarmSize < 100 then ⟨0.998, 0.98, 0.95⟩
  else ⟨0.999, 0.99, 0.97⟩

/-- `GetMinimumSwarmSize`, emerge/swarm/limits.go:81-97. -/
def getMinimumSwarmSize (target : α) : Int :=
  if target ≥ 0.99 then 100
  else if target ≥ 0.97 then 50
  else if target ≥ 0.95 then 20
  else if target ≥ 0.90 then 10
  else if target ≥ 0.85 then 5
  else 2

/-- `GetConvergenceTimeFactor`, emerge/swarm/limits.go:101-126; `none` stands for `math.Inf(1)`. -/
def getConvergenceTimeFactor (swarmSize : Int) (target : α) : Option α :=
  let limits : CoherenceLimits α := getCoherenceLimits swarmSize
  if target > limits.practical then none
  else if limits.practical ≤ 0 then some 1
  else
    let utilization := target / limits.practical
    if utilization < 0.8 then some 1
    else if utilization < 0.9 then some 2.0
    else if utilization < 0.95 then some 4.0
    else some 8.0

/-- `ValidateCoherenceTarget`, emerge/swarm/limits.go:130-149. -/
def validateCoherenceTarget (swarmSize : Int) (requested : α) : α × String :=
  let limits : CoherenceLimits α := getCoherenceLimits swarmSize
  if requested > limits.theoretical then
    (limits.theoretical, "Target coherence exceeds theoretical maximum for this swarm size")
  else if requested > limits.practical then
    (requested, "Target coherence may not be achievable in reasonable time")
  else if requested > limits.recommended then
    (requested, "Target coherence is ambitious for this swarm size")
  else (requested, "")

end

/-! ### Request patterns -/

/-- `pattern.Type` values 0..5, simulations/emerge/simulation/pattern/pattern.go:7-25: Unset, HighFrequency, Burst,
Steady, Mixed, Sparse. -/
abbrev PatternType := Int

/-- `(Type).String`, simulations/emerge/simulation/pattern/pattern.go:28-45. -/
def PatternType.name : PatternType → String
  | 0 => "Auto"
  | 1 => "High-Frequency"
  | 2 => "Burst"
  | 3 => "Steady"
  | 4 => "Mixed"
  | 5 => "Sparse"
  | _ => "Unknown"

/-- `(Type).ShortKey`, simulations/emerge/simulation/pattern/pattern.go:48-65; `none` is the empty string. -/
def PatternType.shortKey : PatternType → Option Char
  | 1 => some 'h'
  | 2 => some 'u'
  | 3 => some 'y'
  | 4 => some 'x'
  | 5 => some 'z'
  | _ => none

section
variable {α : Type} [Zero α] [One α] [Add α] [Sub α] [Mul α] [Div α] [Neg α] [LT α] [LE α]
  [DecidableLT α] [DecidableLE α] [BEq α] [OfScientific α] [GoMath α]

/-- The goal/pattern table of `GetCoherenceModifier`, simulations/emerge/simulation/pattern/pattern.go:91-210.
A pattern or goal not listed keeps the base modifier 1.0. -/
def modifierTable : Int → PatternType → α
  -- MinimizeAPICalls
  | 0, 1 => 1.3 | 0, 2 => 1.3 | 0, 4 => 1.2 | 0, 3 => 1.0 | 0, 5 => 0.7
  -- DistributeLoad
  | 1, 1 => 1.3 | 1, 3 => 1.3 | 1, 4 => 1.1 | 1, 2 => 0.9 | 1, 5 => 0.6
  -- ReachConsensus
  | 2, 3 => 1.3 | 2, 1 => 1.0 | 2, 4 => 0.9 | 2, 2 => 0.6 | 2, 5 => 0.6
  -- MinimizeLatency
  | 3, 1 => 1.3 | 3, 3 => 1.2 | 3, 2 => 0.8 | 3, 4 => 0.9 | 3, 5 => 0.6
  -- SaveEnergy
  | 4, 5 => 1.3 | 4, 2 => 1.2 | 4, 3 => 0.9 | 4, 4 => 0.8 | 4, 1 => 0.6
  -- MaintainRhythm
  | 5, 3 => 1.3 | 5, 1 => 1.1 | 5, 4 => 0.9 | 5, 2 => 0.8 | 5, 5 => 0.7
  -- RecoverFromFailure
  | 6, 4 => 1.3 | 6, 1 => 1.2 | 6, 2 => 1.1 | 6, 3 => 1.0 | 6, 5 => 0.6
  -- AdaptToTraffic
  | 7, 2 => 1.3 | 7, 4 => 1.2 | 7, 1 => 1.0 | 7, 3 => 0.8 | 7, 5 => 0.6
  | _, _ => 1.0

/-- `GetCoherenceModifier`, simulations/emerge/simulation/pattern/pattern.go:89-221. -/
def getCoherenceModifier (goalType agentCount : Int) (p : PatternType) : α :=
  let m : α := modifierTable goalType p
  let m := if agentCount ≥ 1000 ∧ p = 1 then m * 0.9 else m
  if agentCount ≤ 50 ∧ p = 5 then m * 0.8 else m

/-- `GetQualifier`, simulations/emerge/simulation/pattern/pattern.go:241-256. -/
def getQualifier (goalType agentCount : Int) (p : PatternType) : String :=
  let m : α := getCoherenceModifier goalType agentCount p
  if m ≥ 1.3 then "optimal"
  else if m ≥ 1.2 then "excellent"
  else if m ≥ 1.0 then "good"
  else if m ≥ 0.8 then "fair"
  else "poor"

/-- `IsRecommended`, simulations/emerge/simulation/pattern/pattern.go:259-261. -/
def isRecommended (goalType agentCount : Int) (p : PatternType) : Bool :=
  decide ((getCoherenceModifier goalType agentCount p : α) ≥ 1.2)
end

/-- `BestPatternForGoal`, simulations/emerge/simulation/pattern/pattern.go:264-285. -/
def bestPatternForGoal : Int → PatternType
  | 0 => 1
  | 1 => 3
  | 2 => 3
  | 3 => 1
  | 4 => 5
  | 5 => 3
  | 6 => 4
  | 7 => 2
  | _ => 3

/-! ### Keyboard control of the simulation -/

/-- `display.EventType`, simulations/display/interfaces.go:102-131. Scale, goal and pattern events carry the
enumeration value they stand for (the constants `ScaleTiny … PatternSparse` are consecutive in the source). -/
inductive Event where
  | quit | reset | disrupt | pause | resume
  | scale (s : Size)
  | goal (g : GoalType)
  | pattern (p : PatternType)
  deriving DecidableEq, Repr

/-- A key of the terminal: a character or the escape key. -/
inductive Key where
  | char (c : Char)
  | esc
  deriving DecidableEq

/-- `(*KeyboardController).ProcessKey`, simulations/display/controller.go:31-99: the event of a key, `none` if ignored.
The bounded event channel is not modelled here. -/
def processKey : Key → Option Event
  | .char 'q' | .char 'Q' => some .quit
  | .char 'r' | .char 'R' => some .reset
  | .char 'd' | .char 'D' => some .disrupt
  | .char 'p' | .char 'P' => some .pause
  | .char ' ' => some .resume
  | .esc => some .quit
  | .char '1' => some (.scale 0)
  | .char '2' => some (.scale 1)
  | .char '3' => some (.scale 2)
  | .char '4' => some (.scale 3)
  | .char '5' => some (.scale 4)
  | .char 'b' | .char 'B' => some (.goal 0)
  | .char 'l' | .char 'L' => some (.goal 1)
  | .char 'c' | .char 'C' => some (.goal 2)
  | .char 't' | .char 'T' => some (.goal 3)
  | .char 'e' | .char 'E' => some (.goal 4)
  | .char 'm' | .char 'M' => some (.goal 5)
  | .char 'f' | .char 'F' => some (.goal 6)
  | .char 'a' | .char 'A' => some (.goal 7)
  | .char 'h' | .char 'H' => some (.pattern 1)
  | .char 'u' | .char 'U' => some (.pattern 2)
  | .char 'y' | .char 'Y' => some (.pattern 3)
  | .char 'x' | .char 'X' => some (.pattern 4)
  | .char 'z' | .char 'Z' => some (.pattern 5)
  | _ => none

end Verif
