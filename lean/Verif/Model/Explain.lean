import Verif.Model.App
import Verif.Model.SimSmall

/-!
# Model of the explanations and of the configuration panel of the terminal display (`simulations/display/display.go`)

Texts are modelled without the icons and labels around them.
-/

set_option autoImplicit false

namespace Verif

/-- `getBestWorstDescriptions`, simulations/display/display.go:113-153: what the description panel calls the best and the worst case of a goal. -/
def bestWorst (goal : GoalType) : String × String :=
  match goal with
  | 0 => ("All workloads synchronized, maximum batching", "Workloads scattered, no batching possible")
  | 1 => ("Perfect anti-phase, resources evenly distributed", "All synchronized, maximum resource contention")
  | 2 => ("Voting blocs formed, rapid agreement", "Every node isolated, no consensus possible")
  | 3 => ("Predictable synchronized responses", "Alternating phases causing jitter")
  | 4 => ("Sparse, coordinated activity", "All sensors active simultaneously")
  | 5 => ("Steady beat, all jobs on schedule", "Irregular drift, schedule chaos")
  | 6 => ("Isolated failures, smooth recovery", "Clustered failures, cascading impact")
  | 7 => ("Distributed scaling, smooth handling", "Synchronized scaling, resource spikes")
  | _ => ("Optimal synchronization pattern", "Chaotic, uncoordinated behavior")

/-- The lines under `HOW IT WORKS`, simulations/display/display.go:802-882, without line ends; the mark in the third line is written `[green]`. -/
def howItWorks (goal : GoalType) : List String :=
  match goal with
  | 0 => ["1. Workloads generate tasks continuously", "2. Tasks queue up (see 'Queue' column)",
          "3. When sync [green] = all workloads send together", "4. Combined batch gets 50% discount!"]
  | 1 => ["1. Server instances compete for resources", "2. Emerge spreads them to anti-phase",
          "3. When [green] = perfectly distributed load", "4. No resource contention, smooth operation!"]
  | 2 => ["1. Distributed nodes need to agree", "2. Nodes form voting blocs (clusters)", "3. When [green] = bloc votes together",
          "4. Consensus reached faster!"]
  | 3 => ["1. Components process requests", "2. Synchronize for predictable timing", "3. When [green] = consistent response times",
          "4. Low, predictable latency achieved!"]
  | 4 => ["1. IoT sensors transmit data", "2. Coordinate sparse activity windows", "3. When [green] = sensors take turns",
          "4. Battery life extended significantly!"]
  | 5 => ["1. Scheduled jobs drift over time", "2. Phase-lock to maintain schedule", "3. When [green] = steady rhythm locked",
          "4. Jobs execute precisely on time!"]
  | 6 => ["1. System nodes monitor health", "2. Spread failures across time (anti-phase)", "3. When [green] = failures isolated",
          "4. Smooth recovery, no cascades!"]
  | 7 => ["1. Auto-scalers monitor traffic", "2. Stagger scaling decisions (anti-phase)", "3. When [green] = distributed scaling",
          "4. Handle bursts without overload!"]
  | _ => []

/-- The settings of a `TerminalDisplay` that its texts depend on, simulations/display/display.go:71-76. -/
structure DisplaySettings where
  simulationName : String
  goalName : String
  patternName : String
  goal : GoalType
  scale : Size
  pattern : PatternType

/-- `NewTerminalDisplay`, simulations/display/display.go:80-86; the other fields have their zero values. -/
def DisplaySettings.new : DisplaySettings := ⟨"MINIMIZE API CALLS", "", "", 0, 0, 0⟩

/-- `SetSimulationName`, simulations/display/display.go:89-91. -/
def DisplaySettings.setSimulationName (d : DisplaySettings) (name : String) : DisplaySettings := { d with simulationName := name }

/-- `SetGoalName`, simulations/display/display.go:94-96. -/
def DisplaySettings.setGoalName (d : DisplaySettings) (name : String) : DisplaySettings := { d with goalName := name }

/-- `SetGoalAndScale`, simulations/display/display.go:99-103, without the redrawing of the menu. -/
def DisplaySettings.setGoalAndScale (d : DisplaySettings) (g : GoalType) (s : Size) : DisplaySettings := { d with goal := g, scale := s }

/-- `SetPattern`, simulations/display/display.go:106-110, without the redrawing of the menu. -/
def DisplaySettings.setPattern (d : DisplaySettings) (p : PatternType) : DisplaySettings := { d with pattern := p, patternName := p.name }

/-- The values shown by `updateConfigurationDisplay`, simulations/display/display.go:886-923, after the elapsed time: goal, pattern and scale. Empty
texts are not written, which shows the same. -/
def DisplaySettings.configuration (d : DisplaySettings) : String × String × String := (d.goalName, d.patternName, d.simulationName)

/-- The display that `runSimulation` sets up in a terminal, simulations/emerge/main.go:212-221. -/
def App.display (a : App) : DisplaySettings :=
  (((DisplaySettings.new.setSimulationName (displayName a.config.scale)).setGoalName (GoalType.name a.config.goal)).setGoalAndScale a.config.goal
    a.config.scale).setPattern a.current.pattern

end Verif
