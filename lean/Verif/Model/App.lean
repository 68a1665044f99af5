import Verif.Model.Tables
import Mathlib.Data.Nat.Notation

/-!
# The demo program: events, the run loop and signals

Mirrors simulations/emerge/ui/runner.go:138-248, simulations/emerge/main.go:65-171, 175-261 and simulations/emerge/config.go:12-31 for a program that
runs in a terminal; without one the keyboard is not read (simulations/display/text_display.go:91-94).

Simplifications: a key is handled before the next is pressed, so the channel of ten events (simulations/display/controller.go:92-98) never
overflows; errors of the display and of building the simulation, which end the program, are left out; of a simulation only the calls made
by the runner are kept.
-/

set_option autoImplicit false

namespace Verif

/-- The settings that keys can change: `Config`, simulations/emerge/config.go:12-18, and the three `Current…` fields of `RunnerConfig`,
simulations/emerge/ui/runner.go:17-23. -/
structure AppConfig where
  goal : GoalType
  scale : Size
  pattern : PatternType
  deriving DecidableEq

/-- `DefaultConfig`, simulations/emerge/config.go:21-29. -/
def AppConfig.default : AppConfig := ⟨0, 0, 0⟩

/-- `(*Runner).isChangeEvent`, simulations/emerge/ui/runner.go:138-184. -/
def isChangeEvent (current : AppConfig) : Event → Bool
  | .scale s => current.scale ≠ s
  | .goal g => current.goal ≠ g
  | .pattern p => current.pattern ≠ p
  | _ => true

/-- A call on the simulation made by the runner. -/
inductive SimCall where
  | reset | disrupt | pause | resume
  deriving DecidableEq

/-- What `handleEvents` does with an event, simulations/emerge/ui/runner.go:197-242: it cancels the application, cancels it and asks for a
restart, calls the simulation and sets `paused`, or ignores the event. -/
inductive Handled where
  | cancel
  | restart (e : Event)
  | call (c : SimCall) (paused : Bool)
  | ignore
  deriving DecidableEq

/-- The body of `handleEvents`, simulations/emerge/ui/runner.go:197-242. -/
def handleEvent (current : AppConfig) (paused : Bool) : Event → Handled
  | .quit => .cancel
  | .reset => if !paused then .call .reset paused else .ignore
  | .disrupt => if !paused then .call .disrupt paused else .ignore
  | .pause => if paused then .call .resume false else .call .pause true
  | .resume => .call .resume false
  | .scale s => if isChangeEvent current (.scale s) then .restart (.scale s) else .ignore
  | .goal g => if isChangeEvent current (.goal g) then .restart (.goal g) else .ignore
  | .pattern p => if isChangeEvent current (.pattern p) then .restart (.pattern p) else .ignore

/-- The switch on the result of a run and the update of the configuration, simulations/emerge/main.go:74-170. `none` ends the program, by `return` or
by the `break` at the end of the loop. -/
def nextConfig (config : AppConfig) : Event → Option AppConfig
  | .scale s => if config.scale ≠ s then some { config with scale := s } else none
  | .goal g => if config.goal ≠ g then some { config with goal := g } else none
  | .pattern p => if config.pattern ≠ p then some { config with pattern := p } else none
  | .quit => none
  | .reset | .disrupt | .pause | .resume => none

/-- The program while a simulation runs: the configuration held by `main`, whether the runner is paused, the calls made on the current
simulation, and how often the loop was restarted. Context number `restarts` is the one the current run was given. -/
structure App where
  config : AppConfig
  paused : Bool
  calls : List SimCall
  restarts : ℕ
  deriving DecidableEq

/-- The start of the program with a parsed scale, simulations/emerge/main.go:52-62. -/
def App.start (s : Size) : App := ⟨{ AppConfig.default with scale := s }, false, [], 0⟩

/-- The pattern that the workloads are built with: `buildConfig.Pattern`, simulations/emerge/main.go:198-204, is set before the automatic selection. -/
def App.workloadPattern (a : App) : PatternType := a.config.pattern

/-- The configuration after the automatic selection of a pattern, simulations/emerge/main.go:218-220, which is shown (line 221) and given
to the runner (lines 237-243). It is a copy: `main` keeps the old one. -/
def App.current (a : App) : AppConfig :=
  if a.config.pattern = 0 then { a.config with pattern := bestPatternForGoal a.config.goal } else a.config

/-- The pattern shown. -/
def App.shownPattern (a : App) : PatternType := a.current.pattern

/-- A key is pressed; `none` if the program ends. Cancelling without a request for a restart makes the run return `RunResult{}`, whose event is
the zero value `EventQuit`, simulations/emerge/ui/runner.go:108-119. -/
def App.press (a : App) (k : Key) : Option App :=
  match processKey k with
  | none => some a
  | some e =>
    match handleEvent a.current a.paused e with
    | .cancel => (nextConfig a.config .quit).map fun c => ⟨c, false, [], a.restarts + 1⟩
    | .restart e => (nextConfig a.config e).map fun c => ⟨c, false, [], a.restarts + 1⟩
    | .call c p => some { a with paused := p, calls := a.calls ++ [c] }
    | .ignore => some a

/-- An interrupt or termination signal arrives, simulations/emerge/main.go:251-256: `handleSignals` was given the cancel function of the first context
(lines 59-62) and calls it once. The context of a restarted run is a new one (line 167). `none` if the program ends. -/
def App.signal (a : App) : Option App := if a.restarts = 0 then nextConfig a.config .quit |>.map fun c => ⟨c, false, [], a.restarts + 1⟩ else some a

/-- Keys pressed one after the other. -/
def App.pressAll (a : App) : List Key → Option App
  | [] => some a
  | k :: ks => (a.press k).bind fun b => b.pressAll ks

end Verif
