import Verif.Model.Display

/-!
# Model of the bars drawn by the panels of the terminal display (`simulations/display/display.go`)

A bar is drawn by a loop `for range n`, which runs `max n 0` times; the model gives `n`. Bars of twenty cells give the list of cells.
-/

set_option autoImplicit false

namespace Verif
open GoMath

section
variable {α : Type} [Zero α] [One α] [Add α] [Sub α] [Mul α] [Div α] [Neg α] [LT α] [LE α]
  [DecidableLT α] [DecidableLE α] [BEq α] [OfScientific α] [GoMath α]

/-- The bars of `displaySystemHealth`, simulations/display/display.go:2176, 2185 and 2195, for `count` of `total` agents. -/
def healthBar (count total : Nat) : Int := toInt ((ofInt (count : Int) / ofInt (total : Int) : α) * 20.0)

/-- The three bars of `displaySystemHealth`: healthy, degraded and failed agents, simulations/display/display.go:2157-2201. A bar of length 0
is not written at all for degraded and failed agents. -/
def healthBars (s : Shown α) : Int × Int × Int :=
  let count (h : Health) := s.agents.countP fun a => health s.disrupted a.phase = h
  (healthBar (α := α) (count .healthy) s.agents.length,
    if count .degraded > 0 then healthBar (α := α) (count .degraded) s.agents.length else 0,
    if count .failed > 0 then healthBar (α := α) (count .failed) s.agents.length else 0)

/-- The bars of `displayLatencyHistogram`, simulations/display/display.go:2036. -/
def latencyBar (count total : Nat) : Int := toInt ((ofInt (count : Int) / ofInt (total : Int) : α) * 30.0)

/-- `maxAgents` of `displayLoadDistribution`, simulations/display/display.go:1934. -/
def maxAgentsPerRegion (total : Nat) : Nat := total / 4 + 1

/-- The bars of `displayLoadDistribution`, simulations/display/display.go:1939. -/
def loadBar (load total : Nat) : Int := toInt ((ofInt (load : Int) / ofInt (maxAgentsPerRegion total : Int) : α) * 20.0)

/-- The colour of a bar of `displayLoadDistribution`, simulations/display/display.go:1940-1943. -/
def loadShade (load total : Nat) : Shade := if load > maxAgentsPerRegion total then .red else .green

/-- The twenty cells of a bar showing a percentage, true if filled: simulations/display/display.go:1988-1995 (agreement), 2073-2080 (battery) and
2239-2255 (capacity). -/
def percentCells (percent : α) : List Bool :=
  let bars := toInt (percent / 5.0)
  (List.range 20).map fun (i : Nat) => decide ((i : Int) < bars)

/-- The colour of the `i`th cell of the capacity bar, if filled, simulations/display/display.go:2241-2246. -/
def capacityShade (i : Nat) : Shade := if i ≥ 16 then .red else if i ≥ 12 then .yellow else .green

/-- The bars of `displayScheduleAlignment`: early, on time and late, simulations/display/display.go:2127-2132. `maxInt` is that of
simulations/display/display.go:2364-2369. -/
def scheduleBars (early onTime late : Nat) : Int × Int × Int :=
  let maxCount : Nat := if (if early > onTime then early else onTime) > late then (if early > onTime then early else onTime) else late
  let ratio : α := 15.0 / ofInt (maxCount : Int)
  (toInt (ofInt (early : Int) * ratio), toInt (ofInt (onTime : Int) * ratio), toInt (ofInt (late : Int) * ratio))

/-- The counts of `displayScheduleAlignment`, simulations/display/display.go:2105-2120. -/
def timingCounts (s : Shown α) : Nat × Nat × Nat :=
  (s.agents.countP fun a => timing a.phase = .early, s.agents.countP fun a => timing a.phase = .onTime,
    s.agents.countP fun a => timing a.phase = .late)

end
end Verif
