import Verif.Model.Core

/-!
# Model of `emerge/convergence/monitor.go`

The mutex makes every method atomic, so a monitor is a state on which methods run one after the other. Timestamps are
integers (nanoseconds). The counter `stuckCount` is an `int32` in the code; its wrap-around after 2^31 consecutive flat
samples is not modelled.
-/

set_option autoImplicit false

namespace Verif
open GoMath

section
variable {α : Type} [Zero α] [One α] [Add α] [Sub α] [Mul α] [Div α] [Neg α] [LT α] [LE α]
  [DecidableLT α] [DecidableLE α] [BEq α] [OfScientific α] [GoMath α]

/-- `convergence.Sample`, emerge/convergence/monitor.go:24-30. -/
structure ConvSample (α : Type) where
  timestamp : Int
  distance : α
  coherence : α
  velocity : α
  acceleration : α

/-- `convergence.Monitor`, emerge/convergence/monitor.go:14-21. -/
structure ConvMonitor (α : Type) where
  history : List (ConvSample α)
  windowSize : Int
  target : Option (TargetPattern α)
  converging : Bool
  stuckCount : Int

/-- `NewMonitor`, emerge/convergence/monitor.go:33-41. -/
def ConvMonitor.new (windowSize : Int) : ConvMonitor α :=
  { history := [], windowSize := if windowSize ≤ 0 then 10 else windowSize, target := none, converging := false
    stuckCount := 0 }

/-- `(*Monitor).SetTarget`, emerge/convergence/monitor.go:44-46. -/
def ConvMonitor.setTarget (m : ConvMonitor α) (target : Option (TargetPattern α)) : ConvMonitor α :=
  { m with target := target }

/-- `time.Duration.Seconds` (Go standard library): whole seconds plus the remaining nanoseconds divided by 1e9. -/
def durationSeconds (d : Int) : α := ofInt (d.tdiv 1000000000) + ofInt (d.tmod 1000000000) / 1e9

/-- `(*Monitor).getRecentSamples`, emerge/convergence/monitor.go:221-227. -/
def ConvMonitor.recent (m : ConvMonitor α) : List (ConvSample α) :=
  let start : Int := m.history.length - m.windowSize
  let start := if start < 0 then 0 else start
  m.history.drop start.toNat

/-- The four sums of the regression loop, emerge/convergence/monitor.go:236-248: `(sumX, sumY, sumXY, sumX2)`. -/
def trendSums (data : List α) : α × α × α × α :=
  data.zipIdx.foldl (fun s yi =>
    let x : α := ofInt (yi.2 : Int)
    (s.1 + x, s.2.1 + yi.1, s.2.2.1 + x * yi.1, s.2.2.2 + x * x)) (0, 0, 0, 0)

/-- `calculateTrend`, emerge/convergence/monitor.go:230-258. -/
def calculateTrend (data : List α) : α :=
  if data.length < 2 then 0
  else
    let n : α := ofInt (data.length : Int)
    let s := trendSums data
    let denominator := n * s.2.2.2 - s.1 * s.1
    if GoMath.abs denominator < 1e-10 then 0
    else (n * s.2.2.1 - s.1 * s.2.1) / denominator

/-- `(*Monitor).updateConvergenceStatus`, emerge/convergence/monitor.go:186-218. -/
def ConvMonitor.updateStatus (m : ConvMonitor α) : ConvMonitor α :=
  if m.history.length < 3 then { m with converging := false }
  else if m.recent.length < 3 then { m with converging := false }
  else
    let trend : α := calculateTrend (m.recent.map (·.distance))
    { m with
      stuckCount := if GoMath.abs trend < 0.001 then m.stuckCount + 1 else 0
      converging := decide (trend < -0.001) }

/-- The sample built by `RecordSample`, emerge/convergence/monitor.go:53-78. -/
def ConvMonitor.sample (m : ConvMonitor α) (now : Int) (current : Option (TargetPattern α)) (coherence : α) :
    ConvSample α :=
  let distance := patternDistance current m.target
  match m.history.getLast? with
  | none => { timestamp := now, distance := distance, coherence := coherence, velocity := 0, acceleration := 0 }
  | some last =>
    let dt : α := durationSeconds (now - last.timestamp)
    if 0 < dt then
      let velocity := (distance - last.distance) / dt
      { timestamp := now, distance := distance, coherence := coherence, velocity := velocity
        acceleration := if m.history.length > 1 then (velocity - last.velocity) / dt else 0 }
    else { timestamp := now, distance := distance, coherence := coherence, velocity := 0, acceleration := 0 }

/-- Bounding the history, emerge/convergence/monitor.go:83-85. -/
def boundHistory (windowSize : Int) (h : List (ConvSample α)) : List (ConvSample α) :=
  if (h.length : Int) > windowSize * 2 then h.drop ((h.length : Int) - windowSize).toNat else h

/-- `(*Monitor).RecordSample`, emerge/convergence/monitor.go:49-89. -/
def ConvMonitor.record (m : ConvMonitor α) (now : Int) (current : Option (TargetPattern α)) (coherence : α) :
    ConvMonitor α :=
  ({ m with history := boundHistory m.windowSize (m.history ++ [m.sample now current coherence]) }).updateStatus

/-- `(*Monitor).IsStuck`, emerge/convergence/monitor.go:97-99. -/
def ConvMonitor.isStuck (m : ConvMonitor α) : Bool := decide (m.stuckCount > 5)

/-- `(*Monitor).GetProgress`, emerge/convergence/monitor.go:102-125. -/
def ConvMonitor.progress (m : ConvMonitor α) : α :=
  match m.history.head?, m.history.getLast? with
  | some first, some last =>
    if first.distance ≤ 0 then 1
    else fmax 0 (fmin 1 (1 - last.distance / first.distance))
  | _, _ => 0

/-- `(*Monitor).GetConvergenceRate`, emerge/convergence/monitor.go:128-156. -/
def ConvMonitor.convergenceRate (m : ConvMonitor α) : α :=
  if m.history.length < 2 then 0
  else if m.recent.length = 0 then 0
  else
    let s := m.recent.foldl (fun (s : α × Nat) x => if !(x.velocity == 0) then (s.1 + x.velocity, s.2 + 1) else s) (0, 0)
    if s.2 = 0 then 0 else s.1 / ofInt (s.2 : Int)

/-- `(*Monitor).ShouldSwitchStrategy`, emerge/convergence/monitor.go:159-183. -/
def ConvMonitor.shouldSwitch (m : ConvMonitor α) : Bool :=
  if m.history.length < 3 then false
  else if m.recent.length < 3 then false
  else
    let stuck := m.recent.countP fun x => decide (-0.001 ≤ x.velocity)
    decide ((ofInt (m.recent.length : Int) : α) * 0.7 < ofInt (stuck : Int))

/-- `(*Monitor).Reset`, emerge/convergence/monitor.go:261-267. -/
def ConvMonitor.reset (m : ConvMonitor α) : ConvMonitor α :=
  { m with history := [], stuckCount := 0, converging := false }

end
end Verif
