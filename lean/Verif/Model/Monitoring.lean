import Verif.Model.ConvMonitor

/-!
# Model of `emerge/monitoring/monitor.go` and `emerge/monitoring/convergence.go`

`internal/emerge/metrics.go` and `internal/emerge/convergence.go` contain the same types line by line. Values are modelled here as
states on which whole methods run one after the other; how the lock behaves when methods run at the same time is in
`Verif.Model.RWLock`. The deque of the code (`gammazero/deque`) is a list, oldest first. Times are integers (nanoseconds) and are
passed in where the code calls `time.Now`.
-/

set_option autoImplicit false

namespace Verif
open GoMath

section
variable {α : Type} [Zero α] [One α] [Add α] [Sub α] [Mul α] [Div α] [Neg α] [LT α] [LE α]
  [DecidableLT α] [DecidableLE α] [BEq α] [OfScientific α] [GoMath α]

/-- `Monitor`, emerge/monitoring/monitor.go:10-13 (the same code: internal/emerge/metrics.go:10-13): the history, oldest first. -/
structure CohMonitor (α : Type) where
  history : List α

/-- `New`, emerge/monitoring/monitor.go:16-20 (the same code: internal/emerge/metrics.go:16-20). -/
def CohMonitor.new : CohMonitor α := { history := [] }

/-- `(*Monitor).RecordSample`, emerge/monitoring/monitor.go:23-31 (the same code: internal/emerge/metrics.go:23-31): `PopFront` if there are 100 samples, then `PushBack`. -/
def CohMonitor.recordSample (m : CohMonitor α) (coherence : α) : CohMonitor α :=
  let h := if m.history.length ≥ 100 then m.history.tail else m.history
  { history := h ++ [coherence] }

/-- `(*Monitor).Latest`, emerge/monitoring/monitor.go:46-54 (the same code: internal/emerge/metrics.go:46-54). -/
def CohMonitor.latest (m : CohMonitor α) : α :=
  match m.history.getLast? with
  | none => 0
  | some x => x

/-- `(*Monitor).Average`, emerge/monitoring/monitor.go:57-70 (the same code: internal/emerge/metrics.go:57-70). -/
def CohMonitor.average (m : CohMonitor α) : α :=
  if m.history.length = 0 then 0
  else m.history.foldl (· + ·) 0 / ofInt (m.history.length : Int)

/-- `ConvergenceMonitor`, emerge/monitoring/convergence.go:13-26 (the same code: internal/emerge/convergence.go:13-26), without the target state, which no method reads, and the lock. -/
structure Tracker (α : Type) where
  history : List α
  timestamps : List Int
  convergenceAt : α
  startTime : Int
  convergedTime : Option Int
  maxCoherence : α
  minCoherence : α

/-- `NewConvergence`, emerge/monitoring/convergence.go:29-39 (the same code: internal/emerge/convergence.go:29-39). -/
def Tracker.new (threshold : α) (now : Int) : Tracker α :=
  { history := [], timestamps := [], convergenceAt := threshold, startTime := now, convergedTime := none, maxCoherence := 0
    minCoherence := 1 }

/-- `(*ConvergenceMonitor).Record`, emerge/monitoring/convergence.go:42-65 (the same code: internal/emerge/convergence.go:42-65). -/
def Tracker.record (m : Tracker α) (coherence : α) (now : Int) : Tracker α :=
  { m with
    history := m.history ++ [coherence]
    timestamps := m.timestamps ++ [now]
    maxCoherence := if coherence > m.maxCoherence then coherence else m.maxCoherence
    minCoherence := if coherence < m.minCoherence then coherence else m.minCoherence
    convergedTime :=
      if coherence ≥ m.convergenceAt ∧ m.convergedTime.isNone = true then some now
      else if coherence < m.convergenceAt ∧ m.convergedTime.isSome = true then none
      else m.convergedTime }

/-- `(*ConvergenceMonitor).IsConverged`, emerge/monitoring/convergence.go:68-72 (the same code: internal/emerge/convergence.go:68-72). -/
def Tracker.isConverged (m : Tracker α) : Bool := m.convergedTime.isSome

/-- `(*ConvergenceMonitor).ConvergenceTime`, emerge/monitoring/convergence.go:76-84 (the same code: internal/emerge/convergence.go:76-84). -/
def Tracker.convergenceTime (m : Tracker α) : Int :=
  match m.convergedTime with
  | none => 0
  | some t => t - m.startTime

/-- `(*ConvergenceMonitor).CurrentCoherence`, emerge/monitoring/convergence.go:87-95 (the same code: internal/emerge/convergence.go:87-95). -/
def Tracker.currentCoherence (m : Tracker α) : α :=
  match m.history.getLast? with
  | none => 0
  | some x => x

/-- The last `n` elements of a slice, as in `history[startIdx:]` with `samples = min(n, len)`,
emerge/monitoring/convergence.go:107-115 (the same code: internal/emerge/convergence.go:107-115) and 143-149. -/
def lastN (n : Nat) (h : List α) : List α := h.drop (h.length - (if h.length < n then h.length else n))

/-- `(*ConvergenceMonitor).ConvergenceRate`, emerge/monitoring/convergence.go:99-131 (the same code: internal/emerge/convergence.go:99-131). The loop computes the same four sums as
`calculateTrend`; here nothing guards the division. -/
def Tracker.convergenceRate (m : Tracker α) : α :=
  if m.history.length < 2 then 0
  else
    let ys := lastN 10 m.history
    let n : α := ofInt (ys.length : Int)
    let s := trendSums ys
    (n * s.2.2.1 - s.1 * s.2.1) / (n * s.2.2.2 - s.1 * s.1)

/-- Mean of a slice, emerge/monitoring/convergence.go:151-156 (the same code: internal/emerge/convergence.go:151-156). -/
def sliceMean (ys : List α) : α := ys.foldl (· + ·) 0 / ofInt (ys.length : Int)

/-- Variance of a slice, emerge/monitoring/convergence.go:158-164 (the same code: internal/emerge/convergence.go:158-164). -/
def sliceVariance (ys : List α) : α :=
  let mean := sliceMean ys
  ys.foldl (fun v y => let diff := y - mean; v + diff * diff) 0 / ofInt (ys.length : Int)

/-- `(*ConvergenceMonitor).Stability`, emerge/monitoring/convergence.go:135-170 (the same code: internal/emerge/convergence.go:135-170). -/
def Tracker.stability (m : Tracker α) : α :=
  if m.history.length < 2 then 1.0
  else GoMath.exp (-GoMath.sqrt (sliceVariance (lastN 20 m.history)) * 10.0)

/-- `(*ConvergenceMonitor).PredictConvergenceTime`, emerge/monitoring/convergence.go:174-202 (the same code: internal/emerge/convergence.go:174-202); `100 * time.Millisecond` is
100000000 nanoseconds. -/
def Tracker.predictConvergenceTime (m : Tracker α) : Int :=
  if m.convergedTime.isSome = true then 0
  else
    let rate := m.convergenceRate
    if rate ≤ 0 then 0
    else
      let remaining := m.convergenceAt - m.currentCoherence
      if remaining ≤ 0 then 0
      else toInt (remaining / rate * ofInt 100000000)

/-- `(*ConvergenceMonitor).Statistics`, emerge/monitoring/convergence.go:215-260 (the same code: internal/emerge/convergence.go:215-260): the entries of the map; an absent key is
`none`. The conversion of durations to seconds is left out. -/
structure Stats (α : Type) where
  samples : Int
  currentCoherence : α
  max : α
  min : α
  converged : Bool
  targetCoherence : α
  convergenceTime : Option Int
  mean : Option α
  stdDev : Option α
  convergenceRate : α
  stability : α
  predicted : Option Int

/-- `(*ConvergenceMonitor).Statistics`, emerge/monitoring/convergence.go:215-260 (the same code: internal/emerge/convergence.go:215-260). -/
def Tracker.statistics (m : Tracker α) : Stats α :=
  { samples := m.history.length, currentCoherence := m.currentCoherence, max := m.maxCoherence, min := m.minCoherence
    converged := m.convergedTime.isSome, targetCoherence := m.convergenceAt
    convergenceTime := m.convergedTime.map (· - m.startTime)
    mean := if m.history.length > 0 then some (sliceMean m.history) else none
    stdDev := if m.history.length > 0 then some (GoMath.sqrt (sliceVariance m.history)) else none
    convergenceRate := m.convergenceRate, stability := m.stability
    predicted := if m.predictConvergenceTime > 0 then some m.predictConvergenceTime else none }

/-- `(*ConvergenceMonitor).Reset`, emerge/monitoring/convergence.go:263-273 (the same code: internal/emerge/convergence.go:263-273). -/
def Tracker.reset (m : Tracker α) (now : Int) : Tracker α :=
  { m with history := [], timestamps := [], startTime := now, convergedTime := none, maxCoherence := 0, minCoherence := 1 }

/-- The calls that change a monitor, with the time at which they happen. -/
inductive TrackerOp (α : Type) where
  | record (coherence : α) (now : Int)
  | reset (now : Int)

/-- Effect of a call. -/
def Tracker.apply (m : Tracker α) : TrackerOp α → Tracker α
  | .record x now => m.record x now
  | .reset now => m.reset now

end
end Verif
